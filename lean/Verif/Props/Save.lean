import Mathlib.Data.List.Permutation
import Verif.Spec.Save
import Verif.Lemmas.Refresh
import Verif.Props.Networks
import Verif.Props.OpenDescriptor
import Verif.Props.Update
import Verif.Props.PackageRefresh
/-
C113: what saving changes in the descriptor.
-/
namespace Cot

/-! ### The hardware section -/

theorem setOrMake_tag {e e' : Elem} {t : Str} {x : Option Str} {a : List (Str × Str)} {o : List Str}
    (h : setOrMakeChild e t x a o = .ok e') : e'.tag = e.tag := by
  unfold setOrMakeChild at h
  split at h
  · cases h
  · cases h; unfold addChild; split <;> exact setChildren_tag _ _
  · cases h; exact setChildren_tag _ _

theorem emitProp_tag {env : Env} {ns : Str} {e e' : Elem} {n x : Str} (h : emitProp env ns e n x = .ok e') : e'.tag = e.tag := by
  unfold emitProp at h
  dsimp only at h
  split at h
  · cases h; cases e; rfl
  · split at h
    · split at h
      · cases h
      · rename_i h1; cases h; rw [setChildren_tag]; exact setOrMake_tag h1
    · split at h
      · split at h
        · cases h
        · cases h; exact setChildren_tag _ _
      · exact setOrMake_tag h

theorem emitAll_tag {env : Env} {it : Item} {P : PSet} : ∀ {ns : List Str} {e e' : Elem}, emitAll env it P ns e = .ok e' → e'.tag = e.tag
  | [], e, e', h => by cases h; rfl
  | n :: r, e, e', h => by
    rw [emitAll] at h
    split at h
    · cases h
    · exact emitAll_tag h
    · split at h
      · exact emitAll_tag h
      · split at h
        · cases h
        · rename_i h1; rw [emitAll_tag h, emitProp_tag h1]

theorem mapE_all {α β : Type} {f : α → Except Err β} {P : β → Prop} (hf : ∀ a b, f a = .ok b → P b) :
    ∀ {l : List α} {ys : List β}, mapE f l = .ok ys → ∀ y ∈ ys, P y
  | [], ys, h => by cases h; simp
  | a :: r, ys, h => by
    rw [mapE] at h
    split at h
    · cases h
    · rename_i y hy
      split at h
      · cases h
      · rename_i zs hz
        cases h
        intro x hx
        rcases List.mem_cons.1 hx with rfl | hx
        · exact hf _ _ hy
        · exact mapE_all hf hz x hx

/-- what is generated are Items -/
theorem generated_items {env : Env} {o : Orders} {it : Item} {els : List Elem} (h : it.generateItems env o = .ok els) :
    ∀ e ∈ els, isItemTag env.ver e.tag = true := by
  unfold Item.generateItems at h
  split at h
  · cases h
  · rename_i tag ht
    have hi : isItemTag env.ver tag = true := by
      unfold itemTagForNamespace at ht
      unfold isItemTag
      split at ht
      · cases ht; simp
      · split at ht
        · cases ht; simp
        · split at ht
          · cases ht; simp
          · cases ht
    refine mapE_all (fun s e he => ?_) h
    unfold Item.genItem at he
    rw [emitAll_tag he]
    split <;> exact hi

theorem insertChild_rest {o : List Str} {k : Nat} {c : Elem} {P : Elem → Bool} (hc : P c = false) :
    ∀ l : List Elem, (insertChild o k c l).filter P = l.filter P
  | [] => by simp [insertChild, hc]
  | e :: t => by
    rw [insertChild]
    split
    · split
      · simp [hc]
      · rw [List.filter_cons, List.filter_cons, insertChild_rest hc t]
    · simp [hc]

theorem addChild_rest {v : Ver} {s e : Elem} {o : List Str} (he : isItemTag v e.tag = true) : SameButItems v s (addChild s e o) := by
  unfold addChild
  split
  · refine ⟨setChildren_tag _ _, setChildren_attrib _ _, by cases s; rfl, by cases s; rfl, ?_⟩
    rw [setChildren_children, List.filter_append]
    simp [he]
  · refine ⟨setChildren_tag _ _, setChildren_attrib _ _, by cases s; rfl, by cases s; rfl, ?_⟩
    rw [setChildren_children, insertChild_rest (by simp [he])]

theorem SameButItems.refl (v : Ver) (s : Elem) : SameButItems v s s := ⟨rfl, rfl, rfl, rfl, rfl⟩

theorem SameButItems.trans {v : Ver} {a b c : Elem} (h : SameButItems v a b) (h' : SameButItems v b c) : SameButItems v a c :=
  ⟨h'.1.trans h.1, h'.2.1.trans h.2.1, h'.2.2.1.trans h.2.2.1, h'.2.2.2.1.trans h.2.2.2.1, h'.2.2.2.2.trans h.2.2.2.2⟩

theorem addAll_rest {v : Ver} {o : List Str} : ∀ {els : List Elem} {s : Elem}, (∀ e ∈ els, isItemTag v e.tag = true) →
    SameButItems v s (els.foldl (fun s e => addChild s e o) s)
  | [], s, _ => SameButItems.refl v s
  | e :: r, s, h => by
    rw [List.foldl_cons]
    exact (addChild_rest (h e (by simp))).trans (addAll_rest (fun x hx => h x (by simp [hx])))

theorem emitHw_rest {env : Env} {o : Orders} {hw : Hw} : ∀ {ids : List Str} {s s' : Elem}, emitHw env o hw ids s = .ok s' →
    SameButItems env.ver s s'
  | [], s, s', h => by cases h; exact SameButItems.refl _ s
  | id :: r, s, s', h => by
    rw [emitHw] at h
    split at h
    · cases h
    · split at h
      · cases h
      · rename_i els he
        exact (addAll_rest (generated_items he)).trans (emitHw_rest h)

theorem updateXml_rest {env : Env} {o : Orders} {hw : Hw} {s s' : Elem} (h : updateXml env o hw s = .ok s') :
    SameButItems env.ver s s' := by
  unfold updateXml at h
  split at h
  · cases h; exact SameButItems.refl _ s
  · refine SameButItems.trans ?_ (emitHw_rest h)
    refine ⟨setChildren_tag _ _, setChildren_attrib _ _, by cases s; rfl, by cases s; rfl, ?_⟩
    rw [setChildren_children, List.filter_filter]
    simp

/-- hardware that was loaded and not edited, with one Item for each device, is left alone -/
theorem updateXml_unedited {env : Env} {o : Orders} {s : Elem} {hw : Hw} (h : loadHardware env s = .ok hw)
    (h1 : OneItemEach env.ver s) : updateXml env o hw s = .ok s := by
  obtain ⟨hnd, hl, hk, hit⟩ := load_entries h
  have hm : hwModified env.ver hw s = false := by
    unfold hwModified
    rw [Bool.or_eq_false_iff]
    constructor
    · rw [decide_eq_false_iff_not, not_not]
      have hids : ((s.children.filter (fun e => isItemTag env.ver e.tag)).map (itemId env.ver)).Perm ((dkeys hw).map some) := by
        rw [List.perm_ext_iff_of_nodup h1 (hnd.map (Option.some_injective _))]
        intro x
        simp only [List.mem_map, List.mem_filter]
        constructor
        · rintro ⟨e, ⟨he, ht⟩, rfl⟩
          rcases hl e he with hn | ⟨id, hid, -⟩
          · exfalso
            unfold isItemTag at ht
            unfold namespaceForItemTag at hn
            simp only [Bool.or_eq_true, beq_iff_eq] at ht
            by_cases h1 : e.tag = itemTag env.ver
            · rw [if_pos h1] at hn; cases hn
            · by_cases h2 : e.tag = storageItemTag env.ver
              · rw [if_neg h1, if_pos h2] at hn; cases hn
              · rw [if_neg h1, if_neg h2, if_pos (by tauto)] at hn; cases hn
          · exact ⟨id, (hk id).2 ⟨e, he, hid⟩, hid.symm⟩
        · rintro ⟨id, hid, rfl⟩
          obtain ⟨e, he, hi⟩ := (hk id).1 hid
          refine ⟨e, ⟨he, ?_⟩, hi⟩
          cases h' : isItemTag env.ver e.tag with
          | true => rfl
          | false => rw [itemId_of_ns (notItem_ns h')] at hi; cases hi
      have := hids.length_eq
      simpa [dkeys] using this.symm
    · rw [List.any_eq_false]
      rintro ⟨id, it⟩ hx
      obtain ⟨it0, -, rfl⟩ := hit id it hx
      simp
  unfold updateXml
  rw [if_pos hm]

/-! ### Entries and networks -/

theorem set_same {e : Elem} {k x : Str} (h : e.get k = some x) : e.set k x = e := by
  obtain ⟨t, a, tx, tl, cs⟩ := e
  have h' : dget? a k = some x := h
  show Elem.mk t (dset a k x) tx tl cs = _
  congr 1
  induction a with
  | nil => cases h'
  | cons kv r ih =>
    obtain ⟨k', x'⟩ := kv
    by_cases hk : k' = k
    · subst hk
      simp only [dget?, if_true] at h'
      cases h'
      simp [dset]
    · simp only [dget?, hk, if_false] at h'
      simp only [dset, hk, if_false]
      rw [ih h' h']

theorem modify_same {l : List Elem} {i : Nat} {f : Elem → Elem} (h : ∀ e, l[i]? = some e → f e = e) : l.modify i f = l := by
  apply List.ext_getElem?
  intro j
  rw [List.getElem?_modify]
  by_cases hj : i = j
  · subst hj
    cases hl : l[i]? with
    | none => rfl
    | some e => simp [h e hl]
  · simp [hj]

/-- an accurate entry is left alone -/
theorem refreshOne_same {c : Ctx} {capOf : Str → Except Err Nat} {h : Str} {r : FRef} {p p1 : Pkg}
    (hr : refreshOne c capOf h r p = .ok p1)
    (hsize : ∀ e ∈ p.refs.children, ∀ n, FileWith c.env.ver (fileHref c.env.ver) h e → (r.readSize c.fs).1 = .ok n →
      e.get (fileSize c.env.ver) = some (natStr n))
    (hcap : ∀ e ∈ p.refs.children, ∀ d ∈ p.diskList, ∀ fid cap, FileWith c.env.ver (fileHref c.env.ver) h e →
      e.get (fileId c.env.ver) = some fid → DiskWith c.env.ver (diskFileRef c.env.ver) fid d → r.inTar = false →
      capOf (pathJoin r.container r.filename) = .ok cap → capacityOf c.env.ver d = .ok (cap : Int)) : p1 = p := by
  unfold refreshOne at hr
  obtain ⟨i, hi, hr⟩ := bind_ok_inv hr
  cases i with
  | none => cases hr
  | some i =>
    dsimp only at hr
    obtain ⟨n, hn, hr⟩ := bind_ok_inv hr
    obtain ⟨⟨e, he, hf⟩, -⟩ := findPos_some.1 hi
    have hmem := List.mem_of_getElem? he
    have hcs : p.refs.children.modify i (fun e => e.set (fileSize c.env.ver) (natStr n)) = p.refs.children := by
      refine modify_same (fun e' he' => ?_)
      rw [he] at he'; cases he'
      exact set_same (hsize e hmem n hf hn)
    rw [hcs] at hr
    have hp : ({ p with refs := p.refs.setChildren p.refs.children } : Pkg) = p := by
      obtain ⟨⟨t, a, x, y, cs⟩, d, w, fs⟩ := p; rfl
    rw [hp] at hr
    obtain ⟨d, hd, hr⟩ := bind_ok_inv hr
    split at hr
    · rename_i j ds hds
      split at hr
      · cases hr; rfl
      · rename_i htar
        split at hr
        · cases hr; rfl
        · rename_i de hde
          obtain ⟨real, h1, hr⟩ := bind_ok_inv hr
          obtain ⟨rep, h2, hr⟩ := bind_ok_inv hr
          unfold findDiskFromFileId at hd
          rw [hds] at hd
          cases hfid : attrOf p.refs.children i (fileId c.env.ver) with
          | none => rw [hfid] at hd; cases hd
          | some fid =>
            rw [hfid] at hd
            obtain ⟨⟨d', hd1, hd2⟩, -⟩ := findPos_some.1 hd
            rw [hde] at hd1; cases hd1
            have hfid' : e.get (fileId c.env.ver) = some fid := by
              unfold attrOf at hfid
              rw [he] at hfid
              simpa using hfid
            have := hcap e hmem de (by rw [diskList_of hds]; exact List.mem_of_getElem? hde) fid real hf hfid' hd2
              (by simpa using htar) h1
            rw [this] at h2; cases h2
            rw [if_pos rfl] at hr
            cases hr; rfl
    · cases hr; rfl

theorem refreshEach_same {c : Ctx} {capOf : Str → Except Err Nat} : ∀ {files : List (Str × FRef)} {p p1 : Pkg},
    refreshEach c capOf files p = .ok p1 →
    (∀ h r, (h, r) ∈ files → ∀ p1, refreshOne c capOf h r p = .ok p1 → p1 = p) → p1 = p
  | [], p, p1, h, _ => by cases h; rfl
  | (n, r) :: t, p, p1, h, hall => by
    rw [refreshEach] at h
    split at h
    · cases h
    · rename_i p' hp'
      have := hall n r (by simp) p' hp'
      subst this
      exact refreshEach_same h (fun h r hm => hall h r (by simp [hm]))

/-- an accurate package is left alone -/
theorem refreshFiles_same {c : Ctx} {capOf : Str → Except Err Nat} {p p' : Pkg} (hnd : (dkeys p.files).Nodup)
    (ha : Accurate c capOf p.refs p.diskList p.files) (h : refreshFiles c capOf p = .ok p') : p'.refs = p.refs ∧ p'.disks = p.disks := by
  unfold refreshFiles at h
  obtain ⟨files, hf, h⟩ := bind_ok_inv h
  obtain ⟨f1, f2, f3, f4⟩ := refreshRefs_inv hnd hf
  have hcs : dropMissing c.env.ver files p.refs.children = p.refs.children := by
    rw [dropMissing_eq f2, List.filter_eq_self]
    intro e he
    simpa using ha.present e he
  rw [hcs] at h
  have hsame : p.refs.setChildren p.refs.children = p.refs := by cases p.refs; rfl
  rw [hsame] at h
  have := refreshEach_same h (by
    intro n r hm p1 hp1
    have hget := dget?_of_mem f1 hm
    obtain ⟨r0, b, q1, q2, q3, q4, q5, q6⟩ := f4 n r hget
    refine refreshOne_same hp1 ?_ ?_
    · intro e he k hfw hk
      rw [q3] at hk; cases hk
      exact ha.size e he n r0 b hfw q1 q2
    · intro e he d hd fid cap hfw hid hdw ht hc
      rw [q4] at ht
      rw [q5, q6 ht] at hc
      exact ha.capacity e he d hd n fid r0 cap hfw hid hdw q1 ht hc)
  rw [this]
  exact ⟨rfl, rfl⟩

theorem updateFirst_same {p s : Elem} {t : Str} {a : List (Str × Str)} {r : Bool} (h : findChild p t a r = .ok (some s)) :
    updateFirst p t a (fun _ => s) = p := by
  have h' := findChild_some.1 h
  unfold updateFirst
  have key : ∀ l : List Elem, l.filter (fun c => c.tag == t && attribMatch c a) = [s] →
      mapFirst (fun e => e.tag == t && attribMatch e a) (fun _ => s) l = l := by
    intro l
    induction l with
    | nil => intro h; cases h
    | cons e r ih =>
      intro h
      rw [mapFirst]
      by_cases he : (e.tag == t && attribMatch e a) = true
      · rw [List.filter_cons, if_pos he] at h
        rw [if_pos he, (List.cons.inj h).1]
      · rw [List.filter_cons, if_neg he] at h
        rw [if_neg he, ih h]
  rw [key p.children h']
  cases p; rfl

theorem refreshNetworks_same {v : Ver} {env hws : Elem} {s : Option Elem}
    (hs : findChild env (netSecTag v) (netSecAttrib v) false = .ok s) (h1 : OneConnection v hws)
    (hu : ∀ n, s = some n → AllUsed v hws n) : refreshNetworks v env hws = .ok env := by
  unfold refreshNetworks
  rw [hs]
  cases s with
  | none => rfl
  | some s =>
    obtain ⟨hne, hall⟩ := hu s rfl
    have hcs : s.children.filter (fun n => !(n.tag == networkTag v) || decide (n.get (networkName v) ∈ connectedNetworks v hws)) = s.children := by
      rw [List.filter_eq_self]
      intro n hn
      by_cases ht : n.tag = networkTag v
      · have : n ∈ kids s (ovfTag v "Network".toList) := by
          unfold kids
          exact List.mem_filter.2 ⟨hn, decide_eq_true ht⟩
        simp [(mem_connected h1).2 (hall n this)]
      · simp [ht]
    have hsame : s.setChildren s.children = s := by cases s; rfl
    simp only [hcs, hsame]
    rw [if_neg (by rw [findAll_nil]; exact hne)]
    rw [updateFirst_same hs]

/-- **C113 (unedited).** A descriptor that was opened and not edited, whose File and Disk entries are accurate, whose
networks are all used and which has one Item for each device, is written as it was (up to indentation, C29): saving changes
nothing in the tree. -/
theorem C113_unedited_partial {c : Ctx} {o : Orders} {capOf : Str → Except Err Nat} {root root' : Elem} {parts : Parts} {hw : Hw}
    {files files' : List (Str × FRef)} (hopen : openDescriptor root = .ok parts) (hv : c.env.ver = parts.version)
    (hload : loadHardware c.env parts.hardware = .ok hw) (hone : OneItemEach parts.version parts.hardware)
    (hnd : (dkeys files).Nodup) (hacc : Accurate c capOf parts.references ((parts.disks.map Elem.children).getD []) files)
    (hconn : OneConnection parts.version parts.hardware)
    (hnet : ∀ n, parts.networks = some n → AllUsed parts.version parts.hardware n)
    (h : saveTree c o capOf root parts hw files = .ok (root', files')) : root' = root := by
  obtain ⟨v, refs, disks, nets, depl, sys, prod, ann, hws⟩ := parts
  dsimp only at *
  unfold saveTree at h
  dsimp only at h
  obtain ⟨s', hs', h⟩ := bind_ok_inv h
  rw [updateXml_unedited hload (hv ▸ hone)] at hs'
  cases hs'
  obtain ⟨p, hp, h⟩ := bind_ok_inv h
  obtain ⟨r', hr', h⟩ := bind_ok_inv h
  cases h
  have hdl : (⟨refs, disks, hw, files⟩ : Pkg).diskList = (disks.map Elem.children).getD [] := by
    cases disks <;> rfl
  obtain ⟨e1, e2⟩ := refreshFiles_same (p := ⟨refs, disks, hw, files⟩) hnd (by rw [hdl]; exact hacc) hp
  rw [e1, e2] at hr'
  dsimp only at hr'
  unfold openDescriptor at hopen
  split at hopen
  swap
  · cases hopen
  obtain ⟨v', hv', hopen⟩ := bind_ok_inv hopen
  obtain ⟨a1, h1, hopen⟩ := bind_ok_inv hopen
  obtain ⟨a2, h2, hopen⟩ := bind_ok_inv hopen
  obtain ⟨a3, h3, hopen⟩ := bind_ok_inv hopen
  obtain ⟨a4, h4, hopen⟩ := bind_ok_inv hopen
  obtain ⟨a5, h5, hopen⟩ := bind_ok_inv hopen
  obtain ⟨a6, h6, hopen⟩ := bind_ok_inv hopen
  obtain ⟨a7, h7, hopen⟩ := bind_ok_inv hopen
  obtain ⟨a8, h8, hopen⟩ := bind_ok_inv hopen
  cases hopen
  have hreq : ∀ {p s : Elem} {t : Str} {a : List (Str × Str)}, requireChild p t a = .ok s → findChild p t a true = .ok (some s) := by
    intro p s t a hq
    unfold requireChild at hq
    split at hq
    · rename_i hq'; cases hq; exact hq'
    · cases hq
    · cases hq
  have hhw : putHardware v root sys hws = root := by
    unfold putHardware
    rw [updateFirst_same (hreq h8), updateFirst_same (hreq h5)]
  have hrefs : putReferences v root refs = root := updateFirst_same (hreq h1)
  have hdisks : putDisks v root disks = root := by
    cases disks with
    | none => rfl
    | some d => exact updateFirst_same h2
  rw [hhw, hrefs, hdisks, refreshNetworks_same h3 hconn hnet] at hr'
  cases hr'
  rfl

/-! ### What saving never changes -/

theorem filter_set_same {P : Elem → Bool} {x y : Elem} : ∀ {l : List Elem} {i : Nat}, l[i]? = some x → P x = false → P y = false →
    (l.set i y).filter P = l.filter P
  | [], i, h, _, _ => by simp at h
  | e :: r, 0, h, hx, hy => by
    simp only [List.getElem?_cons_zero, Option.some.injEq] at h
    subst h
    simp [hx, hy]
  | e :: r, i + 1, h, hx, hy => by
    simp only [List.getElem?_cons_succ] at h
    rw [List.set_cons_succ, List.filter_cons, List.filter_cons, filter_set_same h hx hy]

theorem setCapacity_tag {v : Ver} {py : PyVer} {d d' : Elem} {n : Nat} (h : setCapacity v py d n = .ok d') : d'.tag = d.tag := by
  have hset : ∀ (e : Elem) k x, (e.set k x).tag = e.tag := fun e k x => by cases e; rfl
  unfold setCapacity at h
  split at h
  · cases h; exact hset _ _ _
  · split at h
    · cases h
    · cases h
    · cases h; rw [hset, hset]

/-- the Disk section is there as before, and apart from the Disks it is the same -/
def SameDisks (v : Ver) : Option Elem → Option Elem → Prop
  | none, none => True
  | some d, some d' => SameButKids (diskTag v) d d'
  | _, _ => False

theorem SameDisks.refl (v : Ver) (d : Option Elem) : SameDisks v d d := by
  cases d with
  | none => trivial
  | some d => exact sameButKids_refl _ d

theorem SameDisks.trans {v : Ver} {a b c : Option Elem} (h : SameDisks v a b) (h' : SameDisks v b c) : SameDisks v a c := by
  cases a <;> cases b <;> cases c <;> first | trivial | exact h.elim | exact h'.elim | exact SameButKids.trans h h'

theorem refreshOne_frame {c : Ctx} {capOf : Str → Except Err Nat} {h : Str} {r : FRef} {p p1 : Pkg}
    (hr : refreshOne c capOf h r p = .ok p1) : SameButKids (fileTag c.env.ver) p.refs p1.refs ∧ SameDisks c.env.ver p.disks p1.disks := by
  obtain ⟨i, e, n, he, hf, -, -, h1, -, -, h2⟩ := refreshOne_inv hr
  constructor
  · rw [h1]
    refine ⟨setChildren_tag _ _, setChildren_attrib _ _, by cases p.refs; rfl, by cases p.refs; rfl, ?_⟩
    rw [setChildren_children]
    refine filter_set_same he (by simpa using hf.1) ?_
    have : (e.set (fileSize c.env.ver) (natStr n)).tag = e.tag := by cases e; rfl
    simpa [this] using hf.1
  · rcases h2 with ⟨hd, -⟩ | ⟨fid, j, d, d', cap, ds, hds, -, hd, hw, -, -, hcap, hp1, -⟩
    · rw [hd]; exact SameDisks.refl _ _
    · rw [hp1, hds]
      refine ⟨setChildren_tag _ _, setChildren_attrib _ _, by cases ds; rfl, by cases ds; rfl, ?_⟩
      rw [setChildren_children]
      refine filter_set_same hd (by simpa using hw.1) ?_
      simpa [setCapacity_tag hcap] using hw.1

theorem refreshEach_frame {c : Ctx} {capOf : Str → Except Err Nat} : ∀ {files : List (Str × FRef)} {p p1 : Pkg},
    refreshEach c capOf files p = .ok p1 → SameButKids (fileTag c.env.ver) p.refs p1.refs ∧ SameDisks c.env.ver p.disks p1.disks
  | [], p, p1, h => by cases h; exact ⟨sameButKids_refl _ _, SameDisks.refl _ _⟩
  | (n, r) :: t, p, p1, h => by
    rw [refreshEach] at h
    split at h
    · cases h
    · rename_i p' hp'
      obtain ⟨a1, a2⟩ := refreshOne_frame hp'
      obtain ⟨b1, b2⟩ := refreshEach_frame h
      exact ⟨a1.trans b1, a2.trans b2⟩

theorem refreshFiles_frame {c : Ctx} {capOf : Str → Except Err Nat} {p p' : Pkg} (h : refreshFiles c capOf p = .ok p') :
    SameButKids (fileTag c.env.ver) p.refs p'.refs ∧ SameDisks c.env.ver p.disks p'.disks := by
  unfold refreshFiles at h
  obtain ⟨files, -, h⟩ := bind_ok_inv h
  obtain ⟨h1, h2⟩ := refreshEach_frame h
  refine ⟨SameButKids.trans ?_ h1, h2⟩
  refine ⟨setChildren_tag _ _, setChildren_attrib _ _, by cases p.refs; rfl, by cases p.refs; rfl, ?_⟩
  dsimp only
  rw [setChildren_children]
  unfold dropMissing
  rw [List.filter_filter]
  apply List.filter_congr
  intro e _
  by_cases ht : e.tag = fileTag c.env.ver <;> simp [ht]

theorem refreshNetworks_frame {v : Ver} (hv : v ≠ .v0) {env env' hws : Elem} (h : refreshNetworks v env hws = .ok env') :
    SameButKids (ovfTag v "NetworkSection".toList) env env' ∧
    (kids env' (ovfTag v "NetworkSection".toList) = [] ∨ ∃ s s', kids env (ovfTag v "NetworkSection".toList) = [s] ∧
      kids env' (ovfTag v "NetworkSection".toList) = [s'] ∧ SameButKids (ovfTag v "Network".toList) s s' ∧
      (kids s' (ovfTag v "Network".toList)).Sublist (kids s (ovfTag v "Network".toList))) := by
  unfold refreshNetworks netSecTag netSecAttrib at h
  rw [section_tag hv, section_attrib hv] at h
  cases hf : findChild env (ovfTag v "NetworkSection".toList) [] false with
  | error e => rw [hf] at h; cases h
  | ok s =>
    rw [hf] at h
    cases s with
    | none =>
      cases h
      have := findChild_none.1 hf
      rw [findAll_nil] at this
      exact ⟨sameButKids_refl _ _, Or.inl this⟩
    | some s =>
      dsimp only at h
      have hs := findChild_some.1 hf
      rw [findAll_nil] at hs
      have hst : s.tag = ovfTag v "NetworkSection".toList := kids_tag (by rw [hs]; simp)
      generalize hcs : s.children.filter (fun n => !(n.tag == networkTag v) || decide (n.get (networkName v) ∈ connectedNetworks v hws)) = cs at h
      have hsame : SameButKids (ovfTag v "Network".toList) s (s.setChildren cs) := by
        refine ⟨setChildren_tag _ _, setChildren_attrib _ _, by cases s; rfl, by cases s; rfl, ?_⟩
        rw [setChildren_children, ← hcs, List.filter_filter]
        apply List.filter_congr
        intro n _
        by_cases ht : n.tag = networkTag v
        · have : n.tag = ovfTag v "Network".toList := ht
          simp [this]
        · have : ¬ n.tag = ovfTag v "Network".toList := ht
          simp [ht]
      split at h
      · cases h
        rw [dropKids_attr]
        have u := dropKids_spec env (ovfTag v "NetworkSection".toList)
        exact ⟨u.2, Or.inl u.1⟩
      · cases h
        have u := updateFirst_spec hs (s' := s.setChildren cs) (hsame.1.trans hst)
        refine ⟨u.2, Or.inr ⟨s, _, hs, u.1, hsame, ?_⟩⟩
        unfold kids
        rw [setChildren_children, ← hcs]
        exact List.filter_sublist.filter _

/-- the names of the four parts differ -/
theorem savedParts_nodup (v : Ver) : (savedParts v).Nodup := by cases v <;> decide +kernel

theorem sameRest_of {v : Ver} {t : Str} (ht : t ∈ savedParts v) {a b : Elem} (h : SameButKids t a b) : SameRest v a b := by
  obtain ⟨h1, h2, h3, h4, h5⟩ := h
  refine ⟨h1, h2, h3, h4, ?_⟩
  have hsub : ∀ l : List Elem, l.filter (fun e => decide (e.tag ∉ savedParts v)) =
      (l.filter (fun c => decide (c.tag ≠ t))).filter (fun e => decide (e.tag ∉ savedParts v)) := by
    intro l
    rw [List.filter_filter]
    apply List.filter_congr
    intro e _
    by_cases hm : e.tag ∈ savedParts v
    · simp [hm]
    · have : e.tag ≠ t := fun hc => hm (hc ▸ ht)
      simp [hm, this]
  rw [hsub, h5, ← hsub]

theorem SameRest.trans {v : Ver} {a b c : Elem} (h : SameRest v a b) (h' : SameRest v b c) : SameRest v a c :=
  ⟨h'.1.trans h.1, h'.2.1.trans h.2.1, h'.2.2.1.trans h.2.2.1, h'.2.2.2.1.trans h.2.2.2.1, h'.2.2.2.2.trans h.2.2.2.2⟩

/-- what saving keeps, and where the new sections go -/
theorem save_parts {c : Ctx} {o : Orders} {capOf : Str → Except Err Nat} {root root' : Elem} {parts : Parts} {hw : Hw}
    {files files' : List (Str × FRef)} (hopen : openDescriptor root = .ok parts) (hv : c.env.ver = parts.version)
    (hv0 : parts.version ≠ .v0) (h : saveTree c o capOf root parts hw files = .ok (root', files')) :
    SameRest parts.version root root' ∧
    (∃ sys' hws', kids root' (ovfTag parts.version "VirtualSystem".toList) = [sys'] ∧
      SameButKids (ovfTag parts.version "VirtualHardwareSection".toList) parts.system sys' ∧
      kids sys' (ovfTag parts.version "VirtualHardwareSection".toList) = [hws'] ∧
      SameButItems parts.version parts.hardware hws' ∧ updateXml c.env o hw parts.hardware = .ok hws' ∧
      ∃ root3, kids root3 (ovfTag parts.version "NetworkSection".toList) = parts.networks.toList ∧
        refreshNetworks parts.version root3 hws' = .ok root') ∧
    (∃ refs', kids root' (ovfTag parts.version "References".toList) = [refs'] ∧
      SameButKids (fileTag parts.version) parts.references refs') ∧
    (∃ d', SameDisks parts.version parts.disks d' ∧ kids root' (ovfTag parts.version "DiskSection".toList) = d'.toList) ∧
    (kids root' (ovfTag parts.version "NetworkSection".toList) = [] ∨ ∃ s s', parts.networks = some s ∧
      kids root' (ovfTag parts.version "NetworkSection".toList) = [s'] ∧
      SameButKids (ovfTag parts.version "Network".toList) s s' ∧
      (kids s' (ovfTag parts.version "Network".toList)).Sublist (kids s (ovfTag parts.version "Network".toList))) ∧
    (∃ p, refreshFiles c capOf ⟨parts.references, parts.disks, hw, files⟩ = .ok p ∧
      kids root' (ovfTag parts.version "References".toList) = [p.refs] ∧
      kids root' (ovfTag parts.version "DiskSection".toList) = p.disks.toList ∧ files' = p.files) := by
  obtain ⟨v, refs, disks, nets, depl, sys, prod, ann, hws⟩ := parts
  dsimp only at *
  unfold saveTree at h
  dsimp only at h
  obtain ⟨s', hs', h⟩ := bind_ok_inv h
  obtain ⟨p, hp, h⟩ := bind_ok_inv h
  obtain ⟨r', hr', h⟩ := bind_ok_inv h
  cases h
  have hitems := updateXml_rest hs'
  rw [hv] at hitems
  obtain ⟨hrefs, hdisks⟩ := refreshFiles_frame hp
  rw [hv] at hrefs hdisks
  dsimp only at hrefs hdisks
  obtain ⟨hn1, hn2⟩ := refreshNetworks_frame hv0 hr'
  unfold openDescriptor at hopen
  split at hopen
  swap
  · cases hopen
  obtain ⟨v', hv', hopen⟩ := bind_ok_inv hopen
  obtain ⟨a1, h1, hopen⟩ := bind_ok_inv hopen
  obtain ⟨a2, h2, hopen⟩ := bind_ok_inv hopen
  obtain ⟨a3, h3, hopen⟩ := bind_ok_inv hopen
  obtain ⟨a4, h4, hopen⟩ := bind_ok_inv hopen
  obtain ⟨a5, h5, hopen⟩ := bind_ok_inv hopen
  obtain ⟨a6, h6, hopen⟩ := bind_ok_inv hopen
  obtain ⟨a7, h7, hopen⟩ := bind_ok_inv hopen
  obtain ⟨a8, h8, hopen⟩ := bind_ok_inv hopen
  cases hopen
  have hreq : ∀ {p s : Elem} {t : Str}, requireChild p t [] = .ok s → kids p t = [s] := by
    intro p s t hq
    unfold requireChild at hq
    split at hq
    · rename_i hq'; cases hq; rw [← findAll_nil]; exact findChild_some.1 hq'
    · cases hq
    · cases hq
  have hopt : ∀ {p : Elem} {s : Option Elem} {t : Str}, findChild p t [] false = .ok s → kids p t = s.toList := by
    intro p s t hq
    cases s with
    | none => rw [← findAll_nil]; exact findChild_none.1 hq
    | some s => rw [← findAll_nil]; exact findChild_some.1 hq
  have hvs : virtualSystemTag v = ovfTag v "VirtualSystem".toList := by
    cases v <;> first | rfl | exact absurd rfl hv0
  rw [section_attrib hv0, hvs] at h5
  rw [section_tag hv0, section_attrib hv0] at h2 h3 h8
  replace h1 := hreq h1
  replace h5 := hreq h5
  replace h8 := hreq h8
  replace h2 := hopt h2
  replace h3 := hopt h3
  obtain ⟨n1, n2, n3, n4, n5, n6⟩ : (ovfTag v "References".toList ≠ ovfTag v "DiskSection".toList) ∧
      (ovfTag v "References".toList ≠ ovfTag v "NetworkSection".toList) ∧
      (ovfTag v "References".toList ≠ ovfTag v "VirtualSystem".toList) ∧
      (ovfTag v "DiskSection".toList ≠ ovfTag v "NetworkSection".toList) ∧
      (ovfTag v "DiskSection".toList ≠ ovfTag v "VirtualSystem".toList) ∧
      (ovfTag v "NetworkSection".toList ≠ ovfTag v "VirtualSystem".toList) := by cases v <;> decide +kernel
  -- the four steps
  obtain ⟨u1, u2⟩ := updateFirst_spec (s' := s') h8 (hitems.1.trans (kids_tag (by rw [h8]; simp)))
  generalize hsys : updateFirst sys (ovfTag v "VirtualHardwareSection".toList) [] (fun _ => s') = sys' at u1 u2
  obtain ⟨w1, w2⟩ := updateFirst_spec (s' := sys') h5 (u2.1.trans (kids_tag (by rw [h5]; simp)))
  have hroot1 : putHardware v root sys s' = updateFirst root (ovfTag v "VirtualSystem".toList) [] (fun _ => sys') := by
    unfold putHardware
    rw [hvs, section_tag hv0, section_attrib hv0, section_attrib hv0, hsys]
  rw [← hroot1] at w1 w2
  generalize putHardware v root sys s' = root1 at w1 w2 hn1 hn2 hr'
  have h1' : kids root1 (ovfTag v "References".toList) = [refs] := (w2.kids n3).trans h1
  obtain ⟨x1, x2⟩ := updateFirst_spec (s' := p.refs) h1' (hrefs.1.trans (kids_tag (by rw [h1]; simp)))
  have hroot2 : putReferences v root1 p.refs = updateFirst root1 (ovfTag v "References".toList) [] (fun _ => p.refs) := rfl
  rw [← hroot2] at x1 x2
  generalize putReferences v root1 p.refs = root2 at x1 x2 hn1 hn2 hr'
  have h2' : kids root2 (ovfTag v "DiskSection".toList) = disks.toList := (x2.kids n1.symm).trans ((w2.kids n5).trans h2)
  obtain ⟨y1, y2⟩ : kids (putDisks v root2 p.disks) (ovfTag v "DiskSection".toList) = p.disks.toList ∧
      SameButKids (ovfTag v "DiskSection".toList) root2 (putDisks v root2 p.disks) := by
    cases disks with
    | none =>
      cases hpd : p.disks with
      | none => exact ⟨h2', sameButKids_refl _ _⟩
      | some d => rw [hpd] at hdisks; exact hdisks.elim
    | some d =>
      cases hpd : p.disks with
      | none => rw [hpd] at hdisks; exact hdisks.elim
      | some d' =>
        rw [hpd] at hdisks
        have hd : d'.tag = ovfTag v "DiskSection".toList := by
          have hd0 : d.tag = ovfTag v "DiskSection".toList := kids_tag (p := root) (by rw [h2]; simp)
          exact (show SameButKids (diskTag v) d d' from hdisks).1.trans hd0
        obtain ⟨z1, z2⟩ := updateFirst_spec (s' := d') (s := d) h2' hd
        unfold putDisks
        rw [section_tag hv0, section_attrib hv0]
        exact ⟨z1, z2⟩
  generalize putDisks v root2 p.disks = root3 at y1 y2 hn1 hn2 hr'
  refine ⟨?_, ⟨sys', s', ?_, u2, u1, hitems, hs', root3, ?_, hr'⟩, ⟨p.refs, ?_, hrefs⟩, ⟨p.disks, hdisks, ?_⟩, ?_, ⟨p, hp, ?_, ?_, rfl⟩⟩
  · refine (sameRest_of ?_ w2).trans ((sameRest_of ?_ x2).trans ((sameRest_of ?_ y2).trans (sameRest_of ?_ hn1))) <;>
      simp [savedParts]
  · rw [hn1.kids n6.symm, y2.kids n5.symm, x2.kids n3.symm, w1]
  · rw [y2.kids n4.symm, x2.kids n2.symm, w2.kids n6, h3]
  · rw [hn1.kids n2, y2.kids n1, x1]
  · rw [hn1.kids n4, y1]
  · rcases hn2 with hn | ⟨a, b, e1, e2, e3, e4⟩
    · exact Or.inl hn
    · rw [y2.kids n4.symm, x2.kids n2.symm, w2.kids n6, h3] at e1
      refine Or.inr ⟨a, b, ?_, e2, e3, e4⟩
      cases nets with
      | none => cases e1
      | some z => cases e1; rfl
  · rw [hn1.kids n2, y2.kids n1, x1]
  · rw [hn1.kids n4, y1]

/-- what saving keeps, and where the new hardware section goes -/
theorem save_frame {c : Ctx} {o : Orders} {capOf : Str → Except Err Nat} {root root' : Elem} {parts : Parts} {hw : Hw}
    {files files' : List (Str × FRef)} (hopen : openDescriptor root = .ok parts) (hv : c.env.ver = parts.version)
    (hv0 : parts.version ≠ .v0) (h : saveTree c o capOf root parts hw files = .ok (root', files')) :
    SameRest parts.version root root' ∧
    (∃ sys' hws', kids root' (ovfTag parts.version "VirtualSystem".toList) = [sys'] ∧
      SameButKids (ovfTag parts.version "VirtualHardwareSection".toList) parts.system sys' ∧
      kids sys' (ovfTag parts.version "VirtualHardwareSection".toList) = [hws'] ∧
      SameButItems parts.version parts.hardware hws' ∧ updateXml c.env o hw parts.hardware = .ok hws') ∧
    (∃ refs', kids root' (ovfTag parts.version "References".toList) = [refs'] ∧
      SameButKids (fileTag parts.version) parts.references refs') ∧
    (∃ d', SameDisks parts.version parts.disks d' ∧ kids root' (ovfTag parts.version "DiskSection".toList) = d'.toList) ∧
    (kids root' (ovfTag parts.version "NetworkSection".toList) = [] ∨ ∃ s s', parts.networks = some s ∧
      kids root' (ovfTag parts.version "NetworkSection".toList) = [s'] ∧
      SameButKids (ovfTag parts.version "Network".toList) s s' ∧
      (kids s' (ovfTag parts.version "Network".toList)).Sublist (kids s (ovfTag parts.version "Network".toList))) := by
  obtain ⟨h1, ⟨sys', hws', g1, g2, g3, g4, g5, -⟩, h3, h4, h5, -⟩ := save_parts hopen hv hv0 h
  exact ⟨h1, ⟨sys', hws', g1, g2, g3, g4, g5⟩, h3, h4, h5⟩

/-- **C113 (the rest).** Saving works on the Files, Disks, Networks and Items, and on nothing else: after any edits the other
elements of the envelope, the other elements of the virtual system, and what else there is in the four sections, are written as
they are. -/
theorem C113_rest_partial {c : Ctx} {o : Orders} {capOf : Str → Except Err Nat} {root root' : Elem} {parts : Parts} {hw : Hw}
    {files files' : List (Str × FRef)} (hopen : openDescriptor root = .ok parts) (hv : c.env.ver = parts.version)
    (hv0 : parts.version ≠ .v0) (h : saveTree c o capOf root parts hw files = .ok (root', files')) :
    SameRest parts.version root root' ∧
    (∃ sys' hws', kids root' (ovfTag parts.version "VirtualSystem".toList) = [sys'] ∧
      SameButKids (ovfTag parts.version "VirtualHardwareSection".toList) parts.system sys' ∧
      kids sys' (ovfTag parts.version "VirtualHardwareSection".toList) = [hws'] ∧
      SameButItems parts.version parts.hardware hws') ∧
    (∃ refs', kids root' (ovfTag parts.version "References".toList) = [refs'] ∧
      SameButKids (fileTag parts.version) parts.references refs') ∧
    (∃ d', SameDisks parts.version parts.disks d' ∧ kids root' (ovfTag parts.version "DiskSection".toList) = d'.toList) ∧
    (kids root' (ovfTag parts.version "NetworkSection".toList) = [] ∨ ∃ s s', parts.networks = some s ∧
      kids root' (ovfTag parts.version "NetworkSection".toList) = [s'] ∧
      SameButKids (ovfTag parts.version "Network".toList) s s' ∧
      (kids s' (ovfTag parts.version "Network".toList)).Sublist (kids s (ovfTag parts.version "Network".toList))) := by
  obtain ⟨h1, ⟨sys', hws', h2, h3, h4, h5, -⟩, h6⟩ := save_frame hopen hv hv0 h
  exact ⟨h1, ⟨sys', hws', h2, h3, h4, h5⟩, h6⟩

open Classical in
/-- **C113 (the Files and Disks).** What a save writes in place of them: the File entries whose file is still there, in the same
order, each with the size the file has now, one entry for every file that is kept; and all Disk entries, in the same order, the
same but for the capacity, where a disk whose image is a file on disk has the capacity of that image.  The files that are packed
are those that are still there. -/
theorem C113_files_partial {c : Ctx} {o : Orders} {capOf : Str → Except Err Nat} {root root' : Elem} {parts : Parts} {hw : Hw}
    {files files' : List (Str × FRef)} (hopen : openDescriptor root = .ok parts) (hv : c.env.ver = parts.version)
    (hv0 : parts.version ≠ .v0) (hcap : ∀ s n, capOf s = .ok n → 0 < n ∧ n ≤ 2 ^ 63) (hnd : (dkeys files).Nodup)
    (hids : Distinct parts.references.children (fileTag c.env.ver) (fileId c.env.ver))
    (h : saveTree c o capOf root parts hw files = .ok (root', files')) :
    (∀ n, n ∈ dkeys files' ↔ Present c.fs files n) ∧
    (∃ refs', kids root' (ovfTag parts.version "References".toList) = [refs'] ∧
      List.Forall₂ (UpToDate c.env.ver c.fs files)
        (parts.references.children.filter (fun e => decide (Retains c.env.ver c.fs files e))) refs'.children ∧
      (∀ n ∈ dkeys files', ∃ i, OnlyAt refs'.children (FileWith c.env.ver (fileHref c.env.ver) n) i) ∧
      ∀ s, parts.disks = some s → ∃ s', kids root' (ovfTag parts.version "DiskSection".toList) = [s'] ∧
        List.Forall₂ (fun d d' : Elem => d'.tag = d.tag ∧ (∀ key, key ≠ diskCapacity c.env.ver →
          key ≠ diskCapUnits c.env.ver → d'.get key = d.get key)) s.children s'.children ∧
        ∀ n r b e fid d, dget? files n = some r → r.inTar = false → Leads c.fs r b → e ∈ refs'.children →
          FileWith c.env.ver (fileHref c.env.ver) n e → FileWith c.env.ver (fileId c.env.ver) fid e → d ∈ s'.children →
          DiskWith c.env.ver (diskFileRef c.env.ver) fid d →
          ∃ cap : Nat, capOf (pathJoin r.container r.filename) = .ok cap ∧ capacityOf c.env.ver d = .ok (cap : Int)) := by
  obtain ⟨-, -, -, ⟨d', hd', hk'⟩, -, p, hp, h1, h2, rfl⟩ := save_parts hopen hv hv0 h
  have hv0' : c.env.ver ≠ .v0 := hv ▸ hv0
  obtain ⟨-, g2, -, g4, g5⟩ := C70_files_partial hv0' hcap hnd hids hp
  obtain ⟨k1, k2⟩ := C70_capacity hv0' hcap hnd hids hp
  refine ⟨g2, p.refs, h1, g4, g5, ?_⟩
  intro s hs
  cases hpd : p.disks with
  | none =>
    rw [hs] at hd'
    rw [h2, hpd] at hk'
    cases d' with
    | none => exact hd'.elim
    | some d => cases hk'
  | some s' =>
    refine ⟨s', by rw [h2, hpd]; rfl, ?_, ?_⟩
    · have e1 : ({ refs := parts.references, disks := parts.disks, hw := hw, files := files } : Pkg).diskList = s.children := by
        simp [Pkg.diskList, hs]
      have e2 : p.diskList = s'.children := by simp [Pkg.diskList, hpd]
      rw [e1, e2] at k1
      exact k1
    · have e2 : p.diskList = s'.children := by simp [Pkg.diskList, hpd]
      rw [e2] at k2
      exact k2

/-! ### Cases -/

/-- a hardware section of OVF 1.x -/
def exHwSec (items : List Elem) : Elem :=
  .mk (ovfTag .v1 "VirtualHardwareSection".toList) [] none none (.mk (ovfTag .v1 "Info".toList) [] none none [] :: items)

/-- a network adapter on the network `net` -/
def exNicElem (net : String) : Elem :=
  .mk (itemTag .v1) [] none none
    [.mk (rasd ++ "InstanceID".toList) [] (some "2".toList) none [],
     .mk (rasd ++ "ResourceType".toList) [] (some "10".toList) none [],
     .mk (rasd ++ "Connection".toList) [] (some net.toList) none []]

/-- a descriptor with one file of the size `size`, a disk on it with the capacity `cap`, these networks and these Items -/
def exWhole (size cap : String) (nets : List String) (items : List Elem) : Elem :=
  .mk (ovfTag .v1 "Envelope".toList) [] none none
    ([.mk (ovfTag .v1 "References".toList) [] none none [exFileE "vmdk".toList "d.vmdk".toList size.toList],
      .mk (ovfTag .v1 "DiskSection".toList) [] none none [exDiskE "vmdisk1".toList "vmdk".toList cap.toList]] ++
     (match nets with
      | [] => []
      | _ => [.mk (ovfTag .v1 "NetworkSection".toList) [] none none
         (nets.map (fun n => .mk (ovfTag .v1 "Network".toList) [(ovfTag .v1 "name".toList, n.toList)] none none []))]) ++
     [.mk (ovfTag .v1 "VirtualSystem".toList) [] none none [exHwSec items]])

def exWholeFiles : List (Str × FRef) := [("d.vmdk".toList, ⟨false, "/d".toList, "d.vmdk".toList, none, none, none, false⟩)]

/-- a descriptor that is accurate is saved as it is -/
example (o : Orders) : ∃ parts hw, openDescriptor (exWhole "1" "7" ["net"] [exCpuElem none "1", exNicElem "net"]) = .ok parts ∧
    loadHardware exEnv parts.hardware = .ok hw ∧
    (saveTree exCtx o exCap (exWhole "1" "7" ["net"] [exCpuElem none "1", exNicElem "net"]) parts hw exWholeFiles).map Prod.fst =
      .ok (exWhole "1" "7" ["net"] [exCpuElem none "1", exNicElem "net"]) :=
  ⟨_, _, rfl, rfl, rfl⟩

/-- it meets the hypotheses of `C113_unedited_partial` -/
example : ∃ parts hw, openDescriptor (exWhole "1" "7" ["net"] [exCpuElem none "1", exNicElem "net"]) = .ok parts ∧
    loadHardware exEnv parts.hardware = .ok hw ∧ OneItemEach .v1 parts.hardware ∧ (dkeys exWholeFiles).Nodup ∧
    Accurate exCtx exCap parts.references ((parts.disks.map Elem.children).getD []) exWholeFiles ∧
    OneConnection .v1 parts.hardware ∧ (∀ n, parts.networks = some n → AllUsed .v1 parts.hardware n) := by
  refine ⟨_, _, rfl, rfl, ?_, ?_, ?_, ?_, ?_⟩
  · show ([some "1".toList, some "2".toList] : List (Option Str)).Nodup
    decide
  · decide
  · have hl : ∀ r b, dget? exWholeFiles "d.vmdk".toList = some r → Leads exCtx.fs r b → b = [5] := by
      intro r b hr hb
      cases hr
      rcases hb with ⟨-, hb⟩ | ⟨hb, -⟩
      · exact (Option.some.inj (hb.symm.trans (show _ = some [5] from rfl)))
      · cases hb
    constructor
    · intro e he _
      obtain rfl := List.mem_singleton.1 he
      exact ⟨"d.vmdk".toList, rfl, _, [5], rfl, Or.inl ⟨rfl, rfl⟩⟩
    · intro e he h r b hf hr hb
      obtain rfl := List.mem_singleton.1 he
      obtain ⟨-, hf⟩ := hf
      cases (Option.some.inj (hf.symm.trans (show _ = some "d.vmdk".toList from rfl)))
      rw [hl r b hr hb]
      rfl
    · intro e he d hd h fid r cap _ _ _ _ _ hc
      obtain rfl := List.mem_singleton.1 hd
      cases hc
      rfl
  · intro i hi
    have hi : i ∈ [exCpuElem none "1", exNicElem "net"] := hi
    simp only [List.mem_cons, List.not_mem_nil, or_false] at hi
    rcases hi with rfl | rfl <;> decide +kernel
  · intro n hn
    cases hn
    refine ⟨?_, ?_⟩
    · show [_] ≠ []
      simp
    · intro n hn
      obtain rfl := List.mem_singleton.1 hn
      refine ⟨exNicElem "net", ?_, .mk (rasd ++ "Connection".toList) [] (some "net".toList) none [], ?_, rfl⟩
      · show _ ∈ [exCpuElem none "1", exNicElem "net"]
        simp
      · show _ ∈ [_]
        exact List.mem_singleton.2 rfl

/-- where it is not, the size and the networks are put right -/
example (o : Orders) : ∃ parts hw, openDescriptor (exWhole "5" "7" ["net", "other"] [exCpuElem none "1", exNicElem "net"]) = .ok parts ∧
    loadHardware exEnv parts.hardware = .ok hw ∧
    (saveTree exCtx o exCap (exWhole "5" "7" ["net", "other"] [exCpuElem none "1", exNicElem "net"]) parts hw exWholeFiles).map Prod.fst =
      .ok (exWhole "1" "7" ["net"] [exCpuElem none "1", exNicElem "net"]) :=
  ⟨_, _, rfl, rfl, rfl⟩

/-- it meets the hypotheses of `C113_files_partial` too -/
example : ∃ parts, openDescriptor (exWhole "5" "7" ["net", "other"] [exCpuElem none "1", exNicElem "net"]) = .ok parts ∧
    exCtx.env.ver = parts.version ∧ parts.version ≠ .v0 ∧ (∀ s n, exCap s = .ok n → 0 < n ∧ n ≤ 2 ^ 63) ∧
    (dkeys exWholeFiles).Nodup ∧
    Distinct parts.references.children (fileTag exCtx.env.ver) (fileId exCtx.env.ver) ∧ parts.disks.isSome = true := by
  refine ⟨_, rfl, rfl, by decide +kernel, exCap_ok, by decide, ?_, rfl⟩
  rw [distinct_iff]
  exact List.pairwise_singleton _ _

/-- memory whose quantity carries an attribute -/
def exMemAttr : Elem :=
  .mk (itemTag .v1) [] none none
    [.mk (rasd ++ "InstanceID".toList) [] (some "2".toList) none [],
     .mk (rasd ++ "ResourceType".toList) [] (some "4".toList) none [],
     .mk (rasd ++ "VirtualQuantity".toList) [("unit".toList, "u".toList)] (some "2".toList) none []]

/-- what is written for it when it is generated -/
def exMemOut : Elem :=
  .mk (itemTag .v1) [] none none
    [.mk (rasd ++ "InstanceID".toList) [] (some "2".toList) none [],
     .mk (rasd ++ "ResourceType".toList) [] (some "4".toList) none [],
     .mk (rasd ++ "VirtualQuantity".toList) [] (some "2".toList) none [],
     .mk "VirtualQuantity".toList [("unit".toList, "u".toList)] none none []]

theorem exItem_strings (o : Orders) : exItem.setStrings o = [[], "x".toList] := by
  have h1 : refineStep o [] {none} = [{none}] := by simp [refineStep, splitLoop, enum_singleton]
  have h2 : refineStep o [{none}] {none} = [{none}] := by simp [refineStep, splitLoop, enum_singleton]
  have hne : ({pX} : PSet) ≠ {none} := by decide
  have hin : ({pX} : PSet) ∩ {none} = ∅ := by decide
  have hp : (o.sets.enum ([({none} : PSet), {pX}]).toFinset).Perm [{none}, {pX}] :=
    (List.perm_ext_iff_of_nodup (o.sets.nodup _) (by decide)).2 (by intro b; rw [o.sets.mem]; simp)
  have h3 : (refineStep o [{none}] {pX}).Perm [{none}, {pX}] := by
    unfold refineStep
    have : splitLoop [({none} : PSet)] {pX} = ([{none}], {pX}) := by
      simp [splitLoop, hin]
    rw [this]
    exact (hp.filter _).trans (by simp)
  have hs : exItem.setList o = refineStep o [{none}] {pX} := by
    show (([({none} : PSet), {none}, {none}, {pX}] : List PSet)).foldl (refineStep o) [] = _
    simp only [List.foldl_cons, List.foldl_nil, h1, h2]
  have e1 : setString o {none} = [] := by simp [setString]
  have e2 : setString o {pX} = "x".toList := by
    unfold setString
    rw [if_neg (by decide), enum_singleton]
    rfl
  unfold Item.setStrings
  rw [hs]
  have hm := h3.map (setString o)
  rw [List.map_cons, List.map_cons, List.map_nil, e1, e2] at hm
  rcases List.perm_pair.1 hm with h | h <;> rw [h] <;> rfl

/-- memory with an attribute as it is loaded -/
def exMemItem : Item :=
  { props := [("InstanceID".toList, [(.str "2".toList, {none})]), ("ResourceType".toList, [(.str "4".toList, {none})]),
      ("VirtualQuantity".toList, [(.str "2".toList, {none})]), ("VirtualQuantity_attrib_unit".toList, [(.str "u".toList, {none})])],
    ns := rasd, modified := false }

/-- an accurate descriptor: a CPU with one Item for all profiles and one for profile x, and memory with an attribute -/
def exTwoItems : Elem := exWhole "1" "7" [] [exCpuElem none "1", exCpuElem (some "x") "4", exMemAttr]

/-- The full claim would be that saving a descriptor that was not edited keeps it as it is whenever its File, Disk and Network
entries are accurate.  **C113 fails** when a device has one Item for each of several profiles: there are then fewer devices than
Items, which is taken for an edit, and all Items are generated anew.  Here the Item of another device gets a second, misplaced
`VirtualQuantity` by that (cf. C08), and the saved descriptor can no longer be read. -/
theorem C113_regenerated_fails (o : Orders) : ∃ parts hw root' sys' hws',
    openDescriptor exTwoItems = .ok parts ∧ loadHardware exEnv parts.hardware = .ok hw ∧
    (saveTree exCtx o exCap exTwoItems parts hw exWholeFiles).map Prod.fst = .ok root' ∧ root' ≠ exTwoItems ∧
    kids root' (ovfTag .v1 "VirtualSystem".toList) = [sys'] ∧
    kids sys' (ovfTag .v1 "VirtualHardwareSection".toList) = [hws'] ∧ exMemOut ∈ hws'.children ∧
    loadHardware exEnv hws' = .error .itemDataError := by
  have g1 : ({ exItem with modified := false } : Item).generateItems exEnv o =
      .ok [exCpuElem none "1", exCpuElem (some "x") "4"] := by
    unfold Item.generateItems
    rw [show ({ exItem with modified := false } : Item).setStrings o = [[], "x".toList] from exItem_strings o]
    rfl
  have g2 : exMemItem.generateItems exEnv o = .ok [exMemOut] := by
    unfold Item.generateItems
    rw [setStrings_default o ?_ (by simp [exMemItem])]
    · rfl
    · intro n t h
      simp only [exMemItem, List.mem_cons, Prod.mk.injEq, List.not_mem_nil, or_false] at h
      rcases h with ⟨-, rfl⟩ | ⟨-, rfl⟩ | ⟨-, rfl⟩ | ⟨-, rfl⟩ <;> exact ⟨_, rfl⟩
  have hu : updateXml exEnv o [("1".toList, { exItem with modified := false }), ("2".toList, exMemItem)]
      (exHwSec [exCpuElem none "1", exCpuElem (some "x") "4", exMemAttr]) =
      .ok (exHwSec [exCpuElem none "1", exCpuElem (some "x") "4", exMemOut]) := by
    unfold updateXml
    rw [if_neg (by decide +kernel)]
    show emitHw exEnv o _ ["1".toList, "2".toList] _ = _
    rw [emitHw]
    show (match ({ exItem with modified := false } : Item).generateItems exEnv o with | .error x => _ | .ok els => _) = _
    rw [g1]
    dsimp only
    rw [emitHw]
    show (match exMemItem.generateItems exEnv o with | .error x => _ | .ok els => _) = _
    rw [g2]
    rfl
  refine ⟨_, [("1".toList, { exItem with modified := false }), ("2".toList, exMemItem)],
    exWhole "1" "7" [] [exCpuElem none "1", exCpuElem (some "x") "4", exMemOut], _, _, rfl, rfl, ?_, ?_, rfl, rfl, ?_, rfl⟩
  · unfold saveTree
    dsimp only
    show Except.map Prod.fst (updateXml exEnv o _ (exHwSec [exCpuElem none "1", exCpuElem (some "x") "4", exMemAttr]) >>= _) = _
    rw [hu]
    rfl
  · intro h
    have := congrArg (fun e => (((e.children.flatMap Elem.children).flatMap Elem.children).flatMap Elem.children).length) h
    exact absurd this (by decide +kernel)
  · exact List.mem_cons_of_mem _ (by simp)

end Cot
