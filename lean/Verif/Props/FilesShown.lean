import Verif.Props.HardwareShown
import Verif.Props.InfoFiles
import Verif.Spec.FilesShown
import Verif.Lemmas.WriteMain
/-
C124 (files): the Files and Disks that were saved are what `cot info` tells of the package that was written.
-/
namespace Cot

/-! ### The devices -/

/-- a property with one value has that value in a device that gives the same answers -/
theorem single_of_values {env : Env} {it it' : Item} (wf : ItemWF env it) (wf' : ItemWF env it')
    (h : ∀ n p, it'.getValue env n (some {p}) = it.getValue env n (some {p})) {n : Str} (hn : Plain env n) {x : Val}
    (hx : ∃ S, it.tab n = [(x, S)]) : ∃ S, it'.tab n = [(x, S)] := by
  obtain ⟨S, hS⟩ := hx
  have tabwf : ∀ {i : Item}, ItemWF env i → TabWF (i.tab n) := by
    intro i wi
    unfold Item.tab
    cases hg : dget? i.props n with
    | none => exact ⟨List.nodup_nil, fun _ _ h => (nomatch h), fun _ _ h => (nomatch h), fun _ _ _ ⟨_, h, _⟩ => (nomatch h), fun _ _ h => (nomatch h)⟩
    | some t => exact wi.tabs _ _ (dget?_mem hg)
  have w := tabwf wf
  have w' := tabwf wf'
  obtain ⟨p, hp⟩ := Finset.nonempty_iff_ne_empty.2 (w.nonempty _ _ (by rw [hS]; exact List.mem_singleton.2 rfl))
  have hr : Reads (it'.tab n) p x :=
    (reads_of_values wf wf' h hn p _).2 (Or.inl ⟨S, by rw [hS]; exact List.mem_singleton.2 rfl, hp⟩)
  have hall : ∀ y T, (y, T) ∈ it'.tab n → y = x := by
    intro y T hy
    obtain ⟨q, hq⟩ := Finset.nonempty_iff_ne_empty.2 (w'.nonempty _ _ hy)
    have := (reads_of_values wf wf' h hn q y).1 (Or.inl ⟨T, hy, hq⟩)
    rcases this with ⟨T', hm, -⟩ | ⟨-, T', hm, -⟩ <;>
    · rw [hS, List.mem_singleton] at hm
      exact (Prod.mk.inj hm).1
  obtain ⟨S', hm⟩ : ∃ S', (x, S') ∈ it'.tab n := by
    rcases hr with ⟨S', hm, -⟩ | ⟨-, S', hm, -⟩ <;> exact ⟨S', hm⟩
  have hk := w'.keys
  match hl : it'.tab n with
  | [] => rw [hl] at hm; cases hm
  | [(y, T)] =>
    rw [hall y T (by rw [hl]; exact List.mem_singleton.2 rfl)]
    exact ⟨T, rfl⟩
  | (y, T) :: (z, U) :: _ =>
    rw [hl] at hk
    have e1 := hall y T (by rw [hl]; exact List.mem_cons_self ..)
    have e2 := hall z U (by rw [hl]; exact List.mem_cons_of_mem _ (List.mem_cons_self ..))
    subst e1
    rw [e2] at hk
    simp [dkeys] at hk

theorem default_of_values {env : Env} {it it' : Item} (wf : ItemWF env it) (wf' : ItemWF env it')
    (h : ∀ n p, it'.getValue env n (some {p}) = it.getValue env n (some {p})) : InDefault env it' ↔ InDefault env it := by
  have key : ∀ i : Item, i.hasProfile env none = true ↔ ∃ v, Reads (i.tab (instanceId env.ver)) none v := by
    intro i
    rw [hasProfile_iff]
    constructor
    · rintro (⟨v, hv⟩ | ⟨⟨v, hv⟩, -⟩) <;> exact ⟨v, Or.inl hv⟩
    · rintro ⟨v, hv | ⟨-, hv⟩⟩ <;> exact Or.inl ⟨v, hv⟩
  unfold InDefault
  rw [key, key]
  exact exists_congr (fun v => reads_of_values wf wf' h (plain_iid env) _ v)

/-- each device has its counterpart, with the same single values -/
theorem Twins.twin {env : Env} {hw hw2 : Hw} (h : Twins env hw hw2) {id : Str} {it : Item} (hm : dget? hw id = some it) :
    ∃ it', dget? hw2 id = some it' ∧ (∀ n x, Plain env n → ((∃ S, it'.tab n = [(x, S)]) ↔ ∃ S, it.tab n = [(x, S)])) ∧
      (InDefault env it' ↔ InDefault env it) := by
  have hm := dget?_mem hm
  obtain ⟨⟨k, it'⟩, hm', hk⟩ := List.mem_map.1 (h.keys.mem_iff.2 (List.mem_map.2 ⟨_, hm, rfl⟩))
  simp only at hk
  subst hk
  have w := h.wf.items _ _ hm
  have w' := h.wf2.items _ _ hm'
  have hv := h.values _ _ _ hm hm'
  exact ⟨it', dget?_of_mem h.wf2.keys hm', fun n x hn => ⟨single_of_values w' w (fun n p => (hv n p).symm) hn, single_of_values w w' hv hn⟩,
    default_of_values w w' hv⟩

theorem plain_names (env : Env) : Plain env hostResource ∧ Plain env parentName ∧ Plain env addressOnParent ∧ Plain env address ∧
    Plain env resourceType := by
  unfold Plain
  cases env.ver <;> decide +kernel

theorem onlyValue_iff {t t' : Tab} (h : ∀ x, (∃ S, t' = [(x, S)]) ↔ ∃ S, t = [(x, S)]) {s : Str} : OnlyValue t' s → OnlyValue t s := by
  rintro (hs | ⟨hn, e⟩)
  · exact Or.inl ((h (.str s)).1 hs)
  · refine Or.inr ⟨fun x S hx => ?_, e⟩
    obtain ⟨S', hS'⟩ := (h (.str x)).2 ⟨S, hx⟩
    exact hn x S' hS'

theorem typeName_iff {it it' : Item} (h : ∀ x, (∃ S, it'.tab resourceType = [(x, S)]) ↔ ∃ S, it.tab resourceType = [(x, S)]) {t : Str} :
    TypeName it' t → TypeName it t := by
  rintro (⟨code, hc, ht⟩ | ⟨hn, e⟩)
  · exact Or.inl ⟨code, (h (.str code)).1 hc, ht⟩
  · exact Or.inr ⟨fun code hc => hn code ((h (.str code)).2 hc), e⟩

/-- a description of the device that was loaded is one of the device that was saved -/
theorem Twins.cell {env : Env} {hw hw2 : Hw} (h : Twins env hw hw2) {uses : Item → Prop} {text : Str}
    (hu : ∀ it it' : Item, (∀ x, (∃ S, it'.tab hostResource = [(x, S)]) ↔ ∃ S, it.tab hostResource = [(x, S)]) → (uses it' ↔ uses it))
    (hd : DeviceCell env hw2 uses text) : DeviceCell env hw uses text := by
  obtain ⟨p1, p2, p3, p4, p5⟩ := plain_names env
  rcases hd with ⟨hn, e⟩ | ⟨k, it', hk, hi, hus, t, ct, a, b, t1, t2, t3, t4⟩
  · refine Or.inl ⟨fun k it hk hi hus => ?_, e⟩
    obtain ⟨it', g1, g2, g3⟩ := h.twin hk
    exact hn k it' g1 (g3.2 hi) ((hu it it' (fun x => g2 _ x p1)).2 hus)
  · obtain ⟨it, g1, g2, g3⟩ := h.symm.twin hk
    refine Or.inr ⟨k, it, g1, g3.2 hi, (hu it it' (fun x => (g2 _ x p1).symm)).1 hus, t, ct, a, b,
      typeName_iff (fun x => (g2 _ x p5).symm) t1, onlyValue_iff (fun x => (g2 _ x p3).symm) t2, ?_, t4⟩
    rcases t3 with ⟨cid, ci', x, c1, c2, c3, c4, c5, c6⟩ | ⟨c1, c2, c3⟩
    · obtain ⟨ci, q1, q2, q3⟩ := h.symm.twin c2
      exact Or.inl ⟨cid, ci, x, (g2 _ _ p2).2 c1, q1, q3.2 c3, typeName_iff (fun x => (q2 _ x p5).symm) c4, c5,
        onlyValue_iff (fun x => (q2 _ x p4).symm) c6⟩
    · refine Or.inr ⟨fun cid ci d1 d2 d3 => ?_, c2, c3⟩
      obtain ⟨ci', q1, q2, q3⟩ := h.twin d2
      exact c1 cid ci' ((g2 _ _ p2).1 d1) q1 (q3.2 d3)

theorem mapped_same {it it' : Item} (h : ∀ x, (∃ S, it'.tab hostResource = [(x, S)]) ↔ ∃ S, it.tab hostResource = [(x, S)]) (s : Str) :
    Mapped it' s ↔ Mapped it s := h (.str s)

/-! ### The entries -/

/-- a filter that agrees on related elements keeps the relation -/
theorem forall₂_filtered {α β : Type} {R : α → β → Prop} {f : α → Bool} {g : β → Bool} (h : ∀ a b, R a b → f a = g b) :
    ∀ {l : List α} {m : List β}, List.Forall₂ R l m → List.Forall₂ R (l.filter f) (m.filter g)
  | [], _, .nil => .nil
  | a :: l, _, .cons (b := b) r t => by
    have ih := forall₂_filtered h t
    rw [List.filter_cons, List.filter_cons, h a b r]
    split
    · exact .cons r ih
    · exact ih

theorem forall₂_comp {α β γ : Type} {R : α → β → Prop} {S : β → γ → Prop} : ∀ {l : List α} {m : List β} {n : List γ},
    List.Forall₂ R l m → List.Forall₂ S m n → List.Forall₂ (fun a c => ∃ b, b ∈ m ∧ R a b ∧ S b c) l n
  | [], _, _, .nil, .nil => .nil
  | _ :: _, _, _, .cons r t, .cons s u =>
    .cons ⟨_, List.mem_cons_self .., r, s⟩ ((forall₂_comp t u).imp (fun _ _ ⟨b, hb, h⟩ => ⟨b, List.mem_cons_of_mem _ hb, h⟩))

/-- the entry that is read back, as compared with the one that was to be saved -/
structure SavedFile (c : Ctx) (files : List (Str × FRef)) (e e2 : Elem) : Prop where
  tag : e2.tag = e.tag
  other : ∀ key, key ≠ fileSize c.env.ver → e2.get key = e.get key
  size : ∀ h, FileWith c.env.ver (fileHref c.env.ver) h e →
    ∃ r b, dget? files h = some r ∧ Leads c.fs r b ∧ e2.get (fileSize c.env.ver) = some (natStr b.length)

/-- the Disk entry that is read back: the capacity of a Disk on a file that is kept, and not in an archive, is that of the image;
the other capacities are not touched -/
structure SavedDisk (c : Ctx) (capOf : Str → Except Err Nat) (kept : List Elem) (files : List (Str × FRef)) (d d2 : Elem) : Prop where
  tag : d2.tag = d.tag
  other : ∀ key, key ≠ diskCapacity c.env.ver → key ≠ diskCapUnits c.env.ver → d2.get key = d.get key
  cap : ∀ n r e fid, dget? files n = some r → r.inTar = false → e ∈ kept → e.get (fileHref c.env.ver) = some n →
    e.get (fileId c.env.ver) = some fid → DiskWith c.env.ver (diskFileRef c.env.ver) fid d →
    ∃ cap : Nat, capOf (pathJoin r.container r.filename) = .ok cap ∧ capacityOf c.env.ver d2 = .ok (cap : Int)
  same : (∀ n r e fid, dget? files n = some r → r.inTar = false → e ∈ kept → e.get (fileHref c.env.ver) = some n →
    e.get (fileId c.env.ver) = some fid → ¬ DiskWith c.env.ver (diskFileRef c.env.ver) fid d) →
    capacityOf c.env.ver d2 = capacityOf c.env.ver d

open Classical in
theorem mem_kept {v : Ver} {fs : Fs} {files : List (Str × FRef)} {refs e : Elem} : e ∈ keptFiles v fs files refs ↔
    e ∈ refs.children ∧ e.tag = fileTag v ∧ ∃ h, e.get (fileHref v) = some h ∧ Present fs files h := by
  unfold keptFiles
  rw [List.mem_filter, decide_eq_true_iff]

open Classical in
/-- **C70**, the Disks one by one -/
theorem refreshed_disks {c : Ctx} {capOf : Str → Except Err Nat} {p p' : Pkg} (hv : c.env.ver ≠ .v0)
    (hcap : ∀ s n, capOf s = .ok n → 0 < n ∧ n ≤ 2 ^ 63) (hnd : (dkeys p.files).Nodup)
    (hids : Distinct p.refs.children (fileTag c.env.ver) (fileId c.env.ver)) (h : refreshFiles c capOf p = .ok p') :
    List.Forall₂ (SavedDisk c capOf (keptFiles c.env.ver c.fs p.files p.refs) p.files) p.diskList p'.diskList := by
  unfold refreshFiles at h
  obtain ⟨files, hf, h⟩ := bind_ok_inv h
  obtain ⟨f1, f2, f3, f4⟩ := refreshRefs_inv hnd hf
  have hcs : (p.refs.setChildren (dropMissing c.env.ver files p.refs.children)).children =
      p.refs.children.filter (fun e => decide (Retains c.env.ver c.fs p.files e)) := by
    rw [setChildren_children]; exact dropMissing_eq f2 _
  obtain ⟨-, -, -, -, g5, -, -⟩ := refreshEach_inv hv hcap f1 (by
    simp only; rw [hcs]; exact distinct_filter hids) h
  refine g5.imp (fun d d' R => ⟨R.tag, R.other, ?_, fun hno => congrArg _ (R.same ?_)⟩)
  · intro n r e fid hr ht he hen hid hdd
    obtain ⟨k1, k2, m, k3, k4⟩ := mem_kept.1 he
    rw [hen] at k3
    cases k3
    obtain ⟨r', hr'⟩ := dget?_of_mem_dkeys ((f2 n).2 k4)
    obtain ⟨r0, b, q1, q2, q3, q4, q5, q6⟩ := f4 n r' hr'
    rw [hr] at q1
    cases q1
    have := R.cap n r' e fid hr' (q4.trans ht) (by
      simp only
      rw [hcs, List.mem_filter]
      exact ⟨k1, decide_eq_true (fun _ => ⟨n, hen, k4⟩)⟩) ⟨k2, hen⟩ hid hdd
    rw [q5, q6 ht] at this
    exact this
  · intro n r' e fid hr' ht he hen hid hdd
    simp only at he
    rw [hcs] at he
    obtain ⟨r, b, q1, q2, q3, q4, q5, q6⟩ := f4 n r' hr'
    exact hno n r e fid q1 (q4.symm.trans ht) (mem_kept.2 ⟨(List.mem_filter.1 he).1, hen.1, n, hen.2, r, b, q1, q2⟩) hen.2 hid hdd

theorem same_get {a b : Elem} (h : SameContent a b) (key : Str) : b.get key = a.get key := by
  unfold Elem.get
  rw [h.facts.2.1]

theorem same_capacity {a b : Elem} (h : SameContent a b) (v : Ver) : capacityOf v b = capacityOf v a := by
  unfold capacityOf
  rw [same_get h, same_get h]

theorem disksOf_pkg (v : Ver) (p : Pkg) : diskEntries v p = disksOf v p.disks := by
  unfold diskEntries disksOf Pkg.diskList
  cases p.disks <;> rfl

open Classical in
/-- the Files and Disks that are read back are those that were to be saved -/
theorem saved_entries {c : Ctx} {capOf : Str → Except Err Nat} {p p' : Pkg} {refs2 : Elem} {disks2 : Option Elem} (hv : c.env.ver ≠ .v0)
    (hcap : ∀ s n, capOf s = .ok n → 0 < n ∧ n ≤ 2 ^ 63) (hnd : (dkeys p.files).Nodup)
    (hids : Distinct p.refs.children (fileTag c.env.ver) (fileId c.env.ver)) (h : refreshFiles c capOf p = .ok p')
    (hr : SameContent p'.refs refs2) (hd : SameOption p'.disks disks2) :
    List.Forall₂ (SavedFile c p.files) (keptFiles c.env.ver c.fs p.files p.refs)
      (refs2.children.filter (fun e => e.tag == fileTag c.env.ver)) ∧
    List.Forall₂ (SavedDisk c capOf (keptFiles c.env.ver c.fs p.files p.refs) p.files) (disksOf c.env.ver p.disks)
      (disksOf c.env.ver disks2) := by
  obtain ⟨-, -, -, g4, -⟩ := C70_files_partial hv hcap hnd hids h
  have g5 := refreshed_disks hv hcap hnd hids h
  constructor
  · have h1 : List.Forall₂ (SavedFile c p.files) (p.refs.children.filter (fun e => decide (Retains c.env.ver c.fs p.files e)))
        refs2.children := by
      refine (forall₂_comp g4 hr.facts.2.2.2.forall₂).imp ?_
      rintro e e2 ⟨e1, -, u, s⟩
      refine ⟨s.facts.1.trans u.tag, fun key hk => (same_get s key).trans (u.other key hk), fun x hx => ?_⟩
      obtain ⟨r, b, q1, q2, q3⟩ := u.size x hx
      exact ⟨r, b, q1, q2, (same_get s _).trans q3⟩
    have h2 := forall₂_filtered (f := fun e => e.tag == fileTag c.env.ver) (g := fun e => e.tag == fileTag c.env.ver)
      (fun a b r => by rw [r.tag]) h1
    rw [List.filter_filter] at h2
    have hk : keptFiles c.env.ver c.fs p.files p.refs =
        p.refs.children.filter (fun e => (e.tag == fileTag c.env.ver) && decide (Retains c.env.ver c.fs p.files e)) := by
      unfold keptFiles Retains
      refine List.filter_congr (fun e _ => ?_)
      by_cases ht : e.tag = fileTag c.env.ver <;> simp [ht]
    rw [hk]
    exact h2
  · have h1 : List.Forall₂ (SavedDisk c capOf (keptFiles c.env.ver c.fs p.files p.refs) p.files) p.diskList
        ((disks2.map Elem.children).getD []) := by
      have hs : List.Forall₂ SameContent p'.diskList ((disks2.map Elem.children).getD []) := by
        unfold Pkg.diskList
        cases h1 : p'.disks <;> cases h2 : disks2 <;> rw [h1, h2] at hd
        · exact .nil
        · exact hd.elim
        · exact hd.elim
        · exact (SameContent.facts hd).2.2.2.forall₂
      refine (forall₂_comp g5 hs).imp ?_
      rintro d d2 ⟨d1, -, u, s⟩
      refine ⟨s.facts.1.trans u.tag, fun key k1 k2 => (same_get s key).trans (u.other key k1 k2), ?_, ?_⟩
      · intro n r e fid a1 a2 a3 a4 a5 a6
        rw [same_capacity s]
        exact u.cap n r e fid a1 a2 a3 a4 a5 a6
      · intro hno
        rw [same_capacity s]
        exact u.same hno
    have h2 := forall₂_filtered (f := fun e => e.tag == diskTag c.env.ver) (g := fun e => e.tag == diskTag c.env.ver)
      (fun a b r => by rw [r.tag]) h1
    have := disksOf_pkg c.env.ver p
    unfold diskEntries at this
    rw [← this]
    exact h2

theorem forall₂_link {α β γ : Type} {R : α → β → Prop} {S : β → γ → Prop} {T : α → γ → Prop} : ∀ {l : List α} {m : List β}
    {n : List γ}, List.Forall₂ R l m → List.Forall₂ S m n → (∀ a b x, a ∈ l → R a b → S b x → T a x) → List.Forall₂ T l n
  | [], _, _, .nil, .nil, _ => .nil
  | _ :: _, _, _, .cons r t, .cons s u, h =>
    .cons (h _ _ _ (List.mem_cons_self ..) r s) (forall₂_link t u (fun a b x ha => h a b x (List.mem_cons_of_mem _ ha)))

theorem forall₂_map_eq {α β γ : Type} {R : α → β → Prop} {f : α → γ} {g : β → γ} (h : ∀ a b, R a b → f a = g b) :
    ∀ {l : List α} {m : List β}, List.Forall₂ R l m → l.map f = m.map g
  | [], _, .nil => rfl
  | _ :: _, _, .cons r t => by rw [List.map_cons, List.map_cons, h _ _ r, forall₂_map_eq h t]

theorem mem_disksOf {v : Ver} {p : Pkg} {d : Elem} : d ∈ disksOf v p.disks ↔ d ∈ p.diskList ∧ d.tag = diskTag v := by
  rw [← disksOf_pkg]
  unfold diskEntries
  rw [List.mem_filter, beq_iff_eq]

theorem uses_same (v : Ver) (x : Str) (it it' : Item)
    (h : ∀ x, (∃ S, it'.tab hostResource = [(x, S)]) ↔ ∃ S, it.tab hostResource = [(x, S)]) :
    (UsesDisk v it' x ↔ UsesDisk v it x) ∧ (UsesFile v it' x ↔ UsesFile v it x) := by
  unfold UsesDisk UsesFile
  rw [mapped_same h, mapped_same h, mapped_same h, mapped_same h]
  exact ⟨Iff.rfl, Iff.rfl⟩

/-- Files that are kept and have the same identifier are the same. -/
theorem kept_unique {v : Ver} {fs : Fs} {files : List (Str × FRef)} {refs : Elem} (hids : Distinct refs.children (fileTag v) (fileId v))
    {e f : Elem} (he : e ∈ keptFiles v fs files refs) (hf : f ∈ keptFiles v fs files refs) {x : Str} (h1 : e.get (fileId v) = some x)
    (h2 : f.get (fileId v) = some x) : e = f := by
  obtain ⟨a1, a2, -⟩ := mem_kept.1 he
  obtain ⟨b1, b2, -⟩ := mem_kept.1 hf
  obtain ⟨i, hi⟩ := List.mem_iff_getElem?.1 a1
  obtain ⟨j, hj⟩ := List.mem_iff_getElem?.1 b1
  have := hids i j e f x hi hj a2 b2 h1 h2
  subst this
  exact Option.some.inj (hi.symm.trans hj)

theorem told_file {c : Ctx} {capOf : Str → Except Err Nat} {files : List (Str × FRef)} {refs : Elem} {disks : Option Elem} {hw : Hw}
    {vm : InfoVM} {width : Int} {longest : Nat} {vb : Verbosity} {e e2 : Elem} {lines : List Str} (hE : vm.env = c.env)
    (hids : Distinct refs.children (fileTag c.env.ver) (fileId c.env.ver)) (he : e ∈ keptFiles c.env.ver c.fs files refs)
    (R : SavedFile c files e e2)
    (D : List.Forall₂ (SavedDisk c capOf (keptFiles c.env.ver c.fs files refs) files) (disksOf c.env.ver disks)
      (disksOf c.env.ver vm.pkg.disks))
    (tw : Twins c.env hw vm.pkg.hw) (h : FileRows width longest vm vb e2 lines) :
    ToldFile c capOf files disks hw width longest vb e lines := by
  obtain ⟨n1, n2, n3⟩ := fileNames_ne c.env.ver
  obtain ⟨c1, c2, c3, c4⟩ := diskNames_cap c.env.ver
  unfold FileRows at h
  rw [hE] at h
  obtain ⟨fid, href, name, size, cap, dev, line, did, h1, h2, h3, h4, h5, h6⟩ := h
  rw [R.other _ n2] at h1
  rw [R.other _ n3] at h2
  obtain ⟨r, b, r1, r2, r3⟩ := R.size href ⟨(mem_kept.1 he).2.1, h2⟩
  have hsz : prettyBytes b.length = .ok size := by
    rcases h4 with ⟨h4, -⟩ | ⟨s, h4, h4'⟩
    · rw [r3] at h4; cases h4
    · rw [r3] at h4
      cases h4
      have := h4' ⟨natStr_ne_nil _, isDig_natStr _⟩
      rw [digitsVal_natStr] at this
      exact this b.length rfl
  refine ⟨fid, href, r, b, name, size, cap, dev, line, did, h1, h2, r1, r2, h3, hsz, ?_, h6⟩
  rcases h5 with ⟨d2, z, d3, d4, d5, d6, d7, x, d8, d9⟩ | ⟨hno, e1, e2, e3⟩
  · obtain ⟨d, hd, S⟩ := forall₂_mem_right D d2 (mem_disksOf.2 ⟨d3, d4.1⟩)
    have hdw : DiskWith c.env.ver (diskFileRef c.env.ver) fid d := ⟨S.tag.symm.trans d4.1, (S.other _ c1 c2).symm.trans d4.2⟩
    refine Or.inl ⟨d, x, hd, hdw.2, ?_, d8, ?_, ?_, tw.cell (fun it it' hh => (uses_same _ _ it it' hh).1) d9⟩
    · rw [← S.other _ c3 c4, d7, d8]
    · intro ht
      obtain ⟨n, q1, q2⟩ := S.cap href r e fid r1 ht he h2 h1 hdw
      rw [d5] at q2
      cases q2
      exact ⟨n, q1, d6 n rfl⟩
    · intro ht
      refine ⟨z, ?_, d6⟩
      rw [← d5]
      refine (S.same ?_).symm
      intro n r' f fid' a1 a2 a3 a4 a5 a6
      have hf : fid' = fid := Option.some.inj (a6.2.symm.trans hdw.2)
      subst hf
      have := kept_unique hids he a3 h1 a5
      subst this
      rw [h2] at a4
      cases a4
      rw [r1] at a1
      cases a1
      rw [ht] at a2
      cases a2
  · refine Or.inr ⟨?_, e1, e2, tw.cell (fun it it' hh => (uses_same _ _ it it' hh).2) e3⟩
    intro d hd hc
    obtain ⟨d2, hd2, S⟩ := forall₂_mem_left D d hd
    obtain ⟨k1, k2⟩ := mem_disksOf.1 hd2
    exact hno d2 k1 ⟨k2, (S.other _ c1 c2).trans hc⟩

theorem told_bare {c : Ctx} {capOf : Str → Except Err Nat} {files : List (Str × FRef)} {kept : List Elem} {hw : Hw} {vm : InfoVM}
    {d d2 : Elem} {line : Str} (hE : vm.env = c.env) (S : SavedDisk c capOf kept files d d2)
    (hb : ∀ f, d.get (diskFileRef c.env.ver) = some f → ∀ e ∈ kept, e.get (fileId c.env.ver) ≠ some f) (tw : Twins c.env hw vm.pkg.hw)
    (h : PlaceholderRow vm d2 line) : ToldBare c hw d line := by
  obtain ⟨c1, c2, c3, c4⟩ := diskNames_cap c.env.ver
  unfold PlaceholderRow at h
  rw [hE] at h
  obtain ⟨z, cap, dev, did, h1, h2, h3, h4, h5⟩ := h
  refine ⟨z, cap, dev, did, ?_, h2, (S.other _ c3 c4).symm.trans h3, tw.cell (fun it it' hh => (uses_same _ _ it it' hh).1) h4, h5⟩
  rw [← h1]
  refine (S.same ?_).symm
  intro n r e fid _ _ a3 _ a5 a6
  exact hb fid a6.2 e a3 a5

open Classical in
/-- **C124 (files).** The files that a package has when it is saved are what the table of `cot info` tells of the package that was
written: the descriptor is saved to a text, the text can be read and opened and its hardware loaded, and the table then has, for
each File whose file was still there, a line with its name, the size that the file really has, the capacity that its disk
image really has, and the device that uses it; and then a line for each Disk that is not on such a File.

Partial: the devices are `Storable`, and the Items of the saved descriptor are plain; that the table is shown at all is C90. -/
theorem C124_files_partial {c : Ctx} {o : Orders} {capOf : Str → Except Err Nat} {root root' : Elem} {parts : Parts} {hw0 hw : Hw}
    {files files' : List (Str × FRef)} {py : EtVer} {reg : List (Str × Str)} (hopen : openDescriptor root = .ok parts)
    (hv : c.env.ver = parts.version) (hv0 : parts.version ≠ .v0) (hload : loadHardware c.env parts.hardware = .ok hw0)
    (hedit : HwEdits hw0 hw) (wf : HwWF c.env hw) (hst : ∀ id it, (id, it) ∈ hw → Storable c.env id it) (hl : LiteralSub c.env)
    (hcap : ∀ s n, capOf s = .ok n → 0 < n ∧ n ≤ 2 ^ 63) (hnd : (dkeys files).Nodup)
    (hids : Distinct parts.references.children (fileTag c.env.ver) (fileId c.env.ver))
    (h : saveTree c o capOf root parts hw files = .ok (root', files')) (hreg : GoodPrefixes reg) (hx : XmlWritable py root')
    (ht : ∀ c ∈ root'.tail.getD [], xmlWs c = true)
    (hpl : ∀ parts', openDescriptor root' = .ok parts' → ∀ e ∈ parts'.hardware.children, isItemTag c.env.ver e.tag = true →
      PlainItem c.env.ver e) :
    ∃ s t parts2 hw2, writeXml py reg root' = .ok s ∧ parseXml s = some t ∧ openDescriptor t = .ok parts2 ∧
      loadHardware c.env parts2.hardware = .ok hw2 ∧
      ∀ (w : InfoWorld) (vm : InfoVM) (vb : Verbosity) (lines : List Str), vm.env = c.env → vm.pkg.refs = parts2.references →
        vm.pkg.disks = parts2.disks → vm.pkg.hw = hw2 → infoFiles w vm vb = .ok lines →
        ∀ kept bare, kept = keptFiles c.env.ver c.fs files parts.references → bare = bareDisks c.env.ver kept parts.disks →
          (kept = [] ∧ disksOf c.env.ver parts.disks = [] ∧ lines = []) ∨
          ∃ (longest : Nat) (head rule : Str) (blocks : List (List Str)) (rows : List Str),
            Longest (kept.map (fun e => (e.get (fileHref c.env.ver)).getD [])) longest ∧
            lines = head :: rule :: (blocks.flatten ++ rows) ∧
            splitWs head = splitWs "Files and Disks: File Size Capacity Device".toList ∧
            List.Forall₂ (ToldFile c capOf files parts.disks hw w.width longest vb) kept blocks ∧
            List.Forall₂ (ToldBare c hw) bare rows := by
  obtain ⟨s, t, parts', parts2, hw2, h1, h2, h3, h4, h5, h6, h7, h8, tw⟩ :=
    saved_twins hopen hv hv0 hload hedit wf hst hl h hreg hx ht hpl
  refine ⟨s, t, parts2, hw2, h1, h2, h4, h8, ?_⟩
  obtain ⟨-, -, -, -, -, p, hp, k1, k2, -⟩ := save_parts hopen hv hv0 h
  obtain ⟨-, o1, -, -, o2, -⟩ := (open_kids (h5 ▸ hv0)).1 h3
  rw [h5] at o1 o2
  have hrefs : p.refs = parts'.references := by
    rw [k1] at o1
    exact (List.cons.inj o1).1
  have hdisks : p.disks = parts'.disks := by
    rw [k2] at o2
    cases e1 : p.disks <;> cases e2 : parts'.disks <;> rw [e1, e2] at o2 <;> simp at o2
    rw [o2]
  obtain ⟨F, D⟩ := saved_entries (hv ▸ hv0) hcap hnd hids hp (hrefs ▸ h6) (hdisks ▸ h7)
  dsimp only at F D
  intro w vm vb lines e1 e2 e3 e4 hlines kept bare hkept hbare
  subst hkept hbare
  rw [← e2] at F
  rw [← e3] at D
  rw [← e4] at tw
  have hfe : fileEntries vm.env.ver vm.pkg = vm.pkg.refs.children.filter (fun e => e.tag == fileTag c.env.ver) := by rw [e1]; rfl
  have hde : diskEntries vm.env.ver vm.pkg = disksOf c.env.ver vm.pkg.disks := by rw [e1]; exact disksOf_pkg _ _
  rw [← hfe] at F
  obtain ⟨n1, n2, n3⟩ := fileNames_ne c.env.ver
  obtain ⟨c1, c2, -, -⟩ := diskNames_cap c.env.ver
  rcases C90_files (by rw [e1]; exact tw.wf2) hlines with ⟨i1, i2, i3⟩ | ⟨-, longest, head, rule, blocks, rows, i1, i2, i3, i4, i5⟩
  · left
    rw [i1] at F
    rw [← hde, i2] at D
    refine ⟨?_, ?_, i3⟩
    · cases hk : keptFiles c.env.ver c.fs files parts.references with
      | nil => rfl
      | cons a l => rw [hk] at F; cases F
    · cases hk : disksOf c.env.ver parts.disks with
      | nil => rfl
      | cons a l => rw [hk] at D; cases D
  · right
    refine ⟨longest, head, rule, blocks, rows, ?_, i2, i3, ?_, ?_⟩
    · rw [e1] at i1
      have : (keptFiles c.env.ver c.fs files parts.references).map (fun e => (e.get (fileHref c.env.ver)).getD []) =
          (fileEntries c.env.ver vm.pkg).map (fun e => (e.get (fileHref c.env.ver)).getD []) := by
        rw [e1] at F
        exact forall₂_map_eq (fun a b r => by rw [SavedFile.other r _ n3]) F
      rw [this]
      exact i1
    · exact forall₂_link F i4 (fun e e2' b he r hr => told_file e1 hids he r D tw hr)
    · have G := forall₂_filtered (R := SavedDisk c capOf (keptFiles c.env.ver c.fs files parts.references) files)
        (f := fun d => decide (∀ f, d.get (diskFileRef c.env.ver) = some f → ∀ e ∈ keptFiles c.env.ver c.fs files parts.references,
          e.get (fileId c.env.ver) ≠ some f))
        (g := fun d => decide (∀ f ∈ d.get (diskFileRef vm.env.ver), ∀ e ∈ fileEntries vm.env.ver vm.pkg,
          e.get (fileId vm.env.ver) ≠ some f)) (by
          intro d d2 S
          rw [e1, decide_eq_decide]
          have hg := S.other _ c1 c2
          rw [e1] at F
          constructor
          · intro hq f hf e2' he2
            rw [hg] at hf
            obtain ⟨e, he, r⟩ := forall₂_mem_right F e2' he2
            rw [r.other _ n2]
            exact hq f hf e he
          · intro hq f hf e he
            rw [← hg] at hf
            obtain ⟨e2', he2, r⟩ := forall₂_mem_left F e he
            rw [← r.other _ n2]
            exact hq f hf e2' he2) D
      rw [← hde] at G
      have G' : List.Forall₂ (SavedDisk c capOf (keptFiles c.env.ver c.fs files parts.references) files)
          (bareDisks c.env.ver (keptFiles c.env.ver c.fs files parts.references) parts.disks) (placeholders vm.env.ver vm.pkg) := by
        unfold bareDisks placeholders
        convert G
      refine forall₂_link G' i5 (fun d d2 line hd S hr => ?_)
      unfold bareDisks at hd
      exact told_bare e1 S (of_decide_eq_true (List.mem_filter.1 hd).2) tw hr

/-! ### A case -/

/-- in a package that was saved, with a disk image of 1 byte and capacity 7 that no device uses, this is told of it -/
example (o : Orders) (py : EtVer) : ∃ s t parts2 hw2, writeXml py etDefault (exWhole "1" "7" [] exNamedItems) = .ok s ∧
    parseXml s = some t ∧ openDescriptor t = .ok parts2 ∧ loadHardware exEnvL parts2.hardware = .ok hw2 ∧
    ∀ (w : InfoWorld) (vm : InfoVM) (lines : List Str), vm.env = exEnvL → vm.pkg.refs = parts2.references →
      vm.pkg.disks = parts2.disks → vm.pkg.hw = hw2 → infoFiles w vm .brief = .ok lines →
      ∃ row ∈ lines, splitWs row = splitWs "d.vmdk 1 B 7 B".toList := by
  have hl : loadHardware exEnvL (exHwSec [exCpuElem none "1", exCpuElem (some "x") "4"]) =
      .ok (exLoaded [(.str "1".toList, {none}), (.str "4".toList, {pX})]) := by rfl
  have hst : ∀ id it, (id, it) ∈ [("1".toList, exNamed)] → Storable exEnvL id it := by
    intro id it h
    simp only [List.mem_singleton, Prod.mk.injEq] at h
    obtain ⟨rfl, rfl⟩ := h
    exact exNamed_storable
  have hnd : (dkeys exWholeFiles).Nodup := by decide +kernel
  have hids : Distinct (Elem.mk (ovfTag .v1 "References".toList) [] none none
      [exFileE "vmdk".toList "d.vmdk".toList "1".toList]).children (fileTag .v1) (fileId .v1) := by
    intro i j e f x hi hj
    simp only [Elem.children] at hi hj
    have := (List.getElem?_eq_some_iff.1 hi).1
    have := (List.getElem?_eq_some_iff.1 hj).1
    simp only [List.length_singleton] at *
    intros
    omega
  obtain ⟨files', hs⟩ := exNamed_saved o
  obtain ⟨s, t, parts2, hw2, h1, h2, h3, h4, h5⟩ := C124_files_partial (c := { exCtx with env := exEnvL }) (py := py)
    (root := exWhole "1" "7" [] [exCpuElem none "1", exCpuElem (some "x") "4"]) rfl rfl (by decide) hl exOld_edited exNew_wf hst
    exEnvL_literal exCap_ok hnd hids hs etDefault_good (writableB_sound _ (by decide +kernel)) (by simp [exWhole, Elem.tail]) (by
      intro parts' hp
      have e : (openDescriptor (exWhole "1" "7" [] exNamedItems)).map (·.hardware) = .ok (exHwSec exNamedItems) := by rfl
      rw [hp] at e
      rw [show parts'.hardware = exHwSec exNamedItems from Except.ok.inj e]
      unfold PlainItem
      exact of_decide_eq_true (by decide +kernel))
  refine ⟨s, t, parts2, hw2, h1, h2, h3, h4, ?_⟩
  intro w vm lines e1 e2 e3 e4 hlines
  have hm : exFileE "vmdk".toList "d.vmdk".toList "1".toList ∈ keptFiles .v1 exCtx.fs exWholeFiles
      (.mk (ovfTag .v1 "References".toList) [] none none [exFileE "vmdk".toList "d.vmdk".toList "1".toList]) :=
    mem_kept.2 ⟨List.mem_singleton.2 rfl, rfl, "d.vmdk".toList, rfl, _, _, rfl, Or.inl ⟨rfl, rfl⟩⟩
  rcases h5 w vm .brief lines e1 e2 e3 e4 hlines _ _ rfl rfl with ⟨hn, -⟩ | ⟨longest, head, rule, blocks, rows, -, hl2, -, hf, -⟩
  · exact absurd hm (by rw [show keptFiles .v1 exCtx.fs exWholeFiles _ = [] from hn]; exact List.not_mem_nil)
  · obtain ⟨b, hb, fid, href, r, bytes, name, size, cap, dev, line, did, a1, a2, a3, a4, a5, a6, a7, a8, a9, -⟩ := forall₂_mem_left hf _ hm
    have hb' := a9 (by decide)
    refine ⟨line, ?_, ?_⟩
    · rw [hl2]
      refine List.mem_cons_of_mem _ (List.mem_cons_of_mem _ (List.mem_append_left _ ?_))
      exact List.mem_flatten.2 ⟨b, hb, by rw [hb']; exact List.mem_singleton.2 rfl⟩
    · cases a1
      cases a2
      cases a3
      have hbytes : bytes = [5] := by
        rcases a4 with ⟨-, a4⟩ | ⟨a4, -⟩
        · cases a4; rfl
        · cases a4
      subst hbytes
      rw [show prettyBytes [(5 : UInt8)].length = .ok "1 B".toList from by decide +kernel] at a6
      have a6 := Except.ok.inj a6
      subst a6
      have hname : name = "d.vmdk".toList := by
        obtain ⟨room, q1, q2 | q2⟩ := a5
        · exact q2.2
        · have : "d.vmdk".toList.length = 6 := by decide
          have := q2.1
          omega
      have nodev : ∀ x, DeviceCell exEnvL [("1".toList, exNamed)] (fun it => UsesDisk .v1 it x) dev → dev = [] := by
        rintro x (⟨-, hx⟩ | ⟨k, it, hk, -, hu, -⟩)
        · exact hx
        · have hk := dget?_mem hk
          rw [List.mem_singleton] at hk
          cases hk
          rcases hu with ⟨S, hu⟩ | ⟨S, hu⟩ <;> cases hu
      rcases a7 with ⟨d, x, -, -, -, -, a10, -, a11⟩ | ⟨hno, -⟩
      · obtain ⟨n, hn1, hn2⟩ := a10 rfl
        cases hn1
        rw [show prettyBytes 7 = .ok "7 B".toList from by decide +kernel] at hn2
        have hn2 := Except.ok.inj hn2
        subst hn2
        rw [a8, hname, nodev x a11]
        decide +kernel
      · exact absurd rfl (hno (exDiskE "vmdisk1".toList "vmdk".toList "7".toList)
        (List.mem_filter.2 ⟨List.mem_singleton.2 rfl, by decide +kernel⟩))

end Cot
