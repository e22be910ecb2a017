import Verif.Lemmas.Update
import Verif.Lemmas.Track
import Verif.Props.Load
import Verif.Props.RoundTripNames
/-
C54: writing edited hardware back to the hardware section.
-/
namespace Cot

/-- The entries of the collection that are not marked as modified are those that were loaded. -/
def Tracked (loaded hw : Hw) : Prop :=
  ∀ id it, (id, it) ∈ hw → it.modified = false → ∃ it0, (id, it0) ∈ loaded ∧ it0.props = it.props

/-- What is required of an item to be written and read back: it has its InstanceID, exists under every profile it has a value for,
mentions only profiles of the descriptor, has a type Items may have, and holds only what XML can represent. -/
structure Storable (env : Env) (id : Str) (it : Item) : Prop where
  ident : ∃ S, it.tab (instanceId env.ver) = [(.str id, S)]
  profiles : GoodProfiles it
  configured : ∀ n p w, Explicit (it.tab n) (some p) w → p ∈ env.configProfiles
  exists_ : Scoped env.ver it
  representable : Representable env it
  tame : TameItem env it
  hasTag : ∃ tag, itemTagForNamespace env.ver it.ns = .ok tag

/-- the children of a section that are not Items -/
def nonItems (v : Ver) (s : Elem) : List Elem := s.children.filter (fun e => !isItemTag v e.tag)

theorem getValue_props {env : Env} {it it' : Item} (h : it'.props = it.props) (n : Str) (P : Option PSet) :
    it'.getValue env n P = it.getValue env n P := by
  obtain ⟨p, ns, m⟩ := it
  obtain ⟨p', ns', m'⟩ := it'
  simp only at h
  subst h
  rfl

theorem mem_itemPrefix {v : Ver} {x : Elem} : ∀ {l : List Elem}, x ∈ itemPrefix v l → x.tag ∈ sectionOrder v
  | [], h => by cases h
  | a :: r, h => by
    unfold itemPrefix at h
    rw [List.takeWhile_cons] at h
    split at h
    · rename_i ha
      rcases List.mem_cons.1 h with rfl | h
      · exact of_decide_eq_true ha
      · exact mem_itemPrefix h
    · cases h

theorem nodup_key_unique {hw : Hw} (h : (dkeys hw).Nodup) {id : Str} {a b : Item} (ha : (id, a) ∈ hw) (hb : (id, b) ∈ hw) : a = b := by
  have := dget?_of_mem h ha
  rw [dget?_of_mem h hb] at this
  exact (Option.some.inj this).symm

/-- the elements generated for an instance -/
def genOf (env : Env) (o : Orders) (hw : Hw) (id : Str) : List Elem :=
  match dget? hw id with
  | none => []
  | some it => match it.generateItems env o with
    | .error _ => []
    | .ok els => els

/-- their tag -/
def tagOf (env : Env) (o : Orders) (hw : Hw) (id : Str) : Str :=
  match genOf env o hw id with
  | [] => []
  | e :: _ => e.tag

/-- generating the items of the whole collection -/
theorem gen_all {env : Env} {o : Orders} {hw : Hw} (wf : HwWF env hw) (hst : ∀ id it, (id, it) ∈ hw → Storable env id it)
    (hl : LiteralSub env) : ∃ (gen : Str → List Elem) (tag : Str → Str),
    (∀ id it, (id, it) ∈ hw → it.generateItems env o = .ok (gen id) ∧ gen id ≠ [] ∧
      (∀ e ∈ gen id, itemId env.ver e = some id ∧ e.tag = tag id ∧ isItemTag env.ver e.tag = true ∧
        ∀ p ∈ elemNames env.ver e, p ∈ env.configProfiles) ∧
      ∃ it', addItems env (gen id) emptyItem = .ok it' ∧ ∀ n p, it'.getValue env n (some {p}) = it.getValue env n (some {p})) := by
  have key : ∀ id it, (id, it) ∈ hw → ∃ els tag, it.generateItems env o = .ok els ∧ els ≠ [] ∧
      (∀ e ∈ els, itemId env.ver e = some id ∧ e.tag = tag ∧ isItemTag env.ver e.tag = true ∧
        ∀ p ∈ elemNames env.ver e, p ∈ env.configProfiles) ∧
      ∃ it', addItems env els emptyItem = .ok it' ∧ ∀ n p, it'.getValue env n (some {p}) = it.getValue env n (some {p}) := by
    intro id it hm
    have hs := hst id it hm
    obtain ⟨tag, htag⟩ := hs.hasTag
    have wfi := wf.items id it hm
    obtain ⟨els, it', h1, h2, -, h4⟩ := C08_roundtrip_names_partial (o := o) wfi hs.profiles hs.representable htag hl hs.tame
    obtain ⟨g1, g2⟩ := gen_ids wfi hs.profiles hs.representable hs.exists_ htag hs.ident h1
    refine ⟨els, tag, h1, g1, ?_, it', h2, h4⟩
    intro e he
    obtain ⟨e1, e2, e3⟩ := g2 e he
    refine ⟨e1, e2, by rw [e2]; exact isItem_of_ns (itemTag_braced htag).2, ?_⟩
    intro p hp
    obtain ⟨n, w, h⟩ := e3 p hp
    exact hs.configured n p w h
  refine ⟨genOf env o hw, tagOf env o hw, ?_⟩
  intro id it hm
  obtain ⟨els, tag, h1, h2, h3, h4⟩ := key id it hm
  have hge : genOf env o hw id = els := by unfold genOf; rw [dget?_of_mem wf.keys hm]; simp only; rw [h1]
  have hte : ∀ e ∈ els, e.tag = tagOf env o hw id := by
    intro e he
    unfold tagOf
    rw [hge]
    cases els with
    | nil => cases he
    | cons a r => rw [(h3 e he).2.1]; exact (h3 a (by simp)).2.1.symm
  rw [hge]
  exact ⟨h1, h2, fun e he => ⟨(h3 e he).1, hte e he, (h3 e he).2.2⟩, h4⟩

/-- **C54.**  Writing the hardware back to the section succeeds, and what is then loaded from the section has the same devices with
the same values for every property and every profile, whatever was edited since the section was loaded; the other children of the
section, and the section element itself, stay as they are.

Partial: the items are `Storable`. -/
theorem C54_reload_partial {env : Env} {o : Orders} {s : Elem} {hw0 hw : Hw} (h0 : loadHardware env s = .ok hw0)
    (htr : Tracked hw0 hw) (wf : HwWF env hw) (hst : ∀ id it, (id, it) ∈ hw → Storable env id it) (hl : LiteralSub env) :
    ∃ s' hw', updateXml env o hw s = .ok s' ∧ loadHardware env s' = .ok hw' ∧ (dkeys hw').Perm (dkeys hw) ∧
      (∀ id it it', (id, it) ∈ hw → (id, it') ∈ hw' →
        ∀ n p, it'.getValue env n (some {p}) = it.getValue env n (some {p})) ∧
      nonItems env.ver s' = nonItems env.ver s ∧ s'.tag = s.tag ∧ s'.attrib = s.attrib ∧ s'.text = s.text ∧ s'.tail = s.tail := by
  obtain ⟨l1, l2, l3, l4⟩ := load_entries h0
  by_cases hmod : hwModified env.ver hw s = false
  · have hu : updateXml env o hw s = .ok s := by unfold updateXml; rw [if_pos hmod]
    have hm' := hmod
    unfold hwModified at hm'
    simp only [Bool.or_eq_false_iff, decide_eq_false_iff_not, ne_eq, not_not, List.any_eq_false, Bool.not_eq_true] at hm'
    obtain ⟨hlen, hall⟩ := hm'
    refine ⟨s, hw0, hu, h0, unmodified_keys l1 wf.keys l3 ?_ hlen, ?_, rfl, rfl, rfl, rfl, rfl⟩
    · intro id hid
      obtain ⟨⟨id', it⟩, hm, rfl⟩ := List.mem_map.1 hid
      obtain ⟨it0, h1, -⟩ := htr id' it hm (hall _ hm)
      exact List.mem_map.2 ⟨_, h1, rfl⟩
    · intro id it it' hm hm' n p
      obtain ⟨it0, h1, h2⟩ := htr id it hm (hall _ hm)
      have := nodup_key_unique l1 h1 hm'
      subst this
      exact getValue_props h2 n _
  · obtain ⟨gen, tag, hg⟩ := gen_all (o := o) wf hst hl
    have hids : (naturalSort (dkeys hw)).Perm (dkeys hw) := naturalSort_perm _
    have hnd : (naturalSort (dkeys hw)).Nodup := hids.nodup_iff.2 wf.keys
    have hitem : ∀ id ∈ naturalSort (dkeys hw), ∃ it, (id, it) ∈ hw := by
      intro id hid
      obtain ⟨⟨id', it⟩, hm, rfl⟩ := List.mem_map.1 (hids.mem_iff.1 hid)
      exact ⟨it, hm⟩
    have hgen : genAll env o hw (naturalSort (dkeys hw)) = .ok ((naturalSort (dkeys hw)).flatMap gen) := by
      refine genAll_ok gen _ fun id hid => ?_
      obtain ⟨it, hm⟩ := hitem id hid
      exact ⟨it, dget?_of_mem wf.keys hm, (hg id it hm).1⟩
    have hG : ∀ e ∈ (naturalSort (dkeys hw)).flatMap gen, Loadable env e ∧ isItemTag env.ver e.tag = true := by
      intro e he
      obtain ⟨id, hid, he⟩ := List.mem_flatMap.1 he
      obtain ⟨it, hm⟩ := hitem id hid
      obtain ⟨e1, e2, e3, e4⟩ := (hg id it hm).2.2.1 e he
      exact ⟨Or.inr ⟨id, e1, e4⟩, e3⟩
    generalize hGe : (naturalSort (dkeys hw)).flatMap gen = G at *
    have hbase : ∀ e ∈ nonItems env.ver s, isItemTag env.ver e.tag = false := by
      intro e he; simpa using (List.mem_filter.1 he).2
    have hps := prefix_suffix env.ver (nonItems env.ver s)
    have hsplit : ∀ e, (e ∈ itemPrefix env.ver (nonItems env.ver s) ∨ e ∈ itemSuffix env.ver (nonItems env.ver s)) →
        isItemTag env.ver e.tag = false := by
      intro e he
      refine hbase e ?_
      rw [← hps]; exact List.mem_append.2 he
    have hfold := insert_fold (v := env.ver) (pre := itemPrefix env.ver (nonItems env.ver s)) (post := itemSuffix env.ver (nonItems env.ver s))
      (by intro x hx; exact mem_itemPrefix hx)
      (by
        intro x hx
        have := List.head?_dropWhile_not (fun e : Elem => decide (e.tag ∈ sectionOrder env.ver)) (nonItems env.ver s)
        unfold itemSuffix at hx
        rw [Option.mem_def.1 hx] at this
        simpa using this)
      G (s.setChildren (nonItems env.ver s)) [] []
      (fun e he => item_tags _ _ (hG e he).2) (by rw [setChildren_children]; simp [hps]) (by simp) (by simp)
    rw [setChildren_twice, List.nil_append, List.nil_append] at hfold
    have hu : updateXml env o hw s = .ok (s.setChildren (itemPrefix env.ver (nonItems env.ver s) ++
        G.filter (fun e => e.tag == itemTag env.ver) ++ itemSuffix env.ver (nonItems env.ver s) ++ G.filter (fun e => e.tag != itemTag env.ver))) := by
      unfold updateXml
      rw [if_neg hmod, emitHw_eq, hgen]
      simp only
      exact congrArg _ hfold
    generalize hch : itemPrefix env.ver (nonItems env.ver s) ++
        G.filter (fun e => e.tag == itemTag env.ver) ++ itemSuffix env.ver (nonItems env.ver s) ++ G.filter (fun e => e.tag != itemTag env.ver) = ch at hu
    have hof : ∀ id, ofId env.ver id ch = if id ∈ naturalSort (dkeys hw) then gen id else [] := by
      intro id
      rw [← hch, ← hGe]
      refine ofId_update (tag := tag) hnd (fun e he => hsplit e (Or.inl he)) (fun e he => hsplit e (Or.inr he)) ?_ id
      intro i hi e he
      obtain ⟨it, hm⟩ := hitem i hi
      obtain ⟨e1, e2, -⟩ := (hg i it hm).2.2.1 e he
      exact ⟨e1, e2⟩
    have hload : ∀ e ∈ ch, Loadable env e := by
      intro e he
      rw [← hch] at he
      simp only [List.mem_append] at he
      rcases he with ((he | he) | he) | he
      · exact Or.inl (notItem_ns (hsplit e (Or.inl he)))
      · exact (hG e (List.mem_of_mem_filter he)).1
      · exact Or.inl (notItem_ns (hsplit e (Or.inr he)))
      · exact (hG e (List.mem_of_mem_filter he)).1
    obtain ⟨hw1, hw1l⟩ := loadLoop_ok ch [] hload (by
      intro id
      rw [hof id]
      by_cases hid : id ∈ naturalSort (dkeys hw)
      · rw [if_pos hid]
        obtain ⟨it, hm⟩ := hitem id hid
        obtain ⟨it', h1, -⟩ := (hg id it hm).2.2.2
        exact ⟨it', h1⟩
      · rw [if_neg hid]; exact ⟨_, rfl⟩)
    have hlh : loadHardware env (s.setChildren ch) = .ok (hw1.map (fun kv => (kv.1, { kv.2 with modified := false }))) := by
      unfold loadHardware; rw [setChildren_children, hw1l]
    obtain ⟨m1, m2, m3, m4⟩ := load_entries hlh
    rw [setChildren_children] at m3 m4
    refine ⟨_, _, hu, hlh, ?_, ?_, ?_, ?_⟩
    · refine (List.perm_ext_iff_of_nodup m1 wf.keys).2 fun id => ?_
      rw [m3, ← hids.mem_iff]
      constructor
      · rintro ⟨e, he, hid⟩
        by_contra hc
        have : e ∈ ofId env.ver id ch := List.mem_filter.2 ⟨he, by simp [hid]⟩
        rw [hof id, if_neg hc] at this
        cases this
      · intro hid
        obtain ⟨it, hm⟩ := hitem id hid
        obtain ⟨e, he⟩ := List.exists_mem_of_ne_nil _ (hg id it hm).2.1
        have : e ∈ ofId env.ver id ch := by rw [hof id, if_pos hid]; exact he
        exact ⟨e, (List.mem_filter.1 this).1, ofId_ids e this⟩
    · intro id it it' hm hm' n p
      obtain ⟨it0, ha, rfl⟩ := m4 id it' hm'
      have hid : id ∈ naturalSort (dkeys hw) := hids.mem_iff.2 (List.mem_map.2 ⟨_, hm, rfl⟩)
      rw [hof id, if_pos hid] at ha
      obtain ⟨it1, h1, h2⟩ := (hg id it hm).2.2.2
      rw [ha] at h1
      cases h1
      exact h2 n p
    · have hnone : ∀ q : Elem → Bool, (G.filter q).filter (fun e => !isItemTag env.ver e.tag) = [] := by
        intro q
        refine List.filter_eq_nil_iff.2 fun e he => ?_
        simp [(hG e (List.mem_of_mem_filter he)).2]
      have hself : ∀ l : List Elem, (∀ e ∈ l, isItemTag env.ver e.tag = false) → l.filter (fun e => !isItemTag env.ver e.tag) = l := by
        intro l hl
        exact List.filter_eq_self.2 fun e he => by simp [hl e he]
      conv_lhs => unfold nonItems
      rw [setChildren_children, ← hch, List.filter_append, List.filter_append, List.filter_append, hnone, hnone,
        hself _ (fun e he => hsplit e (Or.inl he)), hself _ (fun e he => hsplit e (Or.inr he)), List.append_nil, List.append_nil, hps]
    · cases s; exact ⟨rfl, rfl, rfl, rfl⟩

/-! ### What may have been edited -/

/-- A collection reached from a loaded one by successful edits through the API of the hardware collection and of its items. -/
inductive HwEdits (loaded : Hw) : Hw → Prop where
  | start : HwEdits loaded loaded
  | item {hw : Hw} {env : Env} {id : Str} {it it' : Item} {ed : Edit} : HwEdits loaded hw → dget? hw id = some it →
      ed.run env it = .ok it' → HwEdits loaded (dset hw id it')
  | new {hw hw' : Hw} {env : Env} {rt id : Str} {P : List Prof} : HwEdits loaded hw → newItem env hw rt P = .ok (id, hw') →
      HwEdits loaded hw'
  | delete {hw hw' : Hw} {env : Env} {id : Str} : HwEdits loaded hw → deleteItem env hw id = .ok hw' → HwEdits loaded hw'
  | clone {hw hw' : Hw} {env : Env} {parent id : Str} {P : List Prof} : HwEdits loaded hw →
      cloneItem env hw parent P = .ok (id, hw') → HwEdits loaded hw'
  | count {hw hw' : Hw} {env : Env} {nic : Nat → Str} {rt : Str} {n : Nat} {P : List Prof} : HwEdits loaded hw →
      setItemCount env nic hw rt n P = .ok hw' → HwEdits loaded hw'
  | setAll {hw hw' : Hw} {env : Env} {rt name : Str} {v : InVal} {P : List Prof} {b : Bool} : HwEdits loaded hw →
      setValueForAll env hw rt name v P b = .ok hw' → HwEdits loaded hw'
  | setValues {hw hw' : Hw} {env : Env} {rt name : Str} {vs : List InVal} {P : Option (List Prof)} {d : InVal} : HwEdits loaded hw →
      setItemValues env hw rt name vs P d = .ok hw' → HwEdits loaded hw'

/-- **C54.**  No edit goes unnoticed: after any history of edits, an entry that is not marked as modified is as it was loaded. -/
theorem C54_edits_noticed {env : Env} {s : Elem} {hw0 hw : Hw} (h0 : loadHardware env s = .ok hw0) (h : HwEdits hw0 hw) :
    (dkeys hw).Nodup ∧ Tracked hw0 hw := by
  have key : Good hw0 hw := by
    induction h with
    | start => exact Good.refl _
    | item _ hd hr ih => exact ih.trans (Good.dset hd (edit_kept hr))
    | new _ hr ih => exact ih.trans (newItem_good hr)
    | delete _ hr ih => exact ih.trans (deleteItem_good hr)
    | clone _ hr ih => exact ih.trans (cloneItem_good hr)
    | count _ hr ih => exact ih.trans (setItemCount_good hr)
    | setAll _ hr ih => exact ih.trans (setValueForAll_good hr)
    | setValues _ hr ih => exact ih.trans (setItemValues_good hr)
  obtain ⟨k1, k2⟩ := key (load_entries h0).1
  refine ⟨k2, ?_⟩
  intro id it hm hf
  obtain ⟨it0, m0, -, p0⟩ := k1 id it hm hf
  exact ⟨it0, m0, p0⟩

/-- **C54.**  When writing back leaves the section alone, there was nothing to write: the devices and their values are those the
section was loaded as. -/
theorem C54_untouched {env : Env} {o : Orders} {s : Elem} {hw0 hw : Hw} (h0 : loadHardware env s = .ok hw0) (h : HwEdits hw0 hw)
    (hm : hwModified env.ver hw s = false) :
    updateXml env o hw s = .ok s ∧ (dkeys hw0).Perm (dkeys hw) ∧
      ∀ id it it0, (id, it) ∈ hw → (id, it0) ∈ hw0 → it0.props = it.props := by
  obtain ⟨hk, htr⟩ := C54_edits_noticed h0 h
  obtain ⟨l1, l2, l3, l4⟩ := load_entries h0
  have hm' := hm
  unfold hwModified at hm'
  simp only [Bool.or_eq_false_iff, decide_eq_false_iff_not, ne_eq, not_not, List.any_eq_false, Bool.not_eq_true] at hm'
  obtain ⟨hlen, hall⟩ := hm'
  refine ⟨by unfold updateXml; rw [if_pos hm], unmodified_keys l1 hk l3 ?_ hlen, ?_⟩
  · intro id hid
    obtain ⟨⟨id', it⟩, hm, rfl⟩ := List.mem_map.1 hid
    obtain ⟨it0, h1, -⟩ := htr id' it hm (hall _ hm)
    exact List.mem_map.2 ⟨_, h1, rfl⟩
  · intro id it it0 hm hm0
    obtain ⟨it1, h1, h2⟩ := htr id it hm (hall _ hm)
    rw [nodup_key_unique l1 hm0 h1]; exact h2

/-! ### A concrete case: the CPU loaded from a section is given a name and a description -/

theorem exNamed_storable : Storable exEnvL "1".toList exNamed := by
  refine ⟨⟨{none}, rfl⟩, exNamed_good, ?_, ?_, exNamed_representable, exNamed_tame, _, rfl⟩
  · rintro n p w ⟨S, h, hp⟩
    rcases exNamed_sets h with rfl | rfl
    · simp at hp
    · simp [pX] at hp; subst hp; decide
  · rintro n p w -
    have ht : exNamed.tab (instanceId exEnvL.ver) = [(.str "1".toList, {none})] := rfl
    by_cases hp : p = none
    · subst hp; exact ⟨.str "1".toList, Or.inl ⟨{none}, by rw [ht]; simp, by simp⟩⟩
    · refine ⟨.str "1".toList, Or.inr ⟨?_, {none}, by rw [ht]; simp, by simp⟩⟩
      rintro w ⟨S, hS, hpS⟩
      rw [ht, List.mem_singleton] at hS
      cases hS
      exact hp (Finset.mem_singleton.1 hpS)

/-- the section as it was, with a child that is not an Item -/
def exOld : Elem := exSection [.mk (ovfTag .v1 "Info".toList) [] (some "hardware".toList) none [], exCpuElem none "1", exCpuElem (some "x") "4"]

theorem exOld_loads : loadHardware exEnvL exOld = .ok (exLoaded [(.str "1".toList, {none}), (.str "4".toList, {pX})]) := by rfl

/-- the name and the description are set -/
theorem exOld_edited : HwEdits (exLoaded [(.str "1".toList, {none}), (.str "4".toList, {pX})]) [("1".toList, exNamed)] := by
  have h1 : (Edit.set "ElementName".toList (.str "1 virtual cpus".toList) {none} true).run exEnvL
      { exNamed with props := exNamed.props.take 3, modified := false } = .ok { exNamed with props := exNamed.props.take 4 } := by rfl
  have h2 : (Edit.set "Description".toList (.str "this is 1 virtual cpus".toList) {none} true).run exEnvL
      { exNamed with props := exNamed.props.take 4 } = .ok exNamed := by rfl
  have d1 : dget? (exLoaded [(.str "1".toList, {none}), (.str "4".toList, {pX})]) "1".toList =
      some { exNamed with props := exNamed.props.take 3, modified := false } := by rfl
  have e1 := HwEdits.item HwEdits.start d1 h1
  have s1 : dset (exLoaded [(.str "1".toList, {none}), (.str "4".toList, {pX})]) "1".toList { exNamed with props := exNamed.props.take 4 } =
      [("1".toList, { exNamed with props := exNamed.props.take 4 })] := by rfl
  rw [s1] at e1
  have d2 : dget? [("1".toList, { exNamed with props := exNamed.props.take 4 })] "1".toList =
      some { exNamed with props := exNamed.props.take 4 } := by rfl
  have e2 := HwEdits.item e1 d2 h2
  have s2 : dset [("1".toList, { exNamed with props := exNamed.props.take 4 })] "1".toList exNamed = [("1".toList, exNamed)] := by rfl
  rw [s2] at e2
  exact e2

theorem exNew_wf : HwWF exEnvL [("1".toList, exNamed)] := by
  refine ⟨by simp [dkeys], ?_, ?_⟩
  · intro id it h
    simp only [List.mem_singleton, Prod.mk.injEq] at h
    rw [h.2]; exact exNamed_wf
  · intro id it h v S hv
    simp only [List.mem_singleton, Prod.mk.injEq] at h
    obtain ⟨rfl, rfl⟩ := h
    have ht : exNamed.tab (instanceId exEnvL.ver) = [(.str "1".toList, {none})] := rfl
    rw [ht, List.mem_singleton] at hv
    cases hv; rfl

/-- non-vacuity: it is written and read back -/
example (o : Orders) : ∃ s' hw' it', updateXml exEnvL o [("1".toList, exNamed)] exOld = .ok s' ∧ loadHardware exEnvL s' = .ok hw' ∧
    ("1".toList, it') ∈ hw' ∧
    it'.getValue exEnvL itemDescription (some {pX}) = .ok (some (.str "this is 4 virtual cpus".toList)) ∧
    nonItems .v1 s' = [.mk (ovfTag .v1 "Info".toList) [] (some "hardware".toList) none []] := by
  obtain ⟨s', hw', h1, h2, h3, h4, h5, -⟩ := C54_reload_partial (o := o) exOld_loads (C54_edits_noticed exOld_loads exOld_edited).2
    exNew_wf (by
      intro id it h
      simp only [List.mem_singleton, Prod.mk.injEq] at h
      obtain ⟨rfl, rfl⟩ := h
      exact exNamed_storable) exEnvL_literal
  have hk : "1".toList ∈ dkeys hw' := h3.mem_iff.2 (by simp [dkeys])
  obtain ⟨⟨k, it'⟩, hm, hke⟩ := List.mem_map.1 hk
  simp only at hke
  subst hke
  exact ⟨s', hw', it', h1, h2, hm, by rw [h4 _ exNamed it' (List.mem_singleton.2 rfl) hm]; rfl, h5.trans rfl⟩

/-- non-vacuity: a section with one Item per device, not edited, is left alone -/
example : hwModified .v1 (exLoaded [(.str "1".toList, {none})]) (exSection [exCpuElem none "1"]) = false ∧
    loadHardware exEnvL (exSection [exCpuElem none "1"]) = .ok (exLoaded [(.str "1".toList, {none})]) := ⟨by decide +kernel, by rfl⟩

end Cot
