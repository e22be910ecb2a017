import Verif.Lemmas.Isolation
import Verif.Lemmas.SetAll
/-
Edits of one property of the items of one type.
-/
namespace Cot

theorem SameExcept.refl (v : Ver) (codes : List Str) (hw : Hw) : SameExcept v codes hw hw :=
  ⟨fun _ _ h _ => h, fun _ _ h _ _ => h⟩

theorem SameExcept.trans {v : Ver} {c1 c2 : List Str} {a b c : Hw} (h1 : SameExcept v c1 a b)
    (h2 : SameExcept v c2 b c) : SameExcept v (c1 ++ c2) a c :=
  ⟨fun id it h hn => h2.1 id it (h1.1 id it h (fun x hx => hn x (List.mem_append_left _ hx)))
      (fun x hx => hn x (List.mem_append_right _ hx)),
   fun id it h hl hn => h1.2 id it (h2.2 id it h hl (fun x hx => hn x (List.mem_append_right _ hx))) hl
      (fun x hx => hn x (List.mem_append_left _ hx))⟩

theorem SameExcept.mono {v : Ver} {c1 c2 : List Str} {a b : Hw} (h : SameExcept v c1 a b)
    (hs : ∀ x ∈ c1, x ∈ c2) : SameExcept v c2 a b :=
  ⟨fun id it hi hn => h.1 id it hi (fun x hx => hn x (hs x hx)),
   fun id it hi hl hn => h.2 id it hi hl (fun x hx => hn x (hs x hx))⟩

/-- one property of the items of one type was edited -/
structure Edits (env : Env) (code name : Str) (hw hw' : Hw) : Prop where
  keys : dkeys hw' = dkeys hw
  items : ∀ id it, dget? hw id = some it → ∃ it', dget? hw' id = some it' ∧ ItemWF env it' ∧
    (¬ OfType it code → it' = it) ∧ ∀ n, n ≠ name → it'.tab n = it.tab n

theorem Edits.refl {env : Env} {code name : Str} {hw : Hw} (wf : HwWF env hw) : Edits env code name hw hw :=
  ⟨rfl, fun _ it h => ⟨it, h, (wf.get h).1, fun _ => rfl, fun _ _ => rfl⟩⟩

theorem Edits.back {env : Env} {code name : Str} {hw hw' : Hw} (h : Edits env code name hw hw') {id : Str} {it' : Item}
    (hi : dget? hw' id = some it') : ∃ it, dget? hw id = some it ∧ ItemWF env it' ∧
      (¬ OfType it code → it' = it) ∧ ∀ n, n ≠ name → it'.tab n = it.tab n := by
  obtain ⟨it, hit⟩ := dget?_of_mem_dkeys (h.keys ▸ mem_dkeys_of_dget? hi)
  obtain ⟨it2, g1, g2, g3, g4⟩ := h.items id it hit
  rw [hi] at g1; cases g1
  exact ⟨it, hit, g2, g3, g4⟩

theorem ofType_congr {it it' : Item} (h : it'.tab resourceType = it.tab resourceType) (c : Str) :
    OfType it' c ↔ OfType it c := by unfold OfType; rw [h]

theorem hasProfile_congr {env : Env} {it it' : Item} (h : it'.tab (instanceId env.ver) = it.tab (instanceId env.ver))
    (p : Prof) : it'.hasProfile env p = it.hasProfile env p := by
  rw [Bool.eq_iff_iff, hasProfile_iff, hasProfile_iff, h]

theorem Edits.wf {env : Env} {code name : Str} {hw hw' : Hw} (h : Edits env code name hw hw') (wf : HwWF env hw)
    (h1 : name ≠ instanceId env.ver) : HwWF env hw' := by
  refine HwWF.of_edits wf h.keys ?_
  intro id it' hi
  obtain ⟨it, g1, g2, -, g4⟩ := h.back hi
  exact ⟨g2, it, g1, g4 _ h1.symm⟩

theorem Edits.same {env : Env} {code name : Str} {hw hw' : Hw} (h : Edits env code name hw hw')
    (h2 : name ≠ resourceType) : SameExcept env.ver [code] hw hw' := by
  refine ⟨?_, ?_⟩
  · intro id it hi hn
    obtain ⟨it', g1, -, g3, -⟩ := h.items id it hi
    rw [g1, g3 (hn code (by simp))]
  · intro id it' hi _ hn
    obtain ⟨it, g1, -, g3, g4⟩ := h.back hi
    have : ¬ OfType it code := by
      rw [← ofType_congr (g4 _ h2.symm)]; exact hn code (by simp)
    rw [g1, g3 this]

theorem countOf_keys {env env' : Env} {hw hw' : Hw} {code : Str} {p : Prof} (hk : dkeys hw' = dkeys hw)
    (hnd : (dkeys hw).Nodup) (h : ∀ id it it', dget? hw id = some it → dget? hw' id = some it' →
      (OfType it' code ∧ it'.hasProfile env' p = true ↔ OfType it code ∧ it.hasProfile env p = true)) :
    countOf env' hw' code p = countOf env hw code p := by
  have key : ∀ (l l' : Hw), dkeys l' = dkeys l → (dkeys l).Nodup →
      (∀ id it it', dget? l id = some it → dget? l' id = some it' →
        (OfType it' code ∧ it'.hasProfile env' p = true ↔ OfType it code ∧ it.hasProfile env p = true)) →
      countOf env' l' code p = countOf env l code p := by
    intro l
    induction l with
    | nil => intro l' hk _ _; cases l' with
      | nil => rfl
      | cons a b => simp [dkeys] at hk
    | cons a r ih =>
      intro l' hk hnd hh
      cases l' with
      | nil => simp [dkeys] at hk
      | cons b r' =>
        obtain ⟨k, x⟩ := a
        obtain ⟨k', y⟩ := b
        simp only [dkeys, List.map_cons, List.cons.injEq] at hk
        obtain ⟨rfl, hk⟩ := hk
        simp only [dkeys, List.map_cons, List.nodup_cons] at hnd
        have ih' := ih r' hk hnd.2 (by
          intro id it it' g1 g2
          have hne : k' ≠ id := by
            rintro rfl; exact hnd.1 (mem_dkeys_of_dget? g1)
          refine hh id it it' ?_ ?_ <;> simp only [dget?, if_neg hne] <;> assumption)
        have hx := hh k' x y (by simp [dget?]) (by simp [dget?])
        unfold countOf at ih' ⊢
        have e : (decide (OfType y code) && y.hasProfile env' p) = (decide (OfType x code) && x.hasProfile env p) := by
          rw [Bool.eq_iff_iff]; simpa using hx
        simp only [List.filter_cons, e]
        split
        · simp only [List.length_cons, ih']
        · exact ih'
  exact key hw hw' hk hnd h

theorem Edits.count {env : Env} {code name : Str} {hw hw' : Hw} (h : Edits env code name hw hw') (wf : HwWF env hw)
    (h1 : name ≠ instanceId env.ver) (h2 : name ≠ resourceType) (c : Str) (p : Prof) :
    countOf env hw' c p = countOf env hw c p := by
  refine countOf_keys h.keys wf.keys ?_
  intro id it it' g1 g2
  obtain ⟨it2, k1, -, -, k4⟩ := h.items id it g1
  rw [g2] at k1; cases k1
  rw [ofType_congr (k4 _ h2.symm), hasProfile_congr (k4 _ h1.symm)]

theorem Edits.of_ids {env : Env} {hw hw' : Hw} {code name : Str} {ids : List Str} (wf : HwWF env hw)
    (hmem : ∀ id, id ∈ ids → ∃ it, dget? hw id = some it ∧ OfType it code) (hk : dkeys hw' = dkeys hw)
    (ho : ∀ id, id ∉ ids → dget? hw' id = dget? hw id)
    (hi : ∀ id ∈ ids, ∃ it it', dget? hw id = some it ∧ dget? hw' id = some it' ∧ ItemWF env it' ∧
      ∀ n, n ≠ name → it'.tab n = it.tab n) : Edits env code name hw hw' := by
  refine ⟨hk, ?_⟩
  intro id it hit
  by_cases hm : id ∈ ids
  · obtain ⟨x, it', g1, g2, g3, g4⟩ := hi id hm
    rw [hit] at g1; cases g1
    obtain ⟨y, k1, k2⟩ := hmem id hm
    rw [hit] at k1; cases k1
    exact ⟨it', g2, g3, fun hn => absurd k2 hn, g4⟩
  · exact ⟨it, by rw [ho id hm]; exact hit, (wf.get hit).1, fun _ => rfl, fun _ _ => rfl⟩

theorem typeIds_mem {env : Env} {hw : Hw} {rt code : Str} {ids : List Str} (wf : HwWF env hw)
    (hc : resourceCode rt = .ok code) (hids : findAllItems env hw (some rt) [] [] = .ok ids) :
    ids.Nodup ∧ ids.Pairwise NatLe ∧ ∀ id, id ∈ ids ↔ ∃ it, dget? hw id = some it ∧ OfType it code := by
  obtain ⟨hnd, hs, hspec⟩ := findAllItems_spec wf.keys (resourceCode_ne hc).1 hids
  refine ⟨hnd, hs, ?_⟩
  rcases hspec with ⟨rfl, rfl⟩ | ⟨c, hc', hm⟩
  · intro id; simp
  · rw [hc] at hc'; cases hc'; exact hm

/-- the edits of `set_value_for_all_items`, when there are items of the type or none is to be created -/
theorem setValueForAll_edits {env : Env} {hw hw' : Hw} {rt name code : Str} {val : InVal} {P : List Prof} {cn : Bool}
    (wf : HwWF env hw) (hc : resourceCode rt = .ok code)
    (hex : cn = true → ∃ id it, dget? hw id = some it ∧ OfType it code)
    (h : setValueForAll env hw rt name val P cn = .ok hw') :
    Edits env code name hw hw' ∧ ∀ id it, dget? hw id = some it → OfType it code →
      ∃ it', dget? hw' id = some it' ∧ it.setProperty env name val P.toFinset true = .ok it' := by
  unfold setValueForAll at h
  obtain ⟨ids, hids, h⟩ := bind_ok_inv h
  obtain ⟨hnd, -, hmem⟩ := typeIds_mem wf hc hids
  by_cases he : ids = []
  · rw [if_pos he] at h
    have hno : ∀ id it, dget? hw id = some it → OfType it code → False := by
      intro id it h1 h2
      have := (hmem id).2 ⟨it, h1, h2⟩
      rw [he] at this; cases this
    cases cn with
    | false => cases h; exact ⟨Edits.refl wf, fun id it h1 h2 => (hno id it h1 h2).elim⟩
    | true => obtain ⟨id, it, h1, h2⟩ := hex rfl; exact (hno id it h1 h2).elim
  · rw [if_neg he] at h
    obtain ⟨k1, k2, k3⟩ := setEach_spec ids hnd h
    refine ⟨Edits.of_ids wf (fun id hid => (hmem id).1 hid) k1 k2 ?_, ?_⟩
    · intro id hid
      obtain ⟨it, it', g1, g2, g3⟩ := k3 id hid
      obtain ⟨_, _, w, o, _⟩ := setProperty_spec (wf.get g1).1 g3
      exact ⟨it, it', g1, g2, w, o⟩
    · intro id it h1 h2
      obtain ⟨x, it', g1, g2, g3⟩ := k3 id ((hmem id).2 ⟨it, h1, h2⟩)
      rw [h1] at g1; cases g1
      exact ⟨it', g2, g3⟩

/-- `set_value_for_all_items` when an item is created -/
theorem setValueForAll_creates {env : Env} {hw hw' : Hw} {rt name code : Str} {val : InVal} {P : List Prof}
    (wf : HwWF env hw) (hc : resourceCode rt = .ok code) (h1 : name ≠ instanceId env.ver) (h2 : name ≠ resourceType)
    (hex : ¬ ∃ id it, dget? hw id = some it ∧ OfType it code)
    (h : setValueForAll env hw rt name val P true = .ok hw') :
    ∃ id it0 it, id ∉ dkeys hw ∧ hw' = dset hw id it ∧ it0.setProperty env name val P.toFinset true = .ok it ∧
      ItemWF env it0 ∧ ItemWF env it ∧
      it.tab (instanceId env.ver) = [(.str id, collapse (if P.toFinset = ∅ then {none} else P.toFinset))] ∧
      it.tab resourceType = [(.str code, collapse (if P.toFinset = ∅ then {none} else P.toFinset))] ∧
      (∀ n, n ≠ instanceId env.ver → n ≠ resourceType → n ≠ elementName env.ver → it0.tab n = []) ∧
      (∀ n, n ≠ name → it.tab n = it0.tab n) := by
  unfold setValueForAll at h
  obtain ⟨ids, hids, h⟩ := bind_ok_inv h
  obtain ⟨hnd, -, hmem⟩ := typeIds_mem wf hc hids
  have he : ids = [] := by
    rw [List.eq_nil_iff_forall_not_mem]
    intro id hid
    obtain ⟨it, g1, g2⟩ := (hmem id).1 hid
    exact hex ⟨id, it, g1, g2⟩
  rw [if_pos he] at h
  simp only [Bool.true_eq_false, if_false] at h
  obtain ⟨⟨id, hw1⟩, hn, h⟩ := bind_ok_inv h
  obtain ⟨z, code', it0, -, -, hfresh, hc', rfl, wfi, t1, t2, t3, -⟩ := newItem_spec hn
  rw [hc] at hc'; cases hc'
  unfold setEach at h
  rw [dget?_dset, if_pos rfl] at h
  simp only at h
  split at h
  · cases h
  · rename_i it hs
    unfold setEach at h
    cases h
    obtain ⟨_, _, w, o, _⟩ := setProperty_spec wfi hs
    refine ⟨id, it0, it, hfresh, ?_, hs, wfi, w, by rw [o _ h1.symm, t1], by rw [o _ h2.symm, t2], t3, o⟩
    rw [dset_dset]

theorem setValueForAll_frame {env : Env} {hw hw' : Hw} {rt name code : Str} {val : InVal} {P : List Prof} {cn : Bool}
    (wf : HwWF env hw) (hc : resourceCode rt = .ok code) (h1 : name ≠ instanceId env.ver) (h2 : name ≠ resourceType)
    (h : setValueForAll env hw rt name val P cn = .ok hw') : HwWF env hw' ∧ SameExcept env.ver [code] hw hw' := by
  by_cases hex : cn = true → ∃ id it, dget? hw id = some it ∧ OfType it code
  · have := (setValueForAll_edits wf hc hex h).1
    exact ⟨this.wf wf h1, this.same h2⟩
  · have hcn : cn = true := by
      by_contra hh; exact hex (fun h => absurd h hh)
    subst hcn
    obtain ⟨id, it0, it, hfresh, rfl, -, -, w, t1, t2, -⟩ :=
      setValueForAll_creates wf hc h1 h2 (fun hh => hex (fun _ => hh)) h
    refine ⟨⟨?_, ?_, ?_⟩, ?_, ?_⟩
    · have : dkeys (dset hw id it) = dkeys hw ++ [id] := by rw [dset_new hfresh]; simp [dkeys]
      rw [this, List.nodup_append]
      exact ⟨wf.keys, by simp, by intro a ha b hb; simp at hb; subst hb; rintro rfl; exact hfresh ha⟩
    · intro i x hm
      rw [dset_new hfresh] at hm
      rcases List.mem_append.1 hm with hm | hm
      · exact wf.items i x hm
      · simp at hm; rw [hm.2]; exact w
    · intro i x hm v S hv
      rw [dset_new hfresh] at hm
      rcases List.mem_append.1 hm with hm | hm
      · exact wf.ident i x hm v S hv
      · simp at hm; rw [hm.2, t1] at hv; simp at hv; rw [hv.1, hm.1]
    · intro i x hi _
      have : id ≠ i := by rintro rfl; exact hfresh (mem_dkeys_of_dget? hi)
      rw [dget?_dset, if_neg this]; exact hi
    · intro i x hi _ hn
      rw [dget?_dset] at hi
      split at hi
      · cases hi; exact absurd ⟨_, t2⟩ (hn code (by simp))
      · exact hi

theorem setUnder_edit {env : Env} {name : Str} {val : InVal} : ∀ (L : List Prof) {it it' : Item}, ItemWF env it →
    setUnder env name val L it = .ok it' → ItemWF env it' ∧ ∀ n, n ≠ name → it'.tab n = it.tab n
  | [], it, it', wf, h => by cases h; exact ⟨wf, fun _ _ => rfl⟩
  | p :: r, it, it', wf, h => by
    unfold setUnder at h
    split at h
    · split at h
      · cases h
      · rename_i it1 h1
        obtain ⟨_, _, w, o, _⟩ := setProperty_spec wf h1
        obtain ⟨w2, o2⟩ := setUnder_edit r w h
        exact ⟨w2, fun n hn => by rw [o2 n hn, o n hn]⟩
    · exact setUnder_edit r wf h

theorem setItemValues_edits {env : Env} {hw hw' : Hw} {rt name code : Str} {vs : List InVal} {dflt : InVal}
    {profiles : Option (List Prof)} (wf : HwWF env hw) (hc : resourceCode rt = .ok code)
    (h : setItemValues env hw rt name vs profiles dflt = .ok hw') : Edits env code name hw hw' := by
  unfold setItemValues at h
  obtain ⟨ids, hids, h⟩ := bind_ok_inv h
  obtain ⟨hnd, -, hmem⟩ := typeIds_mem wf hc hids
  obtain ⟨k1, k2, k3⟩ := setValuesLoop_spec ids vs hnd h
  refine Edits.of_ids wf (fun id hid => (hmem id).1 hid) k1 k2 ?_
  intro id hid
  obtain ⟨i, hi, rfl⟩ := List.getElem_of_mem hid
  obtain ⟨it, it', g1, g2, g3⟩ := k3 i hi
  obtain ⟨w, o⟩ := setUnder_edit _ (wf.get g1).1 g3
  exact ⟨it, it', g1, g2, w, o⟩

theorem Countable.of_same {env : Env} {code : Str} {P : List Prof} {hw hw' : Hw} {codes : List Str}
    (h : Countable env code P hw) (hs : SameExcept env.ver codes hw hw') (hc : code ∉ codes) :
    Countable env code P hw' := by
  have key : ∀ id it, dget? hw' id = some it → OfType it code → dget? hw id = some it := by
    intro id it hi ht
    obtain ⟨S, hS⟩ := ht
    refine hs.2 id it hi (Or.inr (by rw [hS]; simp)) ?_
    rintro c hcc ⟨T, hT⟩
    rw [hS] at hT
    simp only [List.cons.injEq, Prod.mk.injEq, Val.str.injEq, and_true] at hT
    exact hc (hT.1 ▸ hcc)
  exact ⟨fun id it hi ht => h.twin id it (key id it hi ht) ht, h.nodup, h.cfgNodup, h.known,
    fun hP id it hi ht => h.dflt hP id it (key id it hi ht) ht⟩

theorem setItemCount_frame {env : Env} {nicName : Nat → Str} {hw hw' : Hw} {rt code : Str} {count : Nat} {P : List Prof}
    (wf : HwWF env hw) (hc : resourceCode rt = .ok code) (hcn : Countable env code P hw)
    (h : setItemCount env nicName hw rt count P = .ok hw') :
    HwWF env hw' ∧ SameExcept env.ver [code] hw hw' ∧
      (∀ id it', dget? hw' id = some it' → OfType it' code → Twin env.ver it') ∧
      (∀ p ∈ allProfilesIfEmpty env P, countOf env hw' code p = count) := by
  by_cases hP : P = []
  · subst hP
    obtain ⟨k1, k2, k3, k4, k5, k6⟩ := C12_set_item_count_all_partial wf hc hcn.cfgNodup hcn.twin (hcn.dflt rfl) h
    refine ⟨k4, ⟨fun id it hi hn => k3 id it hi (hn code (by simp)), fun id it hi hl hn => k5 id it hi hl (hn code (by simp))⟩, k6, ?_⟩
    intro p hp
    have : allProfilesIfEmpty env [] = env.configProfiles.map some ++ [none] := rfl
    rw [this] at hp
    simp only [List.mem_append, List.mem_map, List.mem_singleton] at hp
    rcases hp with ⟨c, hc, rfl⟩ | rfl
    · exact k2 c hc
    · exact k1
  · obtain ⟨k1, k2, k3, k4, k5, k6⟩ := C12_set_item_count_named_partial wf hc hcn.twin hP hcn.nodup hcn.known h
    refine ⟨k4, ⟨fun id it hi hn => k3 id it hi (hn code (by simp)), fun id it hi hl hn => k5 id it hi hl (hn code (by simp))⟩, k6, ?_⟩
    have : allProfilesIfEmpty env P = P := by unfold allProfilesIfEmpty; rw [if_neg hP]
    rw [this]
    exact k1

end Cot
