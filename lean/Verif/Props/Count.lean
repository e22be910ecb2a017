import Verif.Lemmas.Count
import Verif.Props.Hardware
/-
C12: `set_item_count_per_profile` and `get_item_count_per_profile`.
-/
namespace Cot

theorem dev_of_twin {env : Env} {hw : Hw} {id code : Str} {it : Item} (wf : HwWF env hw)
    (hit : dget? hw id = some it) (hty : OfType it code) (htw : Twin env.ver it) :
    ∃ S, Dev env id code S it ∧ S ≠ ∅ := by
  obtain ⟨w, S, hS⟩ := wf.get hit
  obtain ⟨T, hT⟩ := hty
  unfold Twin at htw
  rw [hT, hS] at htw
  unfold tagTab at htw
  by_cases he : S = ∅
  · rw [if_pos he] at htw; simp at htw
  · rw [if_neg he] at htw
    simp at htw
    subst htw
    exact ⟨S, ⟨w, hS, by rw [hT]; simp [tagTab, he]⟩, he⟩

theorem allProfilesIfEmpty_ne (env : Env) (P : List Prof) : allProfilesIfEmpty env P ≠ [] := by
  unfold allProfilesIfEmpty
  split
  · simp
  · assumption

theorem allProfilesIfEmpty_idem (env : Env) (P : List Prof) :
    allProfilesIfEmpty env (allProfilesIfEmpty env P) = allProfilesIfEmpty env P := by
  have h := allProfilesIfEmpty_ne env P
  generalize allProfilesIfEmpty env P = L at h ⊢
  unfold allProfilesIfEmpty
  rw [if_neg h]

/-- **C12 (reading).** `get_item_count_per_profile` reports, for each requested profile, the number of
items of the type that exist in it. -/
theorem C12_get_item_count {env : Env} {hw : Hw} {rt code : Str} {L : List Prof} {d : Prof → Nat}
    (wf : HwWF env hw) (hc : resourceCode rt = .ok code) (hL : (allProfilesIfEmpty env L).Nodup)
    (h : itemCounts env hw rt L = .ok d) :
    ∀ p ∈ allProfilesIfEmpty env L, d p = countOf env hw code p := by
  intro p hp
  obtain ⟨ids, hids⟩ := findAllItems_ok (env := env) (hw := hw) hc
  obtain ⟨hnd, -, hspec⟩ := findAllItems_spec wf.keys (resourceCode_ne hc).1 hids
  have hmem : ∀ id, id ∈ ids ↔ ∃ it, dget? hw id = some it ∧ OfType it code := by
    rcases hspec with ⟨rfl, rfl⟩ | ⟨c, hc', hm⟩
    · intro id; simp
    · rw [hc] at hc'; cases hc'; exact hm
  rw [itemCounts_inv h hids hL hp, countOf_eq wf.keys hnd]
  intro id it hit _
  rw [hmem]
  constructor
  · intro h; exact ⟨it, hit, h⟩
  · rintro ⟨it', h1, h2⟩; rw [hit] at h1; cases h1; exact h2

example : ∃ d, itemCounts exEnv exHw "ethernet".toList [] = .ok d ∧ d pX = 2 ∧ d none = 2 ∧
    HwWF exEnv exHw ∧ (allProfilesIfEmpty exEnv []).Nodup :=
  ⟨_, rfl, rfl, rfl, exHw_wf, by decide +kernel⟩

theorem countOf_append (env : Env) (a b : Hw) (code : Str) (p : Prof) :
    countOf env (a ++ b) code p = countOf env a code p + countOf env b code p := by
  unfold countOf; simp

theorem countOf_new {env : Env} {new : Hw} {code : Str} {T : PSet} {p : Prof}
    (h : ∀ e ∈ new, Dev env e.1 code T e.2) (hT : T ≠ ∅) :
    countOf env new code p = if HasS env T p then new.length else 0 := by
  unfold countOf
  split
  · rename_i hp
    rw [List.filter_eq_self.2]
    intro e he
    have hd := h e he
    simp only [Bool.and_eq_true, decide_eq_true_eq]
    exact ⟨(hd.ofType code).2 ⟨hT, rfl⟩, (hd.hasS p).2 hp⟩
  · rename_i hp
    rw [List.filter_eq_nil_iff.2]
    · rfl
    · intro e he
      have hd := h e he
      simp only [Bool.and_eq_true, decide_eq_true_eq, not_and]
      intro _ hx; exact hp ((hd.hasS p).1 hx)

theorem Dev.ident {env : Env} {id code : Str} {S : PSet} {it : Item} (h : Dev env id code S it) :
    ∀ v T, (v, T) ∈ it.tab (instanceId env.ver) → v = .str id := by
  intro v T hv
  rw [h.iid] at hv
  unfold tagTab at hv
  split at hv <;> simp at hv
  exact hv.1

/-- a collection made of untouched items, items of the type, and new items is consistent -/
theorem hwWF_of_devs {env : Env} {hw hw' : Hw} {code : Str} (wf : HwWF env hw) (hk : (dkeys hw').Nodup)
    (h : ∀ id it, dget? hw' id = some it → dget? hw id = some it ∨ ∃ S, Dev env id code S it) :
    HwWF env hw' := by
  refine ⟨hk, ?_, ?_⟩
  · intro id it hm
    rcases h id it (dget?_of_mem hk hm) with h | ⟨S, h⟩
    · exact (wf.get h).1
    · exact h.wf
  · intro id it hm
    rcases h id it (dget?_of_mem hk hm) with h | ⟨S, h⟩
    · exact wf.ident id it (dget?_mem h)
    · exact h.ident

/-- moreover, no item of another type comes into being, and the items of the type still have matching profile sets -/
theorem frame_of_devs {env : Env} {hw hw' : Hw} {code : Str} (wf : HwWF env hw) (hk : (dkeys hw').Nodup)
    (htw : ∀ id it, dget? hw id = some it → OfType it code → Twin env.ver it)
    (h : ∀ id it, dget? hw' id = some it → dget? hw id = some it ∨ ∃ S, Dev env id code S it) :
    HwWF env hw' ∧
    (∀ id it', dget? hw' id = some it' → Live env.ver it' → ¬ OfType it' code → dget? hw id = some it') ∧
    (∀ id it', dget? hw' id = some it' → OfType it' code → Twin env.ver it') := by
  refine ⟨hwWF_of_devs wf hk h, ?_, ?_⟩
  · intro id it' hit hl ht
    rcases h id it' hit with h | ⟨S, h⟩
    · exact h
    · refine absurd ((h.ofType code).2 ⟨?_, rfl⟩) ht
      rintro rfl
      rcases hl with hl | hl
      · exact hl (by rw [h.iid]; rfl)
      · exact hl (by rw [h.rt]; rfl)
  · intro id it' hit ht
    rcases h id it' hit with h | ⟨S, h⟩
    · exact htw id it' h ht
    · unfold Twin
      rw [h.iid, h.rt]
      unfold tagTab
      split <;> rfl

theorem dget?_append {κ ν : Type} [DecidableEq κ] (a b : List (κ × ν)) (k : κ) :
    dget? (a ++ b) k = (dget? a k).or (dget? b k) := by
  induction a with
  | nil => simp [dget?]
  | cons e a ih =>
    obtain ⟨k', v⟩ := e
    simp only [List.cons_append, dget?]
    split
    · rfl
    · exact ih

/-- **C12, named profiles.** If `set_item_count_per_profile(type, n, profiles)` returns, for a list of
distinct configured profiles, then each of those profiles has exactly `n` items of the type, every
other configured profile has as many as before, items of other types are untouched, and only items of the type are
added. -/
theorem C12_set_item_count_named_partial {env : Env} {nicName : Nat → Str} {hw hw' : Hw} {rt code : Str}
    {count : Nat} {profiles : List Prof} (wf : HwWF env hw) (hc : resourceCode rt = .ok code)
    (htw : ∀ id it, dget? hw id = some it → OfType it code → Twin env.ver it)
    (hne : profiles ≠ []) (hnd : profiles.Nodup)
    (hcfg : ∀ p ∈ profiles, ∃ c ∈ env.configProfiles, p = some c)
    (h : setItemCount env nicName hw rt count profiles = .ok hw') :
    (∀ p ∈ profiles, countOf env hw' code p = count) ∧
    (∀ c ∈ env.configProfiles, some c ∉ profiles →
      countOf env hw' code (some c) = countOf env hw code (some c)) ∧
    (∀ id it, dget? hw id = some it → ¬ OfType it code → dget? hw' id = some it) ∧
    HwWF env hw' ∧
    (∀ id it', dget? hw' id = some it' → Live env.ver it' → ¬ OfType it' code → dget? hw id = some it') ∧
    (∀ id it', dget? hw' id = some it' → OfType it' code → Twin env.ver it') := by
  have hcfg' : ∀ p ∈ profiles, p ∈ env.cfgSet := by
    intro p hp; obtain ⟨c, h, rfl⟩ := hcfg p hp; exact mem_cfgSet.2 h
  unfold setItemCount at h
  have hLL : allProfilesIfEmpty env profiles = profiles := by
    unfold allProfilesIfEmpty; rw [if_neg hne]
  simp only [hLL] at h
  obtain ⟨cd, hcd, h⟩ := bind_ok_inv h
  obtain ⟨ids, hids, h⟩ := bind_ok_inv h
  obtain ⟨⟨hw1, cd1, seen1⟩, hex, h⟩ := bind_ok_inv h
  simp only at h
  obtain ⟨hndi, -, hspec⟩ := findAllItems_spec wf.keys (resourceCode_ne hc).1 hids
  have hmem : ∀ id, id ∈ ids ↔ ∃ it, dget? hw id = some it ∧ OfType it code := by
    rcases hspec with ⟨rfl, rfl⟩ | ⟨c, hc', hm⟩
    · intro id; simp
    · rw [hc] at hc'; cases hc'; exact hm
  have hdevs : ∀ id ∈ ids, ∃ it S, dget? hw id = some it ∧ Dev env id code S it ∧ S ≠ ∅ := by
    intro id hid
    obtain ⟨it, h1, h2⟩ := (hmem id).1 hid
    obtain ⟨S, h3, h4⟩ := dev_of_twin wf h1 h2 (htw id it h1 h2)
    exact ⟨it, S, h1, h3, h4⟩
  have hinv : ∀ p ∈ profiles, CountInv count 0 (numHas env hw p ids) (cd p) 0 := by
    intro p hp
    have := itemCounts_inv hcd hids (by rw [hLL]; exact hnd) (by rw [hLL]; exact hp)
    rw [this]
    exact ⟨by omega, by omega, by omega, by omega⟩
  obtain ⟨k1, k2, k3, k4⟩ := existingLoop_named hnd hcfg' ids hndi hdevs hinv hex
  have hk1 : (dkeys hw1).Nodup := by rw [k1]; exact wf.keys
  -- counts after the existing items
  have hcount1 : ∀ p, countOf env hw1 code p = numHas env hw1 p ids := by
    intro p
    apply countOf_eq hk1 hndi
    intro id it hit hh
    by_cases hm : id ∈ ids
    · obtain ⟨it2, S, g1, g2, -⟩ := k3 id hm
      rw [hit] at g1; cases g1
      exact ⟨fun _ => hm, fun _ => (g2.ofType code).2 ⟨((g2.hasS p).1 hh).ne, rfl⟩⟩
    · refine ⟨fun ht => ?_, fun h => absurd h hm⟩
      rw [k2 id hm] at hit
      exact (hmem id).2 ⟨it, hit, ht⟩
  have hcount0 : ∀ p, countOf env hw code p = numHas env hw p ids := by
    intro p
    apply countOf_eq wf.keys hndi
    intro id it hit _
    rw [hmem]
    exact ⟨fun h => ⟨it, hit, h⟩, fun ⟨it', h1, h2⟩ => by rw [hit] at h1; cases h1; exact h2⟩
  have hseen : ∀ p ∈ profiles, seen1 p = numHas env hw1 p ids ∧
      CountInv count ids.length 0 (cd1 p) (seen1 p) := by
    intro p hp
    obtain ⟨a, b⟩ := k4 p hp
    simp only [Nat.zero_add] at a b
    exact ⟨a, b⟩
  have hother : ∀ c ∈ env.configProfiles, some c ∉ profiles →
      countOf env hw1 code (some c) = countOf env hw code (some c) := by
    intro c hcc hcp
    rw [hcount1, hcount0]
    apply numHas_congr
    intro id hid
    obtain ⟨_, _, _, _, g⟩ := k3 id hid
    exact g (some c) (mem_cfgSet.2 hcc) hcp
  have hframe1 : ∀ id it, dget? hw id = some it → ¬ OfType it code → dget? hw1 id = some it := by
    intro id it h1 h2
    rw [k2 id, h1]
    intro hm
    obtain ⟨it', g1, g2⟩ := (hmem id).1 hm
    rw [h1] at g1; cases g1; exact h2 g2
  have hwf1 : ∀ id it, dget? hw1 id = some it → dget? hw id = some it ∨ ∃ S, Dev env id code S it := by
    intro id it hit
    by_cases hm : id ∈ ids
    · obtain ⟨it2, S, g1, g2, -⟩ := k3 id hm
      rw [hit] at g1; cases g1; exact Or.inr ⟨S, g2⟩
    · rw [k2 id hm] at hit; exact Or.inl hit
  by_cases hfew : ids.length < count
  · -- all items have all the profiles; create the missing ones
    have hall : ∀ p ∈ profiles, seen1 p = ids.length ∧ cd1 p = ids.length := by
      intro p hp
      obtain ⟨-, i1, i2, i3, i4⟩ := hseen p hp
      by_cases hcc : cd1 p < count
      · have := i4 hcc; omega
      · have := i3 (by omega); omega
    have hadd : itemsToAdd count profiles seen1 = count - ids.length := by
      unfold itemsToAdd
      rw [itemsToAdd_const (s := ids.length) 0 (fun p hp => (hall p hp).1), if_neg hne]; omega
    rw [hadd] at h
    have hnn : none ∉ profiles := by
      intro hn; exact none_not_cfg env (hcfg' none hn)
    have hcol : collapse profiles.toFinset = profiles.toFinset :=
      collapse_eq_self (fun h => absurd (List.mem_toFinset.1 h) hnn)
    have hTne : profiles.toFinset ≠ ∅ := by
      intro h; rw [List.toFinset_eq_empty_iff] at h; exact hne h
    have hallhas : ∀ p ∈ profiles, ∀ id ∈ ids, hasAt env hw1 p id = true := by
      intro p hp
      have h1 := (hseen p hp).1
      rw [(hall p hp).1] at h1
      unfold numHas at h1
      exact List.filter_eq_self.1 (List.filter_sublist.eq_of_length h1.symm)
    obtain ⟨new, e1, e2, e3, e4⟩ := addLoop_spec (Par := fun S => ∀ p ∈ profiles, HasS env S p)
      hnd hne hc hcol
      (by intro p hp; exact Or.inl (List.mem_toFinset.2 hp))
      (by
        intro id it S it1 hd hpar hst
        obtain ⟨S1, hd1, hq⟩ := cloneStrip_dev env.configProfiles (fun _ h => h) hd hst
        refine ⟨S1, hd1, fun hsub => Finset.Subset.antisymm hsub ?_⟩
        intro p hp
        have hp' := List.mem_toFinset.1 hp
        rcases hq p (hcfg' p hp') hp' (hpar p hp') with h | ⟨h, _⟩
        · exact h
        · exact absurd (List.mem_toFinset.1 (hsub h)) hnn)
      (count - ids.length) (c := ids.length) hk1 (fun p hp => (hall p hp).2) (by omega)
      (by
        intro l hl
        have hlm : l ∈ ids := List.mem_of_getLast? hl
        obtain ⟨it, S, g1, g2, -⟩ := k3 l hlm
        have hpar : ∀ p ∈ profiles, HasS env S p := by
          intro p hp
          have := hallhas p hp l hlm
          rw [hasAt_some g1] at this
          exact (g2.hasS p).1 this
        obtain ⟨p0, hp0⟩ := List.exists_mem_of_ne_nil _ hne
        exact ⟨it, S, g1, g2, (hpar p0 hp0).ne, hpar⟩) h
    subst e1
    refine ⟨?_, ?_, ?_, ?_⟩
    · intro p hp
      have hh : HasS env profiles.toFinset p := Or.inl (List.mem_toFinset.2 hp)
      rw [countOf_append, hcount1, ← (hseen p hp).1, (hall p hp).1, countOf_new e4 hTne, if_pos hh, e2]
      omega
    · intro c hcc hcp
      have hh : ¬ HasS env profiles.toFinset (some c) := by
        rintro (h | ⟨h, _⟩)
        · exact hcp (List.mem_toFinset.1 h)
        · exact hnn (List.mem_toFinset.1 h)
      rw [countOf_append, hother c hcc hcp, countOf_new e4 hTne, if_neg hh, Nat.add_zero]
    · intro id it h1 h2
      rw [dget?_append, hframe1 id it h1 h2]; rfl
    · refine frame_of_devs (code := code) wf e3 htw ?_
      intro id it hit
      rw [dget?_append] at hit
      cases hd : dget? hw1 id with
      | some x => rw [hd] at hit; cases hit; exact hwf1 id it hd
      | none =>
        rw [hd] at hit
        exact Or.inr ⟨_, e4 _ (dget?_mem hit)⟩
  · -- enough items: nothing to create
    have hall : ∀ p ∈ profiles, seen1 p = count := by
      intro p hp
      obtain ⟨-, i1, i2, i3, i4⟩ := hseen p hp
      by_cases hcc : cd1 p < count
      · have := i4 hcc; omega
      · have := i3 (by omega); omega
    have hadd : itemsToAdd count profiles seen1 = 0 := by
      unfold itemsToAdd
      rw [itemsToAdd_const (s := count) 0 hall, if_neg hne]; omega
    rw [hadd] at h
    cases h
    refine ⟨?_, hother, hframe1, frame_of_devs wf hk1 htw hwf1⟩
    intro p hp
    rw [hcount1, ← (hseen p hp).1, hall p hp]

/-- **C12, all profiles.** If `set_item_count_per_profile(type, n)` without a profile list returns, and
every item of the type was stored for the default profile, then every profile, and the default, has
exactly `n` items of the type, items of other types are untouched, and only items of the type are added. -/
theorem C12_set_item_count_all_partial {env : Env} {nicName : Nat → Str} {hw hw' : Hw} {rt code : Str}
    {count : Nat} (wf : HwWF env hw) (hc : resourceCode rt = .ok code)
    (hcfg : env.configProfiles.Nodup)
    (htw : ∀ id it, dget? hw id = some it → OfType it code → Twin env.ver it)
    (hdef : ∀ id it, dget? hw id = some it → OfType it code → it.hasProfile env none = true)
    (h : setItemCount env nicName hw rt count [] = .ok hw') :
    countOf env hw' code none = count ∧
    (∀ c ∈ env.configProfiles, countOf env hw' code (some c) = count) ∧
    (∀ id it, dget? hw id = some it → ¬ OfType it code → dget? hw' id = some it) ∧
    HwWF env hw' ∧
    (∀ id it', dget? hw' id = some it' → Live env.ver it' → ¬ OfType it' code → dget? hw id = some it') ∧
    (∀ id it', dget? hw' id = some it' → OfType it' code → Twin env.ver it') := by
  unfold setItemCount at h
  simp only at h
  generalize hLdef : allProfilesIfEmpty env [] = L at h
  have hL : L = env.configProfiles.map some ++ [none] := by rw [← hLdef]; rfl
  have hmemL : ∀ p, p ∈ L ↔ p = none ∨ p ∈ env.cfgSet := by
    intro p; rw [hL]; simp [Env.cfgSet]; exact Or.comm
  have hnd : L.Nodup := by
    rw [hL, List.nodup_append]
    refine ⟨hcfg.map (Option.some_injective _), by simp, ?_⟩
    intro a ha b hb
    simp at hb ha; subst hb
    obtain ⟨c, _, rfl⟩ := ha; simp
  have hne : L ≠ [] := by rw [hL]; simp
  have hLL : allProfilesIfEmpty env L = L := by rw [← hLdef]; exact allProfilesIfEmpty_idem _ _
  obtain ⟨cd, hcd, h⟩ := bind_ok_inv h
  obtain ⟨ids, hids, h⟩ := bind_ok_inv h
  obtain ⟨⟨hw1, cd1, seen1⟩, hex, h⟩ := bind_ok_inv h
  simp only at h
  obtain ⟨hndi, -, hspec⟩ := findAllItems_spec wf.keys (resourceCode_ne hc).1 hids
  have hmem : ∀ id, id ∈ ids ↔ ∃ it, dget? hw id = some it ∧ OfType it code := by
    rcases hspec with ⟨rfl, rfl⟩ | ⟨c, hc', hm⟩
    · intro id; simp
    · rw [hc] at hc'; cases hc'; exact hm
  have hdevs : ∀ id ∈ ids, ∃ it, dget? hw id = some it ∧ Dev env id code {none} it := by
    intro id hid
    obtain ⟨it, h1, h2⟩ := (hmem id).1 hid
    obtain ⟨S, h3, h4⟩ := dev_of_twin wf h1 h2 (htw id it h1 h2)
    have hn : none ∈ S := by
      rcases (h3.hasS none).1 (hdef id it h1 h2) with h | ⟨h, _⟩ <;> exact h
    rw [h3.dflt hn] at h3
    exact ⟨it, h1, h3⟩
  have hcd0 : ∀ p ∈ L, cd p = ids.length ∧ (0 : Nat) = min 0 count := by
    intro p hp
    have := itemCounts_inv hcd hids (by rw [hLL]; exact hnd) (by rw [hLL]; exact hp)
    rw [this]
    refine ⟨?_, by simp⟩
    unfold numHas
    rw [List.filter_eq_self.2]
    intro id hid
    obtain ⟨it, g1, g2⟩ := hdevs id hid
    rw [hasAt_some g1, g2.hasS]
    rcases (hmemL p).1 hp with rfl | hp
    · exact Or.inl (by simp)
    · exact Or.inr ⟨by simp, hp⟩
  obtain ⟨k1, k2, k3, k4, k5⟩ := existingLoop_default (N := ids.length) hnd hmemL ids (k := 0) hndi hdevs
    hcd0 (by simp) hex
  have hk1 : (dkeys hw1).Nodup := by rw [k1]; exact wf.keys
  have hcount1 : ∀ p ∈ L, countOf env hw1 code p = min ids.length count := by
    intro p hp
    have : countOf env hw1 code p = numHas env hw1 p ids := by
      apply countOf_eq hk1 hndi
      intro id it hit hh
      by_cases hm : id ∈ ids
      · obtain ⟨it2, S, g1, g2⟩ := k3 id hm
        rw [hit] at g1; cases g1
        exact ⟨fun _ => hm, fun _ => (g2.ofType code).2 ⟨((g2.hasS p).1 hh).ne, rfl⟩⟩
      · refine ⟨fun ht => ?_, fun h => absurd h hm⟩
        rw [k2 id hm] at hit
        exact (hmem id).2 ⟨it, hit, ht⟩
    rw [this]
    have := (k5 p hp).2.2
    simpa using this
  have hframe1 : ∀ id it, dget? hw id = some it → ¬ OfType it code → dget? hw1 id = some it := by
    intro id it h1 h2
    rw [k2 id, h1]
    intro hm
    obtain ⟨it', g1, g2⟩ := (hmem id).1 hm
    rw [h1] at g1; cases g1; exact h2 g2
  have hwf1 : ∀ id it, dget? hw1 id = some it → dget? hw id = some it ∨ ∃ S, Dev env id code S it := by
    intro id it hit
    by_cases hm : id ∈ ids
    · obtain ⟨it2, S, g1, g2⟩ := k3 id hm
      rw [hit] at g1; cases g1; exact Or.inr ⟨S, g2⟩
    · rw [k2 id hm] at hit; exact Or.inl hit
  have hadd : itemsToAdd count L seen1 = count - min ids.length count := by
    unfold itemsToAdd
    rw [itemsToAdd_const (s := min ids.length count) 0 (fun p hp => (k5 p hp).2.1), if_neg hne]; omega
  rw [hadd] at h
  have hcol : collapse L.toFinset = {none} := by
    have hn : none ∈ L.toFinset := by rw [List.mem_toFinset, hmemL]; exact Or.inl rfl
    ext p; rw [mem_collapse]; simp only [Finset.mem_singleton]
    constructor
    · rintro ⟨_, h⟩; exact h hn
    · rintro rfl; exact ⟨hn, fun _ => rfl⟩
  by_cases hfew : ids.length ≤ count
  · have hsame := k4 hfew
    have hm0 : min ids.length count = ids.length := by omega
    rw [hm0] at h hcount1
    have hadd2 := h
    clear h
    subst hsame
    obtain ⟨new, e1, e2, e3, e4⟩ := addLoop_spec (Par := fun S => S = {none})
      hnd hne hc hcol rfl
      (by
        intro id it S it1 hd hpar hst
        rw [cloneStrip_id env.configProfiles (fun q hq => (hmemL (some q)).2 (Or.inr (mem_cfgSet.2 hq)))] at hst
        cases hst
        exact ⟨S, hd, fun _ => hpar⟩)
      (count - ids.length) (c := ids.length) hk1 (fun p hp => (k5 p hp).1) (by omega)
      (by
        intro l hl
        obtain ⟨it, g1, g2⟩ := hdevs l (List.mem_of_getLast? hl)
        exact ⟨it, {none}, g1, g2, by simp, rfl⟩) hadd2
    subst e1
    have hres : ∀ p ∈ L, countOf env (hw1 ++ new) code p = count := by
      intro p hp
      have hh : HasS env {none} p := by
        rcases (hmemL p).1 hp with rfl | hp
        · exact Or.inl (by simp)
        · exact Or.inr ⟨by simp, hp⟩
      rw [countOf_append, hcount1 p hp, countOf_new e4 (by simp), if_pos hh, e2]
      omega
    refine ⟨hres none ((hmemL none).2 (Or.inl rfl)),
      fun c hcc => hres _ ((hmemL _).2 (Or.inr (mem_cfgSet.2 hcc))), ?_, ?_⟩
    · intro id it h1 h2
      rw [dget?_append, h1]; rfl
    · refine frame_of_devs (code := code) wf e3 htw ?_
      intro id it hit
      rw [dget?_append] at hit
      cases hd : dget? hw1 id with
      | some x => rw [hd] at hit; cases hit; exact Or.inl rfl
      | none =>
        rw [hd] at hit
        exact Or.inr ⟨_, e4 _ (dget?_mem hit)⟩
  · have hm0 : min ids.length count = count := by omega
    rw [hm0] at h hcount1
    rw [Nat.sub_self] at h
    cases h
    exact ⟨hcount1 none ((hmemL none).2 (Or.inl rfl)),
      fun c hcc => hcount1 _ ((hmemL _).2 (Or.inr (mem_cfgSet.2 hcc))), hframe1, frame_of_devs wf hk1 htw hwf1⟩

/-! ### Concrete cases -/

/-- platform naming used in the examples -/
def exNicName (n : Nat) : Str := "GigabitEthernet".toList ++ natStr n

theorem exHw_twin : ∀ id it, dget? exHw id = some it → OfType it "10".toList → Twin exEnv.ver it := by
  intro id it h _
  have hm := dget?_mem h
  simp only [exHw, List.mem_cons, Prod.mk.injEq, List.not_mem_nil, or_false] at hm
  rcases hm with ⟨_, rfl⟩ | ⟨_, rfl⟩ | ⟨_, rfl⟩ <;> exact rfl

/-- non-vacuity: two NICs for everyone; profile x is given four, and then one -/
example : ∃ hw4 hw1, setItemCount exEnv exNicName exHw "ethernet".toList 4 [pX] = .ok hw4 ∧
    setItemCount exEnv exNicName exHw "ethernet".toList 1 [pX] = .ok hw1 ∧
    countOf exEnv hw4 "10".toList pX = 4 ∧ countOf exEnv hw4 "10".toList pY = 2 ∧
    countOf exEnv hw1 "10".toList pX = 1 ∧ countOf exEnv hw1 "10".toList pY = 2 ∧
    HwWF exEnv exHw ∧ resourceCode "ethernet".toList = .ok "10".toList ∧
    (∀ id it, dget? exHw id = some it → OfType it "10".toList → Twin exEnv.ver it) :=
  ⟨_, _, rfl, rfl, by decide +kernel, by decide +kernel, by decide +kernel, by decide +kernel,
    exHw_wf, rfl, exHw_twin⟩

/-- non-vacuity: five NICs, then one NIC, for all profiles -/
example : ∃ hw5 hw1, setItemCount exEnv exNicName exHw "ethernet".toList 5 [] = .ok hw5 ∧
    setItemCount exEnv exNicName exHw "ethernet".toList 1 [] = .ok hw1 ∧
    countOf exEnv hw5 "10".toList pX = 5 ∧ countOf exEnv hw1 "10".toList none = 1 ∧
    (∀ id it, dget? exHw id = some it → OfType it "10".toList → it.hasProfile exEnv none = true) := by
  refine ⟨_, _, rfl, rfl, by decide +kernel, by decide +kernel, ?_⟩
  intro id it h _
  have hm := dget?_mem h
  simp only [exHw, List.mem_cons, Prod.mk.injEq, List.not_mem_nil, or_false] at hm
  rcases hm with ⟨_, rfl⟩ | ⟨_, rfl⟩ | ⟨_, rfl⟩ <;> exact rfl

/-- **The full property fails (1).** NICs A (profile x only), B (profile y only) and C (default):
asking for 2 NICs in all profiles returns normally and leaves profile y with 3. -/
theorem C12_all_profiles_mixed_fails :
    ∃ hw', setItemCount exEnv exNicName
        [("1".toList, exNic "1" {pX}), ("2".toList, exNic "2" {pY}), ("3".toList, exNic "3" {none})]
        "ethernet".toList 2 [] = .ok hw' ∧
      countOf exEnv hw' "10".toList pY = 3 :=
  ⟨_, rfl, by decide +kernel⟩

/-- **The full property fails (2).** With NICs A (profile x) and B (default), asking for 1 NIC in all
profiles does not return normally. -/
theorem C12_all_profiles_error_fails :
    ∃ e, setItemCount { exEnv with configProfiles := ["x".toList] } exNicName
        [("1".toList, exNic "1" {pX}), ("2".toList, exNic "2" {none})] "ethernet".toList 1 [] = .error e :=
  ⟨_, rfl⟩

/-- **The full property fails (3).** With one NIC stored for the default, asking for 2 NICs in every
configured profile by name does not return normally. -/
theorem C12_named_covering_error_fails :
    ∃ e, setItemCount exEnv exNicName [("1".toList, exNic "1" {none})] "ethernet".toList 2 [pX, pY] = .error e :=
  ⟨_, rfl⟩

/-- **The full property fails (4).** A profile listed twice is counted twice: asking for 2 gives 1. -/
theorem C12_duplicate_profile_fails :
    ∃ hw', setItemCount exEnv exNicName [("1".toList, exNic "1" {pX})] "ethernet".toList 2 [pX, pX] = .ok hw' ∧
      countOf exEnv hw' "10".toList pX = 1 :=
  ⟨_, rfl, by decide +kernel⟩

end Cot
