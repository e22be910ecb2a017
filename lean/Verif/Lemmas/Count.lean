import Verif.Lemmas.HwOps
/-
Lemmas for C12: what `set_item_count_per_profile` does to the profile sets of the items of one type.
-/
namespace Cot

/-- the item with profile set `S` exists under `q` -/
def HasS (env : Env) (S : PSet) (q : Prof) : Prop := q ∈ S ∨ (none ∈ S ∧ q ∈ env.cfgSet)

instance (env : Env) (S : PSet) (q : Prof) : Decidable (HasS env S q) := by
  unfold HasS; infer_instance

theorem Dev.hasS {env : Env} {id code : Str} {S : PSet} {it : Item} (h : Dev env id code S it) (q : Prof) :
    it.hasProfile env q = true ↔ HasS env S q := h.has q

theorem HasS.ne {env : Env} {S : PSet} {q : Prof} (h : HasS env S q) : S ≠ ∅ := by
  rintro rfl; simp [HasS] at h

theorem hasS_remS {env : Env} {S : PSet} {p q : Prof} (hp : p ∈ env.cfgSet) (hq : q ∈ env.cfgSet) :
    HasS env (remS env p S) q ↔ q ≠ p ∧ HasS env S q := by
  have hpn : p ≠ none := by rintro rfl; exact none_not_cfg env hp
  have hqn : q ≠ none := by rintro rfl; exact none_not_cfg env hq
  unfold HasS remS
  by_cases hn : none ∈ S \ {p}
  · have hn' : none ∈ S := (Finset.mem_sdiff.1 hn).1
    rw [if_pos hn]
    simp only [Finset.mem_sdiff, Finset.mem_union, Finset.mem_singleton]
    constructor
    · rintro (⟨⟨h, _⟩, h'⟩ | ⟨⟨⟨_, h⟩, _⟩, _⟩)
      · exact ⟨h', Or.inr ⟨hn', hq⟩⟩
      · exact absurd trivial h
    · rintro ⟨h, _⟩
      exact Or.inl ⟨⟨Or.inr hq, hqn⟩, h⟩
  · have hn' : none ∉ S := fun h => hn (by simp [h, Ne.symm hpn])
    rw [if_neg hn]
    simp only [Finset.mem_sdiff, Finset.mem_singleton]
    tauto

theorem hasS_addS {env : Env} {S : PSet} {p q : Prof} (hp : p ∈ env.cfgSet) (hno : ¬ HasS env S p) :
    addS p S ≠ ∅ ∧ (HasS env (addS p S) q ↔ q = p ∨ HasS env S q) := by
  have hpn : p ≠ none := by rintro rfl; exact none_not_cfg env hp
  have hn : none ∉ S := fun h => hno (Or.inr ⟨h, hp⟩)
  have hc : collapse (S ∪ {p}) = S ∪ {p} := by
    apply collapse_eq_self
    intro h
    simp only [Finset.mem_union, Finset.mem_singleton] at h
    rcases h with h | h
    · exact absurd h hn
    · exact absurd h.symm hpn
  unfold addS HasS
  rw [if_neg hn, hc]
  refine ⟨?_, ?_⟩
  · intro h; rw [Finset.union_eq_empty] at h; exact absurd h.2 (by simp)
  · simp only [Finset.mem_union, Finset.mem_singleton, hn, Ne.symm hpn, false_and, or_false]
    tauto

/-- what one pass over the profiles decides for profile `q` of an item -/
def Keeps (env : Env) (count : Nat) (S : PSet) (cd seen : Prof → Nat) (q : Prof) : Prop :=
  (HasS env S q ∧ seen q < count) ∨ (¬ HasS env S q ∧ cd q < count)

/-- one pass, for named configured profiles -/
theorem profLoop_named {env : Env} {count : Nat} {id code : Str} : ∀ (L : List Prof) {S : PSet}
    {it it' : Item} {cd cd' seen seen' : Prof → Nat}, L.Nodup → (∀ p ∈ L, p ∈ env.cfgSet) →
    Dev env id code S it →
    ((S ≠ ∅ ∧ ∀ p ∈ L, seen p < count) ∨ (∀ p ∈ L, count ≤ cd p)) →
    profLoop env count L (it, cd, seen) = .ok (it', cd', seen') →
    ∃ S', Dev env id code S' it' ∧
      (∀ q ∈ env.cfgSet, (q ∈ L → (HasS env S' q ↔ Keeps env count S cd seen q)) ∧
        (q ∉ L → (HasS env S' q ↔ HasS env S q))) ∧
      (∀ q, q ∈ L → Keeps env count S cd seen q → seen' q = seen q + 1) ∧
      (∀ q, (q ∈ L → ¬ Keeps env count S cd seen q) → seen' q = seen q) ∧
      (∀ q, q ∈ L → ¬ HasS env S q → cd q < count → cd' q = cd q + 1) ∧
      (∀ q, (q ∈ L → HasS env S q ∨ count ≤ cd q) → cd' q = cd q)
  | [], S, it, it', cd, cd', seen, seen', _, _, hdev, _, h => by
    cases h
    exact ⟨S, hdev, fun q _ => ⟨by simp, fun _ => Iff.rfl⟩, by simp, fun _ _ => rfl, by simp, fun _ _ => rfl⟩
  | p :: r, S, it, it', cd, cd', seen, seen', hnd, hcfg, hdev, hcase, h => by
    have hnd' := List.nodup_cons.1 hnd
    have hpc := hcfg p List.mem_cons_self
    have hrc : ∀ q ∈ r, q ∈ env.cfgSet := fun q hq => hcfg q (List.mem_cons_of_mem _ hq)
    have hpr : ∀ q ∈ r, q ≠ p := fun q hq e => hnd'.1 (e ▸ hq)
    have hbump : ∀ (d : Prof → Nat) q, q ≠ p → bump d p q = d q := by
      intro d q hq; unfold bump; rw [if_neg hq]
    have hbump' : ∀ (d : Prof → Nat), bump d p p = d p + 1 := by
      intro d; unfold bump; rw [if_pos rfl]
    unfold profLoop at h
    by_cases hh : it.hasProfile env p = true
    · have hS := (hdev.hasS p).1 hh
      rw [if_pos hh] at h
      by_cases hs : seen p ≥ count
      · -- removal
        rw [if_pos hs] at h
        obtain ⟨it1, h1, hdev1, -⟩ := hdev.remove hh
        simp only [h1] at h
        have hcd : ∀ q ∈ p :: r, count ≤ cd q := by
          rcases hcase with ⟨_, hc⟩ | hc
          · exact absurd (hc p List.mem_cons_self) (by omega)
          · exact hc
        obtain ⟨S', d, k1, k2, k3, k4, k5⟩ := profLoop_named r hnd'.2 hrc hdev1
          (Or.inr fun q hq => hcd q (List.mem_cons_of_mem _ hq)) h
        have hkp : ¬ Keeps env count S cd seen p := by
          rintro (⟨_, h⟩ | ⟨h, _⟩)
          · omega
          · exact h hS
        have hkr : ∀ q ∈ r, (Keeps env count (remS env p S) cd seen q ↔ Keeps env count S cd seen q) := by
          intro q hq
          have := hasS_remS (S := S) hpc (hrc q hq)
          have hqp := hpr q hq
          unfold Keeps; rw [this]; tauto
        refine ⟨S', d, ?_, ?_, ?_, ?_, ?_⟩
        · intro q hq
          obtain ⟨a, b⟩ := k1 q hq
          by_cases hqp : q = p
          · subst hqp
            refine ⟨fun _ => ?_, fun h => absurd List.mem_cons_self h⟩
            rw [b hnd'.1, hasS_remS hpc hpc]
            constructor
            · rintro ⟨h, _⟩; exact absurd rfl h
            · intro h; exact absurd h hkp
          · refine ⟨fun hm => ?_, fun hm => ?_⟩
            · have hqr : q ∈ r := (List.mem_cons.1 hm).resolve_left hqp
              rw [a hqr, hkr q hqr]
            · have hqr : q ∉ r := fun h => hm (List.mem_cons_of_mem _ h)
              rw [b hqr, hasS_remS hpc hq]; simp [hqp]
        · intro q hm hk
          have hqp : q ≠ p := by rintro rfl; exact hkp hk
          have hqr : q ∈ r := (List.mem_cons.1 hm).resolve_left hqp
          exact k2 q hqr ((hkr q hqr).2 hk)
        · intro q hm
          refine k3 q ?_
          intro hqr hk
          exact hm (List.mem_cons_of_mem _ hqr) ((hkr q hqr).1 hk)
        · intro q hm _ hc
          exact absurd (hcd q hm) (by omega)
        · intro q _
          refine k5 q (fun hqr => Or.inr (hcd q (List.mem_cons_of_mem _ hqr)))
      · -- kept
        rw [if_neg hs] at h
        have hcase' : (S ≠ ∅ ∧ ∀ q ∈ r, bump seen p q < count) ∨ (∀ q ∈ r, count ≤ cd q) := by
          rcases hcase with ⟨a, hc⟩ | hc
          · left; refine ⟨a, fun q hq => ?_⟩
            rw [hbump _ _ (hpr q hq)]; exact hc q (List.mem_cons_of_mem _ hq)
          · right; exact fun q hq => hc q (List.mem_cons_of_mem _ hq)
        obtain ⟨S', d, k1, k2, k3, k4, k5⟩ := profLoop_named r hnd'.2 hrc hdev hcase' h
        have hkp : Keeps env count S cd seen p := Or.inl ⟨hS, by omega⟩
        have hkr : ∀ q ∈ r, (Keeps env count S cd (bump seen p) q ↔ Keeps env count S cd seen q) := by
          intro q hq
          unfold Keeps; rw [hbump _ _ (hpr q hq)]
        refine ⟨S', d, ?_, ?_, ?_, ?_, ?_⟩
        · intro q hq
          obtain ⟨a, b⟩ := k1 q hq
          by_cases hqp : q = p
          · subst hqp
            refine ⟨fun _ => ?_, fun h => absurd List.mem_cons_self h⟩
            rw [b hnd'.1]; exact ⟨fun _ => hkp, fun _ => hS⟩
          · refine ⟨fun hm => ?_, fun hm => ?_⟩
            · have hqr : q ∈ r := (List.mem_cons.1 hm).resolve_left hqp
              rw [a hqr, hkr q hqr]
            · exact b (fun h => hm (List.mem_cons_of_mem _ h))
        · intro q hm hk
          by_cases hqp : q = p
          · subst hqp
            rw [k3 q (fun h => absurd h hnd'.1), hbump']
          · have hqr : q ∈ r := (List.mem_cons.1 hm).resolve_left hqp
            rw [k2 q hqr ((hkr q hqr).2 hk), hbump _ _ hqp]
        · intro q hm
          have hqp : q ≠ p := by rintro rfl; exact hm List.mem_cons_self hkp
          rw [k3 q (fun hqr hk => hm (List.mem_cons_of_mem _ hqr) ((hkr q hqr).1 hk)), hbump _ _ hqp]
        · intro q hm hn hc
          have hqp : q ≠ p := by rintro rfl; exact hn hS
          exact k4 q ((List.mem_cons.1 hm).resolve_left hqp) hn hc
        · intro q hm
          exact k5 q (fun hqr => hm (List.mem_cons_of_mem _ hqr))
    · have hS : ¬ HasS env S p := fun h' => hh ((hdev.hasS p).2 h')
      rw [if_neg hh] at h
      by_cases hc : cd p < count
      · -- addition
        rw [if_pos hc] at h
        cases hadd : it.addProfile env p none with
        | error e => rw [hadd] at h; cases h
        | ok it1 =>
          simp only [hadd] at h
          have hA : S ≠ ∅ ∧ ∀ q ∈ p :: r, seen q < count := by
            rcases hcase with hA | hB
            · exact hA
            · exact absurd (hB p List.mem_cons_self) (by omega)
          have hdev1 := hdev.add (Bool.eq_false_iff.2 hh) hA.1 hadd
          have hadds := fun q => hasS_addS (q := q) hpc hS
          have hcase' : (addS p S ≠ ∅ ∧ ∀ q ∈ r, bump seen p q < count) ∨
              (∀ q ∈ r, count ≤ bump cd p q) := by
            left; refine ⟨(hadds p).1, fun q hq => ?_⟩
            rw [hbump _ _ (hpr q hq)]; exact hA.2 q (List.mem_cons_of_mem _ hq)
          obtain ⟨S', d, k1, k2, k3, k4, k5⟩ := profLoop_named r hnd'.2 hrc hdev1 hcase' h
          have hkp : Keeps env count S cd seen p := Or.inr ⟨hS, hc⟩
          have hkr : ∀ q ∈ r, (Keeps env count (addS p S) (bump cd p) (bump seen p) q ↔
              Keeps env count S cd seen q) := by
            intro q hq
            have hqp := hpr q hq
            unfold Keeps
            rw [hbump _ _ hqp, hbump _ _ hqp, (hadds q).2]; simp [hqp]
          refine ⟨S', d, ?_, ?_, ?_, ?_, ?_⟩
          · intro q hq
            obtain ⟨a, b⟩ := k1 q hq
            by_cases hqp : q = p
            · subst hqp
              refine ⟨fun _ => ?_, fun h => absurd List.mem_cons_self h⟩
              rw [b hnd'.1, (hadds q).2]; exact ⟨fun _ => hkp, fun _ => Or.inl rfl⟩
            · refine ⟨fun hm => ?_, fun hm => ?_⟩
              · have hqr : q ∈ r := (List.mem_cons.1 hm).resolve_left hqp
                rw [a hqr, hkr q hqr]
              · rw [b (fun h => hm (List.mem_cons_of_mem _ h)), (hadds q).2]; simp [hqp]
          · intro q hm hk
            by_cases hqp : q = p
            · subst hqp
              rw [k3 q (fun h => absurd h hnd'.1), hbump']
            · have hqr : q ∈ r := (List.mem_cons.1 hm).resolve_left hqp
              rw [k2 q hqr ((hkr q hqr).2 hk), hbump _ _ hqp]
          · intro q hm
            have hqp : q ≠ p := by rintro rfl; exact hm List.mem_cons_self hkp
            rw [k3 q (fun hqr hk => hm (List.mem_cons_of_mem _ hqr) ((hkr q hqr).1 hk)), hbump _ _ hqp]
          · intro q hm hn hcq
            by_cases hqp : q = p
            · subst hqp
              rw [k5 q (fun h => absurd h hnd'.1), hbump']
            · have hqr : q ∈ r := (List.mem_cons.1 hm).resolve_left hqp
              rw [k4 q hqr (by rw [(hadds q).2]; simp [hqp, hn]) (by rw [hbump _ _ hqp]; exact hcq),
                hbump _ _ hqp]
          · intro q hm
            have hqp : q ≠ p := by
              rintro rfl
              rcases hm List.mem_cons_self with h | h
              · exact hS h
              · omega
            rw [k5 q, hbump _ _ hqp]
            intro hqr
            rw [(hadds q).2, hbump _ _ hqp]
            rcases hm (List.mem_cons_of_mem _ hqr) with h | h
            · exact Or.inl (Or.inr h)
            · exact Or.inr h
      · -- nothing
        rw [if_neg hc] at h
        have hcase' : (S ≠ ∅ ∧ ∀ q ∈ r, seen q < count) ∨ (∀ q ∈ r, count ≤ cd q) := by
          rcases hcase with ⟨a, hc⟩ | hc
          · exact Or.inl ⟨a, fun q hq => hc q (List.mem_cons_of_mem _ hq)⟩
          · exact Or.inr fun q hq => hc q (List.mem_cons_of_mem _ hq)
        obtain ⟨S', d, k1, k2, k3, k4, k5⟩ := profLoop_named r hnd'.2 hrc hdev hcase' h
        have hkp : ¬ Keeps env count S cd seen p := by
          rintro (⟨h, _⟩ | ⟨_, h⟩)
          · exact hS h
          · exact hc h
        refine ⟨S', d, ?_, ?_, ?_, ?_, ?_⟩
        · intro q hq
          obtain ⟨a, b⟩ := k1 q hq
          by_cases hqp : q = p
          · subst hqp
            refine ⟨fun _ => ?_, fun h => absurd List.mem_cons_self h⟩
            rw [b hnd'.1]
            exact ⟨fun h => absurd h hS, fun h => absurd h hkp⟩
          · refine ⟨fun hm => a ((List.mem_cons.1 hm).resolve_left hqp),
              fun hm => b (fun h => hm (List.mem_cons_of_mem _ h))⟩
        · intro q hm hk
          have hqp : q ≠ p := by rintro rfl; exact hkp hk
          exact k2 q ((List.mem_cons.1 hm).resolve_left hqp) hk
        · intro q hm
          exact k3 q (fun hqr => hm (List.mem_cons_of_mem _ hqr))
        · intro q hm hn hcq
          have hqp : q ≠ p := by rintro rfl; exact hc hcq
          exact k4 q ((List.mem_cons.1 hm).resolve_left hqp) hn hcq
        · intro q hm
          exact k5 q (fun hqr => hm (List.mem_cons_of_mem _ hqr))

/-! ### counting -/

/-- does the item filed under `id` exist under `p`? -/
def hasAt (env : Env) (hw : Hw) (p : Prof) (id : Str) : Bool :=
  match dget? hw id with
  | none => false
  | some it => it.hasProfile env p

theorem hasAt_congr {env : Env} {hw hw' : Hw} {p : Prof} {id : Str} (h : dget? hw' id = dget? hw id) :
    hasAt env hw' p id = hasAt env hw p id := by unfold hasAt; rw [h]

theorem hasAt_some {env : Env} {hw : Hw} {p : Prof} {id : Str} {it : Item} (h : dget? hw id = some it) :
    hasAt env hw p id = it.hasProfile env p := by unfold hasAt; rw [h]

/-- how many of the identifiers have the profile -/
def numHas (env : Env) (hw : Hw) (p : Prof) (ids : List Str) : Nat := (ids.filter (hasAt env hw p)).length

theorem numHas_congr {env : Env} {hw hw' : Hw} {p : Prof} {ids : List Str}
    (h : ∀ id ∈ ids, hasAt env hw' p id = hasAt env hw p id) : numHas env hw' p ids = numHas env hw p ids := by
  unfold numHas
  rw [List.filter_congr h]

theorem numHas_cons (env : Env) (hw : Hw) (p : Prof) (id : Str) (ids : List Str) :
    numHas env hw p (id :: ids) = (if hasAt env hw p id = true then 1 else 0) + numHas env hw p ids := by
  unfold numHas
  rw [List.filter_cons]
  split
  · simp; omega
  · simp

theorem countItem_apply {env : Env} {it : Item} : ∀ {L : List Prof} (d : Prof → Nat), L.Nodup → ∀ q,
    countItem env it L d q = d q + (if q ∈ L ∧ it.hasProfile env q = true then 1 else 0)
  | [], d, _, q => by simp [countItem]
  | p :: r, d, hnd, q => by
    have hnd' := List.nodup_cons.1 hnd
    have ih := fun d => countItem_apply (it := it) (env := env) d hnd'.2 q
    unfold countItem at ih ⊢
    rw [List.foldl_cons, ih]
    by_cases hqp : q = p
    · subst hqp
      by_cases hh : it.hasProfile env q = true
      · simp [hh, bump, hnd'.1]
      · simp [hh]
    · have : (if it.hasProfile env p = true then bump d p else d) q = d q := by
        split
        · simp [bump, hqp]
        · rfl
      rw [this]; simp [hqp]

theorem counts_apply {env : Env} {hw : Hw} {L : List Prof} (hnd : L.Nodup) {q : Prof} (hq : q ∈ L) :
    ∀ (ids : List Str) (d : Prof → Nat),
    (ids.foldl (fun d id => match dget? hw id with
      | none => d
      | some it => countItem env it L d) d) q = d q + numHas env hw q ids
  | [], d => by simp [numHas]
  | id :: r, d => by
    rw [List.foldl_cons, counts_apply hnd hq r, numHas_cons]
    unfold hasAt
    cases hd : dget? hw id with
    | none => simp
    | some it =>
      simp only
      rw [countItem_apply d hnd]
      simp only [hq, true_and]
      omega

theorem itemCounts_inv {env : Env} {hw : Hw} {rt : Str} {L ids : List _} {cd : Prof → Nat}
    (h1 : itemCounts env hw rt L = .ok cd) (h2 : findAllItems env hw (some rt) [] [] = .ok ids)
    (hnd : (allProfilesIfEmpty env L).Nodup) {p : Prof} (hp : p ∈ allProfilesIfEmpty env L) :
    cd p = numHas env hw p ids := by
  unfold itemCounts at h1
  rw [h2] at h1
  cases h1
  have := counts_apply (env := env) (hw := hw) hnd hp ids (fun _ => 0)
  exact this.trans (Nat.zero_add _)

theorem filter_dkeys_length {ν : Type} (d : List (Str × ν)) (hnd : (dkeys d).Nodup) (q : Str × ν → Bool) :
    (d.filter q).length = ((dkeys d).filter (fun k => match dget? d k with
      | none => false
      | some v => q (k, v))).length := by
  have hmap : (d.filter q).length = ((d.filter q).map Prod.fst).length := by simp
  rw [hmap]
  apply List.Perm.length_eq
  rw [List.perm_ext_iff_of_nodup]
  · intro k
    rw [List.mem_filter, List.mem_map]
    constructor
    · rintro ⟨⟨k', v⟩, hm, rfl⟩
      rw [List.mem_filter] at hm
      refine ⟨List.mem_map.2 ⟨_, hm.1, rfl⟩, ?_⟩
      simp only [dget?_of_mem hnd hm.1]; exact hm.2
    · rintro ⟨_, h⟩
      cases hd : dget? d k with
      | none => rw [hd] at h; cases h
      | some v =>
        rw [hd] at h
        exact ⟨(k, v), List.mem_filter.2 ⟨dget?_mem hd, h⟩, rfl⟩
  · exact List.Nodup.sublist (List.Sublist.map _ List.filter_sublist) hnd
  · exact hnd.filter _

/-- the number of items of a type under a profile, counted over the identifiers of that type -/
theorem countOf_eq {env : Env} {hw : Hw} {code : Str} {ids : List Str} {p : Prof}
    (hk : (dkeys hw).Nodup) (hnd : ids.Nodup)
    (h : ∀ id it, dget? hw id = some it → it.hasProfile env p = true → (OfType it code ↔ id ∈ ids)) :
    countOf env hw code p = numHas env hw p ids := by
  unfold countOf numHas
  rw [filter_dkeys_length hw hk]
  apply List.Perm.length_eq
  rw [List.perm_ext_iff_of_nodup (hk.filter _) (hnd.filter _)]
  intro k
  rw [List.mem_filter, List.mem_filter]
  unfold hasAt
  constructor
  · rintro ⟨_, hx⟩
    cases hd : dget? hw k with
    | none => rw [hd] at hx; cases hx
    | some it =>
      rw [hd] at hx
      simp only [Bool.and_eq_true, decide_eq_true_eq] at hx
      exact ⟨(h k it hd hx.2).1 hx.1, hx.2⟩
  · rintro ⟨hm, hx⟩
    cases hd : dget? hw k with
    | none => rw [hd] at hx; cases hx
    | some it =>
      rw [hd] at hx
      refine ⟨mem_dkeys_of_dget? hd, ?_⟩
      simp only [Bool.and_eq_true, decide_eq_true_eq]
      exact ⟨(h k it hd hx).2 hm, hx⟩

/-! ### the loop over the existing items, for named profiles -/

/-- what holds of the counters when `k` items have been processed and `R` of the remaining ones have
the profile -/
structure CountInv (count k R c s : Nat) : Prop where
  le_count : s ≤ count
  le_k : s ≤ k
  enough : count ≤ c → count ≤ s + R
  few : c < count → c = s + R ∧ s = k

theorem existingLoop_named {env : Env} {count : Nat} {code : Str} {L : List Prof} (hL : L.Nodup)
    (hcfg : ∀ p ∈ L, p ∈ env.cfgSet) : ∀ (ids : List Str) {hw hw' : Hw} {cd cd' seen seen' : Prof → Nat}
    {k : Nat}, ids.Nodup →
    (∀ id ∈ ids, ∃ it S, dget? hw id = some it ∧ Dev env id code S it ∧ S ≠ ∅) →
    (∀ p ∈ L, CountInv count k (numHas env hw p ids) (cd p) (seen p)) →
    existingLoop env count L ids hw cd seen = .ok (hw', cd', seen') →
    dkeys hw' = dkeys hw ∧ (∀ id, id ∉ ids → dget? hw' id = dget? hw id) ∧
    (∀ id ∈ ids, ∃ it S, dget? hw' id = some it ∧ Dev env id code S it ∧
      ∀ q ∈ env.cfgSet, q ∉ L → hasAt env hw' q id = hasAt env hw q id) ∧
    (∀ p ∈ L, seen' p = seen p + numHas env hw' p ids ∧
      CountInv count (k + ids.length) 0 (cd' p) (seen' p))
  | [], hw, hw', cd, cd', seen, seen', k, _, _, hinv, h => by
    cases h
    refine ⟨rfl, fun _ _ => rfl, by simp, fun p hp => ?_⟩
    have := hinv p hp
    simp only [numHas, List.filter_nil, List.length_nil] at this ⊢
    exact ⟨rfl, this⟩
  | id :: r, hw, hw', cd, cd', seen, seen', k, hnd, hdevs, hinv, h => by
    have hnd' := List.nodup_cons.1 hnd
    obtain ⟨it, S, hit, hdev, hS⟩ := hdevs id List.mem_cons_self
    unfold existingLoop at h
    rw [hit] at h
    simp only at h
    cases hp : profLoop env count L (it, cd, seen) with
    | error e => rw [hp] at h; cases h
    | ok st =>
      obtain ⟨it1, cd1, seen1⟩ := st
      rw [hp] at h
      simp only at h
      have hcase : (S ≠ ∅ ∧ ∀ p ∈ L, seen p < count) ∨ (∀ p ∈ L, count ≤ cd p) := by
        by_cases hk : k < count
        · left; refine ⟨hS, fun p hp => ?_⟩
          have := (hinv p hp).le_k; omega
        · right; intro p hp
          by_contra hc
          have := (hinv p hp).few (by omega); omega
      obtain ⟨S1, hdev1, a1, a2, a3, a4, a5⟩ := profLoop_named L hL hcfg hdev hcase hp
      have hit1 : dget? (dset hw id it1) id = some it1 := by rw [dget?_dset, if_pos rfl]
      have hfr : ∀ j, j ≠ id → dget? (dset hw id it1) j = dget? hw j := by
        intro j hj; rw [dget?_dset, if_neg (Ne.symm hj)]
      have hnum : ∀ p, numHas env (dset hw id it1) p r = numHas env hw p r := by
        intro p; apply numHas_congr; intro j hj
        exact hasAt_congr (hfr j (by rintro rfl; exact hnd'.1 hj))
      have hdevs1 : ∀ j ∈ r, ∃ it S, dget? (dset hw id it1) j = some it ∧ Dev env j code S it ∧ S ≠ ∅ := by
        intro j hj
        rw [hfr j (by rintro rfl; exact hnd'.1 hj)]
        exact hdevs j (List.mem_cons_of_mem _ hj)
      have hhas : ∀ p, hasAt env hw p id = true ↔ HasS env S p := by
        intro p; rw [hasAt_some hit]; exact hdev.hasS p
      have hstep : ∀ p ∈ L, CountInv count (k + 1) (numHas env (dset hw id it1) p r) (cd1 p) (seen1 p) ∧
          seen1 p = seen p + (if it1.hasProfile env p = true then 1 else 0) := by
        intro p hp'
        have hi := hinv p hp'
        rw [numHas_cons] at hi
        rw [hnum]
        have b1 := a1 p (hcfg p hp')
        have b2 := (b1.1 hp')
        have hh1 := hdev1.hasS p
        by_cases hkeep : Keeps env count S cd seen p
        · have e1 := a2 p hp' hkeep
          have e2 : it1.hasProfile env p = true := hh1.2 (b2.2 hkeep)
          rw [e2, e1]
          refine ⟨?_, by simp⟩
          rcases hkeep with ⟨hSp, hlt⟩ | ⟨hSp, hlt⟩
          · have e3 : cd1 p = cd p := a5 p (fun _ => Or.inl hSp)
            rw [e3]
            rw [if_pos ((hhas p).2 hSp)] at hi
            obtain ⟨i1, i2, i3, i4⟩ := hi
            refine ⟨by omega, by omega, fun h => ?_, fun h => ?_⟩
            · have := i3 h; omega
            · have := i4 h; omega
          · have e3 : cd1 p = cd p + 1 := a4 p hp' hSp hlt
            rw [e3]
            rw [if_neg (fun h => hSp ((hhas p).1 h))] at hi
            obtain ⟨i1, i2, i3, i4⟩ := hi
            have := i4 hlt
            refine ⟨by omega, by omega, fun h => ?_, fun h => ?_⟩ <;> omega
        · have e1 : seen1 p = seen p := a3 p (fun _ => hkeep)
          have e2 : it1.hasProfile env p = false := by
            rw [Bool.eq_false_iff]; intro h; exact hkeep (b2.1 (hh1.1 h))
          rw [e1, e2]
          refine ⟨?_, by simp⟩
          obtain ⟨i1, i2, i3, i4⟩ := hi
          by_cases hSp : HasS env S p
          · have hge : count ≤ seen p := by
              by_contra hc; exact hkeep (Or.inl ⟨hSp, by omega⟩)
            have e3 : cd1 p = cd p := a5 p (fun _ => Or.inl hSp)
            rw [e3]
            rw [if_pos ((hhas p).2 hSp)] at i3 i4
            refine ⟨by omega, by omega, fun h => by omega, fun h => ?_⟩
            have := i4 h; omega
          · have hge : count ≤ cd p := by
              by_contra hc; exact hkeep (Or.inr ⟨hSp, by omega⟩)
            have e3 : cd1 p = cd p := a5 p (fun _ => Or.inr hge)
            rw [e3]
            rw [if_neg (fun h => hSp ((hhas p).1 h))] at i3 i4
            refine ⟨by omega, by omega, fun h => ?_, fun h => by omega⟩
            have := i3 h; omega
      obtain ⟨k1, k2, k3, k4⟩ := existingLoop_named hL hcfg r hnd'.2 hdevs1
        (fun p hp => (hstep p hp).1) h
      have hid' : dget? hw' id = some it1 := by rw [k2 id hnd'.1, hit1]
      refine ⟨by rw [k1, dkeys_dset_mem (mem_dkeys_of_dget? hit)], ?_, ?_, ?_⟩
      · intro j hj
        simp only [List.mem_cons, not_or] at hj
        rw [k2 j hj.2, hfr j hj.1]
      · intro j hj
        rcases List.mem_cons.1 hj with rfl | hj'
        · refine ⟨it1, S1, hid', hdev1, fun q hq hqL => ?_⟩
          rw [Bool.eq_iff_iff, hasAt_some hid', hdev1.hasS q, (a1 q hq).2 hqL, hhas]
        · obtain ⟨x, T, h1, h2, h3⟩ := k3 j hj'
          refine ⟨x, T, h1, h2, fun q hq hqL => ?_⟩
          rw [h3 q hq hqL]
          exact hasAt_congr (hfr j (by rintro rfl; exact hnd'.1 hj'))
      · intro p hp'
        obtain ⟨m1, m2⟩ := k4 p hp'
        have hs := (hstep p hp').2
        refine ⟨?_, ?_⟩
        · rw [m1, hs, numHas_cons, hasAt_some hid']; omega
        · have : k + (id :: r).length = k + 1 + r.length := by simp; omega
          rw [this]; exact m2

/-! ### the loop over the existing items, when every item is stored for the default profile -/

theorem hasS_remS_mono {env : Env} {S : PSet} {p q : Prof}
    (h : HasS env (remS env p S) q) : HasS env S q ∧ q ≠ p := by
  unfold HasS remS at h
  unfold HasS
  by_cases hn : none ∈ S \ {p}
  · rw [if_pos hn] at h
    simp only [Finset.mem_sdiff, Finset.mem_union, Finset.mem_singleton] at h hn
    rcases h with ⟨⟨h | h, _⟩, h'⟩ | ⟨⟨⟨_, h⟩, _⟩, _⟩
    · exact ⟨Or.inl h.1, h'⟩
    · exact ⟨Or.inr ⟨hn.1, h⟩, h'⟩
    · exact absurd trivial h
  · rw [if_neg hn] at h
    simp only [Finset.mem_sdiff, Finset.mem_singleton] at h hn
    rcases h with h | ⟨h, _⟩
    · exact ⟨Or.inl h.1, h.2⟩
    · exact absurd h hn

theorem remS_subset {env : Env} {S : PSet} {p : Prof} : remS env p S ⊆ S ∪ env.cfgSet := by
  intro q hq
  unfold remS at hq
  split at hq
  · simp only [Finset.mem_sdiff, Finset.mem_union, Finset.mem_singleton] at hq ⊢; tauto
  · simp only [Finset.mem_sdiff, Finset.mem_union, Finset.mem_singleton] at hq ⊢; tauto

/-- one pass that only removes -/
theorem profLoop_remove {env : Env} {count : Nat} {id code : Str} : ∀ (L : List Prof) {S : PSet}
    {it it' : Item} {cd cd' seen seen' : Prof → Nat},
    (∀ p ∈ L, p = none ∨ p ∈ env.cfgSet) → Dev env id code S it →
    (∀ p ∈ L, count ≤ cd p ∧ count ≤ seen p) →
    profLoop env count L (it, cd, seen) = .ok (it', cd', seen') →
    cd' = cd ∧ seen' = seen ∧ ∃ S', Dev env id code S' it' ∧ S' ⊆ S ∪ env.cfgSet ∧
      (∀ q, q = none ∨ q ∈ env.cfgSet → HasS env S' q → HasS env S q ∧ q ∉ L)
  | [], S, it, it', cd, cd', seen, seen', _, hdev, _, h => by
    cases h
    exact ⟨rfl, rfl, S, hdev, Finset.subset_union_left, fun q _ h => ⟨h, by simp⟩⟩
  | p :: r, S, it, it', cd, cd', seen, seen', hcfg, hdev, hge, h => by
    have hrc : ∀ q ∈ r, q = none ∨ q ∈ env.cfgSet := fun q hq => hcfg q (List.mem_cons_of_mem _ hq)
    have hrg : ∀ q ∈ r, count ≤ cd q ∧ count ≤ seen q := fun q hq => hge q (List.mem_cons_of_mem _ hq)
    obtain ⟨g1, g2⟩ := hge p List.mem_cons_self
    unfold profLoop at h
    by_cases hh : it.hasProfile env p = true
    · rw [if_pos hh, if_pos g2] at h
      obtain ⟨it1, h1, hdev1, -⟩ := hdev.remove hh
      simp only [h1] at h
      obtain ⟨e1, e2, S', d, hs, hq⟩ := profLoop_remove r hrc hdev1 hrg h
      refine ⟨e1, e2, S', d, ?_, ?_⟩
      · intro x hx
        rcases Finset.mem_union.1 (hs hx) with h | h
        · exact remS_subset h
        · exact Finset.mem_union_right _ h
      · intro q hqc hqS
        obtain ⟨m1, m2⟩ := hq q hqc hqS
        obtain ⟨m3, m4⟩ := hasS_remS_mono m1
        exact ⟨m3, by simp only [List.mem_cons, not_or]; exact ⟨m4, m2⟩⟩
    · rw [if_neg hh, if_neg (by omega)] at h
      obtain ⟨e1, e2, S', d, hs, hq⟩ := profLoop_remove r hrc hdev hrg h
      refine ⟨e1, e2, S', d, hs, ?_⟩
      intro q hqc hqS
      obtain ⟨m1, m2⟩ := hq q hqc hqS
      refine ⟨m1, ?_⟩
      simp only [List.mem_cons, not_or]
      refine ⟨?_, m2⟩
      rintro rfl
      exact hh ((hdev.hasS q).2 m1)

/-- one pass that keeps everything -/
theorem profLoop_keep {env : Env} {count : Nat} : ∀ (L : List Prof)
    {it it' : Item} {cd cd' seen seen' : Prof → Nat}, L.Nodup →
    (∀ p ∈ L, it.hasProfile env p = true ∧ seen p < count) →
    profLoop env count L (it, cd, seen) = .ok (it', cd', seen') →
    it' = it ∧ cd' = cd ∧ ∀ q, seen' q = if q ∈ L then seen q + 1 else seen q
  | [], it, it', cd, cd', seen, seen', _, _, h => by cases h; exact ⟨rfl, rfl, by simp⟩
  | p :: r, it, it', cd, cd', seen, seen', hnd, hh, h => by
    have hnd' := List.nodup_cons.1 hnd
    obtain ⟨g1, g2⟩ := hh p List.mem_cons_self
    unfold profLoop at h
    rw [if_pos g1, if_neg (by omega)] at h
    have hb : ∀ q, q ≠ p → bump seen p q = seen q := by intro q hq; unfold bump; rw [if_neg hq]
    have hpr : ∀ q ∈ r, q ≠ p := fun q hq e => hnd'.1 (e ▸ hq)
    obtain ⟨e1, e2, e3⟩ := profLoop_keep r hnd'.2 (fun q hq => by
      rw [hb q (hpr q hq)]; exact hh q (List.mem_cons_of_mem _ hq)) h
    refine ⟨e1, e2, ?_⟩
    intro q
    rw [e3 q]
    by_cases hqp : q = p
    · subst hqp; simp [hnd'.1, bump]
    · rw [hb q hqp]; simp [hqp]

theorem existingLoop_default {env : Env} {count N : Nat} {code : Str} {L : List Prof} (hL : L.Nodup)
    (hmem : ∀ p, p ∈ L ↔ p = none ∨ p ∈ env.cfgSet) : ∀ (ids : List Str) {hw hw' : Hw}
    {cd cd' seen seen' : Prof → Nat} {k : Nat}, ids.Nodup →
    (∀ id ∈ ids, ∃ it, dget? hw id = some it ∧ Dev env id code {none} it) →
    (∀ p ∈ L, cd p = N ∧ seen p = min k count) → N = k + ids.length →
    existingLoop env count L ids hw cd seen = .ok (hw', cd', seen') →
    dkeys hw' = dkeys hw ∧ (∀ id, id ∉ ids → dget? hw' id = dget? hw id) ∧
    (∀ id ∈ ids, ∃ it S, dget? hw' id = some it ∧ Dev env id code S it) ∧
    (N ≤ count → hw' = hw) ∧
    (∀ p ∈ L, cd' p = N ∧ seen' p = min N count ∧ numHas env hw' p ids + min k count = min N count)
  | [], hw, hw', cd, cd', seen, seen', k, _, _, hc, hN, h => by
    cases h
    simp only [List.length_nil] at hN
    refine ⟨rfl, fun _ _ => rfl, by simp, fun _ => rfl, fun p hp => ?_⟩
    obtain ⟨a, b⟩ := hc p hp
    refine ⟨a, by rw [b]; congr 1; omega, ?_⟩
    simp [numHas]; omega
  | id :: r, hw, hw', cd, cd', seen, seen', k, hnd, hdevs, hc, hN, h => by
    have hnd' := List.nodup_cons.1 hnd
    obtain ⟨it, hit, hdev⟩ := hdevs id List.mem_cons_self
    simp only [List.length_cons] at hN
    unfold existingLoop at h
    rw [hit] at h
    simp only at h
    cases hp : profLoop env count L (it, cd, seen) with
    | error e => rw [hp] at h; cases h
    | ok st =>
      obtain ⟨it1, cd1, seen1⟩ := st
      rw [hp] at h
      simp only at h
      have hhas : ∀ p ∈ L, it.hasProfile env p = true := by
        intro p hp'
        rw [hdev.hasS]; unfold HasS
        rcases (hmem p).1 hp' with rfl | h
        · left; simp
        · right; exact ⟨by simp, h⟩
      have key : (∃ S1, Dev env id code S1 it1) ∧ cd1 = cd ∧ (k < count → it1 = it) ∧
          (∀ p ∈ L, seen1 p = min (k + 1) count) ∧
          (∀ p ∈ L, it1.hasProfile env p = true ↔ k < count) := by
        by_cases hk : k < count
        · obtain ⟨e1, e2, e3⟩ := profLoop_keep L hL
            (fun p hp' => ⟨hhas p hp', by rw [(hc p hp').2]; omega⟩) hp
          refine ⟨⟨_, e1 ▸ hdev⟩, e2, fun _ => e1, ?_, ?_⟩
          · intro p hp'; rw [e3 p, if_pos hp', (hc p hp').2]; omega
          · intro p hp'; rw [e1]; simp [hk, hhas p hp']
        · obtain ⟨e1, e2, S', d, hs, hq⟩ := profLoop_remove L (fun p hp' => (hmem p).1 hp') hdev
            (fun p hp' => by obtain ⟨a, b⟩ := hc p hp'; omega) hp
          refine ⟨⟨S', d⟩, e1, fun h => absurd h hk, ?_, ?_⟩
          · intro p hp'; rw [e2, (hc p hp').2]; omega
          · intro p hp'
            rw [d.hasS]
            constructor
            · intro hx; exact absurd hp' (hq p ((hmem p).1 hp') hx).2
            · intro hx; exact absurd hx hk
      obtain ⟨⟨S1, hdev1⟩, rfl, hsame, hseen, hhas1⟩ := key
      have hit1 : dget? (dset hw id it1) id = some it1 := by rw [dget?_dset, if_pos rfl]
      have hfr : ∀ j, j ≠ id → dget? (dset hw id it1) j = dget? hw j := by
        intro j hj; rw [dget?_dset, if_neg (Ne.symm hj)]
      obtain ⟨k1, k2, k3, k4, k5⟩ := existingLoop_default (N := N) hL hmem r (k := k + 1) hnd'.2
        (fun j hj => by
          rw [hfr j (by rintro rfl; exact hnd'.1 hj)]
          exact hdevs j (List.mem_cons_of_mem _ hj))
        (fun p hp' => ⟨(hc p hp').1, hseen p hp'⟩) (by omega) h
      have hid' : dget? hw' id = some it1 := by rw [k2 id hnd'.1, hit1]
      refine ⟨by rw [k1, dkeys_dset_mem (mem_dkeys_of_dget? hit)], ?_, ?_, ?_, ?_⟩
      · intro j hj
        simp only [List.mem_cons, not_or] at hj
        rw [k2 j hj.2, hfr j hj.1]
      · intro j hj
        rcases List.mem_cons.1 hj with rfl | hj'
        · exact ⟨it1, S1, hid', hdev1⟩
        · exact k3 j hj'
      · intro hle
        rw [k4 hle, hsame (by omega), dset_self hit]
      · intro p hp'
        obtain ⟨m1, m2, m3⟩ := k5 p hp'
        refine ⟨m1, m2, ?_⟩
        rw [numHas_cons, hasAt_some hid']
        by_cases hk : k < count
        · rw [if_pos ((hhas1 p hp').2 hk)]; omega
        · rw [if_neg (fun h => hk ((hhas1 p hp').1 h))]; omega

/-! ### creating new items -/

theorem pickProfiles_all {count : Nat} : ∀ {L : List Prof} (cd : Prof → Nat), L.Nodup →
    (∀ p ∈ L, cd p < count) → (pickProfiles count L cd).1 = L ∧
      ∀ q, (pickProfiles count L cd).2 q = if q ∈ L then cd q + 1 else cd q
  | [], cd, _, _ => by simp [pickProfiles]
  | p :: r, cd, hnd, h => by
    have hnd' := List.nodup_cons.1 hnd
    have hb : ∀ q, q ≠ p → bump cd p q = cd q := by intro q hq; unfold bump; rw [if_neg hq]
    have hpr : ∀ q ∈ r, q ≠ p := fun q hq e => hnd'.1 (e ▸ hq)
    obtain ⟨h1, h2⟩ := pickProfiles_all (bump cd p) hnd'.2 (fun q hq => by
      rw [hb q (hpr q hq)]; exact h q (List.mem_cons_of_mem _ hq))
    unfold pickProfiles
    rw [if_pos (h p List.mem_cons_self)]
    refine ⟨by simp only; rw [h1], ?_⟩
    intro q
    simp only
    rw [h2 q]
    by_cases hqp : q = p
    · subst hqp; simp [hnd'.1, bump]
    · rw [hb q hqp]; simp [hqp]

theorem aop_facts (v : Ver) : addressOnParent ≠ instanceId v ∧ addressOnParent ≠ resourceType := by
  cases v <;> decide +kernel

theorem updateCloned_dev {env : Env} {nicName : Nat → Str} {id code : Str} {S : PSet} {it it' : Item}
    {P : List Prof} {n : Nat} (hdev : Dev env id code S it)
    (h : updateCloned env nicName it P n = .ok it') : Dev env id code S it' := by
  unfold updateCloned at h
  split at h
  · cases h
  · obtain ⟨it1, h1, h⟩ := bind_ok_inv h
    have hd1 : Dev env id code S it1 := by
      split at h1
      · cases h1; exact hdev
      · split at h1
        · cases h1
        · exact hdev.setOther (aop_facts env.ver).1 (aop_facts env.ver).2 h1
      · cases h1
    split at h
    · exact hd1.setOther (plain_iid env).1.symm (plain_rt env).1.symm h
    · cases h; exact hd1

theorem cloneStrip_dev {env : Env} {id code : Str} {P : List Prof} : ∀ (L : List Str)
    (_ : ∀ q ∈ L, q ∈ env.configProfiles) {it it' : Item} {S : PSet}, Dev env id code S it →
    cloneStrip env P L it = .ok it' →
    ∃ S', Dev env id code S' it' ∧ (∀ q ∈ env.cfgSet, q ∈ P → HasS env S q → HasS env S' q)
  | [], _, it, it', S, hdev, h => by cases h; exact ⟨S, hdev, fun _ _ _ h => h⟩
  | p :: r, hL, it, it', S, hdev, h => by
    have hr : ∀ q ∈ r, q ∈ env.configProfiles := fun q hq => hL q (List.mem_cons_of_mem _ hq)
    have hpc : some p ∈ env.cfgSet := mem_cfgSet.2 (hL p List.mem_cons_self)
    unfold cloneStrip at h
    split at h
    · rename_i hc
      obtain ⟨it1, h1, hdev1, -⟩ := hdev.remove hc.1
      simp only [h1] at h
      obtain ⟨S', d, hq⟩ := cloneStrip_dev r hr hdev1 h
      refine ⟨S', d, fun q hqc hqP hqS => hq q hqc hqP ?_⟩
      rw [hasS_remS hpc hqc]
      exact ⟨by rintro rfl; exact hc.2 hqP, hqS⟩
    · exact cloneStrip_dev r hr hdev h

theorem cloneStrip_id {env : Env} {P : List Prof} : ∀ (L : List Str) {it : Item},
    (∀ q ∈ L, some q ∈ P) → cloneStrip env P L it = .ok it
  | [], _, _ => rfl
  | p :: r, it, h => by
    unfold cloneStrip
    rw [if_neg (fun hc => hc.2 (h p List.mem_cons_self))]
    exact cloneStrip_id r (fun q hq => h q (List.mem_cons_of_mem _ hq))

theorem dset_dset {κ ν : Type} [DecidableEq κ] (d : List (κ × ν)) (x : κ) (v w : ν) :
    dset (dset d x v) x w = dset d x w := by
  induction d with
  | nil => simp [dset]
  | cons e d ih =>
    obtain ⟨k, u⟩ := e
    by_cases h : k = x
    · simp [dset, h]
    · simp [dset, h, ih]

theorem dset_append_self {κ ν : Type} [DecidableEq κ] {d : List (κ × ν)} {x : κ} (h : x ∉ dkeys d) (v w : ν) :
    dset (dset d x v) x w = d ++ [(x, w)] := by
  rw [dset_dset, dset_append h]

theorem dkeys_append {κ ν : Type} (d e : List (κ × ν)) : dkeys (d ++ e) = dkeys d ++ dkeys e := by
  simp [dkeys]

theorem addLoop_spec {env : Env} {nicName : Nat → Str} {rt code : Str} {count : Nat} {L : List Prof}
    {T : PSet} {Par : PSet → Prop} (hL : L.Nodup) (hLne : L ≠ []) (hc : resourceCode rt = .ok code)
    (hT : collapse L.toFinset = T) (hParT : Par T)
    (hstrip : ∀ id it S it1, Dev env id code S it → Par S →
      cloneStrip env L env.configProfiles it = .ok it1 →
      ∃ S1, Dev env id code S1 it1 ∧ (S1 ⊆ L.toFinset → S1 = T)) :
    ∀ (k : Nat) {hw hw' : Hw} {cd : Prof → Nat} {last : Option Str} {c : Nat},
    (dkeys hw).Nodup → (∀ p ∈ L, cd p = c) → c + k ≤ count →
    (∀ l, last = some l → ∃ it S, dget? hw l = some it ∧ Dev env l code S it ∧ S ≠ ∅ ∧ Par S) →
    addLoop env nicName rt count L k hw cd last = .ok hw' →
    ∃ new, hw' = hw ++ new ∧ new.length = k ∧ (dkeys hw').Nodup ∧
      ∀ e ∈ new, Dev env e.1 code T e.2
  | 0, hw, hw', cd, last, c, hk, _, _, _, h => by
    cases h; exact ⟨[], by simp, rfl, hk, by simp⟩
  | k + 1, hw, hw', cd, last, c, hk, hcd, hle, hlast, h => by
    obtain ⟨p1, p2⟩ := pickProfiles_all (count := count) cd hL (fun p hp => by rw [hcd p hp]; omega)
    have hTne : T ≠ ∅ := by
      rw [← hT]; apply collapse_nonempty
      intro h; rw [List.toFinset_eq_empty_iff] at h; exact hLne h
    unfold addLoop at h
    generalize hpick : pickProfiles count L cd = pk at h p1 p2
    obtain ⟨P, cd'⟩ := pk
    simp only at p1 p2 h
    subst p1
    obtain ⟨⟨id, hw1⟩, hnew, h⟩ := bind_ok_inv h
    have key : ∃ it, id ∉ dkeys hw ∧ hw1 = dset hw id it ∧ Dev env id code T it := by
      cases hlc : last with
      | none =>
        rw [hlc] at hnew
        obtain ⟨z, code', it, -, rfl, hf, hc', rfl, w, t1, t2, -, -⟩ := newItem_spec hnew
        rw [hc] at hc'; cases hc'
        have hPf : P.toFinset ≠ ∅ := by
          intro h; rw [List.toFinset_eq_empty_iff] at h; exact hLne h
        rw [if_neg hPf, hT] at t1 t2
        exact ⟨it, hf, rfl, w, by rw [t1]; simp [tagTab, hTne], by rw [t2]; simp [tagTab, hTne]⟩
      | some l =>
        rw [hlc] at hnew
        obtain ⟨it0, S, hl, hdev, hS, hPar⟩ := hlast l hlc
        obtain ⟨pit, s, z, y, it1, it, g1, g2, g3, g4, rfl, hf, g6, g7, rfl⟩ := cloneItem_spec hnew
        rw [hl] at g1; cases g1
        obtain ⟨S1, hdev1, hS1⟩ := hstrip _ _ _ _ hdev hPar g6
        have hPf : P.toFinset ≠ ∅ := by
          intro h; rw [List.toFinset_eq_empty_iff] at h; exact hLne h
        have hne : intStr z ≠ l := by
          rintro h; rw [h] at hf; exact hf (mem_dkeys_of_dget? hl)
        obtain ⟨w, hsub, ht, hr, -⟩ := hdev1.newId hPf hne (intStr_ne_nil z) g7
        have := hS1 hsub; subst this
        rw [hT] at ht
        exact ⟨_, hf, rfl, w.flag true, by
          show it.tab _ = _
          rw [ht]; simp [tagTab, hTne], hr⟩
    obtain ⟨it, hf, rfl, hdev⟩ := key
    cases hP : P with
    | nil => exact absurd hP hLne
    | cons p0 r0 =>
      rw [hP] at h
      simp only at h
      rw [dget?_dset, if_pos rfl] at h
      simp only at h
      obtain ⟨it', hupd, h⟩ := bind_ok_inv h
      rw [← hP] at h hupd
      have hdev' := updateCloned_dev hdev hupd
      rw [dset_append_self hf] at h
      have hk1 : (dkeys (hw ++ [(id, it')])).Nodup := by
        rw [dkeys_append, List.nodup_append]
        refine ⟨hk, by simp [dkeys], ?_⟩
        intro a ha b hb
        simp [dkeys] at hb; subst hb
        rintro rfl; exact hf ha
      obtain ⟨new, e1, e2, e3, e4⟩ := addLoop_spec hL hLne hc hT hParT hstrip k (c := c + 1) hk1
        (fun p hp => by rw [p2 p, if_pos hp, hcd p hp]) (by omega)
        (fun l hl => by
          cases hl
          exact ⟨it', T, dget?_of_mem hk1 (by simp), hdev', hTne, hParT⟩) h
      refine ⟨(id, it') :: new, by rw [e1]; simp, by simp [e2], e3, ?_⟩
      intro e he
      rcases List.mem_cons.1 he with rfl | he
      · exact hdev'
      · exact e4 e he

theorem itemsToAdd_const {count s : Nat} : ∀ {L : List Prof} {seen : Prof → Nat} (m : Nat),
    (∀ p ∈ L, seen p = s) →
    L.foldl (fun m p => if count - seen p > m then count - seen p else m) m =
      if L = [] then m else max m (count - s)
  | [], _, m, _ => by simp
  | p :: r, seen, m, h => by
    rw [List.foldl_cons, itemsToAdd_const _ (fun q hq => h q (List.mem_cons_of_mem _ hq)),
      h p List.mem_cons_self]
    simp only [List.cons_ne_nil, if_false]
    split <;> split <;> omega

end Cot
