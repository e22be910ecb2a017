import Verif.Spec.Hardware
import Verif.Lemmas.ItemOps2
import Verif.Lemmas.NatSort
import Verif.Lemmas.Digits
/-
Identifiers, dictionaries of items, searches.
-/
namespace Cot

theorem natStr_head_ne_minus (n : Nat) (t : Str) : natStr n ≠ '-' :: t := by
  intro h
  have := isDig_natStr n '-' (by rw [h]; simp)
  simp [isDig] at this

theorem intStr_inj {a b : Int} (h : intStr a = intStr b) : a = b := by
  cases a with
  | ofNat m => cases b with
    | ofNat n => simp only [intStr] at h; rw [natStr_inj h]
    | negSucc n => simp only [intStr] at h; exact absurd h (natStr_head_ne_minus _ _)
  | negSucc m => cases b with
    | ofNat n => simp only [intStr] at h; exact absurd h.symm (natStr_head_ne_minus _ _)
    | negSucc n =>
      simp only [intStr, List.cons.injEq, true_and] at h
      have := natStr_inj h
      congr 1; omega

theorem unusedLoop_some {keys : List Str} : ∀ (k : Nat) (z : Int) {s : Str},
    unusedLoop keys k z = some s → ∃ y, z ≤ y ∧ s = intStr y ∧ intStr y ∉ keys ∧
      ∀ x, z ≤ x → x < y → intStr x ∈ keys
  | 0, z, s, h => by
    unfold unusedLoop at h
    split at h
    · cases h
    · rename_i hn; cases h; exact ⟨z, le_refl _, rfl, hn, fun x h1 h2 => by omega⟩
  | k + 1, z, s, h => by
    unfold unusedLoop at h
    split at h
    · rename_i hz
      obtain ⟨y, h1, h2, h3, h4⟩ := unusedLoop_some k (z + 1) h
      refine ⟨y, by omega, h2, h3, fun x hx1 hx2 => ?_⟩
      by_cases hxz : x = z
      · subst hxz; exact hz
      · exact h4 x (by omega) hx2
    · rename_i hn; cases h; exact ⟨z, le_refl _, rfl, hn, fun x h1 h2 => by omega⟩

theorem unusedLoop_none {keys : List Str} : ∀ (k : Nat) (z : Int), unusedLoop keys k z = none →
    ∀ i : Nat, i ≤ k → intStr (z + i) ∈ keys
  | 0, z, h, i, hi => by
    unfold unusedLoop at h
    split at h
    · rename_i hz; have : i = 0 := by omega
      subst this; simpa using hz
    · cases h
  | k + 1, z, h, i, hi => by
    unfold unusedLoop at h
    split at h
    · rename_i hz
      cases i with
      | zero => simpa using hz
      | succ j =>
        have := unusedLoop_none k (z + 1) h j (by omega)
        have e : z + 1 + (j : Int) = z + ((j + 1 : Nat) : Int) := by push_cast; omega
        rw [e] at this; exact this
    · cases h

theorem unusedLoop_total (keys : List Str) (k : Nat) (hk : keys.length ≤ k) (z : Int) :
    ∃ s, unusedLoop keys k z = some s := by
  cases h : unusedLoop keys k z with
  | some s => exact ⟨s, rfl⟩
  | none =>
    exfalso
    have hin := unusedLoop_none k z h
    have hnd : ((List.range (k + 1)).map (fun i : Nat => intStr (z + i))).Nodup := by
      refine List.Nodup.map_on ?_ List.nodup_range
      intro a _ b _ he
      have := intStr_inj he
      omega
    have hsub : ((List.range (k + 1)).map (fun i : Nat => intStr (z + i))) ⊆ keys := by
      intro s hs
      obtain ⟨i, hi, rfl⟩ := List.mem_map.1 hs
      exact hin i (by simpa [Nat.lt_succ_iff] using hi)
    have := (List.subperm_of_subset hnd hsub).length_le
    simp at this
    omega

theorem findUnusedId_spec (hw : Hw) (start : Int) : ∃ z, start ≤ z ∧
    findUnusedId hw start = some (intStr z) ∧ intStr z ∉ dkeys hw ∧
    ∀ y, start ≤ y → y < z → intStr y ∈ dkeys hw := by
  obtain ⟨s, hs⟩ := unusedLoop_total (dkeys hw) hw.length (by simp [dkeys]) start
  obtain ⟨y, h1, rfl, h3, h4⟩ := unusedLoop_some _ _ hs
  exact ⟨y, h1, hs, h3, h4⟩

theorem findUnusedId_fresh {hw : Hw} {start : Int} {id : Str} (h : findUnusedId hw start = some id) :
    id ∉ dkeys hw := by
  obtain ⟨y, _, rfl, h3, _⟩ := unusedLoop_some _ _ h; exact h3

/-! ### dictionaries -/

theorem dset_append {κ ν : Type} [DecidableEq κ] {d : List (κ × ν)} {x : κ} (h : x ∉ dkeys d) (w : ν) :
    dset d x w = d ++ [(x, w)] := by
  induction d with
  | nil => rfl
  | cons e d ih =>
    obtain ⟨k, v⟩ := e
    simp only [dkeys, List.map_cons, List.mem_cons, not_or] at h
    rw [dset, if_neg (Ne.symm h.1), ih h.2]; rfl

theorem dkeys_dset_mem {κ ν : Type} [DecidableEq κ] {d : List (κ × ν)} {x : κ} (h : x ∈ dkeys d) (w : ν) :
    dkeys (dset d x w) = dkeys d := by
  induction d with
  | nil => simp [dkeys] at h
  | cons e d ih =>
    obtain ⟨k, v⟩ := e
    unfold dset
    by_cases hk : k = x
    · rw [if_pos hk]; rfl
    · rw [if_neg hk]
      simp only [dkeys, List.map_cons, List.mem_cons] at h
      rcases h with h | h
      · exact absurd h.symm hk
      · have := ih h
        simp only [dkeys, List.map_cons] at this ⊢
        rw [this]

theorem mem_dkeys_of_dget? {κ ν : Type} [DecidableEq κ] {d : List (κ × ν)} {x : κ} {v : ν}
    (h : dget? d x = some v) : x ∈ dkeys d := by
  by_contra hn
  rw [← dget?_eq_none] at hn; rw [hn] at h; cases h

theorem dget?_of_mem_dkeys {κ ν : Type} [DecidableEq κ] {d : List (κ × ν)} {x : κ}
    (h : x ∈ dkeys d) : ∃ v, dget? d x = some v := by
  cases hd : dget? d x with
  | some v => exact ⟨v, rfl⟩
  | none => rw [dget?_eq_none] at hd; exact absurd h hd

/-- counting in a dictionary after replacing one entry -/
theorem countP_dset {κ ν : Type} [DecidableEq κ] {d : List (κ × ν)} {x : κ} {v w : ν}
    (hnd : (dkeys d).Nodup) (h : dget? d x = some v) (q : κ × ν → Bool) :
    ((dset d x w).filter q).length + (if q (x, v) then 1 else 0) =
      (d.filter q).length + (if q (x, w) then 1 else 0) := by
  induction d with
  | nil => simp at h
  | cons e d ih =>
    obtain ⟨k, u⟩ := e
    simp only [dkeys, List.map_cons, List.nodup_cons] at hnd
    unfold dset
    unfold dget? at h
    by_cases hk : k = x
    · subst hk
      rw [if_pos rfl] at h ⊢
      cases h
      simp only [List.filter_cons]
      split <;> split <;> (try simp only [List.length_cons])
    · rw [if_neg hk] at h ⊢
      have := ih hnd.2 h
      simp only [List.filter_cons]
      split <;> (try simp only [List.length_cons]) <;> omega

/-! ### searches -/

theorem filterE_mem {α : Type} {f : α → Except Err Bool} {l r : List α} (h : filterE f l = .ok r) :
    (∀ x, x ∈ r ↔ x ∈ l ∧ f x = .ok true) ∧ r.Sublist l := by
  induction l generalizing r with
  | nil => cases h; simp
  | cons a l ih =>
    unfold filterE at h
    cases hf : f a with
    | error e => rw [hf] at h; cases h
    | ok b =>
      rw [hf] at h; simp only at h
      cases hr : filterE f l with
      | error e => rw [hr] at h; cases h
      | ok l' =>
        rw [hr] at h; simp only [Except.ok.injEq] at h; subst h
        obtain ⟨h1, h2⟩ := ih hr
        cases b with
        | true =>
          refine ⟨?_, by simpa using h2⟩
          intro x
          simp only [if_true, List.mem_cons, h1]
          constructor
          · rintro (rfl | ⟨h, h'⟩)
            · exact ⟨Or.inl rfl, hf⟩
            · exact ⟨Or.inr h, h'⟩
          · rintro ⟨rfl | h, h'⟩
            · exact Or.inl rfl
            · exact Or.inr ⟨h, h'⟩
        | false =>
          refine ⟨?_, by simpa using h2.cons a⟩
          intro x
          simp only [Bool.false_eq_true, if_false, List.mem_cons, h1]
          constructor
          · rintro ⟨h, h'⟩; exact ⟨Or.inr h, h'⟩
          · rintro ⟨rfl | h, h'⟩
            · rw [hf] at h'; cases h'
            · exact ⟨h, h'⟩

theorem getRaw_none_iff {it : Item} {code : Str} :
    it.getRaw resourceType none = some (.str code) ↔ OfType it code := by
  unfold Item.getRaw OfType
  simp only
  match ht : it.tab resourceType with
  | [] => simp
  | [(v, S)] =>
    simp only [Option.some.injEq, List.cons.injEq, Prod.mk.injEq, and_true]
    constructor
    · rintro rfl; exact ⟨S, rfl, rfl⟩
    · rintro ⟨_, h, _⟩; exact h
  | _ :: _ :: _ => simp

theorem resourceCode_ok {rt code : Str} (h : resourceCode rt = .ok code) : dget? resMap rt = some code := by
  unfold resourceCode at h
  split at h
  · cases h
  · rename_i c hc; cases h; exact hc

theorem resMap_nonempty : ∀ kv ∈ resMap, kv.1 ≠ [] ∧ kv.2 ≠ [] := by decide +kernel

theorem resourceCode_ne {rt code : Str} (h : resourceCode rt = .ok code) : rt ≠ [] ∧ code ≠ [] :=
  resMap_nonempty _ (dget?_mem (resourceCode_ok h))

theorem itemMatch_type_ok {env : Env} {it : Item} {rt code : Str} (hc : resourceCode rt = .ok code) :
    itemMatch env it (some rt) [] [] = .ok (decide (OfType it code)) := by
  unfold itemMatch typeMatch
  simp only [if_neg (resourceCode_ne hc).1, hc, ← getRaw_none_iff]
  by_cases hr : it.getRaw resourceType none = some (.str code)
  · simp [hr, propsMatch]
  · simp [hr]

theorem itemMatch_type {env : Env} {it : Item} {rt : Str} {b : Bool}
    (hrt : rt ≠ []) (h : itemMatch env it (some rt) [] [] = .ok b) :
    ∃ code, resourceCode rt = .ok code ∧ (b = true ↔ OfType it code) := by
  cases hc : resourceCode rt with
  | error e => unfold itemMatch typeMatch at h; simp only [if_neg hrt, hc] at h; cases h
  | ok code =>
    rw [itemMatch_type_ok hc] at h
    cases h
    exact ⟨code, rfl, by simp⟩

/-- the items found for a type are exactly those of the type, each once, in natural order of their
identifiers -/
theorem findAllItems_spec {env : Env} {hw : Hw} {rt : Str} {ids : List Str} (hk : (dkeys hw).Nodup)
    (hrt : rt ≠ []) (h : findAllItems env hw (some rt) [] [] = .ok ids) :
    ids.Nodup ∧ ids.Pairwise NatLe ∧
    (hw = [] ∧ ids = [] ∨ ∃ code, resourceCode rt = .ok code ∧
      ∀ id, id ∈ ids ↔ ∃ it, dget? hw id = some it ∧ OfType it code) := by
  unfold findAllItems at h
  obtain ⟨h1, h2⟩ := filterE_mem h
  refine ⟨(naturalSort_nodup hk).sublist h2, (naturalSort_sorted _).sublist h2, ?_⟩
  cases hw with
  | nil =>
    left
    refine ⟨rfl, ?_⟩
    have : naturalSort (dkeys ([] : Hw)) = [] := rfl
    rw [this] at h2
    exact List.sublist_nil.1 h2
  | cons e hw =>
    right
    have hfirst : ∃ code, resourceCode rt = .ok code := by
      have hne : naturalSort (dkeys (e :: hw)) ≠ [] := by
        intro h0
        have := (mem_naturalSort (l := dkeys (e :: hw)) (x := e.1)).2 (by simp [dkeys])
        rw [h0] at this; simp at this
      match hl : naturalSort (dkeys (e :: hw)) with
      | [] => exact absurd hl hne
      | id :: r =>
        rw [hl] at h
        unfold filterE at h
        cases hd : dget? (e :: hw) id with
        | none => rw [hd] at h; cases h
        | some it =>
          rw [hd] at h
          simp only at h
          cases hm : itemMatch env it (some rt) [] [] with
          | error x => rw [hm] at h; cases h
          | ok b => obtain ⟨code, hc, -⟩ := itemMatch_type hrt hm; exact ⟨code, hc⟩
    obtain ⟨code, hcode⟩ := hfirst
    refine ⟨code, hcode, ?_⟩
    intro id
    rw [h1 id, mem_naturalSort]
    constructor
    · rintro ⟨hin, hm⟩
      cases hd : dget? (e :: hw) id with
      | none => rw [hd] at hm; cases hm
      | some it =>
        rw [hd] at hm
        simp only at hm
        obtain ⟨code', hc', hiff⟩ := itemMatch_type hrt hm
        rw [hcode] at hc'; cases hc'
        exact ⟨it, rfl, hiff.1 rfl⟩
    · rintro ⟨it, hd, ht⟩
      refine ⟨mem_dkeys_of_dget? hd, ?_⟩
      rw [hd]
      simp only
      rw [itemMatch_type_ok hcode]
      simp [ht]

end Cot
