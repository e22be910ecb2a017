import Verif.Lemmas.HwOps
import Verif.Props.Item
/-
The modified flag: whatever changes an item sets it.
-/
namespace Cot

/-- an item still unmodified was unmodified before and is unchanged -/
def Kept (it it' : Item) : Prop := it'.modified = false → it.modified = false ∧ it.props = it'.props

theorem Kept.refl (it : Item) : Kept it it := fun h => ⟨h, rfl⟩

theorem Kept.trans {a b c : Item} (h1 : Kept a b) (h2 : Kept b c) : Kept a c := fun h =>
  ⟨(h1 (h2 h).1).1, (h1 (h2 h).1).2.trans (h2 h).2⟩

theorem Kept.modified {a b : Item} (h : b.modified = true) : Kept a b := fun hc => by rw [h] at hc; cases hc

theorem setExistingLoop_same {v : Val} {P : PSet} {ow : Bool} : ∀ (t : Tab) {r : Tab},
    setExistingLoop v P ow t = .ok (r, false) → r = t
  | [], r, h => by simp only [setExistingLoop, Except.ok.injEq, Prod.mk.injEq] at h; exact h.1.symm
  | (kv, S) :: t, r, h => by
    rw [setExistingLoop] at h
    by_cases hc : !ow ∧ S ∩ P ≠ ∅
    · rw [if_pos hc] at h; cases h
    · rw [if_neg hc] at h
      simp only at h
      cases hl : setExistingLoop v P ow t with
      | error e => rw [hl] at h; cases h
      | ok x =>
        obtain ⟨t', ch⟩ := x
        rw [hl] at h
        simp only at h
        generalize (if kv ≠ v then S \ P else if none ∈ S then S else S ∪ P) = S' at h
        by_cases hS : S' = S
        · rw [if_neg (by simpa using hS)] at h
          simp only [Except.ok.injEq, Prod.mk.injEq] at h
          obtain ⟨rfl, rfl⟩ := h
          rw [setExistingLoop_same t hl]
        · rw [if_pos hS] at h
          by_cases he : S' = ∅
          · rw [if_pos he] at h; simp at h
          · rw [if_neg he] at h; simp at h

theorem storeProperty_kept {it it' : Item} {n : Str} {v : Val} {P : PSet} {ow : Bool}
    (h : it.storeProperty n v P ow = .ok it') : Kept it it' := by
  unfold Item.storeProperty at h
  cases hd : dget? it.props n with
  | none =>
    rw [hd] at h
    simp only [Except.ok.injEq] at h
    subst h
    unfold Item.setNew
    split
    · exact Kept.refl _
    · exact Kept.modified rfl
  | some t =>
    rw [hd] at h
    simp only at h
    unfold setExisting at h
    cases hl : setExistingLoop v P ow t with
    | error e => rw [hl] at h; cases h
    | ok x =>
      obtain ⟨t', ch⟩ := x
      rw [hl] at h
      simp only at h
      by_cases hc : v.truthy ∧ v ∉ dkeys t'
      · rw [if_pos hc] at h
        simp only [Except.ok.injEq] at h
        subst h
        exact Kept.modified (by simp)
      · rw [if_neg hc] at h
        by_cases ht : t' = []
        · rw [if_pos ht] at h
          simp only [Except.ok.injEq] at h
          subst h
          exact Kept.modified (by simp)
        · rw [if_neg ht] at h
          simp only [Except.ok.injEq] at h
          subst h
          intro hm
          simp only [Bool.or_eq_false_iff] at hm
          obtain ⟨h1, rfl⟩ := hm
          refine ⟨h1, ?_⟩
          rw [setExistingLoop_same t hl]
          exact (dset_self hd).symm

theorem validate_modified {env : Env} {it it' : Item} (h : it.validate env = .ok it') : it'.modified = it.modified := by
  unfold Item.validate at h
  split at h
  · cases h
  · split at h
    · cases h
    · split at h
      · cases h
      · cases h; rfl

theorem updNs_kept (env : Env) (it : Item) (n : Str) (v : Val) : (it.updNs env n v).modified = it.modified ∧
    (it.updNs env n v).props = it.props := by
  unfold Item.updNs; split <;> exact ⟨rfl, rfl⟩

theorem setProperty_kept {env : Env} {it it' : Item} {n : Str} {v : InVal} {P : PSet} {ow : Bool}
    (h : it.setProperty env n v P ow = .ok it') : Kept it it' := by
  unfold Item.setProperty at h
  simp only [bind, Except.bind] at h
  obtain ⟨k1, k2⟩ := updNs_kept env it n (normValue env n v)
  split at h
  · cases h
  · split at h
    · cases h
    · rename_i it1 hs
      have hk := storeProperty_kept hs
      have hk' : Kept it it1 := fun hm => ⟨by rw [← k1]; exact (hk hm).1, by rw [← k2]; exact (hk hm).2⟩
      split at h
      · rename_i hm
        exact Kept.modified ((validate_modified h).trans hm)
      · cases h; exact hk'

theorem removeProfile_kept {env : Env} {it it' : Item} {p : Prof} {b : Bool} (h : it.removeProfile env p b = .ok it') : Kept it it' := by
  unfold Item.removeProfile at h
  split at h
  · exact Kept.modified (validate_modified h)
  · cases h; exact Kept.refl _

theorem addProfile_kept {env : Env} {it it' : Item} {p : Prof} {src : Option Item} (h : it.addProfile env p src = .ok it') :
    Kept it it' := by
  unfold Item.addProfile at h
  split at h
  · cases h; exact Kept.refl _
  · split at h
    · cases h
    · split at h
      · cases h
      · exact Kept.modified (validate_modified h)

/-! ### collections -/

/-- the entries that are still unmodified were there, unmodified and the same -/
def HwKept (hw hw' : Hw) : Prop :=
  ∀ id it', (id, it') ∈ hw' → it'.modified = false → ∃ it, (id, it) ∈ hw ∧ it.modified = false ∧ it.props = it'.props

theorem HwKept.refl (hw : Hw) : HwKept hw hw := fun _ it' h1 h2 => ⟨it', h1, h2, rfl⟩

theorem HwKept.trans {a b c : Hw} (h1 : HwKept a b) (h2 : HwKept b c) : HwKept a c := by
  intro id it hm hf
  obtain ⟨it1, m1, f1, p1⟩ := h2 id it hm hf
  obtain ⟨it0, m0, f0, p0⟩ := h1 id it1 m1 f1
  exact ⟨it0, m0, f0, p0.trans p1⟩

theorem HwKept.dset {hw : Hw} {id : Str} {it it' : Item} (hk : (dkeys hw).Nodup) (hm : dget? hw id = some it) (h : Kept it it') :
    HwKept hw (dset hw id it') := by
  intro k u hu hf
  have hd : dget? (Cot.dset hw id it') k = some u := dget?_of_mem (nodup_dset hk) hu
  rw [dget?_dset] at hd
  split at hd
  · rename_i hki
    cases hd
    subst hki
    exact ⟨it, dget?_mem hm, (h hf).1, (h hf).2⟩
  · exact ⟨u, dget?_mem hd, hf, rfl⟩

theorem HwKept.new {hw : Hw} {id : Str} {it' : Item} (hk : (dkeys hw).Nodup) (h : it'.modified = true) :
    HwKept hw (Cot.dset hw id it') := by
  intro k u hu hf
  have hd : dget? (Cot.dset hw id it') k = some u := dget?_of_mem (nodup_dset hk) hu
  rw [dget?_dset] at hd
  split at hd
  · cases hd; rw [h] at hf; cases hf
  · exact ⟨u, dget?_mem hd, hf, rfl⟩

theorem HwKept.del {hw : Hw} {id : Str} : HwKept hw (ddel hw id) := by
  intro k u hu hf
  exact ⟨u, mem_ddel hu, hf, rfl⟩

/-- kept, and still without duplicate keys -/
def Good (hw hw' : Hw) : Prop := (dkeys hw).Nodup → HwKept hw hw' ∧ (dkeys hw').Nodup

theorem Good.refl (hw : Hw) : Good hw hw := fun h => ⟨HwKept.refl _, h⟩

theorem Good.trans {a b c : Hw} (h1 : Good a b) (h2 : Good b c) : Good a c := fun h =>
  ⟨(h1 h).1.trans (h2 (h1 h).2).1, (h2 (h1 h).2).2⟩

theorem Good.dset {hw : Hw} {id : Str} {it it' : Item} (hm : dget? hw id = some it) (h : Kept it it') : Good hw (dset hw id it') :=
  fun hk => ⟨HwKept.dset hk hm h, nodup_dset hk⟩

theorem Good.new {hw : Hw} {id : Str} {it' : Item} (h : it'.modified = true) : Good hw (Cot.dset hw id it') :=
  fun hk => ⟨HwKept.new hk h, nodup_dset hk⟩

theorem newItem_good {env : Env} {hw hw' : Hw} {rt id : Str} {P : List Prof} (h : newItem env hw rt P = .ok (id, hw')) :
    Good hw hw' := by
  unfold newItem at h
  split at h
  · cases h
  · simp only [bind, Except.bind] at h
    split at h
    · cases h
    · split at h
      · cases h
      · split at h
        · cases h
        · split at h
          · cases h
          · cases h; exact Good.new rfl

theorem deleteItem_good {env : Env} {hw hw' : Hw} {id : Str} (h : deleteItem env hw id = .ok hw') : Good hw hw' := by
  unfold deleteItem at h
  split at h
  · cases h
  · split at h
    · split at h
      · cases h
        intro hk
        split
        · exact ⟨HwKept.del, nodup_ddel hk⟩
        · exact ⟨HwKept.refl _, hk⟩
      · cases h
    · cases h

theorem cloneItem_good {env : Env} {hw hw' : Hw} {parent id : Str} {P : List Prof} (h : cloneItem env hw parent P = .ok (id, hw')) :
    Good hw hw' := by
  unfold cloneItem at h
  split at h
  · cases h
  · split at h
    · cases h
    · cases h
    · split at h
      · cases h
      · split at h
        · cases h
        · simp only [bind, Except.bind] at h
          split at h
          · cases h
          · split at h
            · cases h
            · cases h; exact Good.new rfl

theorem profLoop_kept {env : Env} {count : Nat} : ∀ (L : List Prof) {it : Item} {cd seen : Prof → Nat} {st : LoopSt},
    profLoop env count L (it, cd, seen) = .ok st → Kept it st.1
  | [], it, cd, seen, st, h => by simp only [profLoop, Except.ok.injEq] at h; subst h; exact Kept.refl _
  | p :: r, it, cd, seen, st, h => by
    rw [profLoop] at h
    split at h
    · split at h
      · split at h
        · cases h
        · rename_i it' hr
          exact (removeProfile_kept hr).trans (profLoop_kept r h)
      · exact profLoop_kept r h
    · split at h
      · split at h
        · cases h
        · rename_i it' hr
          exact (addProfile_kept hr).trans (profLoop_kept r h)
      · exact profLoop_kept r h

theorem existingLoop_good {env : Env} {count : Nat} {L : List Prof} : ∀ (ids : List Str) {hw : Hw} {cd seen : Prof → Nat}
    {x : Hw × (Prof → Nat) × (Prof → Nat)}, existingLoop env count L ids hw cd seen = .ok x → Good hw x.1
  | [], hw, cd, seen, x, h => by simp only [existingLoop, Except.ok.injEq] at h; subst h; exact Good.refl _
  | id :: r, hw, cd, seen, x, h => by
    rw [existingLoop] at h
    split at h
    · cases h
    · rename_i it hd
      split at h
      · cases h
      · rename_i it' cd' seen' hp
        exact (Good.dset hd (profLoop_kept L hp)).trans (existingLoop_good r h)

theorem updateCloned_kept {env : Env} {nic : Nat → Str} {it it' : Item} {P : List Prof} {n : Nat}
    (h : updateCloned env nic it P n = .ok it') : Kept it it' := by
  unfold updateCloned at h
  split at h
  · cases h
  · simp only [bind, Except.bind] at h
    split at h
    · cases h
    · rename_i it1 h1
      have hk1 : Kept it it1 := by
        split at h1
        · cases h1; exact Kept.refl _
        · split at h1
          · cases h1
          · exact setProperty_kept h1
        · cases h1
      split at h
      · exact hk1.trans (setProperty_kept h)
      · cases h; exact hk1

theorem addLoop_good {env : Env} {nic : Nat → Str} {rt : Str} {count : Nat} {L : List Prof} : ∀ (k : Nat) {hw hw' : Hw}
    {cd : Prof → Nat} {last : Option Str}, addLoop env nic rt count L k hw cd last = .ok hw' → Good hw hw'
  | 0, hw, hw', cd, last, h => by simp only [addLoop, Except.ok.injEq] at h; subst h; exact Good.refl _
  | k + 1, hw, hw', cd, last, h => by
    rw [addLoop] at h
    simp only [bind, Except.bind] at h
    split at h
    · cases h
    · rename_i x hx
      obtain ⟨id, hw1⟩ := x
      have g1 : Good hw hw1 := by
        split at hx
        · exact newItem_good hx
        · exact cloneItem_good hx
      simp only at h
      split at h
      · cases h
      · split at h
        · cases h
        · rename_i it hd
          split at h
          · cases h
          · rename_i it' hu
            exact g1.trans ((Good.dset hd (updateCloned_kept hu)).trans (addLoop_good k h))

theorem setItemCount_good {env : Env} {nic : Nat → Str} {hw hw' : Hw} {rt : Str} {count : Nat} {P : List Prof}
    (h : setItemCount env nic hw rt count P = .ok hw') : Good hw hw' := by
  unfold setItemCount at h
  simp only [bind, Except.bind] at h
  split at h
  · cases h
  · split at h
    · cases h
    · split at h
      · cases h
      · rename_i x hx
        exact (existingLoop_good _ hx).trans (addLoop_good _ h)

theorem setEach_good {env : Env} {name : Str} {v : InVal} {P : List Prof} : ∀ (ids : List Str) {hw hw' : Hw},
    setEach env name v P ids hw = .ok hw' → Good hw hw'
  | [], hw, hw', h => by simp only [setEach, Except.ok.injEq] at h; subst h; exact Good.refl _
  | id :: r, hw, hw', h => by
    rw [setEach] at h
    split at h
    · cases h
    · rename_i it hd
      split at h
      · cases h
      · rename_i it' hs
        exact (Good.dset hd (setProperty_kept hs)).trans (setEach_good r h)

theorem setValueForAll_good {env : Env} {hw hw' : Hw} {rt name : Str} {v : InVal} {P : List Prof} {b : Bool}
    (h : setValueForAll env hw rt name v P b = .ok hw') : Good hw hw' := by
  unfold setValueForAll at h
  simp only [bind, Except.bind] at h
  split at h
  · cases h
  · split at h
    · split at h
      · cases h; exact Good.refl _
      · split at h
        · cases h
        · rename_i x hx
          exact (newItem_good hx).trans (setEach_good _ h)
    · exact setEach_good _ h

theorem setUnder_kept {env : Env} {name : Str} {v : InVal} : ∀ (L : List Prof) {it it' : Item},
    setUnder env name v L it = .ok it' → Kept it it'
  | [], it, it', h => by simp only [setUnder, Except.ok.injEq] at h; subst h; exact Kept.refl _
  | p :: r, it, it', h => by
    rw [setUnder] at h
    split at h
    · split at h
      · cases h
      · rename_i it1 hs
        exact (setProperty_kept hs).trans (setUnder_kept r h)
    · exact setUnder_kept r h

theorem setValuesLoop_good {env : Env} {name : Str} {d : InVal} {L : List Prof} : ∀ (ids : List Str) {vs : List InVal} {hw hw' : Hw},
    setValuesLoop env name d L ids vs hw = .ok hw' → Good hw hw'
  | [], vs, hw, hw', h => by simp only [setValuesLoop, Except.ok.injEq] at h; subst h; exact Good.refl _
  | id :: r, vs, hw, hw', h => by
    rw [setValuesLoop] at h
    split at h
    · cases h
    · rename_i it hd
      split at h
      · cases h
      · rename_i it' hs
        exact (Good.dset hd (setUnder_kept L hs)).trans (setValuesLoop_good r h)

theorem setItemValues_good {env : Env} {hw hw' : Hw} {rt name : Str} {vs : List InVal} {ps : Option (List Prof)} {d : InVal}
    (h : setItemValues env hw rt name vs ps d = .ok hw') : Good hw hw' := by
  unfold setItemValues at h
  simp only [bind, Except.bind] at h
  split at h
  · cases h
  · exact setValuesLoop_good _ h

theorem edit_kept {env : Env} {it it' : Item} {ed : Edit} (h : ed.run env it = .ok it') : Kept it it' := by
  cases ed with
  | set n v P o => exact setProperty_kept h
  | addProfile p src => exact addProfile_kept h
  | removeProfile p s => exact removeProfile_kept h
  | addElement e =>
    have h' : it.addItem env e = .ok it' := h
    refine Kept.modified ?_
    unfold Item.addItem at h'
    split at h'
    · cases h'
    · split at h'
      · cases h'
      · exact validate_modified h'

end Cot
