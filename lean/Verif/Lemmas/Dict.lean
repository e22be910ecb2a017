import Verif.Py.Basic
import Mathlib.Data.List.Nodup
namespace Cot
variable {κ ν : Type} [DecidableEq κ]

@[simp] theorem dget?_nil (x : κ) : dget? ([] : List (κ × ν)) x = none := rfl

theorem dget?_dset (d : List (κ × ν)) (x y : κ) (w : ν) :
    dget? (dset d x w) y = if x = y then some w else dget? d y := by
  induction d with
  | nil => simp [dset, dget?]
  | cons e t ih =>
    obtain ⟨k, v⟩ := e
    simp only [dset]
    split <;> rename_i h
    · subst h; simp only [dget?]; split <;> rfl
    · simp only [dget?, ih]
      split
      · split
        · subst_vars; exact absurd rfl h
        · rfl
      · rfl

theorem dget?_ddel (d : List (κ × ν)) (x y : κ) :
    dget? (ddel d x) y = if x = y then none else dget? d y := by
  induction d with
  | nil => simp [ddel, dget?]
  | cons e t ih =>
    obtain ⟨k, v⟩ := e
    simp only [ddel]
    split <;> rename_i h
    · subst h; rw [ih]; simp only [dget?]; split <;> rfl
    · simp only [dget?, ih]
      split
      · split
        · subst_vars; exact absurd rfl h
        · rfl
      · rfl

theorem dget?_mem {d : List (κ × ν)} {x : κ} {v : ν} (h : dget? d x = some v) : (x, v) ∈ d := by
  induction d with
  | nil => simp at h
  | cons e t ih =>
    obtain ⟨k, w⟩ := e
    simp only [dget?] at h
    split at h
    · subst_vars; simp_all
    · exact List.mem_cons_of_mem _ (ih h)

theorem dget?_of_mem {d : List (κ × ν)} {x : κ} {v : ν} (hn : (dkeys d).Nodup) (h : (x, v) ∈ d) :
    dget? d x = some v := by
  induction d with
  | nil => simp at h
  | cons e t ih =>
    obtain ⟨k, w⟩ := e
    simp only [dkeys, List.map_cons, List.nodup_cons] at hn
    simp only [dget?]
    rcases List.mem_cons.1 h with h | h
    · cases h; simp
    · split
      · subst_vars
        exact absurd (List.mem_map.2 ⟨_, h, rfl⟩) hn.1
      · exact ih hn.2 h

theorem dget?_eq_none {d : List (κ × ν)} {x : κ} : dget? d x = none ↔ x ∉ dkeys d := by
  induction d with
  | nil => simp [dkeys]
  | cons e t ih =>
    obtain ⟨k, w⟩ := e
    simp only [dget?, dkeys, List.map_cons, List.mem_cons, not_or]
    split
    · subst_vars; simp
    · rw [ih]; simp only [dkeys]
      rename_i h
      constructor
      · intro h2; exact ⟨fun h3 => h h3.symm, h2⟩
      · exact fun h2 => h2.2

theorem dkeys_dset (d : List (κ × ν)) (x : κ) (w : ν) :
    dkeys (dset d x w) = if x ∈ dkeys d then dkeys d else dkeys d ++ [x] := by
  induction d with
  | nil => simp [dset, dkeys]
  | cons e t ih =>
    obtain ⟨k, v⟩ := e
    simp only [dset, dkeys, List.map_cons, List.mem_cons] at *
    split <;> rename_i h
    · subst h; simp
    · simp only [List.map_cons, ih]
      have : ¬ x = k := fun h' => h h'.symm
      by_cases hx : x ∈ List.map Prod.fst t <;> simp [this, hx]

theorem dkeys_ddel_sublist (d : List (κ × ν)) (x : κ) : (dkeys (ddel d x)).Sublist (dkeys d) := by
  induction d with
  | nil => simp [ddel, dkeys]
  | cons e t ih =>
    obtain ⟨k, v⟩ := e
    simp only [ddel, dkeys, List.map_cons] at *
    split
    · exact ih.cons _
    · simpa using ih

theorem nodup_dset {d : List (κ × ν)} {x : κ} {w : ν} (h : (dkeys d).Nodup) :
    (dkeys (dset d x w)).Nodup := by
  rw [dkeys_dset]; split
  · exact h
  · rename_i hx
    rw [List.nodup_append]
    refine ⟨h, by simp, ?_⟩
    intro a ha b hb; simp at hb; subst hb; intro heq; subst heq; exact hx ha

theorem nodup_ddel {d : List (κ × ν)} {x : κ} (h : (dkeys d).Nodup) :
    (dkeys (ddel d x)).Nodup := h.sublist (dkeys_ddel_sublist d x)

theorem mem_dset {d : List (κ × ν)} {x : κ} {w : ν} {e : κ × ν} (h : e ∈ dset d x w) :
    e = (x, w) ∨ (e ∈ d) := by
  induction d with
  | nil => simp [dset] at h; exact Or.inl h
  | cons a t ih =>
    obtain ⟨k, v⟩ := a
    simp only [dset] at h
    split at h
    · rename_i hk; subst hk
      rcases List.mem_cons.1 h with h | h
      · exact Or.inl h
      · exact Or.inr (List.mem_cons_of_mem _ h)
    · rcases List.mem_cons.1 h with h | h
      · subst h; exact Or.inr (by simp)
      · rcases ih h with h | h
        · exact Or.inl h
        · exact Or.inr (List.mem_cons_of_mem _ h)

theorem mem_ddel {d : List (κ × ν)} {x : κ} {e : κ × ν} (h : e ∈ ddel d x) : e ∈ d := by
  induction d with
  | nil => simp [ddel] at h
  | cons a t ih =>
    obtain ⟨k, v⟩ := a
    simp only [ddel] at h
    split at h
    · exact List.mem_cons_of_mem _ (ih h)
    · rcases List.mem_cons.1 h with h | h
      · subst h; simp
      · exact List.mem_cons_of_mem _ (ih h)

theorem dset_self {d : List (κ × ν)} {x : κ} {v : ν} (h : dget? d x = some v) : dset d x v = d := by
  induction d with
  | nil => simp at h
  | cons e t ih =>
    simp only [dget?] at h
    unfold dset
    split at h
    · rename_i hx; cases h; rw [if_pos hx]
    · rename_i hx; rw [if_neg hx, ih h]

theorem ddel_of_not_mem {d : List (κ × ν)} {x : κ} (h : x ∉ dkeys d) : ddel d x = d := by
  induction d with
  | nil => rfl
  | cons a t ih =>
    obtain ⟨k, v⟩ := a
    simp only [dkeys, List.map_cons, List.mem_cons, not_or] at h
    simp only [ddel]
    rw [if_neg (fun h' => h.1 h'.symm), ih h.2]

end Cot
