import Verif.Lemmas.PathNorm
/-
`normpath` of a path in normal form is the path itself.
-/
namespace Cot

/-- a stack of components as `normpath` builds it for a relative path (reversed): `..` only at the bottom -/
def RelStack : List Str → Prop
  | [] => True
  | c :: r => '/' ∉ c ∧ c ≠ [] ∧ c ≠ ['.'] ∧ (c = ['.', '.'] → r = [] ∨ r.head? = some ['.', '.']) ∧ RelStack r

theorem RelStack.tail {c : Str} {r : List Str} (h : RelStack (c :: r)) : RelStack r := h.2.2.2.2

theorem RelStack.drop : ∀ (xs : List Str) {ys : List Str}, RelStack (xs ++ ys) → RelStack ys
  | [], _, h => h
  | _ :: xs, _, h => RelStack.drop xs h.tail

theorem normComps_stack : ∀ (xs acc : List Str), (∀ c ∈ xs, '/' ∉ c) → RelStack acc →
    RelStack (normComps false xs acc).reverse
  | [], acc, _, ha => by simpa [normComps] using ha
  | x :: xs, acc, hx, ha => by
    simp only [normComps]
    have hxs : ∀ c ∈ xs, '/' ∉ c := fun c hc => hx c (by simp [hc])
    split
    · exact normComps_stack xs acc hxs ha
    · rename_i h1
      simp only [not_or] at h1
      split
      · rename_i h2
        refine normComps_stack xs _ hxs ⟨hx x (by simp), h1.1, h1.2, ?_, ha⟩
        intro h3
        rcases h2 with h2 | ⟨-, h2⟩ | h2
        · exact absurd h3 h2
        · exact Or.inl h2
        · exact Or.inr h2
      · refine normComps_stack xs _ hxs ?_
        cases acc with
        | nil => exact trivial
        | cons a r => exact ha.tail

theorem normComps_keep : ∀ (cs acc : List Str), RelStack (cs.reverse ++ acc) → normComps false cs acc = acc.reverse ++ cs
  | [], acc, _ => by simp [normComps]
  | c :: cs, acc, h => by
    have h' : RelStack (cs.reverse ++ c :: acc) := by simpa using h
    obtain ⟨-, h2, h3, h4, -⟩ := RelStack.drop _ h'
    simp only [normComps]
    rw [if_neg (by simp [h2, h3]), if_pos, normComps_keep cs _ h']
    · simp
    · by_cases hc : c = ['.', '.']
      · rcases h4 hc with h4 | h4
        · exact Or.inr (Or.inl ⟨trivial, h4⟩)
        · exact Or.inr (Or.inr h4)
      · exact Or.inl hc

theorem slashes_zero {p : Str} (h : p.head? ≠ some '/') : initialSlashes p = 0 := by
  unfold initialSlashes
  split
  · exact absurd rfl h
  · exact absurd rfl h
  · exact absurd rfl h
  · rfl

theorem RelStack.mem : ∀ {xs : List Str}, RelStack xs → ∀ c ∈ xs, '/' ∉ c ∧ c ≠ []
  | x :: xs, h, c, hc => by
    rcases List.mem_cons.1 hc with rfl | hc
    · exact ⟨h.1, h.2.1⟩
    · exact h.tail.mem c hc

theorem normpath_idem (p : Str) : normpath (normpath p) = normpath p := by
  by_cases hp : p = []
  · subst hp; decide
  by_cases h : p.head? = some '/'
  · rw [normpath_abs h, normpath_absForm (initialSlashes_abs h) (clean_abs p)]
  · have hform : normpath p = (if joinWith ['/'] (normComps false (splitOnChar '/' p) []) = [] then ['.'] else
        joinWith ['/'] (normComps false (splitOnChar '/' p) [])) := by
      unfold normpath
      rw [if_neg hp]
      simp only [slashes_zero h]
      rfl
    have hs := normComps_stack (splitOnChar '/' p) [] (splitOnChar_sepfree '/' p) trivial
    obtain ⟨cs, hcs⟩ : ∃ cs, cs = normComps false (splitOnChar '/' p) [] := ⟨_, rfl⟩
    rw [← hcs] at hform hs
    rw [hform]
    split
    · decide
    · rename_i hne
      have hmem : ∀ c ∈ cs, '/' ∉ c ∧ c ≠ [] := fun c hc => hs.mem c (by simpa using hc)
      have hcn : cs ≠ [] := by rintro rfl; exact hne rfl
      have hh : (joinWith ['/'] cs).head? ≠ some '/' := by
        cases cs with
        | nil => exact absurd rfl hcn
        | cons x t =>
          rw [joinWith_head (hmem x (by simp)).2]
          intro hx
          exact (hmem x (by simp)).1 (List.mem_of_mem_head? hx)
      unfold normpath
      rw [if_neg hne]
      simp only [slashes_zero hh]
      have : normComps (decide ((0 : Nat) ≠ 0)) (splitOnChar '/' (joinWith ['/'] cs)) [] = cs := by
        rw [splitOnChar_join '/' cs hcn (fun c hc => (hmem c hc).1)]
        show normComps false cs [] = cs
        rw [normComps_keep cs [] (by simpa using hs)]
        rfl
      rw [this]
      simp only [List.replicate_zero, List.nil_append]
      rw [if_neg hne]

end Cot
