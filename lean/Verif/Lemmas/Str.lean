import Verif.Py.Str
namespace Cot

/-- A profile name that can be written in a whitespace-separated attribute. -/
def GoodName (s : Str) : Prop := s ≠ [] ∧ ∀ c ∈ s, isWs c = false

instance (s : Str) : Decidable (GoodName s) := by unfold GoodName; infer_instance

theorem splitWsAux_word (w rest cur : Str) (h : ∀ c ∈ w, isWs c = false) :
    splitWsAux (w ++ rest) cur = splitWsAux rest (cur ++ w) := by
  induction w generalizing cur with
  | nil => simp
  | cons c w ih =>
    simp only [List.cons_append]
    rw [splitWsAux]
    simp only [h c (by simp), Bool.false_eq_true, if_false]
    rw [ih _ (fun x hx => h x (List.mem_cons_of_mem _ hx))]
    simp

theorem splitWs_join : ∀ (l : List Str), (∀ s ∈ l, GoodName s) → splitWs (joinWith [' '] l) = l
  | [], _ => rfl
  | [x], h => by
    have hx := h x (by simp)
    have := splitWsAux_word x [] [] hx.2
    simp only [List.append_nil, List.nil_append] at this
    simp [splitWs, joinWith, this, splitWsAux, hx.1]
  | x :: y :: t, h => by
    have hx := h x (by simp)
    have ih := splitWs_join (y :: t) (fun s hs => h s (List.mem_cons_of_mem _ hs))
    unfold splitWs at ih ⊢
    rw [joinWith, List.append_assoc, splitWsAux_word x _ [] hx.2, List.nil_append,
      List.cons_append, List.nil_append, splitWsAux]
    simp only [show isWs ' ' = true from rfl, if_true, if_neg hx.1, ih]

theorem splitWsAux_good (s cur : Str) (hc : ∀ c ∈ cur, isWs c = false) :
    ∀ w ∈ splitWsAux s cur, GoodName w := by
  induction s generalizing cur with
  | nil =>
    intro w hw
    unfold splitWsAux at hw
    split at hw
    · simp at hw
    · rw [List.mem_singleton] at hw; subst hw; exact ⟨by assumption, hc⟩
  | cons c t ih =>
    intro w hw
    unfold splitWsAux at hw
    split at hw
    · split at hw
      · exact ih [] (by simp) w hw
      · rcases List.mem_cons.1 hw with rfl | hw
        · exact ⟨by assumption, hc⟩
        · exact ih [] (by simp) w hw
    · rename_i hcw
      refine ih _ ?_ w hw
      intro x hx
      rcases List.mem_append.1 hx with hx | hx
      · exact hc x hx
      · rw [List.mem_singleton] at hx; subst hx; simpa using hcw

theorem splitWs_good (s : Str) : ∀ w ∈ splitWs s, GoodName w := splitWsAux_good s [] (by simp)

theorem splitOnChar_ne_nil (c : Char) (s : Str) : splitOnChar c s ≠ [] := by
  cases s with
  | nil => simp [splitOnChar]
  | cons x t =>
    unfold splitOnChar; split
    · simp
    · split <;> simp

theorem splitOnChar_word (c : Char) (w rest : Str) (h : c ∉ w) :
    splitOnChar c (w ++ c :: rest) = w :: splitOnChar c rest := by
  induction w with
  | nil => simp [splitOnChar]
  | cons x w ih =>
    simp only [List.mem_cons, not_or] at h
    simp only [List.cons_append]
    rw [splitOnChar, if_neg (fun e => h.1 e.symm), ih h.2]

theorem splitOnChar_none (c : Char) (w : Str) (h : c ∉ w) : splitOnChar c w = [w] := by
  induction w with
  | nil => simp [splitOnChar]
  | cons x w ih =>
    simp only [List.mem_cons, not_or] at h
    rw [splitOnChar, if_neg (fun e => h.1 e.symm), ih h.2]

/-- splitting a join gives the parts back, if no part contains the separator -/
theorem splitOnChar_join (c : Char) : ∀ (l : List Str), l ≠ [] → (∀ s ∈ l, c ∉ s) →
    splitOnChar c (joinWith [c] l) = l
  | [], h, _ => absurd rfl h
  | [x], _, h => splitOnChar_none c x (h x (by simp))
  | x :: y :: t, _, h => by
    have ih := splitOnChar_join c (y :: t) (by simp) (fun s hs => h s (List.mem_cons_of_mem _ hs))
    rw [joinWith, List.append_assoc, List.cons_append, List.nil_append,
      splitOnChar_word c x _ (h x (by simp)), ih]

/-- joining a split gives the string back -/
theorem joinWith_splitOnChar (c : Char) (s : Str) : joinWith [c] (splitOnChar c s) = s := by
  induction s with
  | nil => rfl
  | cons x t ih =>
    unfold splitOnChar
    have hne := splitOnChar_ne_nil c t
    split
    · rename_i h; subst h
      cases hs : splitOnChar x t with
      | nil => exact absurd hs hne
      | cons a r => rw [hs] at ih; rw [joinWith, ih]; simp
    · cases hs : splitOnChar c t with
      | nil => exact absurd hs hne
      | cons a r =>
        rw [hs] at ih
        simp only
        cases r with
        | nil => simp [joinWith] at ih ⊢; exact ih
        | cons b r => simp only [joinWith, List.cons_append] at ih ⊢; rw [ih]

theorem splitOnChar_sepfree (c : Char) (s : Str) : ∀ w ∈ splitOnChar c s, c ∉ w := by
  induction s with
  | nil => simp [splitOnChar]
  | cons x t ih =>
    unfold splitOnChar
    split
    · intro w hw
      rcases List.mem_cons.1 hw with rfl | hw
      · simp
      · exact ih w hw
    · rename_i hx
      cases hs : splitOnChar c t with
      | nil => simp; exact fun e => hx e.symm
      | cons a r =>
        rw [hs] at ih
        intro w hw
        rcases List.mem_cons.1 hw with rfl | hw
        · simp only [List.mem_cons, not_or]
          exact ⟨fun e => hx e.symm, ih a (by simp)⟩
        · exact ih w (List.mem_cons_of_mem _ hw)

end Cot
