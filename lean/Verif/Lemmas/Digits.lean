import Verif.Py.Str
namespace Cot

/-! Decimal numerals. -/

theorem digVal_digitChar {n : Nat} (h : n < 10) : digVal n.digitChar = n := by
  match n, h with
  | 0, _ | 1, _ | 2, _ | 3, _ | 4, _ | 5, _ | 6, _ | 7, _ | 8, _ | 9, _ => decide
  | n + 10, h => omega

theorem isDig_digitChar {n : Nat} (h : n < 10) : isDig n.digitChar = true := by
  match n, h with
  | 0, _ | 1, _ | 2, _ | 3, _ | 4, _ | 5, _ | 6, _ | 7, _ | 8, _ | 9, _ => decide
  | n + 10, h => omega

theorem isDig_iff (c : Char) : isDig c = true ↔ 48 ≤ c.toNat ∧ c.toNat ≤ 57 := by
  unfold isDig
  simp only [Bool.and_eq_true, decide_eq_true_eq, Char.le_def, UInt32.le_iff_toNat_le]
  exact Iff.rfl

theorem digitChar_digVal {c : Char} (h : isDig c = true) : (digVal c).digitChar = c := by
  rw [isDig_iff] at h
  obtain ⟨h1, h2⟩ := h
  have hc : c = Char.ofNat c.toNat := (Char.ofNat_toNat c).symm
  unfold digVal
  generalize c.toNat = k at *
  subst hc
  have : k = 48 ∨ k = 49 ∨ k = 50 ∨ k = 51 ∨ k = 52 ∨ k = 53 ∨ k = 54 ∨ k = 55 ∨ k = 56 ∨ k = 57 := by
    omega
  rcases this with rfl | rfl | rfl | rfl | rfl | rfl | rfl | rfl | rfl | rfl <;> decide

theorem digVal_lt {c : Char} (h : isDig c = true) : digVal c < 10 := by
  rw [isDig_iff] at h; unfold digVal; omega

theorem digitsVal_append (s : Str) (c : Char) : digitsVal (s ++ [c]) = digitsVal s * 10 + digVal c := by
  simp [digitsVal]

theorem natStr_ne_nil (n : Nat) : natStr n ≠ [] := Nat.toDigits_ne_nil

theorem natStr_eq_if (n : Nat) :
    natStr n = if n < 10 then [n.digitChar] else natStr (n / 10) ++ [(n % 10).digitChar] := by
  unfold natStr; exact Nat.toDigits_eq_if (by omega)

theorem isDig_natStr (n : Nat) : ∀ c ∈ natStr n, isDig c = true := by
  induction n using Nat.strongRecOn with
  | ind n ih =>
    rw [natStr_eq_if]
    split
    · rename_i h; intro c hc; simp at hc; subst hc; exact isDig_digitChar h
    · intro c hc
      rcases List.mem_append.1 hc with hc | hc
      · exact ih _ (by omega) c hc
      · simp at hc; subst hc; exact isDig_digitChar (by omega)

theorem digitsVal_natStr (n : Nat) : digitsVal (natStr n) = n := by
  induction n using Nat.strongRecOn with
  | ind n ih =>
    rw [natStr_eq_if]
    split
    · rename_i h; simp [digitsVal, digVal_digitChar h]
    · rw [digitsVal_append, ih _ (by omega), digVal_digitChar (by omega)]; omega

theorem natStr_inj {m n : Nat} (h : natStr m = natStr n) : m = n := by
  rw [← digitsVal_natStr m, h, digitsVal_natStr]

/-- a numeral without superfluous leading zeros -/
def NoLeadingZero (d : Str) : Prop := ∀ c t, d = c :: t → t ≠ [] → c ≠ '0'

theorem foldl_digits_mono (s : Str) (a : Nat) : a ≤ s.foldl (fun n c => n * 10 + digVal c) a := by
  induction s generalizing a with
  | nil => simp
  | cons c s ih => simp only [List.foldl_cons]; exact le_trans' (ih _) (by omega)
where le_trans' {a b c : Nat} (h : b ≤ c) (h' : a ≤ b) : a ≤ c := Nat.le_trans h' h

theorem digitsVal_pos {c : Char} {t : Str} (hc : isDig c = true) (h0 : c ≠ '0') :
    0 < digitsVal (c :: t) := by
  unfold digitsVal
  simp only [List.foldl_cons, Nat.zero_mul, Nat.zero_add]
  have h1 : 0 < digVal c := by
    rcases Nat.eq_zero_or_pos (digVal c) with h | h
    · have := digitChar_digVal hc; rw [h] at this; exact absurd this.symm h0
    · exact h
  exact Nat.lt_of_lt_of_le h1 (foldl_digits_mono t _)

theorem snoc_cases (s : Str) : s = [] ∨ ∃ t c, s = t ++ [c] := by
  rcases List.eq_nil_or_concat s with h | ⟨t, c, h⟩
  · exact Or.inl h
  · exact Or.inr ⟨t, c, by simpa using h⟩

/-- printing the value of a numeral without leading zeros gives the numeral back -/
theorem natStr_digitsVal : ∀ (d : Str), d ≠ [] → (∀ c ∈ d, isDig c = true) → NoLeadingZero d →
    natStr (digitsVal d) = d := by
  intro d
  induction hl : d.length using Nat.strongRecOn generalizing d with
  | ind k ih =>
    intro hne hd hz
    rcases snoc_cases d with rfl | ⟨t, c, rfl⟩
    · exact absurd rfl hne
    · have hc : isDig c = true := hd c (by simp)
      rw [digitsVal_append]
      cases t with
      | nil =>
        have : digitsVal [] = 0 := rfl
        rw [this]; simp only [Nat.zero_mul, Nat.zero_add, List.nil_append]
        rw [natStr_eq_if, if_pos (digVal_lt hc), digitChar_digVal hc]
      | cons a t =>
        have ha : a ≠ '0' := hz a (t ++ [c]) rfl (by simp)
        have hpos := digitsVal_pos (t := t) (hd a (by simp)) ha
        have hcl := digVal_lt hc
        rw [natStr_eq_if, if_neg (by omega)]
        have e1 : (digitsVal (a :: t) * 10 + digVal c) / 10 = digitsVal (a :: t) := by omega
        have e2 : (digitsVal (a :: t) * 10 + digVal c) % 10 = digVal c := by omega
        rw [e1, e2, digitChar_digVal hc, ih (a :: t).length (by rw [← hl]; simp) (a :: t) rfl (by simp)
          (fun x hx => hd x (List.mem_append_left _ hx))
          (fun x u hxu hu => by
            simp only [List.cons.injEq] at hxu
            obtain ⟨rfl, _⟩ := hxu; exact ha)]

theorem natStr_noLeadingZero (n : Nat) : NoLeadingZero (natStr n) := by
  induction n using Nat.strongRecOn with
  | ind n ih =>
    rw [natStr_eq_if]
    split
    · intro c t h hne; simp at h; exact absurd h.2.symm (by simpa using hne.symm)
    · rename_i hn
      intro c t h hne
      cases hs : natStr (n / 10) with
      | nil => exact absurd hs (natStr_ne_nil _)
      | cons a u =>
        rw [hs] at h
        simp only [List.cons_append, List.cons.injEq] at h
        obtain ⟨rfl, _⟩ := h
        cases u with
        | cons b w => exact ih _ (by omega) a (b :: w) hs (by simp)
        | nil =>
          rintro rfl
          have := digitsVal_natStr (n / 10)
          rw [hs] at this
          have h0 : digitsVal ['0'] = 0 := by decide
          omega

end Cot
