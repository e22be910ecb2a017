import Verif.Model.PrettyBytes
import Verif.Spec.PrettyBytes
import Verif.Lemmas.Digits
import Verif.Lemmas.Units
import Verif.Props.Disks
import Mathlib.Tactic.Linarith
import Mathlib.Tactic.FieldSimp
import Mathlib.Tactic.Positivity
import Mathlib.Tactic.Push
import Mathlib.Algebra.Order.Group.Unbundled.Abs
import Mathlib.Algebra.Order.Ring.Abs
/-
C87: the sizes shown to the user.
-/
namespace Cot

/-! ### Rounding -/

theorem halfEven_bounds (a : Nat) {b : Nat} (hb : 0 < b) :
    2 * a ≤ 2 * (halfEven a b * b) + b ∧ 2 * (halfEven a b * b) ≤ 2 * a + b := by
  have h := Nat.div_add_mod a b
  have hr := Nat.mod_lt a hb
  unfold halfEven
  generalize a / b = q at *
  generalize a % b = r at *
  have hc : b * q = q * b := Nat.mul_comm _ _
  split
  · rw [Nat.add_mul]; omega
  · split
    · rw [Nat.add_mul]; omega
    · omega

theorem halfEven_mul (c : Nat) {b : Nat} (hb : 0 < b) : halfEven (c * b) b = c := by
  unfold halfEven
  rw [Nat.mul_mod_left, Nat.mul_div_cancel _ hb]
  rw [if_neg (by omega), if_neg (by omega)]

theorem halfEven_mono {a c b : Nat} (hb : 0 < b) (h : a ≤ c) : halfEven a b ≤ halfEven c b := by
  have hq : a / b ≤ c / b := Nat.div_le_div_right h
  have ha := Nat.div_add_mod a b
  have hc := Nat.div_add_mod c b
  have hra := Nat.mod_lt a hb
  by_cases hlt : a / b < c / b
  · have h1 : halfEven a b ≤ a / b + 1 := by unfold halfEven; split <;> (try split) <;> omega
    have h2 : c / b ≤ halfEven c b := by unfold halfEven; split <;> (try split) <;> omega
    omega
  · have he : a / b = c / b := by omega
    unfold halfEven
    rw [he] at ha ⊢
    have hr : a % b ≤ c % b := by omega
    generalize c / b = q at *
    generalize a % b = r at *
    generalize c % b = s at *
    split
    · rw [if_pos (by omega)]
    · split
      · rename_i h1 h2
        by_cases h3 : 2 * s > b
        · rw [if_pos h3]
        · rw [if_neg h3, if_pos ⟨by omega, h2.2⟩]
      · split <;> (try split) <;> omega

theorem halfEven_le {a b c : Nat} (hb : 0 < b) (h : a ≤ c * b) : halfEven a b ≤ c := by
  have := halfEven_mono hb h
  rwa [halfEven_mul c hb] at this

theorem le_halfEven {a b c : Nat} (hb : 0 < b) (h : c * b ≤ a) : c ≤ halfEven a b := by
  have := halfEven_mono hb h
  rwa [halfEven_mul c hb] at this

/-! ### Writing the digits -/

theorem padDigits_dig (d n : Nat) : ∀ c ∈ padDigits d n, isDig c = true := by
  intro c hc
  unfold padDigits at hc
  rcases List.mem_append.1 hc with h | h
  · rw [List.mem_replicate] at h; rw [h.2]; decide
  · exact isDig_natStr n c h

theorem natStr_length_le4 {d : Nat} : ∀ {n : Nat}, 0 < d → n < 10 ^ d → (natStr n).length ≤ d := by
  induction d with
  | zero => intro n h; omega
  | succ d ih =>
    intro n _ hn
    rw [natStr_eq_if]
    split
    · simp
    · rename_i h10
      have hd : 0 < d := by
        rcases Nat.eq_zero_or_pos d with h | h
        · subst h; simp at hn; omega
        · exact h
      have := ih (n := n / 10) hd (by rw [Nat.pow_succ] at hn; omega)
      simp only [List.length_append, List.length_singleton]
      omega

theorem digitsVal_noughts (j : Nat) (s : Str) : digitsVal (List.replicate j '0' ++ s) = digitsVal s := by
  induction j with
  | zero => simp
  | succ j ih =>
    rw [List.replicate_succ, List.cons_append]
    unfold digitsVal at ih ⊢
    rw [List.foldl_cons]
    have : (0 * 10 + digVal '0') = 0 := by decide
    rw [this]
    exact ih

theorem padDigits_length {d n : Nat} (hd : 0 < d) (h : n < 10 ^ d) : (padDigits d n).length = d := by
  have := natStr_length_le4 hd h
  unfold padDigits
  rw [List.length_append, List.length_replicate]
  omega

theorem padDigits_val (d n : Nat) : digitsVal (padDigits d n) = n := by
  unfold padDigits
  rw [digitsVal_noughts, digitsVal_natStr]

theorem fixedText_writes (d : Nat) : ∀ q : Nat, WritesNumber (fixedText q d) ((q : ℚ) / 10 ^ d) := by
  induction d with
  | zero =>
    intro q
    refine ⟨natStr q, [], natStr_ne_nil q, isDig_natStr q, by simp, Or.inl ⟨rfl, rfl⟩, ?_⟩
    rw [digitsVal_natStr]
    simp [digitsVal]
  | succ d ih =>
    intro q
    unfold fixedText
    split
    · rename_i h
      have hq : q = q / 10 * 10 := by omega
      have := ih (q / 10)
      have he : ((q / 10 : Nat) : ℚ) / 10 ^ d = (q : ℚ) / 10 ^ (d + 1) := by
        conv_rhs => rw [hq]
        push_cast
        rw [pow_succ]
        field_simp
      rwa [he] at this
    · rename_i h
      have hp : 0 < 10 ^ (d + 1) := by positivity
      have hl : q % 10 ^ (d + 1) < 10 ^ (d + 1) := Nat.mod_lt _ hp
      have hlen := padDigits_length (Nat.succ_pos d) hl
      refine ⟨natStr (q / 10 ^ (d + 1)), padDigits (d + 1) (q % 10 ^ (d + 1)), natStr_ne_nil _, isDig_natStr _,
        padDigits_dig _ _, Or.inr ⟨?_, rfl⟩, ?_⟩
      · intro hn; rw [hn] at hlen; simp at hlen
      · rw [digitsVal_natStr, padDigits_val, hlen]
        have hdm := Nat.div_add_mod q (10 ^ (d + 1))
        have : (q : ℚ) = 10 ^ (d + 1) * ((q / 10 ^ (d + 1) : Nat) : ℚ) + ((q % 10 ^ (d + 1) : Nat) : ℚ) := by
          exact_mod_cast hdm.symm
        rw [eq_comm, eq_comm] at this
        rw [div_eq_iff (by positivity), add_mul, div_mul_cancel₀ _ (by positivity)]
        linarith

/-! ### The unit -/

theorem sizeShift_bounds (m : Nat) : ∀ (fuel k : Nat), m < 1024 * 1024 ^ (k + fuel) →
    m < 1024 * 1024 ^ sizeShift m fuel k ∧ k ≤ sizeShift m fuel k ∧
      (sizeShift m fuel k = k ∨ 1024 ^ sizeShift m fuel k ≤ m) := by
  intro fuel
  induction fuel with
  | zero => intro k h; exact ⟨h, Nat.le_refl _, Or.inl rfl⟩
  | succ fuel ih =>
    intro k h
    unfold sizeShift
    split
    · rename_i hle
      obtain ⟨h1, h2, h3⟩ := ih (k + 1) (by rwa [show k + 1 + fuel = k + (fuel + 1) by omega])
      refine ⟨h1, by omega, Or.inr ?_⟩
      rcases h3 with h3 | h3
      · rw [h3, Nat.pow_succ, Nat.mul_comm]; exact hle
      · exact h3
    · exact ⟨by omega, Nat.le_refl _, Or.inl rfl⟩

theorem shift_bounds {m : Nat} (hm : m < 2 ^ 1024) :
    m < 1024 * 1024 ^ sizeShift m 103 0 ∧ (sizeShift m 103 0 = 0 ∨ 1024 ^ sizeShift m 103 0 ≤ m) := by
  have h : m < 1024 * 1024 ^ (0 + 103) := by
    refine Nat.lt_of_lt_of_le hm ?_
    rw [show (1024 : Nat) = 2 ^ 10 by norm_num, ← Nat.pow_mul, ← Nat.pow_add]
    exact Nat.pow_le_pow_right (by norm_num) (by norm_num)
  obtain ⟨h1, _, h3⟩ := sizeShift_bounds m 103 0 h
  exact ⟨h1, h3⟩

/-- the unit is the largest one that fits -/
theorem shift_unique {m k j : Nat} (h1 : m < 1024 * 1024 ^ k) (h2 : j = 0 ∨ 1024 ^ j ≤ m) : j ≤ k := by
  rcases h2 with rfl | h2
  · exact Nat.zero_le _
  · by_contra hlt
    have : 1024 ^ (k + 1) ≤ 1024 ^ j := Nat.pow_le_pow_right (by norm_num) (by omega)
    rw [Nat.pow_succ, Nat.mul_comm] at this
    omega

theorem tag_unit {k : Nat} {u : Str} (h : sizeTags[k]? = some u) : (u, 1024 ^ k) ∈ sizeUnits := by
  match k, h with
  | 0, h | 1, h | 2, h | 3, h | 4, h | 5, h | 6, h | 7, h | 8, h =>
    simp only [sizeTags, List.getElem?_cons_zero, List.getElem?_cons_succ, Option.some.injEq] at h
    subst h
    decide +kernel
  | k + 9, h => simp [sizeTags] at h

/-! ### Four digits -/

theorem decimals4_low {a b : Nat} (h : b ≤ a) : 1000 * b ≤ a * 10 ^ decimals4 a b := by
  unfold decimals4
  split
  · omega
  · split
    · omega
    · split <;> omega

theorem fmt4g_error {a b : Nat} (hb : 0 < b) (h : b ≤ a ∨ b = 1) :
    2000 * (a * 10 ^ decimals4 a b) ≤
        2000 * (halfEven (a * 10 ^ decimals4 a b) b * b) + a * 10 ^ decimals4 a b ∧
      2000 * (halfEven (a * 10 ^ decimals4 a b) b * b) ≤
        2000 * (a * 10 ^ decimals4 a b) + a * 10 ^ decimals4 a b := by
  rcases h with h | rfl
  · have h1 := decimals4_low h
    have h2 := halfEven_bounds (a * 10 ^ decimals4 a b) hb
    generalize a * 10 ^ decimals4 a b = A at *
    omega
  · have h2 := halfEven_mul (a * 10 ^ decimals4 a 1) Nat.one_pos
    rw [Nat.mul_one] at h2
    rw [h2]
    omega

theorem roundDouble_close (n : Nat) :
    n * 2 ^ 52 ≤ roundDouble n * 2 ^ 52 + n ∧ roundDouble n * 2 ^ 52 ≤ n * 2 ^ 52 + n := by
  by_cases hs : n < 2 ^ 53
  · have : roundDouble n = n := roundDouble_of_fits ⟨n, 0, hs, by simp⟩
    rw [this]; omega
  · have h1 := roundDouble_lower n
    have h2 := roundDouble_upper n
    have hn0 : n ≠ 0 := by omega
    have hlog : 53 ≤ Nat.log2 n := (Nat.le_log2 hn0).2 (by omega)
    have hu : 2 ^ (Nat.log2 n + 1 - 53) * 2 ^ 52 ≤ n := by
      rw [← Nat.pow_add, show Nat.log2 n + 1 - 53 + 52 = Nat.log2 n by omega]
      exact Nat.log2_self_le hn0
    generalize 2 ^ (Nat.log2 n + 1 - 53) = e at *
    omega

theorem roundDouble_small {n : Nat} (h : n < 2 ^ 53) : roundDouble n = n := roundDouble_of_fits ⟨n, 0, h, by simp⟩

/-- the parts of a size -/
theorem prettyBytes_inv {n : Nat} {text : Str} (h : prettyBytes n = .ok text) :
    ∃ (k : Nat) (u : Str), roundDouble n < 2 ^ 1024 ∧ sizeTags[k]? = some u ∧
      roundDouble n < 1024 * 1024 ^ k ∧ (k = 0 ∨ 1024 ^ k ≤ roundDouble n) ∧
      text = fmt4g (roundDouble n) (1024 ^ k) ++ ' ' :: u := by
  unfold prettyBytes at h
  split at h
  · rename_i hlt
    obtain ⟨h1, h2⟩ := shift_bounds hlt
    split at h
    · simp at h
    · rename_i u hu
      simp only [Except.ok.injEq] at h
      exact ⟨_, u, hlt, hu, h1, h2, h.symm⟩
  · simp at h

/-- the number shown -/
def shown (m b : Nat) : ℚ := (halfEven (m * 10 ^ decimals4 m b) b : ℚ) / 10 ^ decimals4 m b

theorem shown_error {m b : Nat} (hb : 0 < b) (h : b ≤ m ∨ b = 1) : |shown m b * b - m| ≤ (m : ℚ) / 2000 := by
  obtain ⟨h1, h2⟩ := fmt4g_error hb h
  unfold shown
  generalize halfEven (m * 10 ^ decimals4 m b) b = q at *
  generalize decimals4 m b = d at *
  have hp : (0 : ℚ) < 10 ^ d := by positivity
  have h1' : 2000 * ((m : ℚ) * 10 ^ d) ≤ 2000 * ((q : ℚ) * b) + m * 10 ^ d := by exact_mod_cast h1
  have h2' : 2000 * ((q : ℚ) * b) ≤ 2000 * ((m : ℚ) * 10 ^ d) + m * 10 ^ d := by exact_mod_cast h2
  have he : (q : ℚ) / 10 ^ d * b - m = (q * b - m * 10 ^ d) / 10 ^ d := by field_simp
  rw [he, abs_div, abs_of_pos hp, div_le_iff₀ hp, abs_le]
  constructor <;> linarith

theorem shown_le {m b : Nat} (hb : 0 < b) (h : m < 1024 * b) : shown m b ≤ 1024 := by
  unfold shown
  rw [div_le_iff₀ (by positivity)]
  have : halfEven (m * 10 ^ decimals4 m b) b ≤ 1024 * 10 ^ decimals4 m b := by
    apply halfEven_le hb
    have := Nat.mul_le_mul_right (10 ^ decimals4 m b) (Nat.le_of_lt h)
    calc m * 10 ^ decimals4 m b ≤ 1024 * b * 10 ^ decimals4 m b := this
      _ = _ := by ring
  exact_mod_cast this

theorem le_shown {m b c : Nat} (hb : 0 < b) (h : c * b ≤ m) : (c : ℚ) ≤ shown m b := by
  unfold shown
  rw [le_div_iff₀ (by positivity)]
  have : c * 10 ^ decimals4 m b ≤ halfEven (m * 10 ^ decimals4 m b) b := by
    apply le_halfEven hb
    have := Nat.mul_le_mul_right (10 ^ decimals4 m b) h
    calc c * 10 ^ decimals4 m b * b = c * b * 10 ^ decimals4 m b := by ring
      _ ≤ _ := this
  exact_mod_cast this

theorem shown_one (m : Nat) : shown m 1 = m := by
  unfold shown
  have h2 := halfEven_mul (m * 10 ^ decimals4 m 1) Nat.one_pos
  rw [Nat.mul_one] at h2
  rw [h2]
  push_cast
  field_simp

theorem shown_le' {m b c : Nat} (hb : 0 < b) (h : m ≤ c * b) : shown m b ≤ c := by
  unfold shown
  rw [div_le_iff₀ (by positivity)]
  have : halfEven (m * 10 ^ decimals4 m b) b ≤ c * 10 ^ decimals4 m b := by
    apply halfEven_le hb
    have := Nat.mul_le_mul_right (10 ^ decimals4 m b) h
    calc m * 10 ^ decimals4 m b ≤ c * b * 10 ^ decimals4 m b := this
      _ = _ := by ring
  exact_mod_cast this

theorem shown_mono {m m' b : Nat} (hb : 0 < b) (h : m ≤ m') : shown m b ≤ shown m' b := by
  by_cases hd : decimals4 m b = decimals4 m' b
  · unfold shown
    rw [hd]
    have := halfEven_mono hb (Nat.mul_le_mul_right (10 ^ decimals4 m' b) h)
    exact div_le_div_of_nonneg_right (by exact_mod_cast this) (by positivity)
  · have : ∃ c, m ≤ c * b ∧ c * b ≤ m' := by
      unfold decimals4 at hd
      by_cases h1 : m < 10 * b
      · by_cases h1' : m' < 10 * b
        · simp [h1, h1'] at hd
        · exact ⟨10, by omega, by omega⟩
      · by_cases h2 : m < 100 * b
        · by_cases h2' : m' < 100 * b
          · have : ¬ m' < 10 * b := by omega
            simp [h1, h2, h2', this] at hd
          · exact ⟨100, by omega, by omega⟩
        · by_cases h3 : m < 1000 * b
          · by_cases h3' : m' < 1000 * b
            · have e1 : ¬ m' < 10 * b := by omega
              have e2 : ¬ m' < 100 * b := by omega
              simp [h1, h2, h3, h3', e1, e2] at hd
            · exact ⟨1000, by omega, by omega⟩
          · have e1 : ¬ m' < 10 * b := by omega
            have e2 : ¬ m' < 100 * b := by omega
            have e3 : ¬ m' < 1000 * b := by omega
            simp [h1, h2, h3, e1, e2, e3] at hd
    obtain ⟨c, h1, h2⟩ := this
    exact le_trans (shown_le' hb h1) (le_shown hb h2)

theorem roundDouble_eq (n : Nat) : roundDouble n =
    if Nat.log2 n + 1 - 53 = 0 then n
    else halfEven n (2 ^ (Nat.log2 n + 1 - 53)) * 2 ^ (Nat.log2 n + 1 - 53) := rfl

theorem log2_mono {m n : Nat} (h : m ≤ n) : Nat.log2 m ≤ Nat.log2 n := by
  by_cases hm : m = 0
  · subst hm; simp
  · exact (Nat.le_log2 (by omega)).2 (Nat.le_trans (Nat.log2_self_le hm) h)

theorem roundDouble_le_pow (n : Nat) : roundDouble n ≤ 2 ^ (Nat.log2 n + 1) := by
  rw [roundDouble_eq]
  have hlt : n < 2 ^ (Nat.log2 n + 1) := Nat.lt_log2_self
  split
  · exact Nat.le_of_lt hlt
  · have : halfEven n (2 ^ (Nat.log2 n + 1 - 53)) ≤ 2 ^ 53 := by
      apply halfEven_le (by positivity)
      rw [← Nat.pow_add, show 53 + (Nat.log2 n + 1 - 53) = Nat.log2 n + 1 by omega]
      exact Nat.le_of_lt hlt
    have h2 := Nat.mul_le_mul_right (2 ^ (Nat.log2 n + 1 - 53)) this
    rwa [← Nat.pow_add 2 53, show 53 + (Nat.log2 n + 1 - 53) = Nat.log2 n + 1 by omega] at h2

theorem pow_le_roundDouble {n : Nat} (hn : n ≠ 0) : 2 ^ Nat.log2 n ≤ roundDouble n := by
  rw [roundDouble_eq]
  have hle : 2 ^ Nat.log2 n ≤ n := Nat.log2_self_le hn
  split
  · exact hle
  · have : 2 ^ 52 ≤ halfEven n (2 ^ (Nat.log2 n + 1 - 53)) := by
      apply le_halfEven (by positivity)
      rw [← Nat.pow_add, show 52 + (Nat.log2 n + 1 - 53) = Nat.log2 n by omega]
      exact hle
    have h2 := Nat.mul_le_mul_right (2 ^ (Nat.log2 n + 1 - 53)) this
    rwa [← Nat.pow_add 2 52, show 52 + (Nat.log2 n + 1 - 53) = Nat.log2 n by omega] at h2

theorem roundDouble_mono {m n : Nat} (h : m ≤ n) : roundDouble m ≤ roundDouble n := by
  have hl := log2_mono h
  by_cases he : Nat.log2 m = Nat.log2 n
  · rw [roundDouble_eq, roundDouble_eq, he]
    split
    · exact h
    · exact Nat.mul_le_mul_right _ (halfEven_mono (by positivity) h)
  · have hn : n ≠ 0 := by rintro rfl; simp at he; have : m = 0 := by omega
                          subst this; simp at he
    refine Nat.le_trans (roundDouble_le_pow m) (Nat.le_trans ?_ (pow_le_roundDouble hn))
    exact Nat.pow_le_pow_right (by norm_num) (by omega)

/-! ### A size has one reading -/

theorem digits_no (a : Str) (ha : ∀ c ∈ a, isDig c = true) {x : Char} (hx : isDig x = false) : x ∉ a := by
  intro h; rw [ha x h] at hx; exact Bool.noConfusion hx

theorem splitChar_unique {x : Char} {a b a' b' : Str} (ha : x ∉ a) (ha' : x ∉ a') (h : a ++ x :: b = a' ++ x :: b') :
    a = a' ∧ b = b' := by
  induction a generalizing a' with
  | nil =>
    cases a' with
    | nil => simpa using h
    | cons c t => simp at h; exact absurd (by rw [h.1]; simp) ha'
  | cons c t ih =>
    cases a' with
    | nil => simp at h; exact absurd (by rw [h.1]; simp) ha
    | cons c' t' =>
      simp only [List.cons_append, List.cons.injEq] at h
      have := ih (a' := t') (fun hh => ha (List.mem_cons_of_mem _ hh)) (fun hh => ha' (List.mem_cons_of_mem _ hh)) h.2
      exact ⟨by rw [h.1, this.1], this.2⟩

theorem writesNumber_unique {t : Str} {x y : ℚ} (h1 : WritesNumber t x) (h2 : WritesNumber t y) : x = y := by
  obtain ⟨a, f, _, ha, hf, h1, rfl⟩ := h1
  obtain ⟨a', f', _, ha', hf', h2, rfl⟩ := h2
  have n1 := digits_no a ha (x := '.') (by decide)
  have n2 := digits_no a' ha' (x := '.') (by decide)
  rcases h1 with ⟨rfl, rfl⟩ | ⟨_, rfl⟩
  · rcases h2 with ⟨rfl, rfl⟩ | ⟨_, rfl⟩
    · rfl
    · exact absurd (by simp) n1
  · rcases h2 with ⟨rfl, rfl⟩ | ⟨_, h⟩
    · exact absurd (by simp) n2
    · obtain ⟨rfl, rfl⟩ := splitChar_unique n1 n2 h
      rfl

theorem writesNumber_no_space {t : Str} {x : ℚ} (h : WritesNumber t x) : ' ' ∉ t := by
  obtain ⟨a, f, _, ha, hf, h1, _⟩ := h
  have n1 := digits_no a ha (x := ' ') (by decide)
  have n2 := digits_no f hf (x := ' ') (by decide)
  rcases h1 with ⟨_, rfl⟩ | ⟨_, rfl⟩
  · exact n1
  · simp only [List.mem_append, List.mem_cons, not_or]
    exact ⟨n1, by decide, n2⟩

theorem sizeUnits_functional : ∀ p ∈ sizeUnits, ∀ q ∈ sizeUnits, p.1 = q.1 → p.2 = q.2 := by decide +kernel

/-- **C87 (one reading).** A size as shown tells one number of one unit. -/
theorem C87_one_reading {text : Str} {x y : ℚ} {b c : Nat} (h1 : ShowsSize text x b) (h2 : ShowsSize text y c) :
    x = y ∧ b = c := by
  obtain ⟨t, u, rfl, hu, hx⟩ := h1
  obtain ⟨t', u', he, hu', hy⟩ := h2
  obtain ⟨rfl, rfl⟩ := splitChar_unique (writesNumber_no_space hx) (writesNumber_no_space hy) he
  exact ⟨writesNumber_unique hx hy, sizeUnits_functional _ hu _ hu' rfl⟩

theorem prettyBytes_shows {n : Nat} {text : Str} (h : prettyBytes n = .ok text) :
    ∃ k : Nat, roundDouble n < 1024 * 1024 ^ k ∧ (k = 0 ∨ 1024 ^ k ≤ roundDouble n) ∧
      ShowsSize text (shown (roundDouble n) (1024 ^ k)) (1024 ^ k) := by
  obtain ⟨k, u, _, hu, h1, h2, rfl⟩ := prettyBytes_inv h
  exact ⟨k, h1, h2, _, u, rfl, tag_unit hu, fixedText_writes _ _⟩

/-- **C87 (four digits).** Whatever the number of bytes, the text that is shown for it is a decimal numeral and a unit,
and the size it tells differs from the real one by at most a half in the fourth digit (1/2000; 1/1999 when the
number of bytes itself does not fit a double).  Below 1024 bytes it is exact, and otherwise the number shown is
between 1 and 1024. -/
theorem C87_size {n : Nat} {text : Str} (h : prettyBytes n = .ok text) :
    ∃ (x : ℚ) (b : Nat), ShowsSize text x b ∧
      |x * b - n| ≤ (n : ℚ) / 1999 ∧
      (n < 2 ^ 53 → |x * b - n| ≤ (n : ℚ) / 2000) ∧
      (n < 1024 → x * b = n ∧ b = 1) ∧
      x ≤ 1024 ∧ (1024 ≤ n → 1 ≤ x ∧ b ≠ 1) := by
  obtain ⟨k, h1, h2, h3⟩ := prettyBytes_shows h
  have hb : 0 < 1024 ^ k := by positivity
  have hor : 1024 ^ k ≤ roundDouble n ∨ 1024 ^ k = 1 := by
    rcases h2 with rfl | h2
    · exact Or.inr rfl
    · exact Or.inl h2
  have herr := shown_error hb hor
  have hclose := roundDouble_close n
  refine ⟨_, _, h3, ?_, ?_, ?_, shown_le hb h1, ?_⟩
  · generalize shown (roundDouble n) (1024 ^ k) * ((1024 ^ k : Nat) : ℚ) = y at *
    generalize roundDouble n = m at *
    have c1 : (n : ℚ) * 2 ^ 52 ≤ m * 2 ^ 52 + n := by exact_mod_cast hclose.1
    have c2 : (m : ℚ) * 2 ^ 52 ≤ n * 2 ^ 52 + n := by exact_mod_cast hclose.2
    have hn : (0 : ℚ) ≤ n := by positivity
    rw [abs_le] at herr ⊢
    constructor <;> linarith [herr.1, herr.2]
  · intro hs
    rw [roundDouble_small hs] at herr
    rw [roundDouble_small hs]
    exact herr
  · intro hs
    have hr : roundDouble n = n := roundDouble_small (by omega)
    have hk : k = 0 := by
      rcases h2 with h2 | h2
      · exact h2
      · rw [hr] at h2
        by_contra hk
        have : 1024 ^ 1 ≤ 1024 ^ k := Nat.pow_le_pow_right (by norm_num) (by omega)
        omega
    subst hk
    rw [hr, Nat.pow_zero, shown_one]
    simp
  · intro hge
    have hr : 1024 ≤ roundDouble n := by
      have := roundDouble_mono hge
      rwa [roundDouble_small (by norm_num)] at this
    have hk : k ≠ 0 := by rintro rfl; omega
    have h2 : 1024 ^ k ≤ roundDouble n := by rcases h2 with h2 | h2; exact absurd h2 hk; exact h2
    refine ⟨?_, ?_⟩
    · have := le_shown (m := roundDouble n) (c := 1) hb (by rwa [Nat.one_mul])
      simpa using this
    · intro h1'
      have : 1024 ^ 1 ≤ 1024 ^ k := Nat.pow_le_pow_right (by norm_num) (by omega)
      omega

/-- **C87 (shown).** Every size below 1023 YiB is shown. -/
theorem C87_accepted {n : Nat} (h : n < 1023 * 2 ^ 80) : ∃ text, prettyBytes n = .ok text := by
  have hlt : roundDouble n < 1024 ^ 9 := by
    have := (roundDouble_close n).2
    omega
  have hlt' : roundDouble n < 2 ^ 1024 := by
    refine Nat.lt_trans hlt ?_
    rw [show (1024 : Nat) = 2 ^ 10 by norm_num, ← Nat.pow_mul]
    exact Nat.pow_lt_pow_right (by norm_num) (by norm_num)
  obtain ⟨_, h2⟩ := shift_bounds hlt'
  have hk : sizeShift (roundDouble n) 103 0 ≤ 8 := shift_unique (m := roundDouble n) (by omega) h2
  unfold prettyBytes
  rw [if_pos hlt']
  have : sizeShift (roundDouble n) 103 0 < sizeTags.length := by simp only [sizeTags, List.length]; omega
  rw [List.getElem?_eq_getElem this]
  exact ⟨_, rfl⟩

/-- **C87 (order).** Of two sizes, the one shown for the larger number of bytes is never the smaller one. -/
theorem C87_order {m n : Nat} {s t : Str} {x y : ℚ} {b c : Nat} (hmn : m ≤ n) (hm : prettyBytes m = .ok s)
    (hn : prettyBytes n = .ok t) (hx : ShowsSize s x b) (hy : ShowsSize t y c) : x * b ≤ y * c := by
  obtain ⟨k, h1, h2, h3⟩ := prettyBytes_shows hm
  obtain ⟨j, g1, g2, g3⟩ := prettyBytes_shows hn
  obtain ⟨rfl, rfl⟩ := C87_one_reading hx h3
  obtain ⟨rfl, rfl⟩ := C87_one_reading hy g3
  have hr := roundDouble_mono hmn
  have hkj : k ≤ j := shift_unique g1 (by
    rcases h2 with h2 | h2
    · exact Or.inl h2
    · exact Or.inr (Nat.le_trans h2 hr))
  have hb : 0 < 1024 ^ k := by positivity
  have hc : 0 < 1024 ^ j := by positivity
  rcases Nat.lt_or_eq_of_le hkj with hlt | rfl
  · have g2 : 1024 ^ j ≤ roundDouble n := by
      rcases g2 with g2 | g2
      · omega
      · exact g2
    have a1 := shown_le hb h1
    have a2 := le_shown (m := roundDouble n) (c := 1) hc (by rwa [Nat.one_mul])
    have hp : 1024 * 1024 ^ k ≤ 1024 ^ j := by
      rw [Nat.mul_comm, ← Nat.pow_succ]; exact Nat.pow_le_pow_right (by norm_num) hlt
    have hp' : (1024 : ℚ) * ((1024 ^ k : Nat) : ℚ) ≤ ((1024 ^ j : Nat) : ℚ) := by exact_mod_cast hp
    have hb' : (0 : ℚ) ≤ ((1024 ^ k : Nat) : ℚ) := Nat.cast_nonneg _
    have hc' : (0 : ℚ) ≤ ((1024 ^ j : Nat) : ℚ) := Nat.cast_nonneg _
    have b1 := mul_le_mul_of_nonneg_right a1 hb'
    have b2 := mul_le_mul_of_nonneg_right a2 hc'
    rw [Nat.cast_one, one_mul] at b2
    linarith
  · exact mul_le_mul_of_nonneg_right (shown_mono hb hr) (Nat.cast_nonneg _)

/-- **C87 (whole numbers).** A whole number of units below 1024 is shown as that number. -/
theorem C87_whole {c b : Nat} {u : Str} (hu : (u, b) ∈ sizeUnits) (hc : c < 1024) (h1 : 1 ≤ c ∨ b = 1) :
    prettyBytes (c * b) = .ok (natStr c ++ ' ' :: u) := by
  have key : ∀ k, sizeTags[k]? = some u → b = 1024 ^ k → prettyBytes (c * b) = .ok (natStr c ++ ' ' :: u) := by
    intro k hk hb
    have hk8 : k < 9 := by
      by_contra hge
      rw [List.getElem?_eq_none (by simp only [sizeTags, List.length]; omega)] at hk
      simp at hk
    have hb2 : b = 2 ^ (10 * k) := by rw [hb, show (1024 : Nat) = 2 ^ 10 by norm_num, ← Nat.pow_mul]
    have hfit : roundDouble (c * b) = c * b :=
      roundDouble_of_fits ⟨c, 10 * k, by omega, by rw [hb2]⟩
    have hbpos : 0 < b := by rw [hb]; positivity
    have hlt : c * b < 1024 * 1024 ^ k := by rw [← hb]; exact Nat.mul_lt_mul_of_pos_right hc hbpos
    have hlt' : c * b < 2 ^ 1024 := by
      refine Nat.lt_of_lt_of_le hlt ?_
      rw [show (1024 : Nat) = 2 ^ 10 by norm_num, ← Nat.pow_mul, ← Nat.pow_add]
      exact Nat.pow_le_pow_right (by norm_num) (by omega)
    obtain ⟨s1, s2⟩ := shift_bounds hlt'
    have hs : sizeShift (c * b) 103 0 = k := by
      apply Nat.le_antisymm (shift_unique hlt s2)
      apply shift_unique s1
      rcases h1 with h1 | h1
      · exact Or.inr (by rw [← hb]; exact Nat.le_mul_of_pos_left _ h1)
      · left
        by_contra hne
        have : 1024 ^ 1 ≤ 1024 ^ k := Nat.pow_le_pow_right (by norm_num) (by omega)
        omega
    unfold prettyBytes
    rw [hfit, if_pos hlt', hs, hk]
    simp only [Except.ok.injEq]
    congr 1
    rw [← hb]
    unfold fmt4g
    rw [show c * b * 10 ^ decimals4 (c * b) b = c * 10 ^ decimals4 (c * b) b * b by ring, halfEven_mul _ hbpos]
    generalize decimals4 (c * b) b = d
    induction d with
    | zero => simp [fixedText]
    | succ d ih =>
      unfold fixedText
      have e : c * 10 ^ (d + 1) = c * 10 ^ d * 10 := by rw [pow_succ]; ring
      rw [if_pos (by rw [e]; omega), e, Nat.mul_div_cancel _ (by norm_num)]
      exact ih
  simp only [sizeUnits, List.mem_cons, List.not_mem_nil, or_false, Prod.mk.injEq] at hu
  rcases hu with ⟨rfl, rfl⟩ | ⟨rfl, rfl⟩ | ⟨rfl, rfl⟩ | ⟨rfl, rfl⟩ | ⟨rfl, rfl⟩ | ⟨rfl, rfl⟩ | ⟨rfl, rfl⟩ |
    ⟨rfl, rfl⟩ | ⟨rfl, rfl⟩
  · exact key 0 rfl rfl
  · exact key 1 rfl (by norm_num)
  · exact key 2 rfl (by norm_num)
  · exact key 3 rfl (by norm_num)
  · exact key 4 rfl (by norm_num)
  · exact key 5 rfl (by norm_num)
  · exact key 6 rfl (by norm_num)
  · exact key 7 rfl (by norm_num)
  · exact key 8 rfl (by norm_num)

example : prettyBytes 65547 = .ok "64.01 KiB".toList := by decide +kernel
example : prettyBytes 1023850 = .ok "999.9 KiB".toList := by decide +kernel
example : prettyBytes 1048575 = .ok "1024 KiB".toList := by decide +kernel
example : prettyBytes 1049200 = .ok "1.001 MiB".toList := by decide +kernel
example : prettyBytes 0 = .ok "0 B".toList := by decide +kernel
example : prettyBytes (64 * 2 ^ 30) = .ok "64 GiB".toList := C87_whole (u := "GiB".toList) (by decide +kernel) (by decide) (by decide)
example : ∃ text, prettyBytes 123456789012 = .ok text := C87_accepted (by norm_num)

/-- From 1024 YiB on, pretty-printing fails (IndexError). -/
theorem C87_huge_fails : prettyBytes (2 ^ 90) = .error .indexError := by decide +kernel

end Cot
