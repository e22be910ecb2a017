import Verif.Model.Utilities
import Verif.Spec.Utilities
import Verif.Lemmas.DataValidation
import Verif.Lemmas.Digits
import Mathlib.Tactic.Positivity
import Mathlib.Tactic.Ring
import Mathlib.Tactic.NormNum
/-
Lemmas about capacity units.
-/
namespace Cot

/-! ### Rounding to doubles -/

theorem log2_mul_pow {m : Nat} (hm : m ≠ 0) (e : Nat) : Nat.log2 (m * 2 ^ e) = Nat.log2 m + e := by
  induction e with
  | zero => simp
  | succ e ih =>
    have hne : m * 2 ^ e ≠ 0 := Nat.mul_ne_zero hm (by positivity)
    rw [Nat.pow_succ, ← Nat.mul_assoc, Nat.mul_comm _ 2, Nat.log2_two_mul hne, ih]
    omega

theorem roundDouble_of_fits {n : Nat} (h : Fits53 n) : roundDouble n = n := by
  obtain ⟨m, e, hm, rfl⟩ := h
  by_cases hm0 : m = 0
  · subst hm0; simp [roundDouble]
  have hlog : Nat.log2 m < 53 := (Nat.log2_lt hm0).2 hm
  unfold roundDouble
  simp only [log2_mul_pow hm0]
  split
  · rfl
  · rename_i he
    generalize he' : Nat.log2 m + e + 1 - 53 = k at he ⊢
    have hk : k ≤ e := by omega
    have hpow : 2 ^ e = 2 ^ (e - k) * 2 ^ k := by rw [← Nat.pow_add]; congr 1; omega
    have hdvd : m * 2 ^ e = m * 2 ^ (e - k) * 2 ^ k := by rw [hpow, Nat.mul_assoc]
    have hmod : m * 2 ^ e % 2 ^ k = 0 := by rw [hdvd]; exact Nat.mul_mod_left _ _
    rw [hmod]
    have hp : 0 < 2 ^ k := by positivity
    have h1 : ¬ 2 * 0 > 2 ^ k := by omega
    have h2 : ¬ (2 * 0 = 2 ^ k ∧ m * 2 ^ e / 2 ^ k % 2 = 1) := by
      rintro ⟨h, -⟩; omega
    rw [if_neg h1, if_neg h2, Nat.div_mul_cancel (Nat.dvd_of_mod_eq_zero hmod)]

theorem fits_of_le {m e : Nat} (h : m ≤ 2 ^ 53) : Fits53 (m * 2 ^ e) := by
  by_cases hm : m = 2 ^ 53
  · subst hm
    exact ⟨2 ^ 52, e + 1, by norm_num, by rw [Nat.pow_succ 2 e]; ring⟩
  · exact ⟨m, e, by omega, rfl⟩

theorem fits_roundDouble (n : Nat) : Fits53 (roundDouble n) := by
  unfold roundDouble
  simp only
  split
  · rename_i h
    by_cases hn : n = 0
    · subst hn; exact ⟨0, 0, by norm_num, rfl⟩
    · exact ⟨n, 0, (Nat.log2_lt hn).1 (by omega), by simp⟩
  · rename_i h
    have hn : n ≠ 0 := by rintro rfl; simp at h
    have hlt : n < 2 ^ (Nat.log2 n + 1) := (Nat.log2_lt hn).1 (by omega)
    have hq : n / 2 ^ (Nat.log2 n + 1 - 53) < 2 ^ 53 := by
      rw [Nat.div_lt_iff_lt_mul (by positivity), ← Nat.pow_add]
      have : 53 + (Nat.log2 n + 1 - 53) = Nat.log2 n + 1 := by omega
      rw [this]; exact hlt
    apply fits_of_le
    split
    · omega
    · split <;> omega

theorem fits_div {n : Nat} (h : Fits53 n) (hd : n % 1024 = 0) : Fits53 (n / 1024) := by
  obtain ⟨m, e, hm, rfl⟩ := h
  by_cases he : 10 ≤ e
  · refine ⟨m, e - 10, hm, ?_⟩
    have : 2 ^ e = 2 ^ (e - 10) * 1024 := by
      have : (1024 : Nat) = 2 ^ 10 := by norm_num
      rw [this, ← Nat.pow_add]; congr 1; omega
    rw [this, ← Nat.mul_assoc, Nat.mul_div_cancel _ (by norm_num)]
  · refine ⟨m * 2 ^ e / 1024, 0, ?_, by simp⟩
    have h1 : (2 : Nat) ^ e ≤ 2 ^ 9 := Nat.pow_le_pow_right (by norm_num) (by omega)
    have : m * 2 ^ e ≤ m * 2 ^ 9 := Nat.mul_le_mul_left _ h1
    omega

theorem fits_mul_1024 {n : Nat} (h : Fits53 n) : Fits53 (n * 1024) := by
  obtain ⟨m, e, hm, rfl⟩ := h
  exact ⟨m, e + 10, hm, by rw [Nat.pow_add]; ring⟩

/-! ### The division loop -/

/-- with a division that is exact on everything reached, the loop finds the decomposition -/
theorem unitsLoop_exact (py : PyVer) (P : Nat → Prop)
    (hP : ∀ v, P v → v % 1024 = 0 → P (v / 1024) ∧ div1024 py v = .ok (v / 1024)) :
    ∀ (fuel shift v : Nat), 0 < v → v < fuel → P v →
      ∃ s' v', unitsLoop py fuel shift v = some (.ok (s', v')) ∧ v' % 1024 ≠ 0 ∧
        ∃ k, s' = shift + 10 * k ∧ v = v' * 1024 ^ k
  | 0, _, _, _, h, _ => by omega
  | fuel + 1, shift, v, hpos, hlt, hp => by
    unfold unitsLoop
    by_cases hm : v % 1024 = 0
    · rw [if_pos hm]
      obtain ⟨h1, h2⟩ := hP v hp hm
      rw [h2]
      simp only
      have hv : 1024 ≤ v := Nat.le_of_dvd hpos (Nat.dvd_of_mod_eq_zero hm)
      obtain ⟨s', v', h3, h4, k, h5, h6⟩ := unitsLoop_exact py P hP fuel (shift + 10) (v / 1024)
        (by omega) (by omega) h1
      refine ⟨s', v', h3, h4, k + 1, by omega, ?_⟩
      rw [Nat.pow_succ, ← Nat.mul_assoc, ← h6]
      omega
    · rw [if_neg hm]
      exact ⟨shift, v, rfl, hm, 0, rfl, by simp⟩

theorem unitsLoop_py2 {fuel shift v : Nat} (hpos : 0 < v) (hlt : v < fuel) :
    ∃ s' v', unitsLoop .py2 fuel shift v = some (.ok (s', v')) ∧ v' % 1024 ≠ 0 ∧
        ∃ k, s' = shift + 10 * k ∧ v = v' * 1024 ^ k :=
  unitsLoop_exact .py2 (fun _ => True) (fun _ _ _ => ⟨trivial, rfl⟩) fuel shift v hpos hlt trivial

theorem div1024_py3_fits {v : Nat} (h : Fits53 v) (hb : v < 2 ^ 1024) (hm : v % 1024 = 0) :
    div1024 .py3 v = .ok (v / 1024) := by
  have := roundDouble_of_fits (fits_div h hm)
  have hlt : v / 1024 < 2 ^ 1024 := lt_of_le_of_lt (Nat.div_le_self _ _) hb
  unfold div1024
  simp only [this]
  rw [if_pos hlt]

theorem unitsLoop_py3 {fuel shift v : Nat} (hpos : 0 < v) (hlt : v < fuel) (hb : v < 2 ^ 1024)
    (hf : v % 1024 = 0 → Fits53 v) :
    ∃ s' v', unitsLoop .py3 fuel shift v = some (.ok (s', v')) ∧ v' % 1024 ≠ 0 ∧
        ∃ k, s' = shift + 10 * k ∧ v = v' * 1024 ^ k := by
  refine unitsLoop_exact .py3 (fun v => v < 2 ^ 1024 ∧ (v % 1024 = 0 → Fits53 v)) ?_ fuel shift v hpos hlt ⟨hb, hf⟩
  rintro v ⟨h1, h2⟩ hm
  exact ⟨⟨lt_of_le_of_lt (Nat.div_le_self _ _) h1, fun _ => fits_div (h2 hm) hm⟩,
    div1024_py3_fits (h2 hm) h1 hm⟩

/-! ### Reading units back -/

theorem pyInt_natStr (n : Nat) : pyInt (natStr n) = some (n : Int) := by
  rw [pyInt_iff]
  exact ⟨natStr n, ⟨natStr_ne_nil n, isDig_natStr n⟩,
    Or.inl ⟨⟨[], [], by simp [Blank], by simp [Blank], by simp⟩, by rw [digitsVal_natStr]⟩⟩

/-- the first way `[p]+` matches is the longest one -/
theorem run_grp_plus_head {n : Nat} {p : Char → Bool} {w t : Str} (hw : w ≠ []) (h : ∀ c ∈ w, p c = true)
    (ht : ∀ c ∈ t.head?, p c = false) :
    ((Re.grp n (.plus (.cls p))).run (w ++ t)).head? = some (t, [(n, w)]) := by
  have hg : ∀ w : Str, (∀ c ∈ w, p c = true) → (greedySuf p (w ++ t)).head? = some t := by
    intro w
    induction w with
    | nil =>
      intro _
      cases t with
      | nil => rfl
      | cons c t =>
        have := ht c (by simp)
        simp [greedySuf, this]
    | cons c w ih =>
      intro hw
      have h1 := hw c (by simp)
      have := ih (fun d hd => hw d (by simp [hd]))
      simp only [List.cons_append, greedySuf, h1, if_true]
      rw [List.head?_append, this]; rfl
  cases w with
  | nil => exact absurd rfl hw
  | cons c w =>
    have h1 := h c (by simp)
    have h2 := hg w (fun d hd => h d (by simp [hd]))
    have e : (Re.plus (.cls p)).run (c :: (w ++ t)) = (greedySuf p (w ++ t)).map (fun r => (r, [])) := by
      unfold Re.plus
      simp only [Re.run.eq_4, Re.run, h1, if_true]
      have := run_star_cls p (w ++ t)
      simp only [Re.run] at this
      rw [List.flatMap_singleton, this]
      simp
    simp only [List.cons_append]
    rw [show (Re.grp n (.plus (.cls p))).run (c :: (w ++ t)) = ((Re.plus (.cls p)).run (c :: (w ++ t))).map
      (fun x => (x.1, x.2 ++ [(n, (c :: (w ++ t)).take ((c :: (w ++ t)).length - x.1.length))])) from rfl, e,
      List.head?_map, List.head?_map, h2]
    simp only [Option.map_some, List.nil_append, Option.some.injEq, Prod.mk.injEq, true_and, List.cons.injEq,
      and_true]
    have : (c :: (w ++ t)).length - t.length = (c :: w).length := by simp; omega
    rw [this, show c :: (w ++ t) = (c :: w) ++ t from rfl, List.take_left]

theorem powerRe_no {c : Char} (t : Str) (h : c ≠ '2') : reMatch powerRe (c :: t) = none := by
  rw [reMatch_none]
  rintro ⟨r, m⟩ hx
  unfold powerRe at hx
  simp only [Re.cat, seq_chr] at hx
  obtain ⟨t', h1, -⟩ := hx
  simp only [List.cons.injEq] at h1
  exact h h1.1

theorem reSearch_skip {r : Re} {c : Char} {t : Str} (h : reMatch r (c :: t) = none) :
    reSearch r (c :: t) = reSearch r t := by
  rw [reSearch, h]

theorem run_seq_chr_self (c : Char) (b : Re) (t : Str) : (Re.seq (.chr c) b).run (c :: t) = b.run t := by
  simp [Re.run, Re.chr]

theorem powerRe_yes {d : Str} (hd : Digits d) {t : Str} (ht : ∀ c ∈ t.head?, isDig c = false) :
    reMatch powerRe ('2' :: '^' :: (d ++ t)) = some [(1, d)] := by
  unfold reMatch powerRe
  simp only [Re.cat, run_seq_chr_self]
  rw [show Re.dig = Re.cls isDig from rfl, run_grp_plus_head hd.1 hd.2 ht]
  rfl

theorem reSearch_power (k : Nat) : reSearch powerRe ("byte * 2^".toList ++ natStr k) = some [(1, natStr k)] := by
  have e : "byte * 2^".toList ++ natStr k =
      'b' :: 'y' :: 't' :: 'e' :: ' ' :: '*' :: ' ' :: '2' :: '^' :: (natStr k ++ []) := by
    rw [List.append_nil]; rfl
  rw [e, reSearch_skip (powerRe_no _ (by decide)), reSearch_skip (powerRe_no _ (by decide)),
    reSearch_skip (powerRe_no _ (by decide)), reSearch_skip (powerRe_no _ (by decide)),
    reSearch_skip (powerRe_no _ (by decide)), reSearch_skip (powerRe_no _ (by decide)),
    reSearch_skip (powerRe_no _ (by decide)), reSearch,
    powerRe_yes ⟨natStr_ne_nil k, isDig_natStr k⟩ (by simp)]

theorem powerRe_nil : reSearch powerRe [] = none := by decide +kernel

theorem reSearch_power_none : ∀ {u : Str}, '2' ∉ u → reSearch powerRe u = none
  | [], _ => powerRe_nil
  | c :: t, h => by
    rw [reSearch_skip (powerRe_no t (fun hc => h (by simp [hc]))), reSearch_power_none (fun hc => h (by simp [hc]))]

theorem programmatic_power {base : Str} {z : Int} (hb : Numeral base z) (k : Nat) :
    programmaticBytesToInt base ("byte * 2^".toList ++ natStr k) = .ok (z * 2 ^ k) := by
  have hp := pyInt_iff.2 hb
  have hne : "byte * 2^".toList ++ natStr k ≠ [] := by simp
  unfold programmaticBytesToInt
  rw [if_neg hne, reSearch_power]
  simp only [intOrErr, hp]
  have : Caps.groupD [(1, natStr k)] 1 = natStr k := rfl
  rw [this, digitsVal_natStr]

theorem programmatic_byte {base : Str} {z : Int} (hb : Numeral base z) :
    programmaticBytesToInt base "byte".toList = .ok z := by
  have hp := pyInt_iff.2 hb
  have hne : "byte".toList ≠ [] := by simp
  unfold programmaticBytesToInt
  rw [if_neg hne, reSearch_power_none (by decide)]
  have : reMatch bytesRe "byte".toList = none := by decide +kernel
  rw [this]
  simp [intOrErr, hp]

end Cot

namespace Cot

theorem not_mem_of_lower {c : Char} {s : Str} (hc : lowerC c = c) (h : c ∉ lower s) : c ∉ s := by
  intro hm
  apply h
  unfold lower
  exact List.mem_map.2 ⟨c, hm, hc⟩

/-- the unit words, in any letter case: the prefix is recovered -/
theorem bytesRe_match {u pre : Str} (h : lower u = pre ++ "bytes".toList) (hnl : '\n' ∉ u) :
    ∃ p, lower p = pre ∧ reMatch bytesRe u = some [(1, p)] := by
  obtain ⟨p, q, rfl, h1, h2⟩ := lower_eq_append h
  refine ⟨p, h1, ?_⟩
  have hq : q.length = 5 := by
    have := congrArg List.length h2
    simpa [lower] using this
  have hmem : ∀ r m, (r, m) ∈ bytesRe.run (p ++ q) ↔ r = [] ∧ m = [(1, p)] := by
    intro r m
    unfold bytesRe
    simp only [Re.cat, Re.dot, seq_grp_star]
    constructor
    · rintro ⟨w, t, m2, e1, hw, h3, rfl⟩
      obtain ⟨⟨t1, m3⟩, hy, ⟨t2, m4⟩, hz, he⟩ := mem_run_seq.1 h3
      obtain ⟨a, ha2, ha1, ha3⟩ := mem_run_litI.1 hy
      obtain ⟨hz1, hz2, hz3⟩ := mem_eol.1 hz
      simp only at ha1 ha3 hz1 hz2
      subst ha3 hz2 hz3
      simp only [List.append_nil, Prod.mk.injEq] at he
      obtain ⟨rfl, rfl⟩ := he
      have hr : r = [] := by
        rcases hz1 with h | h
        · exact h
        · exfalso; apply hnl; rw [e1, ha1, h]; simp
      subst hr
      have hal : a.length = 5 := by
        have := congrArg List.length ha2
        simpa [lower] using this
      have : w = p := by
        rw [List.append_nil] at ha1
        subst ha1
        have := List.append_inj' e1 (by omega)
        exact this.1.symm
      exact ⟨rfl, by rw [this]⟩
    · rintro ⟨rfl, rfl⟩
      refine ⟨p, q, [], rfl, ?_, ?_, rfl⟩
      · intro c hc
        have : c ≠ '\n' := by rintro rfl; exact hnl (by simp [hc])
        simpa using this
      · refine mem_run_seq.2 ⟨([], []), mem_run_litI.2 ⟨q, ?_, by simp, rfl⟩, ([], []), mem_eol.2 ⟨Or.inl rfl, rfl, rfl⟩, rfl⟩
        rw [h2]; decide +kernel
  refine reMatch_eq_of ⟨[], (hmem _ _).2 ⟨rfl, rfl⟩⟩ ?_
  intro x m' hx
  exact ((hmem _ _).1 hx).2

theorem programmatic_word {base u : Str} {z : Int} (hb : Numeral base z) (i : Nat)
    (h : unitWords[i]? = some (lower u)) : programmaticBytesToInt base u = .ok (z * 1024 ^ i) := by
  have hp := pyInt_iff.2 hb
  have hi : i < 5 := by
    have := (List.getElem?_eq_some_iff.1 h).1
    simpa [unitWords] using this
  have hl : ∃ pre, lower u = pre ++ "bytes".toList ∧ listIndex siPrefixes pre = some i ∧ '2' ∉ lower u ∧
      '\n' ∉ lower u := by
    have : i = 0 ∨ i = 1 ∨ i = 2 ∨ i = 3 ∨ i = 4 := by omega
    rcases this with rfl | rfl | rfl | rfl | rfl
    · refine ⟨[], ?_, rfl, ?_, ?_⟩ <;> simp [unitWords] at h <;> rw [← h] <;> decide +kernel
    · refine ⟨"kilo".toList, ?_, rfl, ?_, ?_⟩ <;> simp [unitWords] at h <;> rw [← h] <;> decide +kernel
    · refine ⟨"mega".toList, ?_, rfl, ?_, ?_⟩ <;> simp [unitWords] at h <;> rw [← h] <;> decide +kernel
    · refine ⟨"giga".toList, ?_, rfl, ?_, ?_⟩ <;> simp [unitWords] at h <;> rw [← h] <;> decide +kernel
    · refine ⟨"tera".toList, ?_, rfl, ?_, ?_⟩ <;> simp [unitWords] at h <;> rw [← h] <;> decide +kernel
  obtain ⟨pre, h1, h2, h3, h4⟩ := hl
  have hne : u ≠ [] := by
    rintro rfl
    have := congrArg List.length h1
    simp [lower] at this
  obtain ⟨p, hp1, hp2⟩ := bytesRe_match h1 (not_mem_of_lower (by decide) h4)
  unfold programmaticBytesToInt
  rw [if_neg hne, reSearch_power_none (not_mem_of_lower (by decide) h3), hp2]
  simp only
  have : Caps.groupD [(1, p)] 1 = p := rfl
  rw [this, hp1, h2]
  simp only [intOrErr, hp]
  rw [pow_mul]
  norm_num

end Cot
