import Verif.Spec.Platform
import Verif.Lemmas.HwBasic
import Verif.Lemmas.Manifest
import Mathlib.Tactic.Push
import Mathlib.Tactic.Tauto
import Mathlib.Tactic.ByContra
/-
C37: platform limits; C38: NIC names.
-/
namespace Cot

/-! ### C37 -/

/-- within the limits the code uses -/
def WithinLimits (lim : Option Int × Option Int) (v : Int) : Prop :=
  belowMin v lim.1 = false ∧ aboveMax v lim.2 = false

theorem supported_iff (p : Plat) (k : HwKind) (v : Int) :
    Supported p k v ↔ WithinLimits (hwLimits p k) v ∧ (k = .cpus → ∀ l, cpuList p = some l → v ∈ l) := by
  cases p <;> cases k <;>
    simp [Supported, WithinLimits, hwLimits, belowMin, aboveMax, cpuList] <;> omega

theorem listsCpus_iff (p : Plat) (k : HwKind) : ListsCpus p k ↔ k = .cpus ∧ ∃ l, cpuList p = some l := by
  cases p <;> simp [ListsCpus, cpuList]

/-- the outcome of a validation, in terms of the cache -/
theorem validateHw_ok (p : Plat) (k : HwKind) (seen : ValCache) (v : Int) :
    (validateHw p k seen v).1 = .ok () ↔
      (v ∈ seen k ∨ WithinLimits (hwLimits p k) v) ∧ (k = .cpus → ∀ l, cpuList p = some l → v ∈ l) := by
  have hb : (validateBase p k seen v).1 = .ok () ↔ v ∈ seen k ∨ WithinLimits (hwLimits p k) v := by
    unfold WithinLimits validateBase
    by_cases h1 : v ∈ seen k
    · simp [h1]
    · simp only [h1, if_false, false_or]
      cases h2 : belowMin v (hwLimits p k).1 <;> cases h3 : aboveMax v (hwLimits p k).2 <;> simp
  unfold validateHw
  simp only
  rw [← hb]
  cases h : (validateBase p k seen v).1 with
  | error e => simp only [h, reduceCtorEq, false_and]
  | ok u =>
    simp only [true_and]
    cases k with
    | cpus =>
      cases hc : cpuList p with
      | none => simp [h]
      | some l =>
        simp only [forall_const, Option.some.injEq, forall_eq']
        by_cases hl : v ∈ l
        · simp [hl, h]
        · simp [hl]
    | memory => simp [h]
    | nicCount => simp [h]
    | serialCount => simp [h]

theorem validateHw_cache (p : Plat) (k : HwKind) (seen : ValCache) (v : Int) (j : HwKind) (w : Int) :
    w ∈ (validateHw p k seen v).2 j ↔ w ∈ seen j ∨ (j = k ∧ w = v) := by
  have hb : w ∈ (validateBase p k seen v).2 j ↔ w ∈ seen j ∨ (j = k ∧ w = v) := by
    unfold validateBase
    by_cases h1 : v ∈ seen k
    · simp only [h1, if_true]
      constructor
      · exact Or.inl
      · rintro (h | ⟨rfl, rfl⟩)
        · exact h
        · exact h1
    · simp only [h1, if_false]
      have : w ∈ (if j = k then v :: seen j else seen j) ↔ w ∈ seen j ∨ (j = k ∧ w = v) := by
        by_cases hj : j = k
        · simp [hj, or_comm]
        · simp [hj]
      split
      · exact this
      · split <;> exact this
  rw [← hb]
  unfold validateHw
  simp only
  split
  · split <;> rfl
  · rfl

theorem mem_afterCalls (p : Plat) (calls : List (HwKind × Int)) (k : HwKind) (v : Int) :
    v ∈ afterCalls p calls k ↔ (k, v) ∈ calls := by
  induction calls with
  | nil => simp [afterCalls]
  | cons c r ih =>
    obtain ⟨j, w⟩ := c
    show v ∈ (validateHw p j (afterCalls p r) w).2 k ↔ _
    rw [validateHw_cache, ih]
    simp only [List.mem_cons, Prod.mk.injEq]
    tauto

/-- **C37 (partial).** On every platform and after any history of validation calls, a value that has not
been validated before is accepted exactly if the platform supports it.  Missing: the same for values
already asked about (see `C37_repeated_call_fails`, `C37_history`). -/
theorem C37_limits_partial (p : Plat) (calls : List (HwKind × Int)) (k : HwKind) (v : Int)
    (hnew : (k, v) ∉ calls) :
    (validateHw p k (afterCalls p calls) v).1 = .ok () ↔ Supported p k v := by
  rw [validateHw_ok, mem_afterCalls, supported_iff]
  tauto

/-- C37, exactly what holds for every history: supported values are accepted every time; an unsupported
value is accepted iff it has been asked about before and is not a CPU count of a platform that lists its
CPU counts. -/
theorem C37_history (p : Plat) (calls : List (HwKind × Int)) (k : HwKind) (v : Int) :
    (Supported p k v → (validateHw p k (afterCalls p calls) v).1 = .ok ()) ∧
    (¬ Supported p k v → ((validateHw p k (afterCalls p calls) v).1 = .ok () ↔ (k, v) ∈ calls ∧ ¬ ListsCpus p k)) := by
  rw [validateHw_ok, mem_afterCalls, supported_iff, listsCpus_iff]
  constructor
  · rintro ⟨h1, h2⟩; exact ⟨Or.inr h1, h2⟩
  · intro hn
    constructor
    · rintro ⟨h1 | h1, h2⟩
      · refine ⟨h1, ?_⟩
        rintro ⟨rfl, l, hl⟩
        have hv := h2 rfl l hl
        apply hn
        refine ⟨?_, h2⟩
        revert hv hl
        cases p <;> simp [cpuList, WithinLimits, hwLimits, belowMin, aboveMax] <;> rintro rfl <;> simp <;> omega
      · exact absurd ⟨h1, h2⟩ hn
    · rintro ⟨h1, h2⟩
      exact ⟨Or.inl h1, fun hk l hl => absurd ⟨hk, l, hl⟩ h2⟩

theorem below_iff (p : Plat) (k : HwKind) (v : Int) :
    belowMin v (hwLimits p k).1 = true ↔ ∀ w, Supported p k w → v < w := by
  constructor
  · intro h w hw
    rw [supported_iff] at hw
    have := hw.1.1
    revert h this
    cases (hwLimits p k).1 with
    | none => simp [belowMin]
    | some lo => simp only [belowMin, decide_eq_true_eq, decide_eq_false_iff_not]; omega
  · intro h
    have hlo : ∃ lo, (hwLimits p k).1 = some lo ∧ Supported p k lo := by
      cases p <;> cases k <;> exact ⟨_, rfl, by simp [Supported]⟩
    obtain ⟨lo, h1, h2⟩ := hlo
    rw [h1]
    simpa [belowMin] using h lo h2

theorem above_iff (p : Plat) (k : HwKind) (v : Int) :
    aboveMax v (hwLimits p k).2 = true ↔ ∀ w, Supported p k w → w < v := by
  constructor
  · intro h w hw
    rw [supported_iff] at hw
    have := hw.1.2
    revert h this
    cases (hwLimits p k).2 with
    | none => simp [aboveMax]
    | some hi => simp only [aboveMax, decide_eq_true_eq, decide_eq_false_iff_not]; omega
  · intro h
    have hhi : (∃ hi, (hwLimits p k).2 = some hi ∧ Supported p k hi) ∨ ∃ w, v ≤ w ∧ Supported p k w := by
      cases p <;> cases k <;> first
        | exact Or.inl ⟨_, rfl, by simp [Supported]⟩
        | exact Or.inr ⟨max v 8192, by omega, by simp only [Supported]; omega⟩
    rcases hhi with ⟨hi, h1, h2⟩ | ⟨w, h1, h2⟩
    · rw [h1]; simpa [aboveMax] using h hi h2
    · have := h w h2; omega

/-- C37, which error: a new value below all supported ones is "too low", one above all of them "too
high", and any other unsupported one "unsupported". -/
theorem C37_errors (p : Plat) (calls : List (HwKind × Int)) (k : HwKind) (v : Int) (hnew : (k, v) ∉ calls) :
    let r := (validateHw p k (afterCalls p calls) v).1
    (r = .error .valueTooLow ↔ ∀ w, Supported p k w → v < w) ∧
    (r = .error .valueTooHigh ↔ ∀ w, Supported p k w → w < v) ∧
    (r = .error .valueUnsupported ↔ ¬ Supported p k v ∧ (∃ w, Supported p k w ∧ w ≤ v) ∧
      ∃ w, Supported p k w ∧ v ≤ w) := by
  have hn : v ∉ afterCalls p calls k := fun h => hnew ((mem_afterCalls p calls k v).1 h)
  have hex : ∃ w, Supported p k w := by
    cases p <;> cases k <;> first
      | (refine ⟨1, ?_⟩; simp [Supported]; done)
      | (refine ⟨4, ?_⟩; simp [Supported]; done)
      | (refine ⟨3072, ?_⟩; simp [Supported]; done)
      | (refine ⟨8192, ?_⟩; simp [Supported]; done)
  have e1 : (∃ w, Supported p k w ∧ w ≤ v) ↔ ¬ ∀ w, Supported p k w → v < w := by
    constructor
    · rintro ⟨w, h1, h2⟩ h; have := h w h1; omega
    · intro h; by_contra hx; apply h; intro w hw; by_contra hc; exact hx ⟨w, hw, by omega⟩
  have e2 : (∃ w, Supported p k w ∧ v ≤ w) ↔ ¬ ∀ w, Supported p k w → w < v := by
    constructor
    · rintro ⟨w, h1, h2⟩ h; have := h w h1; omega
    · intro h; by_contra hx; apply h; intro w hw; by_contra hc; exact hx ⟨w, hw, by omega⟩
  have hboth : ¬ (belowMin v (hwLimits p k).1 = true ∧ aboveMax v (hwLimits p k).2 = true) := by
    rw [below_iff, above_iff]
    rintro ⟨h1, h2⟩
    obtain ⟨w, hw⟩ := hex
    have := h1 w hw; have := h2 w hw; omega
  simp only
  rw [e1, e2, ← below_iff, ← above_iff, supported_iff]
  unfold validateHw validateBase WithinLimits
  simp only [hn, if_false]
  cases h2 : belowMin v (hwLimits p k).1
  · cases h3 : aboveMax v (hwLimits p k).2
    · simp only [Bool.false_eq_true, if_false]
      cases k with
      | cpus =>
        cases hc : cpuList p with
        | none => simp
        | some l => by_cases hl : v ∈ l <;> simp [hl]
      | memory => simp
      | nicCount => simp
      | serialCount => simp
    · simp
  · cases h3 : aboveMax v (hwLimits p k).2
    · simp
    · exact absurd ⟨h2, h3⟩ hboth

/-- The full statement of C37 fails: an unsupported number of NICs is refused the first time and accepted
when it is validated again. -/
theorem C37_repeated_call_fails :
    ¬ ∀ (p : Plat) (calls : List (HwKind × Int)) (k : HwKind) (v : Int),
      (validateHw p k (afterCalls p calls) v).1 = .ok () ↔ Supported p k v := by
  intro h
  have h1 := (h .iosv [(.nicCount, 17)] .nicCount 17).1 rfl
  exact absurd h1.2 (by decide)

/-- non-vacuity: CSR1000V refuses 3 CPUs as unsupported, 9 as too many, accepts 8; and 9 CPUs are refused
the second time too, because of the list -/
example : (validateHw .csr .cpus (afterCalls .csr []) 3).1 = .error .valueUnsupported ∧
    (validateHw .csr .cpus (afterCalls .csr [(.cpus, 3)]) 9).1 = .error .valueTooHigh ∧
    (validateHw .csr .cpus (afterCalls .csr [(.cpus, 9)]) 9).1 = .error .valueUnsupported ∧
    (validateHw .csr .cpus (afterCalls .csr [(.cpus, 3)]) 8).1 = .ok () ∧
    (validateHw .csr .memory (afterCalls .csr []) 8193).1 = .error .valueTooHigh ∧
    (validateHw .csr .memory (afterCalls .csr [(.memory, 8193)]) 8193).1 = .ok () := ⟨rfl, rfl, rfl, rfl, rfl, rfl⟩

theorem supportedNics_iff (p : Plat) (t : Str) : t ∈ supportedNics p ↔ NicSupported p t := by
  cases p
  case generic =>
    show t ∈ nicTypes ↔ _
    have : nicTypes = ["E1000e".toList, "E1000".toList, "PCNet32".toList, "virtio".toList, "VMXNET3".toList] := by decide +kernel
    rw [this]
    unfold NicSupported
    simp only [List.mem_cons, List.not_mem_nil, or_false]
  all_goals
    unfold supportedNics NicSupported
    simp only [List.mem_cons, List.not_mem_nil, or_false]

/-- C37 for NIC types: a list is accepted iff the platform supports each of its members. -/
theorem C37_nic_types (p : Plat) (l : List Str) :
    (validateNicTypes p l = .ok () ↔ ∀ t ∈ l, NicSupported p t) ∧
    (validateNicTypes p l ≠ .ok () → validateNicTypes p l = .error .valueUnsupported) := by
  simp only [← supportedNics_iff]
  induction l with
  | nil => simp [validateNicTypes]
  | cons t r ih =>
    unfold validateNicTypes validateNicType
    by_cases h : t ∈ supportedNics p
    · simp only [h, if_true, List.mem_cons, forall_eq_or_imp, true_and]; exact ih
    · simp [h]

/-- every type a platform supports is a known NIC type -/
theorem C37_nic_types_known (p : Plat) : ∀ t ∈ supportedNics p, t ∈ nicTypes := by
  cases p <;> decide +kernel

example : validateNicTypes .n9k ["E1000".toList, "VMXNET3".toList] = .ok () ∧
    validateNicTypes .n9k ["E1000".toList, "virtio".toList] = .error .valueUnsupported := ⟨rfl, rfl⟩

/-! ### C38 -/

theorem head_ne {a b : Char} {s t : Str} (h : a ≠ b) : a :: s ≠ b :: t := by
  intro e; exact h (List.cons.inj e).1

theorem isDig_intStr_nonneg {z : Int} (h : 0 ≤ z) : ∀ c ∈ intStr z, isDig c = true := by
  obtain ⟨n, rfl⟩ := Int.eq_ofNat_of_zero_le h
  exact isDig_natStr n

theorem slash_intStr (z : Int) : '/' ∉ intStr z := by
  intro h
  cases z with
  | ofNat n => exact absurd (isDig_natStr n _ h) (by decide)
  | negSucc n =>
    simp only [intStr, List.mem_cons] at h
    rcases h with h | h
    · exact absurd h (by decide)
    · exact absurd (isDig_natStr _ _ h) (by decide)

/-- **C38.** On every platform, different NIC numbers (any integers, hence all `n ≥ 1`) have different
names. -/
theorem C38_names_distinct (p : Plat) (m n : Int) (h : guessNicName p m = guessNicName p n) : m = n := by
  have app : ∀ (pre : Str) (a b : Int), pre ++ intStr a = pre ++ intStr b → a = b := fun pre a b h =>
    intStr_inj (List.append_cancel_left h)
  cases p with
  | generic => exact app _ _ _ h
  | csr => exact app _ _ _ h
  | c9800 => exact app _ _ _ h
  | iosv => have := app _ _ _ h; omega
  | xrv =>
    unfold guessNicName at h
    by_cases hm : m = 1 <;> by_cases hn : n = 1
    · omega
    · simp only [hm, hn, if_true, if_false] at h
      exact absurd h (head_ne (by decide))
    · simp only [hm, hn, if_true, if_false] at h
      exact absurd h (head_ne (by decide))
    · simp only [hm, hn, if_false] at h
      have := app _ _ _ h; omega
  | xrvRP =>
    unfold guessNicName at h
    by_cases hm : m = 1 <;> by_cases hn : n = 1
    · omega
    · simp only [hm, hn, if_true, if_false] at h
      exact absurd h (head_ne (by decide))
    · simp only [hm, hn, if_true, if_false] at h
      exact absurd h (head_ne (by decide))
    · simp only [hm, hn, if_false] at h
      have := app _ _ _ h; omega
  | xrvLC =>
    unfold guessNicName at h
    by_cases hm : m = 1 <;> by_cases hn : n = 1
    · omega
    · simp only [hm, hn, if_true, if_false] at h
      exact absurd h (head_ne (by decide))
    · simp only [hm, hn, if_true, if_false] at h
      exact absurd h (head_ne (by decide))
    · simp only [hm, hn, if_false] at h
      have := app _ _ _ h; omega
  | n9k =>
    unfold guessNicName at h
    by_cases hm : m = 1 <;> by_cases hn : n = 1
    · omega
    · simp only [hm, hn, if_true, if_false] at h
      exact absurd h (head_ne (by decide))
    · simp only [hm, hn, if_true, if_false] at h
      exact absurd h (head_ne (by decide))
    · simp only [hm, hn, if_false] at h
      have := app _ _ _ h; omega
  | xrv9k =>
    have cls : ∀ k : Int, (k = 1 ∧ guessNicName .xrv9k k = "MgmtEth0/0/CPU0/0".toList) ∨
        (k = 2 ∧ guessNicName .xrv9k k = "CtrlEth".toList) ∨ (k = 3 ∧ guessNicName .xrv9k k = "DevEth".toList) ∨
        guessNicName .xrv9k k = "GigabitEthernet0/0/0/".toList ++ intStr (k - 4) := by
      intro k
      by_cases h1 : k = 1
      · exact Or.inl ⟨h1, by rw [h1]; rfl⟩
      · by_cases h2 : k = 2
        · exact Or.inr (Or.inl ⟨h2, by rw [h2]; rfl⟩)
        · by_cases h3 : k = 3
          · exact Or.inr (Or.inr (Or.inl ⟨h3, by rw [h3]; rfl⟩))
          · refine Or.inr (Or.inr (Or.inr ?_))
            unfold guessNicName
            simp only [h1, h2, h3, if_false]
    rcases cls m with ⟨hm, em⟩ | ⟨hm, em⟩ | ⟨hm, em⟩ | em <;>
    rcases cls n with ⟨hn, en⟩ | ⟨hn, en⟩ | ⟨hn, en⟩ | en <;> rw [em, en] at h
    case inr.inr.inr.inr.inr.inr => have := app _ _ _ h; omega
    all_goals first
      | omega
      | exact absurd h (head_ne (by decide))
  | nxosv =>
    unfold guessNicName at h
    by_cases hm : m = 1 <;> by_cases hn : n = 1
    · omega
    · simp only [hm, hn, if_true, if_false] at h
      exact absurd h (head_ne (by decide))
    · simp only [hm, hn, if_true, if_false] at h
      exact absurd h (head_ne (by decide))
    · simp only [hm, hn, if_false, List.append_assoc] at h
      obtain ⟨h1, h2⟩ := split_first (slash_intStr _) (slash_intStr _) (List.append_cancel_left h)
      have h1 := intStr_inj h1
      have h2 := intStr_inj h2
      omega

/-- non-vacuity: the 49th and 50th NICs of NX-OSv are on different slots -/
example : guessNicName .nxosv 49 = "Ethernet2/48".toList ∧ guessNicName .nxosv 50 = "Ethernet3/1".toList ∧
    guessNicName .xrv9k 4 = "GigabitEthernet0/0/0/0".toList := by decide +kernel

/-- An unknown product class is treated as the generic platform. -/
theorem C38_unknown_product (s : Str) (h : ∀ e ∈ platformMap, e.1 ≠ s) : forProductString (some s) = .generic := by
  show (dget? platformMap s).getD .generic = .generic
  have : dget? platformMap s = none := by
    rw [dget?_eq_none]
    intro hk
    obtain ⟨e, he, rfl⟩ := List.mem_map.1 hk
    exact h e he rfl
  rw [this]; rfl

end Cot
