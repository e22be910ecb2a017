import Verif.Model.EditHardware
import Verif.Props.Platform
import Verif.Props.DataValidation
/-
The options of edit-hardware that are numbers or NIC types (C82).
-/
namespace Cot

variable {c : EhCtx} {calls : List (HwKind × Int)}

theorem ehValidate_ok {c : EhCtx} {a : EhAsk} {r : Except Err Unit} :
    ehValidate c a r = .ok () ↔ r = .ok () ∨ (∃ e, r = .error e ∧ e.isValueError = true) ∧ c.ask a = true := by
  cases r with
  | ok u => simp [ehValidate]
  | error e =>
    unfold ehValidate
    by_cases h : e.isValueError = true <;> by_cases h2 : c.ask a = true <;> simp [h, h2]

theorem validateHw_errors (p : Plat) (k : HwKind) (seen : ValCache) (v : Int) :
    (validateHw p k seen v).1 = .ok () ∨ ∃ e, (validateHw p k seen v).1 = .error e ∧ e.isValueError = true := by
  have base : (validateBase p k seen v).1 = .ok () ∨
      ∃ e, (validateBase p k seen v).1 = .error e ∧ e.isValueError = true := by
    unfold validateBase
    split
    · exact Or.inl rfl
    · simp only
      split
      · exact Or.inr ⟨_, rfl, rfl⟩
      · split
        · exact Or.inr ⟨_, rfl, rfl⟩
        · exact Or.inl rfl
  unfold validateHw
  simp only
  split
  · split
    · exact base
    · exact Or.inr ⟨_, rfl, rfl⟩
  · exact base

theorem ehCheck_ok {k : HwKind} {v : Int} {seen' : ValCache} (hnew : (k, v) ∉ calls) :
    ehCheck c k (afterCalls c.plat calls) v = .ok seen' ↔
      (Supported c.plat k v ∨ c.ask (.badValue k v) = true) ∧ seen' = afterCalls c.plat ((k, v) :: calls) := by
  have h1 := C37_limits_partial c.plat calls k v hnew
  have h2 := validateHw_errors c.plat k (afterCalls c.plat calls) v
  have h3 : afterCalls c.plat ((k, v) :: calls) = (validateHw c.plat k (afterCalls c.plat calls) v).2 := rfl
  unfold ehCheck
  rw [h3, ← h1]
  cases hv : ehValidate c (.badValue k v) (validateHw c.plat k (afterCalls c.plat calls) v).1 with
  | ok u =>
    have h4 := ehValidate_ok.1 hv
    constructor
    · intro h; cases h
      exact ⟨h4.imp id (·.2), rfl⟩
    · rintro ⟨-, rfl⟩; rfl
  | error e =>
    constructor
    · intro h; cases h
    · rintro ⟨h5, -⟩
      have : ehValidate c (.badValue k v) (validateHw c.plat k (afterCalls c.plat calls) v).1 = .ok () := by
        rw [ehValidate_ok]
        rcases h5 with h5 | h5
        · exact Or.inl h5
        · rcases h2 with h2 | h2
          · exact Or.inl h2
          · exact Or.inr ⟨h2, h5⟩
      rw [hv] at this; cases this

/-- **C82, CPUs.** A value of `--cpus` that the platform was not asked about before is accepted iff it is the number of at
least one CPU and the platform supports it or the user insists. -/
theorem C82_cpus (value : Str) (n : Int) (seen' : ValCache) (hnew : (HwKind.cpus, n) ∉ calls) :
    setCpusArg c (afterCalls c.plat calls) value = .ok (n, seen') ↔
      pyInt value = some n ∧ 1 ≤ n ∧ (Supported c.plat .cpus n ∨ c.ask (.badValue .cpus n) = true) ∧
      seen' = afterCalls c.plat ((.cpus, n) :: calls) := by
  unfold setCpusArg
  cases hv : pyInt value with
  | none => simp
  | some m =>
    simp only [Option.some.injEq]
    by_cases hm : m < 1
    · rw [if_pos hm]
      constructor
      · intro h; cases h
      · rintro ⟨rfl, h, -⟩; omega
    · rw [if_neg hm]
      cases hc : ehCheck c .cpus (afterCalls c.plat calls) m with
      | error e =>
        constructor
        · intro h; cases h
        · rintro ⟨rfl, -, h⟩
          rw [(ehCheck_ok hnew).2 h] at hc; cases hc
      | ok x =>
        constructor
        · intro h
          simp only [Except.ok.injEq, Prod.mk.injEq] at h
          obtain ⟨rfl, rfl⟩ := h
          exact ⟨rfl, by omega, (ehCheck_ok hnew).1 hc⟩
        · rintro ⟨rfl, -, h⟩
          rw [(ehCheck_ok hnew).2 h] at hc; cases hc; rfl

/-- **C82, memory.** The same for `--memory`; what the texts mean is C34. -/
theorem C82_memory (value : Str) (n : Nat) (seen' : ValCache) (hnew : (HwKind.memory, (n : Int)) ∉ calls) :
    setMemoryArg c (afterCalls c.plat calls) value = .ok (n, seen') ↔
      parseMemory value = .ok n ∧ (Supported c.plat .memory n ∨ c.ask (.badValue .memory n) = true) ∧
      seen' = afterCalls c.plat ((.memory, (n : Int)) :: calls) := by
  unfold setMemoryArg
  cases hv : parseMemory value with
  | error e => simp
  | ok m =>
    simp only [Except.ok.injEq]
    cases hc : ehCheck c .memory (afterCalls c.plat calls) m with
    | error e =>
      constructor
      · intro h; cases h
      · rintro ⟨rfl, h⟩
        rw [(ehCheck_ok hnew).2 h] at hc; cases hc
    | ok x =>
      constructor
      · intro h
        simp only [Except.ok.injEq, Prod.mk.injEq] at h
        obtain ⟨rfl, rfl⟩ := h
        exact ⟨rfl, (ehCheck_ok hnew).1 hc⟩
      · rintro ⟨rfl, h⟩
        rw [(ehCheck_ok hnew).2 h] at hc; cases hc; rfl

/-- **C82, NICs and serial ports.** The same for `--nics` and `--serial-ports`, which may be 0. -/
theorem C82_counts (k : HwKind) (value : Str) (n : Nat) (seen' : ValCache) (hnew : (k, (n : Int)) ∉ calls) :
    setCountArg c k (afterCalls c.plat calls) value = .ok (n, seen') ↔
      pyInt value = some (n : Int) ∧ (Supported c.plat k n ∨ c.ask (.badValue k n) = true) ∧
      seen' = afterCalls c.plat ((k, (n : Int)) :: calls) := by
  unfold setCountArg
  cases hv : pyInt value with
  | none => simp
  | some m =>
    simp only [Option.some.injEq]
    by_cases hm : m < 0
    · rw [if_pos hm]
      constructor
      · intro h; cases h
      · rintro ⟨rfl, h, -⟩; omega
    · rw [if_neg hm]
      obtain ⟨w, rfl⟩ := Int.eq_ofNat_of_zero_le (by omega : 0 ≤ m)
      have hinj : ((w : Int) = (n : Int)) ↔ w = n := by omega
      rw [hinj]
      cases hc : ehCheck c k (afterCalls c.plat calls) w with
      | error e =>
        constructor
        · intro h; cases h
        · rintro ⟨rfl, h⟩
          rw [(ehCheck_ok hnew).2 h] at hc; cases hc
      | ok x =>
        constructor
        · intro h
          simp only [Except.ok.injEq, Prod.mk.injEq, Int.toNat_natCast] at h
          obtain ⟨rfl, rfl⟩ := h
          exact ⟨rfl, (ehCheck_ok hnew).1 hc⟩
        · rintro ⟨rfl, h⟩
          rw [(ehCheck_ok hnew).2 h] at hc; cases hc; rfl

theorem firstMatch_ne {table : List (List Str × Str)} (ht : ∀ e ∈ table, (e.1.head?.getD []) ≠ []) {s r : Str}
    (h : FirstMatch table s r) : s ≠ [] := by
  rintro rfl
  obtain ⟨pre, ws, post, h1, h2, -⟩ := h
  have h3 := ht (ws, r) (by rw [h1]; simp)
  match ws, h2, h3 with
  | [], _, h3 => exact h3 rfl
  | [w], ⟨rest, h⟩, h3 =>
    have h : [] = w ++ rest := h
    exact h3 (by simpa using (List.append_eq_nil_iff.1 h.symm).1)
  | w :: v :: t, ⟨k, rest, h, _⟩, h3 =>
    have h : [] = w ++ List.replicate k ' ' ++ rest := h
    exact h3 (by simpa using (List.append_eq_nil_iff.1 (List.append_eq_nil_iff.1 h.symm).1).1)

theorem canonNics_iff : ∀ (value l : List Str),
    canonNics value = .ok l ↔ List.Forall₂ (FirstMatch nicWords) value l
  | [], l => by
    constructor
    · intro h; cases h; exact .nil
    · intro h; cases h; rfl
  | t :: r, l => by
    have hne : ∀ e ∈ nicWords, (e.1.head?.getD []) ≠ [] := by decide
    unfold canonNics
    constructor
    · intro h
      split at h
      · cases h
      · cases h
      · rename_i s hs
        split at h
        · cases h
        · rename_i l' hl
          cases h
          have h0 : t ≠ [] := by
            rintro rfl
            rw [(C18_canonicalize_nic.nothing (some [])).2 (Or.inr rfl)] at hs
            cases hs
          exact .cons ((C18_canonicalize_nic.first t h0 s).1 hs) ((canonNics_iff r l').1 hl)
    · intro h
      cases h with
      | cons h1 h2 =>
        rw [(C18_canonicalize_nic.first t (firstMatch_ne hne h1) _).2 h1]
        simp only
        rw [(canonNics_iff r _).2 h2]

theorem canonList_iff {f : Option Str → Except Err (Option Str)} {table : List (List Str × Str)}
    (hf : Canonicalizes f table) (hne : ∀ e ∈ table, (e.1.head?.getD []) ≠ []) : ∀ (value l : List Str),
    canonList f value = .ok l ↔ List.Forall₂ (FirstMatch table) (value.filter (fun t => decide (t ≠ []))) l
  | [], l => by
    constructor
    · intro h; cases h; exact .nil
    · intro h; cases h; rfl
  | t :: r, l => by
    unfold canonList
    by_cases h0 : t = []
    · subst h0
      rw [(hf.nothing (some [])).2 (Or.inr rfl)]
      rw [List.filter_cons_of_neg (by simp), ← canonList_iff hf hne r l]
      simp only
      cases canonList f r <;> simp
    · rw [List.filter_cons_of_pos (by simpa using h0)]
      constructor
      · intro h
        split at h
        · cases h
        · rename_i o ho
          split at h
          · cases h
          · rename_i l' hl
            cases h
            cases o with
            | none =>
              rcases (hf.nothing _).1 ho with h | h
              · cases h
              · cases h; exact absurd rfl h0
            | some s => exact .cons ((hf.first t h0 s).1 ho) ((canonList_iff hf hne r l').1 hl)
      · intro h
        cases h with
        | cons h1 h2 =>
          rw [(hf.first t h0 _).2 h1]
          simp only
          rw [(canonList_iff hf hne r _).2 h2]
          rfl

/-- **C82, controller types.** Lists of SCSI and IDE controller types are accepted iff every one of them that is not
empty starts, ignoring case, with the words for a known type; what is kept is the list of their full names, in the
order given. -/
theorem C82_controller_types (value l : List Str) :
    (setScsiArg value = .ok l ↔
      List.Forall₂ (FirstMatch scsiWords) (value.filter (fun t => decide (t ≠ []))) l) ∧
    (setIdeArg value = .ok l ↔
      List.Forall₂ (FirstMatch ideWords) (value.filter (fun t => decide (t ≠ []))) l) :=
  ⟨canonList_iff C18_canonicalize_scsi (by decide) value l, canonList_iff C18_canonicalize_ide (by decide) value l⟩

/-- non-vacuity -/
example : setScsiArg ["LSI Logic".toList, [], "VirtIO".toList] = .ok ["lsilogic".toList, "virtio".toList] ∧
    setIdeArg ["ide".toList] = .error .valueUnsupported := by decide +kernel

/-- **C82, NIC types.** A list of NIC types is accepted iff each starts, ignoring case, with the words for a known type,
and the platform supports all of them or the user insists; what is kept is the list of their full names. -/
theorem C82_nic_types (value l : List Str) :
    setNicTypesArg c value = .ok l ↔
      List.Forall₂ (FirstMatch nicWords) value l ∧ ((∀ t ∈ l, NicSupported c.plat t) ∨ c.ask (.badNicTypes l) = true) := by
  rw [← canonNics_iff]
  unfold setNicTypesArg
  cases hv : canonNics value with
  | error e => simp
  | ok m =>
    simp only [Except.ok.injEq]
    obtain ⟨k1, k2⟩ := C37_nic_types c.plat m
    have key : ehValidate c (.badNicTypes m) (validateNicTypes c.plat m) = .ok () ↔
        (∀ t ∈ m, NicSupported c.plat t) ∨ c.ask (.badNicTypes m) = true := by
      rw [ehValidate_ok, ← k1]
      constructor
      · rintro (h | ⟨-, h⟩)
        · exact Or.inl h
        · exact Or.inr h
      · rintro (h | h)
        · exact Or.inl h
        · by_cases h2 : validateNicTypes c.plat m = .ok ()
          · exact Or.inl h2
          · exact Or.inr ⟨⟨_, k2 h2, rfl⟩, h⟩
    cases hc : ehValidate c (.badNicTypes m) (validateNicTypes c.plat m) with
    | error e =>
      constructor
      · intro h; cases h
      · rintro ⟨rfl, h⟩
        rw [key.2 h] at hc; cases hc
    | ok x =>
      constructor
      · intro h
        simp only [Except.ok.injEq] at h
        subst h
        exact ⟨rfl, key.1 hc⟩
      · rintro ⟨rfl, -⟩; rfl

/-- **C82, afterwards.** When the command comes to set a value that the option accepted, the platform accepts it once more
without another question, except for a CPU count that is not on the platform's list. -/
theorem C82_then_accepted (k : HwKind) (v : Int) (more : List (HwKind × Int)) (s : EhSt)
    (hs : s.seen = afterCalls c.plat (more ++ (k, v) :: calls)) (h : Supported c.plat k v ∨ ¬ ListsCpus c.plat k) :
    ∃ s', vmValidate c k v s = .ok s' ∧ s'.envl = s.envl ∧ s'.hw = s.hw ∧ s'.hws = s.hws := by
  have h1 : (validateHw c.plat k s.seen v).1 = .ok () := by
    rw [hs]
    obtain ⟨a, b⟩ := C37_history c.plat (more ++ (k, v) :: calls) k v
    by_cases hsup : Supported c.plat k v
    · exact a hsup
    · refine (b hsup).2 ⟨by simp, ?_⟩
      rcases h with h | h
      · exact absurd h hsup
      · exact h
  unfold vmValidate
  cases hv : validateHw c.plat k s.seen v with
  | mk r seen' =>
    rw [hv] at h1
    simp only at h1
    subst h1
    exact ⟨_, rfl, rfl, rfl, rfl⟩

/-- non-vacuity: 17 NICs on IOSv are accepted only if the user insists, and then they are set; "0x4" is not a number -/
example (c : EhCtx) (hp : c.plat = .iosv) : ¬ Supported c.plat .nicCount 17 ∧ ¬ ListsCpus c.plat .nicCount ∧
    pyInt "17".toList = some 17 ∧ pyInt "0x4".toList = none ∧
    (c.ask (.badValue .nicCount 17) = true →
      ∃ seen', setCountArg c .nicCount (afterCalls c.plat []) "17".toList = .ok (17, seen')) ∧
    (c.ask (.badValue .nicCount 17) = false →
      ∀ r, setCountArg c .nicCount (afterCalls c.plat []) "17".toList ≠ .ok r) := by
  have hu : ¬ Supported c.plat .nicCount 17 := by rw [hp]; simp [Supported]
  have hi : pyInt "17".toList = some 17 := rfl
  refine ⟨hu, (by rintro ⟨h, -⟩; cases h), hi, rfl, ?_, ?_⟩
  · intro ha
    exact ⟨_, (C82_counts .nicCount _ 17 _ (by simp)).2 ⟨hi, Or.inr ha, rfl⟩⟩
  · rintro ha ⟨n, x⟩ h
    by_cases hn : n = 17
    · subst hn
      obtain ⟨-, h1 | h1, -⟩ := (C82_counts (c := c) (calls := []) .nicCount _ 17 x (by simp)).1 h
      · exact hu h1
      · have : c.ask (.badValue .nicCount ((17 : Nat) : Int)) = false := ha
        rw [this] at h1; cases h1
    · obtain ⟨h1, -⟩ := (C82_counts (c := c) (calls := []) .nicCount _ n x (by simp)).1 h
      rw [hi] at h1
      exact hn (by injection h1 with h1; omega)

end Cot
