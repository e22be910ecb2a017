import Verif.Props.ValidateHw
import Verif.Props.PackageSearch
/-
C88, cases: hardware that passes the check and hardware that does not, and what goes wrong.
-/
namespace Cot

/-- two CPUs, 4 GiB, three NICs -/
def exVhHwL : List (Str × List (Str × Str)) :=
  [("1".toList, [("InstanceID".toList, "1".toList), ("ResourceType".toList, "3".toList), ("VirtualQuantity".toList, "2".toList)]),
   ("2".toList, [("InstanceID".toList, "2".toList), ("ResourceType".toList, "4".toList), ("VirtualQuantity".toList, "4096".toList),
     ("AllocationUnits".toList, "byte * 2^20".toList)]),
   ("3".toList, [("InstanceID".toList, "3".toList), ("ResourceType".toList, "10".toList)]),
   ("4".toList, [("InstanceID".toList, "4".toList), ("ResourceType".toList, "10".toList)]),
   ("5".toList, [("InstanceID".toList, "5".toList), ("ResourceType".toList, "10".toList)])]

def exVhHw : Hw := exVhHwL.map (fun kv => (kv.1, simpleItem kv.2))

theorem exVhHw_wf : HwWF exEnv exVhHw := simpleHw_wf exEnv (by decide +kernel) (by
  have : ∀ kl ∈ exVhHwL, (dkeys kl.2).Nodup ∧ (∀ ns ∈ kl.2, ns.2 ≠ [] ∧ ns.1 ≠ resourceSubType) ∧
      dget? kl.2 (instanceId exEnv.ver) = some kl.1 := by decide +kernel
  intro id l h
  obtain ⟨h1, h2, h3⟩ := this _ h
  exact ⟨h1, fun n s hm => h2 _ hm, h3⟩)

/-- what came out: the result and the warnings, or the error -/
def vhOut (r : Except Err (Bool × List HwWarning)) : Option Err × Bool × List HwWarning :=
  match r with
  | .ok (b, ws) => (none, b, ws)
  | .error e => (some e, false, [])

theorem vhOut_ok {r : Except Err (Bool × List HwWarning)} {b : Bool} {ws : List HwWarning} (h : vhOut r = (none, b, ws)) :
    r = .ok (b, ws) := by
  cases r with
  | ok x => obtain ⟨_, _⟩ := x; simp only [vhOut, Prod.mk.injEq, true_and] at h; rw [h.1, h.2]
  | error e => simp [vhOut] at h

theorem vhOut_error {r : Except Err (Bool × List HwWarning)} {e : Err} {b : Bool} {ws : List HwWarning}
    (h : vhOut r = (some e, b, ws)) : r = .error e := by
  cases r with
  | ok x => obtain ⟨_, _⟩ := x; simp [vhOut] at h
  | error e' => simp only [vhOut, Prod.mk.injEq, Option.some.injEq] at h; rw [h.1]

/-- this hardware suits a CSR 1000V under both profiles -/
example : ∀ p, IsProfile exEnv p → Fits exEnv .csr exVhHw p :=
  (C88_result (py := .py3) exVhHw_wf (vhOut_ok (ws := []) (by decide +kernel))).1 rfl

/-- and an IOSv has only one CPU and at most 3 GiB: both are reported, once -/
example : validateHardware exEnv .py3 .iosv exVhHw (afterCalls .iosv []) =
    .ok (false, [.value pX .cpus 2, .value pX .memory 4096]) := vhOut_ok (by decide +kernel)

example : ¬ ∀ p, IsProfile exEnv p → Fits exEnv .iosv exVhHw p := by
  intro h
  have := (C88_result (py := .py3) (b := false) (ws := [.value pX .cpus 2, .value pX .memory 4096]) exVhHw_wf
    (vhOut_ok (by decide +kernel))).2 h
  cases this

theorem reads_everywhere {t : Tab} {v : Val} {p : Prof} (h : t = [(v, {none})]) : Reads t p v := by
  subst h
  have he : Explicit [(v, ({none} : PSet))] none v := ⟨{none}, by simp, by simp⟩
  by_cases hp : p = none
  · subst hp; exact Or.inl he
  · refine Or.inr ⟨?_, he⟩
    rintro w ⟨S, hS, hm⟩
    simp only [List.mem_singleton, Prod.mk.injEq] at hS
    rw [hS.2] at hm
    exact hp (by simpa using hm)

/-- the hardware is stated properly -/
example : PlainHardware exEnv exVhHw pX where
  cpuIds := by
    have : ∀ kv ∈ exVhHw, ∀ kw ∈ exVhHw, OfType kv.2 "3".toList → OfType kw.2 "3".toList → kv.1 = kw.1 := by
      decide +kernel
    exact fun id id' it it' h h' h1 h2 _ _ => this (id, it) (dget?_mem h) (id', it') (dget?_mem h') h1 h2
  memIds := by
    have : ∀ kv ∈ exVhHw, ∀ kw ∈ exVhHw, OfType kv.2 "4".toList → OfType kw.2 "4".toList → kv.1 = kw.1 := by
      decide +kernel
    exact fun id id' it it' h h' h1 h2 _ _ => this (id, it) (dget?_mem h) (id', it') (dget?_mem h') h1 h2
  cpus := fun _ _ => ⟨2, _, "2".toList, ⟨⟨"1".toList, rfl⟩, by decide +kernel, by decide +kernel⟩,
    reads_everywhere rfl, by decide +kernel⟩
  memory := fun _ _ => ⟨4294967296, _, "4096".toList, ⟨⟨"2".toList, rfl⟩, by decide +kernel, by decide +kernel⟩,
    reads_everywhere rfl, Or.inl ⟨"byte * 2^20".toList,
      reads_everywhere rfl, by decide +kernel⟩⟩

/-! ### What goes wrong -/

/-- two CPU items -/
def exVhTwo : Hw := exVhHw ++ [("6".toList, simpleItem [("InstanceID".toList, "6".toList), ("ResourceType".toList, "3".toList),
  ("VirtualQuantity".toList, "1".toList)])]

/-- **C88 fails** for a package with two CPU items: the check, which should only warn, raises a LookupError; it is made
whenever the descriptor is written, so nothing can be written. -/
theorem C88_two_cpus_fails : validateHardware exEnv .py3 .generic exVhTwo (afterCalls .generic []) = .error .lookupError :=
  vhOut_error (b := false) (ws := []) (by decide +kernel)

/-- a CPU item without a quantity -/
def exVhNoQuantity : Hw := [("1".toList, simpleItem [("InstanceID".toList, "1".toList), ("ResourceType".toList, "3".toList)])]

/-- **C88 fails** for a CPU item without VirtualQuantity: a TypeError (`int(None)`). -/
theorem C88_no_quantity_fails :
    validateHardware exEnv .py3 .generic exVhNoQuantity (afterCalls .generic []) = .error .typeError :=
  vhOut_error (b := false) (ws := []) (by decide +kernel)

/-- 64 CPUs -/
def exVhMany : Hw := [("1".toList, simpleItem [("InstanceID".toList, "1".toList), ("ResourceType".toList, "3".toList),
  ("VirtualQuantity".toList, "64".toList)])]

/-- **C88 fails** for a second profile: what is unsupported is reported for the first profile that has it and not for
the others. -/
theorem C88_second_profile_fails : ∃ ws, validateHardware exEnv .py3 .nxosv exVhMany (afterCalls .nxosv []) = .ok (false, ws) ∧
    IsProfile exEnv pY ∧ HasCpus exEnv exVhMany pY 64 ∧ ¬ Supported .nxosv .cpus 64 ∧ .value pY .cpus 64 ∉ ws := by
  refine ⟨[.value pX .cpus 64], vhOut_ok (by decide +kernel), Or.inl ⟨"y".toList, by decide, rfl⟩,
    ⟨_, "64".toList, ⟨⟨"1".toList, rfl⟩, by decide +kernel, by decide +kernel⟩,
    reads_everywhere rfl, by decide +kernel⟩, by simp [Supported], by decide⟩

/-- **C88 fails** for values that the same command has already asked about: edit-hardware has the number of CPUs checked,
so the check on writing says that the hardware is sane. -/
theorem C88_asked_before_fails : validateHardware exEnv .py3 .nxosv exVhMany (afterCalls .nxosv [(.cpus, 64)]) = .ok (true, []) ∧
    HasCpus exEnv exVhMany pX 64 ∧ ¬ Supported .nxosv .cpus 64 := by
  refine ⟨vhOut_ok (by decide +kernel), ⟨_, "64".toList, ⟨⟨"1".toList, rfl⟩, by decide +kernel, by decide +kernel⟩,
    reads_everywhere rfl, by decide +kernel⟩, by simp [Supported]⟩

/-- a NIC that exists only under profile x, of a type that a Nexus 9000v does not support -/
def exVhNic : Hw := [("1".toList, { ns := rasd, modified := false, props := [("InstanceID".toList, [(.str "1".toList, {pX})]),
  ("ResourceType".toList, [(.str "10".toList, {pX})]), ("ResourceSubType".toList, [(.tup ["virtio".toList], {pX})])] })]

/-- **C88 fails** for the types of NICs: a profile without any NIC is reported for the type of a NIC of another one. -/
theorem C88_nic_types_fails : ∃ ws, validateHardware exEnv .py3 .iosv exVhNic (afterCalls .iosv []) = .ok (false, ws) ∧
    .nicTypes pY ∈ ws ∧ ∀ kv ∈ exVhNic, kv.2.hasProfile exEnv pY = false :=
  ⟨[.nicTypes pX, .nicTypes pY], vhOut_ok (by decide +kernel), by decide, by decide +kernel⟩

end Cot
