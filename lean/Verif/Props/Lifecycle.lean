import Verif.Model.Lifecycle
import Mathlib.Tactic.SplitIfs
import Mathlib.Tactic.NormNum
/-
C49 (context manager), C53 (verbosity), C63 (exit status and order of steps), C64 (output files).
-/
namespace Cot

/-! ### C49 -/

/-- **C49 (writing).** Used as a context manager, the description is written exactly once if the block succeeded and
never if it raised. -/
theorem C49_written (body write : Outcome) (d : DirState) :
    (withVm body write d).2.count .write = if body = .ok () then 1 else 0 := by
  have hd : (vmDestroy d).2.count .write = 0 := by
    unfold vmDestroy
    split
    · split
      · rfl
      · rfl
      · split <;> rfl
    · rfl
  have ht : (withVm body write d).2 = (match body with | .ok _ => [Ev.write] | .error _ => []) ++ (vmDestroy d).2 := by
    unfold withVm
    rcases hv : vmDestroy d with ⟨_ | _, t⟩ <;> cases body <;> rfl
  rw [ht, List.count_append, hd]
  cases body with
  | error e => rfl
  | ok u => cases u; rfl

/-- **C49 (cleanup).** In every case, also when the block or the writing failed, the working directory is removed
last, if it is there and can be measured. -/
theorem C49_cleanup (body write : Outcome) (d : DirState) (hc : d.created = true) (hp : d.present = true)
    (hm : d.measure = .ok ()) :
    (withVm body write d).2.getLast? = some .rmtree ∧ (withVm body write d).2.count .rmtree = 1 := by
  have hv : (vmDestroy d).2 = [.rmtree] := by
    unfold vmDestroy
    rw [if_pos ⟨hc, hp⟩, hm]
    simp only
    split <;> rfl
  have ht : (withVm body write d).2 = (match body with | .ok _ => [Ev.write] | .error _ => []) ++ (vmDestroy d).2 := by
    unfold withVm
    rcases hv : vmDestroy d with ⟨_ | _, t⟩ <;> cases body <;> rfl
  rw [ht, hv]
  cases body <;> exact ⟨rfl, rfl⟩

/-- **C49 (errors).** If removing the directory works, the error of the block, or else of the writing, comes out
unchanged, and there is no error if there was none. -/
theorem C49_result (body write : Outcome) (d : DirState) (h : (vmDestroy d).1 = .ok ()) :
    (withVm body write d).1 = match body with | .ok _ => write | .error e => .error e := by
  unfold withVm
  rcases hv : vmDestroy d with ⟨x, t⟩
  rw [hv] at h
  simp only at h
  subst h
  cases body <;> rfl

/-- **C49 (loading).** When loading a package fails with an error (other than an interruption), the working directory
is removed as well and the error comes out. -/
theorem C49_load (e : Exn) (d : DirState) (hc : d.created = true) (hp : d.present = true)
    (hm : d.measure = .ok ()) (he : e ≠ .interrupt ∧ e ≠ .exitMsg ∧ ∀ n, e ≠ .exit n) :
    (vmInit (.error e) d).2 = [.rmtree] ∧ (d.remove = .ok () → (vmInit (.error e) d).1 = .error e) := by
  have hv : vmDestroy d = (match d.remove with
      | .error .attribute => (.ok (), [.rmtree])
      | .error e => (.error e, [.rmtree])
      | .ok _ => (.ok (), [.rmtree])) := by
    unfold vmDestroy
    rw [if_pos ⟨hc, hp⟩, hm]
    cases d.remove with
    | ok u => rfl
    | error x => cases x <;> rfl
  have hi : vmInit (.error e) d = match vmDestroy d with
      | (.error e', t) => (.error e', t)
      | (.ok _, t) => (.error e, t) := by
    obtain ⟨h1, h2, h3⟩ := he
    cases e with
    | interrupt => exact absurd rfl h1
    | exitMsg => exact absurd rfl h2
    | exit n => exact absurd rfl (h3 n)
    | _ => rfl
  rw [hi, hv]
  constructor
  · cases hr : d.remove with
    | ok u => rfl
    | error x => cases x <;> rfl
  · intro hr
    rw [hr]

example : withVm (.error .other) (.ok ()) { created := true, present := true, measure := .ok (), remove := .ok () } =
    (.error .other, [.rmtree]) := rfl
example : withVm (.ok ()) (.error .notImplemented) { created := true, present := true, measure := .ok (), remove := .ok () } =
    (.error .notImplemented, [.write, .rmtree]) := rfl

/-! ### C53 -/

/-- **C53.** The level is always one of the eight, the default is NOTICE, and raising the adjustment never gives a
quieter level (a higher number). -/
theorem C53_verbosity :
    (∀ d, adjustVerbosity d ∈ [50, 40, 30, 25, 20, 15, 10, 5]) ∧ adjustVerbosity 0 = 25 ∧
    (∀ d e, d ≤ e → adjustVerbosity e ≤ adjustVerbosity d) ∧
    (∀ d, d ≤ -3 → adjustVerbosity d = 50) ∧ (∀ d, 4 ≤ d → adjustVerbosity d = 5) ∧
    (∀ d, -3 ≤ d → d < 4 → adjustVerbosity (d + 1) < adjustVerbosity d) := by
  have hlo : ∀ d, d ≤ -3 → adjustVerbosity d = 50 := by
    intro d hd
    unfold adjustVerbosity
    have e : (verbosityLevels.idxOf 25 : Int) = 3 := by decide
    simp only [e]
    by_cases h : 3 + d < 0
    · rw [if_pos h]; rfl
    · have : d = -3 := by omega
      subst this; decide
  have hhi : ∀ d, 4 ≤ d → adjustVerbosity d = 5 := by
    intro d hd
    unfold adjustVerbosity
    have e : (verbosityLevels.idxOf 25 : Int) = 3 := by decide
    have e2 : (verbosityLevels.length : Int) = 8 := by decide
    simp only [e, e2]
    rw [if_neg (by omega)]
    by_cases h : 3 + d ≥ 8
    · rw [if_pos h]; rfl
    · have : d = 4 := by omega
      subst this; decide
  have hmid : ∀ d : Int, -3 ≤ d → d ≤ 4 → d = -3 ∨ d = -2 ∨ d = -1 ∨ d = 0 ∨ d = 1 ∨ d = 2 ∨ d = 3 ∨ d = 4 := by omega
  have hstep : ∀ d, -3 ≤ d → d < 4 → adjustVerbosity (d + 1) < adjustVerbosity d := by
    intro d h1 h2
    rcases hmid d h1 (by omega) with h | h | h | h | h | h | h | h <;> subst h <;> first | decide | omega
  have hmono1 : ∀ d, adjustVerbosity (d + 1) ≤ adjustVerbosity d := by
    intro d
    by_cases h1 : d < -3
    · rw [hlo d (by omega), hlo (d + 1) (by omega)]
    · by_cases h2 : d < 4
      · exact le_of_lt (hstep d (by omega) h2)
      · rw [hhi d (by omega), hhi (d + 1) (by omega)]
  refine ⟨?_, by decide, ?_, hlo, hhi, hstep⟩
  · intro d
    by_cases h1 : d ≤ -3
    · rw [hlo d h1]; decide
    · by_cases h2 : 4 ≤ d
      · rw [hhi d h2]; decide
      · rcases hmid d (by omega) (by omega) with h | h | h | h | h | h | h | h <;> subst h <;> decide
  · intro d e hde
    obtain ⟨k, rfl⟩ := Int.le.dest hde
    induction k with
    | zero => simp
    | succ k ih =>
      have := hmono1 (d + k)
      have e1 : d + ((k + 1 : Nat) : Int) = d + (k : Int) + 1 := by push_cast; omega
      rw [e1]
      exact le_trans this (ih (by omega))

/-! ### C63 -/

/-- **C63 (order).** A command is run only if its arguments were accepted, its result is written out (`finished`) only
if running succeeded, and the command is always cleaned up, once, at the end. -/
theorem C63_order (attrs run finished destroy : Outcome) :
    (cliMain attrs run finished destroy).2 =
      [.attrs] ++ (if attrs = .ok () then [Ev.run] ++ (if run = .ok () then [.finished] else []) else []) ++ [.destroy] := by
  unfold cliMain andThen
  cases attrs with
  | error e => cases destroy <;> rfl
  | ok u =>
    cases u
    cases run with
    | error e => cases destroy <;> rfl
    | ok u => cases u; cases destroy <;> rfl

/-- an error whose number, if it has one, becomes a non-zero exit status -/
def Exn.Telling : Exn → Prop
  | .env (some n) _ => n % 256 ≠ 0
  | .exit n => n % 256 ≠ 0
  | _ => True

/-- **C63 (exit status).** The exit status is zero exactly if accepting the arguments, running, finishing and cleaning
up all succeeded — provided no error has a number that is a multiple of 256. -/
theorem C63_status_partial (attrs run finished destroy : Outcome)
    (h : ∀ x ∈ [attrs, run, finished, destroy], ∀ e, x = .error e → e.Telling) :
    exitStatus (cliMain attrs run finished destroy).1 = 0 ↔
      attrs = .ok () ∧ run = .ok () ∧ finished = .ok () ∧ destroy = .ok () := by
  have hs : ∀ e : Exn, e.Telling → exitStatus (.error e) ≠ 0 := by
    intro e he
    cases e <;> first | exact he | (intro hh; exact absurd (show (1 : Int) = 0 from hh) (by decide))
  have hh : ∀ e : Exn, e.Telling → (handled e).Telling := by
    intro e he
    cases e with
    | env n _ => cases n with
      | none => show (1 : Int) % 256 ≠ 0; decide
      | some n => exact he
    | invalidInput => show (2 : Int) % 256 ≠ 0; decide
    | valueMismatch => show (2 : Int) % 256 ≠ 0; decide
    | _ => exact he
  simp only [List.mem_cons, List.not_mem_nil, or_false, forall_eq_or_imp, forall_eq] at h
  obtain ⟨h1, h2, h3, h4⟩ := h
  unfold cliMain andThen
  cases destroy with
  | error e =>
    simp only
    exact ⟨fun hx => absurd hx (hs e (h4 e rfl)), fun hx => by cases hx.2.2.2⟩
  | ok u =>
    cases u
    cases attrs with
    | error e => exact ⟨fun hx => absurd hx (hs _ (hh e (h1 e rfl))), fun hx => by cases hx.1⟩
    | ok u =>
      cases u
      cases run with
      | error e => exact ⟨fun hx => absurd hx (hs _ (hh e (h2 e rfl))), fun hx => by cases hx.2.1⟩
      | ok u =>
        cases u
        cases finished with
        | error e => exact ⟨fun hx => absurd hx (hs _ (hh e (h3 e rfl))), fun hx => by cases hx.2.2.1⟩
        | ok u => cases u; exact ⟨fun _ => ⟨rfl, rfl, rfl, rfl⟩, fun _ => rfl⟩

/-- **C63 (input errors).** Errors in what the user asked for give status 2; missing functionality and interruption
give status 1. -/
theorem C63_codes (e : Exn) (destroyed : Outcome) (hd : destroyed = .ok ()) (run fin : Outcome) (x : Outcome)
    (hx : x = (cliMain (.error e) run fin destroyed).1 ∨ x = (cliMain (.ok ()) (.error e) fin destroyed).1 ∨
      x = (cliMain (.ok ()) (.ok ()) (.error e) destroyed).1) :
    (e = .invalidInput ∨ e = .valueMismatch → exitStatus x = 2) ∧
    (e = .notImplemented ∨ e = .interrupt ∨ e = .eof ∨ e = .other ∨ e = .exitMsg → exitStatus x = 1) ∧
    (∀ n f, e = .env (some n) f → exitStatus x = n % 256) := by
  have : x = .error (handled e) := by
    subst hd
    rcases hx with rfl | rfl | rfl <;> rfl
  subst this
  refine ⟨?_, ?_, ?_⟩
  · rintro (rfl | rfl) <;> rfl
  · rintro (rfl | rfl | rfl | rfl | rfl) <;> rfl
  · rintro n f rfl; rfl

/-- An error numbered 0 or 256 would be reported as success. -/
theorem C63_zero_errno_fails : exitStatus (cliMain (.ok ()) (.error (.env (some 256) false)) (.ok ()) (.ok ())).1 = 0 := by
  decide

example : cliMain (.ok ()) (.error (.env (some 2) true)) (.ok ()) (.ok ()) = (.error (.exit 2), [.attrs, .run, .destroy]) := rfl

/-! ### C64 -/

/-- The path was found absent, or the user agreed to overwrite it. -/
def Cleared (evs : List CmdEv) (p : Str) : Prop := .absent p ∈ evs ∨ .agreed p ∈ evs

/-- every output path in the state was cleared -/
def OutputsCleared (evs : List CmdEv) (s : CmdState) : Prop :=
  (s.output ≠ [] → Cleared evs s.output) ∧ (∀ p, s.vm = some p → p ≠ [] → Cleared evs p)

theorem Cleared.mono {a b : List CmdEv} {p : Str} (h : Cleared a p) : Cleared (a ++ b) p := by
  rcases h with h | h
  · exact Or.inl (List.mem_append_left _ h)
  · exact Or.inr (List.mem_append_left _ h)

theorem OutputsCleared.mono {a : List CmdEv} {s : CmdState} (h : OutputsCleared a s) (b : List CmdEv) :
    OutputsCleared (a ++ b) s := ⟨fun hh => (h.1 hh).mono, fun p h1 h2 => (h.2 p h1 h2).mono⟩

theorem storeOutput_cleared {w : CmdWorld} {s : CmdState} {v : Str} {past evs : List CmdEv}
    (h : OutputsCleared past s) (hv : v ≠ [] → Cleared evs v) :
    OutputsCleared (past ++ (storeOutput w s v evs).2.2) (storeOutput w s v evs).2.1 := by
  have hv' : v ≠ [] → Cleared (past ++ evs) v := by
    intro hh
    rcases hv hh with h' | h'
    · exact Or.inl (List.mem_append_right _ h')
    · exact Or.inr (List.mem_append_right _ h')
  unfold storeOutput
  cases hvm : s.vm with
  | none => exact ⟨hv', fun p hp => by cases hp⟩
  | some q =>
    simp only
    split_ifs
    · exact ⟨hv', fun p hp hne => (h.2 p (hvm.trans hp) hne).mono⟩
    · exact ⟨hv', fun p hp hne => by cases hp; exact hv' hne⟩

theorem setOutput_cleared {w : CmdWorld} {s : CmdState} {v : Str} {past : List CmdEv} (h : OutputsCleared past s) :
    OutputsCleared (past ++ (setOutput w s v).2.2) (setOutput w s v).2.1 := by
  unfold setOutput
  simp only
  generalize (if v ≠ [] then absPath w.cwd v else v) = x
  split_ifs with h1 h2 h3 h4 h5 h6 h7
  · exact h.mono _
  · exact storeOutput_cleared h (fun hh => absurd h2 hh)
  · exact h.mono _
  · exact storeOutput_cleared h (fun _ => Or.inr (List.mem_cons_self ..))
  · exact h.mono _
  · exact h.mono _
  · exact h.mono _
  · exact storeOutput_cleared h (fun _ => Or.inl (List.mem_cons_self ..))

theorem cmdStep_cleared {w : CmdWorld} {s : CmdState} {op : CmdOp} {past : List CmdEv} (h : OutputsCleared past s) :
    OutputsCleared (past ++ (cmdStep w s op).2.2) (cmdStep w s op).2.1 := by
  cases op with
  | setOutput v => exact setOutput_cleared h
  | setPackage p =>
    show OutputsCleared (past ++ (setPackage w s p).2.2) (setPackage w s p).2.1
    unfold setPackage
    cases p with
    | none => exact OutputsCleared.mono (s := { s with vm := none, package := none }) ⟨h.1, fun q hq => by cases hq⟩ _
    | some p =>
      simp only
      split_ifs
      · exact h.mono _
      · exact OutputsCleared.mono (s := { s with vm := none }) ⟨h.1, fun q hq => by cases hq⟩ _
      · exact OutputsCleared.mono (s := { s with vm := some s.output, package := some p }) ⟨h.1, fun q hq hne => by cases hq; exact h.1 hne⟩ _
  | run =>
    show OutputsCleared (past ++ (cmdRun w s).2.2) (cmdRun w s).2.1
    unfold cmdRun
    cases s.package with
    | none => exact h.mono _
    | some p =>
      simp only
      split_ifs
      · exact h.mono _
      · exact setOutput_cleared h
      · exact h.mono _
  | finished =>
    show OutputsCleared (past ++ (cmdFinished w s).2.2) (cmdFinished w s).2.1
    unfold cmdFinished
    cases s.vm with
    | none => exact h.mono _
    | some p =>
      simp only
      split_ifs <;> exact h.mono _

theorem cmdSteps_cleared {p : Str} {b : List CmdEv} : ∀ (ops : List (CmdOp × CmdWorld)) (past a : List CmdEv) (s : CmdState),
    OutputsCleared past s → (cmdSteps s ops).2 = a ++ .wrote p :: b → Cleared (past ++ a) p
  | [], past, a, s, _, he => by
    have := congrArg List.length he
    simp [cmdSteps] at this
  | (op, w) :: rest, past, a, s, h, he => by
    have hs := cmdStep_cleared (w := w) (op := op) h
    have he' : (cmdStep w s op).2.2 ++ (cmdSteps (cmdStep w s op).2.1 rest).2 = a ++ .wrote p :: b := he
    rcases List.append_eq_append_iff.1 he' with ⟨c, h1, h2⟩ | ⟨c, h1, h2⟩
    · -- written later
      rw [h1, ← List.append_assoc]
      exact cmdSteps_cleared rest _ c _ hs h2
    · cases c with
      | nil =>
        simp only [List.append_nil, List.nil_append] at h1 h2
        have := cmdSteps_cleared (a := []) rest _ _ hs h2.symm
        rw [h1] at this
        simpa using this
      | cons x c =>
        simp only [List.cons_append, List.cons.injEq] at h2
        -- written by this step: only `finished` writes
        obtain ⟨rfl, -⟩ := h2
        have hw : CmdEv.wrote p ∈ (cmdStep w s op).2.2 := by rw [h1]; simp
        have hvm : s.vm = some p ∧ p ≠ [] := by
          have hst : ∀ v evs, CmdEv.wrote p ∈ (storeOutput w s v evs).2.2 → CmdEv.wrote p ∈ evs := by
            intro v evs hh
            unfold storeOutput at hh
            cases hvm : s.vm <;> rw [hvm] at hh
            · exact hh
            · simp only at hh; split_ifs at hh <;> exact hh
          have hso : ∀ v, CmdEv.wrote p ∉ (setOutput w s v).2.2 := by
            intro v hh
            unfold setOutput at hh
            simp only at hh
            generalize (if v ≠ [] then absPath w.cwd v else v) = y at hh
            split_ifs at hh
            · cases hh
            · cases hst _ _ hh
            · cases hh
            · have := hst _ _ hh; simp at this
            · cases hh
            · cases hh
            · cases hh
            · have := hst _ _ hh; simp at this
          cases op with
          | setOutput v => exact absurd hw (hso v)
          | setPackage q =>
            exfalso
            have hw' : CmdEv.wrote p ∈ (setPackage w s q).2.2 := hw
            unfold setPackage at hw'
            cases q with
            | none => cases hw'
            | some q => simp only at hw'; split_ifs at hw' <;> cases hw'
          | run =>
            exfalso
            have hw' : CmdEv.wrote p ∈ (cmdRun w s).2.2 := hw
            unfold cmdRun at hw'
            cases hp : s.package with
            | none => rw [hp] at hw'; cases hw'
            | some q =>
              rw [hp] at hw'
              simp only at hw'
              split_ifs at hw'
              · cases hw'
              · exact hso q hw'
              · cases hw'
          | finished =>
            have hw' : CmdEv.wrote p ∈ (cmdFinished w s).2.2 := hw
            unfold cmdFinished at hw'
            cases hp : s.vm with
            | none => rw [hp] at hw'; cases hw'
            | some q =>
              rw [hp] at hw'
              simp only at hw'
              split_ifs at hw' with g1 g2
              · cases hw'
              · cases hw'
              · simp only [List.mem_singleton, CmdEv.wrote.injEq] at hw'
                exact ⟨by rw [hw'], by rw [hw']; exact g2⟩
        exact (h.2 p hvm.1 hvm.2).mono

/-- **C64 (consent).** Whatever a program does with a command — choosing packages and outputs, running and finishing
it in any order, going on after errors — a file is written only after it was found not to exist when it was chosen,
or after the user agreed to its being overwritten. -/
theorem C64_consent (ops : List (CmdOp × CmdWorld)) (p : Str) (a b : List CmdEv)
    (h : (cmdSteps cmdNew ops).2 = a ++ .wrote p :: b) : .absent p ∈ a ∨ .agreed p ∈ a := by
  have := cmdSteps_cleared ops [] a cmdNew ⟨fun hh => absurd rfl hh, fun q hq => by cases hq⟩ h
  simpa [Cleared] using this

/-- **C64 (refusal).** If the user refuses, the program is ended and nothing is changed. -/
theorem C64_refused_partial (w : CmdWorld) (s : CmdState) (v : Str) (hv : v ≠ []) (hne : absPath w.cwd v ≠ s.output)
    (hne2 : absPath w.cwd v ≠ [])
    (hx : w.exists_ (absPath w.cwd v) = true) (hf : w.isFile (absPath w.cwd v) = true)
    (ha : w.agrees (absPath w.cwd v) = false) : setOutput w s v = (.error .systemExit, s, []) := by
  unfold setOutput
  simp [hv, hne, hne2, hx, hf, ha]

/-- **C64 (default).** A command run without an output writes over its package — after asking. -/
theorem C64_default (w : CmdWorld) (s : CmdState) (p : Str) (h1 : s.package = some p) (h2 : s.output = [])
    (h3 : w.ready = true) : cmdRun w s = setOutput w s p := by
  unfold cmdRun
  rw [h1]
  simp [h2, h3]

def cmdWorld0 : CmdWorld where
  cwd := "/w".toList
  exists_ := fun p => p = "/w/a.ova".toList || p = "/w".toList
  isFile := fun p => p = "/w/a.ova".toList
  isDir := fun p => p = "/w".toList
  agrees := fun _ => true
  loads := fun _ => true
  typeOk := fun p => pathExt p = ".ova".toList
  space := true
  ready := true

example : cmdSteps cmdNew [(.setPackage (some "/w/a.ova".toList), cmdWorld0), (.run, cmdWorld0), (.finished, cmdWorld0)] =
    ({ output := "/w/a.ova".toList, package := some "/w/a.ova".toList, vm := some "/w/a.ova".toList },
     [.agreed "/w/a.ova".toList, .wrote "/w/a.ova".toList]) := by rfl

/-- The output recorded by the command and the one its VM is written to can come apart: an unsupported name is refused,
but remembered; given again, it is accepted without a word, and the VM is written to the earlier output. -/
theorem C64_in_step_fails :
    let s : CmdState := { output := "/w/b.ova".toList, package := some "/w/a.ova".toList, vm := some "/w/b.ova".toList }
    let s1 := (setOutput cmdWorld0 s "c.txt".toList).2.1
    (setOutput cmdWorld0 s "c.txt".toList).1 = .error .valueUnsupported ∧
    setOutput cmdWorld0 s1 "c.txt".toList = (.ok (), s1, []) ∧ s1.output = "/w/c.txt".toList ∧
    (cmdFinished cmdWorld0 s1).2.2 = [.wrote "/w/b.ova".toList] := ⟨rfl, rfl, rfl, rfl⟩

end Cot
