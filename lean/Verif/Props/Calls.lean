import Verif.Spec.Calls
import Verif.Lemmas.Dict
/-
C95: running helper programs.  C96: what a helper object answers.  C97: installing packages with apt-get.
-/
namespace Cot

variable {W : Type}

/-! ### Running a program -/

theorem outcome_callStep {ex : Exec W} {require : Bool} {cmd : List Str} {s : PSt W} :
    (callStep ex require none cmd s).2 = ⟨(ex s.w cmd).2, s.log ++ [(cmd, (ex s.w cmd).1)]⟩ ∧
    CmdOutcome require cmd (ex s.w cmd).1 (callStep ex require none cmd s).1 := by
  unfold callStep Exec.run CmdOutcome Fine Blame eNoExec eNoEnt sudoWord
  cases (ex s.w cmd).1 with
  | osError n =>
    simp only [Option.isSome_none, Bool.false_eq_true, false_and, if_false]
    by_cases h1 : n = 8 ∧ cmd.head? = some "sudo".toList
    · rw [if_pos h1]
      exact ⟨rfl, Or.inr ⟨id, _, rfl, Or.inr (Or.inl ⟨h1.1, h1.2, rfl⟩)⟩⟩
    · rw [if_neg h1]
      by_cases h2 : n = 2
      · rw [if_neg (by simpa using h2)]
        exact ⟨rfl, Or.inr ⟨id, _, rfl, Or.inl ⟨h2, rfl⟩⟩⟩
      · rw [if_pos h2]
        exact ⟨rfl, Or.inr ⟨id, _, rfl, Or.inr (Or.inr ⟨h2, h1, rfl⟩)⟩⟩
  | exit c out =>
    simp only
    by_cases h1 : c = 0
    · rw [if_pos h1]
      exact ⟨rfl, Or.inl ⟨Or.inl h1, rfl⟩⟩
    · rw [if_neg h1]
      cases require with
      | false => exact ⟨rfl, Or.inl ⟨Or.inr rfl, rfl⟩⟩
      | true => exact ⟨rfl, Or.inr ⟨by simpa using h1, _, rfl, rfl⟩⟩

theorem callStep_again {ex : Exec W} {require : Bool} {cmd : List Str} {s : PSt W} {f : PSt W → Except Err Unit × PSt W}
    (hd : Denied require (ex s.w cmd).1) :
    callStep ex require (some f) cmd s = f ⟨(ex s.w cmd).2, s.log ++ [(cmd, (ex s.w cmd).1)]⟩ := by
  unfold callStep Exec.run
  revert hd
  cases hx : (ex s.w cmd).1 with
  | osError n =>
    intro hd
    simp only [Option.isSome_some, true_and]
    rw [if_pos (c := n = ePerm ∨ n = eAcces) hd]
  | exit c out =>
    intro hd
    simp only
    rw [if_neg hd.2, if_pos hd.1]

theorem outputStep_again {ex : Exec W} {cmd : List Str} {s : PSt W} {f : PSt W → Except Err Str × PSt W} {c : Int} {out : Str}
    (hx : (ex s.w cmd).1 = .exit c out) (h0 : c ≠ 0) :
    outputStep ex true (some f) cmd s = f ⟨(ex s.w cmd).2, s.log ++ [(cmd, (ex s.w cmd).1)]⟩ := by
  unfold outputStep Exec.run
  rw [hx]
  simp [h0]

/-- **C95 (running a program).** The command is run once, and then once more with `sudo` exactly if that is allowed and the
first attempt failed (with a status that matters, or for lack of permission).  The outcome is that of the last attempt. -/
theorem C95_call {ex : Exec W} {require retry : Bool} {cmd : List Str} {s : PSt W} (hc : cmd ≠ []) :
    (retry = true ∧ Denied require (ex s.w cmd).1 →
      (checkCall ex require retry cmd s).2 =
        ⟨(ex (ex s.w cmd).2 ("sudo".toList :: cmd)).2,
         s.log ++ [(cmd, (ex s.w cmd).1), ("sudo".toList :: cmd, (ex (ex s.w cmd).2 ("sudo".toList :: cmd)).1)]⟩ ∧
      CmdOutcome require ("sudo".toList :: cmd) (ex (ex s.w cmd).2 ("sudo".toList :: cmd)).1 (checkCall ex require retry cmd s).1) ∧
    (¬ (retry = true ∧ Denied require (ex s.w cmd).1) →
      (checkCall ex require retry cmd s).2 = ⟨(ex s.w cmd).2, s.log ++ [(cmd, (ex s.w cmd).1)]⟩ ∧
      CmdOutcome require cmd (ex s.w cmd).1 (checkCall ex require retry cmd s).1) := by
  unfold checkCall
  rw [if_neg hc]
  constructor
  · rintro ⟨rfl, hd⟩
    have key := callStep_again (f := callStep ex require none (sudoWord :: cmd)) hd
    simp only [if_true]
    rw [key]
    have := outcome_callStep (ex := ex) (require := require) (cmd := sudoWord :: cmd)
      (s := ⟨(ex s.w cmd).2, s.log ++ [(cmd, (ex s.w cmd).1)]⟩)
    refine ⟨?_, this.2⟩
    rw [this.1]
    simp [sudoWord]
  · intro hn
    have key : callStep ex require (if retry then some (callStep ex require none (sudoWord :: cmd)) else none) cmd s =
        callStep ex require none cmd s := by
      cases retry with
      | false => rfl
      | true =>
        have hd : ¬ Denied require (ex s.w cmd).1 := fun h => hn ⟨rfl, h⟩
        simp only [if_true]
        unfold callStep Exec.run
        revert hd
        cases hx : (ex s.w cmd).1 with
        | osError n =>
          intro hd
          simp only [Option.isSome_some, true_and]
          rw [if_neg (c := n = ePerm ∨ n = eAcces) hd]
          simp
        | exit c out =>
          intro hd
          simp only
          by_cases h1 : c = 0
          · rw [if_pos h1, if_pos h1]
          · have : require = false := by
              cases require with
              | false => rfl
              | true => exact absurd ⟨rfl, h1⟩ hd
            subst this
            rfl
    rw [key]
    exact outcome_callStep

/-- A program that has to succeed and whose call succeeds has ended with status 0 in its last attempt. -/
theorem C95_success {ex : Exec W} {retry : Bool} {cmd : List Str} {s s' : PSt W} (hc : cmd ≠ [])
    (h : checkCall ex true retry cmd s = (.ok (), s')) :
    ∃ c out pre, RunAs cmd c ∧ s'.log = s.log ++ pre ++ [(c, .exit 0 out)] ∧
      (c ≠ cmd → retry = true) ∧ (c = cmd → pre = []) := by
  have hf : ∀ {c x}, CmdOutcome true c x (.ok ()) → ∃ out, x = .exit 0 out := by
    rintro c x (⟨hf, -⟩ | ⟨-, e, he, -⟩)
    · cases x with
      | osError n => cases hf
      | exit k out => rcases hf with rfl | hf
                      · exact ⟨out, rfl⟩
                      · cases hf
    · cases he
  have key := C95_call (ex := ex) (require := true) (retry := retry) (s := s) hc
  rw [h] at key
  by_cases hd : retry = true ∧ Denied true (ex s.w cmd).1
  · obtain ⟨h1, h2⟩ := key.1 hd
    obtain ⟨out, ho⟩ := hf h2
    rw [ho] at h1
    refine ⟨_, out, [(cmd, (ex s.w cmd).1)], Or.inr rfl, ?_, fun _ => hd.1, ?_⟩
    · simp only at h1; rw [h1]; simp
    · intro hx
      have := congrArg List.length hx
      simp at this
  · obtain ⟨h1, h2⟩ := key.2 hd
    obtain ⟨out, ho⟩ := hf h2
    rw [ho] at h1
    refine ⟨_, out, [], Or.inl rfl, ?_, fun hx => absurd rfl hx, fun _ => rfl⟩
    simp only at h1; rw [h1]; simp

theorem outcome_outputStep {ex : Exec W} {require : Bool} {cmd : List Str} {s : PSt W} :
    (outputStep ex require none cmd s).2 = ⟨(ex s.w cmd).2, s.log ++ [(cmd, (ex s.w cmd).1)]⟩ ∧
    OutcomeText require (ex s.w cmd).1 (outputStep ex require none cmd s).1 := by
  unfold outputStep Exec.run OutcomeText Fine eNoEnt Wrote
  cases (ex s.w cmd).1 with
  | osError n =>
    simp only
    by_cases h2 : n = 2
    · rw [if_neg (by simpa using h2)]
      exact ⟨rfl, Or.inr ⟨id, _, rfl, Or.inl ⟨h2, rfl⟩⟩⟩
    · rw [if_pos h2]
      exact ⟨rfl, Or.inr ⟨id, _, rfl, Or.inr ⟨h2, rfl⟩⟩⟩
  | exit c out =>
    simp only
    by_cases h1 : c = 0
    · rw [if_pos h1]
      exact ⟨rfl, Or.inl ⟨Or.inl h1, _, rfl, Or.inl ⟨h1, rfl⟩⟩⟩
    · rw [if_neg h1]
      cases require with
      | false => exact ⟨rfl, Or.inl ⟨Or.inr rfl, _, rfl, Or.inr ⟨h1, rfl⟩⟩⟩
      | true => exact ⟨rfl, Or.inr ⟨by simpa using h1, _, rfl, rfl⟩⟩

/-- **C95 (running a program for its output).** The same, but there is a second attempt with `sudo` only if the first one
ended with a status that matters. -/
theorem C95_output_partial {ex : Exec W} {require retry : Bool} {cmd : List Str} {s : PSt W} (hc : cmd ≠ []) :
    (retry = true ∧ (∃ c out, (ex s.w cmd).1 = .exit c out ∧ c ≠ 0 ∧ require = true) →
      (checkOutput ex require retry cmd s).2 =
        ⟨(ex (ex s.w cmd).2 ("sudo".toList :: cmd)).2,
         s.log ++ [(cmd, (ex s.w cmd).1), ("sudo".toList :: cmd, (ex (ex s.w cmd).2 ("sudo".toList :: cmd)).1)]⟩ ∧
      OutcomeText require (ex (ex s.w cmd).2 ("sudo".toList :: cmd)).1 (checkOutput ex require retry cmd s).1) ∧
    (¬ (retry = true ∧ (∃ c out, (ex s.w cmd).1 = .exit c out ∧ c ≠ 0 ∧ require = true)) →
      (checkOutput ex require retry cmd s).2 = ⟨(ex s.w cmd).2, s.log ++ [(cmd, (ex s.w cmd).1)]⟩ ∧
      OutcomeText require (ex s.w cmd).1 (checkOutput ex require retry cmd s).1) := by
  unfold checkOutput
  rw [if_neg hc]
  constructor
  · rintro ⟨rfl, c, out, hx, h0, rfl⟩
    have key := outputStep_again (f := outputStep ex true none (sudoWord :: cmd)) hx h0
    simp only [if_true]
    rw [key]
    have := outcome_outputStep (ex := ex) (require := true) (cmd := sudoWord :: cmd)
      (s := ⟨(ex s.w cmd).2, s.log ++ [(cmd, (ex s.w cmd).1)]⟩)
    refine ⟨?_, this.2⟩
    rw [this.1]
    simp [sudoWord]
  · intro hn
    have key : outputStep ex require (if retry then some (outputStep ex require none (sudoWord :: cmd)) else none) cmd s =
        outputStep ex require none cmd s := by
      cases retry with
      | false => rfl
      | true =>
        simp only [if_true]
        unfold outputStep Exec.run
        cases hx : (ex s.w cmd).1 with
        | osError n => rfl
        | exit c out =>
          simp only
          by_cases h1 : c = 0
          · rw [if_pos h1, if_pos h1]
          · have : require = false := by
              cases require with
              | false => rfl
              | true => exact absurd ⟨rfl, c, out, hx, h1, rfl⟩ hn
            subst this
            rfl
    rw [key]
    exact outcome_outputStep

/-! ### Examples -/

/-- a machine where only root may run `apt-get`; `hello` says hello; nothing else exists -/
def exExec : Exec Unit := fun _ cmd =>
  match cmd with
  | c :: r =>
    if c = "apt-get".toList then (.osError 13, ())
    else if c = "sudo".toList then (if r.head? = some "apt-get".toList then (.exit 0 [], ()) else (.exit 1 "no".toList, ()))
    else if c = "hello".toList then (.exit 0 "helló".toList, ())
    else if c = "false".toList then (.exit 1 [], ())
    else (.osError 2, ())
  | [] => (.osError 2, ())

/-- the outcome and the commands that were run -/
def callShape (x : Except Err Unit × PSt Unit) : Option Err × List (List Str) :=
  (match x.1 with | .ok _ => none | .error e => some e, x.2.log.map Prod.fst)

example : callShape (checkCall exExec true true ["apt-get".toList] ⟨(), []⟩) =
    (none, [["apt-get".toList], ["sudo".toList, "apt-get".toList]]) := by decide +kernel
example : callShape (checkCall exExec true false ["apt-get".toList] ⟨(), []⟩) = (some .ioError, [["apt-get".toList]]) := by
  decide +kernel
example : callShape (checkCall exExec true true ["false".toList] ⟨(), []⟩) =
    (some .helperError, [["false".toList], ["sudo".toList, "false".toList]]) := by decide +kernel
example : callShape (checkCall exExec false true ["false".toList] ⟨(), []⟩) = (none, [["false".toList]]) := by decide +kernel
example : callShape (checkCall exExec true true ["nope".toList] ⟨(), []⟩) = (some .helperNotFound, [["nope".toList]]) := by
  decide +kernel
example : (checkOutput exExec true true ["hello".toList] ⟨(), []⟩).1 = .ok "hell".toList := rfl

/-- **C95 fails** for output: lack of permission does not lead to a second attempt, although it is allowed and would
succeed. -/
theorem C95_output_permission_fails : ∃ (ex : Exec Unit) (cmd : List Str),
    (ex () cmd).1 = .osError 13 ∧ (∃ out, (ex () ("sudo".toList :: cmd)).1 = .exit 0 out) ∧
    (checkOutput ex true true cmd ⟨(), []⟩).1 = .error .ioError ∧
    (checkOutput ex true true cmd ⟨(), []⟩).2.log = [(cmd, .osError 13)] :=
  ⟨exExec, ["apt-get".toList], rfl, ⟨[], rfl⟩, rfl, rfl⟩

/-! ### A helper object -/

/-- **C96 (consent).** A program that is not there is installed only if the user agrees; if not, nothing is run. -/
theorem C96_consent {ex : Exec W} {ui : HelperUi W} {h : HelperObj} {require retry : Bool} {args : List Str} {s : PSt W}
    {f : W → Str → Bool} (h1 : ui.found s.w h.name = false) (h2 : ui.confirm = some f) (h3 : f s.w h.name = false) :
    helperOutput ex ui h require retry args s = (.error .helperNotFound, h, s) ∧
    helperCall ex ui h.name require retry args s = (.error .helperNotFound, s) := by
  have : helperReady ui h.name s = (.error .helperNotFound, s) := by
    unfold helperReady
    rw [h1, h2]
    simp [h3]
  unfold helperOutput helperCall
  rw [this]
  exact ⟨rfl, rfl⟩

/-- **C96 (no cache).** A helper that keeps no outputs runs its program each time. -/
theorem C96_uncached {ex : Exec W} {ui : HelperUi W} {h : HelperObj} {require retry : Bool} {args : List Str} {s : PSt W}
    (h1 : ui.found s.w h.name = true) (h2 : h.keeps args = false) (h3 : dget? h.cache args = none) :
    helperOutput ex ui h require retry args s =
      ((checkOutput ex require retry (h.name :: args) s).1, h, (checkOutput ex require retry (h.name :: args) s).2) := by
  unfold helperOutput helperReady
  rw [if_pos h1]
  simp only [h3]
  split
  · rename_i hx; rw [hx]
  · rename_i hx; rw [hx]; simp [h2]

/-- every output that is kept is what an execution of that very command gave -/
def CacheOk (h : HelperObj) (s : PSt W) : Prop :=
  ∀ args out, dget? h.cache args = some out → h.keeps args = true ∧ out ≠ [] ∧ FromRecord s.log (h.name :: args) out

theorem fromRecord_mono {l l' : List (List Str × ProcRes)} {cmd : List Str} {out : Str} (hl : l <+: l')
    (h : FromRecord l cmd out) : FromRecord l' cmd out := by
  obtain ⟨c, x, h1, h2, h3⟩ := h
  exact ⟨c, x, hl.subset h1, h2, h3⟩

theorem checkOutput_record {ex : Exec W} {require retry : Bool} {cmd : List Str} {s s' : PSt W} {r : Except Err Str}
    (hc : cmd ≠ []) (h : checkOutput ex require retry cmd s = (r, s')) :
    s.log <+: s'.log ∧ ∀ out, r = .ok out → FromRecord s'.log cmd out := by
  have key := C95_output_partial (ex := ex) (require := require) (retry := retry) (s := s) hc
  rw [h] at key
  have hf : ∀ {x out}, OutcomeText require x (.ok out) → Wrote x out := by
    rintro x out (⟨-, t, ht, hw⟩ | ⟨-, e, he, -⟩)
    · cases ht; exact hw
    · cases he
  by_cases hd : retry = true ∧ ∃ c out, (ex s.w cmd).1 = .exit c out ∧ c ≠ 0 ∧ require = true
  · obtain ⟨h1, h2⟩ := key.1 hd
    simp only at h1 h2
    refine ⟨by rw [h1]; exact List.prefix_append _ _, ?_⟩
    rintro out rfl
    exact ⟨_, _, by rw [h1]; simp, Or.inr rfl, hf h2⟩
  · obtain ⟨h1, h2⟩ := key.2 hd
    simp only at h1 h2
    refine ⟨by rw [h1]; exact List.prefix_append _ _, ?_⟩
    rintro out rfl
    exact ⟨_, _, by rw [h1]; simp, Or.inl rfl, hf h2⟩

/-- installing a program runs commands, and does not undo any -/
def LogGrows (ui : HelperUi W) : Prop := ∀ n (s : PSt W), s.log <+: (ui.install n s).2.log

theorem helperReady_log {ui : HelperUi W} (hg : LogGrows ui) (n : Str) (s : PSt W) : s.log <+: (helperReady ui n s).2.log := by
  unfold helperReady
  split
  · exact List.prefix_refl _
  · split
    · exact hg n s
    · split
      · exact hg n s
      · exact List.prefix_refl _

theorem helperOutput_inv {ex : Exec W} {ui : HelperUi W} {h h' : HelperObj} {require retry : Bool} {args : List Str}
    {s s' : PSt W} {r : Except Err Str} (hg : LogGrows ui) (hok : CacheOk h s)
    (hr : helperOutput ex ui h require retry args s = (r, h', s')) :
    CacheOk h' s' ∧ h'.name = h.name ∧ h'.keeps = h.keeps ∧ s.log <+: s'.log ∧
      ∀ out, r = .ok out → FromRecord s'.log (h.name :: args) out := by
  have hl := helperReady_log hg h.name s
  unfold helperOutput at hr
  generalize helperReady ui h.name s = q at hl hr
  obtain ⟨qr, s1⟩ := q
  have mono : ∀ {s2 : PSt W}, s.log <+: s2.log → CacheOk h s2 := fun hp a o ho =>
    ⟨(hok a o ho).1, (hok a o ho).2.1, fromRecord_mono hp (hok a o ho).2.2⟩
  cases qr with
  | error e => cases hr; exact ⟨mono hl, rfl, rfl, hl, by simp⟩
  | ok u =>
    simp only at hr hl
    have keep : ∀ {s2 : PSt W} {out}, s.log <+: s2.log → FromRecord s2.log (h.name :: args) out →
        CacheOk { h with cache := if out ≠ [] ∧ h.keeps args then dset h.cache args out else h.cache } s2 := by
      intro s2 out hp hout a o ho
      simp only at ho
      split at ho
      · rename_i hc
        rw [dget?_dset] at ho
        split at ho
        · rename_i ha
          subst ha
          cases ho
          exact ⟨hc.2, hc.1, hout⟩
        · exact mono hp a o ho
      · exact mono hp a o ho
    split at hr
    · rename_i out hout
      cases hr
      have hfr := fromRecord_mono hl (hok _ _ hout).2.2
      exact ⟨keep hl hfr, rfl, rfl, hl, fun o ho => by cases ho; exact hfr⟩
    · split at hr
      · rename_i e s2 hx
        cases hr
        have := checkOutput_record (by simp) hx
        exact ⟨mono (hl.trans this.1), rfl, rfl, hl.trans this.1, by simp⟩
      · rename_i out s2 hx
        cases hr
        have := checkOutput_record (by simp) hx
        exact ⟨keep (hl.trans this.1) (this.2 _ rfl), rfl, rfl, hl.trans this.1, fun o ho => by cases ho; exact this.2 _ rfl⟩

/-- **C96 (answers).** In every history of calls and of other changes to the machine, what a helper object answers is the
output of an execution of that very command, in this call or an earlier one. -/
theorem C96_answers {ex : Exec W} {ui : HelperUi W} {h h' : HelperObj} {s s' : PSt W} {evs : List (HelperEvent W)}
    {as : List (List Str × Except Err Str)} (hg : LogGrows ui) (hc : h.cache = [])
    (hr : HelperRun ex ui h s evs as h' s') :
    ∀ args out, (args, .ok out) ∈ as → FromRecord s'.log (h.name :: args) out := by
  have hok : CacheOk h s := by
    intro a o ho
    rw [hc] at ho
    cases ho
  clear hc
  have : s.log <+: s'.log ∧ ∀ args out, (args, .ok out) ∈ as → FromRecord s'.log (h.name :: args) out := by
    induction hr with
    | done h s => exact ⟨List.prefix_refl _, by simp⟩
    | call h1 _ ih =>
      obtain ⟨k1, k2, k3, k4, k5⟩ := helperOutput_inv hg hok h1
      obtain ⟨i1, i2⟩ := ih k1
      refine ⟨k4.trans i1, ?_⟩
      intro args out hm
      rcases List.mem_cons.1 hm with hm | hm
      · cases hm
        exact fromRecord_mono i1 (k5 _ rfl)
      · rw [← k2]; exact i2 _ _ hm
    | outside _ ih => exact ih hok
  exact this.2

theorem helperRun_kept {ex : Exec W} {ui : HelperUi W} {h h' : HelperObj} {s s' : PSt W} {evs : List (HelperEvent W)}
    {as : List (List Str × Except Err Str)} {args : List Str} {out : Str} (hr : HelperRun ex ui h s evs as h' s')
    (hk : dget? h.cache args = some out) : dget? h'.cache args = some out ∧ h'.name = h.name := by
  induction hr with
  | done h s => exact ⟨hk, rfl⟩
  | @call h s require retry args' r h1 s1 evs as h2 s2 h3 _ ih =>
    have : dget? h1.cache args = some out ∧ h1.name = h.name := by
      unfold helperOutput at h3
      have keep : ∀ o : Str, (args = args' → o = out) →
          dget? (if o ≠ [] ∧ h.keeps args' then dset h.cache args' o else h.cache) args = some out := by
        intro o ho
        split
        · rw [dget?_dset]
          split
          · rename_i ha; rw [ho ha.symm]
          · exact hk
        · exact hk
      split at h3
      · cases h3; exact ⟨hk, rfl⟩
      · split at h3
        · rename_i o hout
          cases h3
          exact ⟨keep o (fun ha => by subst ha; rw [hk] at hout; exact (Option.some.inj hout).symm), rfl⟩
        · rename_i hnone
          split at h3
          · cases h3; exact ⟨hk, rfl⟩
          · cases h3
            exact ⟨keep _ (fun ha => by subst ha; rw [hk] at hnone; cases hnone), rfl⟩
    obtain ⟨i1, i2⟩ := ih this.1
    exact ⟨i1, i2.trans this.2⟩
  | outside _ ih => exact ih hk

/-- **C96 (kept answers).** An answer that is kept is given again, without running the program, whatever happened in
between. -/
theorem C96_kept {ex : Exec W} {ui : HelperUi W} {h h1 h2 : HelperObj} {s s1 s2 : PSt W} {evs : List (HelperEvent W)}
    {as : List (List Str × Except Err Str)} {args : List Str} {out : Str} {require retry require' retry' : Bool}
    (h0 : helperOutput ex ui h require retry args s = (.ok out, h1, s1)) (hkeep : h.keeps args = true) (hne : out ≠ [])
    (hr : HelperRun ex ui h1 s1 evs as h2 s2) (hf : ui.found s2.w h2.name = true) :
    (helperOutput ex ui h2 require' retry' args s2).1 = .ok out ∧ (helperOutput ex ui h2 require' retry' args s2).2.2 = s2 := by
  have hk : dget? h1.cache args = some out := by
    unfold helperOutput at h0
    have hd : dget? (if out ≠ [] ∧ h.keeps args then dset h.cache args out else h.cache) args = some out := by
      rw [if_pos ⟨hne, hkeep⟩, dget?_dset, if_pos rfl]
    split at h0
    · cases h0
    · split at h0
      · cases h0; exact hd
      · split at h0
        · cases h0
        · cases h0; exact hd
  obtain ⟨k1, -⟩ := helperRun_kept hr hk
  unfold helperOutput helperReady
  rw [if_pos hf]
  simp only [k1, and_self]

/-! ### A machine with a disk image -/

/-- `qemu-img info` tells the size of the image, which is the state of the machine -/
def exQemu : Exec Nat := fun n cmd =>
  if cmd.head? = some "qemu-img".toList then (.exit 0 (if n = 1 then "1 GiB".toList else "2 GiB".toList), n) else (.osError 2, n)
def exUi : HelperUi Nat := ⟨fun _ _ => true, none, fun _ s => (.ok (), s)⟩
def qemuObj : HelperObj := ⟨"qemu-img".toList, [], qemuKeeps⟩
def exInfoArgs : List Str := ["info".toList, "disk.vmdk".toList]

example : LogGrows exUi := fun _ _ => List.prefix_refl _

/-- **C96 fails** to tell the present state: after the image has been changed, the old answer is given. -/
theorem C96_stale_fails : ∃ (h1 h2 : HelperObj) (s1 s2 : PSt Nat),
    helperOutput exQemu exUi qemuObj true false exInfoArgs ⟨1, []⟩ = (.ok "1 GiB".toList, h1, s1) ∧
    HelperRun exQemu exUi h1 s1 [.outside (fun _ => 2)] [] h2 s2 ∧
    (exQemu s2.w (h2.name :: exInfoArgs)).1 = .exit 0 "2 GiB".toList ∧
    (helperOutput exQemu exUi h2 true false exInfoArgs s2).1 = .ok "1 GiB".toList :=
  ⟨_, _, _, _, rfl, .outside (.done _ _), rfl, rfl⟩

/-- other calls are made anew -/
example : (helperOutput exQemu exUi qemuObj true false ["convert".toList] ⟨1, []⟩).2.1.cache = [] := rfl

end Cot
