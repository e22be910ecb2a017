import Verif.Spec.Logging
import Verif.Spec.EhCommand
import Verif.Props.Lifecycle
import Verif.Props.Argparse
/-
C126: what is shown of the messages that COT logs, for every history of a process.
-/
namespace Cot

/-! ### The levels -/

/-- the adjustments that matter -/
theorem adjust_cases (d : Int) : (d ≤ -3 ∧ adjustVerbosity d = 50) ∨ (d = -2 ∧ adjustVerbosity d = 40) ∨ (d = -1 ∧ adjustVerbosity d = 30) ∨
    (d = 0 ∧ adjustVerbosity d = 25) ∨ (d = 1 ∧ adjustVerbosity d = 20) ∨ (d = 2 ∧ adjustVerbosity d = 15) ∨ (d = 3 ∧ adjustVerbosity d = 10) ∨
    (4 ≤ d ∧ adjustVerbosity d = 5) := by
  obtain ⟨-, -, -, h1, h2, -⟩ := C53_verbosity
  rcases lt_or_ge (-3 : Int) d with h | h
  · rcases lt_or_ge d 4 with h' | h'
    · have : d = -2 ∨ d = -1 ∨ d = 0 ∨ d = 1 ∨ d = 2 ∨ d = 3 := by omega
      rcases this with rfl | rfl | rfl | rfl | rfl | rfl <;> decide
    · simp only [h2 d h', h', and_self, or_true]
  · exact .inl ⟨h, h1 d h⟩

theorem isShown_iff (d : Int) (l : LogLevel) : IsShown d l ↔ ¬ l.num < adjustVerbosity d := by
  have key : ∀ n : Nat, levelsInOrder[n]? = some l ↔ n = (match l with
      | .critical => 0 | .error => 1 | .warning => 2 | .notice => 3 | .info => 4 | .verbose => 5 | .debug => 6 | .spam => 7) := by
    intro n
    rcases lt_or_ge n 8 with h | h
    · have : n = 0 ∨ n = 1 ∨ n = 2 ∨ n = 3 ∨ n = 4 ∨ n = 5 ∨ n = 6 ∨ n = 7 := by omega
      rcases this with rfl | rfl | rfl | rfl | rfl | rfl | rfl | rfl <;> cases l <;> simp [levelsInOrder]
    · have : levelsInOrder[n]? = none := List.getElem?_eq_none h
      rw [this]
      cases l <;> simp <;> omega
  unfold IsShown
  simp only [key]
  rcases adjust_cases d with ⟨h, h'⟩ | ⟨h, h'⟩ | ⟨h, h'⟩ | ⟨h, h'⟩ | ⟨h, h'⟩ | ⟨h, h'⟩ | ⟨h, h'⟩ | ⟨h, h'⟩ <;> rw [h'] <;> cases l <;>
    simp [LogLevel.num] <;> omega

theorem format_line (k : LogColours) (d : Int) (r : LogRecord) : LineFor k d r (formatRecord k (adjustVerbosity d) r) := by
  unfold LineFor formatRecord lineParts
  rcases adjust_cases d with ⟨h, h'⟩ | ⟨rfl, h'⟩ | ⟨rfl, h'⟩ | ⟨rfl, h'⟩ | ⟨rfl, h'⟩ | ⟨rfl, h'⟩ | ⟨rfl, h'⟩ | ⟨h, h'⟩ <;> rw [h']
  · rw [if_pos (show d ≤ 0 by omega)]; rfl
  · rfl
  · rfl
  · rfl
  · rfl
  · rfl
  · rfl
  · rw [if_neg (show ¬ d ≤ 0 by omega), if_neg (show ¬ d = 1 by omega), if_neg (show ¬ d = 2 by omega)]; rfl

/-! ### The handlers -/

/-- the handlers of the logger are those of the CLI objects that have one, each once -/
structure LogInv (p : LogProc) : Prop where
  made : ∀ i h, (p.clis i).handler = some h → h < p.log.made.length
  master : ∀ i, (p.clis i).master = (p.clis i).handler.isSome
  own : ∀ i j h, (p.clis i).handler = some h → (p.clis j).handler = some h → i = j
  nodup : p.log.attached.Nodup
  all : ∀ h, h ∈ p.log.attached ↔ ∃ i, (p.clis i).handler = some h

theorem logInv_fresh {p : LogProc} (hp : FreshProc p) : LogInv p := by
  obtain ⟨h1, h2⟩ := hp
  refine ⟨?_, ?_, ?_, ?_, ?_⟩
  · intro i h h'; rw [(h2 i).1] at h'; cases h'
  · intro i; rw [(h2 i).1, (h2 i).2]; rfl
  · intro i j h h'; rw [(h2 i).1] at h'; cases h'
  · rw [h1]; exact List.nodup_nil
  · intro h
    rw [h1]
    constructor
    · intro h'; cases h'
    · rintro ⟨i, h'⟩; rw [(h2 i).1] at h'; cases h'

/-- what `set_verbosity` leaves: the object has a handler, with this level -/
theorem setVerbosity_inv {p : LogProc} (hp : LogInv p) (i level : Nat) : ∃ h s, setVerbosity p.log (p.clis i) level = (s, ⟨some h, true⟩) ∧
    s.level = level ∧ s.made[h]? = some ⟨level, level⟩ ∧
    LogInv ⟨s, fun j => if j = i then ⟨some h, true⟩ else p.clis j⟩ := by
  cases hh : (p.clis i).handler with
  | some h =>
    have hm : (p.clis i).master = true := by rw [hp.master i, hh]; rfl
    have hlt := hp.made i h hh
    refine ⟨h, _, by simp only [setVerbosity, ensureHandler, hh]; rfl, ?_, ?_, ?_⟩
    · rfl
    · simp only [hm, if_true]
      rw [List.getElem?_set_self hlt]
    · simp only [hm, if_true]
      have hc : (fun j => if j = i then (⟨some h, true⟩ : CliLog) else p.clis j) = p.clis := by
        funext j
        by_cases hj : j = i
        · subst hj
          rw [if_pos rfl]
          cases hx : p.clis j with
          | mk a b =>
            rw [hx] at hh hm
            simp only at hh hm
            rw [hh, hm]
        · rw [if_neg hj]
      rw [hc]
      refine ⟨?_, hp.master, hp.own, hp.nodup, hp.all⟩
      intro j x hx
      simp only [List.length_set]
      exact hp.made j x hx
  | none =>
    have hm : (p.clis i).master = false := by rw [hp.master i, hh]; rfl
    have hnew : p.log.made.length ∉ p.log.attached := by
      intro h
      obtain ⟨j, hj⟩ := (hp.all _).1 h
      exact absurd (hp.made j _ hj) (lt_irrefl _)
    refine ⟨p.log.made.length, _, by simp only [setVerbosity, ensureHandler, hh]; rfl, ?_, ?_, ?_⟩
    · rfl
    · simp only [hm]
      simp
    · simp only [hm, Bool.false_eq_true, if_false, if_neg hnew]
      refine ⟨?_, ?_, ?_, ?_, ?_⟩
      · intro j x hx
        simp only [List.length_set, List.length_append, List.length_singleton]
        dsimp only at hx
        split at hx
        · cases hx; omega
        · exact Nat.lt_succ_of_lt (hp.made j x hx)
      · intro j
        dsimp only
        split
        · rfl
        · exact hp.master j
      · intro a b x ha hb
        dsimp only at ha hb
        split at ha <;> split at hb
        · rename_i h1 h2; rw [h1, h2]
        · cases ha; exact absurd (hp.made b _ hb) (lt_irrefl _)
        · cases hb; exact absurd (hp.made a _ ha) (lt_irrefl _)
        · exact hp.own a b x ha hb
      · rw [List.nodup_append]
        refine ⟨hp.nodup, List.nodup_singleton _, ?_⟩
        intro a ha b hb hab
        rw [List.mem_singleton] at hb
        rw [hab, hb] at ha
        exact hnew ha
      · intro x
        rw [List.mem_append, List.mem_singleton, hp.all]
        constructor
        · rintro (⟨j, hj⟩ | rfl)
          · refine ⟨j, ?_⟩
            have : j ≠ i := by rintro rfl; rw [hh] at hj; cases hj
            dsimp only
            rw [if_neg this]
            exact hj
          · exact ⟨i, by dsimp only; rw [if_pos rfl]⟩
        · rintro ⟨j, hj⟩
          dsimp only at hj
          split at hj
          · cases hj; exact .inr rfl
          · exact .inl ⟨j, hj⟩

/-- what a run leaves -/
theorem run_inv (k : LogColours) {p : LogProc} (hp : LogInv p) (i : Nat) (d : Int) (rs : List LogRecord) (e : RunEnd) :
    LogInv (logStep k p (.run i d rs e)).2 ∧ (∀ j ≠ i, (logStep k p (.run i d rs e)).2.clis j = p.clis j) ∧
    (e = .regular → ((logStep k p (.run i d rs e)).2.clis i).handler = none) := by
  obtain ⟨h, s, h1, h2, h3, h4⟩ := setVerbosity_inv hp i (adjustVerbosity d)
  refine ⟨?_, ?_, ?_⟩
  · cases e with
    | early => simp only [logStep, mainLog, h1]; exact h4
    | destroyFails => simp only [logStep, mainLog, h1]; exact h4
    | regular =>
      simp only [logStep, mainLog, h1, detach, if_true]
      have hi : ((⟨s, fun j => if j = i then ⟨some h, true⟩ else p.clis j⟩ : LogProc).clis i).handler = some h := by dsimp only; rw [if_pos rfl]
      have hne : ∀ j x, j ≠ i → (p.clis j).handler = some x → ((⟨s, fun j => if j = i then ⟨some h, true⟩ else p.clis j⟩ : LogProc).clis j).handler = some x := by
        intro j x hj hx
        dsimp only
        rw [if_neg hj]
        exact hx
      refine ⟨?_, ?_, ?_, h4.nodup.erase _, ?_⟩
      · intro j x hx
        dsimp only at hx ⊢
        split at hx
        · cases hx
        · rename_i hj; exact h4.made j x (hne j x hj hx)
      · intro j
        dsimp only
        split
        · rfl
        · exact hp.master j
      · intro a b x ha hb
        dsimp only at ha hb
        split at ha
        · cases ha
        · split at hb
          · cases hb
          · exact hp.own a b x ha hb
      · intro x
        rw [h4.nodup.mem_erase_iff, h4.all]
        constructor
        · rintro ⟨hx, j, hj⟩
          refine ⟨j, ?_⟩
          dsimp only at hj ⊢
          split at hj
          · cases hj; exact absurd rfl hx
          · rename_i hji; rw [if_neg hji]; exact hj
        · rintro ⟨j, hj⟩
          dsimp only at hj
          split at hj
          · cases hj
          · rename_i hji
            refine ⟨?_, j, hne j x hji hj⟩
            rintro rfl
            exact hji (h4.own j i x (hne j x hji hj) hi)
  · intro j hj
    simp only [logStep]
    rw [if_neg hj]
  · rintro rfl
    simp only [logStep, mainLog, h1, detach, if_true]

theorem logAfter_snoc (k : LogColours) (h : List LogEvent) (e : LogEvent) (p : LogProc) :
    logAfter k p (h ++ [e]) = (logStep k (logAfter k p h) e).2 := by
  induction h generalizing p with
  | nil => rfl
  | cons a r ih => exact ih _

/-- after any history: the invariant, and no handler of an object whose last run ended well -/
theorem after_inv (k : LogColours) {p : LogProc} (hp : FreshProc p) (h : List LogEvent) :
    LogInv (logAfter k p h) ∧ ∀ j, EndsWell j h → ((logAfter k p h).clis j).handler = none := by
  induction h using List.reverseRecOn with
  | nil => exact ⟨logInv_fresh hp, fun j _ => (hp.2 j).1⟩
  | append_singleton h e ih =>
    rw [logAfter_snoc]
    obtain ⟨ih1, ih2⟩ := ih
    have hprev : ∀ j, (∀ d rs x, e ≠ .run j d rs x) → EndsWell j (h ++ [e]) → EndsWell j h := by
      intro j hne hw a d rs x b heq hb
      refine hw a d rs x (b ++ [e]) (by rw [heq]; simp) ?_
      intro d' rs' x' hm
      rw [List.mem_append, List.mem_singleton] at hm
      rcases hm with hm | hm
      · exact hb _ _ _ hm
      · exact hne _ _ _ hm.symm
    cases e with
    | between rs =>
      refine ⟨ih1, fun j hw => ih2 j (hprev j (by intro _ _ _ h; cases h) hw)⟩
    | run i d rs x =>
      obtain ⟨r1, r2, r3⟩ := run_inv k ih1 i d rs x
      refine ⟨r1, fun j hw => ?_⟩
      by_cases hj : j = i
      · subst hj
        exact r3 (hw h d rs x [] rfl (by intro _ _ _ h; cases h))
      · rw [r2 j hj]
        refine ih2 j (hprev j ?_ hw)
        intro d' rs' x' heq
        cases heq
        exact hj rfl

/-! ### C126 -/

/-- **C126.** After any history of a process, in a run of a CLI object every message is shown exactly once, if it is important enough for the
verbosity asked for in this run, and else not at all; and the line has the parts that go with this verbosity.  The runs before may have
been of any object, with any verbosity, and may have ended in any way; only the last run of each other object must have ended in the
regular way. -/
theorem C126_once_partial (k : LogColours) {p : LogProc} (hp : FreshProc p) (h : List LogEvent) (i : Nat) (d : Int) (rs : List LogRecord)
    (e : RunEnd) (hw : ∀ j ≠ i, EndsWell j h) :
    List.Forall₂ (ShownOnce k d) rs (logStep k (logAfter k p h) (.run i d rs e)).1 := by
  obtain ⟨h1, h2⟩ := after_inv k hp h
  obtain ⟨n, s, s1, s2, s3, s4⟩ := setVerbosity_inv h1 i (adjustVerbosity d)
  have hat : s.attached = [n] := by
    have hn := s4.nodup
    have hall : ∀ x, x ∈ s.attached ↔ x = n := by
      intro x
      rw [s4.all]
      constructor
      · rintro ⟨j, hj⟩
        dsimp only at hj
        split at hj
        · cases hj; rfl
        · rename_i hji
          rw [h2 j (hw j hji)] at hj
          cases hj
      · rintro rfl
        exact ⟨i, by dsimp only; rw [if_pos rfl]⟩
    have hperm : s.attached.Perm [n] := (List.perm_ext_iff_of_nodup hn (List.nodup_singleton _)).2 (by intro x; rw [List.mem_singleton]; exact hall x)
    exact List.perm_singleton.1 hperm
  simp only [logStep, mainLog, s1]
  rw [List.forall₂_map_right_iff, List.forall₂_same]
  intro r _
  unfold ShownOnce emit
  rw [isShown_iff, s2, hat]
  by_cases hlt : r.level.num < adjustVerbosity d
  · exact .inr ⟨not_not_intro hlt, by rw [if_pos hlt]⟩
  · refine .inl ⟨hlt, _, ?_, format_line k d r⟩
    rw [if_neg hlt]
    simp only [List.filterMap_cons, s3, if_neg hlt, List.filterMap_nil]

/-- **C126 (after the runs).** Once the last run of every CLI object has ended in the regular way, COT shows no messages any more. -/
theorem C126_after (k : LogColours) {p : LogProc} (hp : FreshProc p) (h : List LogEvent) (hw : ∀ j, EndsWell j h) (rs : List LogRecord) :
    ∀ out ∈ (logStep k (logAfter k p h) (.between rs)).1, out = [] := by
  obtain ⟨h1, h2⟩ := after_inv k hp h
  have hat : (logAfter k p h).log.attached = [] := by
    rw [List.eq_nil_iff_forall_not_mem]
    intro x hx
    obtain ⟨j, hj⟩ := (h1.all x).1 hx
    rw [h2 j (hw j)] at hj
    cases hj
  intro out ho
  obtain ⟨r, -, rfl⟩ := List.mem_map.1 ho
  unfold emit
  rw [hat]
  split <;> rfl

/-- **C126 is false for several objects**: after a run without a command (a usage error), every message of a run of another CLI object in the
same process is shown twice. -/
theorem C126_twice_fails : ∃ (k : LogColours) (p : LogProc) (h : List LogEvent) (r : LogRecord) (l : Str), FreshProc p ∧
    (logStep k (logAfter k p h) (.run 1 0 [r] .regular)).1 = [[l, l]] := by
  refine ⟨⟨fun _ => [], []⟩, ⟨⟨0, [], []⟩, fun _ => {}⟩, [.run 0 0 [] .early], ⟨.warning, [], 0, [], 0, [], "text".toList⟩, _,
    ⟨rfl, fun _ => ⟨rfl, rfl⟩⟩, rfl⟩

/-! ### The command line -/

theorem useCount {gus : List ArgUse} (hg : ∀ u ∈ gus, u.opt ∈ mainParser.opts) {fl : String} {dest : Str}
    (h : ∀ o ∈ mainParser.opts, o.dest = dest ↔ fl.toList ∈ o.flags) : (usesFor dest gus).length = (withFlag fl gus).length := by
  unfold usesFor withFlag
  rw [List.length_map]
  congr 1
  apply List.filter_congr
  intro u hu
  rw [decide_eq_decide]
  exact h _ (hg u hu)

/-- `-q` -/
def exQuiet : ArgOpt := { flags := ["-q".toList, "--quiet".toList], dest := "_quietude".toList, num := .zero, act := .count, group := 1 }

/-- **C126 (command line).** The verbosity of a run is the number of `-v` less the number of `-q` on its command line, in whatever way they are
written; and not both may be given. -/
theorem C126_flags_partial {c : SubCommand} (hc : PlainCommand c) {name : Str} (hn : name = c.title ∨ name ∈ c.aliases) {g l : List Str}
    {gus us : List ArgUse} {ws : List Str} (hg : CmdLine mainParser g gus []) (hl : CmdLine c.parser l us ws)
    (hp : ∀ u ∈ gus ++ us, ¬ OnlyPrints u.opt) (ha : ClearFor mainParser l) {ns : ArgSpace} (h : cotParse (g ++ name :: l) = .ok ns) :
    verbosityDelta ns = .ok ((withFlag "-v" gus).length - (withFlag "-q" gus).length) ∧
    ((withFlag "-v" gus).length = 0 ∨ (withFlag "-q" gus).length = 0) := by
  obtain ⟨m1, m2⟩ := C120_means_partial hc hn hg hl hp ha
  by_cases hr : NoConflict gus ∧ RightLine c.parser us ws
  · obtain ⟨ns', k1, -, k2, -, -⟩ := m1 hr
    rw [h] at k1
    cases k1
    have hmem : ∀ u ∈ gus, u.opt ∈ mainParser.opts := fun u hu => (uses_ok (by decide +kernel) hg u hu).1
    have e1 := useCount hmem (fl := "-v") (dest := "_verbosity".toList) (by decide +kernel)
    have e2 := useCount hmem (fl := "-q") (dest := "_quietude".toList) (by decide +kernel)
    obtain ⟨v1, w1, o1⟩ := k2.opts exVerbose (by decide +kernel) (by simp [OnlyPrints, exVerbose])
    obtain ⟨v2, w2, o2⟩ := k2.opts exQuiet (by decide +kernel) (by simp [OnlyPrints, exQuiet])
    have o1 : v1 = .one (.int (usesFor "_verbosity".toList gus).length) := o1
    have o2 : v2 = .one (.int (usesFor "_quietude".toList gus).length) := o2
    have w1 : dget? ns "_verbosity".toList = some v1 := w1
    have w2 : dget? ns "_quietude".toList = some v2 := w2
    refine ⟨?_, ?_⟩
    · unfold verbosityDelta
      rw [w1, w2, o1, o2, e1, e2]
    · by_contra hcon
      rw [not_or] at hcon
      have hv : ∃ u ∈ gus, "-v".toList ∈ u.opt.flags := by
        obtain ⟨x, hx⟩ := List.exists_mem_of_length_pos (Nat.pos_of_ne_zero hcon.1)
        obtain ⟨u, hu, -⟩ := List.mem_map.1 hx
        rw [List.mem_filter] at hu
        exact ⟨u, hu.1, of_decide_eq_true hu.2⟩
      have hq : ∃ u ∈ gus, "-q".toList ∈ u.opt.flags := by
        obtain ⟨x, hx⟩ := List.exists_mem_of_length_pos (Nat.pos_of_ne_zero hcon.2)
        obtain ⟨u, hu, -⟩ := List.mem_map.1 hx
        rw [List.mem_filter] at hu
        exact ⟨u, hu.1, of_decide_eq_true hu.2⟩
      obtain ⟨u, hu, fu⟩ := hv
      obtain ⟨w, hw, fw⟩ := hq
      have tab : ∀ o ∈ mainParser.opts, ∀ o' ∈ mainParser.opts, "-v".toList ∈ o.flags → "-q".toList ∈ o'.flags →
          o.group ≠ 0 ∧ o.group = o'.group ∧ o.flags ≠ o'.flags := by decide +kernel
      obtain ⟨t1, t2, t3⟩ := tab _ (hmem u hu) _ (hmem w hw) fu fw
      have hne : u ≠ w := by rintro rfl; exact t3 rfl
      have : Std.Symm (fun u w : ArgUse => u.opt.group ≠ 0 → u.opt.group = w.opt.group → u.opt.flags = w.opt.flags) :=
        ⟨fun a b hab h0 hg => (hab (by rw [← hg]; exact h0) hg.symm).symm⟩
      exact t3 (List.Pairwise.forall hr.1 hu hw hne t1 t2)
  · rw [m2 hr] at h
    cases h

/-! ### Examples -/

def exColours : LogColours := ⟨fun _ => "<".toList, ">".toList⟩
def exProc : LogProc := ⟨⟨30, [], []⟩, fun _ => {}⟩
def exRecord (l : LogLevel) : LogRecord := ⟨l, "12:00:00".toList, 7, "xml_file".toList, 42, "write".toList, "text".toList⟩
/-- an object runs with `-vvv` and ends early, another one runs regularly, and something is logged in between -/
def exHistory : List LogEvent := [.run 0 3 [exRecord .debug] .early, .run 1 0 [] .regular, .between [exRecord .error]]

/-- after an early end of object 0 and a regular run of object 1, object 0 runs with `-v`: INFO is shown with the module, VERBOSE not -/
example : List.Forall₂ (ShownOnce exColours 1) [exRecord .info, exRecord .verbose]
      (logStep exColours (logAfter exColours exProc exHistory) (.run 0 1 [exRecord .info, exRecord .verbose] .regular)).1 ∧
    (logStep exColours (logAfter exColours exProc exHistory) (.run 0 1 [exRecord .info, exRecord .verbose] .regular)).1 =
      [["<INFO    : xml_file        :> text".toList], []] := by
  refine ⟨C126_once_partial exColours ⟨rfl, fun _ => ⟨rfl, rfl⟩⟩ exHistory 0 1 _ _ ?_, by decide +kernel⟩
  intro j hj a d rs e b heq hb
  have hm : LogEvent.run j d rs e ∈ exHistory := by rw [heq]; simp
  simp only [exHistory, List.mem_cons, List.not_mem_nil, or_false, LogEvent.run.injEq, reduceCtorEq] at hm
  rcases hm with ⟨rfl, -⟩ | ⟨-, -, -, rfl⟩
  · exact absurd rfl hj
  · rfl

/-- two regular runs, then nothing is shown of a message -/
example : (logStep exColours (logAfter exColours exProc [.run 0 3 [] .regular, .run 1 0 [] .regular]) (.between [exRecord .error])).1 = [[]] := by
  have h := C126_after exColours (p := exProc) ⟨rfl, fun _ => ⟨rfl, rfl⟩⟩ [.run 0 3 [] .regular, .run 1 0 [] .regular] (by
    intro j a d rs e b heq hb
    have hm : LogEvent.run j d rs e ∈ [LogEvent.run 0 3 [] .regular, .run 1 0 [] .regular] := by rw [heq]; simp
    simp only [List.mem_cons, List.not_mem_nil, or_false, LogEvent.run.injEq] at hm
    rcases hm with ⟨-, -, -, rfl⟩ | ⟨-, -, -, rfl⟩ <;> rfl) [exRecord .error]
  rw [show (logStep exColours (logAfter exColours exProc [.run 0 3 [] .regular, .run 1 0 [] .regular]) (.between [exRecord .error])).1 =
    [emit exColours _ (exRecord .error)] from rfl] at h ⊢
  rw [h _ (List.mem_singleton.2 rfl)]

/-- `cot -vfv edit-hardware …`: the verbosity is 2 -/
example : ∃ ns, cotParse (["-vfv".toList] ++ "edit-hardware".toList ::
      ["a.ovf".toList, "--nic-names".toList, "x".toList, "y".toList, "--nic-na".toList, "z".toList, "--nics".toList ++ '=' :: "2".toList,
        "-o".toList, "b.ovf".toList]) = .ok ns ∧ verbosityDelta ns = .ok 2 := by
  have hp : ∀ u ∈ [(⟨exVerbose, []⟩ : ArgUse), ⟨exForce, []⟩, ⟨exVerbose, []⟩] ++ [⟨exNames, ["x".toList, "y".toList]⟩, ⟨exNames, ["z".toList]⟩,
      ⟨exNics, ["2".toList]⟩, ⟨outputOpt, ["b.ovf".toList]⟩], ¬ OnlyPrints u.opt := by
    simp [OnlyPrints, exVerbose, exForce, exNames, exNics, outputOpt, flagOpt, listOpt, textOpt]
  obtain ⟨ns, h1, -⟩ := (C120_means_partial exPlain (.inl rfl) exFlags (exLine "2".toList) hp (exClear _ (.inl rfl))).1
    ⟨by simp [NoConflict, exVerbose, exForce, flagOpt], exRight⟩
  refine ⟨ns, h1, ?_⟩
  rw [(C126_flags_partial exPlain (.inl rfl) exFlags (exLine "2".toList) hp (exClear _ (.inl rfl)) h1).1]
  rfl

end Cot
