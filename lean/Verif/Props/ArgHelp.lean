import Verif.Props.Argparse
/-
C120: help flags of `deploy`, `info` and `help`.
-/
namespace Cot

/-- what the actions of flags come to, with at most words between them -/
theorem flags_prints {P : ArgParser} (hP : OptsOk P) (hz : ∀ o ∈ P.opts, o.num = .zero) (hgz : ∀ o ∈ P.opts, OnlyPrints o → o.group = 0)
    {us a b : List ArgUse} {u : ArgUse} (huo : ∀ u ∈ us, u.opt ∈ P.opts ∧ FitsNum u.opt.num u.vals) (hus : us = a ++ u :: b)
    (hpa : ∀ x ∈ a, ¬ OnlyPrints x.opt) (hu : OnlyPrints u.opt) {evs : List (ArgOpt × List Str)} (h1 : evs.filter fromOpt = useActs us)
    (h2 : ∀ e ∈ evs, fromOpt e = false → PosAct P e) :
    (NoConflict a → takeActs evs ⟨P.defaults, [], [], none⟩ = .error (stopOf u.opt)) ∧
    (¬ NoConflict a → takeActs evs ⟨P.defaults, [], [], none⟩ = .error .usage) := by
  have hga : ∀ x ∈ a, x.Good := by
    intro x hx s hs
    obtain ⟨ho, hv⟩ := huo x (by rw [hus]; exact List.mem_append_left _ hx)
    rw [hz _ ho] at hv
    have hv : x.vals = [] := hv
    unfold ArgUse.texts at hs
    rw [if_neg (by simp [hz _ ho]), hv] at hs
    cases hs
  obtain ⟨g1, g2⟩ := acts_prints hP hgz huo hus hpa hu h1 h2
  exact ⟨fun h => g1 ⟨hga, h⟩, fun h => g2 (fun hh => h hh.2)⟩

theorem useActs_opts {us : List ArgUse} (h : ∀ u ∈ us, u.opt.flags ≠ []) : (useActs us).filter fromOpt = useActs us ∧
    (useActs us).filter (fun x => !fromOpt x) = [] := by
  rw [List.filter_eq_self, List.filter_eq_nil_iff]
  constructor
  · intro e he
    obtain ⟨u, hu, rfl⟩ := List.mem_map.1 he
    simpa [fromOpt] using h u hu
  · intro e he
    obtain ⟨u, hu, rfl⟩ := List.mem_map.1 he
    simpa [fromOpt] using h u hu

/-- flags that come first, one of which prints a text -/
theorem argParse_first_prints {P : ArgParser} (hP : OptsOk P) (hS : ShortFlags P) (hz : ∀ o ∈ P.opts, o.num = .zero)
    (hgz : ∀ o ∈ P.opts, OnlyPrints o → o.group = 0) {g : List Str} {gus a b : List ArgUse} {u : ArgUse} (hg : CmdLine P g gus [])
    (hus : gus = a ++ u :: b) (hpa : ∀ x ∈ a, ¬ OnlyPrints x.opt) (hu : OnlyPrints u.opt) {l : List Str} (hl : ClearFor P l) :
    (NoConflict a → argParse P (g ++ l) = .error (stopOf u.opt)) ∧ (¬ NoConflict a → argParse P (g ++ l) = .error .usage) := by
  have hF := hP.flags
  obtain ⟨tg, t1, t2, -⟩ := tokLine_of hF hg
  obtain ⟨tl, t3⟩ := argToks_ok hF hS hl
  have huo := uses_ok (fun o ho => (hP.opts o ho).norest) hg
  obtain ⟨f1, f2⟩ := useActs_opts (fun u hu => (hP.opts u.opt (huo u hu).1).flags)
  obtain ⟨g1, g2⟩ := flags_prints hP hz hgz huo hus hpa hu f1 (fun e he hf => by
    have : e ∈ (useActs gus).filter (fun x => !fromOpt x) := List.mem_filter.2 ⟨he, by simp [hf]⟩
    rw [f2] at this
    cases this)
  have hparse : argParse P (g ++ l) = match takeActs (useActs gus) ⟨P.defaults, [], [], none⟩ with
      | .error e => .error e
      | .ok st => argLoop P (tl.length + 1) tl P.pos st := by
    unfold argParse
    rw [argToks_append (noDashes_of hF hg) t1 t3]
    dsimp only
    have hlen : (tg ++ tl).length + 1 = tg.length + (tl.length + 1) := by
      simp only [List.length_append]
      omega
    rw [hlen, tokLine_length t2 (fun u hu => hz _ (huo u hu).1)]
    cases takeActs (useActs gus) ⟨P.defaults, [], [], none⟩ <;> rfl
  constructor
  · intro hc
    rw [hparse, g1 hc]
  · intro hc
    rw [hparse, g2 hc]

/-- flags, words, and flags one of which prints a text -/
theorem argParse_after_prints {P : ArgParser} {p : ArgOpt} (hP : OptsOk P) (hS : ShortFlags P) (hz : ∀ o ∈ P.opts, o.num = .zero)
    (hgz : ∀ o ∈ P.opts, OnlyPrints o → o.group = 0) (hpos : P.pos = [p]) (hplus : p.num = .plus) {a b ws l : List Str}
    {ua ub x y : List ArgUse} {u : ArgUse} (ha : CmdLine P a ua []) (hb : CmdLine P b ub []) (hws : ∀ w ∈ ws, Word w) (hne : ws ≠ [])
    (hub : ub = x ++ u :: y) (hpa : ∀ v ∈ ua ++ x, ¬ OnlyPrints v.opt) (hu : OnlyPrints u.opt) (hl : ClearFor P l) :
    (NoConflict (ua ++ x) → argParse P (a ++ ws ++ (b ++ l)) = .error (stopOf u.opt)) ∧
    (¬ NoConflict (ua ++ x) → argParse P (a ++ ws ++ (b ++ l)) = .error .usage) := by
  have hF := hP.flags
  obtain ⟨ta, a1, a2, -⟩ := tokLine_of hF ha
  obtain ⟨tb, b1, b2, -⟩ := tokLine_of hF hb
  obtain ⟨tl, l1⟩ := argToks_ok hF hS hl
  have hnr : ∀ o ∈ P.opts, o.num ≠ .rest := fun o ho => (hP.opts o ho).norest
  have huo : ∀ u ∈ ua ++ ub, u.opt ∈ P.opts ∧ FitsNum u.opt.num u.vals := by
    intro u hu
    rcases List.mem_append.1 hu with hu | hu
    · exact uses_ok hnr ha u hu
    · exact uses_ok hnr hb u hu
  have hfl : ∀ u ∈ ua ++ ub, u.opt.flags ≠ [] := fun u hu => (hP.opts u.opt (huo u hu).1).flags
  have hpp : p ∈ P.pos := by rw [hpos]; exact List.mem_singleton.2 rfl
  obtain ⟨q1, q2, q3, q4, q5⟩ := hP.pos p hpp
  have hval : argValues p (dropDashes ws) = .ok (.list (ws.map (fun w => .one (.text w)))) := by
    rw [dropDashes_words hws]
    unfold argValues
    rw [hplus]
    cases ws with
    | nil => exact absurd rfl hne
    | cons w ws =>
      dsimp only
      rw [argAtoms_text q2 q3]
      simp
  obtain ⟨fa1, fa2⟩ := useActs_opts (fun u hu => hfl u (List.mem_append_left ub hu))
  obtain ⟨fb1, fb2⟩ := useActs_opts (fun u hu => hfl u (List.mem_append_right ua hu))
  have hpf : fromOpt (p, ws) = false := by simp [fromOpt, q1]
  set evs : List (ArgOpt × List Str) := useActs ua ++ ((p, ws) :: useActs ub) with hevs
  have e1 : evs.filter fromOpt = useActs (ua ++ ub) := by
    rw [hevs, List.filter_append, fa1, List.filter_cons_of_neg (by simp [hpf]), fb1]
    simp [useActs]
  have e2 : evs.filter (fun x => !fromOpt x) = [(p, ws)] := by
    rw [hevs, List.filter_append, fa2, List.filter_cons_of_pos (by simp [hpf]), fb2]
    rfl
  have e3 : ∀ e ∈ evs, fromOpt e = false → PosAct P e := by
    intro e he hf
    have : e ∈ evs.filter (fun x => !fromOpt x) := List.mem_filter.2 ⟨he, by simp [hf]⟩
    rw [e2, List.mem_singleton] at this
    subst this
    refine ⟨hpp, by simp [hplus], .list (ws.map (fun w => .one (.text w))), ?_⟩
    unfold evArgs
    dsimp only
    rw [if_pos q1]
    exact hval
  obtain ⟨g1, g2⟩ := flags_prints hP hz hgz huo (show ua ++ ub = (ua ++ x) ++ u :: y by rw [hub]; simp) hpa hu e1 e3
  obtain ⟨hat, hopt⟩ := tokLine_front b2
  have htb : tb ≠ [] := by
    rintro rfl
    generalize ([] : List Str) = z at b2
    cases b2
    cases x <;> cases hub
  have hopt : tb.any ArgTok.isOpt = true := hopt.resolve_left htb
  have hat : AtOption (tb ++ tl) := by
    cases tb with
    | nil => exact absurd rfl htb
    | cons t r => exact hat
  have htoks : argToks P (a ++ ws ++ (b ++ l)) = .ok (ta ++ (ws.map .plain ++ (tb ++ tl))) := by
    rw [List.append_assoc]
    exact argToks_append (noDashes_of hF ha) a1 (argToks_words_only hF hws (argToks_append (noDashes_of hF hb) b1 l1))
  have hparse : ∀ e, takeActs evs ⟨P.defaults, [], [], none⟩ = .error e → argParse P (a ++ ws ++ (b ++ l)) = .error e := by
    intro e he
    unfold argParse
    rw [htoks]
    dsimp only
    cases ws with
    | nil => exact absurd rfl hne
    | cons w ws =>
      have hlen : (ta ++ ((w :: ws).map ArgTok.plain ++ (tb ++ tl))).length + 1 =
          ta.length + ((tb.length + (tl.length + ws.length + 1)) + 1) := by
        simp only [List.length_append, List.length_map, List.length_cons]
        omega
      rw [hevs, takeActs_append] at he
      rw [hlen, tokLine_length a2 (fun u hu => hz _ (huo u (List.mem_append_left _ hu)).1)]
      cases h1 : takeActs (useActs ua) ⟨P.defaults, [], [], none⟩ with
      | error e' =>
        rw [h1] at he
        cases he
        rfl
      | ok st =>
        rw [h1] at he
        dsimp only at he ⊢
        have hmp : matchPartial P.pos (.plain w :: (ws.map .plain ++ (tb ++ tl))) = ([(p, w :: ws)], [], tb ++ tl) := by
          rw [hpos]
          have hm : matchPos p.num (.plain w :: (ws.map .plain ++ (tb ++ tl))) = some (w :: ws, tb ++ tl) := by
            rw [hplus]
            simp only [matchPos, dashRun, plainDashRun_words hat, List.nil_append]
          rw [matchPartial_some hm]
          rfl
        rw [List.map_cons, List.cons_append, argLoop_word rfl (by simp only [List.any_cons, List.any_append, hopt]; simp), hmp]
        dsimp only
        have hs : takeActs ((p, w :: ws) :: useActs ub) st = match takeActs [(p, w :: ws)] st with
            | .error e => .error e
            | .ok st' => takeActs (useActs ub) st' := takeActs_append [(p, w :: ws)] (useActs ub) st
        rw [hs] at he
        cases h2 : takeActs [(p, w :: ws)] st with
        | error e' =>
          rw [h2] at he
          cases he
          rfl
        | ok st1 =>
          rw [h2] at he
          dsimp only at he ⊢
          rw [if_pos (by simp only [List.length_cons, List.length_append, List.length_map]; omega),
            tokLine_length b2 (fun u hu => hz _ (huo u (List.mem_append_right _ hu)).1), he]
  exact ⟨fun h => hparse _ (g1 h), fun h => hparse _ (g2 h)⟩

/-- flags, one word, and flags one of which prints a text -/
theorem argParse_word_prints {P : ArgParser} {p : ArgOpt} (hP : OptsOk P) (hS : ShortFlags P) (hz : ∀ o ∈ P.opts, o.num = .zero)
    (hgz : ∀ o ∈ P.opts, OnlyPrints o → o.group = 0) (hpp : p ∈ P.pos) (hpn : p.num = .one ∨ p.num = .opt)
    {a b l : List Str} {w : Str} {q : List ArgOpt}
    {ua ub x y : List ArgUse} {u : ArgUse} (ha : CmdLine P a ua []) (hb : CmdLine P b ub []) (hw : Word w)
    (hmp : ∀ ts, AtOption ts → ts ≠ [] → matchPartial P.pos (.plain w :: ts) = ([(p, [w])], q, ts))
    (hub : ub = x ++ u :: y) (hpa : ∀ v ∈ ua ++ x, ¬ OnlyPrints v.opt) (hu : OnlyPrints u.opt) (hl : ClearFor P l) :
    (NoConflict (ua ++ x) → argParse P (a ++ w :: (b ++ l)) = .error (stopOf u.opt)) ∧
    (¬ NoConflict (ua ++ x) → argParse P (a ++ w :: (b ++ l)) = .error .usage) := by
  have hF := hP.flags
  obtain ⟨ta, a1, a2, -⟩ := tokLine_of hF ha
  obtain ⟨tb, b1, b2, -⟩ := tokLine_of hF hb
  obtain ⟨tl, l1⟩ := argToks_ok hF hS hl
  have hnr : ∀ o ∈ P.opts, o.num ≠ .rest := fun o ho => (hP.opts o ho).norest
  have huo : ∀ u ∈ ua ++ ub, u.opt ∈ P.opts ∧ FitsNum u.opt.num u.vals := by
    intro u hu
    rcases List.mem_append.1 hu with hu | hu
    · exact uses_ok hnr ha u hu
    · exact uses_ok hnr hb u hu
  have hfl : ∀ u ∈ ua ++ ub, u.opt.flags ≠ [] := fun u hu => (hP.opts u.opt (huo u hu).1).flags
  obtain ⟨q1, q2, q3, q4, q5⟩ := hP.pos p hpp
  have hval : argValues p (dropDashes [w]) = .ok (.one (.text w)) := by
    have hd : dropDashes [w] = [w] := dropDashes_words (by simpa using hw)
    rw [hd]
    rcases hpn with hn | hn <;> simp [argValues, hn, argAtom, q2, convArg, checkChoice, q3]
  obtain ⟨fa1, fa2⟩ := useActs_opts (fun u hu => hfl u (List.mem_append_left ub hu))
  obtain ⟨fb1, fb2⟩ := useActs_opts (fun u hu => hfl u (List.mem_append_right ua hu))
  have hpf : fromOpt (p, [w]) = false := by simp [fromOpt, q1]
  set evs : List (ArgOpt × List Str) := useActs ua ++ ((p, [w]) :: useActs ub) with hevs
  have e1 : evs.filter fromOpt = useActs (ua ++ ub) := by
    rw [hevs, List.filter_append, fa1, List.filter_cons_of_neg (by simp [hpf]), fb1]
    simp [useActs]
  have e2 : evs.filter (fun x => !fromOpt x) = [(p, [w])] := by
    rw [hevs, List.filter_append, fa2, List.filter_cons_of_pos (by simp [hpf]), fb2]
    rfl
  have e3 : ∀ e ∈ evs, fromOpt e = false → PosAct P e := by
    intro e he hf
    have : e ∈ evs.filter (fun x => !fromOpt x) := List.mem_filter.2 ⟨he, by simp [hf]⟩
    rw [e2, List.mem_singleton] at this
    subst this
    refine ⟨hpp, by rcases hpn with h | h <;> simp [h], .one (.text w), ?_⟩
    unfold evArgs
    dsimp only
    rw [if_pos q1]
    exact hval
  obtain ⟨g1, g2⟩ := flags_prints hP hz hgz huo (show ua ++ ub = (ua ++ x) ++ u :: y by rw [hub]; simp) hpa hu e1 e3
  obtain ⟨hat, hopt⟩ := tokLine_front b2
  have htb : tb ≠ [] := by
    rintro rfl
    generalize ([] : List Str) = z at b2
    cases b2
    cases x <;> cases hub
  have hopt : tb.any ArgTok.isOpt = true := hopt.resolve_left htb
  have hat : AtOption (tb ++ tl) := by
    cases tb with
    | nil => exact absurd rfl htb
    | cons t r => exact hat
  have htoks : argToks P (a ++ w :: (b ++ l)) = .ok (ta ++ (.plain w :: (tb ++ tl))) :=
    argToks_append (noDashes_of hF ha) a1 (argToks_cons_word hF hw (argToks_append (noDashes_of hF hb) b1 l1))
  have hparse : ∀ e, takeActs evs ⟨P.defaults, [], [], none⟩ = .error e → argParse P (a ++ w :: (b ++ l)) = .error e := by
    intro e he
    unfold argParse
    rw [htoks]
    dsimp only
    have hlen : (ta ++ (ArgTok.plain w :: (tb ++ tl))).length + 1 = ta.length + ((tb.length + (tl.length + 1)) + 1) := by
      simp only [List.length_append, List.length_cons]
      omega
    rw [hevs, takeActs_append] at he
    rw [hlen, tokLine_length a2 (fun u hu => hz _ (huo u (List.mem_append_left _ hu)).1)]
    cases h1 : takeActs (useActs ua) ⟨P.defaults, [], [], none⟩ with
    | error e' =>
      rw [h1] at he
      cases he
      rfl
    | ok st =>
      rw [h1] at he
      dsimp only at he ⊢
      rw [argLoop_word rfl (by simp only [List.any_cons, List.any_append, hopt]; simp), hmp _ hat (by simp [htb])]
      dsimp only
      have hs : takeActs ((p, [w]) :: useActs ub) st = match takeActs [(p, [w])] st with
          | .error e => .error e
          | .ok st' => takeActs (useActs ub) st' := takeActs_append [(p, [w])] (useActs ub) st
      rw [hs] at he
      cases h2 : takeActs [(p, [w])] st with
      | error e' =>
        rw [h2] at he
        cases he
        rfl
      | ok st1 =>
        rw [h2] at he
        dsimp only at he ⊢
        rw [if_pos (by simp), tokLine_length b2 (fun u hu => hz _ (huo u (List.mem_append_right _ hu)).1), he]
  exact ⟨fun h => hparse _ (g1 h), fun h => hparse _ (g2 h)⟩

/-- **C120 (help flags).** `deploy`, `info` and `help` with a help flag directly behind the name of the command, among other flags: the help text
is printed, whatever comes after, and no command runs; unless flags before it exclude each other, which is a usage error. -/
theorem C120_first_prints_partial {u : ArgUse} {k : ArgStop} (hk : Prints u.opt k) {c : SubCommand} (hc : c ∈ cotCommands) {name : Str}
    (ht : c.title = "deploy".toList ∨ c.title = "info".toList ∨ c.title = "help".toList) (hn : name = c.title ∨ name ∈ c.aliases)
    {g a l : List Str} {gus ua x y : List ArgUse} (hg : CmdLine mainParser g gus []) (ha : CmdLine c.parser a ua []) (hu : ua = x ++ u :: y)
    (hp : ∀ v ∈ gus ++ x, ¬ OnlyPrints v.opt) (hm : ClearFor mainParser (a ++ l)) (hl : ClearFor c.parser l) :
    (NoConflict gus → NoConflict x → cotParse (g ++ name :: (a ++ l)) = .error k) ∧
    (¬ (NoConflict gus ∧ NoConflict x) → cotParse (g ++ name :: (a ++ l)) = .error .usage) := by
  obtain ⟨hpu, hs⟩ := prints_stop hk
  have tab : ∀ c ∈ cotCommands, c.title = "deploy".toList ∨ c.title = "info".toList ∨ c.title = "help".toList →
      (∀ o ∈ c.parser.opts, o.num = .zero) ∧
      c.parser.flagTable.all (fun fo => decide (['-', '-'] <+: fo.1 ∨ fo.1.length = 2)) = true := by decide +kernel
  obtain ⟨z1, z2⟩ := tab c hc ht
  obtain ⟨t1, -, -, -⟩ := cot_tables c hc
  obtain ⟨g1, g2⟩ := cotParse_top hg (fun v hv => hp v (List.mem_append_left _ hv)) hc hn hm
  obtain ⟨k1, k2⟩ := argParse_first_prints (optsOkB_sound t1) (shortFlags_of z2) z1
    (cot_prints _ (List.mem_cons_of_mem _ (List.mem_cons_of_mem _ (List.mem_map_of_mem hc)))) ha hu
    (fun v hv => hp v (List.mem_append_right _ hv)) hpu hl
  have cmd : ∀ e, argParse c.parser (a ++ l) = .error e → parseCommand c (a ++ l) = .error e := by
    intro e he
    unfold parseCommand
    split
    · unfold parseWith
      rw [he]
    · unfold parseLeaf
      rw [he]
  constructor
  · intro hnc hx
    obtain ⟨ns, -, hcp⟩ := g1 hnc
    rw [hcp, cmd _ (k1 hx), hs]
  · intro hno
    by_cases hnc : NoConflict gus
    · obtain ⟨ns, -, hcp⟩ := g1 hnc
      rw [hcp, cmd _ (k2 (fun h => hno ⟨hnc, h⟩))]
    · exact g2 hnc

/-- **C120 (help flags).** `info` with a help flag among the flags after the packages: the same. -/
theorem C120_after_prints_partial {u : ArgUse} {k : ArgStop} (hk : Prints u.opt k) {name : Str}
    (hn : name = "info".toList ∨ name = "describe".toList) {g a b l ws : List Str} {gus ua ub x y : List ArgUse}
    (hg : CmdLine mainParser g gus []) (ha : CmdLine infoParser a ua []) (hb : CmdLine infoParser b ub []) (hws : ∀ w ∈ ws, Word w)
    (hne : ws ≠ []) (hub : ub = x ++ u :: y) (hp : ∀ v ∈ gus ++ (ua ++ x), ¬ OnlyPrints v.opt)
    (hm : ClearFor mainParser (a ++ ws ++ (b ++ l))) (hl : ClearFor infoParser l) :
    (NoConflict gus → NoConflict (ua ++ x) → cotParse (g ++ name :: (a ++ ws ++ (b ++ l))) = .error k) ∧
    (¬ (NoConflict gus ∧ NoConflict (ua ++ x)) → cotParse (g ++ name :: (a ++ ws ++ (b ++ l))) = .error .usage) := by
  obtain ⟨hpu, hs⟩ := prints_stop hk
  set c : SubCommand := ⟨"info".toList, ["describe".toList], infoParser⟩ with hcd
  have hc : c ∈ cotCommands := by decide +kernel
  obtain ⟨t1, -, -, -⟩ := cot_tables c hc
  obtain ⟨g1, g2⟩ := cotParse_top hg (fun v hv => hp v (List.mem_append_left _ hv)) hc (name := name) (by simpa [hcd] using hn) hm
  obtain ⟨k1, k2⟩ := argParse_after_prints (P := infoParser) (p := { flags := [], dest := "PACKAGE_LIST".toList, num := .plus })
    (optsOkB_sound t1) (shortFlags_of (by decide +kernel)) (by decide +kernel)
    (cot_prints _ (List.mem_cons_of_mem _ (List.mem_cons_of_mem _ (List.mem_map_of_mem hc)))) rfl rfl ha hb hws hne hub
    (fun v hv => hp v (List.mem_append_right _ hv)) hpu hl
  have cmd : ∀ e, argParse infoParser (a ++ ws ++ (b ++ l)) = .error e → parseCommand c (a ++ ws ++ (b ++ l)) = .error e := by
    intro e he
    unfold parseCommand
    rw [if_neg (by decide +kernel)]
    unfold parseLeaf
    rw [he]
  constructor
  · intro hnc hx
    obtain ⟨ns, -, hcp⟩ := g1 hnc
    rw [hcp, cmd _ (k1 hx), hs]
  · intro hno
    by_cases hnc : NoConflict gus
    · obtain ⟨ns, -, hcp⟩ := g1 hnc
      rw [hcp, cmd _ (k2 (fun h => hno ⟨hnc, h⟩))]
    · exact g2 hnc

/-- **C120 (help flags).** `deploy` with a help flag among what follows the hypervisor: the same; what is wrong before it (a value that is not of
its option's kind, options that exclude each other) is a usage error. -/
theorem C120_deploy_prints_partial {u : ArgUse} {k : ArgStop} (hk : Prints u.opt k) {h : Str}
    (hh : h ∈ ["esxi".toList, "vcenter".toList, "vmware".toList, "vsphere".toList]) {g l : List Str} {gus us x y : List ArgUse} {ws : List Str}
    {pkg : Str} (hg : CmdLine mainParser g gus []) (hw : Word pkg) (hl : CmdLine esxiParser l us ws) (hu : us = x ++ u :: y)
    (hp : ∀ v ∈ gus ++ x, ¬ OnlyPrints v.opt) (hc : ClearFor mainParser (pkg :: h :: l)) :
    (NoConflict gus → (∀ v ∈ x, v.Good) → NoConflict x → cotParse (g ++ "deploy".toList :: pkg :: h :: l) = .error k) ∧
    (¬ (NoConflict gus ∧ (∀ v ∈ x, v.Good) ∧ NoConflict x) → cotParse (g ++ "deploy".toList :: pkg :: h :: l) = .error .usage) := by
  obtain ⟨hpu, hs⟩ := prints_stop hk
  have hm : (⟨"deploy".toList, [], deployParser⟩ : SubCommand) ∈ cotCommands := by decide +kernel
  obtain ⟨t1, t2, t3, t4⟩ := esxi_tables
  obtain ⟨g1, g2⟩ := cotParse_top hg (fun u hu => hp u (List.mem_append_left _ hu)) hm (name := "deploy".toList) (.inl rfl) hc
  obtain ⟨k1, k2⟩ := argParse_prints (optsOkB_sound t1) (onesB_sound t3) (cot_prints _ (List.mem_cons_of_mem _ List.mem_cons_self)) hl hu
    (fun v hv => hp v (List.mem_append_right _ hv)) hpu
  have hcmd := deploy_cmd hh hw l
  unfold parseLeaf at hcmd
  constructor
  · intro hnc hgd hx
    obtain ⟨ns, -, hcp⟩ := g1 hnc
    rw [hcp, hcmd, k1 ⟨hgd, hx⟩, hs]
  · intro hno
    by_cases hnc : NoConflict gus
    · obtain ⟨ns, -, hcp⟩ := g1 hnc
      rw [hcp, hcmd, k2 (fun h => hno ⟨hnc, h⟩)]
    · exact g2 hnc

/-- **C120 (help flags).** `deploy` with a help flag between the package and the hypervisor, and `help` with one after the command it is asked
about: the same. -/
theorem C120_word_prints_partial {u : ArgUse} {k : ArgStop} (hk : Prints u.opt k) {c : SubCommand} (hc : c ∈ cotCommands) {name w : Str}
    (ht : c.title = "deploy".toList ∨ c.title = "help".toList) (hn : name = c.title ∨ name ∈ c.aliases) {g a b l : List Str}
    {gus ua ub x y : List ArgUse} (hg : CmdLine mainParser g gus []) (ha : CmdLine c.parser a ua []) (hb : CmdLine c.parser b ub [])
    (hw : Word w) (hu : ub = x ++ u :: y) (hp : ∀ v ∈ gus ++ (ua ++ x), ¬ OnlyPrints v.opt) (hm : ClearFor mainParser (a ++ w :: (b ++ l)))
    (hl : ClearFor c.parser l) :
    (NoConflict gus → NoConflict (ua ++ x) → cotParse (g ++ name :: (a ++ w :: (b ++ l))) = .error k) ∧
    (¬ (NoConflict gus ∧ NoConflict (ua ++ x)) → cotParse (g ++ name :: (a ++ w :: (b ++ l))) = .error .usage) := by
  obtain ⟨hpu, hs⟩ := prints_stop hk
  have tab : ∀ c ∈ cotCommands, c.title = "deploy".toList ∨ c.title = "help".toList →
      (∀ o ∈ c.parser.opts, o.num = .zero) ∧
      c.parser.flagTable.all (fun fo => decide (['-', '-'] <+: fo.1 ∨ fo.1.length = 2)) = true ∧
      ((c.title = "deploy".toList ∧ c.parser = deployParser) ∨ c.parser = helpParser) := by decide +kernel
  obtain ⟨z1, z2, z3⟩ := tab c hc ht
  obtain ⟨t1, -, -, -⟩ := cot_tables c hc
  obtain ⟨g1, g2⟩ := cotParse_top hg (fun v hv => hp v (List.mem_append_left _ hv)) hc hn hm
  have pos : ∃ p q, p ∈ c.parser.pos ∧ (p.num = .one ∨ p.num = .opt) ∧
      ∀ ts, AtOption ts → ts ≠ [] → matchPartial c.parser.pos (.plain w :: ts) = ([(p, [w])], q, ts) := by
    rcases z3 with ⟨-, h⟩ | h <;> rw [h]
    · refine ⟨posArg "PACKAGE".toList, [{ flags := [], dest := "HYPERVISOR".toList, num := .rest }], List.mem_cons_self, .inl rfl, ?_⟩
      intro ts hts hne
      cases ts with
      | nil => exact absurd rfl hne
      | cons t r => cases t <;> first | rfl | cases hts
    · refine ⟨{ flags := [], dest := "SUBCOMMAND".toList, num := .opt }, [], List.mem_cons_self, .inr rfl, ?_⟩
      intro ts hts hne
      cases ts with
      | nil => exact absurd rfl hne
      | cons t r => cases t <;> first | rfl | cases hts
  obtain ⟨p, q, p1, p2, p3⟩ := pos
  obtain ⟨k1, k2⟩ := argParse_word_prints (optsOkB_sound t1) (shortFlags_of z2) z1
    (cot_prints _ (List.mem_cons_of_mem _ (List.mem_cons_of_mem _ (List.mem_map_of_mem hc)))) p1 p2 ha hb hw p3 hu
    (fun v hv => hp v (List.mem_append_right _ hv)) hpu hl
  have cmd : ∀ e, argParse c.parser (a ++ w :: (b ++ l)) = .error e → parseCommand c (a ++ w :: (b ++ l)) = .error e := by
    intro e he
    unfold parseCommand
    split
    · unfold parseWith
      rw [he]
    · unfold parseLeaf
      rw [he]
  constructor
  · intro hnc hx
    obtain ⟨ns, -, hcp⟩ := g1 hnc
    rw [hcp, cmd _ (k1 hx), hs]
  · intro hno
    by_cases hnc : NoConflict gus
    · obtain ⟨ns, -, hcp⟩ := g1 hnc
      rw [hcp, cmd _ (k2 (fun h => hno ⟨hnc, h⟩))]
    · exact g2 hnc

/-! ### Examples -/

/-- `cot deploy a.ovf esxi -h` -/
example : cotParse ([] ++ "deploy".toList :: "a.ovf".toList :: "esxi".toList :: ["-h".toList]) = .error .help :=
  (C120_deploy_prints_partial (u := ⟨helpOpt, []⟩) (k := .help) rfl (h := "esxi".toList) (by simp) .done (by decide)
    (.flag (s := "-h".toList) (vals := []) (by decide +kernel) (by simp) (by rfl) (by simp [TakesMore, helpOpt]) .done rfl)
    (show ([⟨helpOpt, []⟩] : List ArgUse) = [] ++ ⟨helpOpt, []⟩ :: [] from rfl) (by simp)
    (clear_of_isOk main_top.opts.flags (by decide +kernel))).1 (by simp [NoConflict]) (by simp) (by simp [NoConflict])

/-- `cot deploy --help a.ovf esxi`, `cot help -h nonsense more`, `cot info a.ovf b.ovf --he --brief -v` -/
example : cotParse ([] ++ "deploy".toList :: (["--help".toList] ++ ["a.ovf".toList, "esxi".toList])) = .error .help ∧
    cotParse ([] ++ "help".toList :: (["-h".toList] ++ ["nonsense".toList, "more".toList])) = .error .help ∧
    cotParse ([] ++ "info".toList :: ([] ++ ["a.ovf".toList, "b.ovf".toList] ++ (["--he".toList] ++ ["--brief".toList, "-v".toList]))) =
      .error .help := by
  refine ⟨?_, ?_, ?_⟩
  · exact (C120_first_prints_partial (u := ⟨helpOpt, []⟩) (k := .help) rfl (c := ⟨"deploy".toList, [], deployParser⟩) (by decide +kernel) (.inl rfl)
      (.inl rfl) .done (.flag (s := "--help".toList) (vals := []) (by decide +kernel) (by simp) (by rfl) (by simp [TakesMore, helpOpt]) .done rfl)
      (show ([⟨helpOpt, []⟩] : List ArgUse) = [] ++ ⟨helpOpt, []⟩ :: [] from rfl) (by simp)
      (clear_of_isOk main_top.opts.flags (by decide +kernel)) (deploy_clear _)).1 (by simp [NoConflict]) (by simp [NoConflict])
  · exact (C120_first_prints_partial (u := ⟨helpOpt, []⟩) (k := .help) rfl (c := ⟨"help".toList, [], helpParser⟩) (by decide +kernel) (.inr (.inr rfl))
      (.inl rfl) .done (.flag (s := "-h".toList) (vals := []) (by decide +kernel) (by simp) (by rfl) (by simp [TakesMore, helpOpt]) .done rfl)
      (show ([⟨helpOpt, []⟩] : List ArgUse) = [] ++ ⟨helpOpt, []⟩ :: [] from rfl) (by simp)
      (clear_of_isOk main_top.opts.flags (by decide +kernel))
      (clear_of_isOk (optsOkB_sound (P := helpParser) (by decide +kernel)).flags (by decide +kernel))).1 (by simp [NoConflict]) (by simp [NoConflict])
  · exact (C120_after_prints_partial (u := ⟨helpOpt, []⟩) (k := .help) rfl (.inl rfl) .done .done
      (.flag (s := "--he".toList) (vals := []) (by decide +kernel) (by simp) (by rfl) (by simp [TakesMore, helpOpt]) .done rfl) (by decide) (by simp)
      (show ([⟨helpOpt, []⟩] : List ArgUse) = [] ++ ⟨helpOpt, []⟩ :: [] from rfl) (by simp)
      (clear_of_isOk main_top.opts.flags (by decide +kernel))
      (clear_of_isOk (optsOkB_sound (P := infoParser) (by decide +kernel)).flags (by decide +kernel))).1 (by simp [NoConflict]) (by simp [NoConflict])

/-- `cot deploy a.ovf -h esxi` -/
example : cotParse ([] ++ "deploy".toList :: ([] ++ "a.ovf".toList :: (["-h".toList] ++ ["esxi".toList]))) = .error .help :=
  (C120_word_prints_partial (u := ⟨helpOpt, []⟩) (k := .help) rfl (c := ⟨"deploy".toList, [], deployParser⟩) (by decide +kernel) (.inl rfl)
    (.inl rfl) .done .done (.flag (s := "-h".toList) (vals := []) (by decide +kernel) (by simp) (by rfl) (by simp [TakesMore, helpOpt]) .done rfl)
    (by decide) (show ([⟨helpOpt, []⟩] : List ArgUse) = [] ++ ⟨helpOpt, []⟩ :: [] from rfl) (by simp)
    (clear_of_isOk main_top.opts.flags (by decide +kernel)) (deploy_clear _)).1 (by simp [NoConflict]) (by simp [NoConflict])

end Cot
