import Verif.Props.ArgOrder
/-
C122: the flags of `info` before and after its packages.
-/
namespace Cot

/-- flags, words and flags as a list of actions -/
theorem argParse_block_acts {P : ArgParser} {p : ArgOpt} (hP : OptsOk P) (hz : ∀ o ∈ P.opts, o.num = .zero) (hpos : P.pos = [p])
    (hplus : p.num = .plus) {a b ws : List Str} {ua ub : List ArgUse} (ha : CmdLine P a ua []) (hb : CmdLine P b ub [])
    (hws : ∀ w ∈ ws, Word w) (hne : ws ≠ []) :
    ∃ evs : List (ArgOpt × List Str), evs.filter fromOpt = useActs (ua ++ ub) ∧ evs.filter (fun x => !fromOpt x) = [(p, ws)] ∧
      (∀ e ∈ evs, fromOpt e = false → PosAct P e) ∧ (∀ u ∈ ua ++ ub, u.opt ∈ P.opts ∧ FitsNum u.opt.num u.vals) ∧
      argParse P (a ++ ws ++ b) = match takeActs evs ⟨P.defaults, [], [], none⟩ with
        | .error e => .error e
        | .ok st => .ok (st, []) := by
  have hF := hP.flags
  obtain ⟨ta, a1, a2, -⟩ := tokLine_of hF ha
  obtain ⟨tb, b1, b2, -⟩ := tokLine_of hF hb
  have hnr : ∀ o ∈ P.opts, o.num ≠ .rest := fun o ho => (hP.opts o ho).norest
  have huo : ∀ u ∈ ua ++ ub, u.opt ∈ P.opts ∧ FitsNum u.opt.num u.vals := by
    intro u hu
    rcases List.mem_append.1 hu with hu | hu
    · exact uses_ok hnr ha u hu
    · exact uses_ok hnr hb u hu
  have huz : ∀ u ∈ ua ++ ub, u.opt.num = .zero := fun u hu => hz u.opt (huo u hu).1
  have hfl : ∀ u ∈ ua ++ ub, u.opt.flags ≠ [] := fun u hu => (hP.opts u.opt (huo u hu).1).flags
  have hpp : p ∈ P.pos := by rw [hpos]; exact List.mem_singleton.2 rfl
  obtain ⟨q1, q2, q3, q4, q5⟩ := hP.pos p hpp
  have hval : argValues p (dropDashes ws) = .ok (.list (ws.map (fun w => .one (.text w)))) := by
    rw [dropDashes_words hws]
    unfold argValues
    rw [hplus]
    cases ws with
    | nil => exact absurd rfl hne
    | cons w ws =>
      dsimp only
      rw [argAtoms_text q2 q3]
      simp
  have hfo : ∀ us : List ArgUse, (∀ u ∈ us, u.opt.flags ≠ []) → (useActs us).filter fromOpt = useActs us ∧
      (useActs us).filter (fun x => !fromOpt x) = [] := by
    intro us hus
    rw [List.filter_eq_self, List.filter_eq_nil_iff]
    constructor
    · intro e he
      obtain ⟨u, hu, rfl⟩ := List.mem_map.1 he
      simpa [fromOpt] using hus u hu
    · intro e he
      obtain ⟨u, hu, rfl⟩ := List.mem_map.1 he
      simpa [fromOpt] using hus u hu
  obtain ⟨fa1, fa2⟩ := hfo ua (fun u hu => hfl u (List.mem_append_left _ hu))
  obtain ⟨fb1, fb2⟩ := hfo ub (fun u hu => hfl u (List.mem_append_right _ hu))
  have hpf : fromOpt (p, ws) = false := by simp [fromOpt, q1]
  set evs : List (ArgOpt × List Str) := useActs ua ++ ((p, ws) :: useActs ub) with hevs
  have e1 : evs.filter fromOpt = useActs (ua ++ ub) := by
    rw [hevs, List.filter_append, fa1, List.filter_cons_of_neg (by simp [hpf]), fb1]
    simp [useActs]
  have e2 : evs.filter (fun x => !fromOpt x) = [(p, ws)] := by
    rw [hevs, List.filter_append, fa2, List.filter_cons_of_pos (by simp [hpf]), fb2]
    rfl
  have e3 : ∀ e ∈ evs, fromOpt e = false → PosAct P e := by
    intro e he hf
    have : e ∈ evs.filter (fun x => !fromOpt x) := List.mem_filter.2 ⟨he, by simp [hf]⟩
    rw [e2, List.mem_singleton] at this
    subst this
    refine ⟨hpp, by simp [hplus], .list (ws.map (fun w => .one (.text w))), ?_⟩
    unfold evArgs
    dsimp only
    rw [if_pos q1]
    exact hval
  have hparse : argParse P (a ++ ws ++ b) = match takeActs evs ⟨P.defaults, [], [], none⟩ with
      | .error e => .error e
      | .ok st => .ok (st, []) := by
    unfold argParse
    rw [List.append_assoc, argToks_append (noDashes_of hF ha) a1 (argToks_words_only hF hws b1)]
    dsimp only
    obtain ⟨hat, hopt⟩ := tokLine_front b2
    cases ws with
    | nil => exact absurd rfl hne
    | cons w ws =>
      have hlen : (ta ++ ((w :: ws).map ArgTok.plain ++ tb)).length + 1 = ta.length + ((tb.length + (ws.length + 1)) + 1) := by
        simp only [List.length_append, List.length_map, List.length_cons]
        omega
      rw [hlen, tokLine_length a2 (fun u hu => huz u (List.mem_append_left _ hu)), hevs, takeActs_append]
      cases takeActs (useActs ua) ⟨P.defaults, [], [], none⟩ with
      | error e => rfl
      | ok st =>
        dsimp only
        have hmp : matchPartial P.pos (.plain w :: (ws.map .plain ++ tb)) = ([(p, w :: ws)], [], tb) := by
          rw [hpos]
          have hm : matchPos p.num (.plain w :: (ws.map .plain ++ tb)) = some (w :: ws, tb) := by
            rw [hplus]
            simp only [matchPos, dashRun, plainDashRun_words hat, List.nil_append]
          rw [matchPartial_some hm]
          rfl
        rw [List.map_cons, List.cons_append]
        rcases hopt with rfl | hopt
        · have hub : ub = [] := by
            cases b2
            rfl
          subst hub
          rw [argLoop_end (by simp only [List.append_nil, List.any_cons, any_plain]; rfl), hmp]
          dsimp only
          have : useActs ([] : List ArgUse) = [] := rfl
          rw [this]
          cases takeActs [(p, w :: ws)] st with
          | error e => rfl
          | ok st1 => simp
        · rw [argLoop_word rfl (by simp only [List.any_cons, List.any_append, hopt]; simp), hmp]
          dsimp only
          have hs : takeActs ((p, w :: ws) :: useActs ub) st = match takeActs [(p, w :: ws)] st with
              | .error e => .error e
              | .ok st' => takeActs (useActs ub) st' := by
            exact takeActs_append [(p, w :: ws)] (useActs ub) st
          rw [hs]
          cases takeActs [(p, w :: ws)] st with
          | error e => rfl
          | ok st1 =>
            dsimp only
            rw [if_pos (by simp only [List.length_cons, List.length_append, List.length_map]; omega)]
            have := tokLine_length b2 (fun u hu => huz u (List.mem_append_right _ hu)) (ws.length + 1) [] [] st1
            rw [List.append_nil] at this
            rw [this]
            cases takeActs (useActs ub) st1 with
            | error e => rfl
            | ok st2 =>
              dsimp only
              rw [argLoop_end (by rfl)]
              simp [matchPartial, takeActs]
  exact ⟨evs, e1, e2, e3, huo, hparse⟩

/-- **C122 (info).** The flags of `info` may stand before or after its packages, in any order and spelling: two command lines with the same
packages and the same uses of each option are both refused or mean the same. -/
theorem C122_info_partial {name : Str} (hn : name = "info".toList ∨ name = "describe".toList) {g k a b a' b' ws : List Str}
    {gus kus ua ub va vb : List ArgUse} (hg : CmdLine mainParser g gus []) (hk : CmdLine mainParser k kus []) (ha : CmdLine infoParser a ua [])
    (hb : CmdLine infoParser b ub []) (ha' : CmdLine infoParser a' va []) (hb' : CmdLine infoParser b' vb []) (hws : ∀ w ∈ ws, Word w)
    (hne : ws ≠ []) (hp : ∀ u ∈ gus ++ (ua ++ ub), ¬ OnlyPrints u.opt) (hgk : ∀ d, usesFor d gus = usesFor d kus)
    (huv : ∀ d, usesFor d (ua ++ ub) = usesFor d (va ++ vb)) (hc : ClearFor mainParser (a ++ ws ++ b))
    (hc' : ClearFor mainParser (a' ++ ws ++ b')) :
    cotParse (g ++ name :: (a ++ ws ++ b)) = cotParse (k ++ name :: (a' ++ ws ++ b')) := by
  have hm : (⟨"info".toList, ["describe".toList], infoParser⟩ : SubCommand) ∈ cotCommands := by decide +kernel
  obtain ⟨t1, -, -, -⟩ := cot_tables _ hm
  have hP := optsOkB_sound t1
  refine cotParse_same hm (by simpa using hn) hg hk (fun u hu => hp u (List.mem_append_left _ hu)) hgk hc hc' (.inl ?_)
  obtain ⟨e, e1, e2, e3, e4, e5⟩ := argParse_block_acts (P := infoParser) (p := { flags := [], dest := "PACKAGE_LIST".toList, num := .plus })
    hP (by decide +kernel) rfl rfl ha hb hws hne
  obtain ⟨f, f1, f2, f3, f4, f5⟩ := argParse_block_acts (P := infoParser) (p := { flags := [], dest := "PACKAGE_LIST".toList, num := .plus })
    hP (by decide +kernel) rfl rfl ha' hb' hws hne
  have hst : ∀ p ∈ infoParser.pos, p.stored = true := fun p hp => by simp [ArgOpt.stored, (hP.pos p hp).2.2.2.1]
  unfold parseCommand
  rw [if_neg (by decide +kernel), if_neg (by decide +kernel)]
  unfold parseLeaf
  dsimp only
  rw [e5, f5]
  rcases acts_same hP hst e4 f4 (fun u hu => hp u (List.mem_append_right _ hu)) huv e1 e3 f1 f3 (by rw [e2, f2]) with
    ⟨h1, h2⟩ | ⟨st, st', h1, h2, h3, h4, h5, -, -⟩
  · rw [h1, h2]
  · rw [h1, h2]
    dsimp only
    rw [h3, h4, h5]

/-- `cot info -b a.ovf b.ovf --brief` and `cot info a.ovf b.ovf --bri -b` -/
example : cotParse ([] ++ "info".toList :: (["-b".toList] ++ ["a.ovf".toList, "b.ovf".toList] ++ ["--brief".toList])) =
    cotParse ([] ++ "info".toList :: ([] ++ ["a.ovf".toList, "b.ovf".toList] ++ ["--bri".toList, "-b".toList])) := by
  set o : ArgOpt := { flags := ["-b".toList, "--brief".toList], dest := "verbosity".toList, num := .zero, act := .setConst "brief".toList, group := 1 } with ho
  refine C122_info_partial (.inl rfl) .done .done
    (.flag (s := "-b".toList) (o := o) (vals := []) (by decide +kernel) (by simp) (by rfl) (by simp [TakesMore, ho]) .done rfl)
    (.flag (s := "--brief".toList) (o := o) (vals := []) (by decide +kernel) (by simp) (by rfl) (by simp [TakesMore, ho]) .done rfl)
    .done
    (.flag (s := "--bri".toList) (o := o) (vals := []) (by decide +kernel) (by simp) (by rfl) (by simp [TakesMore, ho])
      (.flag (s := "-b".toList) (o := o) (vals := []) (by decide +kernel) (by simp) (by rfl) (by simp [TakesMore, ho]) .done rfl) rfl)
    (by decide) (by simp) (by simp [OnlyPrints, ho]) (fun _ => rfl) (fun _ => rfl)
    (clear_of_isOk main_top.opts.flags (by decide +kernel)) (clear_of_isOk main_top.opts.flags (by decide +kernel))

end Cot
