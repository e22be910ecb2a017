import Verif.Props.InfoCommand
/-
C120 and C128: the packages of `info` must stand together.
-/
namespace Cot

/-- a parser whose options are flags and whose only positional argument takes one or more words: words after a flag that follows a first block of
words are left over -/
theorem argParse_blocks {P : ArgParser} {p : ArgOpt} (hP : OptsOk P) (hz : ∀ o ∈ P.opts, o.num = .zero) (hpos : P.pos = [p])
    (hplus : p.num = .plus) (hpp : ¬ OnlyPrints p) {a b l ws wl : List Str} {ua ub ul : List ArgUse} (ha : CmdLine P a ua [])
    (hb : CmdLine P b ub []) (hl : CmdLine P l ul wl) (hws : ∀ w ∈ ws, Word w) (hne : ws ≠ []) (hbn : b ≠ []) (hwl : wl ≠ [])
    (hpr : ∀ u ∈ ua ++ (ub ++ ul), ¬ OnlyPrints u.opt) :
    argParse P (a ++ ws ++ (b ++ l)) = .error .usage ∨ ∃ st pos, argParse P (a ++ ws ++ (b ++ l)) = .ok (st, pos) ∧ st.extras ≠ [] := by
  have hF := hP.flags
  obtain ⟨ta, a1, a2, -⟩ := tokLine_of hF ha
  obtain ⟨tb, b1, b2, -⟩ := tokLine_of hF hb
  obtain ⟨tl, l1, l2, -⟩ := tokLine_of hF hl
  have hnr : ∀ o ∈ P.opts, o.num ≠ .rest := fun o ho => (hP.opts o ho).norest
  have ea : ∀ u ∈ ua, u.opt ∈ P.opts := fun u hu => (uses_ok hnr ha u hu).1
  have eb : ∀ u ∈ ub, u.opt ∈ P.opts := fun u hu => (uses_ok hnr hb u hu).1
  have el : ∀ u ∈ ul, u.opt ∈ P.opts := fun u hu => (uses_ok hnr hl u hu).1
  have acts : ∀ us : List ArgUse, (∀ u ∈ us, ¬ OnlyPrints u.opt) → ∀ st x, takeActs (useActs us) st = .error x → x = .usage := by
    intro us hus st x h
    refine takeActs_error ?_ h
    intro e he
    obtain ⟨u, hu, rfl⟩ := List.mem_map.1 he
    exact hus u hu
  obtain ⟨hat, hopt⟩ := tokLine_front b2
  have htb : tb ≠ [] := by
    rintro rfl
    cases b with
    | nil => exact hbn rfl
    | cons s r =>
      simp only [argToks] at b1
      split at b1
      · cases b1
      · split at b1
        · cases b1
        · cases hr : argToks P r with
          | error e => rw [hr] at b1; cases b1
          | ok ts => rw [hr] at b1; cases b1
  have hopt : tb.any ArgTok.isOpt = true := hopt.resolve_left htb
  have hat : AtOption (tb ++ tl) := by
    cases tb with
    | nil => exact absurd rfl htb
    | cons t r => exact hat
  have htoks : argToks P (a ++ ws ++ (b ++ l)) = .ok (ta ++ (ws.map .plain ++ (tb ++ tl))) := by
    rw [List.append_assoc]
    exact argToks_append (noDashes_of hF ha) a1 (argToks_words_only hF hws (argToks_append (noDashes_of hF hb) b1 l1))
  unfold argParse
  rw [htoks]
  dsimp only
  cases ws with
  | nil => exact absurd rfl hne
  | cons w ws =>
    have hlen : (ta ++ ((w :: ws).map ArgTok.plain ++ (tb ++ tl))).length + 1 = ta.length + ((tb.length + (tl.length + ws.length + 1)) + 1) := by
      simp only [List.length_append, List.length_map, List.length_cons]
      omega
    rw [hlen, tokLine_length a2 (fun u hu => hz _ (ea u hu))]
    cases h1 : takeActs (useActs ua) ⟨P.defaults, [], [], none⟩ with
    | error e =>
      obtain rfl := acts ua (fun u hu => hpr u (List.mem_append_left _ hu)) _ _ h1
      exact .inl rfl
    | ok st =>
      dsimp only
      have hmp : matchPartial P.pos (.plain w :: (ws.map .plain ++ (tb ++ tl))) = ([(p, w :: ws)], [], tb ++ tl) := by
        rw [hpos]
        have hm : matchPos p.num (.plain w :: (ws.map .plain ++ (tb ++ tl))) = some (w :: ws, tb ++ tl) := by
          rw [hplus]
          simp only [matchPos, dashRun, plainDashRun_words hat, List.nil_append]
        rw [matchPartial_some hm]
        rfl
      rw [List.map_cons, List.cons_append, argLoop_word rfl (by simp only [List.any_cons, List.any_append, hopt]; simp), hmp]
      dsimp only
      cases h2 : takeActs [(p, w :: ws)] st with
      | error e =>
        obtain rfl := takeActs_error (by simpa using hpp) h2
        exact .inl rfl
      | ok st1 =>
        dsimp only
        rw [if_pos (by simp only [List.length_cons, List.length_append, List.length_map]; omega),
          tokLine_length b2 (fun u hu => hz _ (eb u hu))]
        cases h3 : takeActs (useActs ub) st1 with
        | error e =>
          obtain rfl := acts ub (fun u hu => hpr u (List.mem_append_right _ (List.mem_append_left _ hu))) _ _ h3
          exact .inl rfl
        | ok st2 =>
          dsimp only
          obtain ⟨evs, ex, e1, e2, e3, e4⟩ := argLoop_line P (tl.length + ws.length + 1) (ps := []) l2
            (fun u hu => (hP.opts u.opt (el u hu)).flags) (fun p hp => by cases hp) (by omega)
          rw [e4]
          unfold loopEnd
          cases h4 : takeActs evs st2 with
          | error e =>
            refine .inl ?_
            rw [takeActs_error ?_ h4]
            intro x hx
            by_cases hfo : fromOpt x = true
            · have : x ∈ useActs ul := by rw [← e1]; exact List.mem_filter.2 ⟨hx, hfo⟩
              obtain ⟨u, hu, rfl⟩ := List.mem_map.1 this
              exact hpr u (List.mem_append_right _ (List.mem_append_right _ hu))
            · have : x ∈ evs.filter (fun x => !fromOpt x) := List.mem_filter.2 ⟨hx, by simpa using hfo⟩
              rw [e2] at this
              simp [placed] at this
          | ok st3 =>
            refine .inr ⟨_, _, rfl, ?_⟩
            have hx : ex ≠ [] := by
              intro h
              have := e3.1 h
              exact hwl (List.length_eq_zero_iff.1 (Nat.le_zero.1 this))
            simp [hx]

/-- **C120 (info).** The packages of `info` must stand together: `cot … info [flags] PACKAGE… flag… PACKAGE…` is always a usage error, however the
line goes on. -/
theorem C120_blocks_partial {name : Str} (hn : name = "info".toList ∨ name = "describe".toList) {g a b l ws wl : List Str}
    {gus ua ub ul : List ArgUse} (hg : CmdLine mainParser g gus []) (ha : CmdLine infoParser a ua []) (hb : CmdLine infoParser b ub [])
    (hl : CmdLine infoParser l ul wl) (hws : ∀ w ∈ ws, Word w) (hne : ws ≠ []) (hbn : b ≠ []) (hwl : wl ≠ [])
    (hp : ∀ u ∈ gus ++ (ua ++ (ub ++ ul)), ¬ OnlyPrints u.opt) (hc : ClearFor mainParser (a ++ ws ++ (b ++ l))) :
    cotParse (g ++ name :: (a ++ ws ++ (b ++ l))) = .error .usage := by
  set c : SubCommand := ⟨"info".toList, ["describe".toList], infoParser⟩ with hcd
  have hm : c ∈ cotCommands := by decide +kernel
  obtain ⟨t1, -, -, -⟩ := cot_tables c hm
  obtain ⟨g1, g2⟩ := cotParse_top hg (fun u hu => hp u (List.mem_append_left _ hu)) hm (name := name) (by simpa [hcd] using hn) hc
  by_cases hnc : NoConflict gus
  · obtain ⟨ns, -, hcp⟩ := g1 hnc
    have hcmd : parseCommand c (a ++ ws ++ (b ++ l)) = parseLeaf "info".toList infoParser (a ++ ws ++ (b ++ l)) := by
      unfold parseCommand
      rw [if_neg (by decide +kernel)]
    rw [hcp, hcmd]
    unfold parseLeaf
    rcases argParse_blocks (P := infoParser) (p := { flags := [], dest := "PACKAGE_LIST".toList, num := .plus }) (optsOkB_sound t1)
      (by decide +kernel) rfl rfl (by simp [OnlyPrints]) ha hb hl hws hne hbn hwl (fun u hu => hp u (List.mem_append_right _ hu)) with
      h | ⟨st, pos, h, hx⟩
    · rw [h]
    · rw [h]
      dsimp only
      unfold needAll
      cases he : st.extras with
      | nil => exact absurd he hx
      | cons x r =>
        split
        · rename_i e hh
          split at hh <;> cases hh
          rfl
        · rename_i hh
          split at hh <;> cases hh
        · rfl
  · exact g2 hnc

/-- **C128 (packages apart).** Then nothing is printed about any of them. -/
theorem C128_blocks_partial {exist : Str → Bool} {load : Str → Except Err InfoVM} {w : InfoWorld} {name : Str}
    (hn : name = "info".toList ∨ name = "describe".toList) {g a b l ws wl : List Str} {gus ua ub ul : List ArgUse}
    (hg : CmdLine mainParser g gus []) (ha : CmdLine infoParser a ua []) (hb : CmdLine infoParser b ub [])
    (hl : CmdLine infoParser l ul wl) (hws : ∀ w ∈ ws, Word w) (hne : ws ≠ []) (hbn : b ≠ []) (hwl : wl ≠ [])
    (hp : ∀ u ∈ gus ++ (ua ++ (ub ++ ul)), ¬ OnlyPrints u.opt) (hc : ClearFor mainParser (a ++ ws ++ (b ++ l))) :
    infoMain exist load w (g ++ name :: (a ++ ws ++ (b ++ l))) = ([], some .systemExit) := by
  unfold infoMain
  rw [C120_blocks_partial hn hg ha hb hl hws hne hbn hwl hp hc]

/-- `cot info a.ovf --brief b.ovf -b c.ovf` -/
example (exist : Str → Bool) (load : Str → Except Err InfoVM) (w : InfoWorld) :
    infoMain exist load w ([] ++ "info".toList :: ([] ++ ["a.ovf".toList] ++ (["--brief".toList] ++ ["b.ovf".toList, "-b".toList, "c.ovf".toList]))) =
      ([], some .systemExit) :=
  C128_blocks_partial (.inl rfl) .done .done (ub := [⟨infoBrief, []⟩]) (ul := [⟨infoBrief, []⟩]) (wl := ["b.ovf".toList, "c.ovf".toList])
    (.flag (s := "--brief".toList) (vals := []) (by decide +kernel) (by simp) (by rfl) (by simp [TakesMore, infoBrief]) .done rfl)
    (.word (by decide) (.flag (s := "-b".toList) (vals := []) (by decide +kernel) (by simp) (by rfl) (by simp [TakesMore, infoBrief])
      (.word (by decide) .done) rfl))
    (by decide) (by simp) (by simp) (by simp) (by simp [OnlyPrints, infoBrief]) (clear_of_isOk main_top.opts.flags (by decide +kernel))

end Cot
