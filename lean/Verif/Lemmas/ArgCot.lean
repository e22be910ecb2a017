import Verif.Lemmas.ArgTop
/-
Command lines: the tables of COT.
-/
namespace Cot

def onesB (P : ArgParser) : Bool := P.pos.all (fun p => decide (p.flags = [] ∧ p.num = .one))

theorem onesB_sound {P : ArgParser} (h : onesB P = true) : OnlyOnes P.pos := by
  unfold onesB at h
  simp only [List.all_eq_true, decide_eq_true_eq] at h
  exact h

def freeB (ds : List Str) (P : ArgParser) : Bool := (P.pos ++ P.opts).all (fun o => decide (o.dest ∉ ds))

theorem freeB_sound {ds : List Str} {P : ArgParser} (h : freeB ds P = true) {d : Str} (hd : d ∈ ds) : ∀ o ∈ P.pos ++ P.opts, o.dest ≠ d := by
  unfold freeB at h
  simp only [List.all_eq_true, decide_eq_true_eq] at h
  rintro o ho rfl
  exact h o ho hd

/-- the names in the namespace that belong to the main parser, and the command -/
def topNames : List Str :=
  ["instance".toList, "_subcommand".toList, "_force".toList, "_quietude".toList, "_verbosity".toList]

theorem cot_tables : ∀ c ∈ cotCommands, optsOkB c.parser = true ∧ freeB topNames c.parser = true ∧
    (∀ n ∈ c.title :: c.aliases, subCommand cotCommands n = some c ∧ n.head? ≠ some '-') ∧
    (c.title ≠ "deploy".toList → c.title ≠ "help".toList → c.title ≠ "info".toList → onesB c.parser = true) := by
  decide +kernel

theorem esxi_tables : optsOkB esxiParser = true ∧ freeB ("PACKAGE".toList :: "HYPERVISOR".toList :: topNames) esxiParser = true ∧
    onesB esxiParser = true ∧
    (∀ n ∈ ["esxi".toList, "vcenter".toList, "vmware".toList, "vsphere".toList],
      subCommand cotHypervisors n = some ⟨"esxi".toList, ["vcenter".toList, "vmware".toList, "vsphere".toList], esxiParser⟩ ∧
        n.head? ≠ some '-') := by
  decide +kernel

def mainSub : ArgOpt := { flags := [], dest := "_subcommand".toList, num := .rest }

theorem shortFlags_of {P : ArgParser} (h : P.flagTable.all (fun fo => decide (['-', '-'] <+: fo.1 ∨ fo.1.length = 2)) = true) : ShortFlags P := by
  intro f hf
  obtain ⟨o, ho⟩ := isFlag_iff.1 hf
  rw [List.all_eq_true] at h
  have := h _ ho
  simpa using this

theorem main_top : TopOk mainParser mainSub where
  opts := optsOkB_sound (by decide +kernel)
  short := shortFlags_of (by decide +kernel)
  zero := by decide +kernel
  pos := rfl
  rest := rfl

theorem main_dests : ∀ o ∈ mainParser.opts, o.stored = true → o.dest ∈ topNames ∧ o.dest ≠ "instance".toList ∧ o.dest ≠ "_subcommand".toList := by
  decide +kernel

/-- a namespace below the main parser -/
theorem merged_get {gus : List ArgUse} {ns : ArgSpace} (h : Left mainParser gus ns) {name : Str} {sns : ArgSpace}
    (hn : (dkeys sns).Nodup)
    (hfree : ∀ d ∈ topNames, d ≠ "instance".toList → dget? sns d = none) :
    Means mainParser gus [] (mergeSpace (dset ns "_subcommand".toList (.one (.text name))) sns) ∧
    dget? (mergeSpace (dset ns "_subcommand".toList (.one (.text name))) sns) "_subcommand".toList = some (.one (.text name)) ∧
    (∀ d v, dget? sns d = some v → dget? (mergeSpace (dset ns "_subcommand".toList (.one (.text name))) sns) d = some v) := by
  refine ⟨⟨?_, ?_⟩, ?_, ?_⟩
  · intro o ho hp
    obtain ⟨v, hv, hout⟩ := h.opts o ho (stored_iff.2 hp)
    obtain ⟨h1, h2, h3⟩ := main_dests o ho (stored_iff.2 hp)
    refine ⟨v, ?_, hout⟩
    rw [mergeSpace_get hn, hfree o.dest h1 h2]
    dsimp only
    rw [dget?_dset, if_neg (Ne.symm h3)]
    exact hv
  · intro i p w _ hw
    simp at hw
  · rw [mergeSpace_get hn, hfree "_subcommand".toList (by decide) (by decide)]
    dsimp only
    rw [dget?_dset, if_pos rfl]
  · intro d v hv
    rw [mergeSpace_get hn, hv]

theorem means_merged {P : ArgParser} {us : List ArgUse} {ws : List Str} {sns ns' : ArgSpace} (h : Means P us ws sns)
    (hk : ∀ d v, dget? sns d = some v → dget? ns' d = some v) : Means P us ws ns' := by
  refine ⟨?_, ?_⟩
  · intro o ho hp
    obtain ⟨v, hv, hout⟩ := h.opts o ho hp
    exact ⟨v, hk _ _ hv, hout⟩
  · intro i p w hp hw
    exact hk _ _ (h.words i p w hp hw)

/-! ### info: words in one block -/

theorem plainDashRun_words {ws : List Str} {ts : List ArgTok} (ht : AtOption ts) : plainDashRun (ws.map .plain ++ ts) = (ws, ts) := by
  induction ws with
  | nil =>
    rw [List.map_nil, List.nil_append]
    cases ts with
    | nil => rfl
    | cons t r =>
      cases t <;> first | rfl | cases ht
  | cons w ws ih =>
    rw [List.map_cons, List.cons_append, plainDashRun, ih]

theorem dropDashes_words {ws : List Str} (h : ∀ w ∈ ws, Word w) : dropDashes ws = ws := by
  induction ws with
  | nil => rfl
  | cons w ws ih =>
    rw [dropDashes, if_neg (word_ne (h w List.mem_cons_self)), ih (fun x hx => h x (List.mem_cons_of_mem _ hx))]

theorem argAtoms_text {o : ArgOpt} (ht : o.type = .text) (hc : o.choices = none) (ws : List Str) : argAtoms o ws = .ok (ws.map .text) := by
  induction ws with
  | nil => rfl
  | cons w ws ih => simp [argAtoms, argAtom, ht, convArg, checkChoice, hc, ih]

theorem tokLine_front {P : ArgParser} {ts : List ArgTok} {us : List ArgUse} (h : TokLine P ts us []) : AtOption ts ∧ (ts = [] ∨ ts.any ArgTok.isOpt = true) := by
  generalize hw : ([] : List Str) = ws at h
  cases h with
  | done => exact ⟨trivial, .inl rfl⟩
  | word => cases hw
  | use => exact ⟨rfl, .inr (by simp [ArgTok.isOpt])⟩
  | attached => exact ⟨rfl, .inr (by simp [ArgTok.isOpt])⟩
  | bundle => exact ⟨rfl, .inr (by simp [ArgTok.isOpt])⟩
  | dashes hne => exact absurd hw.symm hne

theorem argToks_words_only {P : ArgParser} (hP : FlagsOk P) {ws r : List Str} {tr : List ArgTok} (hw : ∀ w ∈ ws, Word w)
    (hr : argToks P r = .ok tr) : argToks P (ws ++ r) = .ok (ws.map .plain ++ tr) := by
  induction ws with
  | nil => exact hr
  | cons w ws ih =>
    exact argToks_cons_word hP (hw w List.mem_cons_self) (ih (fun x hx => hw x (List.mem_cons_of_mem _ hx)))

/-- a parser whose options are flags and whose only positional argument takes one or more words -/
theorem argParse_block {P : ArgParser} {p : ArgOpt} (hP : OptsOk P) (hz : ∀ o ∈ P.opts, o.num = .zero) (hpos : P.pos = [p])
    (hplus : p.num = .plus) {a b ws : List Str} {ua ub : List ArgUse} (ha : CmdLine P a ua []) (hb : CmdLine P b ub [])
    (hws : ∀ w ∈ ws, Word w) (hne : ws ≠ []) (hpr : ∀ u ∈ ua ++ ub, ¬ OnlyPrints u.opt) :
    (NoConflict (ua ++ ub) → ∃ st, argParse P (a ++ ws ++ b) = .ok (st, []) ∧ st.extras = [] ∧ Left P (ua ++ ub) st.ns ∧
      dget? st.ns p.dest = some (.list (ws.map (fun w => .one (.text w))))) ∧
    (¬ NoConflict (ua ++ ub) → argParse P (a ++ ws ++ b) = .error .usage) := by
  have hF := hP.flags
  obtain ⟨ta, a1, a2, -⟩ := tokLine_of hF ha
  obtain ⟨tb, b1, b2, -⟩ := tokLine_of hF hb
  have hnr : ∀ o ∈ P.opts, o.num ≠ .rest := fun o ho => (hP.opts o ho).norest
  have huo : ∀ u ∈ ua ++ ub, u.opt ∈ P.opts ∧ FitsNum u.opt.num u.vals := by
    intro u hu
    rcases List.mem_append.1 hu with hu | hu
    · exact uses_ok hnr ha u hu
    · exact uses_ok hnr hb u hu
  have huz : ∀ u ∈ ua ++ ub, u.opt.num = .zero := fun u hu => hz u.opt (huo u hu).1
  have hfl : ∀ u ∈ ua ++ ub, u.opt.flags ≠ [] := fun u hu => (hP.opts u.opt (huo u hu).1).flags
  have hpp : p ∈ P.pos := by rw [hpos]; exact List.mem_singleton.2 rfl
  obtain ⟨q1, q2, q3, q4, q5⟩ := hP.pos p hpp
  have hval : argValues p (dropDashes ws) = .ok (.list (ws.map (fun w => .one (.text w)))) := by
    rw [dropDashes_words hws]
    unfold argValues
    rw [hplus]
    cases ws with
    | nil => exact absurd rfl hne
    | cons w ws =>
      dsimp only
      rw [argAtoms_text q2 q3]
      simp
  have hgood : ∀ u ∈ ua ++ ub, u.Good := by
    intro u hu s hs
    have hv := (huo u hu).2
    rw [huz u hu] at hv
    have hv : u.vals = [] := hv
    unfold ArgUse.texts at hs
    rw [if_neg (by simp [huz u hu]), hv] at hs
    cases hs
  have hfo : ∀ us : List ArgUse, (∀ u ∈ us, u.opt.flags ≠ []) → (useActs us).filter fromOpt = useActs us ∧
      (useActs us).filter (fun x => !fromOpt x) = [] := by
    intro us hus
    rw [List.filter_eq_self, List.filter_eq_nil_iff]
    constructor
    · intro e he
      obtain ⟨u, hu, rfl⟩ := List.mem_map.1 he
      simpa [fromOpt] using hus u hu
    · intro e he
      obtain ⟨u, hu, rfl⟩ := List.mem_map.1 he
      simpa [fromOpt] using hus u hu
  obtain ⟨fa1, fa2⟩ := hfo ua (fun u hu => hfl u (List.mem_append_left _ hu))
  obtain ⟨fb1, fb2⟩ := hfo ub (fun u hu => hfl u (List.mem_append_right _ hu))
  have hpf : fromOpt (p, ws) = false := by simp [fromOpt, q1]
  set evs : List (ArgOpt × List Str) := useActs ua ++ ((p, ws) :: useActs ub) with hevs
  have e1 : evs.filter fromOpt = useActs (ua ++ ub) := by
    rw [hevs, List.filter_append, fa1, List.filter_cons_of_neg (by simp [hpf]), fb1]
    simp [useActs]
  have e2 : evs.filter (fun x => !fromOpt x) = [(p, ws)] := by
    rw [hevs, List.filter_append, fa2, List.filter_cons_of_pos (by simp [hpf]), fb2]
    rfl
  have e3 : ∀ e ∈ evs, fromOpt e = false → PosAct P e := by
    intro e he hf
    have : e ∈ evs.filter (fun x => !fromOpt x) := List.mem_filter.2 ⟨he, by simp [hf]⟩
    rw [e2, List.mem_singleton] at this
    subst this
    refine ⟨hpp, by simp [hplus], .list (ws.map (fun w => .one (.text w))), ?_⟩
    unfold evArgs
    dsimp only
    rw [if_pos q1]
    exact hval
  obtain ⟨g1, g2⟩ := acts_line hP huo hpr e1 e3
  have hparse : argParse P (a ++ ws ++ b) = match takeActs evs ⟨P.defaults, [], [], none⟩ with
      | .error e => .error e
      | .ok st => .ok (st, []) := by
    unfold argParse
    rw [List.append_assoc, argToks_append (noDashes_of hF ha) a1 (argToks_words_only hF hws b1)]
    dsimp only
    obtain ⟨hat, hopt⟩ := tokLine_front b2
    cases ws with
    | nil => exact absurd rfl hne
    | cons w ws =>
      have hlen : (ta ++ ((w :: ws).map ArgTok.plain ++ tb)).length + 1 = ta.length + ((tb.length + (ws.length + 1)) + 1) := by
        simp only [List.length_append, List.length_map, List.length_cons]
        omega
      rw [hlen, tokLine_length a2 (fun u hu => huz u (List.mem_append_left _ hu)), hevs, takeActs_append]
      cases takeActs (useActs ua) ⟨P.defaults, [], [], none⟩ with
      | error e => rfl
      | ok st =>
        dsimp only
        have hmp : matchPartial P.pos (.plain w :: (ws.map .plain ++ tb)) = ([(p, w :: ws)], [], tb) := by
          rw [hpos]
          have hm : matchPos p.num (.plain w :: (ws.map .plain ++ tb)) = some (w :: ws, tb) := by
            rw [hplus]
            simp only [matchPos, dashRun, plainDashRun_words hat, List.nil_append]
          rw [matchPartial_some hm]
          rfl
        rw [List.map_cons, List.cons_append]
        rcases hopt with rfl | hopt
        · have hub : ub = [] := by
            cases b2
            rfl
          subst hub
          rw [argLoop_end (by simp only [List.append_nil, List.any_cons, any_plain]; rfl), hmp]
          dsimp only
          have : useActs ([] : List ArgUse) = [] := rfl
          rw [this]
          cases takeActs [(p, w :: ws)] st with
          | error e => rfl
          | ok st1 => simp
        · rw [argLoop_word rfl (by simp only [List.any_cons, List.any_append, hopt]; simp), hmp]
          dsimp only
          have hs : takeActs ((p, w :: ws) :: useActs ub) st = match takeActs [(p, w :: ws)] st with
              | .error e => .error e
              | .ok st' => takeActs (useActs ub) st' := by
            exact takeActs_append [(p, w :: ws)] (useActs ub) st
          rw [hs]
          cases takeActs [(p, w :: ws)] st with
          | error e => rfl
          | ok st1 =>
            dsimp only
            rw [if_pos (by simp only [List.length_cons, List.length_append, List.length_map]; omega)]
            have := tokLine_length b2 (fun u hu => huz u (List.mem_append_right _ hu)) (ws.length + 1) [] [] st1
            rw [List.append_nil] at this
            rw [this]
            cases takeActs (useActs ub) st1 with
            | error e => rfl
            | ok st2 =>
              dsimp only
              rw [argLoop_end (by rfl)]
              simp [matchPartial, takeActs]
  constructor
  · intro hc
    obtain ⟨st, hst, k1, k2, k3, k4, k5, k6⟩ := g1 ⟨hgood, hc⟩
    rw [hst] at hparse
    refine ⟨st, hparse, k2, ⟨k3, k5, k6⟩, ?_⟩
    rw [k4 p hpp, e2, List.filter_cons_of_pos (by simp)]
    simp only [List.filter_nil, List.foldl_cons, List.foldl_nil, newVal, q4]
    unfold evVal evArgs
    dsimp only
    rw [if_pos q1, hval]
  · intro hc
    rw [hparse, g2 (fun hh => hc hh.2)]

/-! ### deploy: the package, the hypervisor and its arguments -/

theorem deploy_clear (l : List Str) : ClearFor deployParser l := by
  intro a s b _ _ hamb
  obtain ⟨-, p, -, hl, -, f, g, hne, hf, hg, pf, pg⟩ := hamb
  have hall : ∀ f, IsFlag deployParser f → ['-', '-'] <+: f → f = "--help".toList := by
    intro f hf
    obtain ⟨o, ho⟩ := isFlag_iff.1 hf
    have : ∀ fo ∈ deployParser.flagTable, ['-', '-'] <+: fo.1 → fo.1 = "--help".toList := by decide +kernel
    exact this _ ho
  exact hne ((hall f hf (hl.trans pf)).trans (hall g hg (hl.trans pg)).symm)

theorem deploy_parse {pkg h : Str} (hw : Word pkg) (hh : Word h) (l : List Str) :
    ∃ st, argParse deployParser (pkg :: h :: l) = .ok (st, []) ∧ st.sub = some (h :: l) ∧ st.extras = [] ∧
      st.ns = [("PACKAGE".toList, .one (.text pkg)), ("HYPERVISOR".toList, .absent)] := by
  have hO : OptsOk deployParser := optsOkB_sound (by decide +kernel)
  obtain ⟨tl, tl1⟩ := argToks_ok hO.flags (shortFlags_of (by decide +kernel)) (deploy_clear l)
  unfold argParse
  rw [argToks_cons_word hO.flags hw (argToks_cons_word hO.flags hh tl1)]
  dsimp only
  have hmp : matchPartial deployParser.pos (.plain pkg :: .plain h :: tl) =
      ([(posArg "PACKAGE".toList, [pkg]), ({ flags := [], dest := "HYPERVISOR".toList, num := .rest }, h :: l)], [], []) := by
    rw [← argToks_str tl1]
    rfl
  have hlen : (ArgTok.plain pkg :: ArgTok.plain h :: tl).length + 1 = (tl.length + 1) + 2 := by simp
  rw [hlen, argLoop_all rfl hmp]
  have hdef : deployParser.defaults = [("PACKAGE".toList, .absent), ("HYPERVISOR".toList, .absent)] := rfl
  rw [hdef]
  have hv : argValues (posArg "PACKAGE".toList) (dropDashes [pkg]) = .ok (.one (.text pkg)) := by
    rw [argValues_pos rfl rfl rfl, if_neg (word_ne hw)]
  have ht : takeAct (posArg "PACKAGE".toList) [pkg] ⟨[("PACKAGE".toList, .absent), ("HYPERVISOR".toList, .absent)], [], [], none⟩ =
      .ok ⟨[("PACKAGE".toList, .one (.text pkg)), ("HYPERVISOR".toList, .absent)], [posArg "PACKAGE".toList], [], none⟩ := by
    unfold takeAct
    have : (if (posArg "PACKAGE".toList).flags = [] then dropDashes [pkg] else [pkg]) = dropDashes [pkg] := rfl
    rw [this, hv]
    rfl
  simp only [takeActs]
  rw [ht]
  exact ⟨_, rfl, rfl, rfl, rfl⟩

theorem mergeSpace_nodup {ns : ArgSpace} (hn : (dkeys ns).Nodup) (sub : ArgSpace) : (dkeys (mergeSpace ns sub)).Nodup := by
  unfold mergeSpace
  induction sub generalizing ns with
  | nil => exact hn
  | cons e sub ih => exact ih (nodup_dset hn)

/-- what the parser of `deploy` itself leaves -/
def deployBase (pkg h : Str) : ArgSpace :=
  [("PACKAGE".toList, .one (.text pkg)), ("HYPERVISOR".toList, .one (.text h)), ("instance".toList, .one (.text "deploy".toList))]

theorem deployBase_nodup (pkg h : Str) : (dkeys (deployBase pkg h)).Nodup := by
  have : (["PACKAGE".toList, "HYPERVISOR".toList, "instance".toList] : List Str).Nodup := by decide +kernel
  exact this

theorem deployBase_none (pkg h : Str) {d : Str} (hd : d ∈ topNames) (hne : d ≠ "instance".toList) : dget? (deployBase pkg h) d = none := by
  rw [dget?_eq_none]
  have : ∀ d ∈ topNames, d ≠ "instance".toList → d ∉ (["PACKAGE".toList, "HYPERVISOR".toList, "instance".toList] : List Str) := by
    decide +kernel
  exact this d hd hne

theorem deployBase_pkg (pkg h : Str) : dget? (deployBase pkg h) "PACKAGE".toList = some (.one (.text pkg)) := by
  unfold deployBase
  rw [dget?, if_pos rfl]

theorem deployBase_hyp (pkg h : Str) : dget? (deployBase pkg h) "HYPERVISOR".toList = some (.one (.text h)) := by
  unfold deployBase
  rw [dget?, if_neg (by decide +kernel), dget?, if_pos rfl]

theorem deployBase_eq (pkg h : Str) : dset (setInstance (some "deploy".toList)
    [("PACKAGE".toList, .one (.text pkg)), ("HYPERVISOR".toList, .absent)]) "HYPERVISOR".toList (.one (.text h)) = deployBase pkg h := rfl

/-! ### help: at most one word -/

theorem help_parse {ws : List Str} (hws : ∀ w ∈ ws, Word w) :
    ∃ st, argParse helpParser ws = .ok (st, []) ∧ st.extras = ws.drop 1 ∧
      st.ns = [("SUBCOMMAND".toList, match ws with
        | [] => .absent
        | w :: _ => .one (.text w))] := by
  have hO : OptsOk helpParser := optsOkB_sound (by decide +kernel)
  unfold argParse
  have ht := argToks_words_only hO.flags (r := []) (tr := []) hws rfl
  rw [List.append_nil, List.append_nil] at ht
  rw [ht]
  dsimp only
  rw [argLoop_end (any_plain ws)]
  cases ws with
  | nil => exact ⟨_, rfl, rfl, rfl⟩
  | cons w ws =>
    have hmp : matchPartial helpParser.pos ((w :: ws).map .plain) =
        ([({ flags := [], dest := "SUBCOMMAND".toList, num := .opt }, [w])], [], ws.map .plain) := by
      have hm : matchPos .opt (.plain w :: ws.map .plain) = some ([w], ws.map .plain) := by
        simp only [matchPos, dashRun, dashRun_plains, List.nil_append]
      exact matchPartial_some (p := { flags := [], dest := "SUBCOMMAND".toList, num := .opt }) (ps := []) hm
    rw [hmp]
    dsimp only
    have hv : argValues { flags := [], dest := "SUBCOMMAND".toList, num := .opt } (dropDashes [w]) = .ok (.one (.text w)) := by
      rw [dropDashes_words (fun x hx => hws x (by simp at hx; simp [hx]))]
      rfl
    have hta : takeAct { flags := [], dest := "SUBCOMMAND".toList, num := .opt } [w] ⟨helpParser.defaults, [], [], none⟩ =
        .ok ⟨[("SUBCOMMAND".toList, .one (.text w))], [{ flags := [], dest := "SUBCOMMAND".toList, num := .opt }], [], none⟩ := by
      unfold takeAct
      dsimp only
      rw [if_pos rfl, hv]
      rfl
    simp only [takeActs]
    rw [hta]
    refine ⟨_, rfl, ?_, rfl⟩
    simp only [List.nil_append, List.map_map, List.drop_one, List.tail_cons]
    exact List.map_id'' (fun x => rfl) ws

end Cot
