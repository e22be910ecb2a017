import Verif.Lemmas.ArgCot
/-
Options that only print a text (`--help`, `--version`): parsing ends when such an option is reached.
-/
namespace Cot

/-- how parsing ends at an option that only prints -/
def stopOf (o : ArgOpt) : ArgStop :=
  match o.act with
  | .version => .version
  | _ => .help

theorem takeAct_prints {o : ArgOpt} {vals : List Str} (hok : OptOk o) (hg : o.group = 0) (hp : OnlyPrints o) (hv : FitsNum o.num vals)
    (st : ArgState) : takeAct o vals st = .error (stopOf o) := by
  have hz : o.num = .zero := hok.other (by rcases hp with h | h <;> simp [h]) (by rcases hp with h | h <;> simp [h])
  rw [hz] at hv
  have hv : vals = [] := hv
  subst hv
  unfold takeAct
  rw [hz]
  dsimp only
  have ha : argValues o (if o.flags = [] then dropDashes [] else []) = .ok (.list []) := by
    have : (if o.flags = [] then dropDashes [] else ([] : List Str)) = [] := by split <;> rfl
    rw [this]
    unfold argValues
    rw [hz]
    rfl
  rw [ha]
  dsimp only
  rw [if_neg (by simp [hg])]
  unfold doAct stopOf
  rcases hp with h | h <;> rw [h]

/-- the actions up to and at an option that only prints -/
theorem acts_prints {P : ArgParser} (hP : OptsOk P) (hgz : ∀ o ∈ P.opts, OnlyPrints o → o.group = 0) {us a b : List ArgUse} {u : ArgUse}
    (huo : ∀ u ∈ us, u.opt ∈ P.opts ∧ FitsNum u.opt.num u.vals) (hus : us = a ++ u :: b) (hpa : ∀ x ∈ a, ¬ OnlyPrints x.opt)
    (hu : OnlyPrints u.opt) {evs : List (ArgOpt × List Str)} (h1 : evs.filter fromOpt = useActs us)
    (h2 : ∀ e ∈ evs, fromOpt e = false → PosAct P e) :
    (((∀ x ∈ a, x.Good) ∧ NoConflict a) → takeActs evs ⟨P.defaults, [], [], none⟩ = .error (stopOf u.opt)) ∧
    (¬ ((∀ x ∈ a, x.Good) ∧ NoConflict a) → takeActs evs ⟨P.defaults, [], [], none⟩ = .error .usage) := by
  subst hus
  have hsp : useActs (a ++ u :: b) = useActs a ++ (u.opt, u.vals) :: useActs b := by simp [useActs]
  rw [hsp, List.filter_eq_append_iff] at h1
  obtain ⟨e1, e2, rfl, f1, f2⟩ := h1
  rw [List.filter_eq_cons_iff] at f2
  obtain ⟨m1, m2, rfl, f3, f4, f5⟩ := f2
  have hall : (e1 ++ m1).filter fromOpt = useActs a := by
    rw [List.filter_append, f1, List.filter_eq_nil_iff.2 f3, List.append_nil]
  have heq : e1 ++ (m1 ++ (u.opt, u.vals) :: m2) = (e1 ++ m1) ++ (u.opt, u.vals) :: m2 := by simp
  rw [heq] at h2 ⊢
  obtain ⟨g1, g2⟩ := acts_line hP (fun x hx => huo x (List.mem_append_left _ hx)) hpa hall
    (fun e he => h2 e (List.mem_append_left _ he))
  obtain ⟨ho, hf⟩ := huo u (by simp)
  rw [takeActs_append]
  constructor
  · intro hr
    obtain ⟨st, hst, -⟩ := g1 hr
    rw [hst]
    dsimp only
    rw [takeActs, takeAct_prints (hP.opts _ ho) (hgz _ ho hu) hu hf]
  · intro hr
    rw [g2 hr]

theorem argParse_prints {P : ArgParser} (hP : OptsOk P) (hone : OnlyOnes P.pos) (hgz : ∀ o ∈ P.opts, OnlyPrints o → o.group = 0)
    {l : List Str} {us a b : List ArgUse} {u : ArgUse} {ws : List Str} (h : CmdLine P l us ws) (hus : us = a ++ u :: b)
    (hpa : ∀ x ∈ a, ¬ OnlyPrints x.opt) (hu : OnlyPrints u.opt) :
    (((∀ x ∈ a, x.Good) ∧ NoConflict a) → argParse P l = .error (stopOf u.opt)) ∧
    (¬ ((∀ x ∈ a, x.Good) ∧ NoConflict a) → argParse P l = .error .usage) := by
  obtain ⟨ts, t1, t2, -⟩ := tokLine_of hP.flags h
  have huo := uses_ok (fun o ho => (hP.opts o ho).norest) h
  have hfl : ∀ u ∈ us, u.opt.flags ≠ [] := fun u hu => (hP.opts u.opt (huo u hu).1).flags
  obtain ⟨evs, ex, e1, e2, e3, e4⟩ := argLoop_line P (ts.length + 1) t2 hfl hone (by omega)
  have hpos : ∀ e ∈ evs, fromOpt e = false → PosAct P e := by
    intro e he hf
    have : e ∈ placed P.pos ws := by
      rw [← e2]
      exact List.mem_filter.2 ⟨he, by simpa using hf⟩
    obtain ⟨hpm, w, hw⟩ := mem_placed this
    refine ⟨hpm, by simp [(hone e.1 hpm).2], if w = ['-', '-'] then .list [] else .one (.text w), ?_⟩
    unfold evArgs
    rw [if_pos (hone e.1 hpm).1, hw]
    exact argValues_pos (hone e.1 hpm).2 (hP.pos e.1 hpm).2.1 (hP.pos e.1 hpm).2.2.1 w
  obtain ⟨g1, g2⟩ := acts_prints hP hgz huo hus hpa hu e1 hpos
  have hparse : argParse P l = loopEnd evs ex (P.pos.drop ws.length) ⟨P.defaults, [], [], none⟩ := by
    unfold argParse
    rw [t1]
    exact e4 _
  rw [hparse]
  unfold loopEnd
  constructor
  · intro hr
    rw [g1 hr]
  · intro hr
    rw [g2 hr]

theorem argParse_top_prints {P : ArgParser} {sub : ArgOpt} (hP : TopOk P sub) (hgz : ∀ o ∈ P.opts, OnlyPrints o → o.group = 0)
    {g : List Str} {gus a b : List ArgUse} {u : ArgUse} (hg : CmdLine P g gus []) (hus : gus = a ++ u :: b)
    (hpa : ∀ x ∈ a, ¬ OnlyPrints x.opt) (hu : OnlyPrints u.opt) {l : List Str} (hl : ClearFor P l) :
    (NoConflict a → argParse P (g ++ l) = .error (stopOf u.opt)) ∧ (¬ NoConflict a → argParse P (g ++ l) = .error .usage) := by
  have hF := hP.opts.flags
  obtain ⟨tg, t1, t2, -⟩ := tokLine_of hF hg
  obtain ⟨tl, t3⟩ := argToks_ok hF hP.short hl
  have huo := uses_ok (fun o ho => (hP.opts.opts o ho).norest) hg
  have hz : ∀ u ∈ gus, u.opt.num = .zero := fun u hu => hP.zero u.opt (huo u hu).1
  have hfl : ∀ u ∈ gus, u.opt.flags ≠ [] := fun u hu => (hP.opts.opts u.opt (huo u hu).1).flags
  have hgood : ∀ u ∈ gus, u.Good := by
    intro u hu s hs
    have hv := (huo u hu).2
    rw [hz u hu] at hv
    have hv : u.vals = [] := hv
    unfold ArgUse.texts at hs
    rw [if_neg (by simp [hz u hu]), hv] at hs
    cases hs
  have e1 : (useActs gus).filter fromOpt = useActs gus := by
    rw [List.filter_eq_self]
    intro e he
    obtain ⟨u, hu, rfl⟩ := List.mem_map.1 he
    have := hfl u hu
    simpa [fromOpt] using this
  have e2 : ∀ e ∈ useActs gus, fromOpt e = false → PosAct P e := by
    intro e he hf
    obtain ⟨u, hu, rfl⟩ := List.mem_map.1 he
    have := hfl u hu
    simp only [fromOpt, Bool.not_eq_false', List.isEmpty_iff] at hf
    exact absurd hf this
  obtain ⟨g1, g2⟩ := acts_prints hP.opts hgz huo hus hpa hu e1 e2
  have hga : ∀ x ∈ a, x.Good := fun x hx => hgood x (by rw [hus]; exact List.mem_append_left _ hx)
  have hparse : argParse P (g ++ l) = match takeActs (useActs gus) ⟨P.defaults, [], [], none⟩ with
      | .error e => .error e
      | .ok st => argLoop P (tl.length + 1) tl P.pos st := by
    unfold argParse
    rw [argToks_append (noDashes_of hF hg) t1 t3]
    dsimp only
    have hlen : (tg ++ tl).length + 1 = tg.length + (tl.length + 1) := by
      simp only [List.length_append]
      omega
    rw [hlen, tokLine_length t2 hz]
    cases takeActs (useActs gus) ⟨P.defaults, [], [], none⟩ <;> rfl
  constructor
  · intro hc
    rw [hparse, g1 ⟨hga, hc⟩]
  · intro hc
    rw [hparse, g2 (fun hh => hc hh.2)]

/-- the options of COT's parsers that only print are in no exclusive group -/
theorem cot_prints : ∀ P ∈ mainParser :: esxiParser :: cotCommands.map SubCommand.parser, ∀ o ∈ P.opts, OnlyPrints o → o.group = 0 := by
  unfold OnlyPrints
  decide +kernel

theorem prints_stop {o : ArgOpt} {k : ArgStop} (h : Prints o k) : OnlyPrints o ∧ stopOf o = k := by
  unfold OnlyPrints stopOf
  cases k with
  | usage => exact h.elim
  | help =>
    have h : o.act = .help := h
    rw [h]
    exact ⟨.inl rfl, rfl⟩
  | version =>
    have h : o.act = .version := h
    rw [h]
    exact ⟨.inr rfl, rfl⟩

end Cot
