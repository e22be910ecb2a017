import Verif.Lemmas.ArgActs
/-
Command lines: a whole command line for one parser.
-/
namespace Cot

/-- what the proofs need to know of a parser -/
structure OptsOk (P : ArgParser) : Prop where
  flags : FlagsOk P
  opts : ∀ o ∈ P.opts, OptOk o
  same : ∀ o ∈ P.opts, ∀ q ∈ P.opts, q.dest = o.dest → q = o ∨ ((∃ s, o.act = .setConst s) ∧ ∃ s, q.act = .setConst s)
  pos : ∀ p ∈ P.pos, p.flags = [] ∧ p.type = .text ∧ p.choices = none ∧ p.act = .store ∧ p.group = 0
  apart : ∀ p ∈ P.pos, ∀ o ∈ P.opts, o.dest ≠ p.dest
  posNodup : (P.pos.map ArgOpt.dest).Nodup

def isConst : ArgAct → Bool
  | .setConst _ => true
  | _ => false

theorem isConst_iff {a : ArgAct} : isConst a = true ↔ ∃ s, a = .setConst s := by
  cases a <;> simp [isConst]

def optsOkB (P : ArgParser) : Bool :=
  flagsOkB P && P.opts.all optOkB &&
  P.opts.all (fun o => P.opts.all (fun q => decide (q.dest = o.dest → q = o ∨ (isConst o.act = true ∧ isConst q.act = true)))) &&
  P.pos.all (fun p => decide (p.flags = [] ∧ p.type = .text ∧ p.choices = none ∧ p.act = .store ∧ p.group = 0)) &&
  P.pos.all (fun p => P.opts.all (fun o => decide (o.dest ≠ p.dest))) && decide (P.pos.map ArgOpt.dest).Nodup

theorem optsOkB_sound {P : ArgParser} (h : optsOkB P = true) : OptsOk P := by
  unfold optsOkB at h
  simp only [Bool.and_eq_true, decide_eq_true_eq, List.all_eq_true] at h
  obtain ⟨⟨⟨⟨⟨h1, h2⟩, h3⟩, h5⟩, h6⟩, h7⟩ := h
  refine ⟨flagsOkB_sound h1, fun o ho => optOkB_sound (h2 o ho), ?_, h5, h6, h7⟩
  intro o ho q hq hd
  rcases h3 o ho q hq hd with h | h
  · exact .inl h
  · exact .inr ⟨isConst_iff.1 h.1, isConst_iff.1 h.2⟩

/-- every use in a command line is of an option of the parser, with as many values as it may have -/
theorem uses_ok {P : ArgParser} (hr : ∀ o ∈ P.opts, o.num ≠ .rest) {l : List Str} {us : List ArgUse} {ws : List Str}
    (h : CmdLine P l us ws) : ∀ u ∈ us, u.opt ∈ P.opts ∧ FitsNum u.opt.num u.vals := by
  have one : ∀ (o : ArgOpt) (v : Str), o ∈ P.opts → o.num ≠ .zero → FitsNum o.num [v] := by
    intro o v ho hz
    have := hr o ho
    cases hn : o.num <;> simp_all [FitsNum]
  induction h with
  | done => simp
  | word _ _ ih => exact ih
  | use hs _ hn _ _ ih =>
    intro u hu
    rcases List.mem_cons.1 hu with rfl | hu
    · exact ⟨hs.1, hn⟩
    · exact ih u hu
  | attached hs hn _ ih =>
    intro u hu
    rcases List.mem_cons.1 hu with rfl | hu
    · exact ⟨hs.1, one _ _ hs.1 hn⟩
    · exact ih u hu
  | glued ho _ hn _ _ _ _ _ ih =>
    intro u hu
    rcases List.mem_cons.1 hu with rfl | hu
    · exact ⟨ho, one _ _ ho hn⟩
    · exact ih u hu
  | bundle _ hf ho _ _ _ hn _ _ ih =>
    intro u hu
    rcases List.mem_append.1 hu with hu | hu
    · obtain ⟨x, hx, rfl⟩ := List.mem_map.1 hu
      refine ⟨(hf x hx).1, ?_⟩
      dsimp only
      rw [(hf x hx).2.2]
      exact rfl
    · rcases List.mem_cons.1 hu with rfl | hu
      · exact ⟨ho, hn⟩
      · exact ih u hu
  | dashes => simp

/-! ### The defaults -/

def addDefault (ns : ArgSpace) (o : ArgOpt) : ArgSpace := if o.dest ∈ dkeys ns then ns else ns ++ [(o.dest, o.default)]

theorem dget?_snoc {κ ν : Type} [DecidableEq κ] (d : List (κ × ν)) (k x : κ) (v : ν) :
    dget? (d ++ [(k, v)]) x = match dget? d x with
      | some w => some w
      | none => if k = x then some v else none := by
  induction d with
  | nil => simp [dget?]
  | cons e d ih =>
    obtain ⟨j, w⟩ := e
    simp only [List.cons_append, dget?]
    by_cases h : j = x
    · simp [h]
    · simp only [h, if_false]
      exact ih

theorem addDefault_get (os : List ArgOpt) (ns : ArgSpace) (d : Str) :
    dget? (os.foldl addDefault ns) d = match dget? ns d with
      | some v => some v
      | none => (os.find? (fun o => decide (o.dest = d))).map ArgOpt.default := by
  induction os generalizing ns with
  | nil => cases h : dget? ns d <;> simp [h]
  | cons o os ih =>
    rw [List.foldl_cons, ih]
    unfold addDefault
    by_cases hm : o.dest ∈ dkeys ns
    · rw [if_pos hm]
      cases hg : dget? ns d with
      | some v => rfl
      | none =>
        have : o.dest ≠ d := by
          rintro rfl
          exact dget?_eq_none.1 hg hm
        rw [List.find?_cons_of_neg (by simpa using this)]
    · rw [if_neg hm, dget?_snoc]
      cases hg : dget? ns d with
      | some v => rfl
      | none =>
        by_cases hd : o.dest = d
        · simp [hd]
        · simp [hd]

theorem defaults_get {P : ArgParser} (hsame : ∀ o ∈ P.pos ++ P.opts, ∀ q ∈ P.pos ++ P.opts, q.dest = o.dest → q.default = o.default)
    {o : ArgOpt} (ho : o ∈ P.pos ++ P.opts) (hst : o.stored = true) : dget? P.defaults o.dest = some o.default := by
  have : P.defaults = ((P.pos ++ P.opts).filter ArgOpt.stored).foldl addDefault [] := rfl
  rw [this, addDefault_get]
  simp only [dget?_nil]
  cases hf : ((P.pos ++ P.opts).filter ArgOpt.stored).find? (fun q => decide (q.dest = o.dest)) with
  | none =>
    rw [List.find?_eq_none] at hf
    have := hf o (List.mem_filter.2 ⟨ho, hst⟩)
    simp at this
  | some q =>
    have hq := List.mem_of_find?_eq_some hf
    have hd := List.find?_some hf
    simp only [decide_eq_true_eq] at hd
    rw [Option.map_some, hsame o ho q (List.mem_filter.1 hq).1 hd]

theorem addDefault_nodup (os : List ArgOpt) {ns : ArgSpace} (h : (dkeys ns).Nodup) : (dkeys (os.foldl addDefault ns)).Nodup := by
  induction os generalizing ns with
  | nil => exact h
  | cons o os ih =>
    apply ih
    unfold addDefault
    split
    · exact h
    · rename_i hn
      have : dkeys (ns ++ [(o.dest, o.default)]) = dkeys ns ++ [o.dest] := by simp [dkeys]
      rw [this, List.nodup_append]
      refine ⟨h, by simp, ?_⟩
      intro a ha b hb
      rw [List.mem_singleton.1 hb]
      rintro rfl
      exact hn ha

theorem defaults_none {P : ArgParser} {d : Str} (hd : ∀ o ∈ P.pos ++ P.opts, o.dest ≠ d) : dget? P.defaults d = none := by
  have : P.defaults = ((P.pos ++ P.opts).filter ArgOpt.stored).foldl addDefault [] := rfl
  rw [this, addDefault_get]
  simp only [dget?_nil, Option.map_eq_none_iff, List.find?_eq_none, decide_eq_true_eq]
  intro o ho
  exact hd o (List.mem_filter.1 ho).1

theorem takeActs_nodup {evs : List (ArgOpt × List Str)} (hr : ∀ e ∈ evs, e.1.num ≠ .rest) {st st' : ArgState}
    (h : takeActs evs st = .ok st') (hn : (dkeys st.ns).Nodup) : (dkeys st'.ns).Nodup := by
  induction evs generalizing st with
  | nil =>
    simp only [takeActs, Except.ok.injEq] at h
    exact h ▸ hn
  | cons e evs ih =>
    simp only [takeActs] at h
    cases ht : takeAct e.1 e.2 st with
    | error x => rw [ht] at h; cases h
    | ok st1 =>
      rw [ht] at h
      obtain ⟨-, -, ns, hd, rfl⟩ := (takeAct_ok (hr e List.mem_cons_self)).1 ht
      refine ih (fun x hx => hr x (List.mem_cons_of_mem _ hx)) h ?_
      dsimp only
      unfold doAct at hd
      cases ha : e.1.act <;> rw [ha] at hd <;> dsimp only at hd <;>
        first
        | (simp only [Except.ok.injEq] at hd; exact hd ▸ nodup_dset hn)
        | cases hd

theorem leaf_defaults {P : ArgParser} (hP : OptsOk P) : ∀ o ∈ P.pos ++ P.opts, ∀ q ∈ P.pos ++ P.opts, q.dest = o.dest → q.default = o.default := by
  intro o ho q hq hd
  rcases List.mem_append.1 ho with ho | ho <;> rcases List.mem_append.1 hq with hq | hq
  · simp [ArgOpt.default, (hP.pos o ho).2.2.2.1, (hP.pos q hq).2.2.2.1]
  · exact absurd hd (hP.apart o ho q hq)
  · exact absurd hd.symm (hP.apart q hq o ho)
  · rcases hP.same o ho q hq hd with rfl | ⟨⟨s, h1⟩, t, h2⟩
    · rfl
    · simp [ArgOpt.default, h1, h2]

/-! ### A whole command line -/

theorem mem_placed {ps : List ArgOpt} {ws : List Str} {e : ArgOpt × List Str} (h : e ∈ placed ps ws) : e.1 ∈ ps ∧ ∃ w, e.2 = [w] := by
  obtain ⟨x, hx, rfl⟩ := List.mem_map.1 h
  exact ⟨(List.of_mem_zip hx).1, x.2, rfl⟩

/-- an action for a positional argument: it is one of the parser's and its value can be had -/
structure PosAct (P : ArgParser) (e : ArgOpt × List Str) : Prop where
  mem : e.1 ∈ P.pos
  num : e.1.num ≠ .rest
  val : ∃ v, argValues e.1 (evArgs e) = .ok v

/-- the actions of a command line: what they need to succeed and what they leave -/
theorem acts_line {P : ArgParser} (hP : OptsOk P) {us : List ArgUse} (huo : ∀ u ∈ us, u.opt ∈ P.opts ∧ FitsNum u.opt.num u.vals)
    (hp : ∀ u ∈ us, ¬ OnlyPrints u.opt) {evs : List (ArgOpt × List Str)} (h1 : evs.filter fromOpt = useActs us)
    (h2 : ∀ e ∈ evs, fromOpt e = false → PosAct P e) :
    (((∀ u ∈ us, u.Good) ∧ NoConflict us) → ∃ st, takeActs evs ⟨P.defaults, [], [], none⟩ = .ok st ∧ st.sub = none ∧ st.extras = [] ∧
      (∀ o ∈ P.opts, o.stored = true → ∃ v, dget? st.ns o.dest = some v ∧ ArgOutcome o (usesFor o.dest us) v) ∧
      (∀ p ∈ P.pos, dget? st.ns p.dest = ((evs.filter (fun x => !fromOpt x)).filter (fun e => decide (e.1.dest = p.dest))).foldl
        (fun cur e => newVal e cur) (some .absent)) ∧
      (∀ d, (∀ o ∈ P.pos ++ P.opts, o.dest ≠ d) → dget? st.ns d = none) ∧ (dkeys st.ns).Nodup) ∧
    (¬ ((∀ u ∈ us, u.Good) ∧ NoConflict us) → takeActs evs ⟨P.defaults, [], [], none⟩ = .error .usage) := by
  have hfl : ∀ u ∈ us, u.opt.flags ≠ [] := fun u hu => (hP.opts u.opt (huo u hu).1).flags
  have huse : ∀ e ∈ evs, fromOpt e = true → ∃ u ∈ us, e = (u.opt, u.vals) := by
    intro e he hf
    have : e ∈ useActs us := by
      rw [← h1]
      exact List.mem_filter.2 ⟨he, hf⟩
    obtain ⟨u, hu, rfl⟩ := List.mem_map.1 this
    exact ⟨u, hu, rfl⟩
  have hmem : ∀ u ∈ us, (u.opt, u.vals) ∈ evs := by
    intro u hu
    have : (u.opt, u.vals) ∈ useActs us := List.mem_map_of_mem (f := fun u : ArgUse => (u.opt, u.vals)) hu
    rw [← h1] at this
    exact (List.mem_filter.1 this).1
  have hdich : ∀ e ∈ evs, (fromOpt e = true ∧ ∃ u ∈ us, e = (u.opt, u.vals)) ∨ (fromOpt e = false ∧ PosAct P e) := by
    intro e he
    cases hf : fromOpt e with
    | true => exact .inl ⟨rfl, huse e he hf⟩
    | false => exact .inr ⟨rfl, h2 e he hf⟩
  have hrest : ∀ e ∈ evs, e.1.num ≠ .rest := by
    intro e he
    rcases hdich e he with ⟨-, u, hu, rfl⟩ | ⟨-, hm⟩
    · exact (hP.opts u.opt (huo u hu).1).norest
    · exact hm.num
  have hprints : ∀ e ∈ evs, ¬ OnlyPrints e.1 := by
    intro e he
    rcases hdich e he with ⟨-, u, hu, rfl⟩ | ⟨-, hm⟩
    · exact hp u hu
    · unfold OnlyPrints
      rw [(hP.pos e.1 hm.mem).2.2.2.1]
      simp
  have hgood : (∀ e ∈ evs, (∃ v, argValues e.1 (evArgs e) = .ok v) ∧ ¬ OnlyPrints e.1) ↔ ∀ u ∈ us, u.Good := by
    constructor
    · intro hall u hu
      obtain ⟨⟨v, hv⟩, -⟩ := hall (u.opt, u.vals) (hmem u hu)
      rw [good_iff (hfl u hu) (huo u hu).2]
      refine ⟨v, ?_⟩
      unfold evArgs at hv
      dsimp only at hv
      rwa [if_neg (hfl u hu)] at hv
    · intro hall e he
      refine ⟨?_, hprints e he⟩
      rcases hdich e he with ⟨-, u, hu, rfl⟩ | ⟨-, hm⟩
      · obtain ⟨v, hv⟩ := (good_iff (hfl u hu) (huo u hu).2).1 (hall u hu)
        refine ⟨v, ?_⟩
        unfold evArgs
        dsimp only
        rw [if_neg (hfl u hu)]
        exact hv
      · exact hm.val
  have hconf : evs.Pairwise (fun q e => ¬ Clash q.1 e.1) ↔ NoConflict us := by
    have hg0 : ∀ e ∈ evs, fromOpt e = false → e.1.group = 0 := by
      intro e he hf
      exact (hP.pos e.1 (h2 e he hf).mem).2.2.2.2
    have hfilt : (evs.filter fromOpt).Pairwise (fun q e => ¬ Clash q.1 e.1) ↔ evs.Pairwise (fun q e => ¬ Clash q.1 e.1) := by
      rw [List.pairwise_filter]
      constructor
      · intro hpw
        refine hpw.imp_of_mem ?_
        intro q e hq he himp hcl
        by_cases hfq : fromOpt q = true
        · by_cases hfe : fromOpt e = true
          · exact himp hfq hfe hcl
          · exact hcl.1 (hg0 e he (by simpa using hfe))
        · have := hg0 q hq (by simpa using hfq)
          exact hcl.1 (by rw [← hcl.2.1]; exact this)
      · intro hpw
        exact hpw.imp (fun hh _ _ => hh)
    rw [← hfilt, h1]
    unfold useActs NoConflict
    rw [List.pairwise_map]
    constructor
    · intro hpw
      refine hpw.imp ?_
      intro u w hncl h0 hg
      by_contra hne
      exact hncl ⟨by rw [← hg]; exact h0, hg, hne⟩
    · intro hpw
      refine hpw.imp ?_
      intro u w hh hcl
      exact hcl.2.2 (hh (by rw [hcl.2.1]; exact hcl.1) hcl.2.1)
  have hiff := takeActs_ok_iff hrest (st := ⟨P.defaults, [], [], none⟩)
  rw [hgood, hconf] at hiff
  constructor
  · rintro ⟨hg, hc⟩
    obtain ⟨st', hst⟩ := hiff.2 ⟨hg, by simp, hc⟩
    refine ⟨st', hst, takeActs_sub hrest hst, takeActs_extras hst, ?_, ?_, ?_, ?_⟩
    · intro o ho hst1
      rw [takeActs_get hrest hst o.dest, defaults_get (leaf_defaults hP) (List.mem_append_right _ ho) hst1]
      have hfe : evs.filter (fun e => decide (e.1.dest = o.dest)) = useActs (usesFor o.dest us) := by
        have : evs.filter (fun e => decide (e.1.dest = o.dest)) =
            (evs.filter fromOpt).filter (fun e => decide (e.1.dest = o.dest)) := by
          rw [List.filter_filter]
          apply List.filter_congr
          intro e he
          rcases hdich e he with ⟨hf, -⟩ | ⟨hf, hm⟩
          · simp [hf]
          · have := hP.apart e.1 hm.mem o ho
            simp [hf, Ne.symm this]
        rw [this, h1]
        unfold useActs usesFor
        rw [List.filter_map]
        rfl
      rw [hfe]
      refine outcome_of ?_ (hP.opts o ho) ?_ ?_ ?_
      · intro u hu
        have hu' := List.mem_filter.1 hu
        exact hP.same o ho u.opt (huo u hu'.1).1 (by simpa using hu'.2)
      · intro u hu
        exact (huo u (List.mem_filter.1 hu).1).2
      · intro u hu
        exact hg u (List.mem_filter.1 hu).1
      · unfold ArgOpt.stored at hst1
        unfold OnlyPrints
        rintro (h | h) <;> rw [h] at hst1 <;> cases hst1
    · intro p hpm
      have hpd : dget? P.defaults p.dest = some .absent := by
        have hstd : p.stored = true := by simp [ArgOpt.stored, (hP.pos p hpm).2.2.2.1]
        rw [defaults_get (leaf_defaults hP) (List.mem_append_left _ hpm) hstd]
        simp [ArgOpt.default, (hP.pos p hpm).2.2.2.1]
      rw [takeActs_get hrest hst p.dest, hpd]
      have hsplit : evs.filter (fun e => decide (e.1.dest = p.dest)) =
          (evs.filter (fun x => !fromOpt x)).filter (fun e => decide (e.1.dest = p.dest)) := by
        rw [List.filter_filter]
        apply List.filter_congr
        intro e he
        rcases hdich e he with ⟨hf, u, hu, rfl⟩ | ⟨hf, -⟩
        · have := hP.apart p hpm u.opt (huo u hu).1
          simp [this]
        · simp [hf]
      rw [hsplit]
    · intro d hd
      rw [takeActs_get hrest hst d, defaults_none hd]
      have : evs.filter (fun e => decide (e.1.dest = d)) = [] := by
        rw [List.filter_eq_nil_iff]
        intro e he
        simp only [decide_eq_true_eq]
        rcases hdich e he with ⟨-, u, hu, rfl⟩ | ⟨-, hm⟩
        · exact hd _ (List.mem_append_right _ (huo u hu).1)
        · exact hd _ (List.mem_append_left _ hm.mem)
      rw [this]
      rfl
    · exact takeActs_nodup hrest hst (addDefault_nodup _ (by simp [dkeys]))
  · intro hn
    cases ht : takeActs evs ⟨P.defaults, [], [], none⟩ with
    | ok st' =>
      have := hiff.1 ⟨st', ht⟩
      exact absurd ⟨this.1, this.2.2⟩ hn
    | error x => rw [takeActs_error hprints ht]

theorem argValues_pos {p : ArgOpt} (hn : p.num = .one) (ht : p.type = .text) (hc : p.choices = none) (w : Str) :
    argValues p (dropDashes [w]) = .ok (if w = ['-', '-'] then .list [] else .one (.text w)) := by
  by_cases hw : w = ['-', '-']
  · subst hw
    simp [dropDashes, argValues, hn, argAtoms]
  · simp [dropDashes, hw, argValues, hn, argAtom, ht, convArg, checkChoice, hc]

theorem words_ne {P : ArgParser} {l : List Str} {us : List ArgUse} {ws : List Str} (h : CmdLine P l us ws) : ∀ w ∈ ws, w ≠ ['-', '-'] := by
  induction h with
  | done => simp
  | word hw _ ih =>
    intro w hw'
    rcases List.mem_cons.1 hw' with rfl | hw'
    · exact word_ne hw
    · exact ih w hw'
  | use _ _ _ _ _ ih => exact ih
  | attached _ _ _ ih => exact ih
  | glued _ _ _ _ _ _ _ _ ih => exact ih
  | bundle _ _ _ _ _ _ _ _ _ ih => exact ih
  | dashes _ hd => exact hd

theorem placed_find {p : ArgOpt} {w : Str} : ∀ (ps : List ArgOpt) (ws : List Str) (i : Nat), (ps.map ArgOpt.dest).Nodup →
    ps[i]? = some p → ws[i]? = some w → (placed ps ws).filter (fun e => decide (e.1.dest = p.dest)) = [(p, [w])] := by
  intro ps
  induction ps with
  | nil => intro ws i _ h; simp at h
  | cons q ps ih =>
    intro ws i hn hq hw
    cases ws with
    | nil => simp at hw
    | cons x ws =>
      rw [placed_cons]
      simp only [List.map_cons, List.nodup_cons] at hn
      cases i with
      | zero =>
        simp only [List.getElem?_cons_zero, Option.some.injEq] at hq hw
        subst hq hw
        rw [List.filter_cons_of_pos (by simp)]
        congr 1
        rw [List.filter_eq_nil_iff]
        intro e he
        simp only [decide_eq_true_eq]
        intro hd
        exact hn.1 (hd ▸ List.mem_map_of_mem (f := ArgOpt.dest) (mem_placed he).1)
      | succ i =>
        simp only [List.getElem?_cons_succ] at hq hw
        have hne : q.dest ≠ p.dest := by
          intro hd
          exact hn.1 (hd ▸ List.mem_map_of_mem (f := ArgOpt.dest) (List.mem_of_getElem? hq))
        rw [List.filter_cons_of_neg (by simpa using hne)]
        exact ih ws i hn.2 hq hw

/-- what a parser leaves behind for the uses `us` -/
structure Left (P : ArgParser) (us : List ArgUse) (ns : ArgSpace) : Prop where
  opts : ∀ o ∈ P.opts, o.stored = true → ∃ v, dget? ns o.dest = some v ∧ ArgOutcome o (usesFor o.dest us) v
  other : ∀ d, (∀ o ∈ P.pos ++ P.opts, o.dest ≠ d) → dget? ns d = none
  nodup : (dkeys ns).Nodup

/-- parsing a command line that uses no option that only prints -/
theorem argParse_line {P : ArgParser} (hP : OptsOk P) (hone : OnlyOnes P.pos) {l : List Str} {us : List ArgUse} {ws : List Str}
    (h : CmdLine P l us ws) (hp : ∀ u ∈ us, ¬ OnlyPrints u.opt) :
    (((∀ u ∈ us, u.Good) ∧ NoConflict us) → ∃ st, argParse P l = .ok (st, P.pos.drop ws.length) ∧
      (st.extras = [] ↔ ws.length ≤ P.pos.length) ∧ Left P us st.ns ∧
      (∀ (i : Nat) (p : ArgOpt) (w : Str), P.pos[i]? = some p → ws[i]? = some w → dget? st.ns p.dest = some (.one (.text w)))) ∧
    (¬ ((∀ u ∈ us, u.Good) ∧ NoConflict us) → argParse P l = .error .usage) := by
  obtain ⟨ts, t1, t2, -⟩ := tokLine_of hP.flags h
  have huo := uses_ok (fun o ho => (hP.opts o ho).norest) h
  have hfl : ∀ u ∈ us, u.opt.flags ≠ [] := fun u hu => (hP.opts u.opt (huo u hu).1).flags
  obtain ⟨evs, ex, e1, e2, e3, e4⟩ := argLoop_line P (ts.length + 1) t2 hfl hone (by omega)
  have hpos : ∀ e ∈ evs, fromOpt e = false → PosAct P e := by
    intro e he hf
    have : e ∈ placed P.pos ws := by
      rw [← e2]
      exact List.mem_filter.2 ⟨he, by simpa using hf⟩
    obtain ⟨hpm, w, hw⟩ := mem_placed this
    refine ⟨hpm, by simp [(hone e.1 hpm).2], if w = ['-', '-'] then .list [] else .one (.text w), ?_⟩
    unfold evArgs
    rw [if_pos (hone e.1 hpm).1, hw]
    exact argValues_pos (hone e.1 hpm).2 (hP.pos e.1 hpm).2.1 (hP.pos e.1 hpm).2.2.1 w
  obtain ⟨g1, g2⟩ := acts_line hP huo hp e1 hpos
  have hparse : argParse P l = loopEnd evs ex (P.pos.drop ws.length) ⟨P.defaults, [], [], none⟩ := by
    unfold argParse
    rw [t1]
    exact e4 _
  constructor
  · intro hg
    obtain ⟨st, hst, -, k2, k3, k4, k5, k6⟩ := g1 hg
    refine ⟨{ st with extras := st.extras ++ ex }, ?_, ?_, ⟨k3, k5, k6⟩, ?_⟩
    · rw [hparse]
      unfold loopEnd
      rw [hst]
    · dsimp only
      rw [k2, List.nil_append, e3]
    · intro i p w hpi hwi
      have hpm : p ∈ P.pos := List.mem_of_getElem? hpi
      have hww : w ∈ ws := List.mem_of_getElem? hwi
      dsimp only
      rw [k4 p hpm, e2, placed_find P.pos ws i hP.posNodup hpi hwi]
      simp only [List.foldl_cons, List.foldl_nil, newVal, (hP.pos p hpm).2.2.2.1]
      unfold evVal evArgs
      dsimp only
      rw [if_pos (hone p hpm).1, argValues_pos (hone p hpm).2 (hP.pos p hpm).2.1 (hP.pos p hpm).2.2.1 w, if_neg (words_ne h w hww)]
  · intro hn
    rw [hparse]
    unfold loopEnd
    rw [g2 hn]

/-! ### Options without values, then something else -/

theorem tokLine_length {P : ArgParser} {ts : List ArgTok} {us : List ArgUse} (h : TokLine P ts us []) (hz : ∀ u ∈ us, u.opt.num = .zero)
    (n : Nat) (rest : List ArgTok) (ps : List ArgOpt) (st : ArgState) :
    argLoop P (ts.length + n) (ts ++ rest) ps st = match takeActs (useActs us) st with
      | .error e => .error e
      | .ok st' => argLoop P n rest ps st' := by
  generalize hw : ([] : List Str) = ws at h
  induction h generalizing st with
  | done => simp [useActs, takeActs]
  | word => cases hw
  | @use s o f vals ts us ws hn hm h2 ih =>
    have hz0 := hz _ List.mem_cons_self
    dsimp only at hz0
    rw [hz0] at hn
    have hv : vals = [] := hn
    subst hv
    have hlen : (ArgTok.option s ⟨o, f, none⟩ :: (([] : List Str).map ArgTok.plain ++ ts)).length + n = (ts.length + n) + 1 := by
      simp only [List.map_nil, List.nil_append, List.length_cons]
      omega
    rw [hlen, List.cons_append, argLoop_opt rfl]
    have hc := consumeOpt_use (P := P) (s := s) (f := f) (o := o) (vals := []) (ts := ts ++ rest) (st := st) (by rw [hz0]; exact rfl)
      (by rw [hz0]; exact fun hh => hh.elim)
    simp only [List.map_nil, List.nil_append] at hc ⊢
    rw [hc]
    have hu : useActs (⟨o, []⟩ :: us) = (o, []) :: useActs us := rfl
    rw [hu]
    simp only [takeActs]
    cases takeAct o [] st with
    | error e => rfl
    | ok st1 => exact ih (fun u hu => hz u (List.mem_cons_of_mem _ hu)) st1 hw
  | attached hn => exact absurd (hz _ List.mem_cons_self) hn
  | @bundle s o f v fl last vals ts us ws hf hb hn hm h2 ih =>
    have hz0 := hz ⟨last, vals⟩ (List.mem_append_right _ List.mem_cons_self)
    dsimp only at hz0
    rw [hz0] at hn
    have hv : vals = [] := hn
    subst hv
    have hlen : (ArgTok.option s ⟨o, f, some (false, v)⟩ :: (([] : List Str).map ArgTok.plain ++ ts)).length + n = (ts.length + n) + 1 := by
      simp only [List.map_nil, List.nil_append, List.length_cons]
      omega
    rw [hlen, List.cons_append, argLoop_opt rfl]
    have hc := consumeOpt_bundle (P := P) (s := s) (vals := []) (ts := ts ++ rest) (st := st) hf hb (by rw [hz0]; exact rfl)
      (by rw [hz0]; exact fun hh => hh.elim)
    simp only [List.map_nil, List.nil_append] at hc ⊢
    rw [hc]
    have hu : useActs (fl.map (fun q => (⟨q, []⟩ : ArgUse)) ++ ⟨last, []⟩ :: us) =
        (fl.map (fun q => (q, [])) ++ [(last, [])]) ++ useActs us := by
      simp [useActs, List.map_map]
    rw [hu, takeActs_append _ (useActs us)]
    cases takeActs (fl.map (fun q => (q, [])) ++ [(last, [])]) st with
    | error e => rfl
    | ok st1 => exact ih (fun u hu => hz u (List.mem_append_right _ (List.mem_cons_of_mem _ hu))) st1 hw
  | dashes hne => exact absurd hw.symm hne

theorem argToks_str {P : ArgParser} {l : List Str} {ts : List ArgTok} (h : argToks P l = .ok ts) : ts.map ArgTok.str = l := by
  induction l generalizing ts with
  | nil =>
    simp only [argToks, Except.ok.injEq] at h
    subst h
    rfl
  | cons s l ih =>
    rw [argToks] at h
    split at h
    · rename_i hs
      simp only [Except.ok.injEq] at h
      subst h
      rw [List.map_cons, List.map_map, hs]
      congr 1
      exact List.map_id'' (fun x => rfl) l
    · cases hk : argKind P s with
      | error e => rw [hk] at h; cases h
      | ok k =>
        rw [hk] at h
        dsimp only at h
        cases ht : argToks P l with
        | error e => rw [ht] at h; cases h
        | ok ts' =>
          rw [ht] at h
          simp only [Except.ok.injEq] at h
          subst h
          rw [List.map_cons, ih ht]
          cases k <;> rfl

theorem argToks_append {P : ArgParser} {l r : List Str} {ts tr : List ArgTok} (hd : ['-', '-'] ∉ l) (h : argToks P l = .ok ts)
    (hr : argToks P r = .ok tr) : argToks P (l ++ r) = .ok (ts ++ tr) := by
  induction l generalizing ts with
  | nil =>
    simp only [argToks, Except.ok.injEq] at h
    subst h
    exact hr
  | cons s l ih =>
    simp only [List.mem_cons, not_or] at hd
    rw [List.cons_append, argToks, if_neg (Ne.symm hd.1)]
    rw [argToks, if_neg (Ne.symm hd.1)] at h
    cases hk : argKind P s with
    | error e => rw [hk] at h; cases h
    | ok k =>
      rw [hk] at h
      dsimp only at h ⊢
      cases ht : argToks P l with
      | error e => rw [ht] at h; cases h
      | ok ts' =>
        rw [ht] at h
        simp only [Except.ok.injEq] at h
        subst h
        rw [ih hd.2 ht]
        rfl

theorem argToks_cons_word {P : ArgParser} (hP : FlagsOk P) {w : Str} (hw : Word w) {r : List Str} {tr : List ArgTok}
    (hr : argToks P r = .ok tr) : argToks P (w :: r) = .ok (.plain w :: tr) := by
  rw [argToks, if_neg (word_ne hw), argKind_word hP hw]
  dsimp only
  rw [hr]
  rfl

/-- there are no two dashes in a command line without words -/
theorem noDashes_of {P : ArgParser} (hP : FlagsOk P) {l : List Str} {us : List ArgUse} (h : CmdLine P l us []) : ['-', '-'] ∉ l := by
  have hname : ∀ s o, NamesOpt P s o → s ≠ ['-', '-'] := by
    rintro s o ⟨ho, hs | ⟨-, h, -⟩⟩
    · exact hP.two (s, o) (mem_flagTable.2 ⟨ho, hs⟩)
    · exact h
  have hne : ∀ s o, NamesOpt P s o → 2 ≤ s.length := by
    rintro s o ⟨ho, hs | ⟨h, -, -⟩⟩
    · exact hP.len (s, o) (mem_flagTable.2 ⟨ho, hs⟩)
    · exact h.length_le
  generalize hw : ([] : List Str) = ws at h
  induction h with
  | done => simp
  | word => cases hw
  | @use s o vals l us ws hs hv hn hm h ih =>
    simp only [List.mem_cons, List.mem_append, not_or]
    exact ⟨Ne.symm (hname _ _ hs), fun hm => word_ne (hv _ hm) rfl, ih hw⟩
  | @attached s v o l us ws hs hn h ih =>
    simp only [List.mem_cons, not_or]
    refine ⟨?_, ih hw⟩
    intro he
    have := congrArg List.length he
    have := hne _ _ hs
    simp only [List.length_cons, List.length_nil, List.length_append] at *
    omega
  | @glued c v o l us ws ho hf hn hv h1 h2 heq h ih =>
    simp only [List.mem_cons, not_or]
    refine ⟨?_, ih hw⟩
    intro he
    cases v with
    | nil => exact hv rfl
    | cons x v => simp at he
  | @bundle fl c o vals l us ws hne hf ho hc hx hv hn hm h ih =>
    simp only [List.mem_cons, List.mem_append, not_or]
    refine ⟨?_, fun hm => word_ne (hv _ hm) rfl, ih hw⟩
    intro he
    have := congrArg List.length he
    have := List.length_pos_iff.2 hne
    simp only [List.length_cons, List.length_nil, List.length_append, List.length_map] at *
    omega
  | dashes hne => exact absurd hw.symm hne

/-! ### Namespaces of subcommands -/

theorem mergeSpace_get {sub : ArgSpace} (hn : (dkeys sub).Nodup) (ns : ArgSpace) (k : Str) :
    dget? (mergeSpace ns sub) k = match dget? sub k with
      | some v => some v
      | none => dget? ns k := by
  unfold mergeSpace
  induction sub generalizing ns with
  | nil => rfl
  | cons e sub ih =>
    obtain ⟨x, v⟩ := e
    have hn' : x ∉ dkeys sub ∧ (dkeys sub).Nodup := by simpa [dkeys] using hn
    rw [List.foldl_cons, ih hn'.2, dget?_dset]
    by_cases hx : x = k
    · subst hx
      rw [dget?_eq_none.2 hn'.1]
      simp [dget?]
    · have : dget? ((x, v) :: sub) k = dget? sub k := by simp [dget?, hx]
      rw [this]
      cases dget? sub k with
      | some w => rfl
      | none =>
        dsimp only
        rw [if_neg hx]

end Cot
