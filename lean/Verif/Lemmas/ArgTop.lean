import Verif.Lemmas.ArgLeaf
/-
Command lines: commands below the main parser, abbreviations that are ambiguous, and options nobody knows.
-/
namespace Cot

/-! ### Ambiguous abbreviations -/

theorem isFlag_iff {P : ArgParser} {f : Str} : IsFlag P f ↔ ∃ o, (f, o) ∈ P.flagTable :=
  ⟨fun ⟨o, ho, hf⟩ => ⟨o, mem_flagTable.2 ⟨ho, hf⟩⟩, fun ⟨o, h⟩ => ⟨o, (mem_flagTable.1 h).1, (mem_flagTable.1 h).2⟩⟩

theorem byFlag_none_iff {P : ArgParser} {f : Str} : P.byFlag f = none ↔ ¬ IsFlag P f := by
  constructor
  · rintro h ⟨o, ho, hf⟩
    exact dget?_eq_none.1 h (List.mem_map_of_mem (f := Prod.fst) (mem_flagTable.2 ⟨ho, hf⟩))
  · intro h
    exact byFlag_none (fun q hq hf => h ⟨q, hq, hf⟩)

theorem two_of_filter {α : Type} {t : List (Str × α)} (hn : (dkeys t).Nodup) {p : Str × α → Bool} (h : 2 ≤ (t.filter p).length) :
    ∃ x y, x ∈ t ∧ y ∈ t ∧ x.1 ≠ y.1 ∧ p x = true ∧ p y = true := by
  cases hf : t.filter p with
  | nil => rw [hf] at h; simp at h
  | cons x r =>
    cases r with
    | nil => rw [hf] at h; simp at h
    | cons y r =>
      have hx : x ∈ t.filter p := by rw [hf]; simp
      have hy : y ∈ t.filter p := by rw [hf]; simp
      refine ⟨x, y, (List.mem_filter.1 hx).1, (List.mem_filter.1 hy).1, ?_, (List.mem_filter.1 hx).2, (List.mem_filter.1 hy).2⟩
      have hs : (dkeys (t.filter p)).Nodup := List.Nodup.sublist (List.Sublist.map _ List.filter_sublist) hn
      rw [hf] at hs
      simp only [dkeys, List.map_cons, List.nodup_cons, List.mem_cons, not_or] at hs
      exact hs.1.1

theorem two_le_filter {α : Type} {t : List (Str × α)} {p : Str × α → Bool} {x y : Str × α} (hx : x ∈ t) (hy : y ∈ t) (hne : x.1 ≠ y.1)
    (px : p x = true) (py : p y = true) : 2 ≤ (t.filter p).length := by
  have hx' : x ∈ t.filter p := List.mem_filter.2 ⟨hx, px⟩
  have hy' : y ∈ t.filter p := List.mem_filter.2 ⟨hy, py⟩
  cases hf : t.filter p with
  | nil => rw [hf] at hx'; simp at hx'
  | cons a r =>
    cases r with
    | nil =>
      rw [hf] at hx' hy'
      simp only [List.mem_singleton] at hx' hy'
      exact absurd (congrArg Prod.fst (hx'.trans hy'.symm)) hne
    | cons b r => simp

theorem byHits_ok {s : Str} {l : List ArgHit} (h : l.length ≤ 1) : ∃ k, byHits s l = .ok k := by
  match l, h with
  | [], _ =>
    unfold byHits
    dsimp only
    split
    · exact ⟨_, rfl⟩
    · split <;> exact ⟨_, rfl⟩
  | [x], _ => exact ⟨_, rfl⟩
  | _ :: _ :: _, h => simp at h

theorem byHits_error {s : Str} {l : List ArgHit} (h : 2 ≤ l.length) : byHits s l = .error .usage := by
  match l, h with
  | [], h => simp at h
  | [x], h => simp at h
  | _ :: _ :: _, _ => rfl

theorem stem_partEq {s : Str} : ∃ p, Stem s p ∧ ((partEq s = none ∧ s = p) ∨ ∃ v, partEq s = some (p, v) ∧ s = p ++ '=' :: v) := by
  cases h : partEq s with
  | none =>
    have : '=' ∉ s := by
      intro hm
      unfold partEq at h
      cases hd : s.dropWhile (fun c => c != '=') with
      | nil =>
        rw [List.dropWhile_eq_nil_iff] at hd
        have := hd '=' hm
        simp at this
      | cons x r => rw [hd] at h; cases h
    exact ⟨s, ⟨this, .inl rfl⟩, .inl ⟨rfl, rfl⟩⟩
  | some pv =>
    obtain ⟨p, v⟩ := pv
    obtain ⟨hs, hp⟩ := partEq_split h
    exact ⟨p, ⟨hp, .inr ⟨v, hs⟩⟩, .inr ⟨v, rfl, hs⟩⟩

theorem stem_unique {s p q : Str} (hp : Stem s p) (hq : Stem s q) : p = q := by
  obtain ⟨hp0, hp⟩ := hp
  obtain ⟨hq0, hq⟩ := hq
  rcases hp with rfl | ⟨v, rfl⟩
  · rcases hq with rfl | ⟨w, rfl⟩
    · rfl
    · exact absurd (by simp) hp0
  · rcases hq with rfl | ⟨w, hw⟩
    · exact absurd (by simp) hq0
    · have h1 := partEq_append (v := v) hp0
      rw [hw, partEq_append hq0] at h1
      simp only [Option.some.injEq, Prod.mk.injEq] at h1
      exact h1.1.symm

/-- the flags of one dash have one letter -/
def ShortFlags (P : ArgParser) : Prop := ∀ f, IsFlag P f → ['-', '-'] <+: f ∨ f.length = 2

theorem longHits_length {P : ArgParser} {s p : Str} (h : Stem s p) :
    (longHits P s).length = (P.flagTable.filter (fun fo => hasPrefix p fo.1)).length := by
  obtain ⟨q, hq, ⟨hn, rfl⟩ | ⟨v, hv, -⟩⟩ := stem_partEq (s := s)
  · rw [stem_unique h hq]
    unfold longHits
    rw [hn]
    simp
  · rw [stem_unique h hq]
    unfold longHits
    rw [hv]
    simp

theorem argKind_ok {P : ArgParser} (hP : FlagsOk P) (hS : ShortFlags P) {s : Str} (hs : s ≠ ['-', '-']) (ha : ¬ AmbiguousIn P s) :
    ∃ k, argKind P s = .ok k := by
  unfold argKind
  by_cases h0 : s.head? ≠ some '-'
  · rw [if_pos h0]
    exact ⟨_, rfl⟩
  · rw [if_neg h0]
    cases hb : P.byFlag s with
    | some o => exact ⟨_, rfl⟩
    | none =>
      dsimp only
      by_cases h1 : s.length = 1
      · rw [if_pos h1]
        exact ⟨_, rfl⟩
      · rw [if_neg h1]
        cases he : byEq P s with
        | some x => exact ⟨_, rfl⟩
        | none =>
          dsimp only
          apply byHits_ok
          by_cases hl : ['-', '-'] <+: s
          · rw [optionHits_long hl]
            obtain ⟨p, hst, hpe⟩ := stem_partEq (s := s)
            rw [longHits_length hst]
            by_contra hgt
            obtain ⟨x, y, hx, hy, hne, px, py⟩ := two_of_filter hP.nodup (Nat.lt_of_not_le hgt)
            refine ha ⟨hs, p, hst, ?_, ?_, x.1, y.1, hne, isFlag_iff.2 ⟨x.2, hx⟩, isFlag_iff.2 ⟨y.2, hy⟩, hasPrefix_iff.1 px,
              hasPrefix_iff.1 py⟩
            · rcases hpe with ⟨-, rfl⟩ | ⟨v, -, rfl⟩
              · exact hl
              · have h0 := hst.1
                obtain ⟨t, ht⟩ := hl
                cases p with
                | nil => simp at ht
                | cons a p =>
                  cases p with
                  | nil => simp at ht
                  | cons b p =>
                    simp only [List.cons_append, List.cons.injEq] at ht
                    exact ⟨p, by simp [← ht.1, ← ht.2.1]⟩
            · rcases hpe with ⟨-, rfl⟩ | ⟨v, hv, rfl⟩
              · exact byFlag_none_iff.1 hb
              · unfold byEq at he
                rw [hv] at he
                simp only [Option.map_eq_none_iff] at he
                exact byFlag_none_iff.1 he
          · have hh : optionHits P s = shortHits P s := by
              unfold optionHits
              split
              · exact absurd ⟨_, rfl⟩ hl
              · rfl
            rw [hh]
            unfold shortHits
            -- only the flag of the first letter can match
            have hpre : ∀ f, IsFlag P f → ¬ hasPrefix s f = true := by
              intro f hf hpx
              rw [hasPrefix_iff] at hpx
              have hlen : 2 ≤ s.length := by
                cases s with
                | nil => simp at h0
                | cons a s =>
                  cases s with
                  | nil => simp at h1
                  | cons b s => simp
              rcases hS f hf with h2 | h2
              · apply hl
                obtain ⟨t, rfl⟩ := h2
                obtain ⟨u, hu⟩ := hpx
                match s, hlen with
                | a :: b :: s, _ =>
                  simp only [List.cons_append, List.nil_append, List.cons.injEq] at hu
                  exact ⟨s, by simp [hu.1, hu.2.1]⟩
              · have : s = f := hpx.eq_of_length (Nat.le_antisymm hpx.length_le (by omega))
                exact byFlag_none_iff.1 hb (this ▸ hf)
            by_cases htk : IsFlag P (s.take 2)
            · obtain ⟨o, ho⟩ := isFlag_iff.1 htk
              rw [filterMap_single hP.nodup (f := s.take 2) (o := o) (b := ⟨o, s.take 2, some (false, s.drop 2)⟩) ho (by simp)]
              · simp
              · intro x hx hne
                rw [if_neg hne, if_neg (hpre x.1 (isFlag_iff.2 ⟨x.2, hx⟩))]
            · have : P.flagTable.filterMap (fun fo =>
                  if fo.1 = s.take 2 then some (⟨fo.2, fo.1, some (false, s.drop 2)⟩ : ArgHit)
                  else if hasPrefix s fo.1 then some ⟨fo.2, fo.1, none⟩ else none) = [] := by
                rw [List.filterMap_eq_nil_iff]
                intro x hx
                have hxf := isFlag_iff.2 ⟨x.2, hx⟩
                have hne : x.1 ≠ s.take 2 := by
                  intro he
                  rw [he] at hxf
                  exact htk hxf
                rw [if_neg hne, if_neg (hpre x.1 hxf)]
              rw [this]
              simp

theorem argKind_ambiguous {P : ArgParser} (hP : FlagsOk P) {s : Str} (ha : AmbiguousIn P s) : argKind P s = .error .usage := by
  obtain ⟨hs, p, hst, hl, hnf, f, g, hne, hf, hg, pf, pg⟩ := ha
  have hl' : ['-', '-'] <+: s := by
    rcases hst.2 with rfl | ⟨v, rfl⟩
    · exact hl
    · exact hl.trans (List.prefix_append _ _)
  obtain ⟨q, hq, hpe⟩ := stem_partEq (s := s)
  obtain rfl := stem_unique hst hq
  have hb : P.byFlag s = none := by
    rw [byFlag_none_iff]
    intro hx
    rcases hpe with ⟨-, he⟩ | ⟨v, hv, he⟩
    · exact hnf (he ▸ hx)
    · obtain ⟨o, ho⟩ := isFlag_iff.1 hx
      exact hP.eq _ ho (by dsimp only; rw [he]; simp)
  have he : byEq P s = none := by
    unfold byEq
    rcases hpe with ⟨hn, -⟩ | ⟨v, hv, -⟩
    · rw [hn]
    · rw [hv]
      dsimp only
      rw [byFlag_none_iff.2 hnf]
      rfl
  have hh : s.head? = some '-' := by
    obtain ⟨t, rfl⟩ := hl'
    rfl
  have h1 : s.length ≠ 1 := by
    have := hl'.length_le
    simp only [List.length_cons, List.length_nil] at this
    omega
  unfold argKind
  rw [if_neg (by simp [hh]), hb]
  dsimp only
  rw [if_neg h1, he]
  dsimp only
  apply byHits_error
  rw [optionHits_long hl', longHits_length hst]
  obtain ⟨o, ho⟩ := isFlag_iff.1 hf
  obtain ⟨o', ho'⟩ := isFlag_iff.1 hg
  exact two_le_filter ho ho' hne (hasPrefix_iff.2 pf) (hasPrefix_iff.2 pg)

theorem argToks_ok {P : ArgParser} (hP : FlagsOk P) (hS : ShortFlags P) {l : List Str} (h : ClearFor P l) :
    ∃ ts, argToks P l = .ok ts := by
  induction l with
  | nil => exact ⟨_, rfl⟩
  | cons s l ih =>
    rw [argToks]
    by_cases hs : s = ['-', '-']
    · rw [if_pos hs]
      exact ⟨_, rfl⟩
    · rw [if_neg hs]
      obtain ⟨k, hk⟩ := argKind_ok hP hS hs (h [] s l rfl (by simp))
      obtain ⟨ts, ht⟩ := ih (by
        intro a x b he hd
        refine h (s :: a) x b (by rw [he]; rfl) ?_
        simp only [List.mem_cons, not_or]
        exact ⟨Ne.symm hs, hd⟩)
      rw [hk]
      dsimp only
      rw [ht]
      exact ⟨_, rfl⟩

theorem argKind_error {P : ArgParser} {s : Str} {e : ArgStop} (h : argKind P s = .error e) : e = .usage := by
  unfold argKind at h
  split at h
  · cases h
  · split at h
    · cases h
    · split at h
      · cases h
      · split at h
        · cases h
        · unfold byHits at h
          split at h
          · cases h
          · split at h
            · cases h
            · split at h <;> cases h
          · cases h; rfl

theorem argToks_ambiguous {P : ArgParser} (hP : FlagsOk P) {a b : List Str} {s : Str} (hd : ['-', '-'] ∉ a) (h : AmbiguousIn P s) :
    argToks P (a ++ s :: b) = .error .usage := by
  induction a with
  | nil =>
    rw [List.nil_append, argToks, if_neg h.1, argKind_ambiguous hP h]
  | cons x a ih =>
    simp only [List.mem_cons, not_or] at hd
    rw [List.cons_append, argToks, if_neg (Ne.symm hd.1)]
    cases hk : argKind P x with
    | error e => rw [argKind_error hk]
    | ok k =>
      dsimp only
      rw [ih hd.2]

theorem argToks_append_error {P : ArgParser} {l r : List Str} (hd : ['-', '-'] ∉ l) (hr : argToks P r = .error .usage) :
    argToks P (l ++ r) = .error .usage := by
  induction l with
  | nil => exact hr
  | cons s l ih =>
    simp only [List.mem_cons, not_or] at hd
    rw [List.cons_append, argToks, if_neg (Ne.symm hd.1)]
    cases hk : argKind P s with
    | error e => rw [argKind_error hk]
    | ok k =>
      dsimp only
      rw [ih hd.2]

theorem clear_of_argToks {P : ArgParser} (hP : FlagsOk P) {l : List Str} {ts : List ArgTok} (h : argToks P l = .ok ts) : ClearFor P l := by
  rintro a s b rfl hd hamb
  rw [argToks_ambiguous hP hd hamb] at h
  cases h

def isOkB {ε α : Type} : Except ε α → Bool
  | .ok _ => true
  | .error _ => false

theorem clear_of_isOk {P : ArgParser} (hP : FlagsOk P) {l : List Str} (h : isOkB (argToks P l) = true) : ClearFor P l := by
  cases ht : argToks P l with
  | error e => rw [ht] at h; cases h
  | ok ts => exact clear_of_argToks hP ht

/-! ### Everything goes to the subcommand -/

theorem argLoop_all {P : ArgParser} {n : Nat} {t : ArgTok} {r : List ArgTok} {ps : List ArgOpt} {st : ArgState} {acts : List (ArgOpt × List Str)}
    (ht : t.isOpt = false) (hm : matchPartial ps (t :: r) = (acts, [], [])) :
    argLoop P (n + 2) (t :: r) ps st = match takeActs acts st with
      | .error e => .error e
      | .ok st' => .ok (st', []) := by
  cases hany : (t :: r).any ArgTok.isOpt with
  | false =>
    rw [argLoop_end hany, hm]
    dsimp only
    cases takeActs acts st with
    | error e => rfl
    | ok st' => simp
  | true =>
    rw [argLoop_word ht hany, hm]
    dsimp only
    cases takeActs acts st with
    | error e => rfl
    | ok st' =>
      dsimp only
      rw [if_pos (by simp), argLoop_end (by rfl)]
      simp [matchPartial, takeActs]

/-- an ambiguous abbreviation ends it all -/
theorem parseWith_ambiguous {P : ArgParser} (hP : FlagsOk P) {l : List Str} (hd : ['-', '-'] ∉ l) {r : List Str} (h : ¬ ClearFor P r)
    (t : Option Str) (dest : Str) (cs : List SubCommand) (f : SubCommand → List Str → Except ArgStop (ArgSpace × List Str)) :
    parseWith t dest P cs f (l ++ r) = .error .usage := by
  unfold ClearFor at h
  simp only [not_forall, not_not] at h
  obtain ⟨a, s, b, rfl, ha, hamb⟩ := h
  unfold parseWith argParse
  rw [argToks_append_error hd (argToks_ambiguous hP ha hamb)]

/-- every option of the parser is a flag without value, and its only positional argument is the subcommand -/
structure TopOk (P : ArgParser) (sub : ArgOpt) : Prop where
  opts : OptsOk P
  short : ShortFlags P
  zero : ∀ o ∈ P.opts, o.num = .zero
  pos : P.pos = [sub]
  rest : sub.num = .rest

theorem argParse_top {P : ArgParser} {sub : ArgOpt} (hP : TopOk P sub) {g : List Str} {gus : List ArgUse} (hg : CmdLine P g gus [])
    (hp : ∀ u ∈ gus, ¬ OnlyPrints u.opt) {name : Str} (hw : Word name) {l : List Str} (hl : ClearFor P l) :
    (NoConflict gus → ∃ st, argParse P (g ++ name :: l) = .ok (st, []) ∧ st.sub = some (name :: l) ∧ st.extras = [] ∧ Left P gus st.ns) ∧
    (¬ NoConflict gus → argParse P (g ++ name :: l) = .error .usage) := by
  have hF := hP.opts.flags
  obtain ⟨tg, t1, t2, -⟩ := tokLine_of hF hg
  obtain ⟨tl, t3⟩ := argToks_ok hF hP.short hl
  have huo := uses_ok (fun o ho => (hP.opts.opts o ho).norest) hg
  have hz : ∀ u ∈ gus, u.opt.num = .zero := fun u hu => hP.zero u.opt (huo u hu).1
  have hfl : ∀ u ∈ gus, u.opt.flags ≠ [] := fun u hu => (hP.opts.opts u.opt (huo u hu).1).flags
  have hgood : ∀ u ∈ gus, u.Good := by
    intro u hu s hs
    have hv := (huo u hu).2
    rw [hz u hu] at hv
    have hv : u.vals = [] := hv
    unfold ArgUse.texts at hs
    rw [if_neg (by simp [hz u hu]), hv] at hs
    cases hs
  have e1 : (useActs gus).filter fromOpt = useActs gus := by
    rw [List.filter_eq_self]
    intro e he
    obtain ⟨u, hu, rfl⟩ := List.mem_map.1 he
    have := hfl u hu
    simpa [fromOpt] using this
  have e2 : ∀ e ∈ useActs gus, fromOpt e = false → PosAct P e := by
    intro e he hf
    obtain ⟨u, hu, rfl⟩ := List.mem_map.1 he
    have := hfl u hu
    simp only [fromOpt, Bool.not_eq_false', List.isEmpty_iff] at hf
    exact absurd hf this
  obtain ⟨g1, g2⟩ := acts_line hP.opts huo hp e1 e2
  have hparse : argParse P (g ++ name :: l) = match takeActs (useActs gus) ⟨P.defaults, [], [], none⟩ with
      | .error e => .error e
      | .ok st => .ok ({ st with sub := some (name :: l), seen := sub :: st.seen }, []) := by
    unfold argParse
    rw [argToks_append (noDashes_of hF hg) t1 (argToks_cons_word hF hw t3)]
    dsimp only
    have hlen : (tg ++ ArgTok.plain name :: tl).length + 1 = tg.length + (tl.length + 2) := by
      simp only [List.length_append, List.length_cons]
      omega
    rw [hlen, tokLine_length t2 hz]
    cases takeActs (useActs gus) ⟨P.defaults, [], [], none⟩ with
    | error e => rfl
    | ok st =>
      dsimp only
      have hmp : matchPartial P.pos (.plain name :: tl) = ([(sub, name :: l)], [], []) := by
        rw [hP.pos]
        simp only [matchPartial, matchPos, hP.rest, dashRun, List.nil_append]
        rw [argToks_str t3]
      rw [argLoop_all rfl hmp]
      simp only [takeActs, takeAct, hP.rest]
  constructor
  · intro hc
    obtain ⟨st, hst, k1, k2, k3, k4, k5, k6⟩ := g1 ⟨hgood, hc⟩
    rw [hst] at hparse
    exact ⟨_, hparse, rfl, k2, ⟨k3, k5, k6⟩⟩
  · intro hc
    rw [hparse, g2 (fun hh => hc hh.2)]

/-! ### Parsers without subcommands -/

theorem setInstance_get {t d : Str} (h : "instance".toList ≠ d) (ns : ArgSpace) : dget? (setInstance (some t) ns) d = dget? ns d := by
  unfold setInstance
  dsimp only
  rw [dget?_dset, if_neg h]

theorem stored_iff {o : ArgOpt} : o.stored = true ↔ ¬ OnlyPrints o := by
  unfold ArgOpt.stored OnlyPrints
  cases o.act <;> simp

theorem parseLeaf_line {P : ArgParser} (hP : OptsOk P) (hone : OnlyOnes P.pos) (hin : ∀ o ∈ P.pos ++ P.opts, "instance".toList ≠ o.dest)
    (t : Str) {l : List Str} {us : List ArgUse} {ws : List Str} (h : CmdLine P l us ws) (hp : ∀ u ∈ us, ¬ OnlyPrints u.opt) :
    (RightLine P us ws → ∃ ns, parseLeaf t P l = .ok (ns, []) ∧ Means P us ws ns ∧ dget? ns "instance".toList = some (.one (.text t)) ∧
      (∀ d, d ≠ "instance".toList → (∀ o ∈ P.pos ++ P.opts, o.dest ≠ d) → dget? ns d = none) ∧ (dkeys ns).Nodup) ∧
    (¬ RightLine P us ws → parseLeaf t P l = .error .usage ∨ ∃ ns x ex, parseLeaf t P l = .ok (ns, x :: ex)) := by
  obtain ⟨g1, g2⟩ := argParse_line hP hone h hp
  constructor
  · rintro ⟨hl, hg, hc⟩
    obtain ⟨st, hst, k1, k2, k3⟩ := g1 ⟨hg, hc⟩
    refine ⟨setInstance (some t) st.ns, ?_, ⟨?_, ?_⟩, ?_, ?_, ?_⟩
    · unfold parseLeaf
      rw [hst]
      dsimp only
      rw [k1.2 (Nat.le_of_eq hl), List.drop_eq_nil_of_le (Nat.le_of_eq hl.symm)]
      rfl
    · intro o ho hs
      rw [setInstance_get (hin o (List.mem_append_right _ ho))]
      exact k2.opts o ho (stored_iff.2 hs)
    · intro i p w hpi hwi
      rw [setInstance_get (hin p (List.mem_append_left _ (List.mem_of_getElem? hpi)))]
      exact k3 i p w hpi hwi
    · unfold setInstance
      dsimp only
      rw [dget?_dset, if_pos rfl]
    · intro d hd ho
      rw [setInstance_get (Ne.symm hd)]
      exact k2.other d ho
    · exact nodup_dset k2.nodup
  · intro hn
    by_cases hf : (∀ u ∈ us, u.Good) ∧ NoConflict us
    · obtain ⟨st, hst, k1, -, -⟩ := g1 hf
      unfold parseLeaf
      rw [hst]
      dsimp only
      rcases Nat.lt_trichotomy ws.length P.pos.length with hlt | heq | hgt
      · left
        unfold needAll
        rw [if_pos]
        rw [List.any_eq_true]
        have hx : P.pos[ws.length] ∈ P.pos.drop ws.length := by
          rw [List.mem_drop_iff_getElem]
          exact ⟨0, by simpa using hlt, by simp⟩
        refine ⟨_, hx, ?_⟩
        unfold ArgOpt.required
        rw [(hone _ (List.getElem_mem hlt)).2]
      · exact absurd ⟨heq, hf⟩ hn
      · right
        rw [List.drop_eq_nil_of_le (Nat.le_of_lt hgt)]
        cases hx : st.extras with
        | nil => exact absurd (k1.1 hx) (by omega)
        | cons x ex => exact ⟨_, x, ex, rfl⟩
    · left
      unfold parseLeaf
      rw [g2 hf]

/-! ### A command below a main parser -/

theorem parseWith_top {P : ArgParser} {sub : ArgOpt} (hP : TopOk P sub) {g : List Str} {gus : List ArgUse} (hg : CmdLine P g gus [])
    (hp : ∀ u ∈ gus, ¬ OnlyPrints u.opt) {name : Str} (hw : Word name) {l : List Str} (hl : ClearFor P l)
    {cs : List SubCommand} {c : SubCommand} (hc : subCommand cs name = some c)
    (f : SubCommand → List Str → Except ArgStop (ArgSpace × List Str)) (dest : Str) :
    (NoConflict gus → ∃ ns, Left P gus ns ∧ parseWith none dest P cs f (g ++ name :: l) = match f c l with
      | .error e => .error e
      | .ok (sns, ex) => .ok (mergeSpace (dset ns dest (.one (.text name))) sns, ex)) ∧
    (¬ NoConflict gus → parseWith none dest P cs f (g ++ name :: l) = .error .usage) := by
  obtain ⟨g1, g2⟩ := argParse_top hP hg hp hw hl
  constructor
  · intro hn
    obtain ⟨st, hst, k1, k2, k3⟩ := g1 hn
    refine ⟨st.ns, k3, ?_⟩
    unfold parseWith
    rw [hst]
    dsimp only
    rw [k1]
    dsimp only
    rw [hc]
    dsimp only
    cases f c l with
    | error e => rfl
    | ok x =>
      dsimp only
      unfold needAll setInstance
      simp [k2]
  · intro hn
    unfold parseWith
    rw [g2 hn]

/-! ### Options nobody knows -/

/-- an option nobody knows is among the arguments -/
def HasUnknown (ts : List ArgTok) : Prop := ∃ s, .unknown s ∈ ts

theorem argKind_unknown {P : ArgParser} {s : Str} (h : UnknownIn P s) : argKind P s = .ok .unknown := by
  obtain ⟨⟨c, t, rfl, hc1, hc2⟩, hs, hsp, hlong, hshort⟩ := h
  have hb : P.byFlag ('-' :: c :: t) = none := by
    rw [byFlag_none_iff]
    intro hf
    by_cases hl : ['-', '-'] <+: '-' :: c :: t
    · obtain ⟨p, hst, -⟩ := stem_partEq (s := '-' :: c :: t)
      refine hlong hl p _ hst hf ?_
      rcases hst.2 with h | ⟨v, h⟩
      · rw [h]
      · rw [h]
        exact List.prefix_append _ _
    · exact (hshort hl _ hf).2.1 (List.prefix_refl _)
  have he : byEq P ('-' :: c :: t) = none := by
    unfold byEq
    obtain ⟨p, hst, ⟨hn, -⟩ | ⟨v, hv, hvs⟩⟩ := stem_partEq (s := '-' :: c :: t)
    · rw [hn]
    · rw [hv]
      dsimp only
      rw [Option.map_eq_none_iff, byFlag_none_iff]
      intro hf
      by_cases hl : ['-', '-'] <+: '-' :: c :: t
      · exact hlong hl p _ hst hf (List.prefix_refl _)
      · exact (hshort hl _ hf).2.2 hst
  have hh : optionHits P ('-' :: c :: t) = [] := by
    by_cases hl : ['-', '-'] <+: '-' :: c :: t
    · rw [optionHits_long hl]
      obtain ⟨p, hst, -⟩ := stem_partEq (s := '-' :: c :: t)
      rw [← List.length_eq_zero_iff, longHits_length hst, List.length_eq_zero_iff, List.filter_eq_nil_iff]
      intro x hx hpx
      exact hlong hl p _ hst (isFlag_iff.2 ⟨x.2, hx⟩) (hasPrefix_iff.1 hpx)
    · have : optionHits P ('-' :: c :: t) = shortHits P ('-' :: c :: t) := by
        unfold optionHits
        split
        · rename_i u hu
          exact absurd ⟨u, hu.symm⟩ hl
        · rfl
      rw [this]
      unfold shortHits
      rw [List.filterMap_eq_nil_iff]
      intro x hx
      obtain ⟨h1, h2, -⟩ := hshort hl x.1 (isFlag_iff.2 ⟨x.2, hx⟩)
      rw [if_neg h1, if_neg (fun h => h2 (hasPrefix_iff.1 h))]
  have hneg : negativeNumber ('-' :: c :: t) = false := by
    unfold negativeNumber
    dsimp only
    have hd : ∀ d : Str, d = [] ∨ d.head? = some c → (!d.isEmpty && (d.dropWhile isDig).isEmpty ||
        (match d.dropWhile isDig with
         | '.' :: f => !f.isEmpty && f.all isDig
         | _ => false)) = false := by
      rintro d (rfl | hd)
      · rfl
      · cases d with
        | nil => simp at hd
        | cons a d =>
          simp only [List.head?_cons, Option.some.injEq] at hd
          subst hd
          rw [List.dropWhile_cons_of_neg (by simp [hc1])]
          simp only [List.isEmpty_cons, Bool.not_false, Bool.and_false, Bool.false_or]
          split
          · rename_i heq
            simp only [List.cons.injEq] at heq
            exact absurd heq.1 hc2
          · rfl
    apply hd
    split
    · cases t with
      | nil => left; rfl
      | cons a t => right; simp
    · right; rfl
  unfold argKind
  rw [if_neg (by simp), hb]
  dsimp only
  rw [if_neg (by simp), he]
  dsimp only
  rw [hh]
  unfold byHits
  dsimp only
  rw [if_neg (by simp [hneg]), if_neg hsp]

theorem argToks_unknown {P : ArgParser} {a b : List Str} {s : Str} (hd : ['-', '-'] ∉ a) (h : UnknownIn P s) {ts : List ArgTok}
    (ht : argToks P (a ++ s :: b) = .ok ts) : HasUnknown ts := by
  induction a generalizing ts with
  | nil =>
    rw [List.nil_append, argToks, if_neg h.2.1, argKind_unknown h] at ht
    dsimp only at ht
    cases hb : argToks P b with
    | error e => rw [hb] at ht; cases ht
    | ok tb =>
      rw [hb] at ht
      simp only [Except.ok.injEq] at ht
      subst ht
      exact ⟨s, by simp [ArgKind.tok]⟩
  | cons x a ih =>
    simp only [List.mem_cons, not_or] at hd
    rw [List.cons_append, argToks, if_neg (Ne.symm hd.1)] at ht
    cases hk : argKind P x with
    | error e => rw [hk] at ht; cases ht
    | ok k =>
      rw [hk] at ht
      dsimp only at ht
      cases hb : argToks P (a ++ s :: b) with
      | error e => rw [hb] at ht; cases ht
      | ok tb =>
        rw [hb] at ht
        simp only [Except.ok.injEq] at ht
        subst ht
        obtain ⟨y, hy⟩ := ih hd.2 hb
        exact ⟨y, List.mem_cons_of_mem _ hy⟩

theorem plainRun_unknown {r : List ArgTok} (h : HasUnknown r) : HasUnknown (plainRun r).2 := by
  induction r with
  | nil => exact h
  | cons t r ih =>
    cases t with
    | plain s =>
      obtain ⟨x, hx⟩ := h
      rcases List.mem_cons.1 hx with hx | hx
      · cases hx
      · exact ih ⟨x, hx⟩
    | _ => exact h

theorem dashRun_unknown {r : List ArgTok} (h : HasUnknown r) : HasUnknown (dashRun r).2 := by
  induction r with
  | nil => exact h
  | cons t r ih =>
    cases t with
    | dashes =>
      obtain ⟨x, hx⟩ := h
      rcases List.mem_cons.1 hx with hx | hx
      · cases hx
      · exact ih ⟨x, hx⟩
    | _ => exact h

theorem plainDashRun_unknown {r : List ArgTok} (h : HasUnknown r) : HasUnknown (plainDashRun r).2 := by
  induction r with
  | nil => exact h
  | cons t r ih =>
    cases t with
    | dashes =>
      obtain ⟨x, hx⟩ := h
      rcases List.mem_cons.1 hx with hx | hx
      · cases hx
      · exact ih ⟨x, hx⟩
    | plain s =>
      obtain ⟨x, hx⟩ := h
      rcases List.mem_cons.1 hx with hx | hx
      · cases hx
      · exact ih ⟨x, hx⟩
    | _ => exact h

theorem hasUnknown_tail {t : ArgTok} {r : List ArgTok} (ht : ∀ s, t ≠ .unknown s) (h : HasUnknown (t :: r)) : HasUnknown r := by
  obtain ⟨x, hx⟩ := h
  rcases List.mem_cons.1 hx with hx | hx
  · exact absurd hx.symm (ht x)
  · exact ⟨x, hx⟩

theorem valuesAfter_unknown {o : ArgOpt} {r r' : List ArgTok} {args : List Str} (hv : valuesAfter o r = .ok (args, r')) (h : HasUnknown r) :
    HasUnknown r' := by
  unfold valuesAfter at hv
  split at hv
  all_goals cases hv
  all_goals first
    | exact h
    | exact hasUnknown_tail (by simp) h
    | exact plainRun_unknown (hasUnknown_tail (by simp) h)

theorem optionActs_unknown {P : ArgParser} {r r' : List ArgTok} {n : Nat} {o : ArgOpt} {f : Str} {x : Option (Bool × Str)}
    {acts : List (ArgOpt × List Str)} {ex : List Str} (hv : optionActs P r n o f x = .ok (acts, r', ex)) (h : HasUnknown r) :
    HasUnknown r' := by
  induction n generalizing o f x acts with
  | zero =>
    cases x with
    | none =>
      rw [optionActs.eq_def] at hv
      dsimp only at hv
      cases hva : valuesAfter o r with
      | error e => rw [hva] at hv; cases hv
      | ok y =>
        rw [hva] at hv
        simp only [Except.ok.injEq, Prod.mk.injEq] at hv
        exact hv.2.1 ▸ valuesAfter_unknown hva h
    | some y => rw [optionActs.eq_def] at hv; cases hv
  | succ n ih =>
    cases x with
    | none =>
      rw [optionActs.eq_def] at hv
      dsimp only at hv
      cases hva : valuesAfter o r with
      | error e => rw [hva] at hv; cases hv
      | ok y =>
        rw [hva] at hv
        simp only [Except.ok.injEq, Prod.mk.injEq] at hv
        exact hv.2.1 ▸ valuesAfter_unknown hva h
    | some y =>
      obtain ⟨eq, v⟩ := y
      rw [optionActs.eq_def] at hv
      dsimp only at hv
      split at hv
      · simp only [Except.ok.injEq, Prod.mk.injEq] at hv
        exact hv.2.1 ▸ h
      · split at hv
        · cases hv
        · split at hv
          · cases hv
          · split at hv
            · cases hv
            · split at hv
              · simp only [Except.ok.injEq, Prod.mk.injEq] at hv
                exact hv.2.1 ▸ h
              · split at hv
                · cases hv
                · rename_i hrec
                  simp only [Except.ok.injEq, Prod.mk.injEq] at hv
                  obtain ⟨-, rfl, rfl⟩ := hv
                  exact ih hrec

theorem consumeOpt_unknown {P : ArgParser} {t : ArgTok} {r r' : List ArgTok} {st st' : ArgState}
    (hv : consumeOpt P t r st = .ok (r', st')) (h : HasUnknown (t :: r) ∨ st.extras ≠ []) : HasUnknown r' ∨ st'.extras ≠ [] := by
  unfold consumeOpt at hv
  split at hv
  · split at hv
    · cases hv
    · rename_i acts r1 ex hoa
      split at hv
      · cases hv
      · rename_i st1 hta
        simp only [Except.ok.injEq, Prod.mk.injEq] at hv
        obtain ⟨rfl, rfl⟩ := hv
        rcases h with h | h
        · exact .inl (optionActs_unknown hoa (hasUnknown_tail (by simp) h))
        · right
          rw [takeActs_extras hta]
          simp [h]
  · simp only [Except.ok.injEq, Prod.mk.injEq] at hv
    obtain ⟨-, rfl⟩ := hv
    right
    simp

theorem matchPos_unknown {num : ArgNum} (hr : num ≠ .rest) {ts r : List ArgTok} {args : List Str} (hm : matchPos num ts = some (args, r))
    (h : HasUnknown ts) : HasUnknown r := by
  have hd := dashRun_unknown h
  unfold matchPos at hm
  revert hm hd
  rcases dashRun ts with ⟨d, r0⟩
  dsimp only
  intro hm hd
  split at hm
  all_goals cases hm
  all_goals first
    | exact absurd rfl hr
    | exact hd
    | exact dashRun_unknown (hasUnknown_tail (by simp) hd)
    | exact plainDashRun_unknown (hasUnknown_tail (by simp) hd)

theorem matchPartial_unknown {ps : List ArgOpt} (hr : ∀ p ∈ ps, p.num ≠ .rest) {ts : List ArgTok} (h : HasUnknown ts) :
    HasUnknown (matchPartial ps ts).2.2 ∧ ∀ p ∈ (matchPartial ps ts).2.1, p.num ≠ .rest := by
  induction ps generalizing ts with
  | nil => exact ⟨h, by simp [matchPartial]⟩
  | cons p ps ih =>
    cases hm : matchPos p.num ts with
    | none =>
      have : matchPartial (p :: ps) ts = ([], p :: ps, ts) := by
        simp only [matchPartial, hm]
      rw [this]
      exact ⟨h, hr⟩
    | some x =>
      obtain ⟨args, r⟩ := x
      rw [matchPartial_some hm]
      exact ih (fun q hq => hr q (List.mem_cons_of_mem _ hq)) (matchPos_unknown (hr p List.mem_cons_self) hm h)

theorem matchPartial_norest {ps : List ArgOpt} (hr : ∀ p ∈ ps, p.num ≠ .rest) (ts : List ArgTok) :
    ∀ p ∈ (matchPartial ps ts).2.1, p.num ≠ .rest := by
  induction ps generalizing ts with
  | nil => simp [matchPartial]
  | cons p ps ih =>
    cases hm : matchPos p.num ts with
    | none =>
      have : matchPartial (p :: ps) ts = ([], p :: ps, ts) := by
        simp only [matchPartial, hm]
      rw [this]
      exact hr
    | some x =>
      obtain ⟨args, r⟩ := x
      rw [matchPartial_some hm]
      exact ih (fun q hq => hr q (List.mem_cons_of_mem _ hq)) r

theorem argLoop_unknown {P : ArgParser} (n : Nat) {ts : List ArgTok} {ps : List ArgOpt} {st st' : ArgState} {ps' : List ArgOpt}
    (hr : ∀ p ∈ ps, p.num ≠ .rest) (h : argLoop P n ts ps st = .ok (st', ps')) (hu : HasUnknown ts ∨ st.extras ≠ []) : st'.extras ≠ [] := by
  induction n generalizing ts ps st with
  | zero => rw [argLoop.eq_def] at h; cases h
  | succ n ih =>
    cases hany : ts.any ArgTok.isOpt with
    | false =>
      rw [argLoop_end hany] at h
      rcases hu with ⟨x, hx⟩ | hu
      · rw [List.any_eq_false] at hany
        exact absurd rfl (hany _ hx)
      · cases ht : takeActs (matchPartial ps ts).1 st with
        | error e => rw [ht] at h; cases h
        | ok st1 =>
          rw [ht] at h
          simp only [Except.ok.injEq, Prod.mk.injEq] at h
          obtain ⟨rfl, -⟩ := h
          dsimp only
          rw [takeActs_extras ht]
          simp [hu]
    | true =>
      cases ts with
      | nil => simp at hany
      | cons t r =>
        cases hto : t.isOpt with
        | true =>
          rw [argLoop_opt hto] at h
          cases hc : consumeOpt P t r st with
          | error e => rw [hc] at h; cases h
          | ok x =>
            rw [hc] at h
            exact ih hr h (consumeOpt_unknown hc hu)
        | false =>
          rw [argLoop_word hto hany] at h
          cases ht : takeActs (matchPartial ps (t :: r)).1 st with
          | error e => rw [ht] at h; cases h
          | ok st1 =>
            rw [ht] at h
            dsimp only at h
            split at h
            · refine ih (matchPartial_norest hr _) h ?_
              rcases hu with hu | hu
              · exact .inl (matchPartial_unknown hr hu).1
              · right
                rw [takeActs_extras ht]
                exact hu
            · refine ih (matchPartial_norest hr _) h ?_
              right
              dsimp only
              rw [List.takeWhile_cons_of_pos (by simp [hto])]
              simp

/-- with an option that nobody knows a parser without subcommands leaves something over, or fails -/
theorem parseLeaf_unknown {P : ArgParser} (hr : ∀ p ∈ P.pos, p.num ≠ .rest) (t : Str) {a b : List Str} {s : Str} (hd : ['-', '-'] ∉ a)
    (h : UnknownIn P s) {ns : ArgSpace} {ex : List Str} (hp : parseLeaf t P (a ++ s :: b) = .ok (ns, ex)) : ex ≠ [] := by
  unfold parseLeaf at hp
  cases ha : argParse P (a ++ s :: b) with
  | error e => rw [ha] at hp; cases hp
  | ok x =>
    obtain ⟨st, pos⟩ := x
    rw [ha] at hp
    unfold argParse at ha
    cases ht : argToks P (a ++ s :: b) with
    | error e => rw [ht] at ha; cases ha
    | ok ts =>
      rw [ht] at ha
      have := argLoop_unknown _ hr ha (.inl (argToks_unknown hd h ht))
      dsimp only at hp
      unfold needAll at hp
      split at hp
      · cases hp
      · simp only [Except.ok.injEq, Prod.mk.injEq] at hp
        exact hp.2 ▸ this

end Cot
