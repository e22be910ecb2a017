import Verif.Lemmas.ArgPrints
/-
What parsing leaves behind depends on the uses of each option only, not on how and where they are written.
-/
namespace Cot

theorem dict_ext {κ ν : Type} [DecidableEq κ] : ∀ {a b : List (κ × ν)}, dkeys a = dkeys b → (dkeys a).Nodup → (∀ k, dget? a k = dget? b k) → a = b
  | [], [], _, _, _ => rfl
  | [], _ :: _, h, _, _ => by simp [dkeys] at h
  | _ :: _, [], h, _, _ => by simp [dkeys] at h
  | (k, v) :: a, (k', v') :: b, h, hn, hg => by
    simp only [dkeys, List.map_cons, List.cons.injEq] at h
    obtain ⟨rfl, h⟩ := h
    simp only [dkeys, List.map_cons, List.nodup_cons] at hn
    have h0 := hg k
    simp only [dget?, if_pos] at h0
    cases h0
    congr 1
    apply dict_ext h hn.2
    intro x
    by_cases hx : k = x
    · subst hx
      rw [dget?_eq_none.2 hn.1, dget?_eq_none.2 (by rw [dkeys, ← h]; exact hn.1)]
    · have := hg x
      simpa [dget?, hx] using this

theorem takeAct_keys {e : ArgOpt × List Str} (hr : e.1.num ≠ .rest) {st st' : ArgState} (h : takeAct e.1 e.2 st = .ok st')
    (hk : e.1.dest ∈ dkeys st.ns) : dkeys st'.ns = dkeys st.ns := by
  obtain ⟨-, -, ns, hd, rfl⟩ := (takeAct_ok hr).1 h
  dsimp only
  unfold doAct at hd
  cases ha : e.1.act <;> rw [ha] at hd <;> cases hd <;> rw [dkeys_dset, if_pos hk]

theorem takeActs_keys {evs : List (ArgOpt × List Str)} (hr : ∀ e ∈ evs, e.1.num ≠ .rest) {st st' : ArgState}
    (h : takeActs evs st = .ok st') (hk : ∀ e ∈ evs, e.1.dest ∈ dkeys st.ns) : dkeys st'.ns = dkeys st.ns := by
  induction evs generalizing st with
  | nil => cases h; rfl
  | cons e evs ih =>
    obtain ⟨o, args⟩ := e
    rw [takeActs] at h
    cases ht : takeAct o args st with
    | error x => rw [ht] at h; cases h
    | ok st1 =>
      rw [ht] at h
      have h1 := takeAct_keys (e := (o, args)) (hr _ List.mem_cons_self) ht (hk _ List.mem_cons_self)
      rw [ih (fun e he => hr e (List.mem_cons_of_mem _ he)) h (fun e he => by rw [h1]; exact hk e (List.mem_cons_of_mem _ he)), h1]

/-- the same uses for everything that is set -/
theorem uses_perm {us vs : List ArgUse} (h : ∀ d, usesFor d us = usesFor d vs) : us.Perm vs := by
  classical
  rw [List.perm_iff_count]
  intro u
  have e : ∀ l : List ArgUse, l.count u = (usesFor u.opt.dest l).count u := by
    intro l
    unfold usesFor
    rw [List.count_filter]
    simp
  rw [e us, e vs, h]

theorem rightUses_same {us vs : List ArgUse} (h : us.Perm vs) :
    ((∀ u ∈ us, u.Good) ∧ NoConflict us) ↔ ((∀ u ∈ vs, u.Good) ∧ NoConflict vs) := by
  have hs : NoConflict us ↔ NoConflict vs := by
    unfold NoConflict
    apply h.pairwise_iff
    intro a b hab h0 hg
    exact (hab (by rw [← hg]; exact h0) hg.symm).symm
  rw [hs]
  have : (∀ u ∈ us, u.Good) ↔ ∀ u ∈ vs, u.Good := by
    constructor
    · intro hh u hu; exact hh u (h.mem_iff.2 hu)
    · intro hh u hu; exact hh u (h.mem_iff.1 hu)
  rw [this]

theorem acts_same {P : ArgParser} (hP : OptsOk P) (hst : ∀ p ∈ P.pos, p.stored = true) {us vs : List ArgUse}
    (huo : ∀ u ∈ us, u.opt ∈ P.opts ∧ FitsNum u.opt.num u.vals) (hvo : ∀ u ∈ vs, u.opt ∈ P.opts ∧ FitsNum u.opt.num u.vals)
    (hpu : ∀ u ∈ us, ¬ OnlyPrints u.opt) (hs : ∀ d, usesFor d us = usesFor d vs)
    {e f : List (ArgOpt × List Str)} (h1 : e.filter fromOpt = useActs us) (h2 : ∀ x ∈ e, fromOpt x = false → PosAct P x)
    (k1 : f.filter fromOpt = useActs vs) (k2 : ∀ x ∈ f, fromOpt x = false → PosAct P x)
    (hpos : e.filter (fun x => !fromOpt x) = f.filter (fun x => !fromOpt x)) :
    (takeActs e ⟨P.defaults, [], [], none⟩ = .error .usage ∧ takeActs f ⟨P.defaults, [], [], none⟩ = .error .usage) ∨
    ∃ st st', takeActs e ⟨P.defaults, [], [], none⟩ = .ok st ∧ takeActs f ⟨P.defaults, [], [], none⟩ = .ok st' ∧ st.ns = st'.ns ∧
      st.extras = [] ∧ st'.extras = [] ∧ st.sub = none ∧ st'.sub = none := by
  have hperm := uses_perm hs
  have hpv : ∀ u ∈ vs, ¬ OnlyPrints u.opt := fun u hu => hpu u (hperm.mem_iff.2 hu)
  obtain ⟨a1, a2⟩ := acts_line hP huo hpu h1 h2
  obtain ⟨b1, b2⟩ := acts_line hP hvo hpv k1 k2
  have hr := rightUses_same hperm
  by_cases hg : (∀ u ∈ us, u.Good) ∧ NoConflict us
  · obtain ⟨st, c1, c2, c3, -, -, -, c7⟩ := a1 hg
    obtain ⟨st', d1, d2, d3, -, -, -, -⟩ := b1 (hr.1 hg)
    right
    refine ⟨st, st', c1, d1, ?_, c3, d3, c2, d2⟩
    have dich : ∀ {us : List ArgUse} {e : List (ArgOpt × List Str)}, (∀ u ∈ us, u.opt ∈ P.opts ∧ FitsNum u.opt.num u.vals) →
        (∀ u ∈ us, ¬ OnlyPrints u.opt) → e.filter fromOpt = useActs us → (∀ x ∈ e, fromOpt x = false → PosAct P x) →
        ∀ x ∈ e, (fromOpt x = true ∧ x.1 ∈ P.opts ∧ ¬ OnlyPrints x.1) ∨ (fromOpt x = false ∧ PosAct P x) := by
      intro us e huo hp h1 h2 x hx
      cases hf : fromOpt x with
      | false => exact .inr ⟨rfl, h2 x hx hf⟩
      | true =>
        have : x ∈ useActs us := by
          rw [← h1]
          exact List.mem_filter.2 ⟨hx, hf⟩
        obtain ⟨u, hu, rfl⟩ := List.mem_map.1 this
        exact .inl ⟨rfl, (huo u hu).1, hp u hu⟩
    have hde := dich huo hpu h1 h2
    have hdf := dich hvo hpv k1 k2
    have rest : ∀ {e : List (ArgOpt × List Str)}, (∀ x ∈ e, (fromOpt x = true ∧ x.1 ∈ P.opts ∧ ¬ OnlyPrints x.1) ∨ (fromOpt x = false ∧ PosAct P x)) →
        (∀ x ∈ e, x.1.num ≠ .rest) ∧ ∀ x ∈ e, x.1.dest ∈ dkeys P.defaults := by
      intro e hd
      refine ⟨?_, ?_⟩
      · intro x hx
        rcases hd x hx with ⟨-, ho, -⟩ | ⟨-, hm⟩
        · exact (hP.opts _ ho).norest
        · exact hm.num
      · intro x hx
        by_contra hne
        have hnone := dget?_eq_none.2 hne
        rcases hd x hx with ⟨-, ho, hnp⟩ | ⟨-, hm⟩
        · rw [defaults_get (leaf_defaults hP) (List.mem_append_right _ ho) (stored_iff.2 hnp)] at hnone
          cases hnone
        · rw [defaults_get (leaf_defaults hP) (List.mem_append_left _ hm.mem) (hst _ hm.mem)] at hnone
          cases hnone
    obtain ⟨re, ke⟩ := rest hde
    obtain ⟨rf, kf⟩ := rest hdf
    have hkeys : dkeys st.ns = dkeys st'.ns := by rw [takeActs_keys re c1 ke, takeActs_keys rf d1 kf]
    refine dict_ext hkeys c7 ?_
    intro d
    rw [takeActs_get re c1 d, takeActs_get rf d1 d]
    congr 1
    by_cases hp : ∃ p ∈ P.pos, p.dest = d
    · obtain ⟨p, hpm, rfl⟩ := hp
      have split : ∀ {e : List (ArgOpt × List Str)}, (∀ x ∈ e, (fromOpt x = true ∧ x.1 ∈ P.opts ∧ ¬ OnlyPrints x.1) ∨ (fromOpt x = false ∧ PosAct P x)) →
          e.filter (fun x => decide (x.1.dest = p.dest)) = (e.filter (fun x => !fromOpt x)).filter (fun x => decide (x.1.dest = p.dest)) := by
        intro e hd
        rw [List.filter_filter]
        apply List.filter_congr
        intro x hx
        rcases hd x hx with ⟨hf, ho, -⟩ | ⟨hf, -⟩
        · have := hP.apart p hpm x.1 ho
          simp [hf, this]
        · simp [hf]
      rw [split hde, split hdf, hpos]
    · have split : ∀ {us : List ArgUse} {e : List (ArgOpt × List Str)},
          (∀ x ∈ e, (fromOpt x = true ∧ x.1 ∈ P.opts ∧ ¬ OnlyPrints x.1) ∨ (fromOpt x = false ∧ PosAct P x)) → e.filter fromOpt = useActs us →
          e.filter (fun x => decide (x.1.dest = d)) = useActs (usesFor d us) := by
        intro us e hd h1
        have : e.filter (fun x => decide (x.1.dest = d)) = (e.filter fromOpt).filter (fun x => decide (x.1.dest = d)) := by
          rw [List.filter_filter]
          apply List.filter_congr
          intro x hx
          rcases hd x hx with ⟨hf, -, -⟩ | ⟨hf, hm⟩
          · simp [hf]
          · have hne : x.1.dest ≠ d := fun h => hp ⟨x.1, hm.mem, h⟩
            simp [hne]
        rw [this, h1]
        unfold useActs usesFor
        rw [List.filter_map]
        rfl
      rw [split hde h1, split hdf k1, hs]
  · exact .inl ⟨a2 hg, b2 (fun h => hg (hr.2 h))⟩

/-- parsing as a list of actions -/
theorem argParse_acts {P : ArgParser} (hP : OptsOk P) (hone : OnlyOnes P.pos) {l : List Str} {us : List ArgUse} {ws : List Str}
    (h : CmdLine P l us ws) : ∃ evs ex, evs.filter fromOpt = useActs us ∧ evs.filter (fun x => !fromOpt x) = placed P.pos ws ∧
      (ex = [] ↔ ws.length ≤ P.pos.length) ∧ (∀ e ∈ evs, fromOpt e = false → PosAct P e) ∧
      argParse P l = loopEnd evs ex (P.pos.drop ws.length) ⟨P.defaults, [], [], none⟩ := by
  obtain ⟨ts, t1, t2, -⟩ := tokLine_of hP.flags h
  have huo := uses_ok (fun o ho => (hP.opts o ho).norest) h
  have hfl : ∀ u ∈ us, u.opt.flags ≠ [] := fun u hu => (hP.opts u.opt (huo u hu).1).flags
  obtain ⟨evs, ex, e1, e2, e3, e4⟩ := argLoop_line P (ts.length + 1) t2 hfl hone (by omega)
  refine ⟨evs, ex, e1, e2, e3, ?_, ?_⟩
  · intro e he hf
    have : e ∈ placed P.pos ws := by
      rw [← e2]
      exact List.mem_filter.2 ⟨he, by simpa using hf⟩
    obtain ⟨hpm, w, hw⟩ := mem_placed this
    refine ⟨hpm, by simp [(hone e.1 hpm).2], if w = ['-', '-'] then .list [] else .one (.text w), ?_⟩
    unfold evArgs
    rw [if_pos (hone e.1 hpm).1, hw]
    exact argValues_pos (hone e.1 hpm).2 (hP.pos e.1 hpm).2.1 (hP.pos e.1 hpm).2.2.1 w
  · unfold argParse
    rw [t1]
    exact e4 _

/-- what a parser without subcommands makes of two lines with the same words and uses -/
theorem parseLeaf_same {P : ArgParser} (hP : OptsOk P) (hone : OnlyOnes P.pos) (t : Str) {l m : List Str} {us vs : List ArgUse} {ws : List Str}
    (hl : CmdLine P l us ws) (hm : CmdLine P m vs ws) (hp : ∀ u ∈ us, ¬ OnlyPrints u.opt) (hs : ∀ d, usesFor d us = usesFor d vs) :
    parseLeaf t P l = parseLeaf t P m ∨ ((∃ ns x ex, parseLeaf t P l = .ok (ns, x :: ex)) ∧ ∃ ns x ex, parseLeaf t P m = .ok (ns, x :: ex)) := by
  obtain ⟨e, ex, e1, e2, e3, e4, e5⟩ := argParse_acts hP hone hl
  obtain ⟨f, fx, f1, f2, f3, f4, f5⟩ := argParse_acts hP hone hm
  have hst : ∀ p ∈ P.pos, p.stored = true := fun p hp => by simp [ArgOpt.stored, (hP.pos p hp).2.2.2.1]
  have huo := uses_ok (fun o ho => (hP.opts o ho).norest) hl
  have hvo := uses_ok (fun o ho => (hP.opts o ho).norest) hm
  unfold parseLeaf
  rw [e5, f5]
  unfold loopEnd
  rcases acts_same hP hst huo hvo hp hs e1 e4 f1 f4 (by rw [e2, f2]) with ⟨h1, h2⟩ | ⟨st, st', h1, h2, h3, h4, h5, -, -⟩
  · rw [h1, h2]
    exact .inl rfl
  · rw [h1, h2]
    dsimp only
    rw [h3, h4, h5, List.nil_append, List.nil_append]
    by_cases hlen : ws.length ≤ P.pos.length
    · rw [e3.2 hlen, f3.2 hlen]
      exact .inl rfl
    · have hd : P.pos.drop ws.length = [] := List.drop_eq_nil_of_le (by omega)
      right
      cases hex : ex with
      | nil => exact absurd (e3.1 hex) hlen
      | cons x ex =>
        cases hfx : fx with
        | nil => exact absurd (f3.1 hfx) hlen
        | cons y fx =>
          rw [hd]
          exact ⟨⟨_, x, ex, rfl⟩, _, y, fx, rfl⟩

/-- the main parser on two lines with the same flags -/
theorem argParse_top_same {P : ArgParser} {sub : ArgOpt} (hP : TopOk P sub) {g k : List Str} {gus kus : List ArgUse} (hg : CmdLine P g gus [])
    (hk : CmdLine P k kus []) (hp : ∀ u ∈ gus, ¬ OnlyPrints u.opt) (hs : ∀ d, usesFor d gus = usesFor d kus) {name : Str} (hw : Word name)
    {l m : List Str} (hl : ClearFor P l) (hm : ClearFor P m) :
    (argParse P (g ++ name :: l) = .error .usage ∧ argParse P (k ++ name :: m) = .error .usage) ∨
    ∃ st st', argParse P (g ++ name :: l) = .ok (st, []) ∧ argParse P (k ++ name :: m) = .ok (st', []) ∧ st.ns = st'.ns ∧
      st.extras = [] ∧ st'.extras = [] ∧ st.sub = some (name :: l) ∧ st'.sub = some (name :: m) := by
  have hF := hP.opts.flags
  have key : ∀ {g l : List Str} {gus : List ArgUse}, CmdLine P g gus [] → ClearFor P l →
      (useActs gus).filter fromOpt = useActs gus ∧ (∀ e ∈ useActs gus, fromOpt e = false → PosAct P e) ∧
      (useActs gus).filter (fun x => !fromOpt x) = [] ∧
      argParse P (g ++ name :: l) = match takeActs (useActs gus) ⟨P.defaults, [], [], none⟩ with
        | .error e => .error e
        | .ok st => .ok ({ st with sub := some (name :: l), seen := sub :: st.seen }, []) := by
    intro g l gus hg hl
    obtain ⟨tg, t1, t2, -⟩ := tokLine_of hF hg
    obtain ⟨tl, t3⟩ := argToks_ok hF hP.short hl
    have huo := uses_ok (fun o ho => (hP.opts.opts o ho).norest) hg
    have hz : ∀ u ∈ gus, u.opt.num = .zero := fun u hu => hP.zero u.opt (huo u hu).1
    have hfl : ∀ u ∈ gus, u.opt.flags ≠ [] := fun u hu => (hP.opts.opts u.opt (huo u hu).1).flags
    have hall : ∀ e ∈ useActs gus, fromOpt e = true := by
      intro e he
      obtain ⟨u, hu, rfl⟩ := List.mem_map.1 he
      have := hfl u hu
      simpa [fromOpt] using this
    refine ⟨List.filter_eq_self.2 hall, ?_, ?_, ?_⟩
    · intro e he hf
      rw [hall e he] at hf
      cases hf
    · rw [List.filter_eq_nil_iff]
      intro e he
      simp [hall e he]
    · unfold argParse
      rw [argToks_append (noDashes_of hF hg) t1 (argToks_cons_word hF hw t3)]
      dsimp only
      have hlen : (tg ++ ArgTok.plain name :: tl).length + 1 = tg.length + (tl.length + 2) := by
        simp only [List.length_append, List.length_cons]
        omega
      rw [hlen, tokLine_length t2 hz]
      cases takeActs (useActs gus) ⟨P.defaults, [], [], none⟩ with
      | error e => rfl
      | ok st =>
        dsimp only
        have hmp : matchPartial P.pos (.plain name :: tl) = ([(sub, name :: l)], [], []) := by
          rw [hP.pos]
          simp only [matchPartial, matchPos, hP.rest, dashRun, List.nil_append]
          rw [argToks_str t3]
        rw [argLoop_all rfl hmp]
        simp only [takeActs, takeAct, hP.rest]
  obtain ⟨a1, a2, a3, a4⟩ := key hg hl
  obtain ⟨b1, b2, b3, b4⟩ := key hk hm
  have hst : ∀ p ∈ P.pos, p.stored = true := fun p hp => by simp [ArgOpt.stored, (hP.opts.pos p hp).2.2.2.1]
  have huo := uses_ok (fun o ho => (hP.opts.opts o ho).norest) hg
  have hvo := uses_ok (fun o ho => (hP.opts.opts o ho).norest) hk
  rcases acts_same hP.opts hst huo hvo hp hs a1 a2 b1 b2 (by rw [a3, b3]) with ⟨h1, h2⟩ | ⟨st, st', h1, h2, h3, h4, h5, -, -⟩
  · rw [a4, b4, h1, h2]
    exact .inl ⟨rfl, rfl⟩
  · rw [a4, b4, h1, h2]
    exact .inr ⟨_, _, rfl, rfl, h3, h4, h5, rfl, rfl⟩

end Cot
