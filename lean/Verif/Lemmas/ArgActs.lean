import Verif.Lemmas.ArgValues
/-
Command lines: what a list of actions does to the namespace, and when it is refused.
-/
namespace Cot

/-- the arguments of an event as they are converted -/
def evArgs (e : ArgOpt × List Str) : List Str := if e.1.flags = [] then dropDashes e.2 else e.2

/-- the value of an event -/
def evVal (e : ArgOpt × List Str) : ArgVal ArgAtom :=
  match argValues e.1 (evArgs e) with
  | .ok v => v
  | .error _ => .absent

/-- what an action makes of what was there before -/
def newVal (e : ArgOpt × List Str) (cur : Option (ArgVal ArgAtom)) : Option (ArgVal ArgAtom) :=
  match e.1.act with
  | .store => some (evVal e)
  | .append => some (.list (listItems cur ++ [.many (listAtoms (evVal e))]))
  | .setTrue => some (.one (.truth true))
  | .setConst s => some (.one (.text s))
  | .count => some (.one (.int (countIn cur + 1)))
  | _ => cur

/-- the earlier option `q` does not go with `e` -/
def Clash (q e : ArgOpt) : Prop := e.group ≠ 0 ∧ q.group = e.group ∧ q.flags ≠ e.flags

theorem doAct_prints {o : ArgOpt} {v : ArgVal ArgAtom} {ns : ArgSpace} : (∃ ns', doAct o v ns = .ok ns') ↔ ¬ OnlyPrints o := by
  unfold doAct OnlyPrints
  cases o.act <;> simp

theorem doAct_get {e : ArgOpt × List Str} {ns ns' : ArgSpace} (h : doAct e.1 (evVal e) ns = .ok ns') (d : Str) :
    dget? ns' d = if e.1.dest = d then newVal e (dget? ns d) else dget? ns d := by
  unfold doAct at h
  unfold newVal
  cases ha : e.1.act <;> rw [ha] at h <;> cases h <;> rw [dget?_dset] <;> by_cases hd : e.1.dest = d <;> simp [hd]

theorem takeAct_ok {e : ArgOpt × List Str} (hr : e.1.num ≠ .rest) {st st' : ArgState} :
    takeAct e.1 e.2 st = .ok st' ↔ (∃ v, argValues e.1 (evArgs e) = .ok v) ∧ (∀ q ∈ st.seen, ¬ Clash q e.1) ∧
      ∃ ns, doAct e.1 (evVal e) st.ns = .ok ns ∧ st' = { st with ns := ns, seen := e.1 :: st.seen } := by
  have he : takeAct e.1 e.2 st = match argValues e.1 (evArgs e) with
      | .error e => .error e
      | .ok v =>
        if e.1.group ≠ 0 ∧ ∃ q ∈ st.seen, q.group = e.1.group ∧ q.flags ≠ e.1.flags then .error .usage
        else match doAct e.1 v st.ns with
          | .error e => .error e
          | .ok ns => .ok { st with ns := ns, seen := e.1 :: st.seen } := by
    unfold takeAct evArgs
    cases hnum : e.1.num with
    | rest => exact absurd hnum hr
    | _ => rfl
  rw [he]
  cases hv : argValues e.1 (evArgs e) with
  | error x => simp
  | ok v =>
    have hev : evVal e = v := by unfold evVal; rw [hv]
    rw [hev]
    dsimp only
    by_cases hc : e.1.group ≠ 0 ∧ ∃ q ∈ st.seen, q.group = e.1.group ∧ q.flags ≠ e.1.flags
    · rw [if_pos hc]
      simp only [reduceCtorEq, false_iff, not_and]
      intro _ hq
      obtain ⟨h0, q, hq1, hq2⟩ := hc
      exact absurd ⟨h0, hq2⟩ (hq q hq1)
    · rw [if_neg hc]
      have hq : ∀ q ∈ st.seen, ¬ Clash q e.1 := fun q hq hcl => hc ⟨hcl.1, q, hq, hcl.2⟩
      cases hd : doAct e.1 v st.ns with
      | error x => simp
      | ok ns =>
        simp only [Except.ok.injEq, exists_eq', true_and, exists_eq_left']
        constructor
        · intro h; exact ⟨hq, h.symm⟩
        · rintro ⟨-, h⟩; exact h.symm

theorem takeAct_error {e : ArgOpt × List Str} (hp : ¬ OnlyPrints e.1) {st : ArgState} {x : ArgStop} (h : takeAct e.1 e.2 st = .error x) :
    x = .usage := by
  unfold takeAct at h
  split at h
  · cases h
  · split at h
    · rename_i hv
      cases h
      exact argValues_error hv
    · split at h
      · cases h; rfl
      · split at h
        · rename_i v _ _ _ hd
          obtain ⟨ns', hn⟩ := doAct_prints.2 hp
          rw [hn] at hd
          cases hd
        · cases h

theorem takeActs_error {evs : List (ArgOpt × List Str)} (hp : ∀ e ∈ evs, ¬ OnlyPrints e.1) {st : ArgState} {x : ArgStop}
    (h : takeActs evs st = .error x) : x = .usage := by
  induction evs generalizing st with
  | nil => cases h
  | cons e evs ih =>
    obtain ⟨o, args⟩ := e
    simp only [takeActs] at h
    cases ht : takeAct o args st with
    | error y =>
      rw [ht] at h
      cases h
      exact takeAct_error (e := (o, args)) (hp _ List.mem_cons_self) ht
    | ok s1 =>
      rw [ht] at h
      exact ih (fun e he => hp e (List.mem_cons_of_mem _ he)) h

theorem takeActs_ok_iff {evs : List (ArgOpt × List Str)} (hr : ∀ e ∈ evs, e.1.num ≠ .rest) {st : ArgState} :
    (∃ st', takeActs evs st = .ok st') ↔ (∀ e ∈ evs, (∃ v, argValues e.1 (evArgs e) = .ok v) ∧ ¬ OnlyPrints e.1) ∧
      (∀ e ∈ evs, ∀ q ∈ st.seen, ¬ Clash q e.1) ∧ evs.Pairwise (fun q e => ¬ Clash q.1 e.1) := by
  induction evs generalizing st with
  | nil => simp [takeActs]
  | cons e evs ih =>
    have hr' : ∀ e ∈ evs, e.1.num ≠ .rest := fun e he => hr e (List.mem_cons_of_mem _ he)
    have hre := hr e List.mem_cons_self
    have hstep : ∀ st', takeActs (e :: evs) st = .ok st' ↔ ∃ s1, takeAct e.1 e.2 st = .ok s1 ∧ takeActs evs s1 = .ok st' := by
      intro st'
      obtain ⟨o, args⟩ := e
      simp only [takeActs]
      cases takeAct o args st <;> simp
    constructor
    · rintro ⟨st', h⟩
      obtain ⟨s1, h1, h2⟩ := (hstep st').1 h
      obtain ⟨hv, hq, ns, hd, rfl⟩ := (takeAct_ok hre).1 h1
      obtain ⟨i1, i2, i3⟩ := (ih hr').1 ⟨st', h2⟩
      refine ⟨?_, ?_, ?_⟩
      · intro x hx
        rcases List.mem_cons.1 hx with rfl | hx
        · exact ⟨hv, doAct_prints.1 ⟨ns, hd⟩⟩
        · exact i1 x hx
      · intro x hx q hq'
        rcases List.mem_cons.1 hx with rfl | hx
        · exact hq q hq'
        · exact i2 x hx q (List.mem_cons_of_mem _ hq')
      · rw [List.pairwise_cons]
        exact ⟨fun x hx => i2 x hx e.1 List.mem_cons_self, i3⟩
    · rintro ⟨i1, i2, i3⟩
      rw [List.pairwise_cons] at i3
      obtain ⟨hv, hp⟩ := i1 e List.mem_cons_self
      obtain ⟨ns, hd⟩ := (doAct_prints (o := e.1) (v := evVal e) (ns := st.ns)).2 hp
      have h1 := (takeAct_ok hre).2 ⟨hv, i2 e List.mem_cons_self, ns, hd, rfl⟩
      obtain ⟨st', h2⟩ := (ih hr' (st := { st with ns := ns, seen := e.1 :: st.seen })).2
        ⟨fun x hx => i1 x (List.mem_cons_of_mem _ hx), by
          intro x hx q hq
          rcases List.mem_cons.1 hq with rfl | hq
          · exact i3.1 x hx
          · exact i2 x (List.mem_cons_of_mem _ hx) q hq, i3.2⟩
      exact ⟨st', (hstep st').2 ⟨_, h1, h2⟩⟩

theorem takeActs_get {evs : List (ArgOpt × List Str)} (hr : ∀ e ∈ evs, e.1.num ≠ .rest) {st st' : ArgState}
    (h : takeActs evs st = .ok st') (d : Str) :
    dget? st'.ns d = (evs.filter (fun e => decide (e.1.dest = d))).foldl (fun cur e => newVal e cur) (dget? st.ns d) := by
  induction evs generalizing st with
  | nil => cases h; rfl
  | cons e evs ih =>
    have hr' : ∀ e ∈ evs, e.1.num ≠ .rest := fun e he => hr e (List.mem_cons_of_mem _ he)
    have : ∃ s1, takeAct e.1 e.2 st = .ok s1 ∧ takeActs evs s1 = .ok st' := by
      obtain ⟨o, args⟩ := e
      simp only [takeActs] at h
      cases ht : takeAct o args st with
      | error y => rw [ht] at h; cases h
      | ok s1 => rw [ht] at h; exact ⟨s1, rfl, h⟩
    obtain ⟨s1, h1, h2⟩ := this
    obtain ⟨-, -, ns, hd, rfl⟩ := (takeAct_ok (hr e List.mem_cons_self)).1 h1
    rw [ih hr' h2]
    dsimp only
    rw [doAct_get hd d]
    by_cases hc : e.1.dest = d
    · rw [if_pos hc, List.filter_cons_of_pos (by simpa using hc)]
      rfl
    · rw [if_neg hc, List.filter_cons_of_neg (by simpa using hc)]

theorem takeActs_sub {evs : List (ArgOpt × List Str)} (hr : ∀ e ∈ evs, e.1.num ≠ .rest) {st st' : ArgState}
    (h : takeActs evs st = .ok st') : st'.sub = st.sub := by
  induction evs generalizing st with
  | nil => cases h; rfl
  | cons e evs ih =>
    obtain ⟨o, args⟩ := e
    simp only [takeActs] at h
    cases ht : takeAct o args st with
    | error y => rw [ht] at h; cases h
    | ok s1 =>
      rw [ht] at h
      obtain ⟨-, -, ns, -, rfl⟩ := (takeAct_ok (e := (o, args)) (hr _ List.mem_cons_self)).1 ht
      exact ih (st := { st with ns := ns, seen := o :: st.seen }) (fun e he => hr e (List.mem_cons_of_mem _ he)) h

/-! ### Folding the actions of one option -/

theorem fold_store {es : List (ArgOpt × List Str)} (h : ∀ e ∈ es, e.1.act = .store) (cur : Option (ArgVal ArgAtom)) :
    es.foldl (fun cur e => newVal e cur) cur = match es.getLast? with
      | none => cur
      | some e => some (evVal e) := by
  induction es using List.reverseRecOn with
  | nil => rfl
  | append_singleton es e ih =>
    rw [List.foldl_append, List.getLast?_append]
    simp [newVal, h e (by simp)]

theorem fold_append {es : List (ArgOpt × List Str)} (h : ∀ e ∈ es, e.1.act = .append) (hne : es ≠ []) (cur : Option (ArgVal ArgAtom)) :
    es.foldl (fun cur e => newVal e cur) cur = some (.list (listItems cur ++ es.map (fun e => .many (listAtoms (evVal e))))) := by
  induction es generalizing cur with
  | nil => exact absurd rfl hne
  | cons e es ih =>
    rw [List.foldl_cons]
    have he : newVal e cur = some (.list (listItems cur ++ [.many (listAtoms (evVal e))])) := by
      unfold newVal
      rw [h e List.mem_cons_self]
    by_cases hes : es = []
    · subst hes
      rw [he]
      rfl
    · rw [he, ih (fun x hx => h x (List.mem_cons_of_mem _ hx)) hes]
      simp [listItems]

theorem fold_true {es : List (ArgOpt × List Str)} (h : ∀ e ∈ es, e.1.act = .setTrue) (cur : Option (ArgVal ArgAtom)) :
    es.foldl (fun cur e => newVal e cur) cur = if es.length ≠ 0 then some (.one (.truth true)) else cur := by
  induction es using List.reverseRecOn with
  | nil => rfl
  | append_singleton es e ih =>
    rw [List.foldl_append]
    simp [newVal, h e (by simp)]

theorem fold_count {es : List (ArgOpt × List Str)} (h : ∀ e ∈ es, e.1.act = .count) (n : Int) :
    es.foldl (fun cur e => newVal e cur) (some (.one (.int n))) = some (.one (.int (n + es.length))) := by
  induction es generalizing n with
  | nil => simp
  | cons e es ih =>
    rw [List.foldl_cons]
    have he : newVal e (some (.one (.int n))) = some (.one (.int (n + 1))) := by
      unfold newVal
      rw [h e List.mem_cons_self]
      rfl
    rw [he, ih (fun x hx => h x (List.mem_cons_of_mem _ hx))]
    congr 3
    simp only [List.length_cons]
    omega

theorem fold_const {es : List (ArgOpt × List Str)} (h : ∀ e ∈ es, ∃ s, e.1.act = .setConst s) (cur : Option (ArgVal ArgAtom)) :
    (es = [] ∧ es.foldl (fun cur e => newVal e cur) cur = cur) ∨ ∃ e s, es.getLast? = some e ∧ e.1.act = .setConst s ∧
      es.foldl (fun cur e => newVal e cur) cur = some (.one (.text s)) := by
  induction es using List.reverseRecOn with
  | nil => exact .inl ⟨rfl, rfl⟩
  | append_singleton es e ih =>
    obtain ⟨s, hs⟩ := h e (by simp)
    refine .inr ⟨e, s, by simp, hs, ?_⟩
    rw [List.foldl_append]
    simp [newVal, hs]

/-- what the uses of one option leave -/
theorem outcome_of {o : ArgOpt} {us : List ArgUse} (hs : ∀ u ∈ us, u.opt = o ∨ ((∃ s, o.act = .setConst s) ∧ ∃ s, u.opt.act = .setConst s))
    (hok : OptOk o) (hfit : ∀ u ∈ us, FitsNum u.opt.num u.vals) (hg : ∀ u ∈ us, u.Good) (hp : ¬ OnlyPrints o) :
    ∃ v, (useActs us).foldl (fun cur e => newVal e cur) (some o.default) = some v ∧ ArgOutcome o us v := by
  have hsame : (¬ ∃ s, o.act = .setConst s) → ∀ u ∈ us, u.opt = o := fun hn u hu => (hs u hu).resolve_right (fun h => hn h.1)
  have hev : ∀ u : ArgUse, u.opt.flags ≠ [] → evArgs (u.opt, u.vals) = u.vals := by
    intro u hu
    unfold evArgs
    rw [if_neg hu]
  have hlast : (useActs us).getLast? = us.getLast?.map (fun u => (u.opt, u.vals)) := by
    unfold useActs
    rw [List.getLast?_map]
  unfold ArgOutcome ArgOpt.default
  cases hact : o.act with
  | store =>
    have hsm := hsame (by rw [hact]; simp)
    have hmem : ∀ e ∈ useActs us, e.1.act = .store := by
      intro e he
      obtain ⟨u, hu, rfl⟩ := List.mem_map.1 he
      rw [hsm u hu, hact]
    rw [fold_store hmem, hlast]
    cases hl : us.getLast? with
    | none => exact ⟨.absent, rfl, .inl ⟨List.getLast?_eq_none_iff.1 hl, rfl⟩⟩
    | some u =>
      have hu : u ∈ us := List.mem_of_getLast? hl
      have huo := hsm u hu
      have hfl : u.opt.flags ≠ [] := by rw [huo]; exact hok.flags
      obtain ⟨v, hv⟩ := (good_iff hfl (hfit u hu)).1 (hg u hu)
      refine ⟨v, ?_, .inr ?_⟩
      · simp only [Option.map_some]
        congr 1
        unfold evVal
        dsimp only
        rw [hev u hfl, hv]
      · rcases (argValues_use hfl (hfit u hu) v).1 hv with ⟨-, s, a, h1, h2, h3⟩ | ⟨hz, -⟩
        · exact ⟨u, s, a, rfl, h1, huo ▸ h2, h3⟩
        · exfalso
          rw [huo] at hz
          rcases hok.store hact with h | h <;> rw [h] at hz <;> rcases hz with hz | hz <;> cases hz
  | append =>
    have hsm := hsame (by rw [hact]; simp)
    have hmem : ∀ e ∈ useActs us, e.1.act = .append := by
      intro e he
      obtain ⟨u, hu, rfl⟩ := List.mem_map.1 he
      rw [hsm u hu, hact]
    by_cases hne : us = []
    · subst hne
      exact ⟨.absent, rfl, .inl ⟨rfl, rfl⟩⟩
    · rw [fold_append hmem (by simpa [useActs] using hne)]
      have hall : ∀ u ∈ us, ∃ as, u.vals.Forall₂ (Accepts o) as ∧ listAtoms (evVal (u.opt, u.vals)) = as := by
        intro u hu
        have huo := hsm u hu
        have hfl : u.opt.flags ≠ [] := by rw [huo]; exact hok.flags
        obtain ⟨v, hv⟩ := (good_iff hfl (hfit u hu)).1 (hg u hu)
        rcases (argValues_use hfl (hfit u hu) v).1 hv with ⟨hz, -⟩ | ⟨-, as, h1, h2⟩
        · exfalso
          rw [huo, hok.append hact] at hz
          rcases hz with hz | hz <;> cases hz
        · refine ⟨as, huo ▸ h1, ?_⟩
          unfold evVal
          dsimp only
          rw [hev u hfl, hv, h2]
          simp only [listAtoms, List.filterMap_map]
          exact List.filterMap_some
      refine ⟨_, rfl, .inr ⟨hne, us.map (fun u => listAtoms (evVal (u.opt, u.vals))), ?_, ?_⟩⟩
      · clear hne hmem hlast hsm
        induction us with
        | nil => exact .nil
        | cons u us ih =>
          obtain ⟨as, h1, h2⟩ := hall u List.mem_cons_self
          refine .cons (by dsimp only; rw [h2]; exact h1) (ih (fun x hx => hs x (List.mem_cons_of_mem _ hx)) (fun x hx => hfit x (List.mem_cons_of_mem _ hx))
            (fun x hx => hg x (List.mem_cons_of_mem _ hx)) (fun hn x hx => hsame hn x (List.mem_cons_of_mem _ hx))
            (fun x hx => hall x (List.mem_cons_of_mem _ hx)))
      · simp [listItems, useActs]
  | setTrue =>
    have hsm := hsame (by rw [hact]; simp)
    have hmem : ∀ e ∈ useActs us, e.1.act = .setTrue := by
      intro e he
      obtain ⟨u, hu, rfl⟩ := List.mem_map.1 he
      rw [hsm u hu, hact]
    rw [fold_true hmem]
    refine ⟨_, ?_, rfl⟩
    by_cases hl : us.length = 0 <;> simp [useActs, hl]
  | setConst c =>
    have hmem : ∀ e ∈ useActs us, ∃ s, e.1.act = .setConst s := by
      intro e he
      obtain ⟨u, hu, rfl⟩ := List.mem_map.1 he
      rcases hs u hu with h | h
      · exact ⟨c, by rw [h, hact]⟩
      · exact h.2
    rcases fold_const hmem (some .absent) with ⟨h1, h2⟩ | ⟨e, s, h1, h2, h3⟩
    · exact ⟨.absent, h2, .inl ⟨by simpa [useActs] using h1, rfl⟩⟩
    · refine ⟨_, h3, .inr ?_⟩
      rw [hlast] at h1
      obtain ⟨u, hu, rfl⟩ := Option.map_eq_some_iff.1 h1
      exact ⟨u, s, hu, h2, rfl⟩
  | count =>
    have hsm := hsame (by rw [hact]; simp)
    have hmem : ∀ e ∈ useActs us, e.1.act = .count := by
      intro e he
      obtain ⟨u, hu, rfl⟩ := List.mem_map.1 he
      rw [hsm u hu, hact]
    rw [fold_count hmem]
    refine ⟨_, rfl, ?_⟩
    simp [useActs]
  | help => exact absurd (.inl hact) hp
  | version => exact absurd (.inr hact) hp

end Cot
