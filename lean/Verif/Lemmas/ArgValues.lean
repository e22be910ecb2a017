import Verif.Lemmas.Argparse
import Mathlib.Data.List.Forall2
/-
Command lines: the values of options, and what the actions leave in the namespace.
-/
namespace Cot

/-! ### Values -/

theorem convArg_iff (t : ArgType) (s : Str) (a : ArgAtom) : convArg t s = .ok a ↔ ReadsAs t s a := by
  cases t with
  | text =>
    simp only [convArg, ReadsAs, Except.ok.injEq]
    exact eq_comm
  | positive =>
    simp only [convArg, ReadsAs]
    constructor
    · intro h
      cases hp : positiveInt s with
      | error e => rw [hp] at h; cases h
      | ok i => rw [hp] at h; cases h; exact ⟨i, rfl, (C19_non_negative_and_positive s i).2.1 hp⟩
    · rintro ⟨i, rfl, h⟩
      rw [(C19_non_negative_and_positive s i).2.2 h]
  | nonNegative =>
    simp only [convArg, ReadsAs]
    constructor
    · intro h
      cases hp : nonNegativeInt s with
      | error e => rw [hp] at h; cases h
      | ok i => rw [hp] at h; cases h; exact ⟨i, rfl, (C19_non_negative_and_positive s i).1.1 hp⟩
    · rintro ⟨i, rfl, h⟩
      rw [(C19_non_negative_and_positive s i).1.2 h]
  | device =>
    simp only [convArg, ReadsAs]
    constructor
    · intro h
      cases hp : deviceAddress s with
      | error e => rw [hp] at h; cases h
      | ok i => rw [hp] at h; cases h; exact ⟨i, rfl, ((C20_device_address s).1 i).1 hp⟩
    · rintro ⟨i, rfl, h⟩
      rw [((C20_device_address s).1 i).2 h]
  | noSpace =>
    simp only [convArg, ReadsAs]
    constructor
    · intro h
      cases hp : noWhitespace s with
      | error e => rw [hp] at h; cases h
      | ok i => rw [hp] at h; cases h; exact ⟨i, rfl, ((C56_no_whitespace s).1 i).1 hp⟩
    · rintro ⟨i, rfl, h⟩
      rw [((C56_no_whitespace s).1 i).2 h]
  | mac =>
    simp only [convArg, ReadsAs]
    constructor
    · intro h
      cases hp : macAddress s with
      | error e => rw [hp] at h; cases h
      | ok i => rw [hp] at h; cases h; exact ⟨i, rfl, ((C20_mac_address s).1 i).1 hp⟩
    · rintro ⟨i, rfl, h⟩
      rw [((C20_mac_address s).1 i).2 h]
  | truth =>
    simp only [convArg, ReadsAs]
    constructor
    · intro h
      cases hp : truthValue (.inr s) with
      | error e => rw [hp] at h; cases h
      | ok b =>
        rw [hp] at h
        cases h
        cases b with
        | true => exact .inl ⟨rfl, (C57_truth_value s).2.1.1 hp⟩
        | false => exact .inr ⟨rfl, (C57_truth_value s).2.2.1.1 hp⟩
    · rintro (⟨rfl, h⟩ | ⟨rfl, h⟩)
      · rw [(C57_truth_value s).2.1.2 h]
      · rw [(C57_truth_value s).2.2.1.2 h]

theorem convArg_error {t : ArgType} {s : Str} {e : ArgStop} (h : convArg t s = .error e) : e = .usage := by
  cases t <;> simp only [convArg] at h <;> first
    | (cases h)
    | (split at h <;> cases h; rfl)

theorem argAtom_iff (o : ArgOpt) (s : Str) (a : ArgAtom) : argAtom o s = .ok a ↔ Accepts o s a := by
  unfold argAtom Accepts
  rw [← convArg_iff]
  cases hc : convArg o.type s with
  | error e => simp
  | ok b =>
    simp only [checkChoice, Except.ok.injEq]
    cases hch : o.choices with
    | none => simp
    | some cs =>
      by_cases hin : ∃ c ∈ cs, b = .text c
      · simp only [if_pos hin, Except.ok.injEq, Option.some.injEq]
        constructor
        · rintro rfl
          exact ⟨rfl, fun _ h => h ▸ hin⟩
        · exact fun h => h.1
      · simp only [if_neg hin, Option.some.injEq]
        constructor
        · intro h; cases h
        · rintro ⟨rfl, h⟩
          exact absurd (h cs rfl) hin

theorem argAtom_error {o : ArgOpt} {s : Str} {e : ArgStop} (h : argAtom o s = .error e) : e = .usage := by
  unfold argAtom at h
  cases hc : convArg o.type s with
  | error e' =>
    rw [hc] at h
    cases h
    exact convArg_error hc
  | ok a =>
    rw [hc] at h
    simp only [checkChoice] at h
    cases hch : o.choices with
    | none => rw [hch] at h; cases h
    | some cs =>
      rw [hch] at h
      dsimp only at h
      by_cases hin : ∃ c ∈ cs, a = .text c
      · rw [if_pos hin] at h; cases h
      · rw [if_neg hin] at h; cases h; rfl

theorem argAtoms_iff (o : ArgOpt) (ss : List Str) (as : List ArgAtom) : argAtoms o ss = .ok as ↔ ss.Forall₂ (Accepts o) as := by
  induction ss generalizing as with
  | nil =>
    simp only [argAtoms, Except.ok.injEq, List.forall₂_nil_left_iff]
    exact eq_comm
  | cons s ss ih =>
    simp only [argAtoms]
    cases ha : argAtom o s with
    | error e =>
      simp only [reduceCtorEq, false_iff]
      intro h
      cases h with
      | cons h1 _ => rw [(argAtom_iff o s _).2 h1] at ha; cases ha
    | ok a =>
      dsimp only
      cases hb : argAtoms o ss with
      | error e =>
        simp only [reduceCtorEq, false_iff]
        intro h
        cases h with
        | cons _ h2 => rw [(ih _).2 h2] at hb; cases hb
      | ok bs =>
        simp only [Except.ok.injEq]
        constructor
        · rintro rfl
          exact .cons ((argAtom_iff o s a).1 ha) ((ih bs).1 hb)
        · intro h
          cases h with
          | cons h1 h2 =>
            have e1 := (argAtom_iff o s _).2 h1
            have e2 := (ih _).2 h2
            rw [ha] at e1
            rw [hb] at e2
            cases e1
            cases e2
            rfl

theorem argAtoms_error {o : ArgOpt} {ss : List Str} {e : ArgStop} (h : argAtoms o ss = .error e) : e = .usage := by
  induction ss with
  | nil => cases h
  | cons s ss ih =>
    simp only [argAtoms] at h
    cases ha : argAtom o s with
    | error e' => rw [ha] at h; cases h; exact argAtom_error ha
    | ok a =>
      rw [ha] at h
      dsimp only at h
      cases hb : argAtoms o ss with
      | error e' => rw [hb] at h; cases h; exact ih hb
      | ok bs => rw [hb] at h; cases h

theorem argValues_error {o : ArgOpt} {args : List Str} {e : ArgStop} (h : argValues o args = .error e) : e = .usage := by
  unfold argValues at h
  split at h
  · split at h
    · cases h
    · split at h
      · rename_i he; cases h; exact argAtom_error he
      · cases h
  · split at h
    · rename_i he; cases h; exact argAtom_error he
    · cases h
  · split at h
    · rename_i he; cases h; exact argAtom_error he
    · cases h
  · split at h
    · rename_i he; cases h; exact argAtoms_error he
    · cases h

/-- what the proofs need to know of an option -/
structure OptOk (o : ArgOpt) : Prop where
  flags : o.flags ≠ []
  norest : o.num ≠ .rest
  store : o.act = .store → o.num = .one ∨ o.num = .opt
  append : o.act = .append → o.num = .plus
  other : o.act ≠ .store → o.act ≠ .append → o.num = .zero

def optOkB (o : ArgOpt) : Bool :=
  decide (o.flags ≠ []) && decide (o.num ≠ .rest) && decide (o.act = .store → o.num = .one ∨ o.num = .opt) &&
    decide (o.act = .append → o.num = .plus) && decide (o.act ≠ .store → o.act ≠ .append → o.num = .zero)

theorem optOkB_sound {o : ArgOpt} (h : optOkB o = true) : OptOk o := by
  unfold optOkB at h
  simp only [Bool.and_eq_true, decide_eq_true_eq] at h
  exact ⟨h.1.1.1.1, h.1.1.1.2, h.1.1.2, h.1.2, h.2⟩

def asOne (o : ArgOpt) (s : Str) : Except ArgStop (ArgVal ArgAtom) :=
  match argAtom o s with
  | .error e => .error e
  | .ok a => .ok (.one a)

def asList (o : ArgOpt) (ss : List Str) : Except ArgStop (ArgVal ArgAtom) :=
  match argAtoms o ss with
  | .error e => .error e
  | .ok as => .ok (.list (as.map .one))

/-- the value of a use of an option -/
theorem argValues_use {u : ArgUse} (hf : u.opt.flags ≠ []) (hn : FitsNum u.opt.num u.vals) (v : ArgVal ArgAtom) :
    argValues u.opt u.vals = .ok v ↔
      ((u.opt.num = .one ∨ u.opt.num = .opt) ∧ ∃ s a, u.texts = [s] ∧ Accepts u.opt s a ∧ v = .one a) ∨
      ((u.opt.num = .zero ∨ u.opt.num = .plus) ∧ ∃ as, u.vals.Forall₂ (Accepts u.opt) as ∧ v = .list (as.map .one)) := by
  obtain ⟨o, vals⟩ := u
  dsimp only at hf hn ⊢
  have one : ∀ s, asOne o s = .ok v ↔ ∃ a, Accepts o s a ∧ v = .one a := by
    intro s
    unfold asOne
    constructor
    · intro h
      cases ha : argAtom o s with
      | error e => rw [ha] at h; cases h
      | ok a => rw [ha] at h; cases h; exact ⟨a, (argAtom_iff o s a).1 ha, rfl⟩
    · rintro ⟨a, ha, rfl⟩
      rw [(argAtom_iff o s a).2 ha]
  have many : asList o vals = .ok v ↔ ∃ as, vals.Forall₂ (Accepts o) as ∧ v = .list (as.map .one) := by
    unfold asList
    constructor
    · intro h
      cases ha : argAtoms o vals with
      | error e => rw [ha] at h; cases h
      | ok a => rw [ha] at h; cases h; exact ⟨a, (argAtoms_iff o vals a).1 ha, rfl⟩
    · rintro ⟨a, ha, rfl⟩
      rw [(argAtoms_iff o vals a).2 ha]
  cases hnum : o.num with
  | zero =>
    have e : argValues o vals = asList o vals := by
      unfold argValues
      rw [hnum]
      rfl
    rw [e, many]
    simp
  | plus =>
    have e : argValues o vals = asList o vals := by
      unfold argValues
      rw [hnum]
      rfl
    rw [e, many]
    simp
  | one =>
    rw [hnum] at hn
    obtain ⟨s, rfl⟩ := List.length_eq_one_iff.1 hn
    have e : argValues o [s] = asOne o s := by
      unfold argValues
      rw [hnum]
      rfl
    rw [e, one]
    simp [ArgUse.texts]
  | opt =>
    rw [hnum] at hn
    cases vals with
    | nil =>
      have e : argValues o [] = asOne o o.const := by
        unfold argValues
        rw [hnum]
        dsimp only
        rw [if_neg hf]
        rfl
      rw [e, one]
      simp [ArgUse.texts, hnum]
    | cons s vs =>
      have : vs = [] := by
        simp only [FitsNum, List.length_cons] at hn
        exact List.length_eq_zero_iff.1 (by omega)
      subst this
      have e : argValues o [s] = asOne o s := by
        unfold argValues
        rw [hnum]
        rfl
      rw [e, one]
      simp [ArgUse.texts]
  | rest =>
    rw [hnum] at hn
    exact hn.elim

theorem forall2_of_forall {α β : Type} {R : α → β → Prop} {l : List α} (h : ∀ x ∈ l, ∃ y, R x y) : ∃ m, l.Forall₂ R m := by
  induction l with
  | nil => exact ⟨[], .nil⟩
  | cons x l ih =>
    obtain ⟨y, hy⟩ := h x List.mem_cons_self
    obtain ⟨m, hm⟩ := ih (fun z hz => h z (List.mem_cons_of_mem _ hz))
    exact ⟨y :: m, .cons hy hm⟩

theorem forall_of_forall2 {α β : Type} {R : α → β → Prop} {l : List α} {m : List β} (h : l.Forall₂ R m) : ∀ x ∈ l, ∃ y, R x y := by
  induction h with
  | nil => simp
  | @cons a b l m h1 _ ih =>
    intro x hx
    rcases List.mem_cons.1 hx with rfl | hx
    · exact ⟨b, h1⟩
    · exact ih x hx

theorem good_iff {u : ArgUse} (hf : u.opt.flags ≠ []) (hn : FitsNum u.opt.num u.vals) :
    u.Good ↔ ∃ v, argValues u.opt u.vals = .ok v := by
  have hfit := hn
  constructor
  · intro h
    cases hnum : u.opt.num with
    | rest => rw [hnum] at hn; exact hn.elim
    | one =>
      rw [hnum] at hn
      obtain ⟨s, hs⟩ := List.length_eq_one_iff.1 hn
      have ht : u.texts = [s] := by simp [ArgUse.texts, hnum, hs]
      obtain ⟨a, ha⟩ := h s (by rw [ht]; simp)
      exact ⟨.one a, (argValues_use hf hfit _).2 (.inl ⟨.inl hnum, s, a, ht, ha, rfl⟩)⟩
    | opt =>
      rw [hnum] at hn
      have : ∃ s, u.texts = [s] := by
        unfold ArgUse.texts
        rcases hv : u.vals with _ | ⟨s, vs⟩
        · exact ⟨u.opt.const, by simp [hnum]⟩
        · rw [hv] at hn
          simp only [FitsNum, List.length_cons] at hn
          have : vs = [] := List.length_eq_zero_iff.1 (by omega)
          subst this
          exact ⟨s, by simp⟩
      obtain ⟨s, ht⟩ := this
      obtain ⟨a, ha⟩ := h s (by rw [ht]; simp)
      exact ⟨.one a, (argValues_use hf hfit _).2 (.inl ⟨.inr hnum, s, a, ht, ha, rfl⟩)⟩
    | zero =>
      have ht : u.texts = u.vals := by simp [ArgUse.texts, hnum]
      obtain ⟨as, has⟩ := forall2_of_forall (l := u.vals) (R := Accepts u.opt) (fun s hs => h s (by rw [ht]; exact hs))
      exact ⟨_, (argValues_use hf hfit _).2 (.inr ⟨.inl hnum, as, has, rfl⟩)⟩
    | plus =>
      have ht : u.texts = u.vals := by simp [ArgUse.texts, hnum]
      obtain ⟨as, has⟩ := forall2_of_forall (l := u.vals) (R := Accepts u.opt) (fun s hs => h s (by rw [ht]; exact hs))
      exact ⟨_, (argValues_use hf hfit _).2 (.inr ⟨.inr hnum, as, has, rfl⟩)⟩
  · rintro ⟨v, hv⟩ s hs
    rcases (argValues_use hf hfit v).1 hv with ⟨-, t, a, ht, ha, -⟩ | ⟨hz, as, has, -⟩
    · rw [ht] at hs
      rw [List.mem_singleton] at hs
      subst hs
      exact ⟨a, ha⟩
    · have ht : u.texts = u.vals := by
        rcases hz with hz | hz <;> simp [ArgUse.texts, hz]
      exact forall_of_forall2 has s (ht ▸ hs)

end Cot
