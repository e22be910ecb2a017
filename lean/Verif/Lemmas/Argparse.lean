import Verif.Spec.Argparse
import Verif.Lemmas.Dict
import Verif.Props.DataValidation
import Mathlib.Data.List.TakeWhile
/-
Command lines: recognizing options, and the loop over the arguments.
-/
namespace Cot

/-- what the proofs need to know of the flags of a parser -/
structure FlagsOk (P : ArgParser) : Prop where
  nodup : (dkeys P.flagTable).Nodup
  dash : ∀ fo ∈ P.flagTable, fo.1.head? = some '-'
  len : ∀ fo ∈ P.flagTable, 2 ≤ fo.1.length
  two : ∀ fo ∈ P.flagTable, fo.1 ≠ ['-', '-']
  eq : ∀ fo ∈ P.flagTable, '=' ∉ fo.1

def flagsOkB (P : ArgParser) : Bool :=
  decide (dkeys P.flagTable).Nodup && P.flagTable.all (fun fo => fo.1.head? = some '-' && 2 ≤ fo.1.length && fo.1 ≠ ['-', '-'] && '=' ∉ fo.1)

theorem flagsOkB_sound {P : ArgParser} (h : flagsOkB P = true) : FlagsOk P := by
  unfold flagsOkB at h
  simp only [Bool.and_eq_true, decide_eq_true_eq, List.all_eq_true] at h
  exact ⟨h.1, fun fo hf => (h.2 fo hf).1.1.1, fun fo hf => (h.2 fo hf).1.1.2, fun fo hf => (h.2 fo hf).1.2, fun fo hf => (h.2 fo hf).2⟩

theorem mem_flagTable {P : ArgParser} {f : Str} {o : ArgOpt} : (f, o) ∈ P.flagTable ↔ o ∈ P.opts ∧ f ∈ o.flags := by
  unfold ArgParser.flagTable
  simp only [List.mem_flatMap, List.mem_map, Prod.mk.injEq]
  constructor
  · rintro ⟨q, hq, g, hg, rfl, rfl⟩
    exact ⟨hq, hg⟩
  · rintro ⟨ho, hf⟩
    exact ⟨o, ho, f, hf, rfl, rfl⟩

theorem byFlag_some {P : ArgParser} (hP : FlagsOk P) {f : Str} {o : ArgOpt} (ho : o ∈ P.opts) (hf : f ∈ o.flags) : P.byFlag f = some o :=
  dget?_of_mem hP.nodup (mem_flagTable.2 ⟨ho, hf⟩)

theorem byFlag_mem {P : ArgParser} {f : Str} {o : ArgOpt} (h : P.byFlag f = some o) : o ∈ P.opts ∧ f ∈ o.flags :=
  mem_flagTable.1 (dget?_mem h)

theorem byFlag_none {P : ArgParser} {f : Str} (h : ∀ q ∈ P.opts, f ∉ q.flags) : P.byFlag f = none := by
  cases hb : P.byFlag f with
  | none => rfl
  | some o => exact absurd (byFlag_mem hb).2 (h o (byFlag_mem hb).1)

theorem partEq_none {s : Str} (h : '=' ∉ s) : partEq s = none := by
  unfold partEq
  have : s.dropWhile (fun c => c != '=') = [] := by
    rw [List.dropWhile_eq_nil_iff]
    intro c hc
    simp only [bne_iff_ne, ne_eq]
    rintro rfl
    exact h hc
  rw [this]

theorem partEq_append {s v : Str} (h : '=' ∉ s) : partEq (s ++ '=' :: v) = some (s, v) := by
  have hp : ∀ c ∈ s, (fun c => c != '=') c = true := by
    intro c hc
    simp only [bne_iff_ne, ne_eq]
    rintro rfl
    exact h hc
  unfold partEq
  rw [List.dropWhile_append_of_pos hp, List.takeWhile_append_of_pos hp]
  simp

theorem partEq_split {s p v : Str} (h : partEq s = some (p, v)) : s = p ++ '=' :: v ∧ '=' ∉ p := by
  unfold partEq at h
  have hs := List.takeWhile_append_dropWhile (p := fun c => c != '=') (l := s)
  cases hd : s.dropWhile (fun c => c != '=') with
  | nil => rw [hd] at h; simp at h
  | cons x r =>
    rw [hd] at h
    simp only [Option.some.injEq, Prod.mk.injEq] at h
    have hx : x = '=' := by
      have := List.head?_dropWhile_not (p := fun c => c != '=') (l := s)
      rw [hd] at this
      simpa using this
    subst hx
    rw [h.1, hd, h.2] at hs
    refine ⟨hs.symm, ?_⟩
    rw [← h.1]
    intro hm
    have := List.mem_takeWhile_imp hm
    simp at this

/-- the only entry with a given property -/
theorem filter_single {α : Type} {t : List (Str × α)} (hn : (dkeys t).Nodup) {p : Str × α → Bool} {f : Str} {o : α} (hm : (f, o) ∈ t)
    (hp : p (f, o) = true) (hu : ∀ g q, (g, q) ∈ t → p (g, q) = true → g = f) : t.filter p = [(f, o)] := by
  induction t with
  | nil => simp at hm
  | cons x t ih =>
    obtain ⟨g, q⟩ := x
    simp only [dkeys, List.map_cons, List.nodup_cons] at hn
    rcases List.mem_cons.1 hm with hm | hm
    · cases hm
      rw [List.filter_cons_of_pos hp]
      congr 1
      rw [List.filter_eq_nil_iff]
      rintro ⟨g, q⟩ hq hpq
      have := hu g q (List.mem_cons_of_mem _ hq) hpq
      subst this
      exact hn.1 (List.mem_map_of_mem (f := Prod.fst) hq)
    · have hne : g ≠ f := by
        rintro rfl
        exact hn.1 (List.mem_map_of_mem (f := Prod.fst) hm)
      rw [List.filter_cons_of_neg]
      · exact ih hn.2 hm (fun g q hq h => hu g q (List.mem_cons_of_mem _ hq) h)
      · intro h
        exact hne (hu g q List.mem_cons_self h)

theorem hasPrefix_iff {p s : Str} : hasPrefix p s = true ↔ p <+: s := by
  unfold hasPrefix
  exact List.isPrefixOf_iff_prefix

/-! ### What an argument is -/

theorem argKind_word {P : ArgParser} (hP : FlagsOk P) {s : Str} (h : Word s) : argKind P s = .ok .plain := by
  unfold argKind
  rcases h with rfl | h
  · rw [if_neg (by simp)]
    have hb : P.byFlag ['-'] = none := by
      apply byFlag_none
      intro q hq hf
      have := hP.len _ (mem_flagTable.2 ⟨hq, hf⟩)
      simp at this
    rw [hb]
    simp
  · rw [if_pos h]

theorem byFlag_abbrev {P : ArgParser} (hP : FlagsOk P) {s f : Str} {o q : ArgOpt} (ho : o ∈ P.opts) (hf : f ∈ o.flags)
    (hu : ∀ q ∈ P.opts, ∀ g ∈ q.flags, s <+: g → g = f) (hb : P.byFlag s = some q) : q = o := by
  obtain ⟨hq, hs⟩ := byFlag_mem hb
  have := hu q hq s hs (List.prefix_refl s)
  subst this
  have h2 := byFlag_some hP ho hf
  rw [hb] at h2
  exact Option.some.inj h2

theorem longHits_none {P : ArgParser} (hP : FlagsOk P) {s f : Str} {o : ArgOpt} (ho : o ∈ P.opts) (hf : f ∈ o.flags) (he : '=' ∉ s)
    (hp : s <+: f) (hu : ∀ q ∈ P.opts, ∀ g ∈ q.flags, s <+: g → g = f) : longHits P s = [⟨o, f, none⟩] := by
  unfold longHits
  rw [partEq_none he]
  dsimp only
  rw [filter_single hP.nodup (mem_flagTable.2 ⟨ho, hf⟩) (p := fun fo => hasPrefix s fo.1) (hasPrefix_iff.2 hp)
    (fun g q hq h => hu q (mem_flagTable.1 hq).1 g (mem_flagTable.1 hq).2 (hasPrefix_iff.1 h))]
  rfl

theorem longHits_some {P : ArgParser} (hP : FlagsOk P) {s v f : Str} {o : ArgOpt} (ho : o ∈ P.opts) (hf : f ∈ o.flags) (he : '=' ∉ s)
    (hp : s <+: f) (hu : ∀ q ∈ P.opts, ∀ g ∈ q.flags, s <+: g → g = f) :
    longHits P (s ++ '=' :: v) = [⟨o, f, some (true, v)⟩] := by
  unfold longHits
  rw [partEq_append he]
  dsimp only
  rw [filter_single hP.nodup (mem_flagTable.2 ⟨ho, hf⟩) (p := fun fo => hasPrefix s fo.1) (hasPrefix_iff.2 hp)
    (fun g q hq h => hu q (mem_flagTable.1 hq).1 g (mem_flagTable.1 hq).2 (hasPrefix_iff.1 h))]
  rfl

theorem optionHits_long {P : ArgParser} {s : Str} (h : ['-', '-'] <+: s) : optionHits P s = longHits P s := by
  obtain ⟨t, rfl⟩ := h
  rfl

theorem argKind_names {P : ArgParser} (hP : FlagsOk P) {s : Str} {o : ArgOpt} (h : NamesOpt P s o) :
    s ≠ ['-', '-'] ∧ s.head? = some '-' ∧ ∃ f, argKind P s = .ok (.option ⟨o, f, none⟩) := by
  obtain ⟨ho, hf | ⟨hd, hne, he, f, hf, hp, hu⟩⟩ := h
  · have hm := mem_flagTable.2 ⟨ho, hf⟩
    refine ⟨hP.two _ hm, hP.dash _ hm, s, ?_⟩
    unfold argKind
    rw [if_neg (by rw [hP.dash _ hm]; simp), byFlag_some hP ho hf]
  · have hh : s.head? = some '-' := by
      obtain ⟨t, rfl⟩ := hd
      rfl
    refine ⟨hne, hh, ?_⟩
    unfold argKind
    rw [if_neg (by rw [hh]; simp)]
    cases hb : P.byFlag s with
    | some q =>
      rw [byFlag_abbrev hP ho hf hu hb]
      exact ⟨s, rfl⟩
    | none =>
      dsimp only
      have hl : s.length ≠ 1 := by
        obtain ⟨t, rfl⟩ := hd
        simp
      rw [if_neg hl]
      have hq : byEq P s = none := by
        unfold byEq
        rw [partEq_none he]
      rw [hq, optionHits_long hd, longHits_none hP ho hf he hp hu]
      exact ⟨f, rfl⟩

theorem argKind_attached {P : ArgParser} (hP : FlagsOk P) {s v : Str} {o : ArgOpt} (h : NamesOpt P s o) :
    s ++ '=' :: v ≠ ['-', '-'] ∧ ∃ f, argKind P (s ++ '=' :: v) = .ok (.option ⟨o, f, some (true, v)⟩) := by
  have hno : P.byFlag (s ++ '=' :: v) = none := by
    apply byFlag_none
    intro q hq hf
    exact hP.eq _ (mem_flagTable.2 ⟨hq, hf⟩) (by simp)
  have h2 : s ++ '=' :: v ≠ ['-', '-'] := by
    intro e
    have : '=' ∈ s ++ '=' :: v := by simp
    rw [e] at this
    simp at this
  refine ⟨h2, ?_⟩
  have hh : s.head? = some '-' := (argKind_names hP h).2.1
  have hh' : (s ++ '=' :: v).head? = some '-' := by
    cases s with
    | nil => simp at hh
    | cons c t => simpa using hh
  have hl : (s ++ '=' :: v).length ≠ 1 := by
    cases s with
    | nil => simp at hh
    | cons c t => simp
  unfold argKind
  rw [if_neg (by rw [hh']; simp), hno]
  dsimp only
  rw [if_neg hl]
  obtain ⟨ho, hf | ⟨hd, hne, he, f, hf, hp, hu⟩⟩ := h
  · have hm := mem_flagTable.2 ⟨ho, hf⟩
    have hq : byEq P (s ++ '=' :: v) = some ⟨o, s, some (true, v)⟩ := by
      unfold byEq
      rw [partEq_append (hP.eq _ hm)]
      dsimp only
      rw [byFlag_some hP ho hf]
      rfl
    rw [hq]
    exact ⟨s, rfl⟩
  · cases hb : P.byFlag s with
    | some q =>
      have hq : byEq P (s ++ '=' :: v) = some ⟨o, s, some (true, v)⟩ := by
        unfold byEq
        rw [partEq_append he]
        dsimp only
        rw [hb, byFlag_abbrev hP ho hf hu hb]
        rfl
      rw [hq]
      exact ⟨s, rfl⟩
    | none =>
      have hq : byEq P (s ++ '=' :: v) = none := by
        unfold byEq
        rw [partEq_append he]
        dsimp only
        rw [hb]
        rfl
      have hd' : ['-', '-'] <+: s ++ '=' :: v := hd.trans (List.prefix_append _ _)
      rw [hq, optionHits_long hd', longHits_some hP ho hf he hp hu]
      exact ⟨f, rfl⟩

theorem filterMap_single {α β : Type} {t : List (Str × α)} (hn : (dkeys t).Nodup) {g : Str × α → Option β} {f : Str} {o : α} {b : β}
    (hm : (f, o) ∈ t) (hp : g (f, o) = some b) (hu : ∀ x ∈ t, x.1 ≠ f → g x = none) : t.filterMap g = [b] := by
  induction t with
  | nil => simp at hm
  | cons x t ih =>
    obtain ⟨k, q⟩ := x
    simp only [dkeys, List.map_cons, List.nodup_cons] at hn
    rcases List.mem_cons.1 hm with hm | hm
    · cases hm
      rw [List.filterMap_cons_some hp]
      congr 1
      rw [List.filterMap_eq_nil_iff]
      intro y hy
      apply hu y (List.mem_cons_of_mem _ hy)
      intro he
      exact hn.1 (he ▸ List.mem_map_of_mem (f := Prod.fst) hy)
    · have hne : k ≠ f := by
        rintro rfl
        exact hn.1 (List.mem_map_of_mem (f := Prod.fst) hm)
      rw [List.filterMap_cons_none (hu (k, q) List.mem_cons_self hne)]
      exact ih hn.2 hm (fun x hx h => hu x (List.mem_cons_of_mem _ hx) h)

theorem argKind_glued {P : ArgParser} (hP : FlagsOk P) {c : Char} {v : Str} {o : ArgOpt} (ho : o ∈ P.opts) (hf : ['-', c] ∈ o.flags)
    (h1 : ∀ q ∈ P.opts, ∀ g ∈ q.flags, g <+: '-' :: c :: v → g = ['-', c])
    (h2 : ∀ q ∈ P.opts, ∀ g ∈ q.flags, ¬ '-' :: c :: v <+: g) (heq : v.head? ≠ some '=') :
    argKind P ('-' :: c :: v) = .ok (.option ⟨o, ['-', c], some (false, v)⟩) := by
  have hm := mem_flagTable.2 ⟨ho, hf⟩
  have hc : c ≠ '-' := by
    rintro rfl
    exact hP.two _ hm rfl
  have hc2 : c ≠ '=' := by
    rintro rfl
    exact hP.eq _ hm (by simp)
  unfold argKind
  rw [if_neg (by simp), byFlag_none (fun q hq hg => h2 q hq _ hg (List.prefix_refl _))]
  dsimp only
  rw [if_neg (by simp)]
  have hq : byEq P ('-' :: c :: v) = none := by
    unfold byEq
    cases hpe : partEq ('-' :: c :: v) with
    | none => rfl
    | some pv =>
      obtain ⟨p, w⟩ := pv
      dsimp only
      rw [Option.map_eq_none_iff]
      apply byFlag_none
      intro q hq hg
      obtain ⟨hs, -⟩ := partEq_split hpe
      have := h1 q hq p hg (hs ▸ List.prefix_append p _)
      subst this
      simp only [List.cons_append, List.nil_append, List.cons.injEq, true_and] at hs
      rw [hs] at heq
      simp at heq
  rw [hq]
  have hh : optionHits P ('-' :: c :: v) = shortHits P ('-' :: c :: v) := by
    unfold optionHits
    split
    · rename_i t he
      simp only [List.cons.injEq, true_and] at he
      exact absurd he.1 hc
    · rfl
  have hs : shortHits P ('-' :: c :: v) = [⟨o, ['-', c], some (false, v)⟩] := by
    unfold shortHits
    apply filterMap_single hP.nodup hm
    · simp
    · rintro ⟨g, q⟩ hx hne
      dsimp only at hne ⊢
      obtain ⟨hq', hg⟩ := mem_flagTable.1 hx
      have e : List.take 2 ('-' :: c :: v) = ['-', c] := by simp
      rw [e, if_neg hne, if_neg]
      rw [hasPrefix_iff]
      exact h2 q hq' g hg
  rw [hh, hs]
  rfl

/-! ### Command lines of classified arguments -/

def startsPlain : List ArgTok → Prop
  | .plain _ :: _ => True
  | _ => False

/-- the letters `v` behind the flag `o` are flags, all without values but the last, `last` -/
inductive Bundled (P : ArgParser) : ArgOpt → Str → List ArgOpt → ArgOpt → Prop
  | one {o last : ArgOpt} {c : Char} (hz : o.num = .zero) (hc : c ≠ '-') (hb : P.byFlag ['-', c] = some last) : Bundled P o [c] [o] last
  | more {o q last : ArgOpt} {c d : Char} {v : Str} {fl : List ArgOpt} (hz : o.num = .zero) (hc : c ≠ '-') (hd : d ≠ '=')
      (hb : P.byFlag ['-', c] = some q) (h : Bundled P q (d :: v) fl last) : Bundled P o (c :: d :: v) (o :: fl) last

/-- `CmdLine` on classified arguments -/
inductive TokLine (P : ArgParser) : List ArgTok → List ArgUse → List Str → Prop
  | done : TokLine P [] [] []
  | word {w ts us ws} (h : TokLine P ts us ws) (hw : w ≠ ['-', '-']) : TokLine P (.plain w :: ts) us (w :: ws)
  | use {s o f vals ts us ws} (hn : FitsNum o.num vals) (hm : TakesMore o.num vals → ¬ startsPlain ts) (h : TokLine P ts us ws) :
      TokLine P (.option s ⟨o, f, none⟩ :: (vals.map .plain ++ ts)) (⟨o, vals⟩ :: us) ws
  | attached {s o f b v ts us ws} (hn : o.num ≠ .zero) (h : TokLine P ts us ws) :
      TokLine P (.option s ⟨o, f, some (b, v)⟩ :: ts) (⟨o, [v]⟩ :: us) ws
  | bundle {s o f v fl last vals ts us ws} (hf : f.take 2 ≠ ['-', '-']) (hb : Bundled P o v fl last) (hn : FitsNum last.num vals)
      (hm : TakesMore last.num vals → ¬ startsPlain ts) (h : TokLine P ts us ws) :
      TokLine P (.option s ⟨o, f, some (false, v)⟩ :: (vals.map .plain ++ ts)) (fl.map (fun q => ⟨q, []⟩) ++ ⟨last, vals⟩ :: us) ws
  | dashes {ws : List Str} (hne : ws ≠ []) (hd : ∀ w ∈ ws, w ≠ ['-', '-']) : TokLine P (.dashes :: ws.map .plain) [] ws

theorem bundled_of {P : ArgParser} (hP : FlagsOk P) {c : Char} {o : ArgOpt} (ho : o ∈ P.opts) (hc : ['-', c] ∈ o.flags) :
    ∀ {fl : List (Char × ArgOpt)} {q : ArgOpt}, q.num = .zero →
      (∀ x ∈ fl, x.2 ∈ P.opts ∧ ['-', x.1] ∈ x.2.flags ∧ x.2.num = .zero) →
      Bundled P q (fl.map (fun x => x.1) ++ [c]) (q :: fl.map (fun x => x.2)) o
  | [], q, hz, _ => .one hz (fun h => hP.two _ (mem_flagTable.2 ⟨ho, hc⟩) (by rw [h])) (byFlag_some hP ho hc)
  | (d, p) :: fl, q, hz, hf => by
    obtain ⟨hp, hd, hz'⟩ := hf (d, p) List.mem_cons_self
    have ih := bundled_of hP ho hc (fl := fl) (q := p) hz' (fun x hx => hf x (List.mem_cons_of_mem _ hx))
    have hd2 : d ≠ '-' := fun h => hP.two _ (mem_flagTable.2 ⟨hp, hd⟩) (by rw [h])
    cases fl with
    | nil =>
      have : c ≠ '=' := fun h => hP.eq _ (mem_flagTable.2 ⟨ho, hc⟩) (by rw [h]; simp)
      exact .more hz hd2 this (byFlag_some hP hp hd) ih
    | cons e fl =>
      obtain ⟨e, r⟩ := e
      obtain ⟨hr, he, -⟩ := hf (e, r) (List.mem_cons_of_mem _ List.mem_cons_self)
      have : e ≠ '=' := fun h => hP.eq _ (mem_flagTable.2 ⟨hr, he⟩) (by rw [h]; simp)
      exact .more hz hd2 this (byFlag_some hP hp hd) ih

theorem argKind_bundle {P : ArgParser} (hP : FlagsOk P) {c : Char} {v : Str} {o : ArgOpt} (ho : o ∈ P.opts) (hf : ['-', c] ∈ o.flags)
    (h2 : ∀ q ∈ P.opts, ∀ g ∈ q.flags, ¬ '-' :: c :: v <+: g) (heq : '=' ∉ v) :
    argKind P ('-' :: c :: v) = .ok (.option ⟨o, ['-', c], some (false, v)⟩) := by
  have hm := mem_flagTable.2 ⟨ho, hf⟩
  have hc : c ≠ '-' := by
    rintro rfl
    exact hP.two _ hm rfl
  have hc2 : c ≠ '=' := by
    rintro rfl
    exact hP.eq _ hm (by simp)
  unfold argKind
  rw [if_neg (by simp), byFlag_none (fun q hq hg => h2 q hq _ hg (List.prefix_refl _))]
  dsimp only
  rw [if_neg (by simp)]
  have hq : byEq P ('-' :: c :: v) = none := by
    unfold byEq
    rw [partEq_none]
    simp only [List.mem_cons, not_or]
    exact ⟨by decide, Ne.symm hc2, heq⟩
  rw [hq]
  have hh : optionHits P ('-' :: c :: v) = shortHits P ('-' :: c :: v) := by
    unfold optionHits
    split
    · rename_i t he
      simp only [List.cons.injEq, true_and] at he
      exact absurd he.1 hc
    · rfl
  have hs : shortHits P ('-' :: c :: v) = [⟨o, ['-', c], some (false, v)⟩] := by
    unfold shortHits
    apply filterMap_single hP.nodup hm
    · simp
    · rintro ⟨g, q⟩ hx hne
      dsimp only at hne ⊢
      obtain ⟨hq', hg⟩ := mem_flagTable.1 hx
      have e : List.take 2 ('-' :: c :: v) = ['-', c] := by simp
      rw [e, if_neg hne, if_neg]
      rw [hasPrefix_iff]
      exact h2 q hq' g hg
  rw [hh, hs]
  rfl

theorem word_ne {w : Str} (h : Word w) : w ≠ ['-', '-'] := by
  rintro rfl
  rcases h with h | h <;> simp at h

theorem argToks_words {P : ArgParser} (hP : FlagsOk P) {vals l : List Str} {ts : List ArgTok} (hv : ∀ v ∈ vals, Word v)
    (h : argToks P l = .ok ts) : argToks P (vals ++ l) = .ok (vals.map .plain ++ ts) := by
  induction vals with
  | nil => exact h
  | cons v vs ih =>
    simp only [List.cons_append, List.map_cons]
    unfold argToks
    rw [if_neg (word_ne (hv v List.mem_cons_self)), argKind_word hP (hv v List.mem_cons_self)]
    dsimp only
    rw [ih (fun w hw => hv w (List.mem_cons_of_mem _ hw))]
    rfl

theorem tokLine_of {P : ArgParser} (hP : FlagsOk P) {l : List Str} {us : List ArgUse} {ws : List Str} (h : CmdLine P l us ws) :
    ∃ ts, argToks P l = .ok ts ∧ TokLine P ts us ws ∧ (startsPlain ts → StartsWithWord l) := by
  induction h with
  | done => exact ⟨[], rfl, .done, fun h => h.elim⟩
  | @word w l us ws hw _ ih =>
    obtain ⟨ts, h1, h2, _⟩ := ih
    refine ⟨.plain w :: ts, ?_, .word h2 (word_ne hw), fun _ => hw⟩
    exact argToks_words hP (vals := [w]) (by simpa using hw) h1
  | @use s o vals l us ws hs hv hn hm _ ih =>
    obtain ⟨ts, h1, h2, h3⟩ := ih
    obtain ⟨hne, -, f, hk⟩ := argKind_names hP hs
    refine ⟨.option s ⟨o, f, none⟩ :: (vals.map .plain ++ ts), ?_, .use hn (fun hm' hp => hm hm' (h3 hp)) h2, fun h => h.elim⟩
    unfold argToks
    rw [if_neg hne, hk]
    dsimp only
    rw [argToks_words hP hv h1]
    rfl
  | @attached s v o l us ws hs hn _ ih =>
    obtain ⟨ts, h1, h2, _⟩ := ih
    obtain ⟨hne, f, hk⟩ := argKind_attached hP (v := v) hs
    refine ⟨.option (s ++ '=' :: v) ⟨o, f, some (true, v)⟩ :: ts, ?_, .attached hn h2, fun h => h.elim⟩
    unfold argToks
    rw [if_neg hne, hk]
    dsimp only
    rw [h1]
    rfl
  | @glued c v o l us ws ho hf hn hv h1 h2 heq _ ih =>
    obtain ⟨ts, i1, i2, _⟩ := ih
    have hk := argKind_glued hP ho hf h1 h2 heq
    refine ⟨.option ('-' :: c :: v) ⟨o, ['-', c], some (false, v)⟩ :: ts, ?_, .attached hn i2, fun h => h.elim⟩
    unfold argToks
    rw [if_neg, hk]
    · dsimp only
      rw [i1]
      rfl
    · intro e
      simp only [List.cons.injEq, true_and] at e
      exact hv e.2
  | @bundle fl c o vals l us ws hne hf ho hc hx hv hn hm _ ih =>
    obtain ⟨ts, h1, h2, h3⟩ := ih
    obtain ⟨⟨d, q⟩, fl, rfl⟩ := List.exists_cons_of_ne_nil hne
    obtain ⟨hq, hd, hz⟩ := hf (d, q) List.mem_cons_self
    have hf' : ∀ x ∈ fl, x.2 ∈ P.opts ∧ ['-', x.1] ∈ x.2.flags ∧ x.2.num = .zero := fun x hx => hf x (List.mem_cons_of_mem _ hx)
    have hb := bundled_of hP ho hc hz hf'
    have heq : '=' ∉ fl.map (fun x => x.1) ++ [c] := by
      simp only [List.mem_append, List.mem_map, List.mem_singleton, not_or, not_exists, not_and]
      refine ⟨?_, ?_⟩
      · intro x hx he
        have := (hf' x hx)
        exact hP.eq _ (mem_flagTable.2 ⟨this.1, this.2.1⟩) (by rw [he]; simp)
      · intro he
        exact hP.eq _ (mem_flagTable.2 ⟨ho, hc⟩) (by rw [he]; simp)
    have hk : argKind P ('-' :: d :: (fl.map (fun x => x.1) ++ [c])) =
        .ok (.option ⟨q, ['-', d], some (false, fl.map (fun x => x.1) ++ [c])⟩) := argKind_bundle hP hq hd hx heq
    have hdd : d ≠ '-' := fun h => hP.two _ (mem_flagTable.2 ⟨hq, hd⟩) (by rw [h])
    have ht : TokLine P (.option ('-' :: d :: (fl.map (fun x => x.1) ++ [c])) ⟨q, ['-', d], some (false, fl.map (fun x => x.1) ++ [c])⟩ ::
        (vals.map .plain ++ ts)) ((q :: fl.map (fun x => x.2)).map (fun q => ⟨q, []⟩) ++ ⟨o, vals⟩ :: us) ws :=
      .bundle (by simpa using hdd) hb hn (fun hm' hp => hm hm' (h3 hp)) h2
    refine ⟨.option ('-' :: d :: (fl.map (fun x => x.1) ++ [c])) ⟨q, ['-', d], some (false, fl.map (fun x => x.1) ++ [c])⟩ ::
      (vals.map .plain ++ ts), ?_, ?_, fun h => h.elim⟩
    rotate_left
    · simpa [List.map_map, Function.comp_def] using ht
    · unfold argToks
      rw [if_neg (by simp [hdd]), List.map_cons, List.cons_append]
      dsimp only
      rw [hk]
      dsimp only
      rw [argToks_words hP hv h1]
      rfl
  | @dashes ws hne hd =>
    refine ⟨.dashes :: ws.map .plain, ?_, .dashes hne hd, fun h => h.elim⟩
    unfold argToks
    rw [if_pos rfl]

/-! ### Options with their values -/

theorem plainRun_append {vals : List Str} {ts : List ArgTok} (h : ¬ startsPlain ts) :
    plainRun (vals.map .plain ++ ts) = (vals, ts) := by
  induction vals with
  | nil =>
    cases ts with
    | nil => rfl
    | cons t ts =>
      cases t with
      | plain s => exact absurd trivial h
      | _ => rfl
  | cons v vs ih =>
    simp only [List.map_cons, List.cons_append]
    unfold plainRun
    rw [ih]

theorem valuesAfter_use {o : ArgOpt} {vals : List Str} {ts : List ArgTok} (hn : FitsNum o.num vals)
    (hm : TakesMore o.num vals → ¬ startsPlain ts) : valuesAfter o (vals.map .plain ++ ts) = .ok (vals, ts) := by
  unfold valuesAfter
  cases hnum : o.num with
  | zero =>
    rw [hnum] at hn
    cases hn
    rfl
  | one =>
    rw [hnum] at hn
    obtain ⟨v, rfl⟩ := List.length_eq_one_iff.1 hn
    rfl
  | opt =>
    rw [hnum] at hn hm
    cases vals with
    | nil =>
      have := hm rfl
      cases ts with
      | nil => rfl
      | cons t ts =>
        cases t with
        | plain s => exact absurd trivial this
        | _ => rfl
    | cons v vs =>
      have : vs = [] := by
        simp only [FitsNum, List.length_cons] at hn
        exact List.length_eq_zero_iff.1 (by omega)
      subst this
      rfl
  | plus =>
    rw [hnum] at hn hm
    cases vals with
    | nil => exact absurd rfl hn
    | cons v vs =>
      simp only [List.map_cons, List.cons_append]
      rw [plainRun_append (hm trivial)]
  | rest =>
    rw [hnum] at hn
    exact hn.elim

/-- what an action list does, and then -/
theorem takeActs_append (a b : List (ArgOpt × List Str)) (st : ArgState) :
    takeActs (a ++ b) st = match takeActs a st with
      | .error e => .error e
      | .ok st' => takeActs b st' := by
  induction a generalizing st with
  | nil => rfl
  | cons x a ih =>
    obtain ⟨o, args⟩ := x
    simp only [List.cons_append, takeActs]
    cases takeAct o args st with
    | error e => rfl
    | ok st' => exact ih st'

theorem takeAct_extras {o : ArgOpt} {args : List Str} {st st' : ArgState} (h : takeAct o args st = .ok st') :
    st'.extras = st.extras := by
  unfold takeAct at h
  split at h
  · cases h; rfl
  · split at h
    · cases h
    · split at h
      · cases h
      · split at h
        · cases h
        · cases h; rfl

theorem takeActs_extras {acts : List (ArgOpt × List Str)} {st st' : ArgState} (h : takeActs acts st = .ok st') :
    st'.extras = st.extras := by
  induction acts generalizing st with
  | nil => cases h; rfl
  | cons x a ih =>
    obtain ⟨o, args⟩ := x
    unfold takeActs at h
    cases ht : takeAct o args st with
    | error e => rw [ht] at h; cases h
    | ok s1 =>
      rw [ht] at h
      rw [ih h, takeAct_extras ht]

theorem consumeOpt_use {P : ArgParser} {s f : Str} {o : ArgOpt} {vals : List Str} {ts : List ArgTok} {st : ArgState}
    (hn : FitsNum o.num vals) (hm : TakesMore o.num vals → ¬ startsPlain ts) :
    consumeOpt P (.option s ⟨o, f, none⟩) (vals.map .plain ++ ts) st =
      match takeAct o vals st with
      | .error e => .error e
      | .ok st' => .ok (ts, st') := by
  unfold consumeOpt
  dsimp only
  unfold optionActs
  rw [valuesAfter_use hn hm]
  dsimp only
  simp only [List.append_nil]
  unfold takeActs
  cases takeAct o vals st with
  | error e => rfl
  | ok st' => rfl

theorem consumeOpt_attached {P : ArgParser} {s f v : Str} {o : ArgOpt} {b : Bool} {ts : List ArgTok} {st : ArgState}
    (hn : o.num ≠ .zero) : consumeOpt P (.option s ⟨o, f, some (b, v)⟩) ts st =
      match takeAct o [v] st with
      | .error e => .error e
      | .ok st' => .ok (ts, st') := by
  unfold consumeOpt
  dsimp only
  unfold optionActs
  rw [if_pos hn]
  dsimp only
  simp only [List.append_nil]
  unfold takeActs
  cases takeAct o [v] st with
  | error e => rfl
  | ok st' => rfl

theorem optionActs_bundle {P : ArgParser} {r r' : List ArgTok} {o last : ArgOpt} {v : Str} {fl : List ArgOpt} (hb : Bundled P o v fl last)
    {args : List Str} (hv : valuesAfter last r = .ok (args, r')) : ∀ {f : Str} {n : Nat}, f.take 2 ≠ ['-', '-'] → v.length ≤ n →
      optionActs P r n o f (some (false, v)) = .ok (fl.map (fun q => (q, [])) ++ [(last, args)], r', []) := by
  induction hb with
  | @one o last c hz hc hb =>
    intro f n hf hn
    obtain ⟨n, rfl⟩ : ∃ m, n = m + 1 := ⟨n - 1, by simp at hn; omega⟩
    rw [optionActs.eq_def]
    dsimp only
    rw [if_neg (by simp [hz]), if_neg hf]
    simp only [Bool.false_or, beq_iff_eq]
    rw [if_neg hc, hb]
    dsimp only
    rw [optionActs.eq_def]
    dsimp only
    rw [hv]
    rfl
  | @more o q last c d v fl hz hc hd hb h ih =>
    intro f n hf hn
    obtain ⟨n, rfl⟩ : ∃ m, n = m + 1 := ⟨n - 1, by simp at hn; omega⟩
    rw [optionActs.eq_def]
    dsimp only
    rw [if_neg (by simp [hz]), if_neg hf]
    simp only [Bool.false_or, beq_iff_eq]
    rw [if_neg hc, hb]
    dsimp only
    have := ih hv (f := ['-', c]) (n := n) (by simpa using hc) (by simpa using hn)
    split
    · rename_i e he
      split at he
      · rename_i h0; cases h0
      · rename_i w h0; simp only [List.cons.injEq] at h0; exact absurd h0.1 hd
      · rw [this] at he; cases he
    · rename_i acts r2 ex he
      split at he
      · rename_i h0; cases h0
      · rename_i w h0; simp only [List.cons.injEq] at h0; exact absurd h0.1 hd
      · rw [this] at he
        cases he
        rfl

theorem consumeOpt_bundle {P : ArgParser} {s f v : Str} {o last : ArgOpt} {fl : List ArgOpt} {vals : List Str} {ts : List ArgTok}
    {st : ArgState} (hf : f.take 2 ≠ ['-', '-']) (hb : Bundled P o v fl last) (hn : FitsNum last.num vals)
    (hm : TakesMore last.num vals → ¬ startsPlain ts) :
    consumeOpt P (.option s ⟨o, f, some (false, v)⟩) (vals.map .plain ++ ts) st =
      match takeActs (fl.map (fun q => (q, [])) ++ [(last, vals)]) st with
      | .error e => .error e
      | .ok st' => .ok (ts, st') := by
  unfold consumeOpt
  dsimp only [Option.map, Option.getD]
  rw [optionActs_bundle hb (valuesAfter_use hn hm) hf (Nat.le_succ _)]
  simp only [List.append_nil]
  rfl

/-! ### Positional arguments -/

/-- positional arguments of one value each -/
def OnlyOnes (ps : List ArgOpt) : Prop := ∀ p ∈ ps, p.flags = [] ∧ p.num = .one

/-- each positional argument with its word -/
def placed (ps : List ArgOpt) (ws : List Str) : List (ArgOpt × List Str) := (ps.zip ws).map (fun x => (x.1, [x.2]))

theorem placed_append (ps : List ArgOpt) (a b : List Str) : placed ps (a ++ b) = placed ps a ++ placed (ps.drop a.length) b := by
  induction a generalizing ps with
  | nil => simp [placed]
  | cons w a ih =>
    cases ps with
    | nil => simp [placed]
    | cons p ps =>
      have := ih ps
      unfold placed at this ⊢
      simp only [List.cons_append, List.zip_cons_cons, List.map_cons, List.length_cons, List.drop_succ_cons]
      rw [this]

theorem placed_cons (p : ArgOpt) (ps : List ArgOpt) (w : Str) (ws : List Str) : placed (p :: ps) (w :: ws) = (p, [w]) :: placed ps ws := rfl

theorem placed_drop (ps : List ArgOpt) (a b : List Str) :
    placed (ps.drop a.length) (a.drop ps.length ++ b) = placed (ps.drop a.length) b := by
  rcases Nat.le_total a.length ps.length with h | h
  · rw [List.drop_eq_nil_of_le h, List.nil_append]
  · rw [List.drop_eq_nil_of_le h]
    simp [placed]

theorem dashRun_other {ts : List ArgTok} (h : ∀ r, ts ≠ .dashes :: r) : dashRun ts = ([], ts) := by
  cases ts with
  | nil => rfl
  | cons t r =>
    cases t with
    | dashes => exact absurd rfl (h r)
    | _ => rfl

/-- the front is neither a word nor two dashes -/
def AtOption : List ArgTok → Prop
  | [] => True
  | t :: _ => t.isOpt = true

theorem matchPartial_words {ps : List ArgOpt} (hps : OnlyOnes ps) {ws : List Str} {ts : List ArgTok} (ht : AtOption ts) :
    matchPartial ps (ws.map .plain ++ ts) = (placed ps ws, ps.drop ws.length, (ws.drop ps.length).map .plain ++ ts) := by
  have hnd : ∀ (ws : List Str) r, ws.map ArgTok.plain ++ ts ≠ .dashes :: r := by
    intro ws r he
    cases ws with
    | nil =>
      simp only [List.map_nil, List.nil_append] at he
      subst he
      cases ht
    | cons w ws => simp at he
  induction ps generalizing ws with
  | nil => simp [matchPartial, placed]
  | cons p ps ih =>
    unfold matchPartial matchPos
    rw [dashRun_other (hnd ws)]
    dsimp only
    rw [(hps p List.mem_cons_self).2]
    cases ws with
    | nil =>
      cases ts with
      | nil => rfl
      | cons t ts =>
        cases t with
        | plain s => cases ht
        | _ => rfl
    | cons w ws =>
      simp only [List.map_cons, List.cons_append]
      rw [dashRun_other (hnd ws)]
      dsimp only
      rw [ih (fun q hq => hps q (List.mem_cons_of_mem _ hq))]
      rfl

theorem takeAct_dash_front {p : ArgOpt} (hf : p.flags = []) (hn : p.num = .one) (w : Str) (hw : w ≠ ['-', '-']) (st : ArgState) :
    takeAct p [['-', '-'], w] st = takeAct p [w] st := by
  unfold takeAct
  rw [hn, if_pos hf]
  simp [dropDashes, hw]

theorem takeAct_dash_back {p : ArgOpt} (hf : p.flags = []) (hn : p.num = .one) (w : Str) (hw : w ≠ ['-', '-']) (st : ArgState) :
    takeAct p [w, ['-', '-']] st = takeAct p [w] st := by
  unfold takeAct
  rw [hn, if_pos hf]
  simp [dropDashes, hw]

theorem matchPartial_some {p : ArgOpt} {ps : List ArgOpt} {ts r : List ArgTok} {args : List Str} (h : matchPos p.num ts = some (args, r)) :
    matchPartial (p :: ps) ts = ((p, args) :: (matchPartial ps r).1, (matchPartial ps r).2.1, (matchPartial ps r).2.2) := by
  rw [matchPartial, h]

theorem matchPos_plain (s : Str) (r : List ArgTok) : matchPos .one (.plain s :: r) = some (s :: (dashRun r).1, (dashRun r).2) := rfl

theorem matchPos_dash (s : Str) (r : List ArgTok) :
    matchPos .one (.dashes :: .plain s :: r) = some (['-', '-'] :: s :: (dashRun r).1, (dashRun r).2) := rfl

theorem dashRun_plains (b : List Str) : dashRun (b.map .plain) = ([], b.map .plain) :=
  dashRun_other (by intro r he; cases b <;> simp at he)

theorem matchPartial_dashes {ps : List ArgOpt} (hps : OnlyOnes ps) {a b : List Str} (ha : ∀ w ∈ a, w ≠ ['-', '-'])
    (hb : ∀ w ∈ b, w ≠ ['-', '-']) (hne : b ≠ []) :
    ∃ acts r, matchPartial ps (a.map .plain ++ .dashes :: b.map .plain) = (acts, ps.drop (a ++ b).length, r) ∧
      (∀ st, takeActs acts st = takeActs (placed ps (a ++ b)) st) ∧ (r = [] ↔ (a ++ b).length ≤ ps.length) := by
  induction ps generalizing a with
  | nil => exact ⟨[], a.map .plain ++ .dashes :: b.map .plain, by simp [matchPartial], fun st => by simp [placed], by simp [hne]⟩
  | cons p ps ih =>
    have hp := hps p List.mem_cons_self
    have hps' : OnlyOnes ps := fun q hq => hps q (List.mem_cons_of_mem _ hq)
    cases a with
    | nil =>
      cases b with
      | nil => exact absurd rfl hne
      | cons w b =>
        refine ⟨(p, [['-', '-'], w]) :: placed ps b, (b.drop ps.length).map .plain, ?_, ?_, ?_⟩
        · have h := matchPartial_words hps' (ws := b) (ts := []) trivial
          simp only [List.append_nil] at h
          simp only [List.map_nil, List.nil_append, List.map_cons]
          rw [matchPartial_some (by rw [hp.2, matchPos_dash, dashRun_plains]), h]
          rfl
        · intro st
          simp only [List.nil_append]
          rw [placed_cons]
          simp only [takeActs]
          rw [takeAct_dash_front hp.1 hp.2 w (hb w List.mem_cons_self)]
        · simp
    | cons w a =>
      have hw := ha w List.mem_cons_self
      cases a with
      | nil =>
        refine ⟨(p, [w, ['-', '-']]) :: placed ps b, (b.drop ps.length).map .plain, ?_, ?_, ?_⟩
        · have h := matchPartial_words hps' (ws := b) (ts := []) trivial
          simp only [List.append_nil] at h
          simp only [List.map_nil, List.nil_append, List.map_cons, List.cons_append]
          rw [matchPartial_some (by rw [hp.2, matchPos_plain, dashRun, dashRun_plains]), h]
          rfl
        · intro st
          simp only [List.nil_append, List.cons_append]
          rw [placed_cons]
          simp only [takeActs]
          rw [takeAct_dash_back hp.1 hp.2 w hw]
        · simp
      | cons x a =>
        obtain ⟨acts, r, h1, h2, h3⟩ := ih hps' (a := x :: a) (fun y hy => ha y (List.mem_cons_of_mem _ hy))
        refine ⟨(p, [w]) :: acts, r, ?_, ?_, ?_⟩
        · simp only [List.map_cons, List.cons_append] at h1 ⊢
          rw [matchPartial_some (by rw [hp.2, matchPos_plain, dashRun_other (by simp)]), h1]
          simp
        · intro st
          simp only [List.cons_append] at h2 ⊢
          rw [placed_cons]
          simp only [takeActs]
          cases takeAct p [w] st with
          | error e => rfl
          | ok st' => exact h2 st'
        · rw [h3]
          simp

/-! ### The loop -/

theorem tokLine_split {P : ArgParser} {ts : List ArgTok} {us : List ArgUse} {ws : List Str} (h : TokLine P ts us ws) :
    ∃ a ts' b, ts = a.map .plain ++ ts' ∧ ws = a ++ b ∧ TokLine P ts' us b ∧ ¬ startsPlain ts' ∧ ∀ w ∈ a, w ≠ ['-', '-'] := by
  induction h with
  | done => exact ⟨[], [], [], rfl, rfl, .done, id, by simp⟩
  | @word w ts us ws _ hw ih =>
    obtain ⟨a, ts', b, rfl, rfl, h1, h2, h3⟩ := ih
    refine ⟨w :: a, ts', b, rfl, rfl, h1, h2, ?_⟩
    intro x hx
    rcases List.mem_cons.1 hx with rfl | hx
    · exact hw
    · exact h3 x hx
  | use hn hm h ih => exact ⟨[], _, _, rfl, rfl, .use hn hm h, id, by simp⟩
  | attached hn h ih => exact ⟨[], _, _, rfl, rfl, .attached hn h, id, by simp⟩
  | bundle hf hb hn hm h ih => exact ⟨[], _, _, rfl, rfl, .bundle hf hb hn hm h, id, by simp⟩
  | dashes hne hd => exact ⟨[], _, _, rfl, rfl, .dashes hne hd, id, by simp⟩

theorem tokLine_words {P : ArgParser} {ts : List ArgTok} {us : List ArgUse} {ws a : List Str} (h : TokLine P ts us ws) (ha : ∀ w ∈ a, w ≠ ['-', '-']) :
    TokLine P (a.map .plain ++ ts) us (a ++ ws) := by
  induction a with
  | nil => exact h
  | cons w a ih => exact .word (ih (fun x hx => ha x (List.mem_cons_of_mem _ hx))) (ha w List.mem_cons_self)

/-- an event that comes from an option -/
def fromOpt (x : ArgOpt × List Str) : Bool := !x.1.flags.isEmpty

theorem filter_placed_opt {ps : List ArgOpt} (hps : OnlyOnes ps) (ws : List Str) : (placed ps ws).filter fromOpt = [] := by
  rw [List.filter_eq_nil_iff]
  intro x hx
  obtain ⟨y, hy, rfl⟩ := List.mem_map.1 hx
  simp [fromOpt, (hps _ (List.of_mem_zip hy).1).1]

theorem filter_placed_pos {ps : List ArgOpt} (hps : OnlyOnes ps) (ws : List Str) :
    (placed ps ws).filter (fun x => !fromOpt x) = placed ps ws := by
  rw [List.filter_eq_self]
  intro x hx
  obtain ⟨y, hy, rfl⟩ := List.mem_map.1 hx
  simp [fromOpt, (hps _ (List.of_mem_zip hy).1).1]

def useActs (us : List ArgUse) : List (ArgOpt × List Str) := us.map (fun u => (u.opt, u.vals))

theorem any_plain (a : List Str) : (a.map ArgTok.plain).any ArgTok.isOpt = false := by
  rw [List.any_eq_false]
  intro t ht
  obtain ⟨s, -, rfl⟩ := List.mem_map.1 ht
  simp [ArgTok.isOpt]

/-- the outcome of the loop: the events `evs` are acted on, `ex` is left over and `miss` is missing -/
def loopEnd (evs : List (ArgOpt × List Str)) (ex : List Str) (miss : List ArgOpt) (st : ArgState) : Except ArgStop (ArgState × List ArgOpt) :=
  match takeActs evs st with
  | .error e => .error e
  | .ok st' => .ok ({ st' with extras := st'.extras ++ ex }, miss)

theorem argLoop_opt {P : ArgParser} {n : Nat} {t : ArgTok} {r : List ArgTok} {ps : List ArgOpt} {st : ArgState} (ht : t.isOpt = true) :
    argLoop P (n + 1) (t :: r) ps st = match consumeOpt P t r st with
      | .error e => .error e
      | .ok x => argLoop P n x.1 ps x.2 := by
  rw [argLoop.eq_def]
  dsimp only
  rw [if_pos (by simp [ht]), if_pos ht]
  cases consumeOpt P t r st with
  | error e => rfl
  | ok x => obtain ⟨r', st'⟩ := x; rfl

theorem argLoop_word {P : ArgParser} {n : Nat} {t : ArgTok} {r : List ArgTok} {ps : List ArgOpt} {st : ArgState} (ht : t.isOpt = false)
    (hr : (t :: r).any ArgTok.isOpt = true) :
    argLoop P (n + 1) (t :: r) ps st = match takeActs (matchPartial ps (t :: r)).1 st with
      | .error e => .error e
      | .ok st' =>
        if (matchPartial ps (t :: r)).2.2.length < (t :: r).length then
          argLoop P n (matchPartial ps (t :: r)).2.2 (matchPartial ps (t :: r)).2.1 st'
        else argLoop P n ((t :: r).dropWhile (fun t => !t.isOpt)) (matchPartial ps (t :: r)).2.1
          { st' with extras := st'.extras ++ ((t :: r).takeWhile (fun t => !t.isOpt)).map ArgTok.str } := by
  rw [argLoop.eq_def]
  dsimp only
  rw [if_pos hr, if_neg (by simp [ht])]
  rfl

theorem argLoop_end {P : ArgParser} {n : Nat} {ts : List ArgTok} {ps : List ArgOpt} {st : ArgState} (hr : ts.any ArgTok.isOpt = false) :
    argLoop P (n + 1) ts ps st = match takeActs (matchPartial ps ts).1 st with
      | .error e => .error e
      | .ok st' => .ok ({ st' with extras := st'.extras ++ (matchPartial ps ts).2.2.map ArgTok.str }, (matchPartial ps ts).2.1) := by
  rw [argLoop.eq_def]
  dsimp only
  rw [if_neg (by simp [hr])]
  rfl

theorem argLoop_line (P : ArgParser) : ∀ (n : Nat) {ts : List ArgTok} {us : List ArgUse} {ws : List Str} {ps : List ArgOpt},
    TokLine P ts us ws → (∀ u ∈ us, u.opt.flags ≠ []) → OnlyOnes ps → ts.length < n →
    ∃ evs ex, evs.filter fromOpt = useActs us ∧ evs.filter (fun x => !fromOpt x) = placed ps ws ∧
      (ex = [] ↔ ws.length ≤ ps.length) ∧ ∀ st, argLoop P n ts ps st = loopEnd evs ex (ps.drop ws.length) st := by
  intro n
  induction n with
  | zero => intro ts us ws ps _ _ _ h; simp at h
  | succ n ih =>
    intro ts us ws ps h hus hps hlen
    obtain ⟨a, ts', b, rfl, rfl, h', hsp, ha⟩ := tokLine_split h
    -- the words at the front, then an option: what happens there
    have hopt : ∀ t r, ts' = t :: r → t.isOpt = true →
        (∃ evs ex, evs.filter fromOpt = useActs us ∧ evs.filter (fun x => !fromOpt x) = placed ps b ∧
          (ex = [] ↔ b.length ≤ ps.length) ∧ ∀ st, (match consumeOpt P t r st with
            | .error e => .error e
            | .ok x => argLoop P n x.1 ps x.2) = loopEnd evs ex (ps.drop b.length) st) →
        ∃ evs ex, evs.filter fromOpt = useActs us ∧ evs.filter (fun x => !fromOpt x) = placed ps (a ++ b) ∧
          (ex = [] ↔ (a ++ b).length ≤ ps.length) ∧
          ∀ st, argLoop P (n + 1) (a.map .plain ++ ts') ps st = loopEnd evs ex (ps.drop (a ++ b).length) st := by
      rintro t r rfl hto ⟨evs, ex, e1, e2, e3, e4⟩
      have hany : (a.map ArgTok.plain ++ t :: r).any ArgTok.isOpt = true := by
        rw [List.any_append]
        simp [hto]
      cases a with
      | nil =>
        refine ⟨evs, ex, e1, e2, e3, ?_⟩
        intro st
        rw [List.nil_append, ← e4 st]
        exact argLoop_opt hto
      | cons w a =>
        have hlen' : a.length + (r.length + 1) < n := by
          simp only [List.map_cons, List.cons_append, List.length_cons, List.length_append, List.length_map] at hlen
          omega
        have hmp := matchPartial_words hps (ws := w :: a) (ts := t :: r) hto
        cases ps with
        | nil =>
          -- nobody wants the words
          obtain ⟨evs, ex, e1, e2, e3, e4⟩ := ih (ps := []) h' hus hps (by simp only [List.length_cons]; omega)
          refine ⟨evs, w :: a ++ ex, e1, ?_, by simp, ?_⟩
          · rw [e2]
            simp [placed]
          · intro st
            simp only [List.map_cons, List.cons_append] at hmp hany ⊢
            rw [argLoop_word rfl hany, hmp]
            dsimp only
            simp only [placed, List.zip_nil_left, List.map_nil, takeActs]
            rw [if_neg (by simp)]
            have hd : ∀ a : List Str, (a.map ArgTok.plain ++ t :: r).dropWhile (fun t => !t.isOpt) = t :: r := by
              intro a
              induction a with
              | nil => simp [hto]
              | cons y a iha => simpa [ArgTok.isOpt] using iha
            have htk : ∀ a : List Str, (a.map ArgTok.plain ++ t :: r).takeWhile (fun t => !t.isOpt) = a.map .plain := by
              intro a
              induction a with
              | nil => simp [hto]
              | cons y a iha => simpa [ArgTok.isOpt] using iha
            have hd' := hd (w :: a)
            have ht' := htk (w :: a)
            simp only [List.map_cons, List.cons_append] at hd' ht'
            rw [hd', ht', List.drop_nil, e4]
            have hstr : (ArgTok.plain w :: a.map ArgTok.plain).map ArgTok.str = w :: a := by
              simp only [List.map_cons, List.map_map]
              congr 1
              exact List.map_id'' (fun x => rfl) a
            rw [hstr]
            -- the left over arguments do not matter for the actions
            unfold loopEnd
            have hx : ∀ (evs : List (ArgOpt × List Str)) (st : ArgState) (x : List Str), takeActs evs { st with extras := x } =
                match takeActs evs st with
                | .error e => .error e
                | .ok st' => .ok { st' with extras := x } := by
              intro evs
              induction evs with
              | nil => intro st x; rfl
              | cons y evs ihe =>
                intro st x
                obtain ⟨o, args⟩ := y
                have ht1 : takeAct o args { st with extras := x } = match takeAct o args st with
                    | .error e => .error e
                    | .ok st' => .ok { st' with extras := x } := by
                  unfold takeAct
                  dsimp only
                  cases o.num with
                  | rest => rfl
                  | _ =>
                    dsimp only
                    cases argValues o (if o.flags = [] then dropDashes args else args) with
                    | error e => rfl
                    | ok v =>
                      dsimp only
                      split
                      · rfl
                      · cases doAct o v st.ns <;> rfl
                simp only [takeActs]
                rw [ht1]
                cases takeAct o args st with
                | error e => rfl
                | ok st' => exact ihe st' x
            rw [hx]
            cases hta : takeActs evs st with
            | error e => rfl
            | ok st' =>
              dsimp only
              rw [takeActs_extras hta]
              simp
        | cons p ps =>
          set q : List ArgOpt := p :: ps with hq
          have hps2 : OnlyOnes (q.drop (w :: a).length) := fun x hx => hps x (List.mem_of_mem_drop hx)
          have ha2 : ∀ y ∈ (w :: a).drop q.length, y ≠ ['-', '-'] := fun y hy => ha y (List.mem_of_mem_drop hy)
          have hl2 : (((w :: a).drop q.length).map ArgTok.plain ++ t :: r).length < n := by
            simp only [List.length_append, List.length_map, List.length_drop, List.length_cons, hq]
            omega
          obtain ⟨evs, ex, e1, e2, e3, e4⟩ := ih (ps := q.drop (w :: a).length) (tokLine_words h' ha2) hus hps2 hl2
          refine ⟨placed q (w :: a) ++ evs, ex, ?_, ?_, ?_, ?_⟩
          · rw [List.filter_append, filter_placed_opt hps, e1, List.nil_append]
          · rw [List.filter_append, filter_placed_pos hps, e2, placed_drop, placed_append]
          · rw [e3]
            simp only [List.length_append, List.length_drop]
            omega
          · intro st
            simp only [List.map_cons, List.cons_append] at hmp hany ⊢
            rw [argLoop_word rfl hany, hmp]
            dsimp only
            unfold loopEnd
            rw [takeActs_append]
            cases hta : takeActs (placed q (w :: a)) st with
            | error e => rfl
            | ok st' =>
              dsimp only
              rw [if_pos]
              · rw [e4 st']
                unfold loopEnd
                have hdd : (q.drop (w :: a).length).drop (((w :: a).drop q.length ++ b).length) = q.drop (w :: (a ++ b)).length := by
                  rw [List.drop_drop]
                  rcases Nat.le_total (w :: a).length q.length with hle | hle
                  · congr 1
                    simp only [List.length_append, List.length_drop, List.length_cons] at hle ⊢
                    omega
                  · rw [List.drop_eq_nil_of_le (by omega), List.drop_eq_nil_of_le]
                    simp only [List.length_append, List.length_cons] at hle ⊢
                    omega
                rw [hdd]
              · simp only [List.length_append, List.length_map, List.length_drop, List.length_cons, hq]
                omega
    cases h' with
    | done =>
      have hmp := matchPartial_words hps (ws := a) (ts := []) trivial
      refine ⟨placed ps a, a.drop ps.length, ?_, ?_, ?_, ?_⟩
      · rw [filter_placed_opt hps]; rfl
      · rw [filter_placed_pos hps, List.append_nil]
      · simp
      · intro st
        rw [List.append_nil, argLoop_end (any_plain a)]
        rw [List.append_nil, List.append_nil] at hmp
        rw [hmp]
        dsimp only
        unfold loopEnd
        cases takeActs (placed ps a) st with
        | error e => rfl
        | ok st' =>
          dsimp only
          have : ((a.drop ps.length).map ArgTok.plain).map ArgTok.str = a.drop ps.length := by
            rw [List.map_map]
            exact List.map_id'' (fun x => rfl) _
          rw [this, List.append_nil]
    | word hw => exact absurd trivial hsp
    | @use s o f vals ts us ws hn hm h2 =>
      apply hopt _ _ rfl rfl
      have hn' : ts.length < n := by
        simp only [List.length_append, List.length_map, List.length_cons] at hlen
        omega
      obtain ⟨evs, ex, e1, e2, e3, e4⟩ := ih (ps := ps) h2 (fun u hu => hus u (List.mem_cons_of_mem _ hu)) hps hn'
      have hfo : fromOpt (o, vals) = true := by
        have := hus _ List.mem_cons_self
        simpa [fromOpt] using this
      refine ⟨(o, vals) :: evs, ex, ?_, ?_, e3, ?_⟩
      · rw [List.filter_cons_of_pos hfo, e1]; rfl
      · rw [List.filter_cons_of_neg (by simp [hfo]), e2]
      · intro st
        rw [consumeOpt_use hn hm]
        unfold loopEnd
        simp only [takeActs]
        cases takeAct o vals st with
        | error e => rfl
        | ok st' => exact e4 st'
    | @attached s o f bb v ts us ws hn h2 =>
      apply hopt _ _ rfl rfl
      have hn' : ts.length < n := by
        simp only [List.length_append, List.length_map, List.length_cons] at hlen
        omega
      obtain ⟨evs, ex, e1, e2, e3, e4⟩ := ih (ps := ps) h2 (fun u hu => hus u (List.mem_cons_of_mem _ hu)) hps hn'
      have hfo : fromOpt (o, [v]) = true := by
        have := hus _ List.mem_cons_self
        simpa [fromOpt] using this
      refine ⟨(o, [v]) :: evs, ex, ?_, ?_, e3, ?_⟩
      · rw [List.filter_cons_of_pos hfo, e1]; rfl
      · rw [List.filter_cons_of_neg (by simp [hfo]), e2]
      · intro st
        rw [consumeOpt_attached hn]
        unfold loopEnd
        simp only [takeActs]
        cases takeAct o [v] st with
        | error e => rfl
        | ok st' => exact e4 st'
    | @bundle s o f v fl last vals ts us ws hf hb hn hm h2 =>
      apply hopt _ _ rfl rfl
      have hn' : ts.length < n := by
        simp only [List.length_append, List.length_map, List.length_cons] at hlen
        omega
      obtain ⟨evs, ex, e1, e2, e3, e4⟩ := ih (ps := ps) h2
        (fun u hu => hus u (List.mem_append_right _ (List.mem_cons_of_mem _ hu))) hps hn'
      have hfo : ∀ x ∈ fl.map (fun q => (q, ([] : List Str))) ++ [(last, vals)], fromOpt x = true := by
        intro x hx
        rcases List.mem_append.1 hx with hx | hx
        · obtain ⟨q, hq, rfl⟩ := List.mem_map.1 hx
          have := hus ⟨q, []⟩ (List.mem_append_left _ (List.mem_map_of_mem hq))
          simpa [fromOpt] using this
        · rw [List.mem_singleton] at hx
          subst hx
          have := hus ⟨last, vals⟩ (List.mem_append_right _ List.mem_cons_self)
          simpa [fromOpt] using this
      refine ⟨(fl.map (fun q => (q, [])) ++ [(last, vals)]) ++ evs, ex, ?_, ?_, e3, ?_⟩
      · rw [List.filter_append, List.filter_eq_self.2 hfo, e1]
        simp [useActs, List.map_map]
      · rw [List.filter_append, e2, List.filter_eq_nil_iff.2 (fun x hx => by simp [hfo x hx]), List.nil_append]
      · intro st
        rw [consumeOpt_bundle hf hb hn hm]
        unfold loopEnd
        rw [takeActs_append _ evs]
        cases takeActs (fl.map (fun q => (q, [])) ++ [(last, vals)]) st with
        | error e => rfl
        | ok st' => exact e4 st'
    | dashes hne hd =>
      obtain ⟨acts, r, m1, m2, m3⟩ := matchPartial_dashes hps ha hd hne
      refine ⟨placed ps (a ++ b), r.map ArgTok.str, ?_, ?_, ?_, ?_⟩
      · rw [filter_placed_opt hps]; rfl
      · rw [filter_placed_pos hps]
      · rw [List.map_eq_nil_iff, m3]
      · intro st
        have hany : (a.map ArgTok.plain ++ .dashes :: b.map ArgTok.plain).any ArgTok.isOpt = false := by
          rw [List.any_append, any_plain, List.any_cons, any_plain]
          rfl
        rw [argLoop_end hany, m1]
        dsimp only
        unfold loopEnd
        rw [m2]

end Cot
