import Verif.Lemmas.DataValidation
/-
Properties of COT/data_validation.py: C17-C21, C56, C57.
-/
namespace Cot

/-! ### C17: conflicting references -/

theorem conflictLoop_spec {α : Type} [DecidableEq α] : ∀ (refs : List (Option α)) (obj : Option α),
    (∀ b ∈ refs, ∀ x, b = some x → ∀ b' ∈ refs, ∀ y, b' = some y → x = y) →
    (∃ x, some x ∈ refs ∧ conflictLoop refs obj = .ok (some x)) ∨
    ((∀ b ∈ refs, b = none) ∧ conflictLoop refs obj = .ok obj)
  | [], obj, _ => Or.inr ⟨by simp, rfl⟩
  | none :: r, obj, h => by
    rcases conflictLoop_spec r obj (fun b hb x hx b' hb' y hy =>
      h b (List.mem_cons_of_mem _ hb) x hx b' (List.mem_cons_of_mem _ hb') y hy) with ⟨x, h1, h2⟩ | ⟨h1, h2⟩
    · exact Or.inl ⟨x, List.mem_cons_of_mem _ h1, h2⟩
    · refine Or.inr ⟨?_, h2⟩
      intro b hb
      rcases List.mem_cons.1 hb with rfl | hb
      · rfl
      · exact h1 b hb
  | some a :: r, obj, h => by
    have hno : (r.any (fun b => decide (b ≠ none) && decide (b ≠ some a))) = false := by
      rw [List.any_eq_false]
      intro b hb
      cases b with
      | none => simp
      | some x =>
        have := h (some x) (List.mem_cons_of_mem _ hb) x rfl (some a) (by simp) a rfl
        simp [this]
    have hstep : conflictLoop (some a :: r) obj = conflictLoop r (some a) := by
      rw [conflictLoop, hno]; simp
    left
    rcases conflictLoop_spec r (some a) (fun b hb x hx b' hb' y hy =>
      h b (List.mem_cons_of_mem _ hb) x hx b' (List.mem_cons_of_mem _ hb') y hy) with ⟨x, h1, h2⟩ | ⟨h1, h2⟩
    · exact ⟨x, List.mem_cons_of_mem _ h1, by rw [hstep, h2]⟩
    · exact ⟨a, by simp, by rw [hstep, h2]⟩

theorem conflictLoop_error {α : Type} [DecidableEq α] : ∀ (refs : List (Option α)) (obj : Option α) {x y : α},
    some x ∈ refs → some y ∈ refs → x ≠ y → conflictLoop refs obj = .error .valueMismatch
  | none :: r, obj, x, y, hx, hy, hne => by
    have hx' : some x ∈ r := by simpa using hx
    have hy' : some y ∈ r := by simpa using hy
    exact conflictLoop_error r obj hx' hy' hne
  | some a :: r, obj, x, y, hx, hy, hne => by
    unfold conflictLoop
    split
    · rfl
    · rename_i hno
      have hall : ∀ b ∈ r, b = none ∨ b = some a := by
        intro b hb
        by_contra hcon
        push Not at hcon
        apply hno
        rw [List.any_eq_true]
        exact ⟨b, hb, by simp [hcon.1, hcon.2]⟩
      have key : ∀ z, some z ∈ some a :: r → z = a := by
        intro z hz
        rcases List.mem_cons.1 hz with h | h
        · exact Option.some.inj h
        · rcases hall _ h with h | h
          · simp at h
          · exact Option.some.inj h
      exact absurd ((key x hx).trans (key y hy).symm) hne

/-- **C17.** `check_for_conflict` returns an object exactly when some reference is given and all given
references are that object; nothing exactly when none is given; and a mismatch error exactly when two
given references differ. -/
theorem C17_check_for_conflict {α : Type} [DecidableEq α] (refs : List (Option α)) :
    (∀ x, checkForConflict refs = .ok (some x) ↔
      some x ∈ refs ∧ ∀ y, some y ∈ refs → y = x) ∧
    (checkForConflict refs = .ok none ↔ ∀ y, some y ∉ refs) ∧
    (checkForConflict refs = .error .valueMismatch ↔ ∃ x y, some x ∈ refs ∧ some y ∈ refs ∧ x ≠ y) := by
  unfold checkForConflict
  by_cases hc : ∃ x y, some x ∈ refs ∧ some y ∈ refs ∧ x ≠ y
  · obtain ⟨x, y, hx, hy, hne⟩ := hc
    rw [conflictLoop_error refs none hx hy hne]
    refine ⟨?_, ?_, ?_⟩
    · intro z
      simp only [reduceCtorEq, false_iff]
      rintro ⟨-, h⟩
      exact hne ((h x hx).trans (h y hy).symm)
    · simp only [reduceCtorEq, false_iff]
      exact fun h => h x hx
    · simp only [true_iff]; exact ⟨x, y, hx, hy, hne⟩
  · push Not at hc
    rcases conflictLoop_spec refs none (fun b hb x hx b' hb' y hy =>
      hc x y (hx ▸ hb) (hy ▸ hb')) with ⟨x, h1, h2⟩ | ⟨h1, h2⟩
    · rw [h2]
      refine ⟨?_, ?_, ?_⟩
      · intro z
        constructor
        · intro h; cases h; exact ⟨h1, fun y hy => hc y x hy h1⟩
        · rintro ⟨h, -⟩; rw [hc z x h h1]
      · constructor
        · intro h; cases h
        · intro h; exact absurd h1 (h x)
      · constructor
        · intro h; cases h
        · rintro ⟨a, b, ha, hb, hab⟩; exact absurd (hc a b ha hb) hab
    · rw [h2]
      have hn : ∀ y, some y ∉ refs := fun y hy => by have := h1 _ hy; simp at this
      refine ⟨?_, ?_, ?_⟩
      · intro z
        constructor
        · intro h; cases h
        · rintro ⟨h, -⟩; exact absurd h (hn z)
      · exact ⟨fun _ => hn, fun _ => rfl⟩
      · constructor
        · intro h; cases h
        · rintro ⟨a, b, ha, -, -⟩; exact absurd ha (hn a)

/-- C17, order independence: the outcome is the same for every order (and repetition) of the
references. -/
theorem C17_order_independent {α : Type} [DecidableEq α] {refs refs' : List (Option α)}
    (h : ∀ x : α, some x ∈ refs ↔ some x ∈ refs') : checkForConflict refs = checkForConflict refs' := by
  obtain ⟨a1, a2, a3⟩ := C17_check_for_conflict refs
  obtain ⟨b1, b2, b3⟩ := C17_check_for_conflict refs'
  by_cases hn : ∀ y, some y ∉ refs
  · rw [a2.2 hn, b2.2 (fun y hy => hn y ((h y).2 hy))]
  · push Not at hn
    obtain ⟨x, hx⟩ := hn
    by_cases hall : ∀ y, some y ∈ refs → y = x
    · rw [(a1 x).2 ⟨hx, hall⟩, (b1 x).2 ⟨(h x).1 hx, fun y hy => hall y ((h y).2 hy)⟩]
    · push Not at hall
      obtain ⟨y, hy, hne⟩ := hall
      rw [a3.2 ⟨y, x, hy, hx, hne⟩, b3.2 ⟨y, x, (h y).1 hy, (h x).1 hx, hne⟩]

example : checkForConflict [none, some 3, none, some 3] = .ok (some 3) ∧
    checkForConflict [some 1, none, some 2, some 1] = .error .valueMismatch ∧
    checkForConflict ([none, none] : List (Option Nat)) = .ok none := ⟨rfl, rfl, rfl⟩

/-! ### C18: canonical subtypes -/

theorem canonLoop_spec {s : Str} : ∀ (table : List (List Str × Str)), (∀ e ∈ table, ∀ w ∈ e.1, lower w = w) →
    (∀ r, canonLoop s (table.map (fun e => (spaced e.1, e.2))) = .ok (some r) ↔ FirstMatch table s r) ∧
    (canonLoop s (table.map (fun e => (spaced e.1, e.2))) ≠ .ok none) ∧
    (canonLoop s (table.map (fun e => (spaced e.1, e.2))) = .error .valueUnsupported ↔
      ∀ e ∈ table, ¬ StartsCI e.1 s)
  | [], _ => by
    refine ⟨?_, by simp [canonLoop], by simp [canonLoop]⟩
    intro r
    simp only [List.map_nil, canonLoop, reduceCtorEq, false_iff]
    rintro ⟨pre, ws, post, h, -⟩
    simp at h
  | (ws, c) :: t, hl => by
    obtain ⟨ih1, ih2, ih3⟩ := canonLoop_spec (s := s) t (fun e he => hl e (List.mem_cons_of_mem _ he))
    have hsp := spaced_iff ws (hl (ws, c) (by simp)) s
    by_cases hm : StartsCI ws s
    · have : ∃ m, reMatch (spaced ws) s = some m := Option.isSome_iff_exists.1 (reMatch_isSome.2 (hsp.2 hm))
      obtain ⟨m, hm'⟩ := this
      have hstep : canonLoop s (((ws, c) :: t).map (fun e => (spaced e.1, e.2))) = .ok (some c) := by
        rw [List.map_cons, canonLoop, hm']
      rw [hstep]
      refine ⟨?_, by simp, ?_⟩
      · intro r
        constructor
        · intro h; cases h; exact ⟨[], ws, t, rfl, hm, by simp⟩
        · rintro ⟨pre, ws', post, h, h1, h2⟩
          cases pre with
          | nil => simp only [List.nil_append, List.cons.injEq, Prod.mk.injEq] at h; rw [h.1.2]
          | cons e pre =>
            simp only [List.cons_append, List.cons.injEq] at h
            exact absurd hm (by have := h2 e (by simp); rw [← h.1] at this; exact this)
      · simp only [reduceCtorEq, false_iff]
        intro h
        exact h (ws, c) (by simp) hm
    · have hm' : reMatch (spaced ws) s = none := by
        rw [reMatch_none]
        intro x hx
        exact hm (hsp.1 ⟨x, hx⟩)
      have hstep : canonLoop s (((ws, c) :: t).map (fun e => (spaced e.1, e.2))) =
          canonLoop s (t.map (fun e => (spaced e.1, e.2))) := by
        rw [List.map_cons, canonLoop, hm']
      rw [hstep]
      refine ⟨?_, ih2, ?_⟩
      · intro r
        rw [ih1 r]
        constructor
        · rintro ⟨pre, ws', post, h, h1, h2⟩
          refine ⟨(ws, c) :: pre, ws', post, by rw [h]; rfl, h1, ?_⟩
          intro e he
          rcases List.mem_cons.1 he with rfl | he
          · exact hm
          · exact h2 e he
        · rintro ⟨pre, ws', post, h, h1, h2⟩
          cases pre with
          | nil =>
            simp only [List.nil_append, List.cons.injEq, Prod.mk.injEq] at h
            exact absurd h1 (by rw [← h.1.1]; exact hm)
          | cons e pre =>
            simp only [List.cons_append, List.cons.injEq] at h
            exact ⟨pre, ws', post, h.2, h1, fun e' he' => h2 e' (List.mem_cons_of_mem _ he')⟩
      · rw [ih3]
        constructor
        · intro h e he
          rcases List.mem_cons.1 he with rfl | he
          · exact hm
          · exact h e he
        · intro h e he; exact h e (List.mem_cons_of_mem _ he)

theorem canonicalizes_of {table : List (List Str × Str)} (hl : ∀ e ∈ table, ∀ w ∈ e.1, lower w = w)
    (hidem : ∀ e ∈ table, canonicalizeHelper (table.map (fun e => (spaced e.1, e.2))) (some e.2) =
      .ok (some e.2)) :
    Canonicalizes (canonicalizeHelper (table.map (fun e => (spaced e.1, e.2)))) table where
  nothing := by
    intro x
    cases x with
    | none => simp [canonicalizeHelper]
    | some s =>
      by_cases hs : s = []
      · simp [canonicalizeHelper, hs]
      · obtain ⟨-, h, -⟩ := canonLoop_spec (s := s) table hl
        simp only [canonicalizeHelper, if_neg hs]
        simp [h, hs]
  first := by
    intro s hs r
    simp only [canonicalizeHelper, if_neg hs]
    exact (canonLoop_spec (s := s) table hl).1 r
  rejects := by
    intro s hs
    simp only [canonicalizeHelper, if_neg hs]
    exact (canonLoop_spec (s := s) table hl).2.2
  caseless := by
    intro s t h
    have hlen : s.length = t.length := by simpa [lower] using congrArg List.length h
    by_cases hs : s = []
    · subst hs
      have : t = [] := List.length_eq_zero_iff.1 (by simpa using hlen.symm)
      rw [this]
    · have ht : t ≠ [] := by rintro rfl; exact hs (List.length_eq_zero_iff.1 (by simpa using hlen))
      simp only [canonicalizeHelper, if_neg hs, if_neg ht]
      clear hidem hlen hs ht
      induction table with
      | nil => rfl
      | cons e tb ih =>
        have h1 := spaced_iff e.1 (hl e (by simp)) s
        have h2 := spaced_iff e.1 (hl e (by simp)) t
        rw [startsCI_congr h] at h1
        have ih := ih (fun e he => hl e (List.mem_cons_of_mem _ he))
        simp only [List.map_cons, canonLoop]
        cases hm1 : reMatch (spaced e.1) s with
        | some m1 =>
          have : (reMatch (spaced e.1) t).isSome = true :=
            reMatch_isSome.2 (h2.2 (h1.1 (reMatch_isSome.1 (by rw [hm1]; rfl))))
          obtain ⟨m2, hm2⟩ := Option.isSome_iff_exists.1 this
          rw [hm2]
        | none =>
          cases hm2 : reMatch (spaced e.1) t with
          | none => exact ih
          | some m2 =>
            have : (reMatch (spaced e.1) s).isSome = true :=
              reMatch_isSome.2 (h1.2 (h2.1 (reMatch_isSome.1 (by rw [hm2]; rfl))))
            rw [hm1] at this; simp at this
  idempotent := by
    intro x r h
    cases x with
    | none => simp [canonicalizeHelper] at h
    | some s =>
      by_cases hs : s = []
      · simp [canonicalizeHelper, hs] at h
      · simp only [canonicalizeHelper, if_neg hs] at h
        obtain ⟨pre, ws, post, h1, -, -⟩ := ((canonLoop_spec (s := s) table hl).1 r).1 h
        exact hidem (ws, r) (by rw [h1]; simp)

/-- **C18** for NIC types. -/
theorem C18_canonicalize_nic : Canonicalizes canonicalizeNic nicWords := by
  have h := canonicalizes_of (table := nicWords) (by decide +kernel) (by decide +kernel)
  exact h

/-- **C18** for SCSI controller types. -/
theorem C18_canonicalize_scsi : Canonicalizes canonicalizeScsi scsiWords := by
  have h := canonicalizes_of (table := scsiWords) (by decide +kernel) (by decide +kernel)
  exact h

/-- **C18** for IDE controller types. -/
theorem C18_canonicalize_ide : Canonicalizes canonicalizeIde ideWords := by
  have h := canonicalizes_of (table := ideWords) (by decide +kernel) (by decide +kernel)
  exact h

example : canonicalizeScsi (some "LSI  Logic SAS 1068".toList) = .ok (some "lsilogicsas".toList) ∧
    canonicalizeNic (some "E1000".toList) = .ok (some "E1000".toList) ∧
    canonicalizeNic (some "foobar".toList) = .error .valueUnsupported ∧
    canonicalizeIde none = .ok none := by decide +kernel

/-! ### C19: integers in a range -/

theorem numeral_unique {s : Str} {y z : Int} (h1 : Numeral s y) (h2 : Numeral s z) : y = z := by
  rw [← pyInt_iff] at h1 h2
  rw [h1] at h2
  exact Option.some.inj h2

/-- **C19.** A string is accepted iff it is an integer numeral within the bounds, and then the integer
it denotes is returned; otherwise the error tells which bound it breaks (the lower one first), or that
it is not an integer. -/
theorem C19_validate_int (s : Str) (lo hi : Option Int) :
    (∀ z, validateInt s lo hi = .ok z ↔ Numeral s z ∧ InRange lo hi z) ∧
    (validateInt s lo hi = .error .valueUnsupported ↔ ¬ ∃ z, Numeral s z) ∧
    (validateInt s lo hi = .error .valueTooLow ↔ ∃ z a, Numeral s z ∧ lo = some a ∧ z < a) ∧
    (validateInt s lo hi = .error .valueTooHigh ↔ ∃ z b, Numeral s z ∧ hi = some b ∧ b < z ∧
      ∀ a, lo = some a → a ≤ z) := by
  unfold validateInt
  cases hp : pyInt s with
  | none =>
    have hno : ∀ z, ¬ Numeral s z := by
      intro z hz
      rw [← pyInt_iff, hp] at hz
      cases hz
    refine ⟨?_, ?_, ?_, ?_⟩
    · intro z; simp [hno z]
    · simp [hno]
    · simp only [Except.error.injEq, reduceCtorEq, false_iff]; rintro ⟨z, a, hz, -⟩; exact hno z hz
    · simp only [Except.error.injEq, reduceCtorEq, false_iff]; rintro ⟨z, a, hz, -⟩; exact hno z hz
  | some v =>
    have hv : Numeral s v := pyInt_iff.1 hp
    simp only
    by_cases hlo : ∃ a, lo = some a ∧ v < a
    · obtain ⟨a, rfl, ha⟩ := hlo
      have h1 : belowMin v (some a) = true := by simp [belowMin, ha]
      rw [if_pos h1]
      refine ⟨?_, ?_, ?_, ?_⟩
      · intro z
        simp only [reduceCtorEq, false_iff]
        rintro ⟨hz, hr, -⟩
        have := hr a rfl
        rw [numeral_unique hz hv] at this
        omega
      · simp only [Except.error.injEq, reduceCtorEq, false_iff, not_not]; exact ⟨v, hv⟩
      · simp only [true_iff]; exact ⟨v, a, hv, rfl, ha⟩
      · simp only [Except.error.injEq, reduceCtorEq, false_iff]
        rintro ⟨z, b, hz, -, -, hr⟩
        have := hr a rfl
        rw [numeral_unique hz hv] at this
        omega
    · have hlo' : ∀ a, lo = some a → a ≤ v := by
        intro a ha; by_contra hcon; exact hlo ⟨a, ha, by omega⟩
      have h1 : ∀ l : Option Int, (∀ a, l = some a → a ≤ v) →
          ¬ (belowMin v l = true) := by
        intro l hl
        cases l with
        | none => simp [belowMin]
        | some a => have := hl a rfl; simp [belowMin]; omega
      rw [if_neg (h1 lo hlo')]
      by_cases hhi : ∃ b, hi = some b ∧ b < v
      · obtain ⟨b, rfl, hb⟩ := hhi
        have h2 : aboveMax v (some b) = true := by simp [aboveMax, hb]
        rw [if_pos h2]
        refine ⟨?_, ?_, ?_, ?_⟩
        · intro z
          simp only [reduceCtorEq, false_iff]
          rintro ⟨hz, -, hr⟩
          have := hr b rfl
          rw [numeral_unique hz hv] at this
          omega
        · simp only [Except.error.injEq, reduceCtorEq, false_iff, not_not]; exact ⟨v, hv⟩
        · simp only [Except.error.injEq, reduceCtorEq, false_iff]
          rintro ⟨z, a, hz, ha, hlt⟩
          have := hlo' a ha
          rw [numeral_unique hz hv] at hlt
          omega
        · simp only [true_iff]; exact ⟨v, b, hv, rfl, hb, hlo'⟩
      · have hhi' : ∀ b, hi = some b → v ≤ b := by
          intro b hb; by_contra hcon; exact hhi ⟨b, hb, by omega⟩
        have h2 : ∀ u : Option Int, (∀ b, u = some b → v ≤ b) →
            ¬ (aboveMax v u = true) := by
          intro u hu
          cases u with
          | none => simp [aboveMax]
          | some b => have := hu b rfl; simp [aboveMax]; omega
        rw [if_neg (h2 hi hhi')]
        refine ⟨?_, ?_, ?_, ?_⟩
        · intro z
          simp only [Except.ok.injEq]
          constructor
          · rintro rfl; exact ⟨hv, hlo', hhi'⟩
          · rintro ⟨hz, -⟩; exact (numeral_unique hz hv).symm
        · simp only [reduceCtorEq, false_iff, not_not]; exact ⟨v, hv⟩
        · simp only [reduceCtorEq, false_iff]
          rintro ⟨z, a, hz, ha, hlt⟩
          have := hlo' a ha
          rw [numeral_unique hz hv] at hlt
          omega
        · simp only [reduceCtorEq, false_iff]
          rintro ⟨z, b, hz, hb, hlt, -⟩
          have := hhi' b hb
          rw [numeral_unique hz hv] at hlt
          omega

/-- C19 for `non_negative_int` and `positive_int`. -/
theorem C19_non_negative_and_positive (s : Str) (z : Int) :
    (nonNegativeInt s = .ok z ↔ Numeral s z ∧ 0 ≤ z) ∧ (positiveInt s = .ok z ↔ Numeral s z ∧ 1 ≤ z) := by
  unfold nonNegativeInt positiveInt
  rw [(C19_validate_int s _ _).1, (C19_validate_int s _ _).1]
  simp [InRange]

example : validateInt " -12\n".toList (some (-20)) (some 5) = .ok (-12) ∧
    validateInt "7".toList (some (-20)) (some 5) = .error .valueTooHigh ∧
    validateInt "1x".toList none none = .error .valueUnsupported ∧ Numeral " -12\n".toList (-12) :=
  ⟨rfl, rfl, rfl, pyInt_iff.1 rfl⟩

/-! ### C20: MAC and device addresses -/

theorem strip_no_nl (s : Str) : (strip s).getLast? ≠ some '\n' := by
  intro h
  have := strip_last s '\n' (by simp [h])
  revert this; decide

theorem getLast?_joinWith {sep : Char} {gs : List Str} (hne : gs ≠ []) (h : ∀ g ∈ gs, g ≠ []) :
    ∃ g ∈ gs, (joinWith [sep] gs).getLast? = g.getLast? := by
  obtain ⟨fs, g, rfl⟩ : ∃ fs g, gs = fs ++ [g] := by
    rcases List.eq_nil_or_concat gs with rfl | ⟨fs, g, rfl⟩
    · exact absurd rfl hne
    · exact ⟨fs, g, by simp⟩
  refine ⟨g, by simp, ?_⟩
  rw [joinWith_snoc, List.getLast?_append]
  have := h g (by simp)
  cases hg : g.getLast? with
  | none => rw [List.getLast?_eq_none_iff] at hg; exact absurd hg this
  | some c => rfl

theorem head?_joinWith {sep : Char} {gs : List Str} (hne : gs ≠ []) (h : ∀ g ∈ gs, g ≠ []) :
    ∃ g ∈ gs, (joinWith [sep] gs).head? = g.head? := by
  cases gs with
  | nil => exact absurd rfl hne
  | cons g t =>
    refine ⟨g, by simp, ?_⟩
    have := h g (by simp)
    cases t with
    | nil => rfl
    | cons a t =>
      cases g with
      | nil => exact absurd rfl this
      | cons c g => rfl

theorem hexGroups_trim {k n : Nat} {sep : Char} {t : Str} (h : HexGroups k n sep t) (hk : k ≠ 0) (hn : n ≠ 0) :
    (∀ c ∈ t.head?, isWs c = false) ∧ (∀ c ∈ t.getLast?, isWs c = false) := by
  obtain ⟨gs, h1, h2, rfl⟩ := h
  have hne : gs ≠ [] := by rintro rfl; exact hk h1.symm
  have hg : ∀ g ∈ gs, g ≠ [] := by
    rintro g hg rfl
    exact hn (h2 [] hg).1.symm
  constructor
  · obtain ⟨g, hg', he⟩ := head?_joinWith (sep := sep) hne hg
    rw [he]
    exact fun c hc => hex_not_ws ((h2 g hg').2 c (List.mem_of_mem_head? hc))
  · obtain ⟨g, hg', he⟩ := getLast?_joinWith (sep := sep) hne hg
    rw [he]
    exact fun c hc => hex_not_ws ((h2 g hg').2 c (List.mem_of_mem_getLast? hc))

/-- **C20**, MAC addresses: a string is accepted iff it is, apart from surrounding white space, in one
of the three documented forms, and the result is that form; otherwise it is rejected. -/
theorem C20_mac_address (s : Str) :
    (∀ t, macAddress s = .ok t ↔ Padded s t ∧ IsMac t) ∧
    (macAddress s = .error .invalidInput ↔ ¬ ∃ t, Padded s t ∧ IsMac t) := by
  have hnl := strip_no_nl s
  have hcond : ((reMatch (macRe 2 ':' 5) (strip s)).isSome || (reMatch (macRe 2 '-' 5) (strip s)).isSome ||
      (reMatch (macRe 4 '.' 2) (strip s)).isSome) = true ↔ IsMac (strip s) := by
    rw [Bool.or_eq_true, Bool.or_eq_true, macRe_iff hnl, macRe_iff hnl, macRe_iff hnl, or_assoc]
    rfl
  have htrim : ∀ t, Padded s t → IsMac t → strip s = t := by
    intro t hp hm
    have : (∀ c ∈ t.head?, isWs c = false) ∧ (∀ c ∈ t.getLast?, isWs c = false) := by
      rcases hm with h | h | h <;> exact hexGroups_trim h (by decide) (by decide)
    exact strip_eq_iff.2 ⟨hp, this⟩
  unfold macAddress
  simp only
  by_cases h : IsMac (strip s)
  · rw [if_pos (hcond.2 h)]
    constructor
    · intro t
      simp only [Except.ok.injEq]
      constructor
      · rintro rfl; exact ⟨padded_strip s, h⟩
      · rintro ⟨h1, h2⟩; exact htrim t h1 h2
    · simp only [reduceCtorEq, false_iff, not_not]; exact ⟨_, padded_strip s, h⟩
  · rw [if_neg (fun hh => h (hcond.1 hh))]
    have hno : ∀ t, ¬ (Padded s t ∧ IsMac t) := by
      rintro t ⟨h1, h2⟩
      exact h (htrim t h1 h2 ▸ h2)
    constructor
    · intro t; simp [hno t]
    · simp only [true_iff]; rintro ⟨t, ht⟩; exact hno t ht

/-- **C20**, device addresses: accepted iff, apart from surrounding white space, the string is two
decimal numbers joined by a colon. -/
theorem C20_device_address (s : Str) :
    (∀ t, deviceAddress s = .ok t ↔ Padded s t ∧ IsDeviceAddress t) ∧
    (deviceAddress s = .error .invalidInput ↔ ¬ ∃ t, Padded s t ∧ IsDeviceAddress t) := by
  have hcond := deviceRe_iff (strip_no_nl s)
  have htrim : ∀ t, Padded s t → IsDeviceAddress t → strip s = t := by
    rintro t hp ⟨a, b, ha, hb, rfl⟩
    refine strip_eq_iff.2 ⟨hp, ?_, ?_⟩
    · intro c hc
      refine isDig_not_ws (digits_head ha c ?_)
      cases a with
      | nil => exact absurd rfl ha.1
      | cons x a => simpa using hc
    · intro c hc
      rw [List.getLast?_append, getLast?_cons_ne hb.1] at hc
      refine isDig_not_ws (digits_last hb c ?_)
      cases hl : b.getLast? with
      | none => rw [List.getLast?_eq_none_iff] at hl; exact absurd hl hb.1
      | some x => rw [hl] at hc; simpa using hc
  unfold deviceAddress
  simp only
  by_cases h : IsDeviceAddress (strip s)
  · rw [if_pos (hcond.2 h)]
    constructor
    · intro t
      simp only [Except.ok.injEq]
      constructor
      · rintro rfl; exact ⟨padded_strip s, h⟩
      · rintro ⟨h1, h2⟩; exact htrim t h1 h2
    · simp only [reduceCtorEq, false_iff, not_not]; exact ⟨_, padded_strip s, h⟩
  · rw [if_neg (fun hh => h (hcond.1 hh))]
    have hno : ∀ t, ¬ (Padded s t ∧ IsDeviceAddress t) := by
      rintro t ⟨h1, h2⟩
      exact h (htrim t h1 h2 ▸ h2)
    constructor
    · intro t; simp [hno t]
    · simp only [true_iff]; rintro ⟨t, ht⟩; exact hno t ht

example : macAddress " 01:23:45:ab:CD:ef\n".toList = .ok "01:23:45:ab:CD:ef".toList ∧
    macAddress "0123.4567.89ab".toList = .ok "0123.4567.89ab".toList ∧
    macAddress "01:23-45:ab:cd:ef".toList = .error .invalidInput ∧
    deviceAddress " 1:0\n".toList = .ok "1:0".toList ∧
    deviceAddress "1:0:1".toList = .error .invalidInput := by decide +kernel

/-! ### C21: checksums -/

theorem checksumLoop_spec (H : HashAlg) (sched : Nat → Nat) : ∀ (fuel i : Nat) (h : H.State)
    (content : List UInt8), content.length < fuel →
    checksumLoop H sched fuel i h content = some (H.update h content)
  | 0, _, _, _, hlt => by omega
  | fuel + 1, i, h, content, hlt => by
    simp only [checksumLoop]
    have hb : blocksize = 65536 := rfl
    have hlen : (content.take (readLen (sched i) content)).length = readLen (sched i) content := by
      rw [List.length_take]; unfold readLen; omega
    by_cases hc : content = []
    · subst hc
      rw [if_pos (by simp), H.update_nil]
    · have hpos : 0 < content.length := List.length_pos_iff.2 hc
      have hr : 0 < readLen (sched i) content := by unfold readLen; omega
      have hne : ¬ (content.take (readLen (sched i) content)).length = 0 := by omega
      rw [if_neg hne, hlen]
      rw [checksumLoop_spec H sched fuel (i + 1) _ _ (by rw [List.length_drop]; omega), H.update_append,
        List.take_append_drop]

/-- **C21.** However the reads are split up (any number of bytes per read, at most a block), the
checksum terminates and is the digest of exactly the bytes of the file, in order. -/
theorem C21_file_checksum (algs : Str → Option HashAlg) (sched : Nat → Nat) (content : List UInt8)
    (name : Str) (H : HashAlg) (h : algs name = some H) :
    fileChecksum algs sched content name = some (.ok (H.hexdigest (H.update H.init content))) := by
  unfold fileChecksum
  rw [h]
  simp only
  rw [checksumLoop_spec H sched _ 0 _ _ (by omega)]
  rfl

/-- C21, unsupported algorithms are refused. -/
theorem C21_unsupported (algs : Str → Option HashAlg) (sched : Nat → Nat) (content : List UInt8)
    (name : Str) (h : algs name = none) :
    fileChecksum algs sched content name = some (.error .notImplementedError) := by
  unfold fileChecksum; rw [h]

/-- the hash that keeps everything: a model of the laws of `update` -/
def exHash : HashAlg :=
  { State := List UInt8, init := [], update := (· ++ ·),
    hexdigest := fun l => l.map (fun b => Char.ofNat b.toNat),
    update_append := fun h a b => List.append_assoc h a b, update_nil := List.append_nil }

example : fileChecksum (fun n => if n = "md5".toList then some exHash else none) (fun i => i)
    [104, 101, 108, 108, 111] "md5".toList = some (.ok "hello".toList) := by
  rw [C21_file_checksum _ _ _ _ exHash (by simp)]; rfl

/-! ### C56: arguments without white space -/

theorem splitWsAux_length (s cur : Str) (hcur : cur ≠ []) :
    0 < (splitWsAux s cur).length ∧
    ((∃ a b c, s = a ++ c :: b ∧ isWs c = true ∧ (∃ d ∈ b, isWs d = false)) → 1 < (splitWsAux s cur).length) := by
  induction s generalizing cur with
  | nil =>
    refine ⟨by simp [splitWsAux, hcur], ?_⟩
    rintro ⟨a, b, c, h, -⟩
    simp at h
  | cons x t ih =>
    by_cases hx : isWs x = true
    · have hst : splitWsAux (x :: t) cur = cur :: splitWsAux t [] := by
        simp only [splitWsAux, if_pos hx, if_neg hcur]
      rw [hst]
      refine ⟨by simp, ?_⟩
      intro hex
      -- the rest contains a non-blank character
      have hnb : ∃ d ∈ t, isWs d = false := by
        obtain ⟨a, b, c, h, hc, d, hd, hd'⟩ := hex
        cases a with
        | nil => simp only [List.nil_append, List.cons.injEq] at h; exact ⟨d, h.2 ▸ hd, hd'⟩
        | cons y a =>
          simp only [List.cons_append, List.cons.injEq] at h
          exact ⟨d, by rw [h.2]; simp [hd], hd'⟩
      have key : ∀ t : Str, (∃ d ∈ t, isWs d = false) → 0 < (splitWsAux t []).length := by
        intro t
        induction t with
        | nil => rintro ⟨d, hd, -⟩; simp at hd
        | cons y t ih2 =>
          rintro ⟨d, hd, hd'⟩
          by_cases hy : isWs y = true
          · have : splitWsAux (y :: t) [] = splitWsAux t [] := by simp [splitWsAux, hy]
            rw [this]
            rcases List.mem_cons.1 hd with rfl | hd
            · rw [hy] at hd'; cases hd'
            · exact ih2 ⟨d, hd, hd'⟩
          · have : splitWsAux (y :: t) [] = splitWsAux t [y] := by simp [splitWsAux, hy]
            rw [this]
            clear ih2
            -- a started field is always delivered
            have : ∀ (u cur : Str), cur ≠ [] → 0 < (splitWsAux u cur).length := by
              intro u
              induction u with
              | nil => intro cur hcur; simp [splitWsAux, hcur]
              | cons z u ih3 =>
                intro cur hcur
                by_cases hz : isWs z = true
                · simp only [splitWsAux, if_pos hz, if_neg hcur]; simp
                · have : splitWsAux (z :: u) cur = splitWsAux u (cur ++ [z]) := by simp [splitWsAux, hz]
                  rw [this]; exact ih3 _ (by simp)
            exact this t [y] (by simp)
      have := key t hnb
      simp only [List.length_cons]
      omega
    · have hst : splitWsAux (x :: t) cur = splitWsAux t (cur ++ [x]) := by simp [splitWsAux, hx]
      rw [hst]
      obtain ⟨ih1, ih2⟩ := ih (cur ++ [x]) (by simp)
      refine ⟨ih1, ?_⟩
      rintro ⟨a, b, c, h, hc, hd⟩
      refine ih2 ?_
      cases a with
      | nil =>
        simp only [List.nil_append, List.cons.injEq] at h
        exact absurd (h.1 ▸ hc) hx
      | cons y a =>
        simp only [List.cons_append, List.cons.injEq] at h
        exact ⟨a, b, c, h.2, hc, hd⟩

theorem splitWsAux_nows (s cur : Str) (h : ∀ c ∈ s, isWs c = false) :
    splitWsAux s cur = if cur ++ s = [] then [] else [cur ++ s] := by
  induction s generalizing cur with
  | nil => simp [splitWsAux]
  | cons x t ih =>
    have hx := h x (by simp)
    have : splitWsAux (x :: t) cur = splitWsAux t (cur ++ [x]) := by simp [splitWsAux, hx]
    rw [this, ih _ (fun c hc => h c (List.mem_cons_of_mem _ hc))]
    simp

/-- **C56.** `no_whitespace` accepts a string iff it contains no white space apart from its ends, and
returns it without the surrounding white space. -/
theorem C56_no_whitespace (s : Str) :
    (∀ t, noWhitespace s = .ok t ↔ Padded s t ∧ ∀ c ∈ t, isWs c = false) ∧
    (noWhitespace s = .error .invalidInput ↔ ¬ ∃ t, Padded s t ∧ ∀ c ∈ t, isWs c = false) := by
  have hcond : (splitWs (strip s)).length > 1 ↔ ¬ ∀ c ∈ strip s, isWs c = false := by
    constructor
    · intro hgt hall
      unfold splitWs at hgt
      rw [splitWsAux_nows _ _ hall] at hgt
      split at hgt <;> simp at hgt
    · intro hcon
      push Not at hcon
      obtain ⟨c, hc, hc'⟩ := hcon
      rw [Ne, Bool.not_eq_false] at hc'
      obtain ⟨a, b, hab⟩ := List.append_of_mem hc
      have hhead := strip_head s
      have hlast := strip_last s
      rw [hab] at hhead hlast ⊢
      cases a with
      | nil =>
        have := hhead c (by simp)
        rw [hc'] at this; cases this
      | cons y a =>
        have hy := hhead y (by simp)
        have hb : b ≠ [] := by
          rintro rfl
          have := hlast c (by simp [List.getLast?_append, List.getLast?_cons])
          rw [hc'] at this; cases this
        have hd : ∃ d ∈ b, isWs d = false := by
          cases hbl : b.getLast? with
          | none => rw [List.getLast?_eq_none_iff] at hbl; exact absurd hbl hb
          | some d =>
            refine ⟨d, List.mem_of_mem_getLast? (by simp [hbl]), hlast d ?_⟩
            rw [List.getLast?_append, getLast?_cons_ne hb, hbl]
            rfl
        unfold splitWs
        have hst : splitWsAux (y :: a ++ c :: b) [] = splitWsAux (a ++ c :: b) [y] := by
          simp [splitWsAux, hy]
        rw [hst]
        exact (splitWsAux_length _ [y] (by simp)).2 ⟨a, b, c, rfl, hc', hd⟩
  have htrim : ∀ t, Padded s t → (∀ c ∈ t, isWs c = false) → strip s = t := by
    intro t hp ht
    exact strip_eq_iff.2 ⟨hp, fun c hc => ht c (List.mem_of_mem_head? hc),
      fun c hc => ht c (List.mem_of_mem_getLast? hc)⟩
  unfold noWhitespace
  simp only
  by_cases h : ∀ c ∈ strip s, isWs c = false
  · rw [if_neg (fun hh => (hcond.1 hh) h)]
    constructor
    · intro t
      simp only [Except.ok.injEq]
      constructor
      · rintro rfl; exact ⟨padded_strip s, h⟩
      · rintro ⟨h1, h2⟩; exact htrim t h1 h2
    · simp only [reduceCtorEq, false_iff, not_not]; exact ⟨_, padded_strip s, h⟩
  · rw [if_pos (hcond.2 h)]
    have hno : ∀ t, ¬ (Padded s t ∧ ∀ c ∈ t, isWs c = false) := by
      rintro t ⟨h1, h2⟩
      exact h (htrim t h1 h2 ▸ h2)
    constructor
    · intro t
      constructor
      · intro hh; cases hh
      · intro hh; exact absurd hh (hno t)
    · simp only [true_iff]; rintro ⟨t, ht⟩; exact hno t ht

example : noWhitespace "   hello\t ".toList = .ok "hello".toList ∧
    noWhitespace "hello world".toList = .error .invalidInput := by decide +kernel

/-! ### C57: truth values -/

/-- **C57.** `truth_value` returns a boolean unchanged and maps exactly the documented words, in any
letter case, to true and false; everything else is rejected. -/
theorem C57_truth_value (s : Str) :
    (∀ b, truthValue (.inl b) = .ok b) ∧
    (truthValue (.inr s) = .ok true ↔ lower s ∈ trueWords) ∧
    (truthValue (.inr s) = .ok false ↔ lower s ∈ falseWords) ∧
    (truthValue (.inr s) = .error .valueUnsupported ↔ lower s ∉ trueWords ∧ lower s ∉ falseWords) := by
  have hdisj : ∀ w ∈ trueWords, w ∉ falseWords := by decide +kernel
  refine ⟨fun _ => rfl, ?_⟩
  have e1 : truthValue (.inr s) = if lower s ∈ trueWords then .ok true else
      if lower s ∈ falseWords then .ok false else .error .valueUnsupported := by
    have e0 : strtobool s = if lower s ∈ trueWords then some true else
        if lower s ∈ falseWords then some false else none := rfl
    simp only [truthValue, e0]
    split
    · rename_i h; split at h
      · cases h; simp_all
      · split at h
        · cases h; simp_all
        · cases h
    · rename_i h; split at h
      · cases h
      · split at h
        · cases h
        · simp_all
  rw [e1]
  by_cases h1 : lower s ∈ trueWords
  · have h2 := hdisj _ h1
    simp [h1, h2]
  · by_cases h2 : lower s ∈ falseWords
    · simp [h1, h2]
    · simp [h1, h2]

example : truthValue (.inr "YES".toList) = .ok true ∧ truthValue (.inr "Off".toList) = .ok false ∧
    truthValue (.inr "maybe".toList) = .error .valueUnsupported := by decide +kernel

end Cot
