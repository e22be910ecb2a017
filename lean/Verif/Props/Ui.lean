import Verif.Spec.Ui
import Verif.Lemmas.DataValidation
import Verif.Lemmas.Dict
import Verif.Props.Archive
import Mathlib.Tactic.Tauto
/-
C39: disk space checks; C41: selection from a list; C58: confirmation.
-/
namespace Cot

/-! ### C58: confirm -/

theorem strip_word {line a : Str} (ha : ∀ c ∈ a, isWs c = false) : strip line = a ↔ Padded line a := by
  rw [strip_eq_iff]
  constructor
  · exact fun h => h.1
  · intro h
    refine ⟨h, fun c hc => ha c (List.mem_of_mem_head? hc), fun c hc => ha c (List.mem_of_mem_getLast? hc)⟩

theorem meansYes_iff (line : Str) :
    MeansYes line ↔ (strip line = [] ∨ strip line = "y".toList ∨ strip line = "Y".toList) := by
  unfold MeansYes
  constructor
  · rintro ⟨a, hp, rfl | rfl | rfl⟩
    · exact Or.inl ((strip_word (by simp)).2 hp)
    · exact Or.inr (Or.inl ((strip_word (by decide)).2 hp))
    · exact Or.inr (Or.inr ((strip_word (by decide)).2 hp))
  · intro h; exact ⟨strip line, padded_strip line, h⟩

theorem meansNo_iff (line : Str) : MeansNo line ↔ (strip line = "n".toList ∨ strip line = "N".toList) := by
  unfold MeansNo
  constructor
  · rintro ⟨a, hp, rfl | rfl⟩
    · exact Or.inl ((strip_word (by decide)).2 hp)
    · exact Or.inr ((strip_word (by decide)).2 hp)
  · intro h; exact ⟨strip line, padded_strip line, h⟩

theorem yes_not_no {line : Str} (h : MeansYes line) : ¬ MeansNo line := by
  rw [meansYes_iff] at h; rw [meansNo_iff]
  rcases h with h | h | h <;> rw [h] <;> decide

/-- **C58.** `confirm` returns the meaning of the first answer that is yes (`y`, `Y` or nothing) or no (`n`,
`N`), reading nothing after it; other answers are asked again; with `force` it agrees without asking. -/
theorem C58_confirm (inp : List Str) (b : Bool) (rest : List Str) :
    confirm false inp = some (b, rest) ↔
      ∃ skipped line, inp = skipped ++ line :: rest ∧ (∀ l ∈ skipped, ¬ MeansYes l ∧ ¬ MeansNo l) ∧
        ((b = true ∧ MeansYes line) ∨ (b = false ∧ MeansNo line)) := by
  show confirmLoop inp = _ ↔ _
  induction inp with
  | nil => simp [confirmLoop]
  | cons l r ih =>
    unfold confirmLoop
    simp only
    by_cases hy : MeansYes l
    · rw [if_pos ((meansYes_iff l).1 hy)]
      simp only [Option.some.injEq, Prod.mk.injEq]
      constructor
      · rintro ⟨rfl, rfl⟩; exact ⟨[], l, rfl, by simp, Or.inl ⟨rfl, hy⟩⟩
      · rintro ⟨sk, line, h1, h2, h3⟩
        cases sk with
        | nil =>
          simp only [List.nil_append, List.cons.injEq] at h1
          obtain ⟨rfl, rfl⟩ := h1
          rcases h3 with ⟨rfl, -⟩ | ⟨-, h⟩
          · exact ⟨rfl, rfl⟩
          · exact absurd h (yes_not_no hy)
        | cons x sk =>
          simp only [List.cons_append, List.cons.injEq] at h1
          exact absurd hy (by rw [h1.1]; exact (h2 x (by simp)).1)
    · rw [if_neg (fun h => hy ((meansYes_iff l).2 h))]
      by_cases hn : MeansNo l
      · rw [if_pos ((meansNo_iff l).1 hn)]
        simp only [Option.some.injEq, Prod.mk.injEq]
        constructor
        · rintro ⟨rfl, rfl⟩; exact ⟨[], l, rfl, by simp, Or.inr ⟨rfl, hn⟩⟩
        · rintro ⟨sk, line, h1, h2, h3⟩
          cases sk with
          | nil =>
            simp only [List.nil_append, List.cons.injEq] at h1
            obtain ⟨rfl, rfl⟩ := h1
            rcases h3 with ⟨-, h⟩ | ⟨rfl, -⟩
            · exact absurd h hy
            · exact ⟨rfl, rfl⟩
          | cons x sk =>
            simp only [List.cons_append, List.cons.injEq] at h1
            exact absurd hn (by rw [h1.1]; exact (h2 x (by simp)).2)
      · rw [if_neg (fun h => hn ((meansNo_iff l).2 h)), ih]
        constructor
        · rintro ⟨sk, line, rfl, h2, h3⟩
          refine ⟨l :: sk, line, rfl, ?_, h3⟩
          intro x hx
          rcases List.mem_cons.1 hx with rfl | hx
          · exact ⟨hy, hn⟩
          · exact h2 x hx
        · rintro ⟨sk, line, h1, h2, h3⟩
          cases sk with
          | nil =>
            simp only [List.nil_append, List.cons.injEq] at h1
            obtain ⟨rfl, rfl⟩ := h1
            rcases h3 with ⟨-, h⟩ | ⟨-, h⟩
            · exact absurd h hy
            · exact absurd h hn
          | cons x sk =>
            simp only [List.cons_append, List.cons.injEq] at h1
            exact ⟨sk, line, h1.2, fun y hy => h2 y (by simp [hy]), h3⟩

theorem C58_force (inp : List Str) : confirm true inp = some (true, inp) := rfl

theorem isValueError_iff (e : Err) : (e.isValueError = true ↔ IsValueError e) ∧ (e.isValueError = false ↔ ¬ IsValueError e) := by
  unfold IsValueError
  cases e <;> simp [Err.isValueError]

/-- C58, `validate_value`: a failed validation is ignored only if it is a value error and the user agrees;
otherwise it is raised as it is; nothing is asked when the validation succeeds. -/
theorem C58_validate_value (force : Bool) (outcome : Except Err Unit) (inp : List Str) (res : Except Err Unit)
    (rest : List Str) (h : validateValue force outcome inp = some (res, rest)) :
    (outcome = .ok () → res = .ok () ∧ rest = inp) ∧
    (∀ e, outcome = .error e → ¬ IsValueError e → res = .error e ∧ rest = inp) ∧
    (∀ e, outcome = .error e → IsValueError e →
      (res = .ok () ∧ confirm force inp = some (true, rest)) ∨
      (res = .error e ∧ confirm force inp = some (false, rest))) := by
  unfold validateValue at h
  cases outcome with
  | ok u => simp only [Option.some.injEq, Prod.mk.injEq] at h; simp [h.1.symm, h.2]
  | error e =>
    simp only at h
    refine ⟨by simp, ?_, ?_⟩
    · intro e' he hv
      cases he
      rw [(isValueError_iff e).2.2 hv] at h
      simp only [Bool.false_eq_true, if_false, Option.some.injEq, Prod.mk.injEq] at h
      exact ⟨h.1.symm, h.2.symm⟩
    · intro e' he hv
      cases he
      rw [if_pos ((isValueError_iff e).1.2 hv)] at h
      cases hc : confirm force inp with
      | none => rw [hc] at h; cases h
      | some q =>
        obtain ⟨b, r⟩ := q
        rw [hc] at h
        cases b <;> simp only [Option.some.injEq, Prod.mk.injEq] at h <;> simp [h.1.symm, h.2]

example : confirm false ["maybe".toList, " n ".toList, "y".toList] = some (false, ["y".toList]) ∧
    confirm false ["".toList] = some (true, []) := ⟨rfl, rfl⟩
example : validateValue false (.error .valueTooHigh) ["y".toList] = some (.ok (), []) ∧
    validateValue false (.error .valueTooHigh) ["n".toList] = some (.error .valueTooHigh, []) ∧
    validateValue false (.error .keyError) ["y".toList] = some (.error .keyError, ["y".toList]) := ⟨rfl, rfl, rfl⟩

/-! ### C41: choose_from_list -/

theorem filter_singleton {α : Type} {p : α → Bool} {l : List α} {x : α} :
    l.filter p = [x] ↔ ∃ pre post, l = pre ++ x :: post ∧ p x = true ∧ ∀ y ∈ pre ++ post, p y = false := by
  induction l with
  | nil => simp
  | cons a r ih =>
    rw [List.filter_cons]
    by_cases ha : p a = true
    · rw [if_pos ha]
      constructor
      · intro h
        simp only [List.cons.injEq, List.filter_eq_nil_iff] at h
        obtain ⟨rfl, h⟩ := h
        exact ⟨[], r, rfl, ha, fun y hy => by simpa using h y hy⟩
      · rintro ⟨pre, post, h1, h2, h3⟩
        cases pre with
        | nil =>
          simp only [List.nil_append, List.cons.injEq] at h1
          obtain ⟨rfl, rfl⟩ := h1
          simp only [List.cons.injEq, true_and, List.filter_eq_nil_iff]
          intro y hy; rw [h3 y (by simpa using hy)]; simp
        | cons b pre =>
          simp only [List.cons_append, List.cons.injEq] at h1
          rw [h1.1, h3 b (by simp)] at ha; cases ha
    · rw [if_neg ha, ih]
      constructor
      · rintro ⟨pre, post, rfl, h2, h3⟩
        refine ⟨a :: pre, post, rfl, h2, ?_⟩
        intro y hy
        rcases List.mem_cons.1 hy with rfl | hy
        · simpa using ha
        · exact h3 y hy
      · rintro ⟨pre, post, h1, h2, h3⟩
        cases pre with
        | nil =>
          simp only [List.nil_append, List.cons.injEq] at h1
          rw [h1.1] at ha; exact absurd h2 ha
        | cons b pre =>
          simp only [List.cons_append, List.cons.injEq] at h1
          exact ⟨pre, post, h1.2, h2, fun y hy => h3 y (by
            simp only [List.cons_append, List.mem_cons]; exact Or.inr hy)⟩

theorem completes_iff {typed opt : Str} : startsWith opt typed = true ↔ Completes typed opt := by
  rw [startsWith_iff]
  unfold Completes
  exact ⟨fun ⟨t, h⟩ => ⟨t, h.symm⟩, fun ⟨t, h⟩ => ⟨t, h.symm⟩⟩

theorem onlyCompletion_iff {opts : List Str} {typed x : Str} :
    opts.filter (fun o => startsWith o typed) = [x] ↔ OnlyCompletion opts typed x := by
  rw [filter_singleton]
  unfold OnlyCompletion
  simp only [completes_iff, ← Bool.not_eq_true]

theorem pyIndex_nonneg {α : Type} (l : List α) {k : Nat} (hk : 1 ≤ k) : pyIndex l ((k : Int) - 1) = l[k - 1]? := by
  unfold pyIndex
  rw [if_pos (by omega)]
  congr 1; omega

theorem pyIndex_mem {α : Type} {l : List α} {i : Int} {x : α} (h : pyIndex l i = some x) : x ∈ l := by
  unfold pyIndex at h
  split at h
  · exact List.mem_of_getElem? h
  · split at h
    · exact List.mem_of_getElem? h
    · cases h

theorem onlyMatch_none {l : List Str} (h : ∀ m, l ≠ [m]) : onlyMatch l = none := by
  match l with
  | [] => rfl
  | [m] => exact absurd rfl (h m)
  | _ :: _ :: _ => rfl

theorem onlyMatch_some {l : List Str} {m : Str} (h : onlyMatch l = some m) : l = [m] := by
  match l, h with
  | [_], h => cases h; rfl

theorem chooseOne_spec {opts : List Str} {dflt typed x : Str} (hw : ¬ WrapsAround opts typed) :
    chooseOne opts dflt typed = some x ↔ Selects opts dflt typed x := by
  unfold chooseOne Selects
  by_cases h1 : typed = dflt ∨ typed ∈ opts
  · rw [if_pos h1]
    simp only [Option.some.injEq, h1, true_and, not_true, false_and, or_false]
    exact eq_comm
  · rw [if_neg h1]
    simp only [h1, false_and, not_false_iff, true_and, false_or]
    by_cases h2 : ∃ y, OnlyCompletion opts typed y
    · obtain ⟨y, hy⟩ := h2
      rw [onlyCompletion_iff.2 hy]
      simp only [onlyMatch, Option.some.injEq]
      constructor
      · rintro rfl; exact Or.inl hy
      · rintro (h | ⟨h, -⟩)
        · have e := onlyCompletion_iff.2 h
          rw [onlyCompletion_iff.2 hy] at e
          exact (List.cons.inj e).1
        · exact absurd ⟨y, hy⟩ h
    · have h3 : ∀ m, opts.filter (fun o => startsWith o typed) ≠ [m] := fun m hm =>
        h2 ⟨m, onlyCompletion_iff.1 hm⟩
      rw [onlyMatch_none h3]
      simp only
      have h5 : ¬ OnlyCompletion opts typed x := fun h => h2 ⟨x, h⟩
      simp only [h5, h2, not_false_iff, true_and, false_or]
      simp only [← pyInt_iff]
      cases hp : pyInt typed with
      | none => simp
      | some z =>
        simp only [Option.some.injEq]
        by_cases hz : 1 ≤ z
        · constructor
          · intro h
            refine ⟨z.toNat, by omega, by omega, ?_⟩
            rw [← pyIndex_nonneg opts (by omega)]
            rw [show ((z.toNat : Int) - 1) = z - 1 by omega]; exact h
          · rintro ⟨k, hk, rfl, hx⟩
            rw [pyIndex_nonneg opts hk]; exact hx
        · have hno : pyIndex opts (z - 1) = none := by
            unfold pyIndex
            rw [if_neg (by omega), if_neg]
            intro hx
            exact hw ⟨z, pyInt_iff.1 hp, by omega, by omega⟩
          rw [hno]
          constructor
          · intro h; cases h
          · rintro ⟨k, hk, rfl, -⟩; omega

/-- **C41 (partial).** As long as no input is a number that is zero or negative, `choose_from_list` returns
what the first usable input selects: the default for an empty line, else a listed option (or the default)
equal to it, else the only option it abbreviates, else the option with that number; all inputs before it
select nothing. Missing: inputs such as `0` (see `C41_zero_fails`). -/
theorem C41_choose_partial (opts : List Str) (dflt : Str) (inp : List Str)
    (hw : ∀ l ∈ inp, l ≠ [] → ¬ WrapsAround opts l) (x : Str) (rest : List Str) :
    chooseFromList false opts dflt inp = some (x, rest) ↔
      ∃ skipped line, inp = skipped ++ line :: rest ∧
        (∀ l ∈ skipped, l ≠ [] ∧ ∀ y, ¬ Selects opts dflt l y) ∧
        ((line = [] ∧ x = dflt) ∨ (line ≠ [] ∧ Selects opts dflt line x)) := by
  show chooseLoop opts dflt inp = _ ↔ _
  have hdflt : chooseOne opts dflt dflt = some dflt := by unfold chooseOne; simp
  induction inp with
  | nil => simp [chooseLoop]
  | cons l r ih =>
    have ih := ih (fun y hy => hw y (by simp [hy]))
    rw [chooseLoop]
    by_cases hl : l = []
    · subst hl
      simp only [if_true, hdflt, Option.some.injEq, Prod.mk.injEq]
      constructor
      · rintro ⟨rfl, rfl⟩; exact ⟨[], [], rfl, by simp, Or.inl ⟨rfl, rfl⟩⟩
      · rintro ⟨sk, line, h1, h2, h3⟩
        cases sk with
        | nil =>
          simp only [List.nil_append, List.cons.injEq] at h1
          obtain ⟨rfl, rfl⟩ := h1
          rcases h3 with ⟨-, rfl⟩ | ⟨h, -⟩
          · exact ⟨rfl, rfl⟩
          · exact absurd rfl h
        | cons b sk =>
          simp only [List.cons_append, List.cons.injEq] at h1
          exact absurd h1.1.symm (h2 b (by simp)).1
    · simp only [hl, if_false]
      have hsel := fun y => chooseOne_spec (opts := opts) (dflt := dflt) (x := y) (hw l (by simp) hl)
      cases hc : chooseOne opts dflt l with
      | some y =>
        have hy := (hsel y).1 hc
        simp only [Option.some.injEq, Prod.mk.injEq]
        constructor
        · rintro ⟨rfl, rfl⟩; exact ⟨[], l, rfl, by simp, Or.inr ⟨hl, hy⟩⟩
        · rintro ⟨sk, line, h1, h2, h3⟩
          cases sk with
          | nil =>
            simp only [List.nil_append, List.cons.injEq] at h1
            obtain ⟨rfl, rfl⟩ := h1
            rcases h3 with ⟨h, -⟩ | ⟨-, h⟩
            · exact absurd h hl
            · have := (hsel x).2 h
              rw [hc] at this
              exact ⟨Option.some.inj this, rfl⟩
          | cons b sk =>
            simp only [List.cons_append, List.cons.injEq] at h1
            exact absurd hy (by rw [h1.1]; exact (h2 b (by simp)).2 y)
      | none =>
        have hno : ∀ y, ¬ Selects opts dflt l y := fun y h => by
          have := (hsel y).2 h; rw [hc] at this; cases this
        simp only
        refine Iff.trans ih ?_
        constructor
        · rintro ⟨sk, line, rfl, h2, h3⟩
          refine ⟨l :: sk, line, rfl, ?_, h3⟩
          intro y hy
          rcases List.mem_cons.1 hy with rfl | hy
          · exact ⟨hl, hno⟩
          · exact h2 y hy
        · rintro ⟨sk, line, h1, h2, h3⟩
          cases sk with
          | nil =>
            simp only [List.nil_append, List.cons.injEq] at h1
            obtain ⟨rfl, rfl⟩ := h1
            rcases h3 with ⟨h, -⟩ | ⟨-, h⟩
            · exact absurd h hl
            · exact absurd h (hno x)
          | cons b sk =>
            simp only [List.cons_append, List.cons.injEq] at h1
            exact ⟨sk, line, h1.2, fun y hy => h2 y (by simp [hy]), h3⟩

theorem chooseOne_mem {opts : List Str} {dflt typed x : Str} (h : chooseOne opts dflt typed = some x) :
    x = dflt ∨ x ∈ opts := by
  unfold chooseOne at h
  split at h
  · rename_i hc
    cases h; exact hc
  · split at h
    · rename_i m hm
      cases h
      right
      have : x ∈ opts.filter (fun o => startsWith o typed) := by rw [onlyMatch_some hm]; simp
      exact List.mem_of_mem_filter this
    · split at h
      · cases h
      · exact Or.inr (pyIndex_mem h)

/-- C41, for all inputs: the result is the default or a listed option; with `force` it is the default. -/
theorem C41_listed (force : Bool) (opts : List Str) (dflt : Str) (inp : List Str) (x : Str) (rest : List Str)
    (h : chooseFromList force opts dflt inp = some (x, rest)) :
    (x = dflt ∨ x ∈ opts) ∧ (force = true → x = dflt ∧ rest = inp) := by
  cases force with
  | true => cases h; exact ⟨Or.inl rfl, fun _ => ⟨rfl, rfl⟩⟩
  | false =>
    refine ⟨?_, by simp⟩
    replace h : chooseLoop opts dflt inp = some (x, rest) := h
    induction inp with
    | nil => cases h
    | cons l r ih =>
      unfold chooseLoop at h
      cases hc : chooseOne opts dflt (if l = [] then dflt else l) with
      | some y => rw [hc] at h; cases h; exact chooseOne_mem hc
      | none => rw [hc] at h; exact ih h

/-- The full statement of C41 fails: the input `0` selects the last option. -/
theorem C41_zero_fails :
    chooseFromList false ["alpha".toList, "beta".toList] "alpha".toList ["0".toList] = some ("beta".toList, []) ∧
    ¬ Selects ["alpha".toList, "beta".toList] "alpha".toList "0".toList "beta".toList := by
  refine ⟨rfl, ?_⟩
  rintro (⟨h, -⟩ | ⟨-, h | ⟨-, k, hk, h, -⟩⟩)
  · revert h; decide
  · have := onlyCompletion_iff.2 h
    revert this; decide
  · have h0 : pyInt "0".toList = some 0 := rfl
    rw [← pyInt_iff, h0] at h
    simp only [Option.some.injEq] at h
    omega

/-- non-vacuity: a prefix that is not unique is asked again, then `2` selects the second option -/
example : chooseFromList false ["alpha".toList, "alto".toList] "none".toList ["al".toList, "2".toList] =
      some ("alto".toList, []) ∧
    chooseFromList false ["alpha".toList, "alto".toList] "none".toList ["alp".toList] = some ("alpha".toList, []) ∧
    chooseFromList false ["alpha".toList, "alto".toList] "none".toList ["".toList] = some ("none".toList, []) :=
  ⟨rfl, rfl, rfl⟩
example : ¬ WrapsAround ["alpha".toList, "alto".toList] "2".toList := by
  rintro ⟨z, hz, h1, -⟩
  rw [← pyInt_iff, show pyInt "2".toList = some 2 from rfl] at hz
  simp only [Option.some.injEq] at hz
  omega

/-! ### C39: check_disk_space -/

/-- C39, a fresh check (the directory has not been checked, or only for less, or a check is forced): the
result is True exactly if there is enough space or the user agrees; the user is asked exactly if there is not
enough space; with `die`, a refusal ends the program. -/
theorem C39_fresh (forceUi : Bool) (cache : DiskCache) (c : SpaceCall) (inp : List Str)
    (hfresh : c.forceCheck = true ∨ ∀ q a, dget? cache c.dir = some (q, a) → q < c.required) :
    let r := checkDiskSpace forceUi cache c inp
    (c.required ≤ c.available → r = some (.ok true, dset cache c.dir (c.required, c.available), inp)) ∧
    (¬ c.required ≤ c.available → ∀ b rest, confirm forceUi inp = some (b, rest) →
      r = some (if c.die = true ∧ b = false then .error .systemExit else .ok b,
        dset cache c.dir (c.required, c.available), rest)) := by
  have hm : cachedAnswer cache c = none := by
    unfold cachedAnswer
    cases hd : dget? cache c.dir with
    | none => rfl
    | some q =>
      obtain ⟨q, a⟩ := q
      simp only
      have hno : ¬ (c.forceCheck = false ∧ c.required ≤ q) := by
        rintro ⟨h1, h2⟩
        rcases hfresh with h | h
        · rw [h1] at h; cases h
        · have := h q a hd; omega
      rw [if_neg hno]
  unfold checkDiskSpace
  simp only [hm]
  constructor
  · intro h; rw [if_pos h]
  · intro h b rest hc
    rw [if_neg h]
    unfold confirmOrDie
    rw [hc]
    cases b <;> cases c.die <;> rfl

/-- What the cache knows: the last size checked for a directory and the space available at that time. -/
theorem checkDiskSpace_cases (forceUi : Bool) (cache : DiskCache) (c : SpaceCall) (inp : List Str) :
    (∃ q a, dget? cache c.dir = some (q, a) ∧ c.forceCheck = false ∧ c.required ≤ q ∧
      checkDiskSpace forceUi cache c inp = some (.ok (decide (c.required ≤ a)), cache, inp)) ∨
    (c.forceCheck = true ∨ ∀ q a, dget? cache c.dir = some (q, a) → q < c.required) := by
  cases hd : dget? cache c.dir with
  | none => right; right; intro q a h; cases h
  | some qa =>
    obtain ⟨q, a⟩ := qa
    by_cases h : c.forceCheck = false ∧ c.required ≤ q
    · left
      refine ⟨q, a, rfl, h.1, h.2, ?_⟩
      unfold checkDiskSpace cachedAnswer
      rw [hd]
      simp only [h.1, h.2, and_self, if_true]
    · right
      by_cases hf : c.forceCheck = true
      · exact Or.inl hf
      · right
        intro q' a' he
        cases he
        simp only [Bool.not_eq_true] at hf
        by_contra hx
        exact h ⟨hf, by omega⟩

/-- the state of the cache after a call -/
theorem history_step (forceUi : Bool) (c : SpaceCall) (inp : List Str) (r : List (SpaceCall × List Str)) :
    (∀ d, d ≠ c.dir → dget? (spaceHistory forceUi ((c, inp) :: r)) d = dget? (spaceHistory forceUi r) d) ∧
    ((∃ q a, dget? (spaceHistory forceUi r) c.dir = some (q, a) ∧ c.forceCheck = false ∧ c.required ≤ q) →
      spaceHistory forceUi ((c, inp) :: r) = spaceHistory forceUi r) ∧
    ((c.forceCheck = true ∨ ∀ q a, dget? (spaceHistory forceUi r) c.dir = some (q, a) → q < c.required) →
      spaceHistory forceUi ((c, inp) :: r) = dset (spaceHistory forceUi r) c.dir (c.required, c.available)) := by
  have hskip : (∃ q a, dget? (spaceHistory forceUi r) c.dir = some (q, a) ∧ c.forceCheck = false ∧ c.required ≤ q) →
      spaceHistory forceUi ((c, inp) :: r) = spaceHistory forceUi r := by
    rintro ⟨q, a, h1, h2, h3⟩
    rcases checkDiskSpace_cases forceUi (spaceHistory forceUi r) c inp with ⟨q', a', -, -, -, h⟩ | h
    · rw [spaceHistory, h]
    · rcases h with h | h
      · rw [h2] at h; cases h
      · have := h q a h1; omega
  have hlook : (c.forceCheck = true ∨ ∀ q a, dget? (spaceHistory forceUi r) c.dir = some (q, a) → q < c.required) →
      spaceHistory forceUi ((c, inp) :: r) = dset (spaceHistory forceUi r) c.dir (c.required, c.available) := by
    intro h
    obtain ⟨h1, h2⟩ := C39_fresh forceUi (spaceHistory forceUi r) c inp h
    rw [spaceHistory]
    by_cases hle : c.required ≤ c.available
    · rw [h1 hle]
    · cases hc : confirm forceUi inp with
      | some br =>
        obtain ⟨b, rest⟩ := br
        rw [h2 hle b rest hc]
      | none =>
        cases hr : checkDiskSpace forceUi (spaceHistory forceUi r) c inp with
        | none => rfl
        | some q =>
          exfalso
          unfold checkDiskSpace at hr
          have hm : cachedAnswer (spaceHistory forceUi r) c = none := by
            unfold cachedAnswer
            cases hd : dget? (spaceHistory forceUi r) c.dir with
            | none => rfl
            | some qa =>
              obtain ⟨q, a⟩ := qa
              simp only
              have hno : ¬ (c.forceCheck = false ∧ c.required ≤ q) := by
                rintro ⟨k1, k2⟩
                rcases h with h | h
                · rw [k1] at h; cases h
                · have := h q a hd; omega
              rw [if_neg hno]
          rw [hm] at hr
          simp only [if_neg hle, confirmOrDie, hc] at hr
          cases hdie : c.die <;> simp [hdie] at hr
  refine ⟨?_, hskip, hlook⟩
  intro d hd
  rcases checkDiskSpace_cases forceUi (spaceHistory forceUi r) c inp with ⟨q, a, h1, h2, h3, -⟩ | h
  · rw [hskip ⟨q, a, h1, h2, h3⟩]
  · rw [hlook h, dget?_dset, if_neg (Ne.symm hd)]

/-- C39, repeated checks: once a directory has been looked at for a requirement, any further unforced check
of the directory for at most that requirement is answered from what was seen, without asking again, however
many other checks come in between. -/
theorem C39_repeated (forceUi : Bool) (before mid : List (SpaceCall × List Str)) (c c' : SpaceCall)
    (inp inp' : List Str)
    (hlook : c.forceCheck = true ∨ ∀ q a, dget? (spaceHistory forceUi before) c.dir = some (q, a) → q < c.required)
    (hmid : ∀ x ∈ mid, x.1.dir ≠ c.dir ∨ (x.1.forceCheck = false ∧ x.1.required ≤ c.required))
    (hc : c'.dir = c.dir ∧ c'.forceCheck = false ∧ c'.required ≤ c.required) :
    let st := spaceHistory forceUi (mid ++ (c, inp) :: before)
    checkDiskSpace forceUi st c' inp' = some (.ok (decide (c'.required ≤ c.available)), st, inp') := by
  have key : dget? (spaceHistory forceUi (mid ++ (c, inp) :: before)) c.dir = some (c.required, c.available) := by
    induction mid with
    | nil =>
      rw [List.nil_append, (history_step forceUi c inp before).2.2 hlook, dget?_dset, if_pos rfl]
    | cons x r ih =>
      have ih := ih (fun y hy => hmid y (by simp [hy]))
      obtain ⟨d, i⟩ := x
      obtain ⟨s1, s2, -⟩ := history_step forceUi d i (r ++ (c, inp) :: before)
      rcases hmid (d, i) (by simp) with h | ⟨h1, h2⟩
      · rw [List.cons_append, s1 c.dir (Ne.symm h)]; exact ih
      · by_cases hd : d.dir = c.dir
        · rw [List.cons_append, s2 ⟨c.required, c.available, by rw [hd]; exact ih, h1, h2⟩]; exact ih
        · rw [List.cons_append, s1 c.dir (Ne.symm hd)]; exact ih
  simp only
  unfold checkDiskSpace cachedAnswer
  rw [hc.1, key]
  simp only [hc.2.1, hc.2.2, and_self, if_true]

/-- **C39 (partial).** A repeated check agrees with the user's decision, except when the user agreed to go on
although space was insufficient: if the first check returned True because there was enough space, or the user
declined, then so does every repetition. Missing: the case that the user agreed (`C39_agreed_fails`). -/
theorem C39_agrees_partial (forceUi : Bool) (before mid : List (SpaceCall × List Str)) (c : SpaceCall)
    (inp inp' rest : List Str) (b : Bool) (cache : DiskCache)
    (hlook : c.forceCheck = true ∨ ∀ q a, dget? (spaceHistory forceUi before) c.dir = some (q, a) → q < c.required)
    (hmid : ∀ x ∈ mid, x.1.dir ≠ c.dir ∨ (x.1.forceCheck = false ∧ x.1.required ≤ c.required))
    (hfirst : checkDiskSpace forceUi (spaceHistory forceUi before) c inp = some (.ok b, cache, rest))
    (hnot : ¬ (b = true ∧ c.available < c.required)) :
    let st := spaceHistory forceUi (mid ++ (c, inp) :: before)
    checkDiskSpace forceUi st { c with forceCheck := false } inp' = some (.ok b, st, inp') := by
  have hr := C39_repeated forceUi before mid c { c with forceCheck := false } inp inp' hlook hmid
    ⟨rfl, rfl, Nat.le_refl _⟩
  simp only at hr ⊢
  rw [hr]
  obtain ⟨h1, h2⟩ := C39_fresh forceUi (spaceHistory forceUi before) c inp hlook
  by_cases hle : c.required ≤ c.available
  · rw [h1 hle] at hfirst
    simp only [Option.some.injEq, Prod.mk.injEq, Except.ok.injEq] at hfirst
    rw [← hfirst.1]; simp [hle]
  · cases b with
    | true => exact absurd ⟨rfl, by omega⟩ hnot
    | false => simp [hle]

/-- The full statement of C39 fails: the user agreed to continue, and the same check then returns False
without asking. -/
theorem C39_agreed_fails :
    let c : SpaceCall := ⟨"/tmp".toList, 100, false, false, 50⟩
    checkDiskSpace false [] c ["y".toList] = some (.ok true, [("/tmp".toList, (100, 50))], []) ∧
    checkDiskSpace false [("/tmp".toList, (100, 50))] c ["y".toList] =
      some (.ok false, [("/tmp".toList, (100, 50))], ["y".toList]) := ⟨rfl, rfl⟩

/-- non-vacuity: a check that finds enough space, one of another directory, and a repetition -/
example :
    let c : SpaceCall := ⟨"/tmp".toList, 40, false, false, 50⟩
    let d : SpaceCall := ⟨"/var".toList, 40, false, true, 10⟩
    spaceHistory false [(d, ["n".toList]), (c, [])] = [("/tmp".toList, (40, 50)), ("/var".toList, (40, 10))] ∧
    checkDiskSpace false [("/tmp".toList, (40, 50))] d ["n".toList] =
      some (.error .systemExit, [("/tmp".toList, (40, 50)), ("/var".toList, (40, 10))], []) ∧
    checkDiskSpace false (spaceHistory false [(d, ["n".toList]), (c, [])]) { c with available := 0 } [] =
      some (.ok true, [("/tmp".toList, (40, 50)), ("/var".toList, (40, 10))], []) := ⟨rfl, rfl, rfl⟩

end Cot
