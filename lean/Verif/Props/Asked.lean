import Verif.Model.Ui
import Verif.Spec.Item
import Verif.Lemmas.Dict
import Verif.Props.Item
/-
C58 and C06, continued: asking for a text, and listing all values of a property.
-/
namespace Cot

/-- C58, `get_input`: what is used is the line that the user enters, or the default if it is empty; with `force` it is the
default, and nothing is asked. -/
theorem C58_get_input (force : Bool) (dflt : Str) (inp : List Str) (x : Str) (rest : List Str) :
    getInput force dflt inp = some (x, rest) ↔
      (force = true ∧ x = dflt ∧ rest = inp) ∨
      (force = false ∧ ∃ line, inp = line :: rest ∧ ((line = [] ∧ x = dflt) ∨ (line ≠ [] ∧ x = line))) := by
  unfold getInput
  cases force with
  | true =>
    simp only [if_true, Option.some.injEq, Prod.mk.injEq, true_and, Bool.true_eq_false, false_and, or_false]
    exact ⟨fun h => ⟨h.1.symm, h.2.symm⟩, fun h => ⟨h.1.symm, h.2.symm⟩⟩
  | false =>
    simp only [Bool.false_eq_true, if_false, false_and, false_or, true_and]
    cases inp with
    | nil => simp
    | cons l r =>
      dsimp only
      by_cases hl : l = []
      · rw [if_pos hl]
        simp only [Option.some.injEq, Prod.mk.injEq, List.cons.injEq]
        constructor
        · rintro ⟨rfl, rfl⟩; exact ⟨l, ⟨rfl, rfl⟩, Or.inl ⟨hl, rfl⟩⟩
        · rintro ⟨line, ⟨rfl, rfl⟩, ⟨-, rfl⟩ | ⟨h, -⟩⟩
          · exact ⟨rfl, rfl⟩
          · exact absurd hl h
      · rw [if_neg hl]
        simp only [Option.some.injEq, Prod.mk.injEq, List.cons.injEq]
        constructor
        · rintro ⟨rfl, rfl⟩; exact ⟨l, ⟨rfl, rfl⟩, Or.inr ⟨hl, rfl⟩⟩
        · rintro ⟨line, ⟨rfl, rfl⟩, ⟨h, -⟩ | ⟨-, rfl⟩⟩
          · exact absurd h hl
          · exact ⟨rfl, rfl⟩

example : getInput false "d".toList ["x".toList, "y".toList] = some ("x".toList, ["y".toList]) ∧
    getInput false "d".toList [[], "y".toList] = some ("d".toList, ["y".toList]) ∧
    getInput true "d".toList ["x".toList] = some ("d".toList, ["x".toList]) := ⟨rfl, rfl, rfl⟩

/-- the loop of `choose_from_list` reads its answers in this way -/
theorem chooseLoop_asks (opts : List Str) (dflt : Str) (inp : List Str) :
    chooseLoop opts dflt inp = match getInput false dflt inp with
      | none => none
      | some (x, r) => match chooseOne opts dflt x with
        | some y => some (y, r)
        | none => chooseLoop opts dflt r := by
  cases inp with
  | nil => rfl
  | cons l r =>
    rw [chooseLoop]
    unfold getInput
    simp only [Bool.false_eq_true, if_false]
    by_cases hl : l = []
    · rw [if_pos hl, if_pos hl]; rfl
    · rw [if_neg hl, if_neg hl]; rfl

/-- C06, all values: the values listed for an ordinary property are, without repetition, those that some profile has. -/
theorem C06_all_values {env : Env} {it : Item} (wf : ItemWF env it) (n : Str) :
    (it.getAllValues n).Nodup ∧ ∀ v, v ∈ it.getAllValues n ↔ ∃ p, Explicit (it.tab n) p v := by
  have ht : TabWF (it.tab n) := by
    unfold Item.tab
    cases h : dget? it.props n with
    | none => exact ⟨List.nodup_nil, by simp, by simp, (by rintro p v w ⟨S, hS, -⟩; cases hS), by simp⟩
    | some t => exact wf.tabs n t (dget?_mem h)
  unfold Item.getAllValues
  refine ⟨ht.keys, fun v => ?_⟩
  constructor
  · intro h
    obtain ⟨⟨w, S⟩, hm, rfl⟩ := List.mem_map.1 h
    obtain ⟨p, hp⟩ := Finset.nonempty_iff_ne_empty.2 (ht.nonempty w S hm)
    exact ⟨p, S, hm, hp⟩
  · rintro ⟨p, S, hm, -⟩
    exact List.mem_map.2 ⟨(v, S), hm, rfl⟩

example : ItemWF exEnv exItem ∧ exItem.getAllValues "VirtualQuantity".toList = [.str "1".toList, .str "4".toList] := ⟨exItem_wf, rfl⟩

end Cot
