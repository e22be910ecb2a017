import Verif.Lemmas.TextWrap
import Verif.Lemmas.Digits
import Verif.Lemmas.DataValidation
import Verif.Lemmas.XmlLens
import Verif.Lemmas.ItemOps
import Verif.Spec.Info
/-
The words of formatted lines, for `cot info`.
-/
namespace Cot

theorem isWs_space : isWs ' ' = true := by decide

theorem blank_spaces (n : Nat) : ∀ c ∈ List.replicate n ' ', isWs c = true := by
  intro c hc
  rw [(List.mem_replicate.1 hc).2]
  decide

theorem splitWs_padR (n : Nat) (s : Str) : splitWs (padR n s) = splitWs s := splitWs_append_blank (blank_spaces _) s

theorem splitWs_padL (n : Nat) (s : Str) : splitWs (padL n s) = splitWs s := splitWs_blank_append (blank_spaces _) s

theorem splitWs_space (a b : Str) : splitWs (a ++ ' ' :: b) = splitWs a ++ splitWs b := splitWs_sep isWs_space a b

theorem splitWs_two (a : Str) : splitWs ("  ".toList ++ a) = splitWs a :=
  splitWs_blank_append (by intro c hc; revert c; decide) a

/-- a text without white space is one word -/
theorem splitWs_word {s : Str} (hne : s ≠ []) (h : ∀ c ∈ s, isWs c = false) : splitWs s = [s] := by
  have key : ∀ (s cur : Str), (∀ c ∈ s, isWs c = false) → cur ++ s ≠ [] → splitWsAux s cur = [cur ++ s] := by
    intro s
    induction s with
    | nil => intro cur _ hc; simp only [List.append_nil] at hc ⊢; simp [splitWsAux, hc]
    | cons c r ih =>
      intro cur hs _
      simp only [splitWsAux, hs c (by simp), Bool.false_eq_true, if_false]
      rw [ih (cur ++ [c]) (fun x hx => hs x (by simp [hx])) (by simp), List.append_assoc]
      rfl
  exact key s [] h hne

theorem splitWs_natStr (n : Nat) : splitWs (natStr n) = [natStr n] :=
  splitWs_word (natStr_ne_nil n) (fun c hc => isDig_not_ws (isDig_natStr n c hc))

theorem prettyInt_spec {w : InfoWorld} {z : Int} {t : Str} (h : prettyInt w z = .ok t) : SizeText z t := by
  intro n hn
  subst hn
  exact h

theorem splitWs_profileLine (nw : Nat) (a b c d e f : Str) :
    splitWs (profileLine nw a b c d e f) = splitWs a ++ splitWs b ++ splitWs c ++ splitWs d ++ splitWs e ++ splitWs f := by
  unfold profileLine
  simp only [List.append_assoc, List.cons_append, splitWs_space, splitWs_padR, splitWs_padL]

theorem splitWs_diskLine (nw : Nat) (a b c d : Str) :
    splitWs (diskLine nw a b c d) = splitWs a ++ splitWs b ++ splitWs c ++ splitWs (d.take 20) := by
  unfold diskLine
  simp only [List.append_assoc, List.cons_append, splitWs_space, splitWs_padR, splitWs_padL]

theorem splitWs_fileLine (nw : Nat) (a b : Str) : splitWs (fileLine nw a b) = splitWs a ++ splitWs b := by
  unfold fileLine
  simp only [splitWs_space, splitWs_padR, splitWs_padL]

/-- the lines of a text have its words -/
theorem splitWs_splitLines (t : Str) : (splitLines t).flatMap splitWs = splitWs t := by
  have hw : ∀ c, isLineEnd c = true → isWs c = true := by
    intro c hc
    simp only [isLineEnd, Bool.or_eq_true, beq_iff_eq] at hc
    rcases hc with (((((rfl | rfl) | rfl) | rfl) | rfl) | rfl) | rfl <;> decide
  have key : ∀ (n : Nat) (t cur : Str), t.length ≤ n → (splitLinesAux t cur).flatMap splitWs = splitWs (cur ++ t) := by
    intro n
    induction n with
    | zero =>
      intro t cur hn
      rw [List.length_eq_zero_iff.1 (Nat.le_zero.1 hn)]
      unfold splitLinesAux
      split
      · rename_i h; subst h; simp [splitWs_nil]
      · simp
    | succ n ih =>
      intro t cur hn
      unfold splitLinesAux
      split
      · split
        · rename_i h; subst h; simp [splitWs_nil]
        · simp
      · rename_i t
        rw [List.flatMap_cons, ih t [] (by simp at hn; omega), splitWs_sep (by decide), splitWs_cons_ws (by decide)]
        rfl
      · rename_i c t _
        have hl : t.length ≤ n := by simp at hn; omega
        split
        · rename_i h
          rw [List.flatMap_cons, ih t [] hl, splitWs_sep (hw c h)]
          rfl
        · rw [ih t (cur ++ [c]) hl, List.append_assoc]
          rfl
  exact key t.length t [] (Nat.le_refl _)

theorem disksTotal_spec {v : Ver} {p : Pkg} {total : Int} (h : disksTotal v p.diskList = .ok total) :
    TotalCapacity v p total := by
  unfold TotalCapacity diskEntries
  generalize p.diskList = l at h ⊢
  induction l generalizing total with
  | nil => cases h; exact ⟨[], .nil, rfl⟩
  | cons d r ih =>
    unfold disksTotal at h
    split at h
    · rename_i ht
      obtain ⟨a, ha, h⟩ := bind_ok_inv h
      obtain ⟨b, hb, h⟩ := bind_ok_inv h
      cases h
      obtain ⟨caps, hc, hs⟩ := ih hb
      refine ⟨a :: caps, ?_, by simp [hs]⟩
      rw [List.filter_cons_of_pos (by simpa using ht)]
      exact .cons ha hc
    · rename_i ht
      rw [List.filter_cons_of_neg (by simpa using ht)]
      exact ih h

theorem disksTotal_total {v : Ver} {p : Pkg} (h : ∀ d ∈ diskEntries v p, ∃ z, capacityOf v d = .ok z) :
    ∃ t, disksTotal v p.diskList = .ok t := by
  unfold diskEntries at h
  generalize p.diskList = l at h ⊢
  induction l with
  | nil => exact ⟨0, rfl⟩
  | cons d r ih =>
    obtain ⟨b, hb⟩ := ih (fun x hx => h x (by
      rw [List.mem_filter] at hx ⊢
      exact ⟨List.mem_cons_of_mem _ hx.1, hx.2⟩))
    unfold disksTotal
    split
    · rename_i ht
      obtain ⟨a, ha⟩ := h d (by rw [List.mem_filter]; exact ⟨by simp, by simpa using ht⟩)
      exact ⟨a + b, by rw [ha, hb]; rfl⟩
    · exact ⟨b, hb⟩

end Cot
