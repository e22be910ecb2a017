import Verif.Model.NatSort
import Verif.Lemmas.Digits
import Mathlib.Data.List.Perm.Basic
import Mathlib.Tactic.Tauto
namespace Cot

/-! ### strings are totally ordered by code points -/

theorem strLe_refl (s : Str) : strLe s s = true := by
  induction s with
  | nil => rfl
  | cons c s ih => simp [strLe, ih]

theorem char_eq_of_toNat {a b : Char} (h : a.toNat = b.toNat) : a = b := by
  rw [← Char.ofNat_toNat a, h, Char.ofNat_toNat]

theorem strLe_total (s t : Str) : strLe s t = true ∨ strLe t s = true := by
  induction s generalizing t with
  | nil => simp [strLe]
  | cons a s ih =>
    cases t with
    | nil => simp [strLe]
    | cons b t =>
      unfold strLe
      by_cases h : a = b
      · subst h; simpa using ih t
      · have h' : ¬ b = a := fun h2 => h h2.symm
        simp only [if_neg h, if_neg h', decide_eq_true_eq]
        have : a.toNat ≠ b.toNat := fun h2 => h (char_eq_of_toNat h2)
        omega

theorem strLe_antisymm {s t : Str} (h : strLe s t = true) (h' : strLe t s = true) : s = t := by
  induction s generalizing t with
  | nil => cases t with
    | nil => rfl
    | cons b t => simp [strLe] at h'
  | cons a s ih =>
    cases t with
    | nil => simp [strLe] at h
    | cons b t =>
      unfold strLe at h h'
      by_cases e : a = b
      · subst e; simp at h h'; rw [ih h h']
      · have e' : ¬ b = a := fun h2 => e h2.symm
        simp only [if_neg e, if_neg e', decide_eq_true_eq] at h h'
        omega

theorem strLe_trans {s t u : Str} (h : strLe s t = true) (h' : strLe t u = true) :
    strLe s u = true := by
  induction s generalizing t u with
  | nil => simp [strLe]
  | cons a s ih =>
    cases t with
    | nil => simp [strLe] at h
    | cons b t =>
      cases u with
      | nil => simp [strLe] at h'
      | cons c u =>
        unfold strLe at h h' ⊢
        by_cases e : a = b
        · subst e
          simp only [if_true] at h
          by_cases e2 : a = c
          · subst e2; simp only [if_true] at h' ⊢; exact ih h h'
          · simp only [if_neg e2] at h' ⊢; exact h'
        · simp only [if_neg e, decide_eq_true_eq] at h
          by_cases e2 : b = c
          · subst e2; simp only [if_neg e, decide_eq_true_eq]; exact h
          · simp only [if_neg e2, decide_eq_true_eq] at h'
            have hne : a ≠ c := by rintro rfl; omega
            simp only [if_neg hne, decide_eq_true_eq]; omega

/-! ### and so are the sort keys -/

theorem tailLe_refl (r : List (Nat × Str)) : tailLe r r = true := by
  induction r with
  | nil => rfl
  | cons e r ih => obtain ⟨n, s⟩ := e; simp [tailLe, ih]

theorem tailLe_total (r r' : List (Nat × Str)) : tailLe r r' = true ∨ tailLe r' r = true := by
  induction r generalizing r' with
  | nil => simp [tailLe]
  | cons e r ih =>
    obtain ⟨m, s⟩ := e
    cases r' with
    | nil => simp [tailLe]
    | cons e' r' =>
      obtain ⟨n, t⟩ := e'
      unfold tailLe
      by_cases h : m = n
      · subst h
        by_cases h2 : s = t
        · subst h2; simpa using ih r'
        · have h2' : ¬ t = s := fun h => h2 h.symm
          simp only [if_true, if_neg h2, if_neg h2']; exact strLe_total s t
      · have h' : ¬ n = m := fun h2 => h h2.symm
        simp only [if_neg h, if_neg h', decide_eq_true_eq]; omega

theorem tailLe_antisymm {r r' : List (Nat × Str)} (h : tailLe r r' = true) (h' : tailLe r' r = true) :
    r = r' := by
  induction r generalizing r' with
  | nil => cases r' with
    | nil => rfl
    | cons b t => simp [tailLe] at h'
  | cons e r ih =>
    obtain ⟨m, s⟩ := e
    cases r' with
    | nil => simp [tailLe] at h
    | cons e' r' =>
      obtain ⟨n, t⟩ := e'
      unfold tailLe at h h'
      by_cases e : m = n
      · subst e
        by_cases e2 : s = t
        · subst e2; simp only [if_true] at h h'; rw [ih h h']
        · have e2' : ¬ t = s := fun h => e2 h.symm
          simp only [if_true, if_neg e2, if_neg e2'] at h h'
          exact absurd (strLe_antisymm h h') e2
      · have e' : ¬ n = m := fun h2 => e h2.symm
        simp only [if_neg e, if_neg e', decide_eq_true_eq] at h h'; omega

theorem tailLe_trans {r r' r'' : List (Nat × Str)} (h : tailLe r r' = true)
    (h' : tailLe r' r'' = true) : tailLe r r'' = true := by
  induction r generalizing r' r'' with
  | nil => simp [tailLe]
  | cons e r ih =>
    obtain ⟨m, s⟩ := e
    cases r' with
    | nil => simp [tailLe] at h
    | cons e' r' =>
      obtain ⟨n, t⟩ := e'
      cases r'' with
      | nil => simp [tailLe] at h'
      | cons e'' r'' =>
        obtain ⟨k, u⟩ := e''
        unfold tailLe at h h' ⊢
        by_cases e1 : m = n
        · subst e1
          simp only [if_true] at h
          by_cases e2 : m = k
          · subst e2
            simp only [if_true] at h' ⊢
            by_cases e3 : s = t
            · subst e3
              simp only [if_true] at h
              by_cases e4 : s = u
              · subst e4; simp only [if_true] at h' ⊢; exact ih h h'
              · simp only [if_neg e4] at h' ⊢; exact h'
            · simp only [if_neg e3] at h
              by_cases e4 : t = u
              · subst e4; simp only [if_neg e3]; exact h
              · simp only [if_neg e4] at h'
                have : s ≠ u := by rintro rfl; exact e3 (strLe_antisymm h h')
                simp only [if_neg this]; exact strLe_trans h h'
          · simp only [if_neg e2] at h' ⊢; exact h'
        · simp only [if_neg e1, decide_eq_true_eq] at h
          by_cases e2 : n = k
          · subst e2; simp only [if_neg e1, decide_eq_true_eq]; exact h
          · simp only [if_neg e2, decide_eq_true_eq] at h'
            have : m ≠ k := by omega
            simp only [if_neg this, decide_eq_true_eq]; omega

theorem natKeyLe_refl (a : Str × List (Nat × Str)) : natKeyLe a a = true := by
  simp [natKeyLe, tailLe_refl]

theorem natKeyLe_total (a b : Str × List (Nat × Str)) : natKeyLe a b = true ∨ natKeyLe b a = true := by
  unfold natKeyLe
  by_cases h : a.1 = b.1
  · simp only [h, if_true]; exact tailLe_total _ _
  · have h' : ¬ b.1 = a.1 := fun h2 => h h2.symm
    simp only [if_neg h, if_neg h']; exact strLe_total _ _

theorem natKeyLe_antisymm {a b : Str × List (Nat × Str)} (h : natKeyLe a b = true)
    (h' : natKeyLe b a = true) : a = b := by
  unfold natKeyLe at h h'
  by_cases e : a.1 = b.1
  · simp only [e, if_true] at h h'
    exact Prod.ext e (tailLe_antisymm h h')
  · have e' : ¬ b.1 = a.1 := fun h2 => e h2.symm
    simp only [if_neg e, if_neg e'] at h h'
    exact absurd (strLe_antisymm h h') e

theorem natKeyLe_trans {a b c : Str × List (Nat × Str)} (h : natKeyLe a b = true)
    (h' : natKeyLe b c = true) : natKeyLe a c = true := by
  unfold natKeyLe at h h' ⊢
  by_cases e : a.1 = b.1
  · simp only [e, if_true] at h ⊢
    by_cases e2 : b.1 = c.1
    · simp only [e2, if_true] at h' ⊢; exact tailLe_trans h h'
    · simp only [if_neg e2] at h' ⊢; exact h'
  · simp only [if_neg e] at h
    by_cases e2 : b.1 = c.1
    · rw [← e2]; simp only [if_neg e]; exact h
    · simp only [if_neg e2] at h'
      have : ¬ a.1 = c.1 := by
        intro h3; rw [← h3] at h'; exact e (strLe_antisymm h h')
      simp only [if_neg this]; exact strLe_trans h h'

/-! ### natural_sort -/

/-- `x` may come before `y` in natural order -/
def NatLe (x y : Str) : Prop := natKeyLe (alphanumSplit x) (alphanumSplit y) = true

theorem natInsert_perm (x : Str) (l : List Str) : (natInsert x l).Perm (x :: l) := by
  induction l with
  | nil => exact List.Perm.refl _
  | cons y t ih =>
    unfold natInsert; split
    · exact List.Perm.refl _
    · exact (ih.cons y).trans (List.Perm.swap x y t)

theorem naturalSort_perm (l : List Str) : (naturalSort l).Perm l := by
  induction l with
  | nil => exact List.Perm.refl _
  | cons x t ih => exact (natInsert_perm x _).trans (ih.cons x)

theorem natInsert_sorted (x : Str) {l : List Str} (h : l.Pairwise NatLe) :
    (natInsert x l).Pairwise NatLe := by
  induction l with
  | nil => simp [natInsert]
  | cons y t ih =>
    unfold natInsert
    rw [List.pairwise_cons] at h
    split
    · rename_i hxy
      rw [List.pairwise_cons]
      refine ⟨?_, List.pairwise_cons.2 h⟩
      intro z hz
      rcases List.mem_cons.1 hz with rfl | hz
      · exact hxy
      · exact natKeyLe_trans hxy (h.1 z hz)
    · rename_i hxy
      rw [List.pairwise_cons]
      refine ⟨?_, ih h.2⟩
      intro z hz
      rcases List.mem_cons.1 ((natInsert_perm x t).mem_iff.1 hz) with rfl | hz
      · rcases natKeyLe_total (alphanumSplit z) (alphanumSplit y) with h1 | h1
        · exact absurd h1 hxy
        · exact h1
      · exact h.1 z hz

theorem naturalSort_sorted (l : List Str) : (naturalSort l).Pairwise NatLe := by
  induction l with
  | nil => simp [naturalSort]
  | cons x t ih => exact natInsert_sorted x ih

theorem natInsert_filter (x : Str) (l : List Str) (k : Str × List (Nat × Str)) :
    (natInsert x l).filter (fun s => alphanumSplit s = k) =
      (x :: l).filter (fun s => alphanumSplit s = k) := by
  induction l with
  | nil => rfl
  | cons y t ih =>
    unfold natInsert; split
    · rfl
    · rename_i hxy
      rw [List.filter_cons, ih]
      by_cases hx : alphanumSplit x = k
      · have hy : ¬ alphanumSplit y = k := by
          intro hy; rw [hx, hy] at hxy; exact hxy (natKeyLe_refl k)
        simp [hx, hy]
      · simp [List.filter_cons, hx]

theorem naturalSort_stable (l : List Str) (k : Str × List (Nat × Str)) :
    (naturalSort l).filter (fun s => alphanumSplit s = k) = l.filter (fun s => alphanumSplit s = k) := by
  induction l with
  | nil => rfl
  | cons x t ih =>
    show (natInsert x (naturalSort t)).filter _ = _
    rw [natInsert_filter, List.filter_cons, List.filter_cons, ih]

/-- Two sorted lists with the same elements of every key, in the same order, are equal: hence any
stable sort gives the same result as `naturalSort`. -/
theorem stable_sort_unique : ∀ {l l' : List Str}, l.Pairwise NatLe → l'.Pairwise NatLe →
    (∀ k, l.filter (fun s => alphanumSplit s = k) = l'.filter (fun s => alphanumSplit s = k)) →
    l = l'
  | [], [], _, _, _ => rfl
  | [], y :: t, _, _, h => by
    have := h (alphanumSplit y); simp at this
  | x :: t, [], _, _, h => by
    have := h (alphanumSplit x); simp at this
  | x :: t, y :: t', h1, h2, h => by
    rw [List.pairwise_cons] at h1 h2
    have hxy : NatLe x y := by
      have hk := h (alphanumSplit y)
      have hmem : y ∈ (x :: t).filter (fun s => alphanumSplit s = alphanumSplit y) := by
        rw [hk]; simp
      rcases List.mem_cons.1 (List.mem_filter.1 hmem).1 with rfl | hm
      · exact natKeyLe_refl _
      · exact h1.1 y hm
    have hyx : NatLe y x := by
      have hk := h (alphanumSplit x)
      have hmem : x ∈ (y :: t').filter (fun s => alphanumSplit s = alphanumSplit x) := by
        rw [← hk]; simp
      rcases List.mem_cons.1 (List.mem_filter.1 hmem).1 with rfl | hm
      · exact natKeyLe_refl _
      · exact h2.1 x hm
    have hkey := natKeyLe_antisymm hxy hyx
    have hhead : x = y := by
      have hk := h (alphanumSplit y)
      simp [hkey] at hk
      exact hk.1
    subst hhead
    congr 1
    refine stable_sort_unique h1.2 h2.2 ?_
    intro k
    have hk := h k
    rw [List.filter_cons, List.filter_cons] at hk
    split at hk
    · exact (List.cons.inj hk).2
    · exact hk

theorem naturalSort_idem (l : List Str) : naturalSort (naturalSort l) = naturalSort l :=
  stable_sort_unique (naturalSort_sorted _) (naturalSort_sorted _)
    (fun k => naturalSort_stable _ k)

theorem mem_naturalSort {l : List Str} {x : Str} : x ∈ naturalSort l ↔ x ∈ l :=
  (naturalSort_perm l).mem_iff

theorem naturalSort_nodup {l : List Str} (h : l.Nodup) : (naturalSort l).Nodup :=
  (naturalSort_perm l).nodup_iff.2 h

/-! ### splitting -/

/-- re-join the parts of `reSplitDigits` -/
def unsplit (p : Str × List (Str × Str)) : Str := p.1 ++ p.2.flatMap (fun e => e.1 ++ e.2)

theorem reSplitDigits_spec (s : Str) :
    unsplit (reSplitDigits s) = s ∧ (∀ c ∈ (reSplitDigits s).1, isDig c = false) ∧
    (∀ e ∈ (reSplitDigits s).2, e.1 ≠ [] ∧ (∀ c ∈ e.1, isDig c = true) ∧ (∀ c ∈ e.2, isDig c = false)) ∧
    (∀ a e b, (reSplitDigits s).2 = a ++ e :: b → b ≠ [] → e.2 ≠ []) := by
  induction s with
  | nil => simp [reSplitDigits, unsplit]
  | cons c t ih =>
    obtain ⟨i1, i2, i3, i4⟩ := ih
    unfold reSplitDigits
    generalize reSplitDigits t = r at *
    obtain ⟨txt, rest⟩ := r
    simp only at i1 i2 i3 i4
    by_cases hc : isDig c = true
    · simp only [hc, if_true]
      split
      · rename_i d x r'
        simp only at *
        refine ⟨?_, by simp, ?_, ?_⟩
        · rw [← i1]; simp [unsplit]
        · intro e he
          rcases List.mem_cons.1 he with rfl | he
          · have := i3 (d, x) (by simp)
            refine ⟨by simp, ?_, this.2.2⟩
            intro k hk
            rcases List.mem_cons.1 hk with rfl | hk
            · exact hc
            · exact this.2.1 k hk
          · exact i3 e (List.mem_cons_of_mem _ he)
        · intro a e b heq hb
          cases a with
          | nil =>
            simp only [List.nil_append, List.cons.injEq] at heq
            obtain ⟨rfl, rfl⟩ := heq
            exact i4 [] (d, x) r' rfl hb
          | cons a0 a =>
            simp only [List.cons_append, List.cons.injEq] at heq
            obtain ⟨rfl, heq⟩ := heq
            exact i4 ((d, x) :: a) e b (by rw [heq]; rfl) hb
      · rename_i hno
        refine ⟨?_, by simp, ?_, ?_⟩
        · rw [← i1]; simp [unsplit]
        · intro e he
          rcases List.mem_cons.1 he with rfl | he
          · exact ⟨by simp, by simp [hc], i2⟩
          · exact i3 e he
        · intro a e b heq hb
          cases a with
          | nil =>
            simp only [List.nil_append, List.cons.injEq] at heq
            obtain ⟨rfl, rfl⟩ := heq
            intro htxt
            simp only at htxt
            subst htxt
            cases rest with
            | nil => exact hb rfl
            | cons e r => exact hno e.1 e.2 r rfl rfl
          | cons a0 a =>
            simp only [List.cons_append, List.cons.injEq] at heq
            exact i4 a e b heq.2 hb
    · have hc' : isDig c = false := by simpa using hc
      simp only [hc', Bool.false_eq_true, if_false]
      refine ⟨?_, ?_, i3, i4⟩
      · rw [← i1]; simp [unsplit]
      · intro k hk
        rcases List.mem_cons.1 hk with rfl | hk
        · exact hc'
        · exact i2 k hk

theorem reSplitDigits_digits : ∀ (d : Str), d ≠ [] → (∀ c ∈ d, isDig c = true) →
    reSplitDigits d = ([], [(d, [])])
  | [], h, _ => absurd rfl h
  | [c], _, hd => by simp [reSplitDigits, hd c (by simp)]
  | c :: c' :: t, _, hd => by
    unfold reSplitDigits
    rw [reSplitDigits_digits (c' :: t) (by simp) (fun x hx => hd x (List.mem_cons_of_mem _ hx))]
    simp [hd c (by simp)]

/-- splitting a text that does not end with a digit, followed by a number -/
theorem reSplitDigits_append (p : Str) (hp : ∀ q c, p = q ++ [c] → isDig c = false) (d : Str)
    (hne : d ≠ []) (hd : ∀ c ∈ d, isDig c = true) :
    reSplitDigits (p ++ d) = ((reSplitDigits p).1, (reSplitDigits p).2 ++ [(d, [])]) := by
  induction p with
  | nil => simp [reSplitDigits, reSplitDigits_digits d hne hd]
  | cons c t ih =>
    have ih' := ih (fun q x h => hp (c :: q) x (by simp [h]))
    simp only [List.cons_append]
    unfold reSplitDigits
    rw [ih']
    cases ht : t with
    | nil =>
      have hc : isDig c = false := hp [] c (by simp [ht])
      simp [hc, reSplitDigits]
    | cons a u =>
      rw [← ht]
      have hnonempty : (reSplitDigits t).1 ≠ [] ∨ (reSplitDigits t).2 ≠ [] := by
        by_contra hcon
        simp only [not_or, ne_eq, not_not] at hcon
        have := (reSplitDigits_spec t).1
        simp only [unsplit, hcon.1, hcon.2] at this
        simp [ht] at this
      generalize reSplitDigits t = r at *
      obtain ⟨txt, rest⟩ := r
      simp only at hnonempty ⊢
      by_cases hc : isDig c = true
      · simp only [hc, if_true]
        cases txt with
        | nil =>
          cases rest with
          | nil => simp at hnonempty
          | cons e r => simp
        | cons x xs => simp
      · have hc' : isDig c = false := by simpa using hc
        simp [hc']

theorem alphanumSplit_append (p : Str) (hp : ∀ q c, p = q ++ [c] → isDig c = false) (n : Nat) :
    alphanumSplit (p ++ natStr n) =
      ((alphanumSplit p).1, (alphanumSplit p).2 ++ [(n, [])]) := by
  unfold alphanumSplit
  rw [reSplitDigits_append p hp _ (natStr_ne_nil n) (isDig_natStr n)]
  simp [digitsVal_natStr]

theorem tailLe_append (r a b : List (Nat × Str)) : tailLe (r ++ a) (r ++ b) = tailLe a b := by
  induction r with
  | nil => rfl
  | cons e r ih => obtain ⟨n, s⟩ := e; simp [tailLe, ih]

end Cot
