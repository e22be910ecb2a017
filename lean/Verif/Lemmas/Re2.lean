import Verif.Lemmas.Re
import Verif.Lemmas.EnvProps
/-
The first way in which greedy expressions match.
-/
namespace Cot

theorem run_lit_self : ∀ (w t : Str), (Re.lit w).run (w ++ t) = [(t, [])]
  | [], t => rfl
  | [c], t => by
    show (Re.chr c).run (c :: t) = _
    simp [Re.chr, Re.run]
  | c :: d :: w, t => by
    have ih := run_lit_self (d :: w) t
    show (Re.seq (.chr c) (Re.lit (d :: w))).run (c :: (d :: w ++ t)) = _
    rw [Re.run, show (Re.chr c).run (c :: (d :: w ++ t)) = [(d :: w ++ t, [])] by simp [Re.chr, Re.run]]
    simp only [List.flatMap_cons, List.flatMap_nil, List.append_nil]
    rw [ih]
    rfl

theorem run_seq_lit (w t : Str) (b : Re) : (Re.seq (.lit w) b).run (w ++ t) = b.run t := by
  rw [Re.run, run_lit_self]
  simp

theorem greedySuf_head {p : Char → Bool} {t : Str} (ht : ∀ c ∈ t.head?, p c = false) :
    ∀ {w : Str}, (∀ c ∈ w, p c = true) → (greedySuf p (w ++ t)).head? = some t := by
  intro w
  induction w with
  | nil =>
    intro _
    cases t with
    | nil => rfl
    | cons c t =>
      have := ht c (by simp)
      simp [greedySuf, this]
  | cons c w ih =>
    intro hw
    have h1 := hw c (by simp)
    have := ih (fun d hd => hw d (by simp [hd]))
    simp only [List.cons_append, greedySuf, h1, if_true]
    rw [List.head?_append, this]; rfl

/-- the first way `([p]*)` matches is the longest one -/
theorem run_grp_star_head {n : Nat} {p : Char → Bool} {w t : Str} (h : ∀ c ∈ w, p c = true)
    (ht : ∀ c ∈ t.head?, p c = false) :
    ((Re.grp n (.star (.cls p))).run (w ++ t)).head? = some (t, [(n, w)]) := by
  rw [show (Re.grp n (.star (.cls p))).run (w ++ t) = ((Re.star (.cls p)).run (w ++ t)).map
      (fun x => (x.1, x.2 ++ [(n, (w ++ t).take ((w ++ t).length - x.1.length))])) from rfl, run_star_cls,
      List.head?_map, List.head?_map, greedySuf_head ht h]
  simp

theorem split_pred (p : Char → Bool) (s : Str) :
    ∃ w t, s = w ++ t ∧ (∀ c ∈ w, p c = true) ∧ (∀ c ∈ t.head?, p c = false) := by
  refine ⟨s.takeWhile p, s.dropWhile p, (List.takeWhile_append_dropWhile).symm, ?_, ?_⟩
  · intro c hc
    exact (List.all_eq_true.1 (List.all_takeWhile (p := p) (l := s))) c hc
  · intro c hc
    have hne : s.dropWhile p ≠ [] := by
      intro h; rw [h] at hc; cases hc
    have := List.head_dropWhile_not p hne
    rw [List.head?_eq_some_head hne] at hc
    cases hc
    exact this

/-- splitting off the longest run of a class is unique -/
theorem split_pred_unique {p : Char → Bool} : ∀ {w t w' t' : Str}, w ++ t = w' ++ t' → (∀ c ∈ w, p c = true) →
    (∀ c ∈ t.head?, p c = false) → (∀ c ∈ w', p c = true) → (∀ c ∈ t'.head?, p c = false) → w = w' ∧ t = t'
  | [], t, [], t', h, _, _, _, _ => ⟨rfl, h⟩
  | [], t, c :: w', t', h, _, h2, h3, _ => by
    simp only [List.nil_append, List.cons_append] at h
    have := h2 c (by rw [h]; simp)
    rw [h3 c (by simp)] at this; cases this
  | c :: w, t, [], t', h, h1, _, _, h4 => by
    simp only [List.nil_append, List.cons_append] at h
    have := h4 c (by rw [← h]; simp)
    rw [h1 c (by simp)] at this; cases this
  | c :: w, t, d :: w', t', h, h1, h2, h3, h4 => by
    simp only [List.cons_append, List.cons.injEq] at h
    obtain ⟨rfl, h⟩ := h
    obtain ⟨rfl, rfl⟩ := split_pred_unique h (fun x hx => h1 x (by simp [hx])) h2 (fun x hx => h3 x (by simp [hx])) h4
    exact ⟨rfl, rfl⟩

/-- the first way of matching a sequence -/
theorem seq_head {a b : Re} {s : Str} {l1 l2 : List (Str × Caps)} {x z : Str × Caps} (h : a.run s = l1 ++ x :: l2)
    (h1 : ∀ y ∈ l1, b.run y.1 = []) (h2 : (b.run x.1).head? = some z) :
    ((Re.seq a b).run s).head? = some (z.1, x.2 ++ z.2) := by
  rw [Re.run, h, List.flatMap_append, List.flatMap_cons]
  have e1 : l1.flatMap (fun x => (b.run x.1).map (fun y => (y.1, x.2 ++ y.2))) = [] := by
    rw [List.flatMap_eq_nil_iff]
    intro y hy
    rw [h1 y hy]; rfl
  rw [e1, List.nil_append, List.head?_append, List.head?_map, h2]
  rfl

/-- `re.search`: the first position at which there is a match -/
theorem reSearch_eq {r : Re} : ∀ {pre t : Str} {m : Caps}, reMatch r t = some m →
    (∀ pre' t', pre ++ t = pre' ++ t' → pre'.length < pre.length → reMatch r t' = none) → reSearch r (pre ++ t) = some m
  | [], t, m, h, _ => by
    cases t with
    | nil => exact h
    | cons c t => simp only [List.nil_append]; rw [reSearch, h]
  | c :: pre, t, m, h, hn => by
    rw [List.cons_append, reSearch]
    have := hn [] (c :: (pre ++ t)) rfl (by simp)
    rw [this]
    exact reSearch_eq h (fun pre' t' e hl => hn (c :: pre') t' (by rw [List.cons_append, e]; rfl) (by simpa using hl))

end Cot
