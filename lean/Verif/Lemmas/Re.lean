import Verif.Py.Re
import Mathlib.Data.List.Basic
/-
Declarative reading of the regular expression matcher.
-/
namespace Cot

theorem run_suffix_star {f : Str → List (Str × Caps)} : ∀ (n : Nat) (s : Str) {x}, x ∈ starRun f n s →
    (∀ s, ∀ y ∈ f s, y.1 <:+ s) → x.1 <:+ s
  | 0, s, x, h, _ => by simp only [starRun, List.mem_singleton] at h; subst h; exact List.suffix_refl s
  | n + 1, s, x, h, hf => by
    simp only [starRun, List.mem_append, List.mem_flatMap, List.mem_filter, List.mem_map,
      List.mem_singleton] at h
    rcases h with ⟨y, ⟨hy, -⟩, z, hz, rfl⟩ | rfl
    · exact (run_suffix_star n y.1 hz hf).trans (hf s y hy)
    · exact List.suffix_refl s

theorem run_suffix_starL {f : Str → List (Str × Caps)} : ∀ (n : Nat) (s : Str) {x}, x ∈ starRunL f n s →
    (∀ s, ∀ y ∈ f s, y.1 <:+ s) → x.1 <:+ s
  | 0, s, x, h, _ => by simp only [starRunL, List.mem_singleton] at h; subst h; exact List.suffix_refl s
  | n + 1, s, x, h, hf => by
    simp only [starRunL, List.mem_cons, List.mem_flatMap, List.mem_filter, List.mem_map] at h
    rcases h with rfl | ⟨y, ⟨hy, -⟩, z, hz, rfl⟩
    · exact List.suffix_refl s
    · exact (run_suffix_starL n y.1 hz hf).trans (hf s y hy)

/-- a match leaves a suffix of the string -/
theorem run_suffix : ∀ (r : Re) (s : Str), ∀ x ∈ r.run s, x.1 <:+ s := by
  intro r
  induction r with
  | eps => intro s x h; simp only [Re.run, List.mem_singleton] at h; subst h; exact List.suffix_refl s
  | cls p =>
    intro s x h
    cases s with
    | nil => simp [Re.run] at h
    | cons c t =>
      simp only [Re.run] at h
      split at h
      · simp only [List.mem_singleton] at h; subst h; exact List.suffix_cons c t
      · simp at h
  | seq a b iha ihb =>
    intro s x h
    simp only [Re.run, List.mem_flatMap, List.mem_map] at h
    obtain ⟨y, hy, z, hz, rfl⟩ := h
    exact (ihb y.1 z hz).trans (iha s y hy)
  | alt a b iha ihb =>
    intro s x h
    simp only [Re.run, List.mem_append] at h
    exact h.elim (iha s x) (ihb s x)
  | star a ih => intro s x h; exact run_suffix_star _ s h ih
  | starL a ih => intro s x h; exact run_suffix_starL _ s h ih
  | grp n a ih =>
    intro s x h
    simp only [Re.run, List.mem_map] at h
    obtain ⟨y, hy, rfl⟩ := h
    exact ih s y hy
  | eol =>
    intro s x h
    simp only [Re.run] at h
    split at h
    · simp only [List.mem_singleton] at h; subst h; exact List.suffix_refl s
    · simp at h

/-! ### Membership, construct by construct -/

theorem mem_run_eps {s : Str} {x : Str × Caps} : x ∈ Re.eps.run s ↔ x = (s, []) := by simp [Re.run]

theorem mem_run_cls {p : Char → Bool} {s : Str} {x : Str × Caps} :
    x ∈ (Re.cls p).run s ↔ ∃ c, p c = true ∧ s = c :: x.1 ∧ x.2 = [] := by
  obtain ⟨r, m⟩ := x
  cases s with
  | nil => simp [Re.run]
  | cons c t =>
    simp only [Re.run]
    split
    · rename_i h
      constructor
      · intro hh
        simp only [List.mem_singleton, Prod.mk.injEq] at hh
        obtain ⟨rfl, rfl⟩ := hh
        exact ⟨c, h, rfl, rfl⟩
      · rintro ⟨d, _, h1, h2⟩
        simp only [List.cons.injEq] at h1
        obtain ⟨rfl, rfl⟩ := h1
        have h2' : m = [] := h2
        subst h2'
        simp
    · rename_i h
      constructor
      · intro hh; simp at hh
      · rintro ⟨d, hd, h1, _⟩
        simp only [List.cons.injEq] at h1
        obtain ⟨rfl, _⟩ := h1
        exact absurd hd h

theorem mem_run_seq {a b : Re} {s : Str} {x : Str × Caps} :
    x ∈ (Re.seq a b).run s ↔ ∃ y ∈ a.run s, ∃ z ∈ b.run y.1, x = (z.1, y.2 ++ z.2) := by
  simp only [Re.run, List.mem_flatMap, List.mem_map]
  constructor
  · rintro ⟨y, hy, z, hz, rfl⟩; exact ⟨y, hy, z, hz, rfl⟩
  · rintro ⟨y, hy, z, hz, rfl⟩; exact ⟨y, hy, z, hz, rfl⟩

theorem mem_run_alt {a b : Re} {s : Str} {x : Str × Caps} :
    x ∈ (Re.alt a b).run s ↔ x ∈ a.run s ∨ x ∈ b.run s := by simp [Re.run]

theorem mem_run_grp {n : Nat} {a : Re} {s : Str} {x : Str × Caps} :
    x ∈ (Re.grp n a).run s ↔
      ∃ w m, s = w ++ x.1 ∧ (x.1, m) ∈ a.run s ∧ x.2 = m ++ [(n, w)] := by
  obtain ⟨r, cs⟩ := x
  simp only [Re.run, List.mem_map, Prod.mk.injEq]
  constructor
  · rintro ⟨⟨r', m⟩, hy, rfl, rfl⟩
    obtain ⟨w, hw⟩ := run_suffix a s _ hy
    simp only at hw
    refine ⟨w, m, hw.symm, hy, ?_⟩
    rw [← hw]
    simp
  · rintro ⟨w, m, hw, hy, rfl⟩
    refine ⟨(r, m), hy, rfl, ?_⟩
    rw [hw]
    simp

theorem mem_run_eol {s : Str} {x : Str × Caps} :
    x ∈ Re.eol.run s ↔ (s = [] ∨ s = ['\n']) ∧ x = (s, []) := by
  simp only [Re.run]
  split
  · rename_i h; simp [h]
  · rename_i h; simp [h]

/-- what is left by the possible matches of `[p]*`, longest match first -/
def greedySuf (p : Char → Bool) : Str → List Str
  | [] => [[]]
  | c :: t => if p c then greedySuf p t ++ [c :: t] else [c :: t]

/-- what is left by the possible matches of `[p]*?`, shortest match first -/
def lazySuf (p : Char → Bool) : Str → List Str
  | [] => [[]]
  | c :: t => if p c then (c :: t) :: lazySuf p t else [c :: t]

theorem run_cls_cons (p : Char → Bool) (c : Char) (t : Str) :
    (Re.cls p).run (c :: t) = if p c then [(t, [])] else [] := rfl

theorem run_star_cls_aux (p : Char → Bool) : ∀ (s : Str) (n : Nat), s.length ≤ n →
    starRun (fun t => (Re.cls p).run t) n s = (greedySuf p s).map (fun r => (r, []))
  | [], 0, _ => rfl
  | [], n + 1, _ => by simp [starRun, Re.run, greedySuf]
  | c :: t, 0, h => by simp at h
  | c :: t, n + 1, h => by
    have ih := run_star_cls_aux p t n (by simpa using h)
    simp only [starRun, run_cls_cons, greedySuf]
    by_cases hc : p c = true
    · simp only [hc, if_true]
      have : List.filter (fun x : Str × Caps => decide (x.1.length < (c :: t).length)) [(t, [])] = [(t, [])] := by
        simp
      rw [this]
      simp only [List.flatMap_cons, List.flatMap_nil, List.append_nil, List.map_append, List.map_cons,
        List.map_nil, ih, List.map_map]
      congr 1
    · simp only [hc]
      rfl

theorem run_star_cls (p : Char → Bool) (s : Str) :
    (Re.star (.cls p)).run s = (greedySuf p s).map (fun r => (r, [])) :=
  run_star_cls_aux p s s.length (Nat.le_refl _)

theorem run_starL_cls_aux (p : Char → Bool) : ∀ (s : Str) (n : Nat), s.length ≤ n →
    starRunL (fun t => (Re.cls p).run t) n s = (lazySuf p s).map (fun r => (r, []))
  | [], 0, _ => rfl
  | [], n + 1, _ => by simp [starRunL, Re.run, lazySuf]
  | c :: t, 0, h => by simp at h
  | c :: t, n + 1, h => by
    have ih := run_starL_cls_aux p t n (by simpa using h)
    simp only [starRunL, run_cls_cons, lazySuf]
    by_cases hc : p c = true
    · simp only [hc, if_true]
      have : List.filter (fun x : Str × Caps => decide (x.1.length < (c :: t).length)) [(t, [])] = [(t, [])] := by
        simp
      rw [this]
      simp only [List.flatMap_cons, List.flatMap_nil, List.append_nil, List.map_cons, ih, List.map_map]
      congr 1
    · simp only [hc]
      rfl

theorem run_starL_cls (p : Char → Bool) (s : Str) :
    (Re.starL (.cls p)).run s = (lazySuf p s).map (fun r => (r, [])) :=
  run_starL_cls_aux p s s.length (Nat.le_refl _)

theorem mem_greedySuf {p : Char → Bool} {s x : Str} :
    x ∈ greedySuf p s ↔ ∃ a, s = a ++ x ∧ a.all p = true := by
  induction s with
  | nil =>
    simp only [greedySuf, List.mem_singleton]
    constructor
    · rintro rfl; exact ⟨[], rfl, rfl⟩
    · rintro ⟨a, h, -⟩; exact (List.append_eq_nil_iff.1 h.symm).2
  | cons c t ih =>
    simp only [greedySuf]
    constructor
    · intro h
      split at h
      · rename_i hc
        rcases List.mem_append.1 h with h | h
        · obtain ⟨a, rfl, ha⟩ := ih.1 h
          exact ⟨c :: a, rfl, by simp [hc]; simpa using ha⟩
        · exact ⟨[], (List.mem_singleton.1 h).symm, rfl⟩
      · exact ⟨[], (List.mem_singleton.1 h).symm, rfl⟩
    · rintro ⟨a, h, ha⟩
      cases a with
      | nil =>
        simp only [List.nil_append] at h
        subst h
        split <;> simp
      | cons d a =>
        simp only [List.cons_append, List.cons.injEq] at h
        obtain ⟨rfl, rfl⟩ := h
        simp only [List.all_cons, Bool.and_eq_true] at ha
        rw [if_pos ha.1]
        exact List.mem_append_left _ (ih.2 ⟨a, rfl, ha.2⟩)

theorem mem_lazySuf {p : Char → Bool} {s x : Str} :
    x ∈ lazySuf p s ↔ ∃ a, s = a ++ x ∧ a.all p = true := by
  rw [← mem_greedySuf]
  induction s with
  | nil => rfl
  | cons c t ih =>
    simp only [greedySuf, lazySuf]
    split
    · simp [ih, or_comm]
    · rfl

theorem mem_run_star_cls {p : Char → Bool} {s : Str} {x : Str × Caps} :
    x ∈ (Re.star (.cls p)).run s ↔ ∃ a, s = a ++ x.1 ∧ a.all p = true ∧ x.2 = [] := by
  rw [run_star_cls, List.mem_map]
  constructor
  · rintro ⟨r, hr, rfl⟩
    obtain ⟨a, h1, h2⟩ := mem_greedySuf.1 hr
    exact ⟨a, h1, h2, rfl⟩
  · rintro ⟨a, h1, h2, h3⟩
    exact ⟨x.1, mem_greedySuf.2 ⟨a, h1, h2⟩, by rw [← h3]⟩

theorem mem_run_starL_cls {p : Char → Bool} {s : Str} {x : Str × Caps} :
    x ∈ (Re.starL (.cls p)).run s ↔ ∃ a, s = a ++ x.1 ∧ a.all p = true ∧ x.2 = [] := by
  rw [run_starL_cls, List.mem_map]
  constructor
  · rintro ⟨r, hr, rfl⟩
    obtain ⟨a, h1, h2⟩ := mem_lazySuf.1 hr
    exact ⟨a, h1, h2, rfl⟩
  · rintro ⟨a, h1, h2, h3⟩
    exact ⟨x.1, mem_lazySuf.2 ⟨a, h1, h2⟩, by rw [← h3]⟩

theorem mem_run_plus_cls {p : Char → Bool} {s : Str} {x : Str × Caps} :
    x ∈ (Re.plus (.cls p)).run s ↔ ∃ a, a ≠ [] ∧ s = a ++ x.1 ∧ a.all p = true ∧ x.2 = [] := by
  unfold Re.plus
  rw [mem_run_seq]
  constructor
  · rintro ⟨y, hy, z, hz, rfl⟩
    obtain ⟨c, h1, h2, h3⟩ := mem_run_cls.1 hy
    obtain ⟨a, h4, h5, h6⟩ := mem_run_star_cls.1 hz
    refine ⟨c :: a, by simp, by rw [h2, h4]; rfl, by simp only [List.all_cons, h1, h5, Bool.and_self], ?_⟩
    rw [h3, h6]; rfl
  · rintro ⟨a, h1, h2, h3, h4⟩
    cases a with
    | nil => exact absurd rfl h1
    | cons c a =>
      simp only [List.all_cons, Bool.and_eq_true] at h3
      refine ⟨(a ++ x.1, []), mem_run_cls.2 ⟨c, h3.1, h2, rfl⟩, (x.1, []),
        mem_run_star_cls.2 ⟨a, rfl, h3.2, rfl⟩, ?_⟩
      exact Prod.ext rfl h4

theorem mem_run_plusL_cls {p : Char → Bool} {s : Str} {x : Str × Caps} :
    x ∈ (Re.plusL (.cls p)).run s ↔ ∃ a, a ≠ [] ∧ s = a ++ x.1 ∧ a.all p = true ∧ x.2 = [] := by
  unfold Re.plusL
  rw [mem_run_seq]
  constructor
  · rintro ⟨y, hy, z, hz, rfl⟩
    obtain ⟨c, h1, h2, h3⟩ := mem_run_cls.1 hy
    obtain ⟨a, h4, h5, h6⟩ := mem_run_starL_cls.1 hz
    refine ⟨c :: a, by simp, by rw [h2, h4]; rfl, by simp only [List.all_cons, h1, h5, Bool.and_self], ?_⟩
    rw [h3, h6]; rfl
  · rintro ⟨a, h1, h2, h3, h4⟩
    cases a with
    | nil => exact absurd rfl h1
    | cons c a =>
      simp only [List.all_cons, Bool.and_eq_true] at h3
      refine ⟨(a ++ x.1, []), mem_run_cls.2 ⟨c, h3.1, h2, rfl⟩, (x.1, []),
        mem_run_starL_cls.2 ⟨a, rfl, h3.2, rfl⟩, ?_⟩
      exact Prod.ext rfl h4

theorem mem_run_opt {a : Re} {s : Str} {x : Str × Caps} :
    x ∈ (Re.opt a).run s ↔ x ∈ a.run s ∨ x = (s, []) := by
  unfold Re.opt; rw [mem_run_alt, mem_run_eps]

theorem mem_run_chr {c : Char} {s : Str} {x : Str × Caps} :
    x ∈ (Re.chr c).run s ↔ s = c :: x.1 ∧ x.2 = [] := by
  unfold Re.chr
  rw [mem_run_cls]
  constructor
  · rintro ⟨d, h1, h2, h3⟩
    simp only [beq_iff_eq] at h1
    subst h1
    exact ⟨h2, h3⟩
  · rintro ⟨h1, h2⟩; exact ⟨c, by simp, h1, h2⟩

theorem run_cat_cons (r : Re) (l : List Re) (h : l ≠ []) : Re.cat (r :: l) = .seq r (Re.cat l) := by
  cases l with
  | nil => exact absurd rfl h
  | cons a t => rfl

theorem mem_run_lit {w s : Str} {x : Str × Caps} :
    x ∈ (Re.lit w).run s ↔ s = w ++ x.1 ∧ x.2 = [] := by
  unfold Re.lit
  induction w generalizing s x with
  | nil =>
    simp only [List.map_nil, Re.cat, mem_run_eps, List.nil_append]
    constructor
    · rintro rfl; exact ⟨rfl, rfl⟩
    · rintro ⟨h1, h2⟩; rw [h1, ← h2]
  | cons c t ih =>
    cases t with
    | nil =>
      simp only [List.map_cons, List.map_nil, Re.cat, mem_run_chr, List.cons_append, List.nil_append]
    | cons d t =>
      rw [List.map_cons, run_cat_cons _ _ (by simp), mem_run_seq]
      constructor
      · rintro ⟨y, hy, z, hz, rfl⟩
        obtain ⟨h1, h2⟩ := mem_run_chr.1 hy
        obtain ⟨h3, h4⟩ := ih.1 hz
        exact ⟨by rw [h1, h3]; rfl, by rw [h2, h4]; rfl⟩
      · rintro ⟨h1, h2⟩
        refine ⟨((d :: t) ++ x.1, []), mem_run_chr.2 ⟨h1, rfl⟩, (x.1, []), ih.2 ⟨rfl, rfl⟩, ?_⟩
        exact Prod.ext rfl h2

/-- the result of a match all of whose ways of matching capture the same groups -/
theorem reMatch_eq_of {r : Re} {s : Str} {m : Caps} (hex : ∃ x, (x, m) ∈ r.run s)
    (huniq : ∀ x m', (x, m') ∈ r.run s → m' = m) : reMatch r s = some m := by
  unfold reMatch
  cases h : r.run s with
  | nil => obtain ⟨x, hx⟩ := hex; rw [h] at hx; simp at hx
  | cons a l =>
    have := huniq a.1 a.2 (by rw [h]; simp)
    simp [this]

theorem reMatch_none {r : Re} {s : Str} : reMatch r s = none ↔ ∀ x, x ∉ r.run s := by
  unfold reMatch
  cases h : r.run s with
  | nil => simp
  | cons a l => simp only [List.head?_cons, Option.map_some, reduceCtorEq, false_iff]; intro hh; exact hh a (by simp)

theorem reMatch_some_mem {r : Re} {s : Str} {m : Caps} (h : reMatch r s = some m) :
    ∃ x, (x, m) ∈ r.run s := by
  unfold reMatch at h
  cases hh : r.run s with
  | nil => rw [hh] at h; simp at h
  | cons a l =>
    rw [hh] at h
    simp only [List.head?_cons, Option.map_some, Option.some.injEq] at h
    exact ⟨a.1, by rw [← h]; simp⟩

theorem reMatch_isSome {r : Re} {s : Str} : (reMatch r s).isSome = true ↔ ∃ x, x ∈ r.run s := by
  rw [Option.isSome_iff_ne_none, Ne, reMatch_none]; push Not; rfl

/-! ### Sequences, by their first part -/

theorem seq_star {p : Char → Bool} {b : Re} {s r : Str} {m : Caps} :
    (r, m) ∈ (Re.seq (.star (.cls p)) b).run s ↔
      ∃ w t, s = w ++ t ∧ (∀ c ∈ w, p c = true) ∧ (r, m) ∈ b.run t := by
  rw [mem_run_seq]
  constructor
  · rintro ⟨⟨t, m1⟩, hy, ⟨r', m2⟩, hz, he⟩
    obtain ⟨a, h1, h2, h3⟩ := mem_run_star_cls.1 hy
    simp only at h1 h3 hz
    subst h3
    simp only [List.nil_append] at he
    exact ⟨a, t, h1, by simpa using h2, by rw [he]; exact hz⟩
  · rintro ⟨w, t, h1, h2, h3⟩
    exact ⟨(t, []), mem_run_star_cls.2 ⟨w, h1, by simpa using h2, rfl⟩, (r, m), h3, rfl⟩

theorem seq_plus {p : Char → Bool} {b : Re} {s r : Str} {m : Caps} :
    (r, m) ∈ (Re.seq (.plus (.cls p)) b).run s ↔
      ∃ w t, s = w ++ t ∧ w ≠ [] ∧ (∀ c ∈ w, p c = true) ∧ (r, m) ∈ b.run t := by
  rw [mem_run_seq]
  constructor
  · rintro ⟨⟨t, m1⟩, hy, ⟨r', m2⟩, hz, he⟩
    obtain ⟨a, h0, h1, h2, h3⟩ := mem_run_plus_cls.1 hy
    simp only at h1 h3 hz
    subst h3
    simp only [List.nil_append] at he
    exact ⟨a, t, h1, h0, by simpa using h2, by rw [he]; exact hz⟩
  · rintro ⟨w, t, h1, h0, h2, h3⟩
    exact ⟨(t, []), mem_run_plus_cls.2 ⟨w, h0, h1, by simpa using h2, rfl⟩, (r, m), h3, rfl⟩

theorem seq_chr {c : Char} {b : Re} {s r : Str} {m : Caps} :
    (r, m) ∈ (Re.seq (.chr c) b).run s ↔ ∃ t, s = c :: t ∧ (r, m) ∈ b.run t := by
  rw [mem_run_seq]
  constructor
  · rintro ⟨⟨t, m1⟩, hy, ⟨r', m2⟩, hz, he⟩
    obtain ⟨h1, h3⟩ := mem_run_chr.1 hy
    simp only at h1 h3 hz
    subst h3
    simp only [List.nil_append] at he
    exact ⟨t, h1, by rw [he]; exact hz⟩
  · rintro ⟨t, h1, h3⟩
    exact ⟨(t, []), mem_run_chr.2 ⟨h1, rfl⟩, (r, m), h3, rfl⟩

theorem seq_lit {w : Str} {b : Re} {s r : Str} {m : Caps} :
    (r, m) ∈ (Re.seq (.lit w) b).run s ↔ ∃ t, s = w ++ t ∧ (r, m) ∈ b.run t := by
  rw [mem_run_seq]
  constructor
  · rintro ⟨⟨t, m1⟩, hy, ⟨r', m2⟩, hz, he⟩
    obtain ⟨h1, h3⟩ := mem_run_lit.1 hy
    simp only at h1 h3 hz
    subst h3
    simp only [List.nil_append] at he
    exact ⟨t, h1, by rw [he]; exact hz⟩
  · rintro ⟨t, h1, h3⟩
    exact ⟨(t, []), mem_run_lit.2 ⟨h1, rfl⟩, (r, m), h3, rfl⟩

theorem seq_opt {a b : Re} {s r : Str} {m : Caps} :
    (r, m) ∈ (Re.seq (.opt a) b).run s ↔ (r, m) ∈ (Re.seq a b).run s ∨ (r, m) ∈ b.run s := by
  rw [mem_run_seq, mem_run_seq]
  constructor
  · rintro ⟨y, hy, z, hz, he⟩
    rcases mem_run_opt.1 hy with h | rfl
    · exact Or.inl ⟨y, h, z, hz, he⟩
    · right; rw [he]; exact hz
  · rintro (⟨y, hy, z, hz, he⟩ | h)
    · exact ⟨y, mem_run_opt.2 (Or.inl hy), z, hz, he⟩
    · exact ⟨(s, []), mem_run_opt.2 (Or.inr rfl), (r, m), h, rfl⟩

theorem seq_grp {n : Nat} {a b : Re} {s r : Str} {m : Caps} :
    (r, m) ∈ (Re.seq (.grp n a) b).run s ↔
      ∃ w t m1 m2, s = w ++ t ∧ (t, m1) ∈ a.run s ∧ (r, m2) ∈ b.run t ∧ m = m1 ++ (n, w) :: m2 := by
  rw [mem_run_seq]
  constructor
  · rintro ⟨⟨t, m1⟩, hy, ⟨r', m2⟩, hz, he⟩
    obtain ⟨w, m0, h1, h2, h3⟩ := mem_run_grp.1 hy
    simp only at h1 h2 h3 hz
    simp only [Prod.mk.injEq] at he
    obtain ⟨rfl, rfl⟩ := he
    exact ⟨w, t, m0, m2, h1, h2, hz, by rw [h3]; simp⟩
  · rintro ⟨w, t, m1, m2, h1, h2, h3, rfl⟩
    exact ⟨(t, m1 ++ [(n, w)]), mem_run_grp.2 ⟨w, m1, h1, h2, rfl⟩, (r, m2), h3, by simp⟩

theorem seq_grp_plus {n : Nat} {p : Char → Bool} {b : Re} {s r : Str} {m : Caps} :
    (r, m) ∈ (Re.seq (.grp n (.plus (.cls p))) b).run s ↔
      ∃ w t m2, s = w ++ t ∧ w ≠ [] ∧ (∀ c ∈ w, p c = true) ∧ (r, m2) ∈ b.run t ∧ m = (n, w) :: m2 := by
  rw [seq_grp]
  constructor
  · rintro ⟨w, t, m1, m2, h1, h2, h3, rfl⟩
    obtain ⟨a, h4, h5, h6, h7⟩ := mem_run_plus_cls.1 h2
    simp only at h5 h7
    have : w = a := List.append_cancel_right (h1.symm.trans h5)
    subst this h7
    exact ⟨w, t, m2, h1, h4, by simpa using h6, h3, rfl⟩
  · rintro ⟨w, t, m2, h1, h2, h3, h4, rfl⟩
    exact ⟨w, t, [], m2, h1, mem_run_plus_cls.2 ⟨w, h2, h1, by simpa using h3, rfl⟩, h4, rfl⟩

theorem seq_grp_star {n : Nat} {p : Char → Bool} {b : Re} {s r : Str} {m : Caps} :
    (r, m) ∈ (Re.seq (.grp n (.star (.cls p))) b).run s ↔
      ∃ w t m2, s = w ++ t ∧ (∀ c ∈ w, p c = true) ∧ (r, m2) ∈ b.run t ∧ m = (n, w) :: m2 := by
  rw [seq_grp]
  constructor
  · rintro ⟨w, t, m1, m2, h1, h2, h3, rfl⟩
    obtain ⟨a, h5, h6, h7⟩ := mem_run_star_cls.1 h2
    simp only at h5 h7
    have : w = a := List.append_cancel_right (h1.symm.trans h5)
    subst this h7
    exact ⟨w, t, m2, h1, by simpa using h6, h3, rfl⟩
  · rintro ⟨w, t, m2, h1, h3, h4, rfl⟩
    exact ⟨w, t, [], m2, h1, mem_run_star_cls.2 ⟨w, h1, by simpa using h3, rfl⟩, h4, rfl⟩

theorem seq_cls {p : Char → Bool} {b : Re} {s r : Str} {m : Caps} :
    (r, m) ∈ (Re.seq (.cls p) b).run s ↔ ∃ c t, s = c :: t ∧ p c = true ∧ (r, m) ∈ b.run t := by
  rw [mem_run_seq]
  constructor
  · rintro ⟨⟨t, m1⟩, hy, ⟨r', m2⟩, hz, he⟩
    obtain ⟨c, h1, h2, h3⟩ := mem_run_cls.1 hy
    simp only at h2 h3 hz
    subst h3
    simp only [List.nil_append] at he
    exact ⟨c, t, h2, h1, by rw [he]; exact hz⟩
  · rintro ⟨c, t, h1, h2, h3⟩
    exact ⟨(t, []), mem_run_cls.2 ⟨c, h2, h1, rfl⟩, (r, m), h3, rfl⟩

theorem seq_grp_cls {n : Nat} {p : Char → Bool} {b : Re} {s r : Str} {m : Caps} :
    (r, m) ∈ (Re.seq (.grp n (.cls p)) b).run s ↔
      ∃ c t m2, s = c :: t ∧ p c = true ∧ (r, m2) ∈ b.run t ∧ m = (n, [c]) :: m2 := by
  rw [seq_grp]
  constructor
  · rintro ⟨w, t, m1, m2, h1, h2, h3, rfl⟩
    obtain ⟨c, h4, h5, h6⟩ := mem_run_cls.1 h2
    simp only at h5 h6
    have : w = [c] := List.append_cancel_right (h1.symm.trans h5)
    subst this h6
    exact ⟨c, t, m2, h5, h4, h3, rfl⟩
  · rintro ⟨c, t, m2, h1, h2, h3, rfl⟩
    exact ⟨[c], t, [], m2, h1, mem_run_cls.2 ⟨c, h2, h1, rfl⟩, h3, rfl⟩

theorem mem_eol {s r : Str} {m : Caps} :
    (r, m) ∈ Re.eol.run s ↔ (s = [] ∨ s = ['\n']) ∧ r = s ∧ m = [] := by
  rw [mem_run_eol]; simp

end Cot
