import Verif.Lemmas.Re
import Verif.Lemmas.Digits
import Verif.Lemmas.Str
import Verif.Model.DataValidation
import Verif.Spec.DataValidation
/-
Lemmas about stripping, numerals and the regular expressions of COT/data_validation.py.
-/
namespace Cot

theorem toNat_ofNat_small {n : Nat} (h : n < 200) : (Char.ofNat n).toNat = n := by
  unfold Char.ofNat
  have hv : n.isValidChar := Or.inl (by omega)
  rw [dif_pos hv]
  simp only [Char.ofNatAux, Char.toNat]
  rfl

/-! ### strip -/

theorem dropWhile_blank_append {a t : Str} (ha : Blank a) (ht : ∀ c ∈ t.head?, isWs c = false) :
    (a ++ t).dropWhile isWs = t := by
  induction a with
  | nil =>
    cases t with
    | nil => rfl
    | cons c t => have := ht c (by simp); simp [this]
  | cons c a ih =>
    have := ha c (by simp)
    simp only [List.cons_append, List.dropWhile, this]
    exact ih (fun c hc => ha c (List.mem_cons_of_mem _ hc))

theorem strip_padded {s t : Str} (h : Padded s t) (h1 : ∀ c ∈ t.head?, isWs c = false)
    (h2 : ∀ c ∈ t.getLast?, isWs c = false) : strip s = t := by
  obtain ⟨a, b, ha, hb, rfl⟩ := h
  unfold strip
  by_cases ht : t = []
  · subst ht
    rw [show a ++ [] ++ b = (a ++ b) ++ [] by simp, dropWhile_blank_append (t := []) ?_ (by simp)]
    · rfl
    · intro c hc; rcases List.mem_append.1 hc with h | h; exacts [ha c h, hb c h]
  · have e1 : (a ++ t ++ b).dropWhile isWs = t ++ b := by
      rw [List.append_assoc]
      refine dropWhile_blank_append ha ?_
      intro c hc
      refine h1 c ?_
      cases t with
      | nil => exact absurd rfl ht
      | cons x t => simpa using hc
    rw [e1, List.reverse_append, dropWhile_blank_append (t := t.reverse)]
    · simp
    · intro c hc; exact hb c (List.mem_reverse.1 hc)
    · simpa using h2

theorem dropWhile_split (s : Str) : ∃ a, Blank a ∧ s = a ++ s.dropWhile isWs := by
  refine ⟨s.takeWhile isWs, ?_, (List.takeWhile_append_dropWhile).symm⟩
  intro c hc
  exact (List.all_eq_true.1 (List.all_takeWhile (p := isWs) (l := s))) c hc

theorem padded_strip (s : Str) : Padded s (strip s) := by
  obtain ⟨a, ha, h1⟩ := dropWhile_split s
  obtain ⟨b, hb, h2⟩ := dropWhile_split (s.dropWhile isWs).reverse
  refine ⟨a, b.reverse, ha, fun c hc => hb c (List.mem_reverse.1 hc), ?_⟩
  have h3 : s.dropWhile isWs = strip s ++ b.reverse := by
    have := congrArg List.reverse h2
    rw [List.reverse_reverse, List.reverse_append] at this
    exact this
  rw [List.append_assoc, ← h3, ← h1]

theorem head_dropWhile (s : Str) : ∀ c ∈ (s.dropWhile isWs).head?, isWs c = false := by
  induction s with
  | nil => simp
  | cons x t ih =>
    intro c hc
    by_cases hx : isWs x = true
    · rw [List.dropWhile_cons_of_pos hx] at hc; exact ih c hc
    · rw [List.dropWhile_cons_of_neg hx] at hc
      simp only [List.head?_cons, Option.mem_def, Option.some.injEq] at hc
      subst hc; simpa using hx

theorem strip_last (s : Str) : ∀ c ∈ (strip s).getLast?, isWs c = false := by
  intro c hc
  unfold strip at hc
  rw [List.getLast?_reverse] at hc
  exact head_dropWhile _ c hc

theorem strip_head (s : Str) : ∀ c ∈ (strip s).head?, isWs c = false := by
  obtain ⟨b, hb, h2⟩ := dropWhile_split (s.dropWhile isWs).reverse
  have h3 : s.dropWhile isWs = strip s ++ b.reverse := by
    have := congrArg List.reverse h2
    rw [List.reverse_reverse, List.reverse_append] at this
    exact this
  intro c hc
  refine head_dropWhile s c ?_
  rw [h3]
  cases hs : strip s with
  | nil => rw [hs] at hc; simp at hc
  | cons x t => rw [hs] at hc; simpa using hc

/-- stripping yields `t` iff `t` has no white space at its ends and the string is `t` with padding -/
theorem strip_eq_iff {s t : Str} : strip s = t ↔ Padded s t ∧ (∀ c ∈ t.head?, isWs c = false) ∧
    (∀ c ∈ t.getLast?, isWs c = false) := by
  constructor
  · rintro rfl; exact ⟨padded_strip s, strip_head s, strip_last s⟩
  · rintro ⟨h1, h2, h3⟩; exact strip_padded h1 h2 h3

theorem isDig_not_ws {c : Char} (h : isDig c = true) : isWs c = false := by
  rw [isDig_iff] at h
  by_contra hw
  rw [Bool.not_eq_false] at hw
  simp only [isWs, Bool.or_eq_true, beq_iff_eq] at hw
  rcases hw with ((((((((rfl | rfl) | rfl) | rfl) | rfl) | rfl) | rfl) | rfl) | rfl) | rfl <;>
    revert h <;> decide

/-! ### Numerals -/

theorem parseNat_iff {s : Str} {n : Nat} : parseNat s = some n ↔ Digits s ∧ n = digitsVal s := by
  unfold parseNat Digits
  split
  · rename_i h
    simp only [List.all_eq_true] at h
    simp only [Option.some.injEq]
    exact ⟨fun e => ⟨h, e.symm⟩, fun e => e.2.symm⟩
  · rename_i h
    simp only [List.all_eq_true] at h
    simp only [reduceCtorEq, false_iff]
    exact fun e => h e.1

theorem digits_head {d : Str} (h : Digits d) : ∀ c ∈ d.head?, isDig c = true := by
  intro c hc; exact h.2 c (List.mem_of_mem_head? hc)

theorem digits_last {d : Str} (h : Digits d) : ∀ c ∈ d.getLast?, isDig c = true := by
  intro c hc; exact h.2 c (List.mem_of_mem_getLast? hc)

theorem getLast?_cons_ne {c : Char} {d : Str} (h : d ≠ []) : (c :: d).getLast? = d.getLast? := by
  cases d with
  | nil => exact absurd rfl h
  | cons a t => rfl

/-- Python's `int()` accepts exactly the numerals -/
theorem pyInt_iff {s : Str} {z : Int} : pyInt s = some z ↔ Numeral s z := by
  have hpad := padded_strip s
  constructor
  · intro h
    unfold pyInt at h
    split at h
    · rename_i t ht
      cases hp : parseNat t with
      | none => rw [hp] at h; simp at h
      | some n =>
        rw [hp] at h
        obtain ⟨h1, rfl⟩ := parseNat_iff.1 hp
        refine ⟨t, h1, Or.inr (Or.inr ⟨ht ▸ hpad, ?_⟩)⟩
        simp only [Option.map_some, Option.some.injEq] at h
        exact h.symm
    · rename_i t ht
      cases hp : parseNat t with
      | none => rw [hp] at h; simp at h
      | some n =>
        rw [hp] at h
        obtain ⟨h1, rfl⟩ := parseNat_iff.1 hp
        refine ⟨t, h1, Or.inr (Or.inl ⟨ht ▸ hpad, ?_⟩)⟩
        simp only [Option.map_some, Option.some.injEq] at h
        exact h.symm
    · cases hp : parseNat (strip s) with
      | none => rw [hp] at h; simp at h
      | some n =>
        rw [hp] at h
        obtain ⟨h1, rfl⟩ := parseNat_iff.1 hp
        refine ⟨strip s, h1, Or.inl ⟨hpad, ?_⟩⟩
        simp only [Option.map_some, Option.some.injEq] at h
        exact h.symm
  · rintro ⟨d, hd, h | h | h⟩
    · obtain ⟨hp, rfl⟩ := h
      have hs : strip s = d := strip_padded hp (fun c hc => isDig_not_ws (digits_head hd c hc))
        (fun c hc => isDig_not_ws (digits_last hd c hc))
      unfold pyInt
      rw [hs]
      split
      · rename_i t; exact absurd (hd.2 '-' (by simp)) (by decide)
      · rename_i t; exact absurd (hd.2 '+' (by simp)) (by decide)
      · rw [parseNat_iff.2 ⟨hd, rfl⟩]; rfl
    · obtain ⟨hp, rfl⟩ := h
      have hs : strip s = '+' :: d := strip_padded hp (by simp; decide)
        (by rw [getLast?_cons_ne hd.1]; exact fun c hc => isDig_not_ws (digits_last hd c hc))
      unfold pyInt
      rw [hs]
      simp only [parseNat_iff.2 ⟨hd, rfl⟩]; rfl
    · obtain ⟨hp, rfl⟩ := h
      have hs : strip s = '-' :: d := strip_padded hp (by simp; decide)
        (by rw [getLast?_cons_ne hd.1]; exact fun c hc => isDig_not_ws (digits_last hd c hc))
      unfold pyInt
      rw [hs]
      simp only [parseNat_iff.2 ⟨hd, rfl⟩]; rfl

/-! ### Repetition in regular expressions -/

theorem mem_run_rep_cls {p : Char → Bool} : ∀ (n : Nat) {s : Str} {x : Str × Caps},
    x ∈ (Re.rep (.cls p) n).run s ↔ ∃ a : Str, a.length = n ∧ (∀ c ∈ a, p c = true) ∧ s = a ++ x.1 ∧ x.2 = []
  | 0, s, x => by
    simp only [Re.rep, mem_run_eps]
    constructor
    · rintro rfl; exact ⟨[], rfl, by simp, rfl, rfl⟩
    · rintro ⟨a, h1, -, h3, h4⟩
      have : a = [] := List.length_eq_zero_iff.1 h1
      subst this
      exact Prod.ext h3.symm h4
  | n + 1, s, x => by
    simp only [Re.rep, mem_run_seq]
    constructor
    · rintro ⟨y, hy, z, hz, rfl⟩
      obtain ⟨c, h1, h2, h3⟩ := mem_run_cls.1 hy
      obtain ⟨a, h4, h5, h6, h7⟩ := (mem_run_rep_cls n).1 hz
      exact ⟨c :: a, by simp [h4], by simpa [h1] using h5, by rw [h2, h6]; rfl, by rw [h3, h7]; rfl⟩
    · rintro ⟨a, h1, h2, h3, h4⟩
      cases a with
      | nil => simp at h1
      | cons c a =>
        refine ⟨(a ++ x.1, []), mem_run_cls.2 ⟨c, h2 c (by simp), h3, rfl⟩, (x.1, []),
          (mem_run_rep_cls n).2 ⟨a, by simpa using h1, fun d hd => h2 d (List.mem_cons_of_mem _ hd), rfl, rfl⟩, ?_⟩
        exact Prod.ext rfl h4

theorem mem_run_macGroups {n : Nat} {sep : Char} : ∀ (k : Nat) {s : Str} {x : Str × Caps},
    x ∈ (Re.rep (.seq (Re.rep (.cls isHex) n) (Re.chr sep)) k).run s ↔
      ∃ gs : List Str, gs.length = k ∧ (∀ g ∈ gs, g.length = n ∧ ∀ c ∈ g, isHex c = true) ∧
        s = (gs.flatMap (fun g => g ++ [sep])) ++ x.1 ∧ x.2 = []
  | 0, s, x => by
    simp only [Re.rep, mem_run_eps]
    constructor
    · rintro rfl; exact ⟨[], rfl, by simp, rfl, rfl⟩
    · rintro ⟨a, h1, -, h3, h4⟩
      have : a = [] := List.length_eq_zero_iff.1 h1
      subst this
      exact Prod.ext h3.symm h4
  | k + 1, s, x => by
    rw [Re.rep, mem_run_seq]
    constructor
    · rintro ⟨y, hy, z, hz, rfl⟩
      obtain ⟨u, hu, v, hv, rfl⟩ := mem_run_seq.1 hy
      obtain ⟨a, h1, h2, h3, h4⟩ := (mem_run_rep_cls n).1 hu
      obtain ⟨h5, h6⟩ := mem_run_chr.1 hv
      obtain ⟨gs, h7, h8, h9, h10⟩ := (mem_run_macGroups k).1 hz
      refine ⟨a :: gs, by simp [h7], ?_, ?_, by simp [h4, h6, h10]⟩
      · intro g hg
        rcases List.mem_cons.1 hg with rfl | hg
        · exact ⟨h1, h2⟩
        · exact h8 g hg
      · simp only at h9
        rw [h3, h5, h9]; simp
    · rintro ⟨gs, h1, h2, h3, h4⟩
      cases gs with
      | nil => simp at h1
      | cons g gs =>
        have hg := h2 g (by simp)
        have hmid : (gs.flatMap (fun g => g ++ [sep]) ++ x.1, ([] : Caps)) ∈
            (Re.seq (Re.rep (.cls isHex) n) (Re.chr sep)).run s := by
          rw [mem_run_seq]
          exact ⟨(sep :: (gs.flatMap (fun g => g ++ [sep]) ++ x.1), []),
            (mem_run_rep_cls n).2 ⟨g, hg.1, hg.2, by rw [h3]; simp, rfl⟩,
            (gs.flatMap (fun g => g ++ [sep]) ++ x.1, []), mem_run_chr.2 ⟨rfl, rfl⟩, rfl⟩
        refine ⟨_, hmid, (x.1, []), (mem_run_macGroups k).2
          ⟨gs, by simpa using h1, fun g hg => h2 g (List.mem_cons_of_mem _ hg), rfl, rfl⟩, ?_⟩
        exact Prod.ext rfl h4

theorem joinWith_snoc (sep : Char) (gs : List Str) (g : Str) :
    joinWith [sep] (gs ++ [g]) = gs.flatMap (fun g => g ++ [sep]) ++ g := by
  induction gs with
  | nil => rfl
  | cons a t ih =>
    cases t with
    | nil => simp [joinWith]
    | cons b t =>
      simp only [List.cons_append, joinWith, List.flatMap_cons] at ih ⊢
      rw [ih]; simp

theorem isHex_iff {c : Char} : isHex c = true ↔ HexDigit c := by
  simp only [isHex, isDig, HexDigit, Bool.or_eq_true, Bool.and_eq_true, decide_eq_true_eq, or_assoc]

theorem hex_not_ws {c : Char} (h : HexDigit c) : isWs c = false := by
  by_contra hw
  rw [Bool.not_eq_false] at hw
  unfold HexDigit at h
  simp only [isWs, Bool.or_eq_true, beq_iff_eq] at hw
  rcases hw with ((((((((rfl | rfl) | rfl) | rfl) | rfl) | rfl) | rfl) | rfl) | rfl) | rfl <;>
    revert h <;> decide

/-- the MAC expression on a string that does not end in a newline -/
theorem macRe_iff {n k : Nat} {sep : Char} {s : Str} (hs : s.getLast? ≠ some '\n') :
    (reMatch (macRe n sep k) s).isSome = true ↔ HexGroups (k + 1) n sep s := by
  rw [reMatch_isSome]
  unfold macRe HexGroups
  constructor
  · rintro ⟨x, hx⟩
    obtain ⟨y, hy, z, hz, rfl⟩ := mem_run_seq.1 hx
    obtain ⟨gs, h1, h2, h3, h4⟩ := (mem_run_macGroups k).1 hy
    obtain ⟨u, hu, v, hv, rfl⟩ := mem_run_seq.1 hz
    obtain ⟨a, h5, h6, h7, h8⟩ := (mem_run_rep_cls n).1 hu
    obtain ⟨h9, rfl⟩ := mem_run_eol.1 hv
    have hu1 : u.1 = [] := by
      rcases h9 with h | h
      · exact h
      · exfalso
        apply hs
        rw [h3, h7, h]
        simp [List.getLast?_append]
    refine ⟨gs ++ [a], by simp [h1], ?_, ?_⟩
    · intro g hg
      simp only [← isHex_iff]
      rcases List.mem_append.1 hg with hg | hg
      · exact h2 g hg
      · simp only [List.mem_singleton] at hg; subst hg; exact ⟨h5, h6⟩
    · rw [joinWith_snoc, h3, h7, hu1, List.append_nil]
  · rintro ⟨gs, h1, h2, h3⟩
    obtain ⟨fs, g, rfl⟩ : ∃ fs g, gs = fs ++ [g] := by
      rcases List.eq_nil_or_concat gs with rfl | ⟨fs, g, rfl⟩
      · simp at h1
      · exact ⟨fs, g, by simp⟩
    simp only [← isHex_iff] at h2
    have hg := h2 g (by simp)
    rw [joinWith_snoc] at h3
    refine ⟨([], []), mem_run_seq.2 ⟨(g, []), (mem_run_macGroups k).2
      ⟨fs, by simpa using h1, fun f hf => h2 f (by simp [hf]), h3, rfl⟩, ([], []), ?_, rfl⟩⟩
    exact mem_run_seq.2 ⟨([], []), (mem_run_rep_cls n).2 ⟨g, hg.1, hg.2, by simp, rfl⟩, ([], []),
      mem_run_eol.2 ⟨Or.inl rfl, rfl⟩, rfl⟩

theorem deviceRe_iff {s : Str} (hs : s.getLast? ≠ some '\n') :
    (reMatch deviceRe s).isSome = true ↔ IsDeviceAddress s := by
  rw [reMatch_isSome]
  unfold deviceRe IsDeviceAddress
  constructor
  · rintro ⟨x, hx⟩
    obtain ⟨y, hy, z, hz, rfl⟩ := mem_run_seq.1 hx
    obtain ⟨a, h1, h2, h3, -⟩ := mem_run_plus_cls.1 hy
    obtain ⟨u, hu, v, hv, rfl⟩ := mem_run_seq.1 hz
    obtain ⟨h4, -⟩ := mem_run_chr.1 hu
    obtain ⟨p, hp, q, hq, rfl⟩ := mem_run_seq.1 hv
    obtain ⟨b, h5, h6, h7, -⟩ := mem_run_plus_cls.1 hp
    obtain ⟨h9, -⟩ := mem_run_eol.1 hq
    have hp1 : p.1 = [] := by
      rcases h9 with h | h
      · exact h
      · exfalso
        apply hs
        rw [h2, h4, h6, h]
        simp [List.getLast?_append, List.getLast?_cons]
    refine ⟨a, b, ⟨h1, by simpa using h3⟩, ⟨h5, by simpa using h7⟩, ?_⟩
    rw [h2, h4, h6, hp1, List.append_nil]
  · rintro ⟨a, b, ha, hb, rfl⟩
    refine ⟨([], []), mem_run_seq.2 ⟨(':' :: b, []), mem_run_plus_cls.2
      ⟨a, ha.1, rfl, by simpa using ha.2, rfl⟩, ([], []), ?_, rfl⟩⟩
    refine mem_run_seq.2 ⟨(b, []), mem_run_chr.2 ⟨rfl, rfl⟩, ([], []), ?_, rfl⟩
    exact mem_run_seq.2 ⟨([], []), mem_run_plus_cls.2 ⟨b, hb.1, by simp, by simpa using hb.2, rfl⟩,
      ([], []), mem_run_eol.2 ⟨Or.inl rfl, rfl⟩, rfl⟩

/-! ### Case-insensitive prefixes -/

theorem mem_run_chrI {c : Char} {s : Str} {x : Str × Caps} :
    x ∈ (Re.chrI c).run s ↔ ∃ d, lowerC d = lowerC c ∧ s = d :: x.1 ∧ x.2 = [] := by
  unfold Re.chrI
  rw [mem_run_cls]
  simp only [beq_iff_eq]

theorem mem_run_litI {w s : Str} {x : Str × Caps} :
    x ∈ (Re.litI w).run s ↔ ∃ a, lower a = lower w ∧ s = a ++ x.1 ∧ x.2 = [] := by
  unfold Re.litI
  induction w generalizing s x with
  | nil =>
    simp only [List.map_nil, Re.cat, mem_run_eps]
    constructor
    · rintro rfl; exact ⟨[], rfl, rfl, rfl⟩
    · rintro ⟨a, h1, h2, h3⟩
      have : a = [] := by simpa [lower] using h1
      subst this
      exact Prod.ext h2.symm h3
  | cons c t ih =>
    cases t with
    | nil =>
      simp only [List.map_cons, List.map_nil, Re.cat, mem_run_chrI]
      constructor
      · rintro ⟨d, h1, h2, h3⟩; exact ⟨[d], by simp [lower, h1], h2, h3⟩
      · rintro ⟨a, h1, h2, h3⟩
        match a, h1 with
        | [d], h1 => exact ⟨d, by simpa [lower] using h1, h2, h3⟩
        | [], h1 => simp [lower] at h1
        | _ :: _ :: _, h1 => simp [lower] at h1
    | cons d t =>
      rw [List.map_cons, run_cat_cons _ _ (by simp), mem_run_seq]
      constructor
      · rintro ⟨y, hy, z, hz, rfl⟩
        obtain ⟨e, h1, h2, h3⟩ := mem_run_chrI.1 hy
        obtain ⟨a, h4, h5, h6⟩ := ih.1 hz
        refine ⟨e :: a, ?_, by rw [h2, h5]; rfl, by rw [h3, h6]; rfl⟩
        unfold lower at h4 ⊢
        rw [List.map_cons, h4, h1]; rfl
      · rintro ⟨a, h1, h2, h3⟩
        cases a with
        | nil => simp [lower] at h1
        | cons e a =>
          unfold lower at h1
          rw [List.map_cons, List.map_cons, List.cons.injEq] at h1
          refine ⟨(a ++ x.1, []), mem_run_chrI.2 ⟨e, h1.1, h2, rfl⟩, (x.1, []),
            ih.2 ⟨a, h1.2, rfl, rfl⟩, ?_⟩
          exact Prod.ext rfl h3

theorem lower_append (a b : Str) : lower (a ++ b) = lower a ++ lower b := by simp [lower]

theorem lowerC_space {c : Char} : lowerC c = ' ' ↔ c = ' ' := by
  constructor
  · intro h
    unfold lowerC at h
    split at h
    · rename_i hc
      exfalso
      obtain ⟨h1, h2⟩ := hc
      have e1 : 65 ≤ c.toNat := h1
      have e2 : c.toNat ≤ 90 := h2
      have := congrArg Char.toNat h
      rw [toNat_ofNat_small (by omega)] at this
      have e3 : (' ' : Char).toNat = 32 := rfl
      omega
    · exact h
  · rintro rfl; decide

theorem lower_replicate_space (k : Nat) : lower (List.replicate k ' ') = List.replicate k ' ' := by
  simp only [lower, List.map_replicate]
  rfl

theorem lower_eq_append {s a b : Str} (h : lower s = a ++ b) :
    ∃ s1 s2, s = s1 ++ s2 ∧ lower s1 = a ∧ lower s2 = b := by
  refine ⟨s.take a.length, s.drop a.length, (List.take_append_drop _ _).symm, ?_, ?_⟩
  · unfold lower at h ⊢; rw [List.map_take, h]; simp
  · unfold lower at h ⊢; rw [List.map_drop, h]; simp

theorem lower_eq_replicate {s : Str} {k : Nat} (h : lower s = List.replicate k ' ') :
    s = List.replicate k ' ' := by
  rw [List.eq_replicate_iff] at h ⊢
  refine ⟨by simpa [lower] using h.1, fun c hc => ?_⟩
  exact lowerC_space.1 (h.2 (lowerC c) (List.mem_map.2 ⟨c, hc, rfl⟩))

theorem lower_idem_of {w : Str} (h : lower w = w) {a : Str} (ha : lower a = lower w) : lower a = w := by
  rw [ha, h]

theorem lowerC_idem (c : Char) : lowerC (lowerC c) = lowerC c := by
  by_cases h : 'A' ≤ c ∧ c ≤ 'Z'
  · have e1 : 65 ≤ c.toNat := h.1
    have e2 : c.toNat ≤ 90 := h.2
    have h1 : lowerC c = Char.ofNat (c.toNat + 32) := by unfold lowerC; rw [if_pos h]
    have h2 : (Char.ofNat (c.toNat + 32)).toNat = c.toNat + 32 :=
      toNat_ofNat_small (by omega)
    rw [h1]
    unfold lowerC
    rw [if_neg]
    rintro ⟨-, h3⟩
    have e3 : (Char.ofNat (c.toNat + 32)).toNat ≤ 90 := h3
    omega
  · have h1 : lowerC c = c := by unfold lowerC; rw [if_neg h]
    rw [h1, h1]

theorem lower_idem (s : Str) : lower (lower s) = lower s := by
  simp [lower, lowerC_idem]

/-- a pattern of words with optional blanks matches exactly the strings that start so -/
theorem spaced_iff : ∀ (ws : List Str), (∀ w ∈ ws, lower w = w) → ∀ (s : Str),
    (∃ x, x ∈ (spaced ws).run s) ↔ StartsCI ws s
  | [], _, s => by simp [spaced, StartsCI, Re.run]
  | [w], hw, s => by
    have hl := hw w (by simp)
    unfold spaced StartsCI
    constructor
    · rintro ⟨x, hx⟩
      obtain ⟨a, h1, h2, -⟩ := mem_run_litI.1 hx
      exact ⟨lower x.1, by rw [h2, lower_append, h1, hl]⟩
    · rintro ⟨rest, h⟩
      obtain ⟨s1, s2, h1, h2, -⟩ := lower_eq_append h
      exact ⟨(s2, []), mem_run_litI.2 ⟨s1, by rw [h2, hl], h1, rfl⟩⟩
  | w :: v :: t, hw, s => by
    have hl := hw w (by simp)
    have ih := spaced_iff (v :: t) (fun u hu => hw u (List.mem_cons_of_mem _ hu))
    unfold spaced StartsCI
    constructor
    · rintro ⟨x, hx⟩
      obtain ⟨y, hy, z, hz, -⟩ := mem_run_seq.1 hx
      obtain ⟨a, h1, h2, -⟩ := mem_run_litI.1 hy
      obtain ⟨p, hp, q, hq, -⟩ := mem_run_seq.1 hz
      unfold Re.chr at hp
      obtain ⟨b, h3, h4, -⟩ := mem_run_star_cls.1 hp
      have hb : b = List.replicate b.length ' ' := by
        rw [List.eq_replicate_iff]
        refine ⟨rfl, fun c hc => ?_⟩
        simpa using (List.all_eq_true.1 h4) c hc
      obtain hst := (ih p.1).1 ⟨q, hq⟩
      refine ⟨b.length, lower p.1, ?_, ?_⟩
      · rw [h2, lower_append, h1, hl, h3, lower_append, List.append_assoc]
        congr 2
        rw [hb, lower_replicate_space, List.length_replicate]
      · -- StartsCI only looks at the lower-cased string
        cases t with
        | nil =>
          obtain ⟨r, hr⟩ := hst
          exact ⟨r, by rw [lower_idem, hr]⟩
        | cons u t =>
          obtain ⟨k, r, hr, hr'⟩ := hst
          exact ⟨k, r, by rw [lower_idem, hr], hr'⟩
    · rintro ⟨k, rest, h, hst⟩
      rw [List.append_assoc] at h
      obtain ⟨s1, s', h1, h2, h3⟩ := lower_eq_append h
      obtain ⟨s2, s3, h4, h5, h6⟩ := lower_eq_append h3
      have h5' := lower_eq_replicate h5
      have hst' : StartsCI (v :: t) s3 := by
        rw [← h6] at hst
        cases t with
        | nil =>
          obtain ⟨r, hr⟩ := hst
          exact ⟨r, by rw [lower_idem] at hr; exact hr⟩
        | cons u t =>
          obtain ⟨k, r, hr, hr'⟩ := hst
          exact ⟨k, r, by rw [lower_idem] at hr; exact hr, hr'⟩
      obtain ⟨q, hq⟩ := (ih s3).2 hst'
      refine ⟨(q.1, q.2), mem_run_seq.2 ⟨(s', []), mem_run_litI.2 ⟨s1, by rw [h2, hl], h1, rfl⟩, q, ?_, rfl⟩⟩
      refine mem_run_seq.2 ⟨(s3, []), ?_, q, hq, rfl⟩
      unfold Re.chr
      refine mem_run_star_cls.2 ⟨s2, h4, ?_, rfl⟩
      rw [h5']
      simp

theorem startsCI_congr {ws : List Str} {s t : Str} (h : lower s = lower t) : StartsCI ws s ↔ StartsCI ws t := by
  match ws with
  | [] => simp [StartsCI]
  | [w] => simp only [StartsCI, h]
  | w :: v :: r => simp only [StartsCI, h]

end Cot
