import Verif.Model.Utilities
import Verif.Spec.Utilities
import Verif.Lemmas.DataValidation
import Verif.Lemmas.Str
import Verif.Lemmas.Dict
/-
Lemmas about manifest lines.
-/
namespace Cot

theorem split_first {c : Char} {x x' y y' : Str} (hx : c ∉ x) (hx' : c ∉ x')
    (h : x ++ c :: y = x' ++ c :: y') : x = x' ∧ y = y' := by
  induction x generalizing x' with
  | nil =>
    cases x' with
    | nil => simpa using h
    | cons a x' =>
      simp only [List.nil_append, List.cons_append, List.cons.injEq] at h
      exact absurd (by rw [h.1]; simp) hx'
  | cons a x ih =>
    cases x' with
    | nil =>
      simp only [List.nil_append, List.cons_append, List.cons.injEq] at h
      exact absurd (by rw [← h.1]; simp) hx
    | cons b x' =>
      simp only [List.cons_append, List.cons.injEq] at h
      obtain ⟨h1, h2⟩ := ih (fun hc => hx (by simp [hc])) (fun hc => hx' (by simp [hc])) h.2
      exact ⟨by rw [h.1, h1], h2⟩

theorem split_last {c : Char} {x x' y y' : Str} (hy : c ∉ y) (hy' : c ∉ y')
    (h : x ++ c :: y = x' ++ c :: y') : x = x' ∧ y = y' := by
  have := congrArg List.reverse h
  simp only [List.reverse_append, List.reverse_cons, List.append_assoc, List.singleton_append] at this
  obtain ⟨h1, h2⟩ := split_first (by simpa using hy) (by simpa using hy') this
  exact ⟨List.reverse_injective h2, List.reverse_injective h1⟩

theorem isUpDig_iff {c : Char} : isUpDig c = true ↔ ('0' ≤ c ∧ c ≤ '9') ∨ ('A' ≤ c ∧ c ≤ 'Z') := by
  simp [isUpDig, isDig]

theorem isLoHex_iff {c : Char} : isLoHex c = true ↔ ('0' ≤ c ∧ c ≤ '9') ∨ ('a' ≤ c ∧ c ≤ 'f') := by
  simp [isLoHex, isDig]

theorem char_le_nat {a b : Char} : a ≤ b ↔ a.toNat ≤ b.toNat := by
  rw [Char.le_def, UInt32.le_iff_toNat_le]; rfl

theorem isWs_iff {c : Char} : isWs c = true ↔ c = ' ' ∨ c = '\t' ∨ c = '\n' ∨ c = '\r' ∨ c = '\x0b' ∨ c = '\x0c'
    ∨ c = '\x1c' ∨ c = '\x1d' ∨ c = '\x1e' ∨ c = '\x1f' := by
  simp [isWs, or_assoc]

theorem updig_not_ws {c : Char} (h : ('0' ≤ c ∧ c ≤ '9') ∨ ('A' ≤ c ∧ c ≤ 'Z')) : isWs c = false := by
  by_contra hc
  rw [Bool.not_eq_false, isWs_iff] at hc
  rcases hc with rfl | rfl | rfl | rfl | rfl | rfl | rfl | rfl | rfl | rfl <;> revert h <;> decide

theorem lohex_not_ws {c : Char} (h : ('0' ≤ c ∧ c ≤ '9') ∨ ('a' ≤ c ∧ c ≤ 'f')) : isWs c = false := by
  by_contra hc
  rw [Bool.not_eq_false, isWs_iff] at hc
  rcases hc with rfl | rfl | rfl | rfl | rfl | rfl | rfl | rfl | rfl | rfl <;> revert h <;> decide

theorem blank_no {w : Str} (h : Blank w) {c : Char} (hc : isWs c = false) : c ∉ w := by
  intro hm
  have := h c hm
  rw [hc] at this
  cases this

theorem strip_blank_pad {a t b : Str} (ha : Blank a) (hb : Blank b) (ht : ∀ c ∈ t, isWs c = false) :
    strip (a ++ t ++ b) = t :=
  strip_eq_iff.2 ⟨⟨a, b, ha, hb, rfl⟩, fun c hc => ht c (List.mem_of_mem_head? hc),
    fun c hc => ht c (List.mem_of_mem_getLast? hc)⟩

/-- the parts of a manifest line are determined by the line -/
theorem manifestLine_unique {line a n s a' n' s' : Str} (h : IsManifestLine line a n s)
    (h' : IsManifestLine line a' n' s') : a = a' ∧ n = n' ∧ s = s' := by
  obtain ⟨ha, hn, hs, w1, w2, w3, w4, w5, b1, b2, b3, b4, b5, e⟩ := h
  obtain ⟨ha', hn', hs', v1, v2, v3, v4, v5, c1, c2, c3, c4, c5, e'⟩ := h'
  have hparen : ∀ {x : Str}, UpperDigits x → '(' ∉ x := fun hx hm => absurd (hx.2 _ hm) (by decide)
  have e1 : (w1 ++ a ++ w2) ++ '(' :: (n ++ ')' :: (w3 ++ '=' :: (w4 ++ s ++ w5))) =
      (v1 ++ a' ++ v2) ++ '(' :: (n' ++ ')' :: (v3 ++ '=' :: (v4 ++ s' ++ v5))) := by
    have := e.symm.trans e'
    simpa using this
  obtain ⟨f1, f2⟩ := split_first
    (by
      simp only [List.mem_append, not_or]
      exact ⟨⟨blank_no b1 (by decide), hparen ha⟩, blank_no b2 (by decide)⟩)
    (by
      simp only [List.mem_append, not_or]
      exact ⟨⟨blank_no c1 (by decide), hparen ha'⟩, blank_no c2 (by decide)⟩) e1
  have hs1 : ∀ {x : Str}, LowerHex x → ')' ∉ x := fun hx hm => absurd (hx.2 _ hm) (by decide)
  obtain ⟨f3, f4⟩ := split_last
    (by
      simp only [List.mem_append, List.mem_cons, not_or]
      exact ⟨blank_no b3 (by decide), by decide, ⟨blank_no b4 (by decide), hs1 hs⟩, blank_no b5 (by decide)⟩)
    (by
      simp only [List.mem_append, List.mem_cons, not_or]
      exact ⟨blank_no c3 (by decide), by decide, ⟨blank_no c4 (by decide), hs1 hs'⟩, blank_no c5 (by decide)⟩) f2
  obtain ⟨-, f6⟩ := split_first (blank_no b3 (by decide)) (blank_no c3 (by decide)) f4
  refine ⟨?_, f3, ?_⟩
  · rw [← strip_blank_pad b1 b2 (fun c hc => updig_not_ws (ha.2 c hc)), f1,
      strip_blank_pad c1 c2 (fun c hc => updig_not_ws (ha'.2 c hc))]
  · rw [← strip_blank_pad b4 b5 (fun c hc => lohex_not_ws (hs.2 c hc)), f6,
      strip_blank_pad c4 c5 (fun c hc => lohex_not_ws (hs'.2 c hc))]

theorem manifestRe_mem {line r : Str} {m : Caps} (hnl : '\n' ∉ line) :
    (r, m) ∈ manifestRe.run line ↔ r = [] ∧ ∃ a n s, IsManifestLine line a n s ∧ m = [(1, a), (2, n), (3, s)] := by
  unfold manifestRe
  simp only [Re.cat, Re.ws, Re.dot, seq_star, seq_grp_plus, seq_chr, mem_eol, isUpDig_iff, isLoHex_iff]
  constructor
  · rintro ⟨w1, t1, rfl, hw1, a, t2, m2, rfl, ha, ha', ⟨w2, t3, rfl, hw2, t4, rfl, n, t5, m3, rfl, hn, hn', ⟨t6, rfl, w3,
      t7, rfl, hw3, t8, rfl, w4, t9, rfl, hw4, s, t10, m4, rfl, hs, hs', ⟨w5, t11, rfl, hw5, ht, rfl, rfl⟩, rfl⟩, rfl⟩, rfl⟩
    have ht' : r = [] := by
      rcases ht with h | h
      · exact h
      · exfalso; apply hnl; rw [h]; simp
    subst ht'
    refine ⟨rfl, a, n, s, ⟨⟨ha, ha'⟩, ⟨hn, ?_⟩, ⟨hs, hs'⟩, w1, w2, w3, w4, w5, hw1, hw2, hw3, hw4, hw5, by simp⟩, rfl⟩
    intro hm
    have := hn' _ hm
    simp at this
  · rintro ⟨rfl, a, n, s, ⟨ha, hn, hs, w1, w2, w3, w4, w5, hw1, hw2, hw3, hw4, hw5, rfl⟩, rfl⟩
    refine ⟨w1, _, by simp only [List.append_assoc]; rfl, hw1, a, _, _, rfl, ha.1, ha.2, ⟨w2, _, rfl, hw2, _, rfl, n, _, _, rfl,
      hn.1, ?_, ⟨_, rfl, w3, _, rfl, hw3, _, rfl, w4, _, rfl, hw4, s, _, _, rfl, hs.1, hs.2, ⟨w5, [], by simp, hw5,
        Or.inl rfl, rfl, rfl⟩, rfl⟩, rfl⟩, rfl⟩
    intro c hc
    have : c ≠ '\n' := by rintro rfl; exact hn.2 hc
    simpa using this

theorem manifestRe_some {line : Str} (hnl : '\n' ∉ line) {a n s : Str} (h : IsManifestLine line a n s) :
    reMatch manifestRe line = some [(1, a), (2, n), (3, s)] := by
  apply reMatch_eq_of
  · exact ⟨[], (manifestRe_mem hnl).2 ⟨rfl, a, n, s, h, rfl⟩⟩
  · intro x m' hm
    obtain ⟨-, a', n', s', h', rfl⟩ := (manifestRe_mem hnl).1 hm
    obtain ⟨rfl, rfl, rfl⟩ := manifestLine_unique h h'
    rfl

theorem manifestRe_none {line : Str} (hnl : '\n' ∉ line) (h : ∀ a n s, ¬ IsManifestLine line a n s) :
    reMatch manifestRe line = none := by
  rw [reMatch_none]
  rintro ⟨r, m⟩ hx
  obtain ⟨-, a, n, s, h', -⟩ := (manifestRe_mem hnl).1 hx
  exact h a n s h'

theorem not_manifestLine_nil {a n s : Str} : ¬ IsManifestLine [] a n s := by
  rintro ⟨-, -, -, w1, w2, w3, w4, w5, -, -, -, -, -, e⟩
  have := congrArg List.length e
  simp at this

theorem parseManifestLines_cons_some {line a n s : Str} (hnl : '\n' ∉ line) (h : IsManifestLine line a n s)
    (rest : List Str) (acc : List (Str × Str × Str)) :
    parseManifestLines (line :: rest) acc = parseManifestLines rest (dset acc n (a, s)) := by
  have hne : line ≠ [] := by rintro rfl; exact not_manifestLine_nil h
  rw [parseManifestLines, if_neg hne, manifestRe_some hnl h]
  rfl

theorem parseManifestLines_cons_none {line : Str} (hnl : '\n' ∉ line) (h : ∀ a n s, ¬ IsManifestLine line a n s)
    (rest : List Str) (acc : List (Str × Str × Str)) :
    parseManifestLines (line :: rest) acc = parseManifestLines rest acc := by
  rw [parseManifestLines]
  split
  · rfl
  · rw [manifestRe_none hnl h]

theorem parseManifestLines_get : ∀ (ls : List Str) (acc : List (Str × Str × Str)) (name a s : Str),
    (∀ l ∈ ls, '\n' ∉ l) →
    (dget? (parseManifestLines ls acc) name = some (a, s) ↔
      (∃ pre line post, ls = pre ++ line :: post ∧ IsManifestLine line a name s ∧
        ∀ l ∈ post, ∀ a' s', ¬ IsManifestLine l a' name s') ∨
      (dget? acc name = some (a, s) ∧ ∀ l ∈ ls, ∀ a' s', ¬ IsManifestLine l a' name s'))
  | [], acc, name, a, s, _ => by simp [parseManifestLines]
  | line :: rest, acc, name, a, s, hnl => by
    have hl := hnl line (by simp)
    have ih := fun acc => parseManifestLines_get rest acc name a s (fun l hl => hnl l (by simp [hl]))
    have hcons : (∃ pre line' post, line :: rest = pre ++ line' :: post ∧ IsManifestLine line' a name s ∧
        ∀ l ∈ post, ∀ a' s', ¬ IsManifestLine l a' name s') ↔
        (IsManifestLine line a name s ∧ ∀ l ∈ rest, ∀ a' s', ¬ IsManifestLine l a' name s') ∨
        (∃ pre line' post, rest = pre ++ line' :: post ∧ IsManifestLine line' a name s ∧
          ∀ l ∈ post, ∀ a' s', ¬ IsManifestLine l a' name s') := by
      constructor
      · rintro ⟨pre, line', post, h1, h2, h3⟩
        cases pre with
        | nil =>
          simp only [List.nil_append, List.cons.injEq] at h1
          obtain ⟨rfl, rfl⟩ := h1
          exact Or.inl ⟨h2, h3⟩
        | cons x pre =>
          simp only [List.cons_append, List.cons.injEq] at h1
          exact Or.inr ⟨pre, line', post, h1.2, h2, h3⟩
      · rintro (⟨h1, h2⟩ | ⟨pre, line', post, h1, h2, h3⟩)
        · exact ⟨[], line, rest, rfl, h1, h2⟩
        · exact ⟨line :: pre, line', post, by rw [h1]; rfl, h2, h3⟩
    rw [hcons]
    by_cases hm : ∃ a0 n0 s0, IsManifestLine line a0 n0 s0
    · obtain ⟨a0, n0, s0, hm⟩ := hm
      rw [parseManifestLines_cons_some hl hm, ih]
      by_cases hn : n0 = name
      · subst hn
        rw [dget?_dset, if_pos rfl]
        constructor
        · rintro (h | ⟨h1, h2⟩)
          · exact Or.inl (Or.inr h)
          · simp only [Option.some.injEq, Prod.mk.injEq] at h1
            obtain ⟨rfl, rfl⟩ := h1
            exact Or.inl (Or.inl ⟨hm, h2⟩)
        · rintro ((⟨h1, h2⟩ | h) | ⟨-, h2⟩)
          · obtain ⟨rfl, -, rfl⟩ := manifestLine_unique hm h1
            exact Or.inr ⟨rfl, h2⟩
          · exact Or.inl h
          · exact absurd hm (h2 line (by simp) _ _)
      · rw [dget?_dset, if_neg hn]
        have hno : ∀ a' s', ¬ IsManifestLine line a' name s' := by
          intro a' s' h'
          exact hn (manifestLine_unique hm h').2.1
        constructor
        · rintro (h | ⟨h1, h2⟩)
          · exact Or.inl (Or.inr h)
          · refine Or.inr ⟨h1, ?_⟩
            intro l hl
            rcases List.mem_cons.1 hl with rfl | hl
            · exact hno
            · exact h2 l hl
        · rintro ((⟨h1, h2⟩ | h) | ⟨h1, h2⟩)
          · exact absurd h1 (hno _ _)
          · exact Or.inl h
          · exact Or.inr ⟨h1, fun l hl => h2 l (by simp [hl])⟩
    · push Not at hm
      rw [parseManifestLines_cons_none hl hm, ih]
      constructor
      · rintro (h | ⟨h1, h2⟩)
        · exact Or.inl (Or.inr h)
        · refine Or.inr ⟨h1, ?_⟩
          intro l hl
          rcases List.mem_cons.1 hl with rfl | hl
          · exact fun a' s' => hm a' name s'
          · exact h2 l hl
      · rintro ((⟨h1, h2⟩ | h) | ⟨h1, h2⟩)
        · exact absurd h1 (hm _ _ _)
        · exact Or.inl h
        · exact Or.inr ⟨h1, fun l hl => h2 l (by simp [hl])⟩

theorem upperC_alnum {c : Char} (h : ('0' ≤ c ∧ c ≤ '9') ∨ ('a' ≤ c ∧ c ≤ 'z') ∨ ('A' ≤ c ∧ c ≤ 'Z')) :
    ('0' ≤ upperC c ∧ upperC c ≤ '9') ∨ ('A' ≤ upperC c ∧ upperC c ≤ 'Z') := by
  unfold upperC
  split
  · rename_i hl
    right
    rw [char_le_nat, char_le_nat] at hl
    have e1 : ('a' : Char).toNat = 97 := rfl
    have e2 : ('z' : Char).toNat = 122 := rfl
    rw [e1, e2] at hl
    have e3 : ('A' : Char).toNat = 65 := rfl
    have e4 : ('Z' : Char).toNat = 90 := rfl
    have e5 : (Char.ofNat (c.toNat - 32)).toNat = c.toNat - 32 := toNat_ofNat_small (by omega)
    rw [char_le_nat, char_le_nat, e5, e3, e4]; omega
  · rename_i hl
    rcases h with h | h | h
    · exact Or.inl h
    · exact absurd h hl
    · exact Or.inr h

theorem upper_alnum {s : Str} (h : Alnum s) : UpperDigits (upper s) := by
  refine ⟨by simpa [upper] using h.1, ?_⟩
  intro c hc
  unfold upper at hc
  obtain ⟨d, hd, rfl⟩ := List.mem_map.1 hc
  exact upperC_alnum (h.2 d hd)

/-- what `manifest_text` looks like as lines -/
theorem manifestText_lines (algo : Str) (files : List (Str × Str)) (ha : Alnum algo)
    (hf : ∀ f ∈ files, FileName f.1 ∧ LowerHex f.2) :
    splitOnChar '\n' (manifestText algo files) =
      files.map (fun f => upper algo ++ "(".toList ++ f.1 ++ ")= ".toList ++ f.2) ++ [[]] := by
  induction files with
  | nil => rfl
  | cons f t ih =>
    have ih := ih (fun g hg => hf g (by simp [hg]))
    unfold manifestText at ih ⊢
    rw [List.map_cons, List.flatten_cons]
    have e : manifestLine algo f.1 f.2 ++ (t.map (fun f => manifestLine algo f.1 f.2)).flatten =
        (upper algo ++ "(".toList ++ f.1 ++ ")= ".toList ++ f.2) ++ '\n' ::
          (t.map (fun f => manifestLine algo f.1 f.2)).flatten := by
      unfold manifestLine
      have : "\n".toList = ['\n'] := rfl
      rw [this]
      simp only [List.append_assoc, List.singleton_append]
    rw [e, splitOnChar_word, ih]
    · rfl
    · obtain ⟨hn, hs⟩ := hf f (by simp)
      simp only [List.mem_append, not_or]
      refine ⟨⟨⟨⟨?_, by decide⟩, hn.2⟩, by decide⟩, ?_⟩
      · intro hm; exact absurd ((upper_alnum ha).2 _ hm) (by decide)
      · intro hm; exact absurd (hs.2 _ hm) (by decide)

theorem manifestLine_is {algo n s : Str} (ha : Alnum algo) (hn : FileName n) (hs : LowerHex s) :
    IsManifestLine (upper algo ++ "(".toList ++ n ++ ")= ".toList ++ s) (upper algo) n s := by
  refine ⟨upper_alnum ha, hn, hs, [], [], [], [' '], [], by simp [Blank], by simp [Blank], by simp [Blank],
    by simp [Blank, isWs], by simp [Blank], ?_⟩
  simp

end Cot
