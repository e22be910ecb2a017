import Verif.Model.Wildcard
import Verif.Spec.Wildcard
import Verif.Lemmas.Manifest
import Verif.Lemmas.Units
import Verif.Props.NatSort
/-
C31, C32, C34: name patterns and memory sizes.
-/
namespace Cot

theorem brace_not_digit {d : Str} (hd : Digits d) : '}' ∉ d := by
  intro h
  have := hd.2 _ h
  exact absurd this (by decide)

theorem hole_unique {d d' t t' : Str} (hd : Digits d) (hd' : Digits d') (h : '{' :: d ++ '}' :: t = '{' :: d' ++ '}' :: t') :
    d = d' ∧ t = t' := by
  simp only [List.cons_append, List.cons.injEq, true_and] at h
  exact split_first (brace_not_digit hd) (brace_not_digit hd') h

theorem mem_holeGrpRe {s r : Str} {m : Caps} :
    (r, m) ∈ holeGrpRe.run s ↔ ∃ d, Digits d ∧ s = '{' :: d ++ '}' :: r ∧ m = [(1, d)] := by
  unfold holeGrpRe
  simp only [Re.cat, Re.dig, seq_chr, seq_grp_plus]
  constructor
  · rintro ⟨t, rfl, w, t', m2, rfl, h1, h2, h3, rfl⟩
    obtain ⟨h4, h5⟩ := mem_run_chr.1 h3
    simp only at h4 h5
    exact ⟨w, ⟨h1, h2⟩, by rw [h4]; rfl, by rw [h5]⟩
  · rintro ⟨d, hd, rfl, rfl⟩
    exact ⟨_, rfl, d, '}' :: r, [], rfl, hd.1, hd.2, mem_run_chr.2 ⟨rfl, rfl⟩, rfl⟩

theorem mem_holeRe {s r : Str} {m : Caps} :
    (r, m) ∈ holeRe.run s ↔ ∃ d, Digits d ∧ s = '{' :: d ++ '}' :: r ∧ m = [] := by
  unfold holeRe
  simp only [Re.cat, Re.dig, seq_chr, seq_plus]
  constructor
  · rintro ⟨t, rfl, w, t', rfl, h1, h2, h3⟩
    obtain ⟨h4, h5⟩ := mem_run_chr.1 h3
    simp only at h4 h5
    exact ⟨w, ⟨h1, h2⟩, by rw [h4]; rfl, h5⟩
  · rintro ⟨d, hd, rfl, rfl⟩
    exact ⟨_, rfl, d, '}' :: r, rfl, hd.1, hd.2, mem_run_chr.2 ⟨rfl, rfl⟩⟩

theorem head?_of_unique {α : Type} {l : List α} {x : α} (h : x ∈ l) (hu : ∀ y ∈ l, y = x) : l.head? = some x := by
  cases l with
  | nil => simp at h
  | cons a t => rw [List.head?_cons, hu a (by simp)]

theorem holeRe_hole {d t : Str} (hd : Digits d) : (holeRe.run ('{' :: d ++ '}' :: t)).head? = some (t, []) := by
  refine head?_of_unique (mem_holeRe.2 ⟨d, hd, rfl, rfl⟩) ?_
  rintro ⟨r, m⟩ h
  obtain ⟨d', hd', h1, rfl⟩ := mem_holeRe.1 h
  rw [(hole_unique hd hd' h1).2]

theorem holeRe_none {s : Str} (h : ¬ StartsHole s) : (holeRe.run s).head? = none := by
  cases hr : holeRe.run s with
  | nil => rfl
  | cons a l =>
    exfalso
    obtain ⟨d, hd, h1, -⟩ := mem_holeRe.1 (show (a.1, a.2) ∈ holeRe.run s by rw [hr]; simp)
    exact h ⟨d, _, hd, h1⟩

theorem subst_aux (v : Str) : ∀ (n : Nat) (s : Str), s.length ≤ n → Subst v s (reSubAux holeRe v n s)
  | n, [], _ => by cases n <;> exact .nil
  | 0, _ :: _, h => by simp at h
  | n + 1, c :: t, h => by
    by_cases hs : StartsHole (c :: t)
    · obtain ⟨d, t', hd, he⟩ := hs
      have h1 : reSubAux holeRe v (n + 1) (c :: t) = v ++ reSubAux holeRe v n t' := by
        rw [reSubAux, he, holeRe_hole hd]
      rw [h1, he]
      refine .hole hd (subst_aux v n t' ?_)
      have := congrArg List.length he
      simp only [List.length_cons, List.length_append] at this h
      omega
    · have h1 : reSubAux holeRe v (n + 1) (c :: t) = c :: reSubAux holeRe v n t := by
        rw [reSubAux, holeRe_none hs]
      rw [h1]
      exact .char hs (subst_aux v n t (by simpa using h))

/-- `re.sub` replaces the placeholders -/
theorem subst_reSubst (v s : Str) : Subst v s (reSubst holeRe v s) := subst_aux v s.length s (Nat.le_refl _)

theorem subst_unique {v s r r' : Str} (h : Subst v s r) (h' : Subst v s r') : r = r' := by
  induction h generalizing r' with
  | nil => cases h'; rfl
  | @hole d t r hd _ ih =>
    generalize hs : '{' :: d ++ '}' :: t = s at h'
    cases h' with
    | nil => simp at hs
    | @hole d' t' r'' hd' h'' =>
      obtain ⟨-, rfl⟩ := hole_unique hd hd' hs
      rw [ih h'']
    | char hn _ => exact absurd ⟨d, t, hd, hs.symm⟩ hn
  | @char c t r hn _ ih =>
    generalize hs : c :: t = s at h'
    cases h' with
    | nil => simp at hs
    | @hole d' t' r'' hd' h'' => exact absurd ⟨d', t', hd', hs⟩ hn
    | char hn' h'' =>
      simp only [List.cons.injEq] at hs
      obtain ⟨rfl, rfl⟩ := hs
      rw [ih h'']

theorem firstNumber_startValue : ∀ (s : Str), FirstNumber s (startValue s)
  | [] => by
    have : startValue [] = 0 := by decide +kernel
    rw [this]; exact .nil
  | c :: t => by
    by_cases hs : StartsHole (c :: t)
    · obtain ⟨d, t', hd, he⟩ := hs
      have : startValue (c :: t) = digitsVal d := by
        unfold startValue
        rw [reSearch, he]
        have : reMatch holeGrpRe ('{' :: d ++ '}' :: t') = some [(1, d)] := by
          refine reMatch_eq_of ⟨t', mem_holeGrpRe.2 ⟨d, hd, rfl, rfl⟩⟩ ?_
          intro x m' h
          obtain ⟨d', hd', h1, rfl⟩ := mem_holeGrpRe.1 h
          rw [(hole_unique hd hd' h1).1]
        rw [this]
        rfl
      rw [this, he]
      exact .hole hd
    · have : startValue (c :: t) = startValue t := by
        unfold startValue
        rw [reSearch_skip]
        rw [reMatch_none]
        rintro ⟨r, m⟩ h
        obtain ⟨d, hd, h1, -⟩ := mem_holeGrpRe.1 h
        exact hs ⟨d, r, hd, h1⟩
      rw [this]
      exact .char hs (firstNumber_startValue t)

theorem fillLoop_eq (pat : Str) : ∀ (n v : Nat) (l : List Str), fillLoop pat n v l =
    l ++ (List.range n).map (fun i => reSubst holeRe (natStr (v + i)) pat)
  | 0, v, l => by simp [fillLoop]
  | n + 1, v, l => by
    rw [fillLoop, fillLoop_eq pat n, List.range_succ_eq_map, List.map_cons, List.map_map, List.append_assoc]
    congr 1
    simp only [Nat.add_zero, List.singleton_append, List.cons.injEq, true_and]
    apply List.map_congr_left
    intro i _
    simp only [Function.comp_apply]
    rw [show v + 1 + i = v + (i + 1) by omega]

theorem expand_concat (init : List Str) (pat : Str) (n : Nat) (h : init.length + 1 < n) :
    expandListWildcard (init ++ [pat]) n =
      init ++ (List.range (n - init.length)).map (fun i => reSubst holeRe (natStr (startValue pat + i)) pat) := by
  unfold expandListWildcard
  rw [if_neg (by simp), if_pos (by simpa using h)]
  simp only [List.dropLast_concat, List.getLastD_concat]
  rw [fillLoop_eq]

/-- **C31.** What `expand_list_wildcard` returns: nothing for no names; the names themselves if there are
enough of them; otherwise the names before the last one, followed by as many copies of the last one
as are needed, the placeholders in the i-th copy replaced by the i-th number from the first
placeholder's number on. -/
theorem C31_expand (names : List Str) (n : Nat) :
    (names = [] → expandListWildcard names n = []) ∧
    (n ≤ names.length → expandListWildcard names n = names) ∧
    (∀ init pat, names = init ++ [pat] → names.length < n → ∃ rs first,
      expandListWildcard names n = init ++ rs ∧ (init ++ rs).length = n ∧ FirstNumber pat first ∧
        ∀ i r, rs[i]? = some r → Subst (natStr (first + i)) pat r) := by
  refine ⟨?_, ?_, ?_⟩
  · rintro rfl; rfl
  · intro h
    unfold expandListWildcard
    split
    · rename_i h1; exact h1.symm
    · rw [if_neg (by omega)]
  · rintro init pat rfl h
    simp only [List.length_append, List.length_singleton] at h
    refine ⟨_, startValue pat, expand_concat init pat n h, ?_, firstNumber_startValue pat, ?_⟩
    · simp; omega
    · intro i r hr
      simp only [List.getElem?_map] at hr
      cases hi : (List.range (n - init.length))[i]? with
      | none => rw [hi] at hr; simp at hr
      | some j =>
        rw [hi] at hr
        simp only [Option.map_some, Option.some.injEq] at hr
        obtain ⟨hlt, hj⟩ := List.getElem?_eq_some_iff.1 hi
        simp only [List.getElem_range] at hj
        subst hj hr
        exact subst_reSubst _ _

/-- C31, the length: the result has the requested length, or the length of the list if that is longer. -/
theorem C31_length (names : List Str) (n : Nat) (h : names ≠ []) :
    (expandListWildcard names n).length = max n names.length := by
  by_cases hn : n ≤ names.length
  · rw [(C31_expand names n).2.1 hn]; omega
  · obtain ⟨rs, first, h1, h2, -⟩ := (C31_expand names n).2.2 names.dropLast (names.getLast h)
      (List.dropLast_concat_getLast h).symm (by omega)
    rw [h1, h2]; omega

theorem subst_no_brace {v s r : Str} (h : Subst v s r) (hv : '{' ∉ v)
    (hb : ∀ pre x, s = pre ++ '{' :: x → StartsHole ('{' :: x)) : '{' ∉ r := by
  induction h with
  | nil => simp
  | @hole d t r hd _ ih =>
    intro hm
    rcases List.mem_append.1 hm with hm | hm
    · exact hv hm
    · exact ih (fun pre x hx => hb ('{' :: d ++ '}' :: pre) x (by rw [hx]; simp)) hm
  | @char c t r hn _ ih =>
    intro hm
    rcases List.mem_cons.1 hm with hm | hm
    · exact hn (by have := hb [] t (by rw [hm]; rfl); rwa [hm] at this)
    · exact ih (fun pre x hx => hb (c :: pre) x (by rw [hx]; rfl)) hm

/-- C31, no placeholder is left in an expanded entry when every opening brace of the pattern begins a
placeholder.  Missing: nested braces and lists that are already long enough, see
`C31_placeholder_left_fails`. -/
theorem C31_no_placeholder_left_partial {v pat r : Str} (hv : '{' ∉ v) (h : Subst v pat r)
    (hb : ∀ pre x, pat = pre ++ '{' :: x → StartsHole ('{' :: x)) : ¬ HasHole r := by
  rintro ⟨pre, x, rfl, d, t, -, rfl⟩
  exact subst_no_brace h hv hb (by simp)

theorem natStr_no_brace (n : Nat) : '{' ∉ natStr n := fun h => absurd (isDig_natStr n _ h) (by decide)

/-- **C31 fails** in part: a placeholder can be left in the result, because a list that is already long
enough is not expanded, and because replacing a nested placeholder makes a new one. -/
theorem C31_placeholder_left_fails :
    (∃ r ∈ expandListWildcard ["eth{0}".toList] 1, HasHole r) ∧
    (∃ r ∈ expandListWildcard ["eth{{0}}".toList] 2, HasHole r) := by
  have h0 : Digits ['0'] := ⟨by decide, by decide⟩
  have h1 : Digits ['1'] := ⟨by decide, by decide⟩
  refine ⟨⟨"eth{0}".toList, by decide, "eth".toList, "{0}".toList, rfl, ['0'], [], h0, rfl⟩, ?_⟩
  exact ⟨"eth{1}".toList, by decide +kernel, "eth".toList, "{1}".toList, rfl, ['1'], [], h1, rfl⟩

/-- non-vacuity -/
example : expandListWildcard ["mgmt0".toList, "eth{10}".toList] 4 =
    ["mgmt0".toList, "eth10".toList, "eth11".toList, "eth12".toList] := by decide +kernel
example : ∀ pre x, "eth{10}/0".toList = pre ++ '{' :: x → StartsHole ('{' :: x) := by
  intro pre x h
  have : x = "10}/0".toList := by
    have := split_first (c := '{') (x := pre) (x' := "eth".toList) (y := x) (y' := "10}/0".toList) ?_ (by decide) h.symm
    · exact this.2
    · intro hm
      obtain ⟨a, b, rfl⟩ := List.append_of_mem hm
      have := congrArg (List.count '{') h
      simp only [List.count_append, List.count_cons_self] at this
      have e : List.count '{' "eth{10}/0".toList = 1 := by decide
      omega
  subst this
  exact ⟨"10".toList, "/0".toList, ⟨by decide, by decide⟩, rfl⟩

/-! ### C32 -/

theorem guessTokens_sound {known : List Str} {idx : Nat} : ∀ {toks : List (Nat × Str)} {pre : Str} {l : List Str},
    guessTokens known idx pre toks = some l →
      expandListWildcard l known.length = known ∧ ∃ pat, l = known.take idx ++ [pat]
  | [], _, _, h => by cases h
  | (n, t) :: r, pre, l, h => by
    unfold guessTokens at h
    simp only at h
    split at h
    · split at h
      · rename_i hx; cases h; exact ⟨hx, _, rfl⟩
      · exact guessTokens_sound h
    · exact guessTokens_sound h

theorem guessFrom_sound {known : List Str} : ∀ {ids : List Nat} {l : List Str}, guessFrom known ids = some l →
    ∃ idx ∈ ids, expandListWildcard l known.length = known ∧ ∃ pat, l = known.take idx ++ [pat]
  | [], _, h => by cases h
  | idx :: r, l, h => by
    unfold guessFrom at h
    simp only at h
    split at h
    · rename_i hx
      cases h
      exact ⟨idx, by simp, guessTokens_sound hx⟩
    · obtain ⟨i, hi, h⟩ := guessFrom_sound h
      exact ⟨i, by simp [hi], h⟩

/-- **C32.** If `guess_list_wildcard` returns a pattern list, it has fewer entries than the known names,
expanding it to their number gives exactly the known names, and expanding it further keeps them as
the first entries. -/
theorem C32_guess_sound {known pats : List Str} (h : guessListWildcard known = some pats) :
    pats.length < known.length ∧ expandListWildcard pats known.length = known ∧
      ∀ n, known.length ≤ n → known <+: expandListWildcard pats n := by
  obtain ⟨idx, hi, h1, pat, rfl⟩ := guessFrom_sound h
  rw [List.mem_range] at hi
  have hlen : (known.take idx).length = idx := by rw [List.length_take]; omega
  refine ⟨by simp; omega, h1, ?_⟩
  intro n hn
  rw [expand_concat _ _ _ (by rw [hlen]; omega)] at h1
  rw [expand_concat _ _ _ (by rw [hlen]; omega)]
  generalize hpre : known.take idx = pre at h1 hlen ⊢
  have hk : ∀ m, n - pre.length = (known.length - pre.length) + m →
      known <+: pre ++ List.map (fun i => reSubst holeRe (natStr (startValue pat + i)) pat) (List.range (n - pre.length)) := by
    intro m hm
    rw [hm, List.range_add, List.map_append, ← List.append_assoc, h1]
    exact List.prefix_append _ _
  exact hk (n - known.length) (by omega)

theorem reSubst_pattern {p s v : Str} (k : Nat) (hp : '{' ∉ p) (hs : '{' ∉ s) :
    reSubst holeRe v (p ++ '{' :: natStr k ++ '}' :: s) = p ++ v ++ s := by
  refine subst_unique (subst_reSubst _ _) ?_
  have hplain : ∀ s : Str, '{' ∉ s → Subst v s s := by
    intro s
    induction s with
    | nil => intro _; exact .nil
    | cons c t ih =>
      intro h
      refine .char ?_ (ih (fun hc => h (by simp [hc])))
      rintro ⟨d, t', -, he⟩
      simp only [List.cons_append, List.cons.injEq] at he
      exact h (by rw [he.1]; simp)
  induction p with
  | nil =>
    exact .hole ⟨natStr_ne_nil k, isDig_natStr k⟩ (hplain s hs)
  | cons c t ih =>
    refine .char ?_ (ih (fun hc => hp (by simp [hc])))
    rintro ⟨d, t', -, he⟩
    simp only [List.cons_append, List.cons.injEq] at he
    exact hp (by rw [he.1]; simp)

theorem startValue_pattern {p s : Str} (k : Nat) (hp : '{' ∉ p) :
    startValue (p ++ '{' :: natStr k ++ '}' :: s) = k := by
  have huniq : ∀ {s : Str} {m n : Nat}, FirstNumber s m → FirstNumber s n → m = n := by
    intro s m n h h'
    induction h generalizing n with
    | nil => cases h'; rfl
    | @hole d t hd =>
      generalize hs : '{' :: d ++ '}' :: t = s at h'
      cases h' with
      | nil => simp at hs
      | @hole d' t' hd' => rw [(hole_unique hd hd' hs).1]
      | char hn _ => exact absurd ⟨d, t, hd, hs.symm⟩ hn
    | @char c t n hn _ ih =>
      generalize hs : c :: t = s at h'
      cases h' with
      | nil => simp at hs
      | @hole d' t' hd' => exact absurd ⟨d', t', hd', hs⟩ hn
      | char hn' h'' =>
        simp only [List.cons.injEq] at hs
        obtain ⟨rfl, rfl⟩ := hs
        exact ih h''
  refine huniq (firstNumber_startValue _) ?_
  induction p with
  | nil =>
    have := FirstNumber.hole (t := s) ⟨natStr_ne_nil k, isDig_natStr k⟩
    rw [digitsVal_natStr] at this
    exact this
  | cons c t ih =>
    refine .char ?_ (ih (fun hc => hp (by simp [hc])))
    rintro ⟨d, t', -, he⟩
    simp only [List.cons_append, List.cons.injEq] at he
    exact hp (by rw [he.1]; simp)

theorem guessFrom_none {known : List Str} : ∀ {ids : List Nat}, guessFrom known ids = none →
    ∀ idx ∈ ids, guessTokens known idx (alphanumSplit (known.getD idx [])).1 (alphanumSplit (known.getD idx [])).2 = none
  | [], _, idx, h => by simp at h
  | i :: r, h, idx, hm => by
    unfold guessFrom at h
    simp only at h
    split at h
    · cases h
    · rename_i hx
      rcases List.mem_cons.1 hm with rfl | hm
      · exact hx
      · exact guessFrom_none h idx hm

theorem alphanumSplit_one {p s : Str} (hp : ∀ c ∈ p, isDig c = false) (hs : ∀ c ∈ s, isDig c = false) (k : Nat) :
    alphanumSplit (p ++ natStr k ++ s) = (p, [(k, s)]) := by
  have h : IsSplit (p ++ natStr k ++ s) [Tok.txt p, Tok.num k, Tok.txt s] := by
    refine ⟨p, [(natStr k, s)], ⟨by simp, hp, ?_, ?_⟩, by simp [digitsVal_natStr]⟩
    · intro e he
      simp only [List.mem_singleton] at he
      subst he
      exact ⟨natStr_ne_nil k, isDig_natStr k, hs⟩
    · intro a e b hab hb
      exfalso
      have := congrArg List.length hab
      simp only [List.length_append, List.length_cons, List.length_nil] at this
      have : b.length = 0 := by omega
      exact hb (List.length_eq_zero_iff.1 this)
  rw [isSplit_iff] at h
  exact keyToks_inj h.symm

/-- C32, it does guess: whenever the names end with a numbered sequence of at least two (text, number,
text; the texts without digits or opening braces), a pattern is found. -/
theorem C32_guesses_sequence (init : List Str) (p s : Str) (k n : Nat) (hn : 2 ≤ n)
    (hp : ∀ c ∈ p, isDig c = false ∧ c ≠ '{') (hs : ∀ c ∈ s, isDig c = false ∧ c ≠ '{') :
    ∃ pats, guessListWildcard (init ++ (List.range n).map (fun i => p ++ natStr (k + i) ++ s)) = some pats := by
  have hp1 : ∀ c ∈ p, isDig c = false := fun c hc => (hp c hc).1
  have hs1 : ∀ c ∈ s, isDig c = false := fun c hc => (hs c hc).1
  have hp2 : '{' ∉ p := fun h => (hp _ h).2 rfl
  have hs2 : '{' ∉ s := fun h => (hs _ h).2 rfl
  generalize hk : init ++ (List.range n).map (fun i => p ++ natStr (k + i) ++ s) = known
  have hlen : known.length = init.length + n := by rw [← hk]; simp
  have hget : ∀ i, i < n → known[init.length + i]? = some (p ++ natStr (k + i) ++ s) := by
    intro i hi
    rw [← hk, List.getElem?_append_right (by omega)]
    simp [hi]
  cases hg : guessListWildcard known with
  | some pats => exact ⟨pats, rfl⟩
  | none =>
    exfalso
    have h1 := guessFrom_none hg init.length (by rw [List.mem_range]; omega)
    have h2 : known.getD init.length [] = p ++ natStr k ++ s := by
      rw [List.getD_eq_getElem?_getD]
      have := hget 0 (by omega)
      rw [Nat.add_zero] at this
      rw [this]
      simp
    rw [h2, alphanumSplit_one hp1 hs1] at h1
    unfold guessTokens at h1
    simp only [joinToks, List.append_nil] at h1
    rw [if_pos (hget 1 (by omega))] at h1
    have h3 : known.take init.length = init := by rw [← hk]; simp
    have h4 : p ++ "{".toList ++ natStr k ++ "}".toList ++ s = p ++ '{' :: natStr k ++ '}' :: s := by simp
    rw [h3, h4] at h1
    have h5 : expandListWildcard (init ++ [p ++ '{' :: natStr k ++ '}' :: s]) known.length = known := by
      rw [expand_concat _ _ _ (by omega), startValue_pattern k hp2]
      rw [← hk]
      simp only [reSubst_pattern k hp2 hs2]
      simp
    rw [if_pos h5] at h1
    cases h1

/-- non-vacuity -/
example : guessListWildcard ["fake1".toList, "fake2".toList, "real4".toList, "real5".toList] =
    some ["fake1".toList, "fake2".toList, "real{4}".toList] := by decide +kernel

/-! ### C34 -/

theorem memTail3 {t : Str} {m : Caps} : (∃ r, (r, m) ∈ (Re.seq (.star .ws) .eol).run t) ↔ Blank t ∧ m = [] := by
  simp only [Re.ws, seq_star, mem_eol]
  constructor
  · rintro ⟨r, w, t', rfl, h1, h2, -, rfl⟩
    refine ⟨?_, rfl⟩
    intro c hc
    rcases List.mem_append.1 hc with hc | hc
    · exact h1 c hc
    · rcases h2 with rfl | rfl
      · simp at hc
      · simp only [List.mem_singleton] at hc; subst hc; decide
  · rintro ⟨h, rfl⟩
    exact ⟨[], t, [], by simp, h, Or.inl rfl, rfl, rfl⟩

theorem memTail2 {t : Str} {m : Caps} :
    (∃ r, (r, m) ∈ (Re.seq (.opt (.cls isBB)) (.seq (.star .ws) .eol)).run t) ↔
      (∃ b w, b ∈ [[], ['b'], ['B']] ∧ Blank w ∧ t = b ++ w) ∧ m = [] := by
  simp only [seq_opt, exists_or, seq_cls]
  constructor
  · rintro (⟨r, c, t', rfl, h1, h2⟩ | h)
    · obtain ⟨h3, rfl⟩ := memTail3.1 ⟨r, h2⟩
      refine ⟨⟨[c], t', ?_, h3, rfl⟩, rfl⟩
      simp only [isBB, Bool.or_eq_true, beq_iff_eq] at h1
      rcases h1 with rfl | rfl <;> simp
    · obtain ⟨h3, rfl⟩ := memTail3.1 h
      exact ⟨⟨[], t, by simp, h3, rfl⟩, rfl⟩
  · rintro ⟨⟨b, w, hb, hw, rfl⟩, rfl⟩
    obtain ⟨r, hr⟩ := memTail3.2 ⟨hw, rfl⟩
    simp only [List.mem_cons, List.not_mem_nil, or_false] at hb
    rcases hb with rfl | rfl | rfl
    · exact Or.inr ⟨r, hr⟩
    · exact Or.inl ⟨r, 'b', w, rfl, rfl, hr⟩
    · exact Or.inl ⟨r, 'B', w, rfl, rfl, hr⟩

theorem memTail1 {t : Str} {m : Caps} :
    (∃ r, (r, m) ∈ (Re.seq (.opt (.chr 'i')) (.seq (.opt (.cls isBB)) (.seq (.star .ws) .eol))).run t) ↔
      (∃ i b w, i ∈ [[], ['i']] ∧ b ∈ [[], ['b'], ['B']] ∧ Blank w ∧ t = i ++ b ++ w) ∧ m = [] := by
  simp only [seq_opt, exists_or, seq_chr]
  constructor
  · rintro (⟨r, t', rfl, h2⟩ | h)
    · rw [← seq_opt] at h2
      obtain ⟨⟨b, w, h3, h4, rfl⟩, rfl⟩ := memTail2.1 ⟨r, h2⟩
      exact ⟨⟨['i'], b, w, by simp, h3, h4, rfl⟩, rfl⟩
    · rw [← exists_or] at h
      simp only [← seq_opt] at h
      obtain ⟨⟨b, w, h3, h4, rfl⟩, rfl⟩ := memTail2.1 h
      exact ⟨⟨[], b, w, by simp, h3, h4, rfl⟩, rfl⟩
  · rintro ⟨⟨i, b, w, hi, hb, hw, rfl⟩, rfl⟩
    obtain ⟨r, hr⟩ := memTail2.2 ⟨⟨b, w, hb, hw, rfl⟩, rfl⟩
    simp only [List.mem_cons, List.not_mem_nil, or_false] at hi
    rw [seq_opt] at hr
    rcases hi with rfl | rfl
    · right
      rw [← exists_or]
      exact ⟨r, by simpa using hr⟩
    · exact Or.inl ⟨r, b ++ w, by simp, hr⟩

/-- what the captured unit letter is -/
def letterCap (l : Str) : Caps := if l = [] then [] else [(2, l)]

theorem memoryRe_run {s : Str} {m : Caps} : (∃ r, (r, m) ∈ memoryRe.run s) ↔
    ∃ w1 d w2 l i b w3, s = w1 ++ d ++ w2 ++ l ++ i ++ b ++ w3 ∧ Blank w1 ∧ Blank w2 ∧ Blank w3 ∧ Digits d ∧
      (l = [] ∨ ∃ c, isMG c = true ∧ l = [c]) ∧ i ∈ [[], ['i']] ∧ b ∈ [[], ['b'], ['B']] ∧
      m = (1, d) :: letterCap l := by
  unfold memoryRe
  have e : Re.ws = Re.cls isWs := rfl
  simp only [Re.cat]
  constructor
  · rintro ⟨r, h⟩
    rw [e, seq_star] at h
    obtain ⟨w1, t1, rfl, h1, h⟩ := h
    rw [show Re.dig = Re.cls isDig from rfl, seq_grp_plus] at h
    obtain ⟨d, t2, m2, rfl, h2, h3, h, rfl⟩ := h
    rw [seq_star] at h
    obtain ⟨w2, t3, rfl, h4, h⟩ := h
    rw [seq_opt] at h
    rcases h with h | h
    · rw [seq_grp_cls] at h
      obtain ⟨c, t4, m3, rfl, h5, h, rfl⟩ := h
      obtain ⟨⟨i, b, w3, h6, h7, h8, rfl⟩, rfl⟩ := memTail1.1 ⟨r, h⟩
      exact ⟨w1, d, w2, [c], i, b, w3, by simp, h1, h4, h8, ⟨h2, h3⟩, Or.inr ⟨c, h5, rfl⟩, h6, h7, by simp [letterCap]⟩
    · obtain ⟨⟨i, b, w3, h6, h7, h8, rfl⟩, rfl⟩ := memTail1.1 ⟨r, h⟩
      exact ⟨w1, d, w2, [], i, b, w3, by simp, h1, h4, h8, ⟨h2, h3⟩, Or.inl rfl, h6, h7, by simp [letterCap]⟩
  · rintro ⟨w1, d, w2, l, i, b, w3, rfl, h1, h4, h8, hd, hl, h6, h7, rfl⟩
    obtain ⟨r, hr⟩ := memTail1.2 ⟨⟨i, b, w3, h6, h7, h8, rfl⟩, rfl⟩
    refine ⟨r, ?_⟩
    rw [e, seq_star]
    refine ⟨w1, d ++ w2 ++ l ++ i ++ b ++ w3, by simp, h1, ?_⟩
    rw [show Re.dig = Re.cls isDig from rfl, seq_grp_plus]
    refine ⟨d, w2 ++ l ++ i ++ b ++ w3, letterCap l, by simp, hd.1, hd.2, ?_, rfl⟩
    rw [seq_star]
    refine ⟨w2, l ++ i ++ b ++ w3, by simp, h4, ?_⟩
    rw [seq_opt]
    rcases hl with rfl | ⟨c, hc, rfl⟩
    · right
      have : letterCap [] = [] := rfl
      rw [this, List.nil_append]
      exact hr
    · left
      rw [seq_grp_cls]
      exact ⟨c, i ++ b ++ w3, [], by simp, hc, hr, by simp [letterCap]⟩

theorem filter_digits {w1 d w2 l i b w3 : Str} (h1 : Blank w1) (h4 : Blank w2) (h8 : Blank w3) (hd : Digits d)
    (hl : l = [] ∨ ∃ c, isMG c = true ∧ l = [c]) (h6 : i ∈ [[], ['i']]) (h7 : b ∈ [[], ['b'], ['B']]) :
    (w1 ++ d ++ w2 ++ l ++ i ++ b ++ w3).filter isDig = d ∧ (w1 ++ d ++ w2 ++ l ++ i ++ b ++ w3).filter isMG = l := by
  have hws : ∀ c, isWs c = true → isDig c = false ∧ isMG c = false := by
    intro c hc
    rw [isWs_iff] at hc
    rcases hc with rfl | rfl | rfl | rfl | rfl | rfl | rfl | rfl | rfl | rfl <;> decide
  have hw : ∀ w : Str, Blank w → w.filter isDig = [] ∧ w.filter isMG = [] := by
    intro w hb
    simp only [List.filter_eq_nil_iff]
    exact ⟨fun c hc => by rw [(hws c (hb c hc)).1]; decide, fun c hc => by rw [(hws c (hb c hc)).2]; decide⟩
  have hdf : d.filter isDig = d ∧ d.filter isMG = [] := by
    refine ⟨List.filter_eq_self.2 hd.2, List.filter_eq_nil_iff.2 ?_⟩
    intro c hc hh
    have := hd.2 c hc
    simp only [isMG, Bool.or_eq_true, beq_iff_eq] at hh
    rcases hh with ((rfl | rfl) | rfl) | rfl <;> exact absurd this (by decide)
  have hlf : l.filter isDig = [] ∧ l.filter isMG = l := by
    rcases hl with rfl | ⟨c, hc, rfl⟩
    · exact ⟨rfl, rfl⟩
    · simp only [isMG, Bool.or_eq_true, beq_iff_eq] at hc
      rcases hc with ((rfl | rfl) | rfl) | rfl <;> exact ⟨rfl, rfl⟩
  have hif : i.filter isDig = [] ∧ i.filter isMG = [] := by
    simp only [List.mem_cons, List.not_mem_nil, or_false] at h6
    rcases h6 with rfl | rfl <;> exact ⟨rfl, rfl⟩
  have hbf : b.filter isDig = [] ∧ b.filter isMG = [] := by
    simp only [List.mem_cons, List.not_mem_nil, or_false] at h7
    rcases h7 with rfl | rfl | rfl <;> exact ⟨rfl, rfl⟩
  simp only [List.filter_append, (hw _ h1).1, (hw _ h1).2, (hw _ h4).1, (hw _ h4).2, (hw _ h8).1, (hw _ h8).2,
    hdf.1, hdf.2, hlf.1, hlf.2, hif.1, hif.2, hbf.1, hbf.2, List.nil_append, List.append_nil, and_self]

theorem memLetters_cases {u : MemUnit} {l : Str} (h : l ∈ memLetters u) : l = [] ∨ ∃ c, isMG c = true ∧ l = [c] := by
  cases u <;> simp only [memLetters, List.mem_cons, List.not_mem_nil, or_false] at h
  · exact Or.inl h
  · rcases h with rfl | rfl
    · exact Or.inr ⟨'m', rfl, rfl⟩
    · exact Or.inr ⟨'M', rfl, rfl⟩
  · rcases h with rfl | rfl
    · exact Or.inr ⟨'g', rfl, rfl⟩
    · exact Or.inr ⟨'G', rfl, rfl⟩

/-- **C34.** A memory size in an accepted notation is read as documented: M is megabytes, G is 1024
megabytes, and a bare number is taken as gigabytes up to 64 and as megabytes above; zero is refused. -/
theorem C34_memory {s : Str} {n : Nat} {u : MemUnit} (h : IsMemory s n u) :
    parseMemory s =
      if n = 0 then .error .invalidInput
      else .ok (match u with
        | .mega => n
        | .giga => n * 1024
        | .none => if n ≤ 64 then n * 1024 else n) := by
  obtain ⟨w1, d, w2, l, i, b, w3, hs, h1, h2, h3, hd, rfl, hl, hi, hb⟩ := h
  have hm : reMatch memoryRe s = some ((1, d) :: letterCap l) := by
    refine reMatch_eq_of (memoryRe_run.2 ⟨w1, d, w2, l, i, b, w3, hs, h1, h2, h3, hd, memLetters_cases hl, hi, hb, rfl⟩) ?_
    intro x m' hx
    obtain ⟨w1', d', w2', l', i', b', w3', hs', h1', h2', h3', hd', hl', hi', hb', rfl⟩ := memoryRe_run.1 ⟨x, hx⟩
    obtain ⟨e1, e2⟩ := filter_digits h1 h2 h3 hd (memLetters_cases hl) hi hb
    obtain ⟨e1', e2'⟩ := filter_digits h1' h2' h3' hd' hl' hi' hb'
    rw [← hs] at e1 e2
    rw [← hs'] at e1' e2'
    rw [← e1, ← e2, ← e1', ← e2']
  unfold parseMemory
  rw [hm]
  have g1 : Caps.groupD ((1, d) :: letterCap l) 1 = d := by
    unfold letterCap; split <;> rfl
  simp only [g1]
  by_cases h0 : digitsVal d = 0
  · rw [if_pos h0, if_pos h0]
  · rw [if_neg h0, if_neg h0]
    cases u <;> simp only [memLetters, List.mem_cons, List.not_mem_nil, or_false] at hl
    · subst hl
      have : Caps.group ((1, d) :: letterCap []) 2 = none := rfl
      rw [this]
      simp only [reduceCtorEq, or_self, if_false]
      split <;> rfl
    · rcases hl with rfl | rfl
      · rfl
      · rfl
    · rcases hl with rfl | rfl
      · rfl
      · rfl

/-- C34, anything else is refused. -/
theorem C34_rejects {s : Str} (h : ¬ ∃ n u, IsMemory s n u) : parseMemory s = .error .invalidInput := by
  unfold parseMemory
  have : reMatch memoryRe s = none := by
    rw [reMatch_none]
    rintro ⟨r, m⟩ hx
    obtain ⟨w1, d, w2, l, i, b, w3, hs, h1, h2, h3, hd, hl, hi, hb, -⟩ := memoryRe_run.1 ⟨r, hx⟩
    apply h
    rcases hl with rfl | ⟨c, hc, rfl⟩
    · exact ⟨_, .none, w1, d, w2, [], i, b, w3, hs, h1, h2, h3, hd, rfl, by simp [memLetters], hi, hb⟩
    · simp only [isMG, Bool.or_eq_true, beq_iff_eq] at hc
      rcases hc with ((rfl | rfl) | rfl) | rfl
      · exact ⟨_, .mega, w1, d, w2, _, i, b, w3, hs, h1, h2, h3, hd, rfl, by simp [memLetters], hi, hb⟩
      · exact ⟨_, .mega, w1, d, w2, _, i, b, w3, hs, h1, h2, h3, hd, rfl, by simp [memLetters], hi, hb⟩
      · exact ⟨_, .giga, w1, d, w2, _, i, b, w3, hs, h1, h2, h3, hd, rfl, by simp [memLetters], hi, hb⟩
      · exact ⟨_, .giga, w1, d, w2, _, i, b, w3, hs, h1, h2, h3, hd, rfl, by simp [memLetters], hi, hb⟩
  rw [this]

/-- C34, monotone: with the same explicit unit a larger number means more memory. -/
theorem C34_monotone {s s' : Str} {n n' v v' : Nat} {u : MemUnit} (h : IsMemory s n u) (h' : IsMemory s' n' u)
    (hu : u ≠ .none) (hv : parseMemory s = .ok v) (hv' : parseMemory s' = .ok v') : n ≤ n' ↔ v ≤ v' := by
  rw [C34_memory h] at hv
  rw [C34_memory h'] at hv'
  split at hv
  · cases hv
  · split at hv'
    · cases hv'
    · cases u with
      | none => exact absurd rfl hu
      | mega => cases hv; cases hv'; rfl
      | giga => cases hv; cases hv'; simp only; omega

/-- non-vacuity -/
example : IsMemory " 2 GiB".toList 2 .giga :=
  ⟨" ".toList, "2".toList, " ".toList, ['G'], ['i'], ['B'], [], rfl, by simp [Blank, isWs], by simp [Blank, isWs],
    by simp [Blank], ⟨by decide, by decide⟩, by decide, by decide, by decide, by decide⟩
example : parseMemory " 2 GiB".toList = .ok 2048 := by rfl
example : parseMemory "64".toList = .ok 65536 ∧ parseMemory "65".toList = .ok 65 := ⟨rfl, rfl⟩

end Cot
