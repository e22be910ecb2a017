import Verif.Spec.Version
import Verif.Props.Helper
import Verif.Lemmas.Digits
/-
C100: versions of helper programs.
-/
namespace Cot

theorem isDig_iff' (c : Char) : isDig c = true ↔ '0' ≤ c ∧ c ≤ '9' := by simp [isDig]

theorem takeWhile_run {p : Char → Bool} {d r : Str} (hd : ∀ c ∈ d, p c = true) (hr : ∀ c, r.head? = some c → p c = false) :
    (d ++ r).takeWhile p = d ∧ (d ++ r).dropWhile p = r := by
  induction d with
  | nil =>
    cases r with
    | nil => exact ⟨rfl, rfl⟩
    | cons c t => simp [hr c rfl]
  | cons c t ih =>
    have := ih (fun x hx => hd x (by simp [hx]))
    simp only [List.cons_append, List.takeWhile_cons, List.dropWhile_cons, hd c (by simp), if_true, this.1, this.2, and_self]

theorem run_head {p : Char → Bool} (s : Str) : ∀ c, (s.dropWhile p).head? = some c → p c = false := by
  intro c hc
  have := List.head?_dropWhile_not p s
  rw [hc] at this
  simpa using this

theorem mem_run {p : Char → Bool} : ∀ {s : Str} {c : Char}, c ∈ s.takeWhile p → p c = true
  | [], _, h => by cases h
  | x :: s, c, h => by
    rw [List.takeWhile_cons] at h
    split at h
    · rename_i hx
      rcases List.mem_cons.1 h with rfl | h
      · exact hx
      · exact mem_run h
    · cases h

theorem takeWhile_digitText {s : Str} (h : s.takeWhile isDig ≠ []) : DigitText (s.takeWhile isDig) :=
  ⟨h, fun c hc => (isDig_iff' c).1 (mem_run hc)⟩

theorem DigitText.isDig {d : Str} (h : DigitText d) : ∀ c ∈ d, Cot.isDig c = true := fun c hc => (isDig_iff' c).2 (h.2 c hc)

theorem parsePre_iff (s : Str) (p : Option (Char × Nat)) : parsePre s = some p ↔ PreText s p := by
  cases s with
  | nil =>
    constructor
    · intro h; cases h; exact .release
    · intro h; cases h; rfl
  | cons c t =>
    have e : parsePre (c :: t) = if (c = 'a' ∨ c = 'b') ∧ t ≠ [] ∧ t.all isDig = true then some (some (c, digitsVal t)) else none := rfl
    rw [e]
    constructor
    · intro h
      split at h
      · rename_i hc
        cases h
        refine .mark hc.1 ⟨hc.2.1, fun x hx => (isDig_iff' x).1 (List.all_eq_true.1 hc.2.2 x hx)⟩
      · cases h
    · intro h
      cases h with
      | mark hc hd =>
        rw [if_pos ⟨hc, hd.1, List.all_eq_true.2 hd.isDig⟩]

theorem PreText.head {t : Str} {p : Option (Char × Nat)} (h : PreText t p) : ∀ c, t.head? = some c → c = 'a' ∨ c = 'b' := by
  intro c hc
  cases h with
  | release => cases hc
  | mark h _ => cases hc; exact h

theorem PreText.notDig {t : Str} {p : Option (Char × Nat)} (h : PreText t p) : ∀ c, t.head? = some c → Cot.isDig c = false := by
  intro c hc
  rcases h.head c hc with rfl | rfl <;> decide

theorem parsePatch_two {t : Str} {p : Option (Char × Nat)} (h : PreText t p) : parsePatch t = some (0, p) := by
  unfold parsePatch
  split
  · have := h.head '.' rfl
    exact absurd this (by decide)
  · rw [(parsePre_iff _ _).2 h]

/-- **C100 (reading).** A text is read as a version exactly if it is two or three numbers with dots between them, possibly with
`a` or `b` and a number after them; the version has these numbers.  Any other text is a ValueError. -/
theorem C100_parse (s : Str) :
    (∀ v, parseVersion s = .ok v ↔ VersionText s v) ∧ ((¬ ∃ v, VersionText s v) → parseVersion s = .error .valueError) := by
  have fwd : ∀ v, parseVersion s = .ok v → VersionText s v := by
    intro v h
    unfold parseVersion at h
    split at h
    · cases h
    · rename_i h1
      split at h
      · rename_i r hr
        split at h
        · cases h
        · rename_i h2
          split at h
          · cases h
          · rename_i p q hp
            cases h
            have es : s = s.takeWhile isDig ++ '.' :: r := by rw [← hr, List.takeWhile_append_dropWhile]
            have er : r = r.takeWhile isDig ++ r.dropWhile isDig := (List.takeWhile_append_dropWhile).symm
            have d1 := takeWhile_digitText h1
            have d2 := takeWhile_digitText h2
            generalize s.takeWhile isDig = x at es d1
            generalize r.takeWhile isDig = y at er d2
            generalize r.dropWhile isDig = u at er hp
            subst er
            unfold parsePatch at hp
            split at hp
            · rename_i r3
              split at hp
              · cases hp
              · rename_i h3
                split at hp
                · cases hp
                · rename_i pp hpp
                  cases hp
                  have d3 := takeWhile_digitText h3
                  have e3 : r3 = r3.takeWhile isDig ++ r3.dropWhile isDig := (List.takeWhile_append_dropWhile).symm
                  generalize r3.takeWhile isDig = z at e3 d3
                  generalize r3.dropWhile isDig = t at e3 hpp
                  subst e3
                  have := VersionText.three d1 d2 d3 ((parsePre_iff _ _).1 hpp)
                  rw [es]
                  simpa using this
            · split at hp
              · cases hp
              · rename_i pp hpp
                cases hp
                have := VersionText.two d1 d2 ((parsePre_iff _ _).1 hpp)
                rw [es]
                simpa using this
      · cases h
  have bwd : ∀ v, VersionText s v → parseVersion s = .ok v := by
    intro v h
    cases h with
    | @two x y t p hx hy ht =>
      have e : x ++ '.' :: y ++ t = x ++ '.' :: (y ++ t) := by simp
      rw [e]
      have h1 := takeWhile_run (r := '.' :: (y ++ t)) hx.isDig (by intro c hc; cases hc; decide)
      have h2 := takeWhile_run (r := t) hy.isDig ht.notDig
      unfold parseVersion
      rw [h1.1, if_neg hx.1, h1.2]
      simp only
      rw [h2.1, if_neg hy.1, h2.2, parsePatch_two ht]
    | @three x y z t p hx hy hz ht =>
      have e : x ++ '.' :: y ++ '.' :: z ++ t = x ++ '.' :: (y ++ '.' :: (z ++ t)) := by simp
      rw [e]
      have h1 := takeWhile_run (r := '.' :: (y ++ '.' :: (z ++ t))) hx.isDig (by intro c hc; cases hc; decide)
      have h2 := takeWhile_run (r := '.' :: (z ++ t)) hy.isDig (by intro c hc; cases hc; decide)
      have h3 := takeWhile_run (r := t) hz.isDig ht.notDig
      unfold parseVersion
      rw [h1.1, if_neg hx.1, h1.2]
      simp only
      rw [h2.1, if_neg hy.1, h2.2]
      have : parsePatch ('.' :: (z ++ t)) = some (digitsVal z, p) := by
        unfold parsePatch
        simp only
        rw [h3.1, if_neg hz.1, h3.2, (parsePre_iff _ _).2 ht]
      rw [this]
  refine ⟨fun v => ⟨fwd v, bwd v⟩, fun hno => ?_⟩
  have : ∀ e, parseVersion s = .error e → e = .valueError := by
    intro e h
    unfold parseVersion at h
    split at h
    · cases h; rfl
    · split at h
      · split at h
        · cases h; rfl
        · split at h <;> cases h
          rfl
      · cases h; rfl
  cases h : parseVersion s with
  | ok v => exact absurd ⟨v, fwd v h⟩ hno
  | error e => rw [this e h]

/-- **C100 (showing).** The text that is shown for a version is read as the same version. -/
theorem C100_show {v : PyVersion} (hp : ∀ c n, v.pre = some (c, n) → c = 'a' ∨ c = 'b') : parseVersion (showVersion v) = .ok v := by
  have nd : ∀ n, DigitText (natStr n) := fun n => ⟨natStr_ne_nil n, fun c hc => (isDig_iff' c).1 (isDig_natStr n c hc)⟩
  rw [(C100_parse _).1 v]
  obtain ⟨a, b, c, p⟩ := v
  unfold showVersion
  simp only at hp ⊢
  have pt : PreText (showPre p) p := by
    cases p with
    | none => exact .release
    | some x =>
      obtain ⟨ch, n⟩ := x
      have := PreText.mark (hp ch n rfl) (nd n)
      rw [digitsVal_natStr] at this
      exact this
  by_cases hc : c = 0
  · subst hc
    have := VersionText.two (nd a) (nd b) pt
    rw [digitsVal_natStr, digitsVal_natStr] at this
    simpa using this
  · have := VersionText.three (nd a) (nd b) (nd c) pt
    rw [digitsVal_natStr, digitsVal_natStr, digitsVal_natStr] at this
    rw [if_neg hc]
    simpa using this

/-- **C100 (order).** `a >= b` holds exactly if `a` is not older than `b`, comparing the numbers as numbers. -/
theorem C100_order (a b : PyVersion) : verGe a b = true ↔ ¬ Older a b := by
  have cl : ∀ m n : Nat, (compare m n != .lt) = true ↔ ¬ m < n := by
    intro m n
    rw [bne_iff_ne, ne_eq, Nat.compare_eq_lt]
  obtain ⟨a1, a2, a3, ap⟩ := a
  obtain ⟨b1, b2, b3, bp⟩ := b
  unfold verGe cmpVersion Older
  simp only
  by_cases h1 : a1 = b1
  · subst h1
    rw [if_neg (by simp)]
    by_cases h2 : a2 = b2
    · subst h2
      rw [if_neg (by simp)]
      by_cases h3 : a3 = b3
      · subst h3
        rw [if_neg (by simp)]
        simp only [Nat.lt_irrefl, true_and, false_or]
        cases ap with
        | none => cases bp <;> simp [cmpPre, OlderPre]
        | some x =>
          obtain ⟨c, m⟩ := x
          cases bp with
          | none => simp [cmpPre, OlderPre]
          | some y =>
            obtain ⟨d, n⟩ := y
            simp only [cmpPre, OlderPre]
            by_cases hcd : c = d
            · subst hcd
              rw [if_pos rfl, cl]
              simp
            · rw [if_neg hcd, cl]
              simp [hcd]
      · rw [if_pos h3, cl]
        simp [h3]
    · rw [if_pos h2, cl]
      simp [h2]
  · rw [if_pos h1, cl]
    simp [h1]

theorem isVerChar_iff (c : Char) : isVerChar c = true ↔ ('0' ≤ c ∧ c ≤ '9') ∨ c = '.' := by
  unfold isVerChar
  rw [Bool.or_eq_true, isDig_iff', beq_iff_eq]

theorem findVersion_some {lit : Str} : ∀ {out t : Str}, findVersion lit out = some t → FirstAfter lit out t
  | [], t, h => by cases h
  | c :: r, t, h => by
    rw [findVersion] at h
    split at h
    · rename_i hc
      rw [Bool.and_eq_true, List.isPrefixOf_iff_prefix] at hc
      obtain ⟨⟨u, hu⟩, hne⟩ := hc
      cases h
      rw [← hu, List.drop_left] at hne ⊢
      refine ⟨[], u.dropWhile isVerChar, by simp [List.takeWhile_append_dropWhile], by simpa using hne,
        fun x hx => (isVerChar_iff x).1 (mem_run hx), ?_, by simp⟩
      intro x hx hv
      have := run_head u x hx
      rw [(isVerChar_iff x).2 hv] at this
      cases this
    · rename_i hc
      obtain ⟨A, B, h1, h2, h3, h4, h5⟩ := findVersion_some h
      refine ⟨c :: A, B, by rw [h1]; simp, h2, h3, h4, ?_⟩
      intro A' x B' he hx
      cases A' with
      | nil =>
        exfalso
        apply hc
        rw [he]
        simp [List.isPrefixOf_iff_prefix, (isVerChar_iff x).2 hx]
      | cons a A' =>
        have := h5 A' x B' (by simpa using (List.cons.inj he).2) hx
        simpa using this

theorem findVersion_none {lit : Str} : ∀ {out : Str}, findVersion lit out = none ↔
    ¬ ∃ A c B, out = A ++ lit ++ c :: B ∧ (('0' ≤ c ∧ c ≤ '9') ∨ c = '.')
  | [] => by
    refine ⟨fun _ => ?_, fun _ => rfl⟩
    rintro ⟨A, c, B, h, -⟩
    simp at h
  | c :: r => by
    rw [findVersion]
    constructor
    · intro h
      split at h
      · cases h
      · rename_i hc
        have ih := findVersion_none.1 h
        rintro ⟨A, x, B, he, hx⟩
        cases A with
        | nil =>
          apply hc
          rw [he]
          simp [List.isPrefixOf_iff_prefix, (isVerChar_iff x).2 hx]
        | cons a A => exact ih ⟨A, x, B, by simpa using (List.cons.inj he).2, hx⟩
    · intro h
      rw [if_neg, findVersion_none]
      · rintro ⟨A, x, B, he, hx⟩
        exact h ⟨c :: A, x, B, by rw [he]; simp, hx⟩
      · intro hc
        rw [Bool.and_eq_true, List.isPrefixOf_iff_prefix] at hc
        obtain ⟨⟨u, hu⟩, hne⟩ := hc
        rw [← hu, List.drop_left] at hne
        cases u with
        | nil => simp at hne
        | cons x B =>
          refine h ⟨[], x, B, by simp [← hu], ?_⟩
          rw [← isVerChar_iff]
          rw [List.takeWhile_cons] at hne
          cases hx : isVerChar x with
          | true => rfl
          | false => rw [hx] at hne; simp at hne

theorem firstAfter_unique {lit out t t' : Str} (h : FirstAfter lit out t) (h' : FirstAfter lit out t') : t = t' := by
  obtain ⟨A, B, h1, h2, h3, h4, h5⟩ := h
  obtain ⟨A', B', h1', h2', h3', h4', h5'⟩ := h'
  have low : ∀ {X : Str} {u Y : Str}, out = X ++ lit ++ u ++ Y → u ≠ [] → ∃ c Z, out = X ++ lit ++ c :: Z ∧ u.head? = some c := by
    intro X u Y he hu
    cases u with
    | nil => exact absurd rfl hu
    | cons c u => exact ⟨c, u ++ Y, by rw [he]; simp, rfl⟩
  obtain ⟨c, Z, hz, hc⟩ := low h1 h2
  obtain ⟨c', Z', hz', hc'⟩ := low h1' h2'
  have l1 := h5' A c Z hz (h3 c (List.mem_of_mem_head? hc))
  have l2 := h5 A' c' Z' hz' (h3' c' (List.mem_of_mem_head? hc'))
  have e : A ++ lit ++ t ++ B = A' ++ lit ++ t' ++ B' := h1.symm.trans h1'
  have hA : A ++ lit = A' ++ lit ∧ t ++ B = t' ++ B' := by
    rw [List.append_assoc (A ++ lit), List.append_assoc (A' ++ lit)] at e
    exact List.append_inj e (by simp; omega)
  have r1 := (takeWhile_run (p := isVerChar) (d := t) (r := B) (fun c hc => (isVerChar_iff c).2 (h3 c hc)) (fun c hc => by
    cases hh : isVerChar c with
    | false => rfl
    | true => exact absurd ((isVerChar_iff c).1 hh) (h4 c hc))).1
  have r2 := (takeWhile_run (p := isVerChar) (d := t') (r := B') (fun c hc => (isVerChar_iff c).2 (h3' c hc)) (fun c hc => by
    cases hh : isVerChar c with
    | false => rfl
    | true => exact absurd ((isVerChar_iff c).1 hh) (h4' c hc))).1
  rw [← r1, ← r2, hA.2]

/-- **C100 (the version of a program).** It is what the first text of digits and dots after the literal text says: the version, if
that text is one, a ValueError otherwise; a RuntimeError if there is no such text. -/
theorem C100_version (lit out : Str) :
    (∀ t v, FirstAfter lit out t → VersionText t v → helperVersion lit out = .ok v) ∧
    (∀ t, FirstAfter lit out t → (¬ ∃ v, VersionText t v) → helperVersion lit out = .error .valueError) ∧
    ((¬ ∃ t, FirstAfter lit out t) → helperVersion lit out = .error .runtimeError) ∧
    (∀ v, helperVersion lit out = .ok v → ∃ t, FirstAfter lit out t ∧ VersionText t v) := by
  have found : ∀ t, FirstAfter lit out t → findVersion lit out = some t := by
    intro t ht
    cases hf : findVersion lit out with
    | some u => rw [firstAfter_unique (findVersion_some hf) ht]
    | none =>
      exfalso
      obtain ⟨A, B, h1, h2, h3, -, -⟩ := ht
      refine findVersion_none.1 hf ?_
      cases t with
      | nil => exact absurd rfl h2
      | cons c t => exact ⟨A, c, t ++ B, by rw [h1]; simp, h3 c (by simp)⟩
  refine ⟨?_, ?_, ?_, ?_⟩
  · intro t v ht hv
    unfold helperVersion
    rw [found t ht]
    exact ((C100_parse t).1 v).2 hv
  · intro t ht hv
    unfold helperVersion
    rw [found t ht]
    exact (C100_parse t).2 hv
  · intro hno
    unfold helperVersion
    cases hf : findVersion lit out with
    | none => rfl
    | some t => exact absurd ⟨t, findVersion_some hf⟩ hno
  · intro v h
    unfold helperVersion at h
    split at h
    · cases h
    · rename_i t ht
      exact ⟨t, findVersion_some ht, ((C100_parse t).1 v).1 h⟩

/-- **C100 (choice).** A helper program that is chosen with a minimum version tells a version that is not older. -/
theorem C100_select {W : Type} {sys : HelperSys W PyVersion} {lit : Str → Str} {tells : W → Str → Str}
    (hp : sys.parse = parseVersion) (hg : sys.ge = verGe) (hv : ∀ w n, sys.version w n = helperVersion (lit n) (tells w n))
    {w w' : W} {choices : List (Str × Option Str)} {n : Str} (h : sys.select w choices = (.ok n, w')) :
    ∃ o, (n, o) ∈ choices ∧ ∀ s, o = some s → ∃ m v t, VersionText s m ∧ FirstAfter (lit n) (tells w' n) t ∧ VersionText t v ∧
      ¬ Older v m := by
  obtain ⟨⟨o, ho, hu⟩, -⟩ := C40_sound sys h
  refine ⟨o, ho, ?_⟩
  rintro s rfl
  rcases hu.2 with hn | ⟨s', m, v, hs, h1, h2, h3⟩
  · cases hn
  · cases hs
    rw [hp] at h1
    rw [hg] at h3
    rw [hv] at h2
    obtain ⟨t, ht, htv⟩ := (C100_version _ _).2.2.2 v h2
    exact ⟨m, v, t, ((C100_parse s).1 m).1 h1, ht, htv, (C100_order v m).1 h3⟩

/-! ### Examples -/

example : helperVersion "qemu-img version ".toList "qemu-img version 2.11.1(Debian 1:2.11+dfsg)".toList = .ok ⟨2, 11, 1, none⟩ := rfl
example : helperVersion [] "Version: 2.4.2".toList = .ok ⟨2, 4, 2, none⟩ := rfl
example : verGe ⟨2, 10, 0, none⟩ ⟨2, 9, 5, none⟩ = true := rfl
example : verGe ⟨2, 5, 0, none⟩ ⟨2, 5, 1, none⟩ = false := rfl
example : showVersion ⟨1, 4, 0, none⟩ = "1.4".toList := rfl
example : VersionText "2.5.1".toList ⟨2, 5, 1, none⟩ := ((C100_parse _).1 _).1 rfl

def exVerSys : HelperSys (List (Str × Str)) PyVersion where
  found w n := (dget? w n).isSome
  version w n := helperVersion (n ++ " version ".toList) ((dget? w n).getD [])
  installable _ _ := false
  runInstall w _ := (.ok (), w)
  unsure _ _ := .notImplementedError
  parse := parseVersion
  ge := verGe

example : (exVerSys.select [("qemu-img".toList, "qemu-img version 2.10.0".toList), ("vmdktool".toList, "vmdktool version 1.4".toList)]
    [("qemu-img".toList, some "2.9.1".toList), ("vmdktool".toList, none)]).1 = .ok "qemu-img".toList := rfl
example : (exVerSys.select [("qemu-img".toList, "qemu-img version 1.0".toList), ("vmdktool".toList, "vmdktool version 1.4".toList)]
    [("qemu-img".toList, some "1.2.0".toList), ("vmdktool".toList, none)]).1 = .ok "vmdktool".toList := rfl

/-- **C100 (limits).** A program that is new enough, but whose version has four numbers, is not used: the selection fails, although
another choice is there. -/
theorem C100_four_numbers_fails : ∃ w, exVerSys.found w "vmdktool".toList = true ∧
    (exVerSys.select w [("qemu-img".toList, some "1.2.0".toList), ("vmdktool".toList, none)]).1 = .error .valueError :=
  ⟨[("qemu-img".toList, "qemu-img version 2.11.1.1".toList), ("vmdktool".toList, "vmdktool version 1.4".toList)], rfl, rfl⟩

end Cot
