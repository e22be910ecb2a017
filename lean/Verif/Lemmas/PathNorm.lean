import Verif.Lemmas.PathAbs
import Verif.Spec.Archive
/-
Absolute paths in normal form: a number of slashes and a list of plain names.
-/
namespace Cot

/-- the text of a normal absolute path -/
def absForm (s : Nat) (cs : List Str) : Str := List.replicate s '/' ++ joinWith ['/'] cs

theorem normComps_append (r : Bool) : ∀ (xs ys acc : List Str),
    normComps r (xs ++ ys) acc = normComps r ys (normComps r xs acc).reverse
  | [], ys, acc => by simp [normComps]
  | x :: xs, ys, acc => by
    simp only [List.cons_append, normComps]
    split
    · exact normComps_append r xs ys acc
    · split
      · exact normComps_append r xs ys _
      · exact normComps_append r xs ys _

theorem normComps_clean : ∀ (xs acc : List Str), (∀ c ∈ xs, '/' ∉ c) → (∀ c ∈ acc, PlainName c) →
    ∀ c ∈ normComps true xs acc, PlainName c
  | [], acc, _, ha => by simpa [normComps] using ha
  | x :: xs, acc, hx, ha => by
    simp only [normComps]
    have hxs : ∀ c ∈ xs, '/' ∉ c := fun c hc => hx c (by simp [hc])
    split
    · exact normComps_clean xs acc hxs ha
    · rename_i h1
      simp only [not_or] at h1
      split
      · rename_i h2
        have h3 : x ≠ ['.', '.'] := by
          rcases h2 with h2 | ⟨h2, -⟩ | h2
          · exact h2
          · cases h2
          · intro _
            have := ha ['.', '.'] (List.mem_of_mem_head? h2)
            exact this.2.2.1 rfl
        refine normComps_clean xs _ hxs ?_
        intro c hc
        rcases List.mem_cons.1 hc with rfl | hc
        · exact ⟨h1.1, h1.2, h3, hx c (by simp)⟩
        · exact ha c hc
      · exact normComps_clean xs _ hxs (fun c hc => ha c (List.mem_of_mem_tail hc))

theorem normComps_plain : ∀ (cs acc : List Str), (∀ c ∈ cs, PlainName c) → normComps true cs acc = acc.reverse ++ cs
  | [], acc, _ => by simp [normComps]
  | c :: cs, acc, h => by
    obtain ⟨h1, h2, h3, -⟩ := h c (by simp)
    simp only [normComps]
    rw [if_neg (by simp [h1, h2]), if_pos (Or.inl h3), normComps_plain cs _ (fun x hx => h x (by simp [hx]))]
    simp

theorem slashes_one {c : Char} (h : c ≠ '/') (u : Str) : initialSlashes ('/' :: c :: u) = 1 := by
  unfold initialSlashes
  split
  · rename_i heq; simp at heq; exact absurd heq.1 h
  · rename_i heq; simp at heq; exact absurd heq.1 h
  · rfl
  · rename_i heq; exact absurd rfl (heq _)

theorem slashes_two {c : Char} (h : c ≠ '/') (u : Str) : initialSlashes ('/' :: '/' :: c :: u) = 2 := by
  unfold initialSlashes
  split
  · rename_i heq; simp at heq; exact absurd heq.1 h
  · rfl
  · rename_i h1 _ heq; simp at heq; exact absurd heq.symm (by rename_i h2; exact fun hh => h2 _ hh)
  · rename_i heq; exact absurd rfl (heq _)

theorem initialSlashes_abs {Q : Str} (h : Q.head? = some '/') : initialSlashes Q = 1 ∨ initialSlashes Q = 2 := by
  cases Q with
  | nil => cases h
  | cons c t =>
    simp at h; subst h
    unfold initialSlashes
    split
    · simp
    · simp
    · simp
    · rename_i hx; exact absurd rfl (hx t)

/-- the normal form of an absolute path -/
theorem normpath_abs {Q : Str} (h : Q.head? = some '/') :
    normpath Q = absForm (initialSlashes Q) (normComps true (splitOnChar '/' Q) []) := by
  have hn := initialSlashes_abs h
  unfold normpath absForm
  rw [if_neg (by rintro rfl; cases h)]
  simp only
  rw [show decide (initialSlashes Q ≠ 0) = true by rcases hn with hn | hn <;> rw [hn] <;> rfl]
  rw [if_neg]
  rcases hn with hn | hn <;> rw [hn] <;> simp [List.replicate_succ]

theorem clean_abs (Q : Str) : ∀ c ∈ normComps true (splitOnChar '/' Q) [], PlainName c :=
  normComps_clean _ _ (splitOnChar_sepfree '/' Q) (by simp)

theorem absForm_slashes {s : Nat} (hs : s = 1 ∨ s = 2) {cs : List Str} (hc : ∀ c ∈ cs, PlainName c) :
    initialSlashes (absForm s cs) = s := by
  have hh : ∀ rest : Str, rest = joinWith ['/'] cs → rest.head? ≠ some '/' := by
    rintro rest rfl
    cases cs with
    | nil => simp [joinWith]
    | cons x t =>
      rw [joinWith_head (hc x (by simp)).1]
      intro h
      exact (hc x (by simp)).2.2.2 (List.mem_of_mem_head? h)
  unfold absForm
  have := hh _ rfl
  generalize joinWith ['/'] cs = rest at this
  rcases hs with rfl | rfl
  · cases rest with
    | nil => rfl
    | cons c t =>
      simp only [List.head?_cons, ne_eq, Option.some.injEq] at this
      show initialSlashes ('/' :: c :: t) = 1
      exact slashes_one this t
  · cases rest with
    | nil => rfl
    | cons c t =>
      simp only [List.head?_cons, ne_eq, Option.some.injEq] at this
      show initialSlashes ('/' :: '/' :: c :: t) = 2
      exact slashes_two this t

theorem absForm_split {s : Nat} (hs : s = 1 ∨ s = 2) {cs : List Str} (hc : ∀ c ∈ cs, PlainName c) :
    normComps true (splitOnChar '/' (absForm s cs)) [] = cs := by
  have h1 : ∀ t : Str, splitOnChar '/' ('/' :: t) = [] :: splitOnChar '/' t := by
    intro t
    have := splitOnChar_word '/' [] t (by simp)
    simpa using this
  have h2 : normComps true (splitOnChar '/' (joinWith ['/'] cs)) [] = cs := by
    cases hcs : cs with
    | nil => decide
    | cons x t =>
      rw [← hcs, splitOnChar_join '/' cs (by simp [hcs]) (fun c h => (hc c h).2.2.2), normComps_plain cs [] hc]
      simp
  have h3 : ∀ (xs : List Str), normComps true ([] :: xs) [] = normComps true xs [] := by
    intro xs
    rw [normComps]
    simp
  unfold absForm
  rcases hs with rfl | rfl
  · show normComps true (splitOnChar '/' ('/' :: joinWith ['/'] cs)) [] = cs
    rw [h1, h3, h2]
  · show normComps true (splitOnChar '/' ('/' :: '/' :: joinWith ['/'] cs)) [] = cs
    rw [h1, h3, h1, h3, h2]

theorem absForm_head {s : Nat} (hs : s = 1 ∨ s = 2) (cs : List Str) : (absForm s cs).head? = some '/' := by
  unfold absForm
  rcases hs with rfl | rfl <;> simp [List.replicate_succ]

theorem normpath_absForm {s : Nat} (hs : s = 1 ∨ s = 2) {cs : List Str} (hc : ∀ c ∈ cs, PlainName c) :
    normpath (absForm s cs) = absForm s cs := by
  rw [normpath_abs (absForm_head hs cs), absForm_slashes hs hc, absForm_split hs hc]

theorem absForm_inj {s s' : Nat} (hs : s = 1 ∨ s = 2) (hs' : s' = 1 ∨ s' = 2) {cs cs' : List Str}
    (hc : ∀ c ∈ cs, PlainName c) (hc' : ∀ c ∈ cs', PlainName c) (h : absForm s cs = absForm s' cs') :
    s = s' ∧ cs = cs' := by
  refine ⟨?_, ?_⟩
  · rw [← absForm_slashes hs hc, h, absForm_slashes hs' hc']
  · rw [← absForm_split hs hc, h, absForm_split hs' hc']

/-! ### Names within a directory -/

theorem normComps_dots_stay : ∀ (xs acc : List Str), ['.', '.'] ∈ acc → ['.', '.'] ∈ normComps false xs acc
  | [], acc, h => by simpa [normComps] using h
  | x :: xs, acc, h => by
    simp only [normComps]
    split
    · exact normComps_dots_stay xs acc h
    · split
      · exact normComps_dots_stay xs _ (by simp [h])
      · rename_i h2
        simp only [not_or] at h2
        refine normComps_dots_stay xs _ ?_
        cases acc with
        | nil => cases h
        | cons y t =>
          rcases List.mem_cons.1 h with rfl | h
          · simp at h2
          · exact h

theorem normComps_rel : ∀ (xs s S : List Str), ['.', '.'] ∉ s → ['.', '.'] ∉ normComps false xs s →
    normComps true xs (s ++ S) = S.reverse ++ normComps false xs s
  | [], s, S, _, _ => by simp [normComps]
  | x :: xs, s, S, hs, hr => by
    simp only [normComps] at hr ⊢
    by_cases h1 : x = [] ∨ x = ['.']
    · rw [if_pos h1] at hr ⊢
      rw [if_pos h1]
      exact normComps_rel xs s S hs hr
    · rw [if_neg h1] at hr ⊢
      rw [if_neg h1]
      by_cases h2 : x = ['.', '.']
      · cases s with
        | nil =>
          rw [if_pos (Or.inr (Or.inl ⟨trivial, rfl⟩))] at hr
          exact absurd (normComps_dots_stay xs [x] (by simp [h2])) hr
        | cons y t =>
          have hy : y ≠ ['.', '.'] := fun h => hs (by simp [h])
          have hf : ¬ (x ≠ ['.', '.'] ∨ (True ∧ y :: t = []) ∨ (y :: t).head? = some ['.', '.']) := by
            simp [h2, hy]
          have ht : ¬ (x ≠ ['.', '.'] ∨ (true = false ∧ y :: t ++ S = []) ∨ (y :: t ++ S).head? = some ['.', '.']) := by
            simp [h2, hy]
          rw [if_neg hf] at hr ⊢
          rw [if_neg ht]
          exact normComps_rel xs t S (fun h => hs (by simp [h])) hr
      · rw [if_pos (Or.inl h2)] at hr ⊢
        rw [if_pos (Or.inl h2)]
        exact normComps_rel xs (x :: s) S (by simp [hs, Ne.symm h2]) hr

/-- a relative name that normalises to a plain name leads to it from everywhere -/
theorem normComps_to_name {m n : Str} (hn : PlainName n) (h : normpath m = n) :
    m ≠ [] ∧ m.head? ≠ some '/' ∧ ∀ S, normComps true (splitOnChar '/' m) S = S.reverse ++ [n] := by
  have hm : m ≠ [] := by
    rintro rfl
    exact hn.2.1 (by rw [← h]; rfl)
  have hslash : m.head? ≠ some '/' := by
    intro hh
    rw [normpath_abs hh] at h
    have := absForm_head (initialSlashes_abs hh) (normComps true (splitOnChar '/' m) [])
    rw [h] at this
    exact hn.2.2.2 (List.mem_of_mem_head? this)
  have h0 : initialSlashes m = 0 := by
    unfold initialSlashes
    split <;> simp_all
  have hc : normComps false (splitOnChar '/' m) [] = [n] := by
    unfold normpath at h
    rw [if_neg hm] at h
    simp only [h0, List.replicate_zero, List.nil_append, ne_eq, not_true_eq_false, decide_false] at h
    generalize normComps false (splitOnChar '/' m) [] = cs at h
    by_cases hj : joinWith ['/'] cs = []
    · rw [if_pos hj] at h
      exact absurd h.symm hn.2.1
    · rw [if_neg hj] at h
      match cs, h, hj with
      | [], _, hj => exact absurd rfl hj
      | [x], h, _ => simp [joinWith] at h; rw [h]
      | x :: y :: t, h, _ =>
        exfalso
        apply hn.2.2.2
        rw [← h]
        simp [joinWith]
  refine ⟨hm, hslash, fun S => ?_⟩
  have := normComps_rel (splitOnChar '/' m) [] S (by simp) (by rw [hc]; simp [Ne.symm hn.2.2.1])
  rw [List.nil_append] at this
  rw [this, hc]

theorem split_slash (a b : Str) : splitOnChar '/' (a ++ '/' :: b) = splitOnChar '/' a ++ splitOnChar '/' b := by
  have : a ++ '/' :: b = joinWith ['/'] (splitOnChar '/' a ++ splitOnChar '/' b) := by
    rw [joinWith_append '/' _ _ (splitOnChar_ne_nil _ _) (splitOnChar_ne_nil _ _), joinWith_splitOnChar,
      joinWith_splitOnChar]
  rw [this]
  refine splitOnChar_join '/' _ (by simp [splitOnChar_ne_nil]) ?_
  intro s hs
  rcases List.mem_append.1 hs with hs | hs <;> exact splitOnChar_sepfree '/' _ s hs

theorem initialSlashes_append {d m : Str} (hd : d.head? = some '/') (hm : m.head? ≠ some '/') (hne : m ≠ []) :
    initialSlashes (d ++ m) = initialSlashes d := by
  match d, hd with
  | [c], hd =>
    simp at hd; subst hd
    cases m with
    | nil => exact absurd rfl hne
    | cons x t =>
      simp at hm
      exact slashes_one hm t
  | [c, c2], hd =>
    simp at hd; subst hd
    cases m with
    | nil => exact absurd rfl hne
    | cons x t =>
      simp at hm
      show initialSlashes ('/' :: c2 :: x :: t) = initialSlashes ['/', c2]
      by_cases h2 : c2 = '/'
      · subst h2
        exact slashes_two hm t
      · rw [slashes_one h2, slashes_one h2]
  | c :: c2 :: c3 :: t, hd =>
    simp at hd; subst hd
    show initialSlashes ('/' :: c2 :: c3 :: (t ++ m)) = initialSlashes ('/' :: c2 :: c3 :: t)
    by_cases h2 : c2 = '/'
    · subst h2
      by_cases h3 : c3 = '/'
      · subst h3; rfl
      · rw [slashes_two h3, slashes_two h3]
    · rw [slashes_one h2, slashes_one h2]

theorem initialSlashes_snoc {d m : Str} (hd : d.head? = some '/') (hl : d.getLast? ≠ some '/') :
    initialSlashes (d ++ '/' :: m) = initialSlashes d := by
  match d, hd with
  | [c], hd => simp at hd; subst hd; simp at hl
  | [c, c2], hd =>
    simp at hd; subst hd
    simp at hl
    show initialSlashes ('/' :: c2 :: '/' :: m) = initialSlashes ['/', c2]
    rw [slashes_one hl, slashes_one hl]
  | c :: c2 :: c3 :: t, hd =>
    simp at hd; subst hd
    show initialSlashes ('/' :: c2 :: c3 :: (t ++ '/' :: m)) = initialSlashes ('/' :: c2 :: c3 :: t)
    by_cases h2 : c2 = '/'
    · subst h2
      by_cases h3 : c3 = '/'
      · subst h3; rfl
      · rw [slashes_two h3, slashes_two h3]
    · rw [slashes_one h2, slashes_one h2]

/-- a name within an absolute directory, in normal form -/
theorem normpath_join {d m n : Str} (hd : d.head? = some '/') (hn : PlainName n) (h : normpath m = n) :
    normpath (pathJoin d m) = absForm (initialSlashes d) (normComps true (splitOnChar '/' d) [] ++ [n]) := by
  obtain ⟨hm, hs, hc⟩ := normComps_to_name hn h
  have hdne : d ≠ [] := by rintro rfl; cases hd
  have hhead : (pathJoin d m).head? = some '/' := by
    unfold pathJoin
    rw [if_neg hs]
    cases d with
    | nil => exact absurd rfl hdne
    | cons c t => simp at hd; subst hd; split <;> simp
  rw [normpath_abs hhead]
  have e1 : initialSlashes (pathJoin d m) = initialSlashes d := by
    unfold pathJoin
    rw [if_neg hs]
    split
    · exact initialSlashes_append hd hs hm
    · rename_i hl
      simp only [not_or] at hl
      exact initialSlashes_snoc hd hl.2
  have e2 : normComps true (splitOnChar '/' (pathJoin d m)) [] = normComps true (splitOnChar '/' d) [] ++ [n] := by
    unfold pathJoin
    rw [if_neg hs]
    split
    · rename_i hl
      rcases hl with hl | hl
      · exact absurd hl hdne
      · obtain ⟨d', rfl⟩ : ∃ d', d = d' ++ ['/'] := by
          refine ⟨d.dropLast, ?_⟩
          rw [List.getLast?_eq_getLast_of_ne_nil hdne] at hl
          have := List.dropLast_append_getLast hdne
          rw [Option.some.injEq] at hl
          rw [hl] at this
          exact this.symm
        rw [show d' ++ ['/'] ++ m = d' ++ '/' :: m by simp, split_slash, normComps_append, hc, split_slash,
          normComps_append]
        have : splitOnChar '/' [] = [[]] := rfl
        rw [this]
        simp [normComps]
    · rw [split_slash, normComps_append, hc]
      simp
  rw [e1, e2]

theorem absForm_snoc_shape {s : Nat} (hs : s = 1 ∨ s = 2) {cs : List Str} (hc : ∀ c ∈ cs, PlainName c) {n : Str}
    (hn : PlainName n) : pathDir (absForm s (cs ++ [n])) = absForm s cs ∧ pathBase (absForm s (cs ++ [n])) = n ∧
      pathJoin (absForm s cs) n = absForm s (cs ++ [n]) := by
  have hns := hn.2.2.2
  have hnh : ¬ n.head? = some '/' := fun h => hns (List.mem_of_mem_head? h)
  have hbase : ∀ A, pathBase (A ++ '/' :: n) = n := by
    intro A
    have := pathBase_of_noslash hns (A ++ ['/']) (Or.inr (by simp))
    simpa using this
  by_cases h0 : cs = []
  · subst h0
    rcases hs with rfl | rfl
    · refine ⟨?_, ?_, ?_⟩
      · show pathDir ([] ++ '/' :: n) = ['/']
        unfold pathDir
        simp only [pathHead_split hns]
        simp
      · exact hbase []
      · show pathJoin ['/'] n = _
        unfold pathJoin
        rw [if_neg hnh, if_pos (Or.inr (by simp))]
        rfl
    · refine ⟨?_, ?_, ?_⟩
      · show pathDir (['/'] ++ '/' :: n) = ['/', '/']
        unfold pathDir
        simp only [pathHead_split hns]
        simp
      · exact hbase ['/']
      · show pathJoin ['/', '/'] n = _
        unfold pathJoin
        rw [if_neg hnh, if_pos (Or.inr (by simp))]
        rfl
  · have e : absForm s (cs ++ [n]) = absForm s cs ++ '/' :: n := by
      unfold absForm
      rw [joinWith_append '/' cs [n] h0 (by simp)]
      simp [joinWith]
    obtain ⟨x, hx, he⟩ := joinWith_last (c := '/') h0 (fun y hy => (hc y hy).1)
    have hlast : (absForm s cs).getLast? ≠ some '/' := by
      unfold absForm
      rw [List.getLast?_append, he]
      cases hg : x.getLast? with
      | none => rw [List.getLast?_eq_none_iff] at hg; exact absurd hg (hc x hx).1
      | some w =>
        simp only [Option.some_or, ne_eq, Option.some.injEq]
        rintro rfl
        exact (hc x hx).2.2.2 (List.mem_of_mem_getLast? hg)
    have hne : absForm s cs ≠ [] := by
      intro h
      have := absForm_head hs cs
      rw [h] at this; cases this
    rw [e]
    refine ⟨?_, hbase _, ?_⟩
    · unfold pathDir
      simp only [pathHead_split hns]
      obtain ⟨a, y, hay, hy⟩ : ∃ a y, absForm s cs = a ++ [y] ∧ y ≠ '/' := by
        refine ⟨_, (absForm s cs).getLast hne, (List.dropLast_append_getLast hne).symm, ?_⟩
        intro hc
        exact hlast (by rw [List.getLast?_eq_getLast_of_ne_nil hne, hc])
      rw [hay, if_neg]
      · simp [hy]
      · simp [hy]
    · unfold pathJoin
      rw [if_neg hnh, if_neg (by simp [hne, hlast])]

/-! ### The facts used elsewhere -/

theorem absName_abs {w : Fs} {p : Str} (h : p.head? = some '/') : absName w p = normpath p := by
  unfold absName; rw [if_pos h]

theorem join_abs {d m : Str} (hd : d.head? = some '/') : (pathJoin d m).head? = some '/' := by
  unfold pathJoin
  split
  · assumption
  · cases d with
    | nil => cases hd
    | cons c t => simp at hd; subst hd; split <;> simp

/-- the location of a name within a directory -/
theorem absName_join {w : Fs} {d m n : Str} (hd : d.head? = some '/') (hn : PlainName n) (h : normpath m = n) :
    absName w (pathJoin d m) = absForm (initialSlashes d) (normComps true (splitOnChar '/' d) [] ++ [n]) := by
  rw [absName_abs (join_abs hd), normpath_join hd hn h]

theorem plain_norm {n : Str} (hn : PlainName n) : normpath n = n := normpath_name hn.2.2.2 hn.1 hn.2.1 hn.2.2.1

theorem absName_join_norm {w : Fs} {d m n : Str} (hd : d.head? = some '/') (hn : PlainName n) (h : normpath m = n) :
    absName w (pathJoin d m) = absName w (pathJoin d n) := by
  rw [absName_join hd hn h, absName_join hd hn (plain_norm hn)]

theorem base_absName_join {w : Fs} {d m n : Str} (hd : d.head? = some '/') (hn : PlainName n) (h : normpath m = n) :
    pathBase (absName w (pathJoin d m)) = n := by
  rw [absName_join hd hn h]
  exact (absForm_snoc_shape (initialSlashes_abs hd) (clean_abs d) hn).2.1

theorem absName_head {w : Fs} (hw : w.cwd.head? = some '/') (p : Str) : (absName w p).head? = some '/' := by
  unfold absName
  have hq : (if p.head? = some '/' then p else pathJoin w.cwd p).head? = some '/' := by
    split
    · assumption
    · exact join_abs hw
  rw [normpath_abs hq]
  exact absForm_head (initialSlashes_abs hq) _

theorem absName_idem {w : Fs} (hw : w.cwd.head? = some '/') (p : Str) : absName w (absName w p) = absName w p := by
  rw [absName_abs (absName_head hw p)]
  unfold absName
  have hq : (if p.head? = some '/' then p else pathJoin w.cwd p).head? = some '/' := by
    split
    · assumption
    · exact join_abs hw
  rw [normpath_abs hq]
  exact normpath_absForm (initialSlashes_abs hq) (clean_abs _)

theorem head_base (p : Str) : pathHead p ++ pathBase p = p := by
  unfold pathHead pathBase
  rw [← List.reverse_append, List.takeWhile_append_dropWhile, List.reverse_reverse]

theorem pathHead_last (p : Str) : pathHead p = [] ∨ (pathHead p).getLast? = some '/' := by
  unfold pathHead
  cases h : p.reverse.dropWhile (fun c => c != '/') with
  | nil => left; rfl
  | cons c t =>
    right
    have := List.head?_dropWhile_not (fun c => c != '/') p.reverse
    rw [h] at this
    simp at this
    simp [this]

/-- the directory of a path, and the location of another name beside it -/
theorem dir_facts {w : Fs} (hw : w.cwd.head? = some '/') {p : Str} (hp : PlainName (pathBase p)) :
    (pathDir (absName w p)).head? = some '/' ∧
    absName w p = pathJoin (pathDir (absName w p)) (pathBase p) ∧
    (∀ n, PlainName n → absName w (pathHead p ++ n) = pathJoin (pathDir (absName w p)) n) ∧
    ∀ n, PlainName n → absName w (pathJoin (pathDir (absName w p)) n) = pathJoin (pathDir (absName w p)) n := by
  -- the absolute directory, with a slash at the end
  obtain ⟨d, hd, hall⟩ : ∃ d : Str, d.head? = some '/' ∧ ∀ n, PlainName n →
      absName w (pathHead p ++ n) = normpath (pathJoin d n) := by
    by_cases habs : p.head? = some '/'
    · have hh : (pathHead p).head? = some '/' := by
        have h1 := head_base p
        cases hP : pathHead p with
        | nil =>
          rw [hP, List.nil_append] at h1
          rw [← h1] at habs
          exact absurd (List.mem_of_mem_head? habs) (by rw [h1]; exact h1 ▸ hp.2.2.2)
        | cons c t =>
          rw [hP] at h1
          rw [← h1] at habs
          simpa using habs
      refine ⟨pathHead p, hh, fun n hn => ?_⟩
      have hnh : ¬ n.head? = some '/' := fun h => hn.2.2.2 (List.mem_of_mem_head? h)
      have hj : pathJoin (pathHead p) n = pathHead p ++ n := by
        unfold pathJoin
        rw [if_neg hnh, if_pos]
        rcases pathHead_last p with h | h
        · exact Or.inl h
        · exact Or.inr h
      rw [hj]
      apply absName_abs
      cases hP : pathHead p with
      | nil => rw [hP] at hh; cases hh
      | cons c t => rw [hP] at hh; simpa using hh
    · refine ⟨pathJoin w.cwd (pathHead p), join_abs hw, fun n hn => ?_⟩
      have hnh : ¬ n.head? = some '/' := fun h => hn.2.2.2 (List.mem_of_mem_head? h)
      have hPh : ¬ (pathHead p).head? = some '/' := by
        intro h
        apply habs
        have h1 := head_base p
        cases hP : pathHead p with
        | nil => rw [hP] at h; cases h
        | cons c t => rw [hP] at h h1; rw [← h1]; simpa using h
      have hPn : ¬ (pathHead p ++ n).head? = some '/' := by
        cases hP : pathHead p with
        | nil => simpa using hnh
        | cons c t => rw [hP] at hPh; simpa using hPh
      unfold absName
      rw [if_neg hPn]
      have hcw : w.cwd ≠ [] := by intro h; rw [h] at hw; cases hw
      congr 1
      unfold pathJoin
      rw [if_neg hPn, if_neg hPh, if_neg hnh]
      by_cases hl : w.cwd = [] ∨ w.cwd.getLast? = some '/'
      · rw [if_pos hl, if_pos hl, if_pos]
        · simp
        · right
          rcases pathHead_last p with h | h
          · rw [h, List.append_nil]
            exact hl.resolve_left hcw
          · rw [List.getLast?_append, h]; rfl
      · rw [if_neg hl, if_neg hl, if_pos]
        · simp
        · right
          rcases pathHead_last p with h | h
          · rw [h]; simp
          · rw [List.getLast?_append, List.getLast?_cons, h]; rfl
  have hform : ∀ n, PlainName n → absName w (pathHead p ++ n) =
      absForm (initialSlashes d) (normComps true (splitOnChar '/' d) [] ++ [n]) := by
    intro n hn
    rw [hall n hn, normpath_join hd hn (plain_norm hn)]
  have hs := initialSlashes_abs hd
  have hcl := clean_abs d
  have hp0 := hform _ hp
  rw [head_base] at hp0
  have hdir : pathDir (absName w p) = absForm (initialSlashes d) (normComps true (splitOnChar '/' d) []) := by
    rw [hp0]; exact (absForm_snoc_shape hs hcl hp).1
  rw [hdir]
  refine ⟨absForm_head hs _, ?_, fun n hn => ?_, fun n hn => ?_⟩
  · rw [(absForm_snoc_shape hs hcl hp).2.2, hp0]
  · rw [hform n hn, (absForm_snoc_shape hs hcl hn).2.2]
  · rw [absName_join (absForm_head hs _) hn (plain_norm hn), absForm_slashes hs hcl, absForm_split hs hcl,
      (absForm_snoc_shape hs hcl hn).2.2]

theorem join_inj {d n n' : Str} (hn : PlainName n) (hn' : PlainName n') (h : pathJoin d n = pathJoin d n') : n = n' := by
  have e1 := pathBase_join (dir := d) hn.2.2.2
  have e2 := pathBase_join (dir := d) hn'.2.2.2
  rw [h, e2] at e1
  exact e1.symm

end Cot
