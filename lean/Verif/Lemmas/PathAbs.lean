import Verif.Props.Disks
import Verif.Props.Archive
import Verif.Model.Package
/-
Splitting an absolute path into directory and name and joining them again.
-/
namespace Cot

theorem normComps_snoc {base : Str} (h1 : base ≠ []) (h2 : base ≠ ['.']) (h3 : base ≠ ['.', '.']) :
    ∀ (xs acc : List Str), normComps true (xs ++ [base]) acc = normComps true xs acc ++ [base]
  | [], acc => by
    simp only [List.nil_append, normComps]
    rw [if_neg (by simp [h1, h2]), if_pos (Or.inl h3)]
    simp
  | x :: xs, acc => by
    simp only [List.cons_append, normComps]
    split
    · exact normComps_snoc h1 h2 h3 xs acc
    · split
      · exact normComps_snoc h1 h2 h3 xs _
      · exact normComps_snoc h1 h2 h3 xs _

theorem normComps_mem : ∀ (xs acc : List Str), ∀ y ∈ normComps true xs acc, y ∈ acc ∨ (y ∈ xs ∧ y ≠ [])
  | [], acc, y, h => by simp only [normComps, List.mem_reverse] at h; exact Or.inl h
  | x :: xs, acc, y, h => by
    simp only [normComps] at h
    split at h
    · rcases normComps_mem xs acc y h with h | ⟨h, h'⟩
      · exact Or.inl h
      · exact Or.inr ⟨by simp [h], h'⟩
    · rename_i hx
      split at h
      · rcases normComps_mem xs _ y h with h | ⟨h, h'⟩
        · rcases List.mem_cons.1 h with rfl | h
          · exact Or.inr ⟨by simp, fun hc => hx (Or.inl hc)⟩
          · exact Or.inl h
        · exact Or.inr ⟨by simp [h], h'⟩
      · rcases normComps_mem xs _ y h with h | ⟨h, h'⟩
        · exact Or.inl (List.mem_of_mem_tail h)
        · exact Or.inr ⟨by simp [h], h'⟩

theorem pathHead_split {A base : Str} (h : '/' ∉ base) : pathHead (A ++ '/' :: base) = A ++ ['/'] := by
  unfold pathHead
  rw [List.reverse_append, List.reverse_cons, List.append_assoc, List.dropWhile_append_of_pos]
  · simp
  · intro c hc
    rw [List.mem_reverse] at hc
    simp only [bne_iff_ne, ne_eq]
    rintro rfl
    exact h hc

/-- `join(dirname(p), basename(p))` for a path without doubled slashes -/
theorem pathDir_join {A base : Str} (h : '/' ∉ base) (hA : (∀ c ∈ A, c = '/') ∨ (A ≠ [] ∧ A.getLast? ≠ some '/')) :
    pathJoin (pathDir (A ++ '/' :: base)) base = A ++ '/' :: base := by
  have hb : ¬ base.head? = some '/' := by
    cases base with
    | nil => simp
    | cons c t => simp only [List.head?_cons, Option.some.injEq]; rintro rfl; simp at h
  unfold pathDir
  simp only [pathHead_split h]
  rcases hA with hA | ⟨hne, hA⟩
  · rw [if_pos (by
      rw [List.all_eq_true]
      intro c hc
      rcases List.mem_append.1 hc with hc | hc
      · simp [hA c hc]
      · simp at hc; simp [hc])]
    unfold pathJoin
    rw [if_neg hb, if_pos (Or.inr (by simp))]
    simp
  · have hex : ∃ a x, A = a ++ [x] ∧ x ≠ '/' := by
      refine ⟨A.dropLast, A.getLast hne, (List.dropLast_append_getLast hne).symm, ?_⟩
      intro hc
      exact hA (by rw [List.getLast?_eq_getLast_of_ne_nil hne, hc])
    obtain ⟨a, x, rfl, hx⟩ := hex
    rw [if_neg (by
      rw [List.all_eq_true]
      intro hall
      exact hx (by simpa using hall x (by simp)))]
    have : ((a ++ [x] ++ ['/']).reverse.dropWhile (fun c => c == '/')).reverse = a ++ [x] := by
      simp [hx]
    rw [this]
    unfold pathJoin
    rw [if_neg hb, if_neg (by simp [hx])]

theorem split_base {Q : Str} (h : Q.head? = some '/') : ∃ H, Q = H ++ '/' :: pathBase Q := by
  have hs : '/' ∈ Q := by
    cases Q with
    | nil => cases h
    | cons c t => simp at h; simp [h]
  have hd : Q.reverse.dropWhile (fun c => c != '/') ≠ [] := by
    intro hc
    have h2 := List.takeWhile_append_dropWhile (p := fun c => c != '/') (l := Q.reverse)
    rw [hc, List.append_nil] at h2
    have : '/' ∈ Q.reverse.takeWhile (fun c => c != '/') := by rw [h2]; simpa using hs
    have := (List.all_eq_true.1 (List.all_takeWhile (p := fun c => c != '/') (l := Q.reverse))) _ this
    simp at this
  have h3 := List.head_dropWhile_not (fun c => c != '/') hd
  obtain ⟨x, t, ht⟩ : ∃ x t, Q.reverse.dropWhile (fun c => c != '/') = x :: t := by
    cases hc : Q.reverse.dropWhile (fun c => c != '/') with
    | nil => exact absurd hc hd
    | cons x t => exact ⟨x, t, rfl⟩
  simp only [ht, List.head_cons] at h3
  have hx : x = '/' := by simpa using h3
  subst hx
  refine ⟨t.reverse, ?_⟩
  have h2 := List.takeWhile_append_dropWhile (p := fun c => c != '/') (l := Q.reverse)
  rw [ht] at h2
  have := congrArg List.reverse h2
  rw [List.reverse_append, List.reverse_reverse] at this
  rw [← this]
  conv_rhs => rw [this]
  unfold pathBase
  simp

/-- an absolute path ending in a proper name, normalised: the normalised directory and the name -/
theorem normpath_base {Q : Str} (h : Q.head? = some '/') (h1 : pathBase Q ≠ []) (h2 : pathBase Q ≠ ['.'])
    (h3 : pathBase Q ≠ ['.', '.']) :
    ∃ A, normpath Q = A ++ '/' :: pathBase Q ∧ ((∀ c ∈ A, c = '/') ∨ (A ≠ [] ∧ A.getLast? ≠ some '/')) ∧
      (A ++ ['/']).head? = some '/' := by
  obtain ⟨H, hH⟩ := split_base h
  have hns := noslash_base Q
  generalize pathBase Q = base at *
  have hsp : splitOnChar '/' Q = splitOnChar '/' H ++ [base] := by
    have : Q = joinWith ['/'] (splitOnChar '/' H ++ [base]) := by
      rw [joinWith_append '/' _ _ (splitOnChar_ne_nil _ _) (by simp), joinWith_splitOnChar, hH]; rfl
    rw [this]
    refine splitOnChar_join '/' _ (by simp) ?_
    intro s hs
    rcases List.mem_append.1 hs with hs | hs
    · exact splitOnChar_sepfree '/' H s hs
    · simp at hs; subst hs; exact hns
  have hQ : Q ≠ [] := by rw [hH]; simp
  have hn : initialSlashes Q = 1 ∨ initialSlashes Q = 2 := by
    cases Q with
    | nil => exact absurd rfl hQ
    | cons c t =>
      simp at h; subst h
      clear hH hsp hQ
      unfold initialSlashes
      split
      · simp
      · simp
      · simp
      · rename_i hx; exact absurd rfl (hx t)
  have hcomp : normComps (decide (initialSlashes Q ≠ 0)) (splitOnChar '/' Q) [] =
      normComps true (splitOnChar '/' H) [] ++ [base] := by
    rw [show decide (initialSlashes Q ≠ 0) = true by rcases hn with hn | hn <;> rw [hn] <;> rfl, hsp,
      normComps_snoc h1 h2 h3]
  have hcs : ∀ y ∈ normComps true (splitOnChar '/' H) [], y ≠ [] ∧ '/' ∉ y := by
    intro y hy
    rcases normComps_mem _ _ y hy with hy | ⟨hy, hy'⟩
    · simp at hy
    · exact ⟨hy', splitOnChar_sepfree '/' H y hy⟩
  generalize normComps true (splitOnChar '/' H) [] = cs at *
  obtain ⟨m, hm⟩ : ∃ m, initialSlashes Q = m + 1 := by
    rcases hn with hn | hn
    · exact ⟨0, hn⟩
    · exact ⟨1, hn⟩
  have hnp : normpath Q = List.replicate (m + 1) '/' ++ joinWith ['/'] (cs ++ [base]) := by
    unfold normpath
    rw [if_neg hQ]
    rw [hm] at hcomp
    simp only [hm, hcomp]
    rw [if_neg (by simp [List.replicate_succ])]
  rw [hnp]
  by_cases hc : cs = []
  · subst hc
    refine ⟨List.replicate m '/', ?_, Or.inl (fun c hc => List.eq_of_mem_replicate hc), ?_⟩
    · rw [List.replicate_succ']; simp [joinWith]
    · cases m <;> simp [List.replicate_succ]
  · refine ⟨List.replicate (m + 1) '/' ++ joinWith ['/'] cs, ?_, Or.inr ⟨by simp [List.replicate_succ], ?_⟩,
      by simp [List.replicate_succ]⟩
    · rw [joinWith_append '/' cs [base] hc (by simp)]; simp [joinWith]
    · obtain ⟨x, hx, he⟩ := joinWith_last (c := '/') hc (fun y hy => (hcs y hy).1)
      rw [List.getLast?_append, he]
      cases hg : x.getLast? with
      | none => rw [List.getLast?_eq_none_iff] at hg; exact absurd hg (hcs x hx).1
      | some w =>
        simp only [Option.some_or, ne_eq, Option.some.injEq]
        rintro rfl
        exact (hcs x hx).2 (List.mem_of_mem_getLast? hg)

theorem normpath_name {b : Str} (h0 : '/' ∉ b) (h1 : b ≠ []) (h2 : b ≠ ['.']) (h3 : b ≠ ['.', '.']) : normpath b = b := by
  unfold normpath
  have hn : initialSlashes b = 0 := by
    unfold initialSlashes
    split <;> simp_all
  rw [if_neg h1]
  simp only [hn, splitOnChar_none '/' b h0]
  have : normComps (decide ((0 : Nat) ≠ 0)) [b] [] = [b] := by
    simp [normComps, h1, h2, h3]
  rw [this]
  simp [joinWith, h1]

theorem pathBase_absPath {w : Fs} (hw : w.cwd.head? = some '/') (p : Str) :
    ∃ Q, absName w p = normpath Q ∧ Q.head? = some '/' ∧ pathBase Q = pathBase p := by
  unfold absName
  by_cases hp : p.head? = some '/'
  · exact ⟨p, by rw [if_pos hp], hp, rfl⟩
  · refine ⟨pathJoin w.cwd p, by rw [if_neg hp], ?_, ?_⟩
    · unfold pathJoin
      rw [if_neg hp]
      cases hc : w.cwd with
      | nil => rw [hc] at hw; cases hw
      | cons c t => rw [hc] at hw; simp at hw; subst hw; split <;> simp
    · unfold pathJoin
      rw [if_neg hp]
      have key : ∀ a : Str, a.getLast? = some '/' → pathBase (a ++ p) = pathBase p := by
        intro a ha
        by_cases hs : '/' ∈ p
        · unfold pathBase
          rw [List.reverse_append]
          congr 1
          rw [List.takeWhile_append]
          rw [if_neg]
          intro hl
          have h1 : p.reverse.takeWhile (fun c => c != '/') = p.reverse := by
            exact (List.takeWhile_prefix _).eq_of_length hl
          have h2 : '/' ∈ p.reverse.takeWhile (fun c => c != '/') := by rw [h1]; simpa using hs
          have := (List.all_eq_true.1 (List.all_takeWhile (p := fun c => c != '/') (l := p.reverse))) _ h2
          simp at this
        · rw [pathBase_of_noslash hs a (Or.inr ha)]
          have := pathBase_of_noslash hs [] (Or.inl rfl)
          simpa using this.symm
      split
      · rename_i hd
        rcases hd with hd | hd
        · rw [hd] at hw; cases hw
        · exact key _ hd
      · have := key (w.cwd ++ ['/']) (by simp)
        simpa using this

/-- the directory and the name of an absolute path, joined -/
theorem abs_dir_name {w : Fs} (hw : w.cwd.head? = some '/') {p : Str} (h1 : pathBase p ≠ []) (h2 : pathBase p ≠ ['.'])
    (h3 : pathBase p ≠ ['.', '.']) :
    pathJoin (makeAbs w (pathDir (absName w p))) (normpath (pathBase p)) = absName w p := by
  obtain ⟨Q, e1, e2, e3⟩ := pathBase_absPath hw p
  rw [← e3] at h1 h2 h3
  obtain ⟨A, f1, f2, f3⟩ := normpath_base e2 h1 h2 h3
  rw [e1, ← e3, normpath_name (noslash_base Q) h1 h2 h3, f1]
  have hns := noslash_base Q
  have hj := pathDir_join hns f2
  have habs : (pathDir (A ++ '/' :: pathBase Q)).head? = some '/' := by
    unfold pathDir
    simp only [pathHead_split hns]
    split
    · exact f3
    · rename_i hall
      rcases f2 with f2 | ⟨hne, f2⟩
      · exfalso
        apply hall
        rw [List.all_eq_true]
        intro c hc
        rcases List.mem_append.1 hc with hc | hc
        · simp [f2 c hc]
        · simp at hc; simp [hc]
      · have hex : ∃ a x, A = a ++ [x] ∧ x ≠ '/' := by
          refine ⟨A.dropLast, A.getLast hne, (List.dropLast_append_getLast hne).symm, ?_⟩
          intro hc
          exact f2 (by rw [List.getLast?_eq_getLast_of_ne_nil hne, hc])
        obtain ⟨a, x, rfl, hx⟩ := hex
        have : ((a ++ [x] ++ ['/']).reverse.dropWhile (fun c => c == '/')).reverse = a ++ [x] := by
          simp [hx]
        rw [this]
        cases a with
        | nil => simp at f3; exact absurd f3 hx
        | cons y t => simpa using f3
  unfold makeAbs
  rw [if_pos habs]
  exact hj

end Cot
