import Verif.Model.Archive
import Verif.Spec.Archive
import Verif.Lemmas.Str
import Mathlib.Tactic.Push
import Mathlib.Tactic.Tauto
import Mathlib.Tactic.ByContra
/-
C26: unpacking an archive.
-/
namespace Cot

theorem normComps_walk : ∀ (cs acc : List Str), (∀ c ∈ acc, c ≠ ['.', '.']) →
    normComps true cs acc = walk acc.reverse cs
  | [], acc, _ => rfl
  | c :: t, acc, h => by
    unfold normComps walk
    by_cases h1 : c = [] ∨ c = ['.']
    · rw [if_pos h1, if_pos h1]; exact normComps_walk t acc h
    · rw [if_neg h1, if_neg h1]
      by_cases h2 : c = ['.', '.']
      · have hno : ¬ (c ≠ ['.', '.'] ∨ (true = false ∧ acc = []) ∨ acc.head? = some ['.', '.']) := by
          rintro (h3 | h3 | h3)
          · exact h3 h2
          · cases h3.1
          · exact h _ (List.mem_of_mem_head? h3) rfl
        rw [if_neg hno, if_pos h2, normComps_walk t acc.tail (fun d hd => h d (List.mem_of_mem_tail hd))]
        cases acc <;> simp
      · rw [if_pos (Or.inl h2), if_neg h2, normComps_walk t (c :: acc) ?_]
        · simp
        · intro d hd
          rcases List.mem_cons.1 hd with rfl | hd
          · exact h2
          · exact h d hd

theorem walk_append : ∀ (a b here : List Str), walk here (a ++ b) = walk (walk here a) b
  | [], b, here => rfl
  | c :: t, b, here => by
    simp only [List.cons_append, walk]
    split
    · exact walk_append t b here
    · split
      · exact walk_append t b _
      · exact walk_append t b _

theorem walk_plain : ∀ (dir here : List Str), (∀ c ∈ dir, PlainName c) → walk here dir = here ++ dir
  | [], here, _ => by simp [walk]
  | c :: t, here, h => by
    obtain ⟨h1, h2, h3, -⟩ := h c (by simp)
    rw [walk, if_neg (by simp [h1, h2]), if_neg h3, walk_plain t _ (fun d hd => h d (by simp [hd]))]
    simp

theorem walk_plainNames : ∀ (cs here : List Str), (∀ c ∈ here, PlainName c) → (∀ c ∈ cs, '/' ∉ c) →
    ∀ c ∈ walk here cs, PlainName c
  | [], here, h, _ => h
  | c :: t, here, h, hs => by
    have hs' : ∀ d ∈ t, '/' ∉ d := fun d hd => hs d (by simp [hd])
    unfold walk
    split
    · exact walk_plainNames t here h hs'
    · rename_i h1
      push Not at h1
      split
      · exact walk_plainNames t _ (fun d hd => h d (List.dropLast_subset _ hd)) hs'
      · rename_i h2
        refine walk_plainNames t _ ?_ hs'
        intro d hd
        rcases List.mem_append.1 hd with hd | hd
        · exact h d hd
        · simp only [List.mem_singleton] at hd; subst hd; exact ⟨h1.1, h1.2, h2, hs d (by simp)⟩

theorem joinWith_cons_append (c : Char) (x : Str) : ∀ (a : List Str), a ≠ [] →
    joinWith [c] (x :: a) = x ++ c :: joinWith [c] a
  | y :: t, _ => by simp [joinWith]

theorem joinWith_append (c : Char) : ∀ (a b : List Str), a ≠ [] → b ≠ [] →
    joinWith [c] (a ++ b) = joinWith [c] a ++ c :: joinWith [c] b
  | [x], b, _, hb => by
    rw [List.singleton_append, joinWith_cons_append c x b hb]; rfl
  | x :: y :: t, b, _, hb => by
    rw [List.cons_append, joinWith_cons_append c x _ (by simp), joinWith_append c (y :: t) b (by simp) hb,
      joinWith_cons_append c x (y :: t) (by simp)]
    simp

theorem joinWith_head {c : Char} {x : Str} {t : List Str} (hx : x ≠ []) :
    (joinWith [c] (x :: t)).head? = x.head? := by
  cases x with
  | nil => exact absurd rfl hx
  | cons a x => cases t <;> rfl

theorem joinWith_last {c : Char} : ∀ {l : List Str}, l ≠ [] → (∀ x ∈ l, x ≠ []) →
    ∃ x ∈ l, (joinWith [c] l).getLast? = x.getLast?
  | [x], _, _ => ⟨x, by simp, rfl⟩
  | x :: y :: t, _, h => by
    obtain ⟨z, hz, he⟩ := joinWith_last (c := c) (l := y :: t) (by simp) (fun w hw => h w (by simp [hw]))
    refine ⟨z, by simp [hz], ?_⟩
    rw [joinWith_cons_append c x _ (by simp), List.getLast?_append, List.getLast?_cons, he]
    have hz0 : z ≠ [] := h z (by simp [hz])
    cases hg : z.getLast? with
    | none => rw [List.getLast?_eq_none_iff] at hg; exact absurd hg hz0
    | some w => simp

theorem dirText_last {dir : List Str} (hd : dir ≠ []) (h : ∀ c ∈ dir, PlainName c) :
    (dirText dir).getLast? ≠ some '/' := by
  unfold dirText
  obtain ⟨x, hx, he⟩ := joinWith_last (c := '/') hd (fun x hx => (h x hx).1)
  rw [List.getLast?_cons, he]
  have hp := h x hx
  cases hg : x.getLast? with
  | none => rw [List.getLast?_eq_none_iff] at hg; exact absurd hg hp.1
  | some w =>
    simp only [Option.getD_some, ne_eq, Option.some.injEq]
    rintro rfl
    exact hp.2.2.2 (List.mem_of_mem_getLast? hg)

theorem components_split {p : Str} {cs : List Str} (h : ComponentsOf p cs) : splitOnChar '/' p = cs := by
  obtain ⟨h1, h2, rfl⟩ := h
  exact splitOnChar_join '/' cs h1 h2

theorem initialSlashes_dir {dir : List Str} (hd : dir ≠ []) (h : ∀ c ∈ dir, PlainName c) (rest : Str) :
    initialSlashes (dirText dir ++ rest) = 1 := by
  cases dir with
  | nil => exact absurd rfl hd
  | cons x t =>
    have hp := h x (by simp)
    have := joinWith_head (c := '/') (t := t) hp.1
    unfold dirText
    cases x with
    | nil => exact absurd rfl hp.1
    | cons a x =>
      have ha : a ≠ '/' := by rintro rfl; exact hp.2.2.2 (by simp)
      cases hj : joinWith ['/'] ((a :: x) :: t) with
      | nil => rw [hj] at this; simp at this
      | cons b r =>
        rw [hj] at this
        simp only [List.head?_cons, Option.some.injEq] at this
        subst this
        simp only [List.cons_append, initialSlashes]
        split
        · rename_i h1; simp only [List.cons.injEq] at h1; exact absurd h1.2.1 ha
        · rename_i h1; simp only [List.cons.injEq] at h1; exact absurd h1.2.1 ha
        · rfl
        · rename_i h1; exact absurd rfl (h1 _)

/-- the string that `untar` checks, for a relative member name -/
theorem norm_relative {dir : List Str} (hd : dir ≠ []) (h : ∀ c ∈ dir, PlainName c) {name : Str} {cs : List Str}
    (hn : ComponentsOf name cs) (hrel : name.head? ≠ some '/') :
    normpath (pathJoin (dirText dir) name) = dirText (walk dir cs) := by
  have hjoin : pathJoin (dirText dir) name = dirText dir ++ '/' :: name := by
    unfold pathJoin
    rw [if_neg hrel, if_neg]
    rintro (h1 | h1)
    · simp [dirText] at h1
    · exact dirText_last hd h h1
  have hsplit : splitOnChar '/' (dirText dir ++ '/' :: name) = [] :: (dir ++ cs) := by
    have : dirText dir ++ '/' :: name = joinWith ['/'] ([] :: (dir ++ cs)) := by
      rw [joinWith_cons_append _ _ _ (by simp [hd]), joinWith_append _ _ _ hd hn.1, ← hn.2.2]
      simp [dirText]
    rw [this]
    refine splitOnChar_join '/' _ (by simp) ?_
    intro c hc
    simp only [List.mem_cons, List.mem_append] at hc
    rcases hc with rfl | hc | hc
    · simp
    · exact (h c hc).2.2.2
    · exact hn.2.1 c hc
  rw [hjoin]
  have hne : dirText dir ++ '/' :: name ≠ [] := by simp
  unfold normpath
  rw [if_neg hne]
  simp only [initialSlashes_dir hd h, hsplit]
  rw [show (decide (1 ≠ 0)) = true from rfl, normComps_walk _ _ (by simp)]
  have : walk [].reverse ([] :: (dir ++ cs)) = walk dir cs := by
    rw [walk, if_pos (Or.inl rfl), walk_append, walk_plain dir _ h]; rfl
  rw [this]
  have hr : List.replicate 1 '/' ++ joinWith ['/'] (walk dir cs) ≠ [] := by simp
  rw [if_neg hr]
  rfl

theorem norm_absolute {name : Str} {cs : List Str} (hn : ComponentsOf name cs) (habs : name.head? = some '/') (wd : Str) :
    normpath (pathJoin wd name) = dirText (walk [] cs) ∨
      normpath (pathJoin wd name) = '/' :: dirText (walk [] cs) := by
  have hjoin : pathJoin wd name = name := by unfold pathJoin; rw [if_pos habs]
  rw [hjoin]
  cases name with
  | nil => simp at habs
  | cons a t =>
    simp only [List.head?_cons, Option.some.injEq] at habs
    subst habs
    have hslash : initialSlashes ('/' :: t) = 1 ∨ initialSlashes ('/' :: t) = 2 := by
      unfold initialSlashes
      split
      · left; rfl
      · right; rfl
      · left; rfl
      · rename_i h1; exact absurd rfl (h1 _)
    have hw : ∀ n, n ≠ 0 → normComps (decide (n ≠ 0)) (splitOnChar '/' ('/' :: t)) [] = walk [] cs := by
      intro n hn0
      rw [show (decide (n ≠ 0)) = true by simpa using hn0, normComps_walk _ _ (by simp), components_split hn]; rfl
    unfold normpath
    rw [if_neg (by simp)]
    simp only
    rcases hslash with h1 | h1
    · rw [h1, hw 1 (by decide)]
      left
      rw [if_neg (by simp)]; rfl
    · rw [h1, hw 2 (by decide)]
      right
      rw [if_neg (by simp)]; rfl

theorem cut_unique {c : Char} : ∀ {x z r w : Str}, c ∉ x → c ∉ z → x ++ c :: r = z ++ c :: w → x = z ∧ r = w
  | [], [], _, _, _, _, h => by simpa using h
  | [], b :: z, _, _, _, hz, h => by
    simp only [List.nil_append, List.cons_append, List.cons.injEq] at h
    exact absurd (by rw [h.1]; simp) hz
  | a :: x, [], _, _, hx, _, h => by
    simp only [List.nil_append, List.cons_append, List.cons.injEq] at h
    exact absurd (by rw [h.1]; simp) hx
  | a :: x, b :: z, _, _, hx, hz, h => by
    simp only [List.cons_append, List.cons.injEq] at h
    obtain ⟨h1, h2⟩ := cut_unique (fun hc => hx (by simp [hc])) (fun hc => hz (by simp [hc])) h.2
    exact ⟨by rw [h.1, h1], h2⟩

/-- A path text begins with the text of `dir` iff the path goes through `dir` or through a directory
next to it whose name begins with the name of `dir`. -/
theorem prefix_iff : ∀ (dir t : List Str), dir ≠ [] → (∀ c ∈ dir, PlainName c) → (∀ c ∈ t, PlainName c) →
    (joinWith ['/'] dir <+: joinWith ['/'] t ↔
      ∃ pre last sfx rest, dir = pre ++ [last] ∧ t = pre ++ (last ++ sfx) :: rest)
  | [], _, h, _, _ => absurd rfl h
  | [x], t, _, hd, ht => by
    have hx := hd x (by simp)
    constructor
    · rintro ⟨r, hr⟩
      simp only [joinWith] at hr
      cases t with
      | nil =>
        simp only [joinWith, List.append_eq_nil_iff] at hr
        exact absurd hr.1 hx.1
      | cons y t =>
        have hy := ht y (by simp)
        -- x has no slash, so it is a prefix of y
        have : ∃ sfx, y = x ++ sfx := by
          cases t with
          | nil => exact ⟨r, hr.symm⟩
          | cons z t =>
            rw [joinWith_cons_append '/' y (z :: t) (by simp)] at hr
            have hxy := hr
            rcases List.append_eq_append_iff.1 hxy with ⟨a, h1, h2⟩ | ⟨a, h1, h2⟩
            · exact ⟨a, h1⟩
            · cases a with
              | nil => exact ⟨[], by simpa using h1.symm⟩
              | cons b a =>
                simp only [List.cons_append, List.cons.injEq] at h2
                exfalso
                apply hx.2.2.2
                rw [h1, ← h2.1]; simp
        obtain ⟨sfx, rfl⟩ := this
        exact ⟨[], x, sfx, t, rfl, rfl⟩
    · rintro ⟨pre, last, sfx, rest, h1, h2⟩
      cases pre with
      | nil =>
        simp only [List.nil_append, List.cons.injEq, and_true] at h1
        subst h1
        subst h2
        cases rest with
        | nil => exact ⟨sfx, by simp [joinWith]⟩
        | cons z rest =>
          rw [List.nil_append, joinWith_cons_append '/' (x ++ sfx) (z :: rest) (by simp)]
          exact ⟨sfx ++ '/' :: joinWith ['/'] (z :: rest), by simp [joinWith]⟩
      | cons p pre =>
        have := congrArg List.length h1
        simp at this
  | x :: y :: d, t, _, hd, ht => by
    have hx := hd x (by simp)
    have ih := fun t ht => prefix_iff (y :: d) t (by simp) (fun c hc => hd c (by simp [hc])) ht
    rw [joinWith_cons_append '/' x (y :: d) (by simp)]
    constructor
    · rintro ⟨r, hr⟩
      cases t with
      | nil => simp [joinWith] at hr
      | cons z t =>
        have hz := ht z (by simp)
        cases t with
        | nil =>
          simp only [joinWith] at hr
          exfalso
          apply hz.2.2.2
          rw [← hr]; simp
        | cons w t =>
          rw [joinWith_cons_append '/' z (w :: t) (by simp)] at hr
          have hr' : x ++ '/' :: (joinWith ['/'] (y :: d) ++ r) = z ++ '/' :: joinWith ['/'] (w :: t) := by
            rw [← hr]; simp
          have hsp := cut_unique hx.2.2.2 hz.2.2.2 hr'
          obtain ⟨rfl, h2⟩ := hsp
          obtain ⟨pre, last, sfx, rest, h3, h4⟩ := (ih (w :: t) (fun c hc => ht c (by simp [hc]))).1 ⟨r, h2⟩
          exact ⟨x :: pre, last, sfx, rest, by rw [h3]; rfl, by rw [h4]; rfl⟩
    · rintro ⟨pre, last, sfx, rest, h1, h2⟩
      cases pre with
      | nil =>
        have := congrArg List.length h1
        simp at this
      | cons p pre =>
        simp only [List.cons_append, List.cons.injEq] at h1
        obtain ⟨rfl, h1⟩ := h1
        subst h2
        obtain ⟨r, hr⟩ := (ih (pre ++ (last ++ sfx) :: rest) (fun c hc => ht c (by simp at hc ⊢; tauto))).2
          ⟨pre, last, sfx, rest, h1, rfl⟩
        refine ⟨r, ?_⟩
        rw [List.cons_append, joinWith_cons_append '/' x (pre ++ (last ++ sfx) :: rest) (by simp), ← hr]
        simp

theorem startsWith_iff {s p : Str} : startsWith s p = true ↔ p <+: s := by
  unfold startsWith; exact List.isPrefixOf_iff_prefix

theorem target_eq {dir cs : List Str} {name : Str} (hn : ComponentsOf name cs) :
    target dir cs = if name.head? = some '/' then walk [] cs else walk dir cs := by
  unfold target
  have : (cs.head? = some [] ∧ cs.length > 1) ↔ name.head? = some '/' := by
    obtain ⟨h1, h2, rfl⟩ := hn
    cases cs with
    | nil => exact absurd rfl h1
    | cons x t =>
      cases t with
      | nil =>
        simp only [List.head?_cons, List.length_cons, List.length_nil, joinWith, gt_iff_lt]
        constructor
        · rintro ⟨-, h⟩; omega
        · intro h; exact absurd (List.mem_of_mem_head? h) (h2 x (by simp))
      | cons y t =>
        rw [joinWith_cons_append _ _ _ (by simp)]
        cases x with
        | nil => simp
        | cons a x =>
          have : a ≠ '/' := by rintro rfl; exact h2 ('/' :: x) (by simp) (by simp)
          simp [this]
  by_cases h : name.head? = some '/'
  · rw [if_pos h, if_pos (this.2 h)]
  · rw [if_neg h, if_neg (fun hh => h (this.1 hh))]

theorem prefix_cases {dir t : List Str} :
    (∃ pre last sfx rest, dir = pre ++ [last] ∧ t = pre ++ (last ++ sfx) :: rest) →
    Inside dir t ∨ NextTo dir t := by
  rintro ⟨pre, last, sfx, rest, h1, h2⟩
  by_cases hs : sfx = []
  · subst hs
    left
    refine ⟨rest, ?_⟩
    rw [h1, h2]; simp
  · exact Or.inr ⟨pre, last, sfx, rest, h1, hs, h2⟩

theorem memberOk_imp {dir : List Str} (hd : dir ≠ []) (h : ∀ c ∈ dir, PlainName c) {name : Str} {cs : List Str}
    (hn : ComponentsOf name cs) (hok : memberOk (dirText dir) name = true) :
    Inside dir (target dir cs) ∨ NextTo dir (target dir cs) := by
  unfold memberOk at hok
  rw [startsWith_iff] at hok
  rw [target_eq hn]
  have hdirhead : ∃ a r, dirText dir = '/' :: a :: r ∧ a ≠ '/' := by
    have := initialSlashes_dir hd h []
    cases dir with
    | nil => exact absurd rfl hd
    | cons x t =>
      have hp := h x (by simp)
      cases x with
      | nil => exact absurd rfl hp.1
      | cons a x =>
        have ha : a ≠ '/' := by rintro rfl; exact hp.2.2.2 (by simp)
        have := joinWith_head (c := '/') (x := a :: x) (t := t) (by simp)
        cases hj : joinWith ['/'] ((a :: x) :: t) with
        | nil => rw [hj] at this; simp at this
        | cons b r =>
          rw [hj] at this
          simp only [List.head?_cons, Option.some.injEq] at this
          subst this
          exact ⟨b, r, by unfold dirText; rw [hj], ha⟩
  by_cases hrel : name.head? = some '/'
  · rw [if_pos hrel]
    rcases norm_absolute hn hrel (dirText dir) with e | e
    · rw [e] at hok
      unfold dirText at hok
      rw [List.cons_prefix_cons] at hok
      exact prefix_cases ((prefix_iff dir _ hd h (walk_plainNames cs [] (by simp) hn.2.1)).1 hok.2)
    · exfalso
      rw [e] at hok
      obtain ⟨a, r, h1, h2⟩ := hdirhead
      rw [h1] at hok
      unfold dirText at hok
      rw [List.cons_prefix_cons, List.cons_prefix_cons] at hok
      exact h2 hok.2.1
  · rw [if_neg hrel]
    rw [norm_relative hd h hn hrel] at hok
    unfold dirText at hok
    rw [List.cons_prefix_cons] at hok
    exact prefix_cases ((prefix_iff dir _ hd h (walk_plainNames cs dir h hn.2.1)).1 hok.2)

theorem walk_no_dotdot : ∀ (cs here : List Str), ['.', '.'] ∉ cs → here <+: walk here cs
  | [], here, _ => List.prefix_refl here
  | c :: t, here, h => by
    have ht : ['.', '.'] ∉ t := fun hc => h (by simp [hc])
    unfold walk
    split
    · exact walk_no_dotdot t here ht
    · split
      · rename_i h2; exact absurd (by rw [← h2]; simp) h
      · exact (List.prefix_append here [c]).trans (walk_no_dotdot t _ ht)

theorem inside_not_nextTo {dir t : List Str} (h : Inside dir t) : ¬ NextTo dir t := by
  rintro ⟨pre, last, sfx, rest, h1, h2, h3⟩
  obtain ⟨r, hr⟩ := h
  rw [h1, h3] at hr
  simp only [List.append_assoc, List.singleton_append, List.append_cancel_left_eq, List.cons.injEq] at hr
  have := hr.1
  exact h2 (by simpa using this.symm)

theorem untar_ok_members {wd : Str} {names : List Str} {p : Str} (h : untar wd names = .ok p) :
    ∀ n ∈ names, memberOk wd n = true := by
  unfold untar at h
  cases names with
  | nil => cases h
  | cons f t =>
    simp only at h
    split at h
    · cases h
    · rename_i hany
      intro n hn
      refine Bool.of_not_eq_false (fun hcon => hany ?_)
      rw [List.any_eq_true]
      exact ⟨n, hn, by simpa using hcon⟩

/-- **C26**, as far as it holds: if `untar` accepts an archive, every member points into the working
directory or into a directory beside it whose name begins with the name of the working directory.
Missing: the second alternative should be refused too; see `C26_sibling_fails`. -/
theorem C26_untar_safe_partial {dir : List Str} (hd : dir ≠ []) (h : ∀ c ∈ dir, PlainName c) {names : List Str}
    {p : Str} (hok : untar (dirText dir) names = .ok p) :
    ∀ n ∈ names, ∀ cs, ComponentsOf n cs → Inside dir (target dir cs) ∨ NextTo dir (target dir cs) :=
  fun n hn _ hcs => memberOk_imp hd h hcs (untar_ok_members hok n hn)

/-- the component at any place comes from the starting directory's same place, or from the name -/
theorem walk_origin : ∀ (cs here : List Str) (j : Nat) (c : Str), (walk here cs)[j]? = some c →
    here[j]? = some c ∨ c ∈ cs
  | [], _, _, _, h => Or.inl h
  | x :: t, here, j, c, h => by
    unfold walk at h
    split at h
    · rcases walk_origin t here j c h with h | h
      · exact Or.inl h
      · exact Or.inr (by simp [h])
    · split at h
      · rcases walk_origin t _ j c h with h | h
        · rw [List.getElem?_dropLast] at h
          split at h
          · exact Or.inl h
          · cases h
        · exact Or.inr (by simp [h])
      · rcases walk_origin t _ j c h with h | h
        · rw [List.getElem?_append] at h
          split at h
          · exact Or.inl h
          · have := List.mem_of_getElem? h
            simp only [List.mem_singleton] at this
            exact Or.inr (by simp [this])
        · exact Or.inr (by simp [h])

/-- C26 for archives that no name component of which begins with the name of the working directory
(which is freshly created with a random name): everything accepted points inside. -/
theorem C26_untar_safe_fresh {dir : List Str} {last : Str} (h : ∀ c ∈ dir ++ [last], PlainName c)
    {names : List Str} {p : Str} (hok : untar (dirText (dir ++ [last])) names = .ok p)
    (hfresh : ∀ n ∈ names, ∀ cs, ComponentsOf n cs → ∀ c ∈ cs, last <+: c → c = last) :
    AllInside (dir ++ [last]) names := by
  intro n hn cs hcs
  rcases C26_untar_safe_partial (by simp) h hok n hn cs hcs with h1 | h1
  · exact h1
  · exfalso
    obtain ⟨pre, l, sfx, rest, e1, e2, e3⟩ := h1
    have el : pre = dir ∧ l = last := by
      have := List.append_inj' e1 rfl
      exact ⟨this.1.symm, by simpa using this.2.symm⟩
    obtain ⟨rfl, rfl⟩ := el
    have hk : (target (pre ++ [l]) cs)[pre.length]? = some (l ++ sfx) := by rw [e3]; simp
    have hne : l ++ sfx ≠ l := by
      intro hh
      exact e2 (by simpa using hh)
    have hcs' : l ++ sfx ∈ cs := by
      unfold target at hk
      split at hk
      · rcases walk_origin cs [] _ _ hk with h1 | h1
        · simp at h1
        · exact h1
      · rcases walk_origin cs _ _ _ hk with h1 | h1
        · simp only [List.getElem?_concat_length, Option.some.injEq] at h1
          exact absurd h1.symm hne
        · exact h1
    exact hne (hfresh n hn cs hcs _ hcs' (List.prefix_append l sfx))

/-- Members whose names are relative and contain no `..` component always point inside. -/
theorem C26_plain_names_inside {dir cs : List Str} (hdd : ['.', '.'] ∉ cs)
    (hrel : ¬ (cs.head? = some [] ∧ cs.length > 1)) : Inside dir (target dir cs) := by
  unfold target
  rw [if_neg hrel]
  exact walk_no_dotdot cs dir hdd

theorem memberOk_of_inside {dir : List Str} (hd : dir ≠ []) (h : ∀ c ∈ dir, PlainName c) {name : Str} {cs : List Str}
    (hn : ComponentsOf name cs) (hrel : name.head? ≠ some '/') (hin : Inside dir (target dir cs)) :
    memberOk (dirText dir) name = true := by
  unfold memberOk
  rw [startsWith_iff, norm_relative hd h hn hrel]
  rw [target_eq hn, if_neg hrel] at hin
  unfold dirText
  rw [List.cons_prefix_cons]
  refine ⟨rfl, (prefix_iff dir _ hd h (walk_plainNames cs dir h hn.2.1)).2 ?_⟩
  obtain ⟨r, hr⟩ := hin
  obtain ⟨pre, last, hl⟩ : ∃ pre last, dir = pre ++ [last] :=
    ⟨dir.dropLast, dir.getLast hd, (List.dropLast_concat_getLast hd).symm⟩
  exact ⟨pre, last, [], r, hl, by rw [← hr, hl]; simp⟩

theorem components_exist (p : Str) : ∃ cs, ComponentsOf p cs :=
  ⟨splitOnChar '/' p, splitOnChar_ne_nil '/' p, fun c hc => splitOnChar_sepfree '/' p c hc,
    (joinWith_splitOnChar '/' p).symm⟩

/-- Nothing that stays inside is refused: an archive of relative names that all point inside the
working directory and that has a `.ovf` member is accepted. -/
theorem C26_accepts {dir : List Str} (hd : dir ≠ []) (h : ∀ c ∈ dir, PlainName c) {names : List Str}
    (hin : AllInside dir names) (hrel : ∀ n ∈ names, n.head? ≠ some '/')
    (hovf : ∃ n ∈ names, pathExt n = ".ovf".toList) : ∃ p, untar (dirText dir) names = .ok p := by
  cases names with
  | nil => obtain ⟨n, hn, -⟩ := hovf; simp at hn
  | cons f t =>
    have hany : ¬ ((f :: t).any (fun n => !memberOk (dirText dir) n) = true) := by
      rw [List.any_eq_true]
      rintro ⟨n, hn, hm⟩
      obtain ⟨cs, hcs⟩ := components_exist n
      rw [memberOk_of_inside hd h hcs (hrel n hn) (hin n hn cs hcs)] at hm
      cases hm
    unfold untar
    simp only
    rw [if_neg hany]
    split
    · exact ⟨_, rfl⟩
    · cases hm : ovfMembers (f :: t) with
      | nil =>
        obtain ⟨n, hn, he⟩ := hovf
        have : n ∈ ovfMembers (f :: t) := List.mem_filter.2 ⟨hn, by simpa using he⟩
        rw [hm] at this; simp at this
      | cons d r => exact ⟨_, rfl⟩

/-- the descriptor an archive is opened by: the first member that is an OVF descriptor -/
theorem C26_descriptor {wd : Str} {names : List Str} {p : Str} (hok : untar wd names = .ok p) :
    ∃ before d after, names = before ++ d :: after ∧ pathExt d = ".ovf".toList ∧
      (∀ n ∈ before, pathExt n ≠ ".ovf".toList) ∧ p = pathJoin wd d := by
  cases names with
  | nil => cases hok
  | cons f t =>
    unfold untar at hok
    simp only at hok
    split at hok
    · cases hok
    · split at hok
      · rename_i he
        refine ⟨[], f, t, rfl, he, by simp, ?_⟩
        cases hok; rfl
      · cases hm : ovfMembers (f :: t) with
        | nil => rw [hm] at hok; cases hok
        | cons d r =>
          rw [hm] at hok
          cases hok
          unfold ovfMembers at hm
          rw [List.filter_eq_cons_iff] at hm
          obtain ⟨l1, l2, h1, h2, h3, -⟩ := hm
          exact ⟨l1, d, l2, h1, by simpa using h3, by simpa using h2, rfl⟩

/-- An archive with no member, or with no OVF descriptor, is refused. -/
theorem C26_no_descriptor {wd : Str} {names : List Str} (h : ∀ n ∈ names, pathExt n ≠ ".ovf".toList) :
    untar wd names = .error .vmInitError := by
  cases hu : untar wd names with
  | error e =>
    unfold untar at hu
    cases names with
    | nil => cases hu; rfl
    | cons f t =>
      simp only at hu
      split at hu
      · cases hu; rfl
      · split at hu
        · cases hu
        · cases hm : ovfMembers (f :: t) with
          | nil => rw [hm] at hu; cases hu; rfl
          | cons d r => rw [hm] at hu; cases hu
  | ok p =>
    obtain ⟨b, d, a, h1, h2, -, -⟩ := C26_descriptor hu
    exact absurd h2 (h d (by rw [h1]; simp))

def exDir : List Str := ["tmp".toList, "cotX".toList]

/-- **C26 fails** in general: a member may be written to a directory beside the working directory. -/
theorem C26_sibling_fails : ∃ (dir : List Str) (names : List Str) (p : Str),
    dir ≠ [] ∧ (∀ c ∈ dir, PlainName c) ∧ untar (dirText dir) names = .ok p ∧ ¬ AllInside dir names := by
  refine ⟨exDir, ["a.ovf".toList, "../cotXY/f".toList], "/tmp/cotX/a.ovf".toList, by decide, ?_, rfl, ?_⟩
  · intro c hc; simp only [exDir, List.mem_cons, List.not_mem_nil, or_false] at hc
    rcases hc with rfl | rfl <;> exact ⟨by decide, by decide, by decide, by decide⟩
  · intro h
    have := h "../cotXY/f".toList (by simp) ["..".toList, "cotXY".toList, "f".toList]
      ⟨by decide, by decide, by decide⟩
    exact absurd this (by unfold Inside; decide)

/-- non-vacuity: an archive that is accepted, and one whose climbing member is refused -/
example : untar (dirText exDir) ["sub/./b.vmdk".toList, "x/../a.ovf".toList] = .ok "/tmp/cotX/x/../a.ovf".toList := by
  rfl
example : untar (dirText exDir) ["a.ovf".toList, "../../etc/passwd".toList] = .error .vmInitError := rfl
example : untar (dirText exDir) ["a.ovf".toList, "/etc/passwd".toList] = .error .vmInitError := rfl
example : ∀ c ∈ exDir, PlainName c := by
  intro c hc; simp only [exDir, List.mem_cons, List.not_mem_nil, or_false] at hc
  rcases hc with rfl | rfl <;> exact ⟨by decide, by decide, by decide, by decide⟩

end Cot
