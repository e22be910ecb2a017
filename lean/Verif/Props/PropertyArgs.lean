import Verif.Model.PropertyArgs
import Verif.Spec.PropertyArgs
import Verif.Lemmas.Manifest
import Verif.Lemmas.Units
/-
C33: property arguments.
-/
namespace Cot

theorem notEqPlus_iff {s : Str} : (∀ c ∈ s, notEqPlus c = true) ↔ '=' ∉ s ∧ '+' ∉ s := by
  constructor
  · intro h
    exact ⟨fun hc => absurd (h _ hc) (by decide), fun hc => absurd (h _ hc) (by decide)⟩
  · rintro ⟨h1, h2⟩ c hc
    simp only [notEqPlus, Bool.and_eq_true, bne_iff_ne]
    exact ⟨by rintro rfl; exact h1 hc, by rintro rfl; exact h2 hc⟩

theorem plainWord_iff {s : Str} : PlainWord s ↔ s ≠ [] ∧ ∀ c ∈ s, notEqPlus c = true := by
  unfold PlainWord; rw [notEqPlus_iff]

/-- the optional type and the end -/
def typeRe : Re := .seq (.opt (.grp 3 (.seq (.chr '+') (.plusL (.cls notEqPlus))))) .eol
/-- the optional value, type and the end -/
def valueRe : Re := .seq (.opt (.grp 2 (.seq (.chr '=') (.starL .dot)))) typeRe

theorem propertyRe_eq : propertyRe = .seq (.grp 1 (.plus (.cls notEqPlus))) valueRe := rfl

theorem mem_typeRe {t r : Str} {m : Caps} (hnl : '\n' ∉ t) : (r, m) ∈ typeRe.run t ↔
    r = [] ∧ (t = [] ∧ m = [] ∨ ∃ ty, PlainWord ty ∧ t = '+' :: ty ∧ m = [(3, t)]) := by
  unfold typeRe
  rw [seq_opt, seq_grp, mem_eol]
  constructor
  · rintro (⟨w, t', m1, m2, h1, h2, h3, rfl⟩ | ⟨h1, rfl, rfl⟩)
    · rw [seq_chr] at h2
      obtain ⟨u, rfl, h2⟩ := h2
      obtain ⟨a, h4, h5, h6, h7⟩ := mem_run_plusL_cls.1 h2
      simp only at h5 h7
      rw [mem_eol] at h3
      obtain ⟨h8, rfl, rfl⟩ := h3
      have ht' : r = [] := by
        rcases h8 with h8 | h8
        · exact h8
        · exfalso; apply hnl; rw [h5, h8]; simp
      subst ht' h7
      simp only [List.append_nil] at h5 h1
      subst h1
      refine ⟨rfl, Or.inr ⟨u, plainWord_iff.2 ⟨by rw [h5]; exact h4, ?_⟩, rfl, rfl⟩⟩
      rw [h5]; simpa using h6
    · rcases h1 with rfl | rfl
      · exact ⟨rfl, Or.inl ⟨rfl, rfl⟩⟩
      · exact absurd (by simp) hnl
  · rintro ⟨rfl, ⟨rfl, rfl⟩ | ⟨ty, hty, rfl, rfl⟩⟩
    · exact Or.inr ⟨Or.inl rfl, rfl, rfl⟩
    · obtain ⟨h1, h2⟩ := plainWord_iff.1 hty
      refine Or.inl ⟨'+' :: ty, [], [], [], by simp, ?_, mem_eol.2 ⟨Or.inl rfl, rfl, rfl⟩, rfl⟩
      rw [seq_chr]
      exact ⟨ty, rfl, mem_run_plusL_cls.2 ⟨ty, h1, by simp, by simpa using h2, rfl⟩⟩

theorem typeRe_head_nil : (typeRe.run []).head? = some ([], []) := by decide +kernel

theorem typeRe_head_type {ty : Str} (h : PlainWord ty) (hnl : '\n' ∉ ty) :
    (typeRe.run ('+' :: ty)).head? = some ([], [(3, '+' :: ty)]) := by
  have hnl' : '\n' ∉ '+' :: ty := by simp [hnl]
  have hm : (([] : Str), [((3 : Nat), '+' :: ty)]) ∈ typeRe.run ('+' :: ty) :=
    (mem_typeRe hnl').2 ⟨rfl, Or.inr ⟨ty, h, rfl, rfl⟩⟩
  cases hr : typeRe.run ('+' :: ty) with
  | nil => rw [hr] at hm; simp at hm
  | cons a l =>
    obtain ⟨h1, h2⟩ := (mem_typeRe (r := a.1) (m := a.2) hnl').1 (by rw [hr]; simp)
    rcases h2 with ⟨h2, -⟩ | ⟨ty', -, -, h2⟩
    · cases h2
    · rw [List.head?_cons, show a = (a.1, a.2) from rfl, h1, h2]

theorem typeRe_nil {t : Str} (hnl : '\n' ∉ t) (h1 : t ≠ []) (h2 : ¬ ∃ ty, PlainWord ty ∧ t = '+' :: ty) :
    typeRe.run t = [] := by
  cases hr : typeRe.run t with
  | nil => rfl
  | cons a l =>
    exfalso
    obtain ⟨-, h | ⟨ty, h, h', -⟩⟩ := (mem_typeRe (r := a.1) (m := a.2) hnl).1 (by rw [hr]; simp)
    · exact h1 h.1
    · exact h2 ⟨ty, h, h'⟩

theorem head?_flatMap_some {α β : Type} {f : α → List β} {z : β} : ∀ {l : List α} {pre : List α} {x : α} {post : List α},
    l = pre ++ x :: post → (∀ y ∈ pre, f y = []) → (f x).head? = some z → (l.flatMap f).head? = some z := by
  rintro l pre x post rfl hpre hx
  rw [List.flatMap_append, List.flatMap_cons]
  have : pre.flatMap f = [] := by
    rw [List.flatMap_eq_nil_iff]; exact hpre
  rw [this, List.nil_append, List.head?_append, hx]
  rfl

theorem lazySuf_append {p : Char → Bool} : ∀ (a b : Str), (∀ c ∈ a, p c = true) →
    ∃ pre, lazySuf p (a ++ b) = pre ++ lazySuf p b ∧ ∀ y ∈ pre, ∃ a2, a2 ≠ [] ∧ a2 <:+ a ∧ y = a2 ++ b
  | [], b, _ => ⟨[], rfl, by simp⟩
  | c :: a, b, h => by
    obtain ⟨pre, h1, h2⟩ := lazySuf_append a b (fun d hd => h d (by simp [hd]))
    refine ⟨(c :: a ++ b) :: pre, ?_, ?_⟩
    · rw [List.cons_append, lazySuf, if_pos (h c (by simp)), h1]; rfl
    · intro y hy
      rcases List.mem_cons.1 hy with rfl | hy
      · exact ⟨c :: a, by simp, List.suffix_refl _, rfl⟩
      · obtain ⟨a2, h3, h4, h5⟩ := h2 y hy
        exact ⟨a2, h3, h4.trans (List.suffix_cons c a), h5⟩

theorem lazySuf_cons_self (p : Char → Bool) (b : Str) : ∃ r, lazySuf p b = b :: r := by
  cases b with
  | nil => exact ⟨[], rfl⟩
  | cons c t =>
    unfold lazySuf
    split
    · exact ⟨_, rfl⟩
    · exact ⟨[], rfl⟩

theorem run_grp2 (v : Str) : (Re.grp 2 (.seq (.chr '=') (.starL .dot))).run ('=' :: v) =
    (lazySuf (fun x => x != '\n') v).map (fun x => (x, [(2, ('=' :: v).take (('=' :: v).length - x.length))])) := by
  have e : (Re.seq (.chr '=') (.starL .dot)).run ('=' :: v) = (lazySuf (fun x => x != '\n') v).map (fun x => (x, [])) := by
    rw [run_seq_chr_self]; exact run_starL_cls _ v
  rw [show (Re.grp 2 (.seq (.chr '=') (.starL .dot))).run ('=' :: v) = ((Re.seq (.chr '=') (.starL .dot)).run ('=' :: v)).map
      (fun x => (x.1, x.2 ++ [(2, ('=' :: v).take (('=' :: v).length - x.1.length))])) from rfl, e, List.map_map]
  rfl

theorem run_grp2_no {s : Str} (h : s.head? ≠ some '=') : (Re.grp 2 (.seq (.chr '=') (.starL .dot))).run s = [] := by
  have : (Re.seq (.chr '=') (.starL .dot)).run s = [] := by
    cases hr : (Re.seq (.chr '=') (.starL .dot)).run s with
    | nil => rfl
    | cons a l =>
      exfalso
      have := (seq_chr (r := a.1) (m := a.2)).1 (by rw [hr]; simp)
      obtain ⟨t, rfl, -⟩ := this
      exact h rfl
  rw [show (Re.grp 2 (.seq (.chr '=') (.starL .dot))).run s = ((Re.seq (.chr '=') (.starL .dot)).run s).map
      (fun x => (x.1, x.2 ++ [(2, s.take (s.length - x.1.length))])) from rfl, this]
  rfl

theorem valueRe_run (s : Str) : valueRe.run s =
    ((Re.grp 2 (.seq (.chr '=') (.starL .dot))).run s).flatMap
      (fun x => (typeRe.run x.1).map (fun y => (y.1, x.2 ++ y.2))) ++ typeRe.run s := by
  rw [show valueRe.run s = ((Re.grp 2 (.seq (.chr '=') (.starL .dot))).run s ++ [(s, ([] : Caps))]).flatMap
      (fun (x : Str × Caps) => (typeRe.run x.1).map (fun y => (y.1, x.2 ++ y.2))) from rfl, List.flatMap_append]
  congr 1
  rw [List.flatMap_singleton]
  simp

theorem valueRe_no_value {s : Str} (h : s.head? ≠ some '=') : valueRe.run s = typeRe.run s := by
  rw [valueRe_run, run_grp2_no h]; rfl

/-- the first match for `=a` followed by `x`, where the type expression matches at `x` but not before -/
theorem valueRe_value {a x : Str} {z : Str × Caps} (ha : '\n' ∉ a)
    (hpre : ∀ a2, a2 ≠ [] → a2 <:+ a → typeRe.run (a2 ++ x) = []) (hx : (typeRe.run x).head? = some z) :
    (valueRe.run ('=' :: (a ++ x))).head? = some (z.1, (2, '=' :: a) :: z.2) := by
  rw [valueRe_run, run_grp2, List.head?_append, List.flatMap_map]
  obtain ⟨pre, h1, h2⟩ := lazySuf_append (p := fun c => c != '\n') a x (by
    intro c hc
    simp only [bne_iff_ne]
    rintro rfl
    exact ha hc)
  obtain ⟨post, h3⟩ := lazySuf_cons_self (fun c => c != '\n') x
  rw [h3] at h1
  rw [head?_flatMap_some (z := (z.1, (2, '=' :: a) :: z.2)) h1 ?_ ?_]
  · rfl
  · intro y hy
    obtain ⟨a2, h4, h5, rfl⟩ := h2 y hy
    simp only [hpre a2 h4 h5, List.map_nil]
  · simp only [List.head?_map, hx, Option.map_some]
    have : ('=' :: (a ++ x)).length - x.length = ('=' :: a).length := by simp; omega
    rw [this, show '=' :: (a ++ x) = ('=' :: a) ++ x from rfl, List.take_left]
    rfl

theorem propertyRe_match {k rest : Str} {z : Str × Caps} (hk : PlainWord k) (hr : ∀ c ∈ rest.head?, c = '=' ∨ c = '+')
    (hz : (valueRe.run rest).head? = some z) : reMatch propertyRe (k ++ rest) = some ((1, k) :: z.2) := by
  obtain ⟨h1, h2⟩ := plainWord_iff.1 hk
  have hhead := run_grp_plus_head (n := 1) (p := notEqPlus) (w := k) (t := rest) h1 h2 (by
    intro c hc
    rcases hr c hc with rfl | rfl <;> rfl)
  unfold reMatch
  rw [propertyRe_eq]
  rw [show (Re.seq (.grp 1 (.plus (.cls notEqPlus))) valueRe).run (k ++ rest) =
    ((Re.grp 1 (.plus (.cls notEqPlus))).run (k ++ rest)).flatMap
      (fun x => (valueRe.run x.1).map (fun y => (y.1, x.2 ++ y.2))) from rfl]
  obtain ⟨l, hl⟩ : ∃ l, (Re.grp 1 (.plus (.cls notEqPlus))).run (k ++ rest) = (rest, [(1, k)]) :: l := by
    cases hrun : (Re.grp 1 (.plus (.cls notEqPlus))).run (k ++ rest) with
    | nil => rw [hrun] at hhead; simp at hhead
    | cons a l => rw [hrun] at hhead; simp only [List.head?_cons, Option.some.injEq] at hhead; exact ⟨l, by rw [hhead]⟩
  rw [head?_flatMap_some (pre := []) (z := (z.1, (1, k) :: z.2)) hl (by simp) (by
    simp only [List.head?_map, hz, Option.map_some]; rfl)]
  rfl

theorem not_plain_of_suffix {a2 ty : Str} (ha : a2 ≠ []) : ¬ ∃ t', PlainWord t' ∧ a2 ++ '+' :: ty = '+' :: t' := by
  rintro ⟨t', h, he⟩
  cases a2 with
  | nil => exact ha rfl
  | cons c a2 =>
    simp only [List.cons_append, List.cons.injEq] at he
    exact h.2.2 (by rw [← he.2]; simp)

/-- **C33.** An argument written `key`, `key=value`, `key+type` or `key=value+type` is taken apart into
exactly these parts, whatever characters the value contains. -/
theorem C33_parse {prop k : Str} {v t : Option Str} (hnl : '\n' ∉ prop) (h : IsProperty prop k v t) :
    parseProperty prop = .ok (k, v, t) := by
  cases h with
  | key hk =>
    have := propertyRe_match (rest := []) (z := ([], [])) hk (by simp) (by
      rw [valueRe_no_value (by simp)]; exact typeRe_head_nil)
    rw [List.append_nil] at this
    unfold parseProperty
    rw [this]
    rfl
  | @value _ v hk hv =>
    have hnv : '\n' ∉ v := fun hc => hnl (by simp [hc])
    have hval := valueRe_value (a := v) (x := []) (z := ([], [])) hnv (by
      intro a2 h1 h2
      rw [List.append_nil]
      obtain ⟨a1, he⟩ := h2
      refine typeRe_nil (fun hc => hnv (by rw [← he]; simp [hc])) h1 ?_
      rintro ⟨ty, h3, rfl⟩
      exact hv ⟨a1, ty, he.symm, h3⟩) typeRe_head_nil
    rw [List.append_nil] at hval
    have := propertyRe_match (rest := '=' :: v) hk (by simp) hval
    unfold parseProperty
    rw [this]
    rfl
  | @type _ t hk ht =>
    have hnt : '\n' ∉ t := fun hc => hnl (by simp [hc])
    have := propertyRe_match (rest := '+' :: t) hk (by simp) (by
      rw [valueRe_no_value (by simp)]; exact typeRe_head_type ht hnt)
    unfold parseProperty
    rw [this]
    rfl
  | @full _ v t hk ht =>
    have hnt : '\n' ∉ t := fun hc => hnl (by simp [hc])
    have hnv : '\n' ∉ v := fun hc => hnl (by simp [hc])
    have hval := valueRe_value (a := v) (x := '+' :: t) hnv (by
      intro a2 h1 h2
      obtain ⟨a1, he⟩ := h2
      refine typeRe_nil ?_ (by simp) (not_plain_of_suffix h1)
      intro hc
      rcases List.mem_append.1 hc with hc | hc
      · exact hnv (by rw [← he]; simp [hc])
      · simp [hnt] at hc) (typeRe_head_type ht hnt)
    have := propertyRe_match (rest := '=' :: (v ++ '+' :: t)) hk (by simp) hval
    unfold parseProperty
    rw [show k ++ '=' :: v ++ '+' :: t = k ++ '=' :: (v ++ '+' :: t) by simp, this]
    rfl

theorem isProperty_of_value {k v : Str} (hk : PlainWord k) : ∃ v' t, IsProperty (k ++ '=' :: v) k v' t := by
  by_cases h : HasTypeSuffix v
  · obtain ⟨a, t, rfl, ht⟩ := h
    refine ⟨some a, some t, ?_⟩
    have := IsProperty.full (v := a) hk ht
    rw [show k ++ '=' :: (a ++ '+' :: t) = k ++ '=' :: a ++ '+' :: t by simp]
    exact this
  · exact ⟨some v, none, .value hk h⟩

/-- C33, everything else is refused: in particular an argument without a key. -/
theorem C33_rejects {prop : Str} (hnl : '\n' ∉ prop) (h : ¬ ∃ k v t, IsProperty prop k v t) :
    parseProperty prop = .error .invalidInput := by
  unfold parseProperty
  have : reMatch propertyRe prop = none := by
    rw [reMatch_none]
    rintro ⟨r, m⟩ hx
    rw [propertyRe_eq, seq_grp_plus] at hx
    obtain ⟨w, t, m2, rfl, h1, h2, h3, -⟩ := hx
    have hk : PlainWord w := plainWord_iff.2 ⟨h1, h2⟩
    have hnt : '\n' ∉ t := fun hc => hnl (by simp [hc])
    apply h
    unfold valueRe at h3
    rw [seq_opt, seq_grp] at h3
    rcases h3 with ⟨w', t', m1, m3, h4, h5, h6, -⟩ | h3
    · rw [seq_chr] at h5
      obtain ⟨u, rfl, -⟩ := h5
      obtain ⟨v', ty, hh⟩ := isProperty_of_value (v := u) hk
      exact ⟨w, v', ty, hh⟩
    · obtain ⟨-, ⟨rfl, -⟩ | ⟨ty, hty, rfl, -⟩⟩ := (mem_typeRe hnt).1 h3
      · exact ⟨w, none, none, by rw [List.append_nil]; exact .key hk⟩
      · exact ⟨w, none, some ty, .type hk hty⟩
  rw [this]

/-- C33, unambiguous: an argument can be read in at most one way, and the parser returns that reading. -/
theorem C33_unambiguous {prop : Str} (hnl : '\n' ∉ prop) (k : Str) (v t : Option Str) :
    parseProperty prop = .ok (k, v, t) ↔ IsProperty prop k v t := by
  constructor
  · intro h
    by_cases hex : ∃ k v t, IsProperty prop k v t
    · obtain ⟨k', v', t', h'⟩ := hex
      rw [C33_parse hnl h'] at h
      cases h
      exact h'
    · rw [C33_rejects hnl hex] at h
      cases h
  · exact C33_parse hnl

theorem C33_no_key {prop : Str} (hnl : '\n' ∉ prop) (h : prop.head? = none ∨ prop.head? = some '=' ∨ prop.head? = some '+') :
    parseProperty prop = .error .invalidInput := by
  refine C33_rejects hnl ?_
  rintro ⟨k, v, t, hp⟩
  have hk : ∃ c k' r, prop = c :: k' ++ r ∧ c ≠ '=' ∧ c ≠ '+' := by
    have hne : ∀ k : Str, PlainWord k → ∃ c k', k = c :: k' ∧ c ≠ '=' ∧ c ≠ '+' := by
      intro k hk
      cases k with
      | nil => exact absurd rfl hk.1
      | cons c k' =>
        exact ⟨c, k', rfl, by rintro rfl; exact hk.2.1 (by simp), by rintro rfl; exact hk.2.2 (by simp)⟩
    cases hp with
    | key hk => obtain ⟨c, k', rfl, h1, h2⟩ := hne _ hk; exact ⟨c, k', [], by simp, h1, h2⟩
    | value hk _ => obtain ⟨c, k', rfl, h1, h2⟩ := hne _ hk; exact ⟨c, k', _, rfl, h1, h2⟩
    | type hk _ => obtain ⟨c, k', rfl, h1, h2⟩ := hne _ hk; exact ⟨c, k', _, rfl, h1, h2⟩
    | full hk _ => obtain ⟨c, k', rfl, h1, h2⟩ := hne _ hk; exact ⟨c, k', _, by simp only [List.append_assoc]; rfl, h1, h2⟩
  obtain ⟨c, k', r, rfl, h1, h2⟩ := hk
  simp only [List.cons_append, List.head?_cons, reduceCtorEq, Option.some.injEq, false_or] at h
  rcases h with h | h
  · exact h1 h
  · exact h2 h

/-- non-vacuity -/
example : IsProperty "trickiest=bar+foo=hello+boolean".toList "trickiest".toList (some "bar+foo=hello".toList)
    (some "boolean".toList) :=
  .full (k := "trickiest".toList) (v := "bar+foo=hello".toList) (t := "boolean".toList)
    ⟨by decide, by decide, by decide⟩ ⟨by decide, by decide, by decide⟩
example : parseProperty "tricky_value=++foo==++".toList = .ok ("tricky_value".toList, some "++foo==++".toList, none) := by
  rfl

end Cot
