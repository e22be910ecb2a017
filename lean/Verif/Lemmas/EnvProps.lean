import Verif.Spec.EnvProps
import Verif.Lemmas.XmlLens
import Verif.Lemmas.Re
import Verif.Lemmas.Units
import Verif.Props.Wildcard
/-
Lemmas for environment properties.
-/
namespace Cot

theorem ovfTag_inj {v : Ver} {a b : Str} : ovfTag v a = ovfTag v b ↔ a = b := by
  unfold ovfTag
  exact List.append_right_inj _

/-! ### qualifiers -/

/-- the leftmost position at which the expression matches -/
theorem reSearch_some {r : Re} : ∀ {s : Str} {m : Caps}, reSearch r s = some m →
    ∃ pre t, s = pre ++ t ∧ reMatch r t = some m ∧ ∀ pre' t', s = pre' ++ t' → reMatch r t' ≠ none → pre.length ≤ pre'.length
  | [], m, h => ⟨[], [], rfl, h, by simp⟩
  | c :: s, m, h => by
    unfold reSearch at h
    cases hm : reMatch r (c :: s) with
    | some m' =>
      rw [hm] at h
      cases h
      exact ⟨[], c :: s, rfl, hm, by simp⟩
    | none =>
      rw [hm] at h
      obtain ⟨pre, t, e, h1, h2⟩ := reSearch_some h
      refine ⟨c :: pre, t, by rw [e]; rfl, h1, ?_⟩
      intro pre' t' e' hne
      cases pre' with
      | nil => exact absurd (by rw [← (show c :: s = t' from e')]; exact hm) hne
      | cons x xs =>
        have := h2 xs t' (List.cons.inj e').2 hne
        simp only [List.length_cons]
        omega

theorem reSearch_none {r : Re} : ∀ {s : Str}, reSearch r s = none → ∀ pre t, s = pre ++ t → reMatch r t = none
  | [], h, pre, t, e => by
    obtain ⟨rfl, rfl⟩ := List.append_eq_nil_iff.1 e.symm
    exact h
  | c :: s, h, pre, t, e => by
    unfold reSearch at h
    cases hm : reMatch r (c :: s) with
    | some m' => rw [hm] at h; cases h
    | none =>
      rw [hm] at h
      cases pre with
      | nil => rw [← (show c :: s = t from e)]; exact hm
      | cons x xs => exact reSearch_none h xs t (List.cons.inj e).2

theorem mem_qualRe {name s r : Str} {m : Caps} :
    (r, m) ∈ (qualRe name).run s ↔ ∃ d, Digits d ∧ s = name ++ '(' :: d ++ ')' :: r ∧ m = [(1, d)] := by
  unfold qualRe
  rw [seq_lit]
  simp only [Re.dig, seq_grp_plus]
  constructor
  · rintro ⟨t, rfl, w, t', m2, rfl, h1, h2, h3, rfl⟩
    obtain ⟨h4, h5⟩ := mem_run_chr.1 h3
    simp only at h4 h5
    exact ⟨w, ⟨h1, h2⟩, by rw [h4]; simp, by rw [h5]⟩
  · rintro ⟨d, hd, rfl, rfl⟩
    exact ⟨d ++ ')' :: r, by simp, d, ')' :: r, [], rfl, hd.1, hd.2, mem_run_chr.2 ⟨rfl, rfl⟩, rfl⟩

theorem paren_not_digit {d : Str} (hd : Digits d) : ')' ∉ d := by
  intro h
  have := hd.2 _ h
  exact absurd this (by decide)

theorem qualRe_some {name s : Str} {m : Caps} :
    reMatch (qualRe name) s = some m ↔ ∃ d post, Digits d ∧ s = name ++ '(' :: d ++ ')' :: post ∧ m = [(1, d)] := by
  constructor
  · intro h
    obtain ⟨x, hx⟩ := reMatch_some_mem h
    obtain ⟨d, hd, e, hm⟩ := mem_qualRe.1 hx
    exact ⟨d, _, hd, e, hm⟩
  · rintro ⟨d, post, hd, rfl, rfl⟩
    apply reMatch_eq_of
    · exact ⟨post, mem_qualRe.2 ⟨d, hd, rfl, rfl⟩⟩
    · intro r m hx
      obtain ⟨d', hd', e, rfl⟩ := mem_qualRe.1 hx
      simp only [List.append_assoc, List.cons_append] at e
      have e' := (List.cons.inj (List.append_cancel_left e)).2
      rw [(split_first (paren_not_digit hd) (paren_not_digit hd') e').1]

theorem qualLimit_some {name qual : Str} {n : Nat} : qualLimit name qual = some n ↔ Declares name qual n := by
  unfold qualLimit
  constructor
  · intro h
    cases hs : reSearch (qualRe name) qual with
    | none => rw [hs] at h; cases h
    | some m =>
      rw [hs] at h
      obtain ⟨pre, t, e, h1, h2⟩ := reSearch_some hs
      obtain ⟨d, post, hd, et, rfl⟩ := qualRe_some.1 h1
      have hg : Caps.group [(1, d)] 1 = some d := rfl
      simp only [hg, Option.some.injEq] at h
      refine ⟨pre, d, ⟨hd, post, by rw [e, et]⟩, h, ?_⟩
      rintro pre' d' ⟨hd', post', e'⟩
      apply h2 pre' _ e'
      have := (qualRe_some (name := name)).2 ⟨d', post', hd', rfl, rfl⟩
      rw [this]; simp
  · rintro ⟨pre, d, ⟨hd, post, e⟩, rfl, hmin⟩
    have hfirst := (qualRe_some (name := name)).2 ⟨d, post, hd, rfl, rfl⟩
    cases hs : reSearch (qualRe name) qual with
    | none =>
      have := reSearch_none hs pre _ e
      rw [hfirst] at this; cases this
    | some m =>
      obtain ⟨pre', t, e', h1, h2⟩ := reSearch_some hs
      obtain ⟨d', post', hd', et, rfl⟩ := qualRe_some.1 h1
      have l1 := h2 pre _ e (by rw [hfirst]; simp)
      have l2 := hmin pre' d' ⟨hd', post', by rw [e', et]⟩
      have hp := List.append_inj (e.symm.trans e') (by omega)
      have : d = d' := by
        have e3 := hp.2.trans et
        simp only [List.append_assoc, List.cons_append] at e3
        have e4 := (List.cons.inj (List.append_cancel_left e3)).2
        exact (split_first (paren_not_digit hd) (paren_not_digit hd') e4).1
      subst this
      rfl

theorem checkQualifiers_iff {qual w : Str} :
    (checkQualifiers qual w = .ok () ↔ LengthAllowed qual w.length) ∧
    (∀ e, checkQualifiers qual w = .error e → e = .valueUnsupported) := by
  unfold checkQualifiers LengthAllowed
  simp only [← qualLimit_some]
  cases qualLimit "MaxLen".toList qual with
  | none =>
    cases qualLimit "MinLen".toList qual with
    | none => simp
    | some n =>
      by_cases h : w.length < n
      · simp [h]
      · simp [h]; omega
  | some m =>
    by_cases hm : w.length > m
    · simp [hm]
    · cases qualLimit "MinLen".toList qual with
      | none => simp [hm]; omega
      | some n =>
        by_cases h : w.length < n
        · simp [hm, h]
        · simp [hm, h]; omega

theorem convert_iff {ty x w : Str} :
    (convertForType ty x = .ok w ↔ Converts ty x w) ∧ (∀ e, convertForType ty x = .error e → e = .valueUnsupported) := by
  unfold convertForType Converts
  by_cases hb : ty = "boolean".toList
  · rw [if_pos hb, if_pos hb]
    by_cases ht : lower x ∈ ["true".toList, "1".toList, "t".toList, "y".toList, "yes".toList]
    · rw [if_pos ht]
      have hf : ¬ FalseWord x := by
        intro hf
        unfold FalseWord at hf
        simp only [List.mem_cons, List.not_mem_nil, or_false] at ht
        rcases ht with h | h | h | h | h <;> (rw [h] at hf; revert hf; decide)
      refine ⟨⟨fun h => Or.inl ⟨ht, ?_⟩, ?_⟩, by simp⟩
      · cases h; rfl
      · rintro (⟨-, rfl⟩ | ⟨h, -⟩)
        · rfl
        · exact absurd h hf
    · rw [if_neg ht]
      by_cases hf : lower x ∈ ["false".toList, "0".toList, "f".toList, "n".toList, "no".toList]
      · rw [if_pos hf]
        refine ⟨⟨fun h => Or.inr ⟨hf, ?_⟩, ?_⟩, by simp⟩
        · cases h; rfl
        · rintro (⟨h, -⟩ | ⟨-, rfl⟩)
          · exact absurd h ht
          · rfl
      · rw [if_neg hf]
        refine ⟨⟨fun h => by simp at h, ?_⟩, fun e h => by simpa using h.symm⟩
        rintro (⟨h, -⟩ | ⟨h, -⟩)
        · exact absurd h ht
        · exact absurd h hf
  · rw [if_neg hb, if_neg hb]
    simp [eq_comm]

theorem propValidate_iff {v : Ver} {p : Elem} {x w : Str} :
    (validateForProperty v p x = .ok w ↔
      Converts ((p.get (propType v)).getD []) x w ∧ LengthAllowed ((p.get (propQual v)).getD []) w.length) ∧
    (∀ e, validateForProperty v p x = .error e → e = .valueUnsupported) := by
  unfold validateForProperty
  cases hc : convertForType ((p.get (propType v)).getD []) x with
  | error e =>
    have h2 := (convert_iff (w := [])).2 e hc
    refine ⟨⟨by simp, fun ⟨h, _⟩ => ?_⟩, fun e' h => ?_⟩
    · rw [convert_iff.1.2 h] at hc; cases hc
    · cases h; exact h2
  | ok y =>
    have h1 := convert_iff.1.1 hc
    simp only
    cases hq : checkQualifiers ((p.get (propQual v)).getD []) y with
    | error e =>
      have h2 := checkQualifiers_iff.2 e hq
      refine ⟨⟨by simp, fun ⟨h, h'⟩ => ?_⟩, fun e' h => ?_⟩
      · have := convert_iff.1.2 h
        rw [hc] at this; cases this
        rw [checkQualifiers_iff.1.2 h'] at hq; cases hq
      · cases h; exact h2
    | ok u =>
      have h2 := checkQualifiers_iff.1.1 hq
      refine ⟨⟨fun h => ?_, fun ⟨h, h'⟩ => ?_⟩, by simp⟩
      · cases h; exact ⟨h1, h2⟩
      · have := convert_iff.1.2 h
        rw [hc] at this; cases this; rfl

theorem converts_obeys {ty qual x w : Str} (h : Converts ty x w) (hl : LengthAllowed qual w.length) : Obeys ty qual w := by
  refine ⟨fun hb => ?_, hl⟩
  unfold Converts at h
  rw [if_pos hb] at h
  rcases h with ⟨-, h⟩ | ⟨-, h⟩
  · exact Or.inl h
  · exact Or.inr h

/-! ### the Property element -/

theorem prop_names (v : Ver) : propKey v ≠ propValue v ∧ propKey v ≠ propType v ∧ propKey v ≠ propUserConf v ∧
    propValue v ≠ propType v ∧ propValue v ≠ propUserConf v ∧ propQual v ≠ propValue v ∧ propQual v ≠ propType v ∧
    propQual v ≠ propUserConf v ∧ propType v ≠ propUserConf v := by
  cases v <;> refine ⟨?_, ?_, ?_, ?_, ?_, ?_, ?_, ?_, ?_⟩ <;>
  · intro h
    exact absurd (ovfTag_inj.1 h) (by decide)

theorem setOrMakeChild_keeps {p q : Elem} {t : Str} {x : Option Str} {a : List (Str × Str)} {o : List Str}
    (h : setOrMakeChild p t x a o = .ok q) : q.tag = p.tag ∧ ∀ k, q.get k = p.get k := by
  unfold setOrMakeChild at h
  split at h
  · cases h
  · cases h
    unfold addChild
    split
    · exact ⟨setChildren_tag _ _, setChildren_get _ _⟩
    · exact ⟨setChildren_tag _ _, setChildren_get _ _⟩
  · cases h
    exact ⟨setChildren_tag _ _, setChildren_get _ _⟩

theorem childOpt_keeps {p q : Elem} {t : Str} {x : Option Str} (h : childOpt p t x = .ok q) :
    q.tag = p.tag ∧ ∀ k, q.get k = p.get k := by
  cases x with
  | none => cases h; exact ⟨rfl, fun _ => rfl⟩
  | some s => exact setOrMakeChild_keeps h

theorem labelProp_keeps (v : Ver) (p : Elem) (label desc r : Option Str) :
    (labelProp v p label desc r).2.tag = p.tag ∧ (∀ k, (labelProp v p label desc r).2.get k = p.get k) ∧
    ((∃ e, (labelProp v p label desc r).1 = .error e ∧ e = .lookupError) ∨ (labelProp v p label desc r).1 = .ok r) := by
  have herr : ∀ {p : Elem} {t : Str} {x : Option Str} {e : Err}, childOpt p t x = .error e → e = .lookupError := by
    intro p t x e h
    cases x with
    | none => cases h
    | some s =>
      have hf : ∀ {e}, findChild p t [] false = .error e → e = .lookupError := by
        intro e h'
        unfold findChild at h'
        split at h'
        · cases h'
        · cases h'
        · cases h'; rfl
      change setOrMakeChild p t (some s) [] [] = .error e at h
      unfold setOrMakeChild at h
      split at h
      · rename_i h'
        cases h
        exact hf h'
      · cases h
      · cases h
  unfold labelProp
  cases h1 : childOpt p (propLabel v) label with
  | error e => exact ⟨rfl, fun _ => rfl, Or.inl ⟨e, rfl, herr h1⟩⟩
  | ok p1 =>
    obtain ⟨a1, a2⟩ := childOpt_keeps h1
    simp only
    cases h2 : childOpt p1 (propDesc v) desc with
    | error e => exact ⟨a1, a2, Or.inl ⟨e, rfl, herr h2⟩⟩
    | ok p2 =>
      obtain ⟨b1, b2⟩ := childOpt_keeps h2
      exact ⟨b1.trans a1, fun k => (b2 k).trans (a2 k), Or.inr rfl⟩

theorem setOpt_tag (e : Elem) (n : Str) (x : Option Str) : (setOpt e n x).tag = e.tag := by
  cases x with
  | none => rfl
  | some s => exact set_tag _ _ _

theorem setOpt_get (e : Elem) (n : Str) (x : Option Str) (k : Str) :
    (setOpt e n x).get k = if n = k then x.or (e.get k) else e.get k := by
  cases x with
  | none => simp [setOpt]
  | some s => simp only [setOpt, set_get]; split <;> simp

/-- What `set_property_value` does to the Property element. -/
theorem editProp_spec (v : Ver) (p : Elem) (value : Option Str) (uc : Option Bool) (ptype label desc : Option Str) :
    let r := editProp v p value uc ptype label desc
    r.2.tag = p.tag ∧ r.2.get (propKey v) = p.get (propKey v) ∧ r.2.get (propQual v) = p.get (propQual v) ∧
    r.2.get (propType v) = ptype.or (p.get (propType v)) ∧
    (∀ e, r.1 = .error e → e = .valueUnsupported ∨ e = .lookupError) ∧
    (r.1 = .error .valueUnsupported → r.2.get (propValue v) = p.get (propValue v)) ∧
    (∀ o, r.1 = .ok o →
      (valueToSet v p value ptype = none → o = none ∧ r.2.get (propValue v) = p.get (propValue v)) ∧
      (∀ x, valueToSet v p value ptype = some x → ∃ w, o = some w ∧ r.2.get (propValue v) = some w ∧
        Converts ((ptype.or (p.get (propType v))).getD []) x w ∧ LengthAllowed ((p.get (propQual v)).getD []) w.length)) ∧
    (∀ x w, valueToSet v p value ptype = some x → Converts ((ptype.or (p.get (propType v))).getD []) x w →
      LengthAllowed ((p.get (propQual v)).getD []) w.length → r.1 = .ok (some w) ∨ r.1 = .error .lookupError) ∧
    (∀ x, valueToSet v p value ptype = some x → (∀ w, ¬ (Converts ((ptype.or (p.get (propType v))).getD []) x w ∧
      LengthAllowed ((p.get (propQual v)).getD []) w.length)) → r.1 = .error .valueUnsupported) ∧
    (label = none → desc = none → r.1 ≠ .error .lookupError) ∧
    (valueToSet v p value ptype = none → r.2.get (propValue v) = p.get (propValue v)) ∧
    (∀ x, valueToSet v p value ptype = some x → r.1 ≠ .error .valueUnsupported → ∃ w, r.2.get (propValue v) = some w ∧
      Converts ((ptype.or (p.get (propType v))).getD []) x w ∧ LengthAllowed ((p.get (propQual v)).getD []) w.length) := by
  intro r
  obtain ⟨n1, n2, n3, n4, n5, n6, n7, n8, n9⟩ := prop_names v
  have g : ∀ k, k ≠ propType v → k ≠ propUserConf v →
      (setOpt (setOpt p (propUserConf v) (uc.map boolStr)) (propType v) ptype).get k = p.get k := by
    intro k h1 h2
    rw [setOpt_get, if_neg (Ne.symm h1), setOpt_get, if_neg (Ne.symm h2)]
  have gt : (setOpt (setOpt p (propUserConf v) (uc.map boolStr)) (propType v) ptype).get (propType v) =
      ptype.or (p.get (propType v)) := by
    rw [setOpt_get, if_pos rfl, setOpt_get, if_neg (Ne.symm n9)]
  have gtag : (setOpt (setOpt p (propUserConf v) (uc.map boolStr)) (propType v) ptype).tag = p.tag := by
    rw [setOpt_tag, setOpt_tag]
  have hr : r = editProp v p value uc ptype label desc := rfl
  unfold editProp at hr
  simp only at hr
  generalize setOpt (setOpt p (propUserConf v) (uc.map boolStr)) (propType v) ptype = p1 at *
  have hval : valueToSet v p1 value ptype = valueToSet v p value ptype := by
    unfold valueToSet; rw [g _ n4 n5]
  rw [hval] at hr
  have hlab : label = none → desc = none → ∀ q o, (labelProp v q label desc o).1 = .ok o := by
    rintro rfl rfl q o; rfl
  cases hv : valueToSet v p value ptype with
  | none =>
    rw [hv] at hr
    simp only at hr
    obtain ⟨l1, l2, l3⟩ := labelProp_keeps v p1 label desc none
    rw [hr]
    refine ⟨l1.trans gtag, by rw [l2, g _ n2 n3], by rw [l2, g _ n7 n8], by rw [l2, gt], ?_, ?_, ?_, by simp, by simp, ?_,
      fun _ => by rw [l2, g _ n4 n5], by simp⟩
    · intro e he
      rcases l3 with ⟨e', h1, h2⟩ | h
      · rw [h1] at he; cases he; exact Or.inr h2
      · rw [h] at he; cases he
    · intro _; rw [l2, g _ n4 n5]
    · intro o ho
      refine ⟨fun _ => ⟨?_, by rw [l2, g _ n4 n5]⟩, by simp⟩
      rcases l3 with ⟨e', h1, h2⟩ | h
      · rw [h1] at ho; cases ho
      · rw [h] at ho; cases ho; rfl
    · intro a b; rw [hlab a b]; simp
  | some x =>
    rw [hv] at hr
    simp only at hr
    cases hval' : validateForProperty v p1 x with
    | error e =>
      rw [hval'] at hr
      simp only at hr
      have he := (propValidate_iff (w := [])).2 e hval'
      subst he
      rw [hr]
      refine ⟨gtag, g _ n2 n3, g _ n7 n8, gt, ?_, fun _ => g _ n4 n5, by simp, ?_, by simp, by simp, by simp, by simp⟩
      · intro e h; cases h; exact Or.inl rfl
      · intro x' w hx hc hl
        cases hx
        rw [← gt, ← g _ n7 n8] at *
        rw [propValidate_iff.1.2 ⟨hc, hl⟩] at hval'
        cases hval'
    | ok w =>
      rw [hval'] at hr
      simp only at hr
      obtain ⟨hc, hl⟩ := propValidate_iff.1.1 hval'
      rw [gt] at hc
      rw [g _ n7 n8] at hl
      obtain ⟨l1, l2, l3⟩ := labelProp_keeps v (p1.set (propValue v) w) label desc (some w)
      have gs : ∀ k, propValue v ≠ k → (p1.set (propValue v) w).get k = p1.get k := by
        intro k h; rw [set_get, if_neg h]
      rw [hr]
      refine ⟨by rw [l1, set_tag, gtag], by rw [l2, gs _ (Ne.symm n1), g _ n2 n3], by rw [l2, gs _ (Ne.symm n6), g _ n7 n8],
        by rw [l2, gs _ n4, gt], ?_, ?_, ?_, ?_, ?_, ?_, by simp, fun x' hx' _ => ?_⟩
      · intro e he
        rcases l3 with ⟨e', h1, h2⟩ | h
        · rw [h1] at he; cases he; exact Or.inr h2
        · rw [h] at he; cases he
      · intro he
        rcases l3 with ⟨e', h1, h2⟩ | h
        · rw [h1] at he; cases he; cases h2
        · rw [h] at he; cases he
      · intro o ho
        refine ⟨by simp, fun x' hx' => ?_⟩
        cases hx'
        rcases l3 with ⟨e', h1, h2⟩ | h
        · rw [h1] at ho; cases ho
        · rw [h] at ho; cases ho
          exact ⟨w, rfl, by rw [l2, set_get, if_pos rfl], hc, hl⟩
      · intro x' w' hx' hc' hl'
        cases hx'
        rw [← gt] at hc'
        rw [← g _ n7 n8] at hl'
        have := propValidate_iff.1.2 ⟨hc', hl'⟩
        rw [hval'] at this
        cases this
        rcases l3 with ⟨e', h1, h2⟩ | h
        · right; rw [h1, h2]
        · left; exact h
      · intro x' hx' hno
        cases hx'
        exact absurd ⟨hc, hl⟩ (hno w)
      · intro a b; rw [hlab a b]; simp
      · cases hx'
        exact ⟨w, by rw [l2, set_get, if_pos rfl], hc, hl⟩

end Cot
