import Verif.Lemmas.XmlLens
import Verif.Lemmas.Str
import Verif.Model.OvfSections
import Verif.Spec.OvfSections
import Mathlib.Tactic.Tauto
/-
Lemmas about sections and their children.
-/
namespace Cot

theorem findAll_nil (e : Elem) (t : Str) : findAllChildren e t [] = kids e t := by
  unfold findAllChildren kids
  congr 1
  funext c
  rw [Bool.eq_iff_iff]
  simp [attribMatch]

theorem findFirst_eq (e : Elem) (t : Str) : findFirst e t = (kids e t).head? := by
  unfold findFirst kids
  rw [List.head?_filter]
  congr 1
  funext c
  rw [Bool.eq_iff_iff]
  simp

theorem textIs_findText {e : Elem} {t : Str} {x : Option Str} (h : TextIs e t x) : findText e t = x := by
  unfold findText
  rw [findFirst_eq]
  rcases h with ⟨rfl, h⟩ | ⟨c, h, rfl⟩ <;> rw [h] <;> rfl

theorem kids_of_split {e : Elem} {t : Str} {pre post : List Elem} {x : Elem} (h : e.children = pre ++ x :: post)
    (hx : x.tag ≠ t) : kids e t = pre.filter (fun c => c.tag = t) ++ post.filter (fun c => c.tag = t) := by
  unfold kids
  rw [h, List.filter_append, List.filter_cons, if_neg (by simpa using hx)]

theorem sameButKids_refl (t : Str) (e : Elem) : SameButKids t e e := ⟨rfl, rfl, rfl, rfl, rfl⟩

theorem SameButKids.kids {t t' : Str} {e e' : Elem} (h : SameButKids t e e') (ht : t' ≠ t) : kids e' t' = kids e t' := by
  obtain ⟨-, -, -, -, h⟩ := h
  have : ∀ l : List Elem, l.filter (fun c => c.tag = t') = (l.filter (fun c => c.tag ≠ t)).filter (fun c => c.tag = t') := by
    intro l
    rw [List.filter_filter]
    congr 1
    funext c
    by_cases hc : c.tag = t'
    · simp [hc, ht]
    · simp [hc]
  unfold Cot.kids
  rw [this, h, ← this]

theorem SameButKids.get {t : Str} {e e' : Elem} (h : SameButKids t e e') (k : Str) : e'.get k = e.get k := by
  unfold Elem.get; rw [h.2.1]

/-- setting the text of a child that occurs at most once; without a text the child is just made to exist -/
theorem setOptText_spec {p : Elem} {t : Str} {x : Option Str} {o : List Str} (h : (kids p t).length ≤ 1) :
    ∃ p' c, setOrMakeChild p t x [] o = .ok p' ∧ SameButKids t p p' ∧ kids p' t = [c] ∧ (∀ y, x = some y → c.text = some y) ∧
      (x = none → ∀ old, kids p t = [old] → c.text = old.text) ∧
      (kids p t = [] ∨ ∃ old, kids p t = [old] ∧ (∀ k, c.get k = old.get k) ∧ c.children = old.children ∧ c.tail = old.tail) := by
  have hok : ¬ ∃ e, setOrMakeChild p t x [] o = .error e := by
    rintro ⟨e, he⟩
    unfold setOrMakeChild findChild at he
    rw [findAll_nil] at he
    match hk : kids p t, h with
    | [], _ => rw [hk] at he; simp at he
    | [_], _ => rw [hk] at he; simp at he
  cases hs : setOrMakeChild p t x [] o with
  | error e => exact absurd ⟨e, hs⟩ hok
  | ok p' =>
    obtain ⟨e1, e2, e3, e4, ⟨pre, c, post, e5, e6, e7, e8, e9⟩, -⟩ := C28_set_or_make_child p t x o (by simp) hs
    have hm : ∀ y, Matches t [] y ↔ y.tag = t := fun y => by unfold Matches; simp
    have hpp : ∀ y ∈ pre ++ post, y.tag ≠ t := fun y hy h => e7 y hy ((hm y).2 h)
    have hct : c.tag = t := (hm c).1 e6
    have f1 : pre.filter (fun c => decide (c.tag = t)) = [] := by
      rw [List.filter_eq_nil_iff]; intro y hy; simpa using hpp y (by simp [hy])
    have f2 : post.filter (fun c => decide (c.tag = t)) = [] := by
      rw [List.filter_eq_nil_iff]; intro y hy; simpa using hpp y (by simp [hy])
    have hk : kids p' t = [c] := by
      unfold kids
      rw [e5, List.filter_append, List.filter_cons, if_pos (by simpa using hct), f1, f2]; rfl
    have hpn : ∀ d : Elem, d.tag = t → (pre ++ d :: post).filter (fun c => decide (c.tag ≠ t)) =
        pre.filter (fun c => decide (c.tag ≠ t)) ++ post.filter (fun c => decide (c.tag ≠ t)) := by
      intro d hd
      rw [List.filter_append, List.filter_cons, if_neg (by simpa using hd)]
    refine ⟨p', c, rfl, ⟨e1, e2, e3, e4, ?_⟩, hk, e8, ?_, ?_⟩
    · rcases e9 with ⟨old, o1, o2, -⟩ | ⟨o1, -⟩
      · rw [e5, o1, hpn c hct, hpn old ((hm old).1 o2)]
      · rw [e5, o1, hpn c hct, List.filter_append]
    · intro hx old hold
      rcases e9 with ⟨old', o1, o2, o3⟩ | ⟨o1, -⟩
      · have : kids p t = [old'] := by
          unfold kids
          rw [o1, List.filter_append, List.filter_cons, if_pos (by simpa using (hm old').1 o2), f1, f2]; rfl
        rw [this] at hold
        cases hold
        exact o3.text_kept hx
      · have : kids p t = [] := by
          unfold kids
          rw [o1, List.filter_append, f1, f2]; rfl
        rw [this] at hold
        cases hold
    · rcases e9 with ⟨old, o1, o2, o3⟩ | ⟨o1, -⟩
      · right
        refine ⟨old, ?_, ?_, o3.children, o3.tail⟩
        · unfold kids
          rw [o1, List.filter_append, List.filter_cons, if_pos (by simpa using (hm old).1 o2), f1, f2]; rfl
        · intro k; exact o3.attr_kept k (by simp)
      · left
        unfold kids
        rw [o1, List.filter_append, f1, f2]; rfl

/-- setting the text of a child that occurs at most once -/
theorem setText_spec {p : Elem} {t x : Str} {o : List Str} (h : (kids p t).length ≤ 1) :
    ∃ p' c, setOrMakeChild p t (some x) [] o = .ok p' ∧ SameButKids t p p' ∧ kids p' t = [c] ∧ c.text = some x ∧
      TextIs p' t (some x) ∧
      (kids p t = [] ∨ ∃ old, kids p t = [old] ∧ (∀ k, c.get k = old.get k) ∧ c.children = old.children ∧ c.tail = old.tail) := by
  obtain ⟨p', c, h1, h2, h3, h4, -, h6⟩ := setOptText_spec (x := some x) (o := o) h
  exact ⟨p', c, h1, h2, h3, h4 x rfl, Or.inr ⟨c, h3, by rw [h4 x rfl]; rfl⟩, h6⟩

theorem sameButKids_of_split {t : Str} {e : Elem} {pre post pre' post' : List Elem}
    (h : e.children = pre ++ post) {cs : List Elem}
    (h1 : cs.filter (fun c => decide (c.tag ≠ t)) = pre'.filter (fun c => decide (c.tag ≠ t)) ++ post'.filter (fun c => decide (c.tag ≠ t)))
    (h2 : pre'.filter (fun c => decide (c.tag ≠ t)) = pre.filter (fun c => decide (c.tag ≠ t)))
    (h3 : post'.filter (fun c => decide (c.tag ≠ t)) = post.filter (fun c => decide (c.tag ≠ t))) :
    SameButKids t e (e.setChildren cs) := by
  refine ⟨setChildren_tag _ _, setChildren_attrib _ _, by cases e; rfl, by cases e; rfl, ?_⟩
  rw [setChildren_children, h1, h2, h3, h, List.filter_append]

/-- replacing the only child with a tag -/
theorem updateFirst_spec {p s s' : Elem} {t : Str} (h : kids p t = [s]) (hs : s'.tag = t) :
    kids (updateFirst p t [] (fun _ => s')) t = [s'] ∧ SameButKids t p (updateFirst p t [] (fun _ => s')) := by
  have h' : findAllChildren p t [] = [s] := by rw [findAll_nil]; exact h
  refine ⟨?_, ?_⟩
  · rw [← findAll_nil]
    exact findAll_updateFirst (f := fun _ => s') h' ⟨hs, by simp⟩
  · obtain ⟨pre, post, e1, e2, e3, -, -⟩ := updateFirst_split (f := fun _ => s') h'
    refine ⟨setChildren_tag _ _, setChildren_attrib _ _, by cases p; rfl, by cases p; rfl, ?_⟩
    rw [e1, e2, List.filter_append, List.filter_append, List.filter_cons, List.filter_cons, if_neg (by simpa using hs),
      if_neg (by simpa using e3.1)]

theorem SameButKids.trans {t : Str} {a b c : Elem} (h : SameButKids t a b) (h' : SameButKids t b c) : SameButKids t a c :=
  ⟨h'.1.trans h.1, h'.2.1.trans h.2.1, h'.2.2.1.trans h.2.2.1, h'.2.2.2.1.trans h.2.2.2.1, h'.2.2.2.2.trans h.2.2.2.2⟩

/-- making sure that a section exists -/
theorem ensure_spec {v : Ver} {p : Elem} {t : Str} (info : Str) (h : (kids p t).length ≤ 1) :
    ∃ p1 s, ensureSection v p t [] info = .ok p1 ∧ kids p1 t = [s] ∧ SameButKids t p p1 ∧
      (kids p t = [s] ∧ p1 = p ∨ kids p t = [] ∧ s = newSection v t [] info) := by
  match hk : kids p t, h with
  | [], _ =>
    have h' : findAllChildren p t [] = [] := by rw [findAll_nil]; exact hk
    refine ⟨_, _, ensureSection_none h', ?_, ?_, Or.inr ⟨rfl, rfl⟩⟩
    · rw [← findAll_nil]
      exact findAll_insert h' ⟨rfl, by simp⟩
    · obtain ⟨pre, post, e1, e2⟩ := insertBeforeTag_split (virtualSystemTag v) (newSection v t [] info) p.children
      refine sameButKids_of_split e1 (pre' := pre) (post' := post) ?_ rfl rfl
      rw [e2, List.filter_append, List.filter_cons, if_neg]
      simp only [ne_eq, decide_not, Bool.not_eq_eq_eq_not, Bool.not_true, decide_eq_false_iff_not, not_not]
      rfl
  | [s], _ =>
    have h' : findAllChildren p t [] = [s] := by rw [findAll_nil]; exact hk
    exact ⟨p, s, ensureSection_some h', hk, sameButKids_refl t p, Or.inl ⟨rfl, rfl⟩⟩

theorem kids_tag {p s : Elem} {t : Str} (h : s ∈ kids p t) : s.tag = t := by
  unfold kids at h
  simpa using (List.mem_filter.1 h).2

theorem findAll_named (e : Elem) (t a x : Str) : findAllChildren e t [(a, x)] = named e t a x := by
  unfold findAllChildren named
  congr 1
  funext c
  rw [Bool.eq_iff_iff]
  simp [attribMatch]

/-- replacing the only child with a name -/
theorem named_update {s n n' : Elem} {t a x : Str} (h : named s t a x = [n]) (ht : n'.tag = t) (ha : n'.get a = some x) :
    let s' := updateFirst s t [(a, x)] (fun _ => n')
    named s' t a x = [n'] ∧ (∀ y, y ≠ x → named s' t a y = named s t a y) ∧ SameButKids t s s' ∧
    (∀ {β : Type} (g : Elem → β), g n' = g n → (kids s' t).map g = (kids s t).map g) := by
  intro s'
  have h' : findAllChildren s t [(a, x)] = [n] := by rw [findAll_named]; exact h
  obtain ⟨pre, post, e1, e2, e3, -, -⟩ := updateFirst_split (f := fun _ => n') h'
  have hn : n.tag = t ∧ n.get a = some x := ⟨e3.1, e3.2 (a, x) (by simp)⟩
  refine ⟨?_, ?_, ?_, ?_⟩
  · rw [← findAll_named]
    exact findAll_updateFirst (f := fun _ => n') h' ⟨ht, by simpa using ha⟩
  · intro y hy
    rw [← findAll_named, ← findAll_named]
    refine findAll_updateFirst_other h' ?_ ?_
    · rintro ⟨-, hh⟩
      have := hh (a, y) (by simp)
      rw [hn.2] at this
      exact hy (Option.some.inj this).symm
    · rintro ⟨-, hh⟩
      have := hh (a, y) (by simp)
      simp only at this
      rw [ha] at this
      exact hy (Option.some.inj this).symm
  · refine ⟨setChildren_tag _ _, setChildren_attrib _ _, by cases s; rfl, by cases s; rfl, ?_⟩
    rw [e1, e2, List.filter_append, List.filter_append, List.filter_cons, List.filter_cons, if_neg (by simpa using ht),
      if_neg (by simpa using hn.1)]
  · intro β g hg
    unfold kids
    rw [e2, e1, List.filter_append, List.filter_append, List.filter_cons, List.filter_cons, if_pos (by simpa using ht),
      if_pos (by simpa using hn.1), List.map_append, List.map_append, List.map_cons, List.map_cons, hg]

theorem named_append {s n : Elem} {t a x : Str} (h : named s t a x = []) (ht : n.tag = t) (ha : n.get a = some x) :
    let s' := s.setChildren (s.children ++ [n])
    named s' t a x = [n] ∧ (∀ y, y ≠ x → named s' t a y = named s t a y) ∧ SameButKids t s s' ∧ kids s' t = kids s t ++ [n] := by
  intro s'
  have hc : s'.children = s.children ++ [n] := setChildren_children _ _
  refine ⟨?_, ?_, ⟨setChildren_tag _ _, setChildren_attrib _ _, by cases s; rfl, by cases s; rfl, ?_⟩, ?_⟩
  · unfold named at h ⊢
    rw [hc, List.filter_append, h, List.filter_cons, if_pos (by simp [ht, ha])]
    rfl
  · intro y hy
    unfold named
    rw [hc, List.filter_append, List.filter_cons, if_neg (by simpa [ht, ha] using fun h => hy h.symm)]
    simp
  · rw [hc, List.filter_append, List.filter_cons, if_neg (by simpa using ht)]
    simp
  · unfold kids
    rw [hc, List.filter_append, List.filter_cons, if_pos (by simpa using ht)]
    rfl

theorem named_sub {s c : Elem} {t a x : Str} : c ∈ named s t a x ↔ c ∈ kids s t ∧ c.get a = some x := by
  unfold named kids
  simp only [List.mem_filter, decide_eq_true_eq]
  tauto

theorem named_tag {s c : Elem} {t a x : Str} (h : c ∈ named s t a x) : c.tag = t ∧ c.get a = some x :=
  ⟨kids_tag (named_sub.1 h).1, (named_sub.1 h).2⟩

/-- removing all children with a tag -/
theorem dropKids_spec (p : Elem) (t : Str) :
    kids (p.setChildren (p.children.filter (fun c => !(c.tag == t)))) t = [] ∧
    SameButKids t p (p.setChildren (p.children.filter (fun c => !(c.tag == t)))) := by
  refine ⟨?_, setChildren_tag _ _, setChildren_attrib _ _, by cases p; rfl, by cases p; rfl, ?_⟩
  · unfold kids
    rw [setChildren_children, List.filter_filter, List.filter_eq_nil_iff]
    intro n _
    simp
  · rw [setChildren_children, List.filter_filter]
    congr 1
    funext n
    rw [Bool.eq_iff_iff]
    simp

theorem dropKids_attr (p : Elem) (t : Str) :
    p.children.filter (fun c => !(c.tag == t && attribMatch c [])) = p.children.filter (fun c => !(c.tag == t)) := by
  congr 1
  funext n
  simp [attribMatch]

/-- removing all children with a name -/
theorem dropNamed_spec (s : Elem) (t a x : Str) :
    let s' := s.setChildren (s.children.filter (fun c => !(c.tag == t && attribMatch c [(a, x)])))
    named s' t a x = [] ∧ (∀ y, y ≠ x → named s' t a y = named s t a y) ∧ SameButKids t s s' ∧
    kids s' t = (kids s t).filter (fun c => decide (c.get a ≠ some x)) := by
  intro s'
  have hc : s'.children = s.children.filter (fun c => !(c.tag == t && attribMatch c [(a, x)])) := setChildren_children _ _
  refine ⟨?_, ?_, ⟨setChildren_tag _ _, setChildren_attrib _ _, by cases s; rfl, by cases s; rfl, ?_⟩, ?_⟩
  · unfold named
    rw [hc, List.filter_filter, List.filter_eq_nil_iff]
    intro c _
    simp [attribMatch]
  · intro y hy
    unfold named
    rw [hc, List.filter_filter]
    congr 1
    funext c
    rw [Bool.eq_iff_iff]
    simp only [attribMatch, List.all_cons, List.all_nil, Bool.and_true, Bool.and_eq_true, decide_eq_true_eq,
      Bool.not_eq_true', Bool.and_eq_false_iff, beq_eq_false_iff_ne]
    constructor
    · exact fun h => h.1
    · rintro ⟨h1, h2⟩
      exact ⟨⟨h1, h2⟩, Or.inr (by rw [h2]; simpa using hy)⟩
  · rw [hc, List.filter_filter]
    congr 1
    funext c
    rw [Bool.eq_iff_iff]
    simp only [Bool.and_eq_true, decide_eq_true_eq, Bool.not_eq_true', Bool.and_eq_false_iff, beq_eq_false_iff_ne]
    tauto
  · unfold kids
    rw [hc, List.filter_filter, List.filter_filter]
    congr 1
    funext c
    rw [Bool.eq_iff_iff]
    simp only [attribMatch, List.all_cons, List.all_nil, Bool.and_true, Bool.and_eq_true, decide_eq_true_eq,
      Bool.not_eq_true', Bool.and_eq_false_iff, beq_eq_false_iff_ne]
    tauto

end Cot
