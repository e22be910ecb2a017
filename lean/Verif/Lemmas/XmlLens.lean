import Verif.Model.OvfXml
import Verif.Props.Xml
/-
Finding children after a change of the child list.
-/
namespace Cot

theorem setChildren_children (p : Elem) (cs : List Elem) : (p.setChildren cs).children = cs := by cases p; rfl
theorem setChildren_tag (p : Elem) (cs : List Elem) : (p.setChildren cs).tag = p.tag := by cases p; rfl
theorem setChildren_get (p : Elem) (cs : List Elem) (k : Str) : (p.setChildren cs).get k = p.get k := by cases p; rfl
theorem setChildren_attrib (p : Elem) (cs : List Elem) : (p.setChildren cs).attrib = p.attrib := by cases p; rfl
theorem set_tag (e : Elem) (k x : Str) : (e.set k x).tag = e.tag := by cases e; rfl
theorem set_children (e : Elem) (k x : Str) : (e.set k x).children = e.children := by cases e; rfl
theorem set_get (e : Elem) (k x j : Str) : (e.set k x).get j = if k = j then some x else e.get j := by
  cases e; simp only [Elem.set, Elem.get, Elem.attrib, dget?_dset]

theorem filter_one_split {α : Type} {p : α → Bool} : ∀ {l : List α} {x : α}, l.filter p = [x] →
    ∃ pre post, l = pre ++ x :: post ∧ p x = true ∧ (∀ y ∈ pre, p y = false) ∧ (∀ y ∈ post, p y = false)
  | [], _, h => by simp at h
  | a :: t, x, h => by
    rw [List.filter_cons] at h
    by_cases ha : p a = true
    · rw [if_pos ha] at h
      obtain ⟨rfl, ht⟩ := List.cons.inj h
      refine ⟨[], t, rfl, ha, by simp, ?_⟩
      intro y hy
      have := List.filter_eq_nil_iff.1 ht y hy
      simpa using this
    · rw [if_neg ha] at h
      obtain ⟨pre, post, e, h1, h2, h3⟩ := filter_one_split h
      refine ⟨a :: pre, post, by rw [e]; rfl, h1, ?_, h3⟩
      intro y hy
      rcases List.mem_cons.1 hy with rfl | hy
      · simpa using ha
      · exact h2 y hy

theorem mem_findAllChildren {p e : Elem} {t : Str} {a : List (Str × Str)} :
    e ∈ findAllChildren p t a ↔ e ∈ p.children ∧ Matches t a e := by
  unfold findAllChildren
  rw [List.mem_filter, matches_iff]

theorem findChild_some {p e : Elem} {t : Str} {a : List (Str × Str)} {r : Bool} :
    findChild p t a r = .ok (some e) ↔ findAllChildren p t a = [e] := by
  unfold findChild
  split
  · rename_i h; rw [h]; cases r <;> simp
  · rename_i x h; rw [h]; simp
  · rename_i h; rw [h]; simp

theorem findChild_none {p : Elem} {t : Str} {a : List (Str × Str)} :
    findChild p t a false = .ok none ↔ findAllChildren p t a = [] := by
  unfold findChild
  split
  · rename_i h; rw [h]; simp
  · rename_i x h; rw [h]; simp
  · rename_i h; rw [h]; simp

theorem updateFirst_split {p x : Elem} {t : Str} {a : List (Str × Str)} {f : Elem → Elem}
    (h : findAllChildren p t a = [x]) :
    ∃ pre post, p.children = pre ++ x :: post ∧ (updateFirst p t a f).children = pre ++ f x :: post ∧ Matches t a x ∧
      (∀ y ∈ pre, ¬ Matches t a y) ∧ (∀ y ∈ post, ¬ Matches t a y) := by
  obtain ⟨pre, post, e, h1, h2, h3⟩ := filter_one_split h
  refine ⟨pre, post, e, ?_, matches_iff.1 h1, ?_, ?_⟩
  · rw [updateFirst, setChildren_children, e, mapFirst_split h2 h1]
  · intro y hy hm; have := h2 y hy; rw [matches_iff.2 hm] at this; cases this
  · intro y hy hm; have := h3 y hy; rw [matches_iff.2 hm] at this; cases this

theorem filter_none {cs : List Elem} {t : Str} {a : List (Str × Str)} (h : ∀ y ∈ cs, ¬ Matches t a y) :
    cs.filter (fun e => e.tag == t && attribMatch e a) = [] := by
  rw [List.filter_eq_nil_iff]
  intro y hy hm
  exact h y hy (matches_iff.1 hm)

/-- the updated child is found again -/
theorem findAll_updateFirst {p x : Elem} {t : Str} {a : List (Str × Str)} {f : Elem → Elem}
    (h : findAllChildren p t a = [x]) (hf : Matches t a (f x)) : findAllChildren (updateFirst p t a f) t a = [f x] := by
  obtain ⟨pre, post, -, e2, -, h1, h2⟩ := updateFirst_split (f := f) h
  unfold findAllChildren
  rw [e2, List.filter_append, List.filter_cons, if_pos (matches_iff.2 hf), filter_none h1, filter_none h2]
  rfl

/-- a search that matches neither the old nor the new child is not affected -/
theorem findAll_updateFirst_other {p x : Elem} {t : Str} {a : List (Str × Str)} {f : Elem → Elem} {t' : Str}
    {a' : List (Str × Str)} (h : findAllChildren p t a = [x]) (h1 : ¬ Matches t' a' x) (h2 : ¬ Matches t' a' (f x)) :
    findAllChildren (updateFirst p t a f) t' a' = findAllChildren p t' a' := by
  obtain ⟨pre, post, e1, e2, -, -, -⟩ := updateFirst_split (f := f) h
  have n1 : ¬ (x.tag == t' && attribMatch x a') = true := fun hm => h1 (matches_iff.1 hm)
  have n2 : ¬ ((f x).tag == t' && attribMatch (f x) a') = true := fun hm => h2 (matches_iff.1 hm)
  unfold findAllChildren
  rw [e1, e2, List.filter_append, List.filter_append, List.filter_cons, if_neg n2, List.filter_cons, if_neg n1]

theorem updateFirst_tag (p : Elem) (t : Str) (a : List (Str × Str)) (f : Elem → Elem) : (updateFirst p t a f).tag = p.tag :=
  setChildren_tag _ _
theorem updateFirst_get (p : Elem) (t : Str) (a : List (Str × Str)) (f : Elem → Elem) (k : Str) :
    (updateFirst p t a f).get k = p.get k := setChildren_get _ _ _

theorem insertBeforeTag_split (tag : Str) (new : Elem) : ∀ cs : List Elem,
    ∃ pre post, cs = pre ++ post ∧ insertBeforeTag tag new cs = pre ++ new :: post
  | [] => ⟨[], [], rfl, rfl⟩
  | e :: r => by
    unfold insertBeforeTag
    split
    · exact ⟨[], e :: r, rfl, rfl⟩
    · obtain ⟨pre, post, h1, h2⟩ := insertBeforeTag_split tag new r
      exact ⟨e :: pre, post, by rw [h1]; rfl, by rw [h2]; rfl⟩

theorem findAll_insert {p new : Elem} {tag t : Str} {a : List (Str × Str)} (hn : findAllChildren p t a = [])
    (hm : Matches t a new) :
    findAllChildren (p.setChildren (insertBeforeTag tag new p.children)) t a = [new] := by
  obtain ⟨pre, post, h1, h2⟩ := insertBeforeTag_split tag new p.children
  unfold findAllChildren at hn ⊢
  rw [h1, List.filter_append, List.append_eq_nil_iff] at hn
  rw [setChildren_children, h2, List.filter_append, List.filter_cons, if_pos (matches_iff.2 hm), hn.1, hn.2]
  rfl

theorem findAll_insert_other {p new : Elem} {tag t : Str} {a : List (Str × Str)} (hm : ¬ Matches t a new) :
    findAllChildren (p.setChildren (insertBeforeTag tag new p.children)) t a = findAllChildren p t a := by
  obtain ⟨pre, post, h1, h2⟩ := insertBeforeTag_split tag new p.children
  have n2 : ¬ (new.tag == t && attribMatch new a) = true := fun h => hm (matches_iff.1 h)
  unfold findAllChildren
  rw [setChildren_children, h2, h1, List.filter_append, List.filter_append, List.filter_cons, if_neg n2]

/-- `add_child` without an ordering appends -/
theorem addChild_nil (p c : Elem) : addChild p c [] = p.setChildren (p.children ++ [c]) := by
  unfold addChild; rw [if_pos (Or.inl rfl)]

theorem findAll_append {p new : Elem} {t : Str} {a : List (Str × Str)} (hn : findAllChildren p t a = [])
    (hm : Matches t a new) : findAllChildren (p.setChildren (p.children ++ [new])) t a = [new] := by
  unfold findAllChildren at hn ⊢
  rw [setChildren_children, List.filter_append, hn, List.filter_cons, if_pos (matches_iff.2 hm)]
  rfl

theorem findAll_append_other {p new : Elem} {t : Str} {a : List (Str × Str)} (hm : ¬ Matches t a new) :
    findAllChildren (p.setChildren (p.children ++ [new])) t a = findAllChildren p t a := by
  have n2 : ¬ (new.tag == t && attribMatch new a) = true := fun h => hm (matches_iff.1 h)
  unfold findAllChildren
  rw [setChildren_children, List.filter_append, List.filter_cons, if_neg n2]
  simp

/-- a section created by `_ensure_section` -/
def newSection (v : Ver) (tag : Str) (attrib : List (Str × Str)) (info : Str) : Elem :=
  (Elem.new tag attrib).setChildren [(Elem.new (infoTag v)).setText (some info)]

theorem ensureSection_none {v : Ver} {p : Elem} {tag : Str} {attrib : List (Str × Str)} {info : Str}
    (h : findAllChildren p tag attrib = []) : ensureSection v p tag attrib info =
      .ok (p.setChildren (insertBeforeTag (virtualSystemTag v) (newSection v tag attrib info) p.children)) := by
  unfold ensureSection
  rw [findChild_none.2 h]
  have : setOrMakeChild (Elem.new tag attrib) (infoTag v) (some info) [] [] = .ok (newSection v tag attrib info) := rfl
  rw [this]

theorem ensureSection_some {v : Ver} {p x : Elem} {tag : Str} {attrib : List (Str × Str)} {info : Str}
    (h : findAllChildren p tag attrib = [x]) : ensureSection v p tag attrib info = .ok p := by
  unfold ensureSection
  rw [findChild_some.2 h]

end Cot
