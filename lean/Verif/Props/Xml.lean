import Verif.Spec.Xml
import Verif.Lemmas.Dict
import Mathlib.Tactic.Push
import Mathlib.Tactic.ByContra
/-
C27, C28, C29: editing and writing XML.
-/
namespace Cot

/-! ### C27 -/

theorem schemaRank_idxOf (o : List Str) (t : Str) : schemaRank o t = o.idxOf t := by
  unfold schemaRank List.idxOf
  congr 1
  funext x
  by_cases h : x = t <;> simp [h]

theorem schemaRank_lt {o : List Str} {t : Str} : schemaRank o t < o.length ↔ t ∈ o := by
  rw [schemaRank_idxOf]; exact List.idxOf_lt_length_iff

theorem insertChild_split (o : List Str) (c : Elem) : ∀ cs : List Elem,
    ∃ pre post, cs = pre ++ post ∧ insertChild o (o.idxOf c.tag) c cs = pre ++ c :: post ∧
      (∀ e ∈ pre, e.tag ∈ o ∧ schemaRank o e.tag ≤ schemaRank o c.tag) ∧
      (∀ e ∈ post.head?, e.tag ∉ o ∨ schemaRank o c.tag < schemaRank o e.tag)
  | [] => ⟨[], [], rfl, rfl, by simp, by simp⟩
  | e :: t => by
    unfold insertChild
    by_cases h : e.tag ∈ o
    · rw [if_pos h]
      by_cases h2 : o.idxOf e.tag > o.idxOf c.tag
      · rw [if_pos h2]
        refine ⟨[], e :: t, rfl, rfl, by simp, ?_⟩
        intro x hx
        simp only [List.head?_cons, Option.mem_def, Option.some.injEq] at hx
        subst hx
        exact Or.inr (by rw [schemaRank_idxOf, schemaRank_idxOf]; exact h2)
      · rw [if_neg h2]
        obtain ⟨pre, post, h3, h4, h5, h6⟩ := insertChild_split o c t
        refine ⟨e :: pre, post, by rw [h3]; rfl, by rw [h4]; rfl, ?_, h6⟩
        intro x hx
        rcases List.mem_cons.1 hx with rfl | hx
        · exact ⟨h, by rw [schemaRank_idxOf, schemaRank_idxOf]; omega⟩
        · exact h5 x hx
    · rw [if_neg h]
      refine ⟨[], e :: t, rfl, rfl, by simp, ?_⟩
      intro x hx
      simp only [List.head?_cons, Option.mem_def, Option.some.injEq] at hx
      subst hx
      exact Or.inl h

theorem Elem.eta (e : Elem) : e = .mk e.tag e.attrib e.text e.tail e.children := by cases e; rfl

/-- **C27.** `add_child` inserts the new child once, moves nothing else, and if the children were in schema
order they still are, with the new child after all those of the same tag. -/
theorem C27_add_child (parent c : Elem) (ordering : List Str) :
    ∃ pre post, parent.children = pre ++ post ∧
      addChild parent c ordering = .mk parent.tag parent.attrib parent.text parent.tail (pre ++ c :: post) ∧
      (c.tag ∉ ordering → post = []) ∧
      (SchemaOrdered ordering parent.children →
        SchemaOrdered ordering (pre ++ c :: post) ∧ ∀ e ∈ post, e.tag ≠ c.tag) := by
  unfold addChild
  by_cases h : ordering = [] ∨ c.tag ∉ ordering
  · rw [if_pos h]
    have hc : c.tag ∉ ordering := by
      rcases h with rfl | h
      · simp
      · exact h
    refine ⟨parent.children, [], by simp, by cases parent; rfl, fun _ => rfl, ?_⟩
    intro hs
    refine ⟨?_, by simp⟩
    unfold SchemaOrdered at hs ⊢
    rw [List.pairwise_append]
    refine ⟨hs, by simp, ?_⟩
    intro a _ b hb
    simp only [List.mem_singleton] at hb
    subst hb
    have h1 : schemaRank ordering a.tag ≤ ordering.length := List.findIdx_le_length
    have h2 : ¬ schemaRank ordering b.tag < ordering.length := fun hh => hc (schemaRank_lt.1 hh)
    omega
  · rw [if_neg h]
    push Not at h
    obtain ⟨pre, post, h1, h2, h3, h4⟩ := insertChild_split ordering c parent.children
    refine ⟨pre, post, h1, by rw [h2]; cases parent; rfl, fun hc => absurd h.2 hc, ?_⟩
    intro hs
    unfold SchemaOrdered at hs ⊢
    rw [h1] at hs
    rw [List.pairwise_append] at hs ⊢
    have hc : schemaRank ordering c.tag < ordering.length := schemaRank_lt.2 h.2
    have hlt : ∀ e ∈ post, schemaRank ordering c.tag < schemaRank ordering e.tag := by
      cases post with
      | nil => simp
      | cons x t =>
        have hx : schemaRank ordering c.tag < schemaRank ordering x.tag := by
          rcases h4 x (by simp) with h5 | h5
          · have : ¬ schemaRank ordering x.tag < ordering.length := fun hh => h5 (schemaRank_lt.1 hh)
            omega
          · exact h5
        intro e he
        rcases List.mem_cons.1 he with rfl | he
        · exact hx
        · have := (List.pairwise_cons.1 hs.2.1).1 e he
          omega
    refine ⟨⟨hs.1, ?_, ?_⟩, ?_⟩
    · rw [List.pairwise_cons]
      exact ⟨fun e he => Nat.le_of_lt (hlt e he), hs.2.1⟩
    · intro a ha b hb
      rcases List.mem_cons.1 hb with rfl | hb
      · exact (h3 a ha).2
      · exact hs.2.2 a ha b hb
    · intro e he heq
      have := hlt e he
      rw [heq] at this
      omega

def exOrd : List Str := ["A".toList, "B".toList, "C".toList]
def exEl (t : String) : Elem := Elem.new t.toList
/-- non-vacuity: a parent whose children are in schema order -/
example : SchemaOrdered exOrd [exEl "A", exEl "B", exEl "C", exEl "Zcustom"] := by
  unfold SchemaOrdered; decide
example : (addChild (.mk "P".toList [] none none [exEl "A", exEl "C", exEl "Zcustom"]) (exEl "B") exOrd).children
    = [exEl "A", exEl "B", exEl "C", exEl "Zcustom"] := rfl

/-! ### C28 -/

theorem matches_iff {tag : Str} {attrib : List (Str × Str)} {e : Elem} :
    (e.tag == tag && attribMatch e attrib) = true ↔ Matches tag attrib e := by
  unfold Matches attribMatch
  rw [Bool.and_eq_true, beq_iff_eq, List.all_eq_true]
  simp only [beq_iff_eq]

theorem foldl_set : ∀ (attrib : List (Str × Str)) (e : Elem),
    (attrib.foldl (fun e kv => e.set kv.1 kv.2) e).tag = e.tag ∧
    (attrib.foldl (fun e kv => e.set kv.1 kv.2) e).text = e.text ∧
    (attrib.foldl (fun e kv => e.set kv.1 kv.2) e).tail = e.tail ∧
    (attrib.foldl (fun e kv => e.set kv.1 kv.2) e).children = e.children ∧
    (∀ k, k ∉ attrib.map Prod.fst → (attrib.foldl (fun e kv => e.set kv.1 kv.2) e).get k = e.get k) ∧
    ((attrib.map Prod.fst).Nodup → ∀ kv ∈ attrib, (attrib.foldl (fun e kv => e.set kv.1 kv.2) e).get kv.1 = some kv.2)
  | [], e => ⟨rfl, rfl, rfl, rfl, fun _ _ => rfl, by simp⟩
  | (k, v) :: t, e => by
    obtain ⟨h1, h2, h3, h4, h5, h6⟩ := foldl_set t (e.set k v)
    have hget : ∀ x, (e.set k v).get x = if k = x then some v else e.get x := by
      intro x; cases e; simp only [Elem.set, Elem.get, Elem.attrib, dget?_dset]
    rw [List.foldl_cons]
    refine ⟨h1.trans (by cases e; rfl), h2.trans (by cases e; rfl), h3.trans (by cases e; rfl),
      h4.trans (by cases e; rfl), ?_, ?_⟩
    · intro x hx
      simp only [List.map_cons, List.mem_cons, not_or] at hx
      rw [h5 x hx.2, hget, if_neg (Ne.symm hx.1)]
    · intro hnd kv hkv
      simp only [List.map_cons, List.nodup_cons] at hnd
      rcases List.mem_cons.1 hkv with rfl | hkv
      · rw [h5 _ hnd.1, hget, if_pos rfl]
      · exact h6 hnd.2 kv hkv

/-- `f` differs from `e` at most in its text, which becomes `text` if one is given, and in the attributes `attrib`. -/
structure Updated (e f : Elem) (text : Option Str) (attrib : List (Str × Str)) : Prop where
  tag : f.tag = e.tag
  children : f.children = e.children
  tail : f.tail = e.tail
  text_given : ∀ s, text = some s → f.text = some s
  text_kept : text = none → f.text = e.text
  attr_set : ∀ kv ∈ attrib, f.get kv.1 = some kv.2
  attr_kept : ∀ k, k ∉ attrib.map Prod.fst → f.get k = e.get k

theorem updateElem_spec (e : Elem) (text : Option Str) {attrib : List (Str × Str)} (hnd : (attrib.map Prod.fst).Nodup) :
    Updated e (updateElem e text attrib) text attrib := by
  cases text with
  | none =>
    obtain ⟨h1, h2, h3, h4, h5, h6⟩ := foldl_set attrib e
    exact ⟨h1, h4, h3, by simp, fun _ => h2, h6 hnd, h5⟩
  | some s =>
    obtain ⟨h1, h2, h3, h4, h5, h6⟩ := foldl_set attrib (e.setText (some s))
    refine ⟨h1.trans (by cases e; rfl), h4.trans (by cases e; rfl), h3.trans (by cases e; rfl), ?_, by simp, h6 hnd, ?_⟩
    · intro s' hs; cases hs; exact h2.trans (by cases e; rfl)
    · intro k hk; exact (h5 k hk).trans (by cases e; rfl)

theorem mapFirst_split {p : Elem → Bool} {f : Elem → Elem} : ∀ {pre : List Elem} {x : Elem} {post : List Elem},
    (∀ e ∈ pre, p e = false) → p x = true → mapFirst p f (pre ++ x :: post) = pre ++ f x :: post
  | [], x, post, _, hx => by simp [mapFirst, hx]
  | e :: pre, x, post, h, hx => by
    rw [List.cons_append, mapFirst, if_neg (by rw [h e (by simp)]; decide),
      mapFirst_split (fun y hy => h y (by simp [hy])) hx]
    rfl

theorem foldl_set_id : ∀ (attrib : List (Str × Str)) (e : Elem), (∀ kv ∈ attrib, e.get kv.1 = some kv.2) →
    attrib.foldl (fun e kv => e.set kv.1 kv.2) e = e
  | [], _, _ => rfl
  | (k, v) :: t, e, h => by
    have hset : e.set k v = e := by
      have := h (k, v) (by simp)
      cases e with
      | mk t a x l c =>
        simp only [Elem.set, Elem.get, Elem.attrib] at this ⊢
        rw [dset_self this]
    rw [List.foldl_cons, hset]
    exact foldl_set_id t e (fun kv hkv => h kv (by simp [hkv]))

theorem setOrMakeChild_of_one {parent : Elem} {tag : Str} {text : Option Str} {attrib : List (Str × Str)} {o : List Str}
    {pre post : List Elem} {x : Elem} (hc : parent.children = pre ++ x :: post) (hx : Matches tag attrib x)
    (hn : ∀ e ∈ pre ++ post, ¬ Matches tag attrib e) :
    setOrMakeChild parent tag text attrib o =
      .ok (.mk parent.tag parent.attrib parent.text parent.tail (pre ++ updateElem x text attrib :: post)) := by
  have hpre : pre.filter (fun e => e.tag == tag && attribMatch e attrib) = [] := by
    rw [List.filter_eq_nil_iff]
    intro e he hh
    exact hn e (by simp [he]) (matches_iff.1 hh)
  have hpost : post.filter (fun e => e.tag == tag && attribMatch e attrib) = [] := by
    rw [List.filter_eq_nil_iff]
    intro e he hh
    exact hn e (by simp [he]) (matches_iff.1 hh)
  have hf : findAllChildren parent tag attrib = [x] := by
    unfold findAllChildren
    rw [hc, List.filter_append, List.filter_cons, if_pos (matches_iff.2 hx), hpre, hpost]
    rfl
  unfold setOrMakeChild findChild
  rw [hf, hc]
  simp only
  rw [mapFirst_split (fun e he => by
    have := hn e (by simp [he])
    rw [← matches_iff] at this
    simpa using this) (matches_iff.2 hx)]
  cases parent; rfl

theorem setOrMakeChild_of_none {parent : Elem} {tag : Str} {text : Option Str} {attrib : List (Str × Str)} {o : List Str}
    (hn : ∀ e ∈ parent.children, ¬ Matches tag attrib e) :
    setOrMakeChild parent tag text attrib o = .ok (addChild parent (updateElem (Elem.new tag) text attrib) o) := by
  have hf : findAllChildren parent tag attrib = [] := by
    unfold findAllChildren
    rw [List.filter_eq_nil_iff]
    intro e he hh
    exact hn e he (matches_iff.1 hh)
  unfold setOrMakeChild findChild
  rw [hf]
  rfl

theorem updateElem_idem {e : Elem} {text : Option Str} {attrib : List (Str × Str)} (hnd : (attrib.map Prod.fst).Nodup) :
    updateElem (updateElem e text attrib) text attrib = updateElem e text attrib := by
  have hu := updateElem_spec e text hnd
  generalize updateElem e text attrib = f at hu
  cases text with
  | none => exact foldl_set_id _ _ hu.attr_set
  | some s =>
    have : f.setText (some s) = f := by
      have := hu.text_given s rfl
      cases f
      simp only [Elem.text] at this
      subst this
      rfl
    unfold updateElem
    simp only
    rw [this]
    exact foldl_set_id _ _ hu.attr_set

theorem matches_updated {e f : Elem} {text : Option Str} {tag : Str} {attrib : List (Str × Str)} (hu : Updated e f text attrib)
    (ht : e.tag = tag) : Matches tag attrib f := ⟨hu.tag.trans ht, hu.attr_set⟩

/-- **C28.** When at most one child matches, `set_or_make_child` leaves exactly one matching child: the
child that matched before, in its place and with only its text and the given attributes changed, or
else a new childless one.  Nothing else changes, and repeating the call changes nothing. -/
theorem C28_set_or_make_child (parent : Elem) (tag : Str) (text : Option Str) {attrib : List (Str × Str)}
    (o : List Str) (hnd : (attrib.map Prod.fst).Nodup) {p' : Elem}
    (h : setOrMakeChild parent tag text attrib o = .ok p') :
    p'.tag = parent.tag ∧ p'.attrib = parent.attrib ∧ p'.text = parent.text ∧ p'.tail = parent.tail ∧
    (∃ pre e post, p'.children = pre ++ e :: post ∧ Matches tag attrib e ∧
      (∀ x ∈ pre ++ post, ¬ Matches tag attrib x) ∧ (∀ s, text = some s → e.text = some s) ∧
      ((∃ old, parent.children = pre ++ old :: post ∧ Matches tag attrib old ∧ Updated old e text attrib) ∨
       (parent.children = pre ++ post ∧ Updated (Elem.new tag) e text attrib))) ∧
    setOrMakeChild p' tag text attrib o = .ok p' := by
  by_cases hsome : ∃ x ∈ parent.children, Matches tag attrib x
  · -- split at the first match; there is no other
    obtain ⟨x, hxm, hx⟩ := hsome
    have hxf : x ∈ findAllChildren parent tag attrib := List.mem_filter.2 ⟨hxm, matches_iff.2 hx⟩
    have h1 : findAllChildren parent tag attrib = [x] := by
      unfold setOrMakeChild findChild at h
      match hf : findAllChildren parent tag attrib, hxf, h with
      | [], hxf, _ => simp at hxf
      | [y], hxf, _ => simp only [List.mem_singleton] at hxf; rw [hxf]
      | _ :: _ :: _, _, h => simp at h
    unfold findAllChildren at h1
    rw [List.filter_eq_cons_iff] at h1
    obtain ⟨pre, post, h2, h3, h4, h5⟩ := h1
    rw [List.filter_eq_nil_iff] at h5
    have hn : ∀ e ∈ pre ++ post, ¬ Matches tag attrib e := by
      intro e he
      rw [← matches_iff]
      rcases List.mem_append.1 he with he | he
      · exact h3 e he
      · exact h5 e he
    rw [setOrMakeChild_of_one h2 hx hn] at h
    cases h
    have hu := updateElem_spec x text hnd
    refine ⟨rfl, rfl, rfl, rfl, ⟨pre, _, post, rfl, matches_updated hu hx.1, hn, hu.text_given,
      Or.inl ⟨x, h2, hx, hu⟩⟩, ?_⟩
    rw [setOrMakeChild_of_one (pre := pre) (post := post) rfl (matches_updated hu hx.1) hn, updateElem_idem hnd]
    rfl
  · push Not at hsome
    rw [setOrMakeChild_of_none hsome] at h
    cases h
    have hu := updateElem_spec (Elem.new tag) text hnd
    obtain ⟨pre, post, h1, h2, -, -⟩ := C27_add_child parent (updateElem (Elem.new tag) text attrib) o
    rw [h1] at hsome
    rw [h2]
    refine ⟨rfl, rfl, rfl, rfl, ⟨pre, _, post, rfl, matches_updated hu rfl, hsome, hu.text_given,
      Or.inr ⟨h1, hu⟩⟩, ?_⟩
    rw [setOrMakeChild_of_one (pre := pre) (post := post) rfl (matches_updated (tag := tag) hu rfl) hsome, updateElem_idem hnd]
    rfl

/-- C28, the error: it is raised exactly when two or more children match. -/
theorem C28_error_iff (parent : Elem) (tag : Str) (text : Option Str) (attrib : List (Str × Str)) (o : List Str) :
    (∃ e, setOrMakeChild parent tag text attrib o = .error e) ↔
      ∃ a x b y c, parent.children = a ++ x :: b ++ y :: c ∧ Matches tag attrib x ∧ Matches tag attrib y := by
  constructor
  · rintro ⟨e, h⟩
    unfold setOrMakeChild findChild at h
    match hf : findAllChildren parent tag attrib, h with
    | [], h => simp at h
    | [_], h => simp at h
    | x :: y :: r, _ =>
      unfold findAllChildren at hf
      rw [List.filter_eq_cons_iff] at hf
      obtain ⟨a, r', h1, -, h3, h4⟩ := hf
      rw [List.filter_eq_cons_iff] at h4
      obtain ⟨b, c, h5, -, h6, -⟩ := h4
      exact ⟨a, x, b, y, c, by rw [h1, h5]; simp, matches_iff.1 h3, matches_iff.1 h6⟩
  · rintro ⟨a, x, b, y, c, h1, hx, hy⟩
    refine ⟨.lookupError, ?_⟩
    have hlen : 2 ≤ (findAllChildren parent tag attrib).length := by
      unfold findAllChildren
      rw [h1]
      simp only [List.filter_append, List.filter_cons, matches_iff.2 hx, matches_iff.2 hy, if_true,
        List.length_append, List.length_cons]
      omega
    unfold setOrMakeChild findChild
    match hf : findAllChildren parent tag attrib, hlen with
    | [], hlen => simp at hlen
    | [_], hlen => simp at hlen
    | _ :: _ :: _, _ => rfl

/-- non-vacuity: an existing child is updated -/
example : setOrMakeChild (.mk "P".toList [] none none [exEl "A", exEl "B"]) "B".toList (some "t".toList)
    [] exOrd = .ok (.mk "P".toList [] none none [exEl "A", (exEl "B").setText (some "t".toList)]) := rfl

/-! ### C29 -/

theorem nlIndent_blank (n : Nat) : BlankText (some (nlIndent n)) := by
  intro c hc
  simp only [nlIndent, List.mem_cons, List.mem_replicate] at hc
  rcases hc with rfl | ⟨-, rfl⟩ <;> decide

theorem sameElements_setTail (e f : Elem) (t : Option Str) : SameElements e (f.setTail t) ↔ SameElements e f := by
  cases e; cases f; simp only [Elem.setTail, SameElements]

theorem elementOnly_setTail {e : Elem} {t : Option Str} (h : ElementOnly e) (ht : BlankText t) : ElementOnly (e.setTail t) := by
  cases e
  simp only [Elem.setTail, ElementOnly] at h ⊢
  exact ⟨h.1, ht, h.2.2⟩

theorem reindentList_nil_iff {cs : List Elem} {d : Nat} : reindentList cs d = [] ↔ cs = [] := by
  cases cs with
  | nil => simp [reindentList]
  | cons e t => cases t <;> simp [reindentList]

mutual
theorem reindent_sameElements : ∀ (e : Elem) (d : Nat), SameElements e (reindent e d)
  | .mk t a x l [], d => by simp [reindent, reindentList, SameElements, SameElementsL]
  | .mk t a x l (c :: cs), d => by
    have := reindentList_sameElements (c :: cs) (d + 2)
    rw [reindent]
    simp only [SameElements]
    exact ⟨trivial, trivial, by simp, this⟩
theorem reindentList_sameElements : ∀ (cs : List Elem) (d : Nat), SameElementsL cs (reindentList cs d)
  | [], d => by simp [reindentList, SameElementsL]
  | [e], d => by
    have := reindent_sameElements e d
    simp only [reindentList, SameElementsL, and_true]
    rw [sameElements_setTail]; exact this
  | e :: f :: t, d => by
    have h1 := reindent_sameElements e d
    have h2 := reindentList_sameElements (f :: t) d
    rw [reindentList]
    simp only [SameElementsL]
    exact ⟨by rw [sameElements_setTail]; exact h1, h2⟩
end

/-- **C29 (content).** Re-indenting keeps every tag, attribute, child order and the text of every
childless element, for every tree. -/
theorem C29_same_elements (e : Elem) (d : Nat) : SameElements e (reindent e d) := reindent_sameElements e d

theorem sameUpToLayout_setTail {e f : Elem} {t : Option Str} (h : SameUpToLayout e f) (he : BlankText e.tail)
    (ht : BlankText t) : SameUpToLayout e (f.setTail t) := by
  cases e; cases f
  simp only [Elem.setTail, SameUpToLayout, Elem.tail] at h he ⊢
  exact ⟨h.1, h.2.1, h.2.2.1, Or.inr ⟨he, ht⟩, h.2.2.2.2⟩

mutual
theorem reindent_layout : ∀ (e : Elem) (d : Nat), ElementOnly e → SameUpToLayout e (reindent e d)
  | .mk t a x l [], d, h => by simp [reindent, reindentList, SameUpToLayout, SameUpToLayoutL]
  | .mk t a x l (c :: cs), d, h => by
    simp only [ElementOnly] at h
    have := reindentList_layout (c :: cs) (d + 2) h.2.2
    rw [reindent]
    simp only [SameUpToLayout]
    refine ⟨trivial, trivial, Or.inr ⟨by simp, h.1 (by simp), nlIndent_blank _⟩, ?_, this⟩
    by_cases hd : d = 0
    · rw [if_pos hd]; exact Or.inr ⟨h.2.1, nlIndent_blank _⟩
    · rw [if_neg hd]; exact Or.inl rfl
theorem reindentList_layout : ∀ (cs : List Elem) (d : Nat), ElementOnlyL cs → SameUpToLayoutL cs (reindentList cs d)
  | [], d, _ => by simp [reindentList, SameUpToLayoutL]
  | [e], d, h => by
    simp only [ElementOnlyL, and_true] at h
    have := reindent_layout e d h
    simp only [reindentList, SameUpToLayoutL, and_true]
    refine sameUpToLayout_setTail this ?_ (nlIndent_blank _)
    cases e; exact h.2.1
  | e :: f :: t, d, h => by
    have hL := h
    simp only [ElementOnlyL] at h
    have h1 := reindent_layout e d h.1
    have h2 := reindentList_layout (f :: t) d (by simp only [ElementOnlyL]; exact h.2)
    rw [reindentList]
    simp only [SameUpToLayoutL]
    refine ⟨sameUpToLayout_setTail h1 ?_ (nlIndent_blank _), h2⟩
    have := h.1
    cases e; exact this.2.1
end

/-- **C29**, for documents without mixed content: re-indenting changes only whitespace between
elements.  Missing: text beside child elements is dropped, see `C29_mixed_content_fails`. -/
theorem C29_layout_only_partial (e : Elem) (d : Nat) (h : ElementOnly e) : SameUpToLayout e (reindent e d) :=
  reindent_layout e d h

mutual
theorem reindent_elementOnly : ∀ (e : Elem) (d : Nat), BlankText e.tail → ElementOnly (reindent e d)
  | .mk t a x l [], d, h => by
    simp only [reindent, reindentList, ElementOnly, ElementOnlyL]
    exact ⟨by simp, h, trivial⟩
  | .mk t a x l (c :: cs), d, h => by
    have := reindentList_elementOnly (c :: cs) (d + 2)
    rw [reindent]
    simp only [ElementOnly]
    refine ⟨fun _ => nlIndent_blank _, ?_, this⟩
    by_cases hd : d = 0
    · rw [if_pos hd]; exact nlIndent_blank _
    · rw [if_neg hd]; exact h
theorem reindentList_elementOnly : ∀ (cs : List Elem) (d : Nat), ElementOnlyL (reindentList cs d)
  | [], d => by simp [reindentList, ElementOnlyL]
  | [e], d => by
    have := reindent_elementOnly' e d
    simp only [reindentList, ElementOnlyL, and_true]
    exact this _ (nlIndent_blank _)
  | e :: f :: t, d => by
    have h1 := reindent_elementOnly' e d
    have h2 := reindentList_elementOnly (f :: t) d
    rw [reindentList]
    simp only [ElementOnlyL]
    exact ⟨h1 _ (nlIndent_blank _), h2⟩
theorem reindent_elementOnly' : ∀ (e : Elem) (d : Nat) (t : Option Str), BlankText t → ElementOnly ((reindent e d).setTail t)
  | .mk t a x l [], d, s, h => by
    simp only [reindent, reindentList, ElementOnly, ElementOnlyL, Elem.setTail]
    exact ⟨by simp, h, trivial⟩
  | .mk t a x l (c :: cs), d, s, h => by
    have := reindentList_elementOnly (c :: cs) (d + 2)
    rw [reindent]
    simp only [ElementOnly, Elem.setTail]
    exact ⟨fun _ => nlIndent_blank _, h, this⟩
end

/-- Re-indented output never has mixed content (given that nothing follows the root element). -/
theorem C29_output_element_only (e : Elem) (d : Nat) (h : BlankText e.tail) : ElementOnly (reindent e d) :=
  reindent_elementOnly e d h

theorem reindent_setTail (e : Elem) (d : Nat) (t : Option Str) (hd : d ≠ 0) :
    reindent (e.setTail t) d = (reindent e d).setTail t := by
  cases e with
  | mk tg a x l cs =>
    cases cs with
    | nil => simp [reindent, Elem.setTail]
    | cons c cs => simp [reindent, Elem.setTail, hd]

mutual
theorem reindent_idem : ∀ (e : Elem) (d : Nat), reindent (reindent e d) d = reindent e d
  | .mk t a x l [], d => by simp [reindent, reindentList]
  | .mk t a x l (c :: cs), d => by
    have ih := reindentList_idem (c :: cs) (d + 2) (by omega)
    rw [reindent]
    generalize hr : reindentList (c :: cs) (d + 2) = rs at ih ⊢
    cases rs with
    | nil => rw [reindentList_nil_iff] at hr; cases hr
    | cons r rs =>
      rw [reindent, ih]
      by_cases hd : d = 0 <;> simp [hd]
theorem reindentList_idem : ∀ (cs : List Elem) (d : Nat), d ≠ 0 → reindentList (reindentList cs d) d = reindentList cs d
  | [], d, _ => by simp [reindentList]
  | [e], d, hd => by
    have := reindent_idem e d
    simp only [reindentList]
    rw [reindent_setTail _ _ _ hd, this]
    generalize reindent e d = f
    cases f; rfl
  | e :: f :: t, d, hd => by
    have h1 := reindent_idem e d
    have h2 := reindentList_idem (f :: t) d hd
    rw [reindentList]
    generalize hr : reindentList (f :: t) d = rs at h2 ⊢
    cases rs with
    | nil => rw [reindentList_nil_iff] at hr; cases hr
    | cons r rs =>
      rw [reindentList, h2, reindent_setTail _ _ _ hd, h1]
      generalize reindent e d = g
      cases g; rfl
end

/-- **C29 (idempotent).** Re-indenting twice is the same as once. -/
theorem C29_idempotent (e : Elem) (d : Nat) : reindent (reindent e d) d = reindent e d := reindent_idem e d

/-- **C29 fails** for mixed content: text beside child elements is lost. -/
theorem C29_mixed_content_fails : ∃ e : Elem, ¬ SameUpToLayout e (reindent e 0) := by
  refine ⟨.mk "P".toList [] (some "words".toList) none [exEl "A"], ?_⟩
  simp only [reindent, reindentList, SameUpToLayout]
  rintro ⟨-, -, h, -⟩
  rcases h with h | ⟨-, h, -⟩
  · exact absurd h (by decide)
  · exact absurd (h 'w' (by decide)) (by decide)

/-- non-vacuity: a nested document without mixed content -/
example : ElementOnly (.mk "P".toList [] (some "\n  ".toList) none [.mk "Q".toList [] none (some "\n".toList)
    [(exEl "A").setText (some "text".toList)], exEl "B"]) := by
  simp [ElementOnly, ElementOnlyL, BlankText, exEl, Elem.new, Elem.setText, isWs]

end Cot
