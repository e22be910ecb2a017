import Verif.Spec.RoundTrip
import Verif.Lemmas.Dict
import Verif.Lemmas.Str
import Verif.Lemmas.NatSort
namespace Cot

/-! ### lookup of the last occurrence of a pattern -/

theorem splitLast_none_of (pat : Str) (hpat : pat ≠ []) : ∀ s : Str, hasSub pat s = false →
    splitLast pat s = none
  | [], _ => by simp [splitLast, hpat]
  | c :: t, h => by
    simp only [hasSub, Bool.or_eq_false_iff] at h
    simp [splitLast, splitLast_none_of pat hpat t h.2, h.1]

theorem isPrefixOf_length {a b : Str} (h : a.isPrefixOf b = true) : a.length ≤ b.length := by
  have := List.isPrefixOf_iff_prefix.1 h
  exact this.length_le

theorem splitLast_short (pat : Str) (hpat : pat ≠ []) (s : Str) (h : s.length < pat.length) :
    splitLast pat s = none := by
  induction s with
  | nil => simp [splitLast, hpat]
  | cons c t ih =>
    simp only [List.length_cons] at h
    rw [splitLast, ih (by omega)]
    have : pat.isPrefixOf (c :: t) = false := by
      cases hp : pat.isPrefixOf (c :: t) with
      | false => rfl
      | true => have := isPrefixOf_length hp; simp at this; omega
    simp [this]

theorem splitLast_suffix (pat : Str) (hpat : pat ≠ []) (a : Str) :
    splitLast pat (a ++ pat) = some (a, []) := by
  induction a with
  | nil =>
    cases pat with
    | nil => exact absurd rfl hpat
    | cons c t =>
      simp only [List.nil_append]
      rw [splitLast, splitLast_short (c :: t) hpat t (by simp)]
      simp
  | cons c a ih =>
    rw [List.cons_append, splitLast, ih]

theorem takeWhile_no_nl (s : Str) (h : '\n' ∉ s) : s.takeWhile (· ≠ '\n') = s := by
  induction s with
  | nil => rfl
  | cons c t ih =>
    simp only [List.mem_cons, not_or] at h
    have : c ≠ '\n' := fun e => h.1 e.symm
    rw [List.takeWhile_cons]
    simp only [this, ne_eq, not_false_iff, decide_true, if_true, ih h.2]

theorem matchLast_none_of (pat s : Str) (hpat : pat ≠ []) (h : '\n' ∉ s) (hs : hasSub pat s = false) :
    matchLast pat s = none := by
  unfold matchLast; rw [takeWhile_no_nl s h]; exact splitLast_none_of pat hpat s hs

theorem matchLast_suffix (pat a : Str) (hpat : pat ≠ []) (h : '\n' ∉ a) (h' : '\n' ∉ pat) :
    matchLast pat (a ++ pat) = some (a, []) := by
  unfold matchLast
  rw [takeWhile_no_nl _ (by simp [h, h'])]; exact splitLast_suffix pat hpat a

theorem itemChildren_plain (v : Ver) : ∀ n ∈ itemChildren v,
    matchLast attribKeySuffix n = none ∧ matchLast childAttribInfix n = none ∧
    matchLast elementKeySuffix n = none ∧ '}' ∉ n ∧ ' ' ∉ n ∧ '\n' ∉ n := by
  cases v <;> decide +kernel

theorem resourceSubType_mem (v : Ver) : resourceSubType ∈ itemChildren v := by
  cases v <;> decide +kernel

theorem afterLast_append (c : Char) (s t : Str) (h : c ∉ t) :
    afterLast c (s ++ c :: t) = some t := by
  have hnone : afterLast c t = none := by
    induction t with
    | nil => rfl
    | cons x t ih =>
      simp only [List.mem_cons, not_or] at h
      have hx : ¬ x = c := fun e => h.1 e.symm
      simp [afterLast, ih h.2, hx]
  induction s with
  | nil => simp [afterLast, hnone]
  | cons x s ih => simp [afterLast, ih]

theorem stripNs_braced (x n : Str) (h : '}' ∉ n) : stripNs (braced x ++ n) = n := by
  have : braced x ++ n = '{' :: (x ++ '}' :: n) := by simp [braced]
  rw [this]
  simp only [stripNs, afterLast_append '}' x n h]

/-! ### calls made for an element, as a multiset -/

/-- the calls that reading `e` would make, in document order -/
def docCalls (env : Env) (e : Elem) : List (Str × InVal) :=
  attribCalls env.ver e ++ e.children.flatMap (childCalls env)

theorem moveToEnd_perm (q : Elem → Bool) (l : List Elem) : (moveToEnd q l).Perm l := by
  unfold moveToEnd
  cases h : l.find? q with
  | none => exact List.Perm.refl _
  | some e =>
    simp only
    have : l.Perm (e :: l.eraseP q) := by
      induction l with
      | nil => simp at h
      | cons x t ih =>
        rw [List.find?_cons] at h
        cases hq : q x with
        | true => rw [hq] at h; cases h; simp [hq]
        | false =>
          rw [hq] at h
          rw [List.eraseP_cons_of_neg (by simp [hq])]
          exact ((ih h).cons x).trans (List.Perm.swap _ _ _)
    exact (List.perm_append_comm.trans this.symm)

theorem addItemCalls_perm (env : Env) (e : Elem) : (addItemCalls env e).Perm (docCalls env e) := by
  unfold addItemCalls docCalls
  refine List.Perm.append_left _ ?_
  refine List.Perm.flatMap_right _ ?_
  exact (moveToEnd_perm _ _).trans (moveToEnd_perm _ _)

theorem insertChild_perm (o : List Str) (i : Nat) (c : Elem) (l : List Elem) :
    (insertChild o i c l).Perm (c :: l) := by
  induction l with
  | nil => exact List.Perm.refl _
  | cons e t ih =>
    unfold insertChild
    split
    · split
      · exact List.Perm.refl _
      · exact (ih.cons e).trans (List.Perm.swap _ _ _)
    · exact List.Perm.refl _

@[simp] theorem setChildren_children (e : Elem) (l : List Elem) : (e.setChildren l).children = l := by
  cases e; rfl
@[simp] theorem setChildren_attrib (e : Elem) (l : List Elem) : (e.setChildren l).attrib = e.attrib := by
  cases e; rfl
@[simp] theorem setChildren_tag (e : Elem) (l : List Elem) : (e.setChildren l).tag = e.tag := by
  cases e; rfl
@[simp] theorem set_children (e : Elem) (k v : Str) : (e.set k v).children = e.children := by
  cases e; rfl
@[simp] theorem set_tag (e : Elem) (k v : Str) : (e.set k v).tag = e.tag := by cases e; rfl
@[simp] theorem set_attrib (e : Elem) (k v : Str) : (e.set k v).attrib = dset e.attrib k v := by
  cases e; rfl

theorem addChild_children_perm (p c : Elem) (o : List Str) :
    (addChild p c o).children.Perm (c :: p.children) := by
  unfold addChild
  split
  · simp
  · simp [insertChild_perm]

@[simp] theorem addChild_attrib (p c : Elem) (o : List Str) : (addChild p c o).attrib = p.attrib := by
  unfold addChild; split <;> simp
@[simp] theorem addChild_tag (p c : Elem) (o : List Str) : (addChild p c o).tag = p.tag := by
  unfold addChild; split <;> simp

theorem dset_of_not_mem {β : Type} {d : List (Str × β)} {k : Str} {v : β} (h : k ∉ dkeys d) :
    dset d k v = d ++ [(k, v)] := by
  induction d with
  | nil => rfl
  | cons e d ih =>
    obtain ⟨k', w⟩ := e
    simp only [dkeys, List.map_cons, List.mem_cons, not_or] at h
    have h1 : ¬ k' = k := fun e => h.1 e.symm
    simp only [dset, if_neg h1, List.cons_append]
    rw [ih h.2]

theorem attr_ne_rst (a : Str) : a ++ attribKeySuffix ≠ resourceSubType := by
  have h1 : ' ' ∈ attribKeySuffix := by decide +kernel
  have h2 : ' ' ∉ resourceSubType := by decide +kernel
  intro h
  rw [← h] at h2
  exact h2 (List.mem_append_right _ h1)

theorem custom_ne_rst (a : Str) : a ++ elementKeySuffix ≠ resourceSubType := by
  have h1 : ' ' ∈ elementKeySuffix := by decide +kernel
  have h2 : ' ' ∉ resourceSubType := by decide +kernel
  intro h
  rw [← h] at h2
  exact h2 (List.mem_append_right _ h1)

theorem attr_not_child (v : Ver) (a : Str) : a ++ attribKeySuffix ∉ itemChildren v := by
  have h1 : ' ' ∈ attribKeySuffix := by decide +kernel
  intro h
  exact (itemChildren_plain v _ h).2.2.2.2.1 (List.mem_append_right _ h1)

theorem custom_not_child (v : Ver) (a : Str) : a ++ elementKeySuffix ∉ itemChildren v := by
  have h1 : ' ' ∈ elementKeySuffix := by decide +kernel
  intro h
  exact (itemChildren_plain v _ h).2.2.2.2.1 (List.mem_append_right _ h1)

/-- the value of a written text, when it is read back -/
theorem normValue_outStr {env : Env} {n : Str} {v : Val} (hw : Writable env n v)
    (hv : v.truthy = true) : normValue env n (.str (outStr env n v)) = v := by
  cases hw with
  | child h1 h2 => simp [outStr, h2, normValue, Env.valStr]
  | @subtype l h =>
    have hne : l ≠ [] := by simpa [Val.truthy] using hv
    have hs := splitOnChar_join ' ' l hne (fun s hs => (h s hs).2)
    have hj : joinWith [' '] l ≠ [] := by
      intro he
      rw [he] at hs
      simp [splitOnChar] at hs
      exact (h [] (by rw [← hs]; simp)).1 rfl
    simp only [outStr, if_true, normValue]
    cases hjj : joinWith [' '] l with
    | nil => exact absurd hjj hj
    | cons c t => rw [← hjj, hs]
  | @attr a s h1 h2 =>
    have := attr_ne_rst a
    simp [outStr, this, normValue, Env.valStr]
  | @custom s c h1 h2 h3 h4 h5 h6 =>
    have := custom_ne_rst (strip s)
    simp [outStr, this, normValue, Env.valStr]

theorem emitProp_spec {env : Env} {x : Str} {e : Elem} {n : Str} {v : Val} {D : List (Str × InVal)}
    (hw : Writable env n v) (hI : (docCalls env e).Perm D) (hn : n ∉ dkeys D) :
    ∃ e', emitProp env (braced x) e n (outStr env n v) = .ok e' ∧
      (docCalls env e').Perm (D ++ [(n, .str (outStr env n v))]) ∧ e'.tag = e.tag ∧
      e'.get (itemConfig env.ver) = e.get (itemConfig env.ver) ∧
      (∀ c ∈ e.children, c ∈ e'.children) ∧
      (n ∈ itemChildren env.ver → ∃ c ∈ e'.children, c.tag = braced x ++ n ∧
        c.text = some (outStr env n v)) := by
  have hmem : ∀ m w, (m, w) ∈ docCalls env e → m ∈ dkeys D := fun m w h =>
    List.mem_map.2 ⟨(m, w), hI.mem_iff.1 h, rfl⟩
  have hchild : n ∈ itemChildren env.ver → ∀ val, ∃ e',
      setOrMakeChild e (braced x ++ n) (some val) [] ((itemChildren env.ver).map (fun i => braced x ++ i))
        = .ok e' ∧ (docCalls env e').Perm (D ++ [(n, .str val)]) ∧ e'.tag = e.tag ∧
      e'.get (itemConfig env.ver) = e.get (itemConfig env.ver) ∧
      (∀ c ∈ e.children, c ∈ e'.children) ∧
      (n ∈ itemChildren env.ver → ∃ c ∈ e'.children, c.tag = braced x ++ n ∧
        c.text = some val) := by
    intro hc val
    have hstrip : stripNs (braced x ++ n) = n := stripNs_braced x n (itemChildren_plain _ n hc).2.2.2.1
    have hnone : findAllChildren e (braced x ++ n) [] = [] := by
      unfold findAllChildren
      rw [List.filter_eq_nil_iff]
      intro c hcm hct
      simp only [Bool.and_eq_true, beq_iff_eq] at hct
      refine hn (hmem n (textIn c.text) ?_)
      unfold docCalls
      refine List.mem_append_right _ (List.mem_flatMap.2 ⟨c, hcm, ?_⟩)
      unfold childCalls
      rw [hct.1, hstrip]
      simp [hc]
    refine ⟨addChild e (updateElem (Elem.new (braced x ++ n)) (some val) [])
      ((itemChildren env.ver).map (fun i => braced x ++ i)), ?_, ?_, by simp, by simp [Elem.get], ?_, ?_⟩
    · unfold setOrMakeChild findChild; rw [hnone]; rfl
    · unfold docCalls
      have hcall : childCalls env (updateElem (Elem.new (braced x ++ n)) (some val) []) =
          [(n, .str val)] := by
        simp only [updateElem, Elem.new, Elem.setText, List.foldl_nil, childCalls, Elem.tag,
          Elem.text, Elem.attrib, hstrip, hc, not_true, if_false, textIn, List.map_nil]
      have hp := (addChild_children_perm e (updateElem (Elem.new (braced x ++ n)) (some val) [])
        ((itemChildren env.ver).map (fun i => braced x ++ i))).flatMap_right (childCalls env)
      rw [List.flatMap_cons, hcall] at hp
      have ha : attribCalls env.ver (addChild e (updateElem (Elem.new (braced x ++ n)) (some val) [])
        ((itemChildren env.ver).map (fun i => braced x ++ i))) = attribCalls env.ver e := by
        simp [attribCalls]
      rw [ha]
      refine (List.Perm.append_left _ hp).trans ?_
      refine List.Perm.trans ?_ (List.Perm.append_right _ hI)
      unfold docCalls
      rw [List.append_assoc]
      refine List.Perm.append_left _ ?_
      exact List.perm_append_comm (l₁ := [(n, InVal.str val)])
    · intro c hcm
      exact (addChild_children_perm e _ _).mem_iff.2 (List.mem_cons_of_mem _ hcm)
    · intro _
      exact ⟨_, (addChild_children_perm e _ _).mem_iff.2 List.mem_cons_self, rfl, rfl⟩
  cases hw with
  | @child n s h1 h2 =>
    obtain ⟨m1, m2, m3, -⟩ := itemChildren_plain _ n h1
    unfold emitProp
    simp only [m1, m2, m3]
    exact hchild h1 _
  | @subtype l h =>
    obtain ⟨m1, m2, m3, -⟩ := itemChildren_plain _ _ (resourceSubType_mem env.ver)
    unfold emitProp
    simp only [m1, m2, m3]
    exact hchild (resourceSubType_mem env.ver) _
  | @attr a s h1 h2 =>
    unfold emitProp
    simp only [matchLast_suffix attribKeySuffix a (by decide) h1 (by decide)]
    have ha : a ∉ dkeys e.attrib := by
      intro h
      obtain ⟨⟨k, w⟩, hk, rfl⟩ := List.mem_map.1 h
      refine hn (hmem (k ++ attribKeySuffix) (.str w) ?_)
      unfold docCalls attribCalls
      refine List.mem_append_left _ (List.mem_map.2 ⟨(k, w), List.mem_filter.2 ⟨hk, ?_⟩, rfl⟩)
      simpa using h2
    refine ⟨_, rfl, ?_, by simp, ?_, by simp, fun h => absurd h (attr_not_child env.ver a)⟩
    · refine List.Perm.trans ?_ (List.Perm.append_right _ hI)
      unfold docCalls attribCalls
      rw [set_attrib, dset_of_not_mem ha, set_children, List.filter_append, List.map_append,
        List.append_assoc, List.append_assoc]
      refine List.Perm.append_left _ ?_
      refine List.perm_append_comm.trans ?_
      simp [h2]
    · simp only [Elem.get, set_attrib]
      rw [dget?_dset, if_neg h2]
  | @custom s c h1 h2 h3 h4 h5 h6 =>
    have hnl : '\n' ∉ strip s ++ elementKeySuffix := by
      simp only [List.mem_append, not_or]; exact ⟨h4, by decide⟩
    unfold emitProp
    simp only [matchLast_none_of attribKeySuffix _ (by decide) hnl h5,
      matchLast_none_of childAttribInfix _ (by decide) hnl h6,
      matchLast_suffix elementKeySuffix _ (by decide) h4 (by decide)]
    have hne := custom_ne_rst (strip s)
    have ho : outStr env (strip s ++ elementKeySuffix) (.str s) = s := by
      simp [outStr, hne, Env.valStr]
    rw [ho, h1]
    refine ⟨_, rfl, ?_, by simp, by simp [Elem.get], fun c hc => by simp [hc],
      fun h => absurd h (custom_not_child env.ver _)⟩
    refine List.Perm.trans ?_ (List.Perm.append_right _ hI)
    unfold docCalls
    have hcall : childCalls env c = [(strip s ++ elementKeySuffix, .str s)] := by
      simp [childCalls, h3, h2]
    simp [attribCalls, hcall]

end Cot
