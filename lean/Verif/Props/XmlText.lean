import Verif.Lemmas.XmlNames
import Verif.Props.Xml
/-
C119: the descriptor that is written can be read, and says the same.
-/
namespace Cot

theorem elem_eta (e : Elem) : e = .mk e.tag e.attrib e.text e.tail e.children := by cases e; rfl

/-- **C119 (tree).** Every tree that XML can hold (names that are names, texts of allowed characters and without carriage returns) is
written without error, and what `ET.parse` makes of the text is the same tree: same tags, attributes in the same order, texts
and children; only that an empty text is no text.  (What follows the root is not part of a document.) -/
theorem C119_tree_partial {py : EtVer} {reg : List (Str × Str)} (hp : GoodPrefixes reg) {root : Elem} (hw : XmlWritable py root)
    (ht : ∀ c ∈ root.tail.getD [], xmlWs c = true) :
    ∃ s, treeText py reg root = .ok s ∧ parseXml s = some (readBack (root.setTail none)) := by
  cases root with
  | mk tag attrib text tail cs => exact treeText_read hp hw (List.all_eq_true.2 ht)

theorem nlIndent_chars (d : Nat) : ∀ c ∈ nlIndent d, c = '\n' ∨ c = ' ' := by
  intro c hc
  unfold nlIndent at hc
  rcases List.mem_cons.1 hc with h | h
  · exact Or.inl h
  · exact Or.inr (List.eq_of_mem_replicate h)

theorem nlIndent_data (d : Nat) : DataText (nlIndent d) := by
  intro c hc
  rcases nlIndent_chars d c hc with rfl | rfl <;> decide +kernel

theorem nlIndent_ne (d : Nat) : nlIndent d ≠ [] := by unfold nlIndent; simp

theorem writable_setTail {py : EtVer} {e : Elem} {t : Option Str} (h : XmlWritable py e) (ht : DataText (t.getD [])) :
    XmlWritable py (e.setTail t) := by
  cases e
  simp only [Elem.setTail, XmlWritable] at h ⊢
  exact ⟨h.1, h.2.1, h.2.2.1, h.2.2.2.1, ht, h.2.2.2.2.2⟩

mutual
theorem writable_reindent {py : EtVer} : ∀ (e : Elem) (d : Nat), XmlWritable py e → XmlWritable py (reindent e d)
  | .mk t a x l [], d, h => by simpa [reindent, reindentList] using h
  | .mk t a x l (c :: cs), d, h => by
    simp only [XmlWritable] at h
    have hk := writable_reindentL (c :: cs) (d + 2) h.2.2.2.2.2
    rw [reindent]
    simp only [XmlWritable]
    refine ⟨h.1, h.2.1, h.2.2.1, nlIndent_data _, ?_, hk⟩
    split
    · exact nlIndent_data _
    · exact h.2.2.2.2.1
theorem writable_reindentL {py : EtVer} : ∀ (cs : List Elem) (d : Nat), XmlWritableL py cs → XmlWritableL py (reindentList cs d)
  | [], d, _ => by simp [reindentList, XmlWritableL]
  | [e], d, h => by
    simp only [XmlWritableL, and_true] at h
    simp only [reindentList, XmlWritableL, and_true]
    exact writable_setTail (writable_reindent e d h) (nlIndent_data _)
  | e :: f :: t, d, h => by
    simp only [XmlWritableL] at h
    rw [reindentList]
    simp only [XmlWritableL]
    exact ⟨writable_setTail (writable_reindent e d h.1) (nlIndent_data _), writable_reindentL (f :: t) d (by simp only [XmlWritableL]; exact h.2)⟩
end

theorem asRead_getD (t : Option Str) : (asRead t).getD [] = t.getD [] := by
  rw [asRead_eq]; split <;> simp_all

theorem readBackL_nil {cs : List Elem} : readBackL cs = [] ↔ cs = [] := by cases cs <;> simp [readBackL]

mutual
theorem same_readBack : ∀ (a e : Elem), SameElements a e → SameContent a (readBack e)
  | .mk t x y z cs, .mk t' x' y' z' cs', h => by
    simp only [SameElements] at h
    simp only [readBack, SameContent]
    exact ⟨h.1, h.2.1, fun hc => by rw [h.2.2.1 hc], same_readBackL cs cs' h.2.2.2⟩
theorem same_readBackL : ∀ (a e : List Elem), SameElementsL a e → SameContentL a (readBackL e)
  | [], [], _ => by simp [readBackL, SameContentL]
  | [], _ :: _, h => by simp [SameElementsL] at h
  | _ :: _, [], h => by simp [SameElementsL] at h
  | a :: as, e :: es, h => by
    simp only [SameElementsL] at h
    simp only [readBackL, SameContentL]
    exact ⟨same_readBack a e h.1, same_readBackL as es h.2⟩
end

theorem reindent_tail {e : Elem} (ht : ∀ c ∈ e.tail.getD [], xmlWs c = true) :
    ∀ c ∈ (reindent e 0).tail.getD [], xmlWs c = true := by
  cases e with
  | mk t a x l cs =>
    cases cs with
    | nil => simpa [reindent, Elem.tail] using ht
    | cons c cs =>
      rw [reindent]
      intro c hc
      rcases nlIndent_chars 0 c hc with rfl | rfl <;> decide +kernel

/-- **C119 (saved).** A descriptor that XML can hold is saved without error, and the text saved, when read again, has the same
elements with the same attributes in the same order, and the same texts in elements without children. -/
theorem C119_saved_partial {py : EtVer} {reg : List (Str × Str)} (hp : GoodPrefixes reg) {root : Elem} (hw : XmlWritable py root)
    (ht : ∀ c ∈ root.tail.getD [], xmlWs c = true) :
    ∃ s t, writeXml py reg root = .ok s ∧ parseXml s = some t ∧ SameContent root t := by
  obtain ⟨s, h1, h2⟩ := C119_tree_partial hp (writable_reindent root 0 hw) (reindent_tail ht)
  exact ⟨s, _, h1, h2, same_readBack _ _ ((sameElements_setTail _ _ _).2 (reindent_sameElements root 0))⟩

mutual
theorem readBack_names : ∀ e : Elem, (readBack e).names = e.names
  | .mk t a x l cs => by simp only [readBack, Elem.names, readBack_namesL cs]
theorem readBack_namesL : ∀ cs : List Elem, Elem.namesL (readBackL cs) = Elem.namesL cs
  | [] => rfl
  | e :: r => by simp only [readBackL, Elem.namesL, readBack_names e, readBack_namesL r]
end

mutual
theorem readBack_ser {py : EtVer} {qn : Str → Str} : ∀ (e : Elem) (d : List (Str × Str)), serElem py qn d (readBack e) = serElem py qn d e
  | .mk t a x l cs, d => by
    simp only [readBack, serElem, asRead_getD, readBack_sers cs, ne_eq, readBackL_nil]
theorem readBack_sers {py : EtVer} {qn : Str → Str} : ∀ cs : List Elem, serElems py qn (readBackL cs) = serElems py qn cs
  | [] => rfl
  | e :: r => by simp only [readBackL, serElems, readBack_ser e, readBack_sers r]
end

theorem readBack_text {py : EtVer} {reg : List (Str × Str)} (e : Elem) : treeText py reg (readBack e) = treeText py reg e := by
  unfold treeText collectNames
  rw [readBack_names]
  simp only [readBack_ser]

theorem asRead_some {s : Str} (h : s ≠ []) : asRead (some s) = some s := by
  rw [asRead_eq]; simp [h]

theorem readBack_setTail {e : Elem} {s : Str} (h : s ≠ []) : readBack (e.setTail (some s)) = (readBack e).setTail (some s) := by
  cases e; simp only [Elem.setTail, readBack, asRead_some h]

mutual
theorem reindent_readBack : ∀ (e : Elem) (d : Nat), reindent (readBack e) d = readBack (reindent e d)
  | .mk t a x l [], d => by simp [reindent, reindentList, readBack, readBackL]
  | .mk t a x l (c :: cs), d => by
    have hk := reindentL_readBack (c :: cs) (d + 2)
    rw [readBackL] at hk
    rw [readBack, readBackL, reindent, reindent]
    rw [hk, readBack, asRead_some (nlIndent_ne _)]
    by_cases hd : d = 0
    · rw [if_pos hd, if_pos hd, asRead_some (nlIndent_ne _)]
    · rw [if_neg hd, if_neg hd]
theorem reindentL_readBack : ∀ (cs : List Elem) (d : Nat), reindentList (readBackL cs) d = readBackL (reindentList cs d)
  | [], d => by simp [reindentList, readBackL]
  | [e], d => by
    simp only [reindentList, readBackL]
    rw [reindent_readBack e d, readBack_setTail (nlIndent_ne _)]
  | e :: f :: t, d => by
    have hk := reindentL_readBack (f :: t) d
    rw [readBackL, readBackL, reindentList, reindentList]
    rw [readBackL] at hk
    rw [hk, readBackL, reindent_readBack e d, readBack_setTail (nlIndent_ne _)]
end

/-- **C119 (stable).** Saving a descriptor again after reading what was saved gives exactly the same text. -/
theorem C119_stable_partial {py : EtVer} {reg : List (Str × Str)} (hp : GoodPrefixes reg) {root : Elem} (hw : XmlWritable py root)
    (ht : ∀ c ∈ root.tail.getD [], xmlWs c = true) (hc : root.children ≠ []) {s : Str} {t : Elem} (h : writeXml py reg root = .ok s)
    (hr : parseXml s = some t) : writeXml py reg t = .ok s := by
  obtain ⟨s', h1, h2⟩ := C119_tree_partial hp (writable_reindent root 0 hw) (reindent_tail ht)
  have hs : s' = s := by
    have := h1.symm.trans h
    injection this
  subst hs
  rw [hr] at h2
  cases Option.some.inj h2
  unfold writeXml
  rw [reindent_readBack, readBack_text, ← h1]
  congr 1
  cases root with
  | mk tg a x l cs =>
    cases cs with
    | nil => exact absurd rfl hc
    | cons c cs =>
      have hi := reindent_idem (.mk tg a x l (c :: cs)) 0
      generalize hR : reindent (.mk tg a x l (c :: cs)) 0 = R at hi ⊢
      cases R with
      | mk tg' a' x' l' cs' =>
        cases cs' with
        | nil =>
          rw [reindent] at hR
          injection hR with _ _ _ _ h5
          exact absurd (reindentList_nil_iff.1 h5) (by simp)
        | cons c' cs' =>
          rw [reindent] at hi
          rw [Elem.setTail, reindent]
          exact hi

/-! ### Prefixes -/

theorem etDefault_good : GoodPrefixes etDefault := by
  refine ⟨by decide +kernel, by decide +kernel, ?_, by decide +kernel, by decide +kernel⟩
  unfold XmlName
  decide +kernel

theorem keep_ne {a b u p : Str} (h1 : a ≠ u) (h2 : b ≠ p) : (!(decide (a = u) || decide (b = p))) = true := by
  simp [h1, h2]

theorem register_spec {reg : List (Str × Str)} (g : GoodPrefixes reg) {p u : Str} (hp : XmlName p) (hn : nsNumber p = false)
    (hx : p ≠ "xmlns".toList) (hm : p ≠ "xml".toList) (hu : u ≠ xmlUri) :
    ∃ reg', registerNs reg p u = .ok reg' ∧ GoodPrefixes reg' ∧ dget? reg' u = some p ∧
      ∀ u' p', u' ≠ u → p' ≠ p → dget? reg u' = some p' → dget? reg' u' = some p' := by
  have hun : u ∉ dkeys (reg.filter (fun kv => !(decide (kv.1 = u) || decide (kv.2 = p)))) := by
    intro h
    obtain ⟨x, h1, h2⟩ := List.mem_map.1 h
    have := (List.mem_filter.1 h1).2
    simp [h2] at this
  have hpn : ∀ x ∈ reg.filter (fun kv => !(decide (kv.1 = u) || decide (kv.2 = p))), x ∈ reg ∧ x.1 ≠ u ∧ x.2 ≠ p := by
    intro x hx
    have h := List.mem_filter.1 hx
    simp only [Bool.not_eq_true', Bool.or_eq_false_iff, decide_eq_false_iff_not] at h
    exact ⟨h.1, h.2.1, h.2.2⟩
  refine ⟨_, by unfold registerNs; rw [hn, if_neg (by decide), dset_append hun], ?_, ?_, ?_⟩
  · refine ⟨?_, ?_, ?_, ?_, ?_⟩
    · rw [List.map_append, List.nodup_append]
      refine ⟨g.uris.sublist (List.filter_sublist.map _), by simp, ?_⟩
      intro a ha b hb e
      obtain ⟨x, h1, rfl⟩ := List.mem_map.1 ha
      simp only [List.map_cons, List.map_nil, List.mem_singleton] at hb
      exact (hpn x h1).2.1 (e.trans hb)
    · rw [List.map_append, List.nodup_append]
      refine ⟨g.prefixes.sublist (List.filter_sublist.map _), by simp, ?_⟩
      intro a ha b hb e
      obtain ⟨x, h1, rfl⟩ := List.mem_map.1 ha
      simp only [List.map_cons, List.map_nil, List.mem_singleton] at hb
      exact (hpn x h1).2.2 (e.trans hb)
    · intro x hx'
      rcases List.mem_append.1 hx' with h | h
      · exact g.names x (hpn x h).1
      · simp only [List.mem_singleton] at h; subst h; exact ⟨hp, hn, hx⟩
    · intro x hx'
      rcases List.mem_append.1 hx' with h | h
      · exact g.xml x (hpn x h).1
      · simp only [List.mem_singleton] at h; subst h
        exact ⟨fun e => absurd e hu, fun e => absurd e hm⟩
    · refine List.mem_append_left _ (List.mem_filter.2 ⟨g.hasXml, ?_⟩)
      exact keep_ne (Ne.symm hu) (Ne.symm hm)
  · rw [← dset_append hun, dget?_dset, if_pos rfl]
  · intro u' p' h1 h2 h3
    rw [← dset_append hun, dget?_dset, if_neg (Ne.symm h1)]
    refine dget?_of_mem (g.uris.sublist (List.filter_sublist.map _)) (List.mem_filter.2 ⟨dget?_mem h3, ?_⟩)
    exact keep_ne h1 h2

theorem registers_spec : ∀ (l : List (Str × Str)) {reg : List (Str × Str)}, GoodPrefixes reg → (l.map Prod.fst).Nodup → (l.map Prod.snd).Nodup →
    (∀ pu ∈ l, XmlName pu.1 ∧ nsNumber pu.1 = false ∧ pu.1 ≠ "xmlns".toList ∧ pu.1 ≠ "xml".toList ∧ pu.2 ≠ xmlUri) →
    ∃ reg', l.foldlM (fun r pu => registerNs r pu.1 pu.2) reg = .ok reg' ∧ GoodPrefixes reg' ∧
      (∀ pu ∈ l, dget? reg' pu.2 = some pu.1) ∧
      ∀ u' p', u' ∉ l.map Prod.snd → p' ∉ l.map Prod.fst → dget? reg u' = some p' → dget? reg' u' = some p'
  | [], reg, g, _, _, _ => ⟨reg, rfl, g, by simp, fun _ _ _ _ h => h⟩
  | (p, u) :: l, reg, g, h1, h2, h3 => by
    simp only [List.map_cons, List.nodup_cons] at h1 h2
    obtain ⟨a1, a2, a3, a4, a5⟩ := h3 (p, u) (List.mem_cons_self ..)
    obtain ⟨r1, e1, g1, k1, m1⟩ := register_spec g a1 a2 a3 a4 a5
    obtain ⟨r2, e2, g2, k2, m2⟩ := registers_spec l g1 h1.2 h2.2 (fun x hx => h3 x (List.mem_cons_of_mem _ hx))
    refine ⟨r2, ?_, g2, ?_, ?_⟩
    · rw [List.foldlM_cons]; dsimp only; rw [e1]; exact e2
    · intro x hx
      rcases List.mem_cons.1 hx with rfl | hx
      · exact m2 _ _ h2.1 h1.1 k1
      · exact k2 x hx
    · intro u' p' b1 b2 b3
      simp only [List.map_cons, List.mem_cons, not_or] at b1 b2
      exact m2 u' p' b1.2 b2.2 (m1 u' p' b1.1 b2.1 b3)

theorem openPrefixes_facts (v : Ver) : ((openPrefixes v).map Prod.fst).Nodup ∧ ((openPrefixes v).map Prod.snd).Nodup ∧
    (∀ pu ∈ openPrefixes v, XmlName pu.1 ∧ nsNumber pu.1 = false ∧ pu.1 ≠ "xmlns".toList ∧ pu.1 ≠ "xml".toList ∧ pu.2 ≠ xmlUri) := by
  unfold XmlName
  cases v <;> decide +kernel

/-- **C119 (prefixes).** However many descriptors, of whatever versions, have been opened: the prefixes for namespaces fit together
(so that C119_tree_partial applies), and the namespaces of the descriptor opened last have the usual prefixes. -/
theorem C119_prefixes (vs : List Ver) : ∃ reg, vs.foldlM registerAll etDefault = .ok reg ∧ GoodPrefixes reg ∧
    ∀ v, vs.getLast? = some v → ∀ pu ∈ openPrefixes v, dget? reg pu.2 = some pu.1 := by
  have main : ∀ (vs : List Ver) (reg : List (Str × Str)), GoodPrefixes reg →
      ∃ reg', vs.foldlM registerAll reg = .ok reg' ∧ GoodPrefixes reg' ∧
        ∀ v, vs.getLast? = some v → ∀ pu ∈ openPrefixes v, dget? reg' pu.2 = some pu.1 := by
    intro vs
    induction vs with
    | nil => intro reg g; exact ⟨reg, rfl, g, by simp⟩
    | cons v vs ih =>
      intro reg g
      obtain ⟨f1, f2, f3⟩ := openPrefixes_facts v
      obtain ⟨r1, e1, g1, k1, -⟩ := registers_spec (openPrefixes v) g f1 f2 f3
      obtain ⟨r2, e2, g2, k2⟩ := ih r1 g1
      refine ⟨r2, ?_, g2, ?_⟩
      · rw [List.foldlM_cons]; show (registerAll reg v).bind _ = _; unfold registerAll; rw [e1]; exact e2
      · intro w hw
        cases vs with
        | nil =>
          cases e2
          simp only [List.getLast?_singleton, Option.some.injEq] at hw
          subst hw
          exact k1
        | cons v' vs => exact k2 w (by simpa using hw)
  exact main vs etDefault etDefault_good

theorem reindent_tag (e : Elem) (d : Nat) : (reindent e d).tag = e.tag := by
  cases e with
  | mk t a x l cs => cases cs <;> rw [reindent] <;> rfl

/-- **C119 (names).** What is saved begins with the root element, under the prefix that its namespace has. -/
theorem C119_names {py : EtVer} {reg : List (Str × Str)} (hp : GoodPrefixes reg) {root : Elem} (hw : XmlWritable py root) {u l p : Str}
    (htag : root.tag = '{' :: u ++ '}' :: l) (hl : XmlName l) (hr : dget? reg u = some p) {s : Str} (h : writeXml py reg root = .ok s) :
    ("<?xml version='1.0' encoding='utf-8'?>\n<".toList ++ p ++ ":".toList ++ l) <+: s := by
  have hw' := writable_reindent root 0 hw
  have htag' := (reindent_tag root 0).trans htag
  unfold writeXml at h
  cases hR : reindent root 0 with
  | mk tag attrib text tail cs =>
    rw [hR] at hw' htag' h
    obtain ⟨t, e1, hi, hm, -⟩ := collect_spec hp (Elem.mk tag attrib text tail cs).names ⟨[], []⟩ (tabInv_empty py reg)
      (writable_names _ hw')
    unfold treeText collectNames at h
    rw [e1] at h
    injection h with h
    obtain ⟨w, hwq⟩ := dget?_of_mem_dkeys (hm tag (by simp [Elem.names]))
    have hwr : t.written tag = w := by unfold NsTab.written; rw [hwq]; rfl
    have hwe : w = p ++ ':' :: l := by
      rcases hi.written tag w hwq with ⟨h1, -, -⟩ | ⟨u', l', p', hu, hl', h1, h2, h3, -⟩
      · have hc := h1.2.1 '{' (by rw [show tag = _ from htag']; simp)
        exact absurd hc (by decide +kernel)
      · have hs := splitQname_full (u := u) hl
        rw [show '{' :: u ++ '}' :: l = '{' :: u' ++ '}' :: l' from htag'.symm.trans h1, splitQname_full hl'] at hs
        injection hs with hs
        injection hs with hs
        injection hs with hs1 hs2
        subst hs1; subst hs2
        rw [h2]
        congr 1
        rcases h3 with h3 | ⟨rfl, rfl⟩
        · rcases (hi.chosen _ _ h3).1 with h4 | ⟨h4, -⟩
          · exact Option.some.inj (h4.symm.trans hr)
          · rw [hr] at h4; cases h4
        · exact Option.some.inj (hp.get.symm.trans hr)
    rw [← h, serElem, hwr, hwe, show "<?xml version='1.0' encoding='utf-8'?>\n<".toList = "<?xml version='1.0' encoding='utf-8'?>\n".toList ++ ['<'] by decide +kernel]
    generalize "<?xml version='1.0' encoding='utf-8'?>\n".toList = hd
    simp only [List.append_assoc]
    refine List.prefix_append_right_inj _ |>.2 ?_
    exact ⟨_, by simp [List.append_assoc]; rfl⟩

/-! ### Examples -/

/-- a small descriptor: names in namespaces, attributes with and without, texts with characters that must be escaped -/
def exDoc : Elem :=
  .mk "{http://schemas.dmtf.org/ovf/envelope/1}Envelope".toList [("{http://www.w3.org/XML/1998/namespace}lang".toList, "en-US".toList)] (some "\n  ".toList) none
    [.mk "{http://schemas.dmtf.org/ovf/envelope/1}Info".toList [("{urn:x}note".toList, "a\"<b>\n".toList), ("plain".toList, [])] (some "R&D ]]>".toList) (some "\n".toList) [],
     .mk "{http://schemas.dmtf.org/ovf/envelope/1}Empty".toList [] (some []) none []]

theorem good_plain {py : EtVer} {q : Str}
    (h : (properName q && q.all nameChar && !q.elem ':' && !decide (q = "xmlns".toList)) = true) : XmlQName py q := by
  simp only [Bool.and_eq_true, List.all_eq_true, Bool.not_eq_true', List.elem_eq_mem, decide_eq_false_iff_not] at h
  exact Or.inl ⟨⟨h.1.1.1, h.1.1.2, h.1.2⟩, h.2⟩

theorem good_in {py : EtVer} (u l : Str)
    (h1 : (!u.isEmpty && !u.elem '}' && !decide (u = "http://www.w3.org/2000/xmlns/".toList) && u.all (fun c => xmlChar c && !decide (c = '\t') && !decide (c = '\r'))) = true)
    (h2 : (properName l && l.all nameChar && !l.elem ':') = true) : XmlQName py ('{' :: u ++ '}' :: l) := by
  simp only [Bool.and_eq_true, List.all_eq_true, Bool.not_eq_true', List.elem_eq_mem, decide_eq_false_iff_not, List.isEmpty_eq_false_iff] at h1 h2
  exact Or.inr ⟨u, l, ⟨h1.1.1.1, h1.1.1.2, h1.1.2, fun c hc => ⟨(h1.2 c hc).1.1, fun _ => ⟨(h1.2 c hc).1.2, (h1.2 c hc).2⟩⟩⟩,
    ⟨h2.1.1, h2.1.2, h2.2⟩, rfl⟩

theorem exDoc_writable : XmlWritable .py3 exDoc := by
  unfold exDoc XmlWritable XmlWritableL XmlWritable XmlWritableL XmlWritable XmlWritableL
  refine ⟨good_in "http://schemas.dmtf.org/ovf/envelope/1".toList "Envelope".toList (by decide +kernel) (by decide +kernel), ?_, by decide +kernel,
    by unfold DataText; decide +kernel, by unfold DataText; decide +kernel,
    ⟨good_in "http://schemas.dmtf.org/ovf/envelope/1".toList "Info".toList (by decide +kernel) (by decide +kernel), ?_, by decide +kernel,
      by unfold DataText; decide +kernel, by unfold DataText; decide +kernel, trivial⟩,
    ⟨good_in "http://schemas.dmtf.org/ovf/envelope/1".toList "Empty".toList (by decide +kernel) (by decide +kernel), by simp, by decide +kernel,
      by unfold DataText; decide +kernel, by unfold DataText; decide +kernel, trivial⟩, trivial⟩
  · intro kv h
    cases List.mem_singleton.1 h
    exact ⟨good_in "http://www.w3.org/XML/1998/namespace".toList "lang".toList (by decide +kernel) (by decide +kernel), by unfold AttrText; decide +kernel⟩
  · intro kv h
    rcases List.mem_cons.1 h with rfl | h
    · exact ⟨good_in "urn:x".toList "note".toList (by decide +kernel) (by decide +kernel), by unfold AttrText; decide +kernel⟩
    · cases List.mem_singleton.1 h
      exact ⟨good_plain (by decide +kernel), by unfold AttrText; decide +kernel⟩

/-- the hypotheses of C119_tree_partial, C119_saved_partial and C119_stable_partial are met by it, after a version 1 and a version 2 descriptor were opened -/
example : ∃ reg, [Ver.v2, Ver.v1].foldlM registerAll etDefault = .ok reg ∧ GoodPrefixes reg ∧
    ∃ s t, writeXml .py3 reg exDoc = .ok s ∧ parseXml s = some t ∧ SameContent exDoc t ∧ writeXml .py3 reg t = .ok s := by
  obtain ⟨reg, h1, h2, -⟩ := C119_prefixes [Ver.v2, Ver.v1]
  obtain ⟨s, t, h3, h4, h5⟩ := C119_saved_partial h2 exDoc_writable (by simp [exDoc, Elem.tail])
  exact ⟨reg, h1, h2, s, t, h3, h4, h5, C119_stable_partial h2 exDoc_writable (by simp [exDoc, Elem.tail]) (by simp [exDoc, Elem.children]) h3 h4⟩

/-- and what is written for it -/
example : ([Ver.v2, Ver.v1].foldlM registerAll etDefault >>= fun reg => writeXml .py3 reg exDoc) = .ok (
    "<?xml version='1.0' encoding='utf-8'?>\n<ovf:Envelope xmlns:ns1=\"urn:x\" xmlns:ovf=\"http://schemas.dmtf.org/ovf/envelope/1\" xml:lang=\"en-US\">\n  <ovf:Info ns1:note=\"a&quot;&lt;b&gt;&#10;\" plain=\"\">R&amp;D ]]&gt;</ovf:Info>\n  <ovf:Empty />\n</ovf:Envelope>\n").toList := by
  decide +kernel

/-! ### What is not kept -/

def exLeaf (a : List (Str × Str)) (x : Str) : Elem := .mk "Info".toList a (some x) none []

theorem read_some {s : Str} {α : Type} {f : Elem → α} {v : α} (h : (parseXml s).map f = some v) : ∃ t, parseXml s = some t ∧ f t = v :=
  Option.map_eq_some_iff.1 h

/-- **C119 (carriage returns, refuted).** A text with a carriage return is written as it is; what is read has a line feed instead. -/
theorem C119_carriage_return_fails : ∃ (root : Elem) (s : Str) (t : Elem), writeXml .py3 etDefault root = .ok s ∧ parseXml s = some t ∧
    root.text = some "a\rb".toList ∧ t.text = some "a\nb".toList := by
  obtain ⟨t, h1, h2⟩ := read_some (s := "<?xml version='1.0' encoding='utf-8'?>\n<Info>a\rb</Info>".toList) (f := Elem.text)
    (v := some "a\nb".toList) (by decide +kernel)
  exact ⟨exLeaf [] "a\rb".toList, _, t, by decide +kernel, h1, rfl, h2⟩

/-- **C119 (control characters, refuted).** A text with a control character is written without complaint; what is written cannot be
read any more. -/
theorem C119_control_fails : ∃ (root : Elem) (s : Str), writeXml .py3 etDefault root = .ok s ∧ parseXml s = none :=
  ⟨exLeaf [] "\x07".toList, "<?xml version='1.0' encoding='utf-8'?>\n<Info>\x07</Info>".toList, by decide +kernel,
    Option.isNone_iff_eq_none.1 (by decide +kernel)⟩

/-- **C119 (tabs, refuted).** On Python 2.7 a tab in an attribute is read back as a blank. -/
theorem C119_tab_fails : ∃ (root : Elem) (s : Str) (t : Elem), writeXml .py27 etDefault root = .ok s ∧ parseXml s = some t ∧
    root.attrib = [("value".toList, "a\tb".toList)] ∧ t.attrib = [("value".toList, "a b".toList)] := by
  obtain ⟨t, h1, h2⟩ := read_some (s := "<?xml version='1.0' encoding='utf-8'?>\n<Info value=\"a\tb\">x</Info>".toList) (f := Elem.attrib)
    (v := [("value".toList, "a b".toList)]) (by decide +kernel)
  exact ⟨exLeaf [("value".toList, "a\tb".toList)] "x".toList, _, t, by decide +kernel, h1, rfl, h2⟩

/-- **C119 (comments, refuted).** A comment in the descriptor is gone after reading and saving it. -/
theorem C119_comment_fails : ∃ (s s' : Str) (t : Elem), parseXml s = some t ∧ writeXml .py3 etDefault t = .ok s' ∧
    "<!--".toList <:+: s ∧ ¬ "<!--".toList <:+: s' := by
  obtain ⟨t, h1, h2⟩ := read_some (s := "<Envelope><!-- do not edit --><Info>x</Info></Envelope>".toList) (f := writeXml .py3 etDefault)
    (v := .ok "<?xml version='1.0' encoding='utf-8'?>\n<Envelope>\n  <Info>x</Info>\n</Envelope>\n".toList) (by decide +kernel)
  exact ⟨_, _, t, h1, h2, by decide +kernel, by decide +kernel⟩

end Cot
