import Verif.Lemmas.RoundTripOk
import Verif.Props.Partition
/-
C08 and C09: writing an item out as Item elements (COT/vm_description/ovf/item.py:761-823) and reading
the elements back (item.py:207-278, hardware.py:65-93).
-/
namespace Cot

/-- The named profiles mentioned by the item are non-empty words without white space, as XML ids are. -/
def GoodProfiles (it : Item) : Prop := ∀ S, Stored it S → ∀ s, some s ∈ S → GoodName s

/-- what is needed of the list of set strings -/
theorem setStrings_facts {env : Env} (o : Orders) {it : Item} (wf : ItemWF env it)
    (hgood : GoodProfiles it) :
    (∀ s ∈ it.setStrings o, stringSet s ≠ ∅) ∧
    (∀ s ∈ it.setStrings o, ∀ p ∈ stringSet s, ∀ q ∈ stringSet s, ∀ S ∈ it.storedSets, p ∈ S ↔ q ∈ S) ∧
    ((it.setStrings o).map stringSet).Pairwise (fun a b => a ∩ b = ∅) ∧
    (∀ p, (∃ g ∈ (it.setStrings o).map stringSet, p ∈ g) ↔ ∃ S ∈ it.storedSets, p ∈ S) ∧
    (∀ g ∈ (it.setStrings o).map stringSet, none ∈ g → g = {none}) := by
  obtain ⟨hp, -, -⟩ := C07_group_strings o it wf.tabs hgood
  have h := setList_classes o it
  have hmem : ∀ s ∈ it.setStrings o, stringSet s ∈ it.setList o := fun s hs =>
    hp.mem_iff.1 (List.mem_map.2 ⟨s, hs, rfl⟩)
  refine ⟨fun s hs => h.nonempty _ (hmem s hs), fun s hs p hp q hq => (h.cls _ (hmem s hs) p hp q).1 hq,
    ?_, ?_, ?_⟩
  · refine (hp.pairwise_iff ?_).2 h.disjoint
    intro a b hab; rw [Finset.inter_comm]; exact hab
  · intro p
    rw [← h.cover p]
    constructor <;> rintro ⟨g, hg, hpg⟩
    · exact ⟨g, hp.mem_iff.1 hg, hpg⟩
    · exact ⟨g, hp.mem_iff.2 hg, hpg⟩
  · intro g hg hn
    refine h.dflt ?_ (hp.mem_iff.1 hg) hn
    intro S hS hn
    obtain ⟨n, t, v, h1, h2⟩ := mem_storedSets.1 hS
    exact (wf.tabs n t h1).dflt v S h2 hn

theorem setStrings_split {env : Env} (o : Orders) {it : Item} (wf : ItemWF env it)
    (hgood : GoodProfiles it) : (∀ s ∈ it.setStrings o, s ≠ []) ∨
      ∃ r, it.setStrings o = [] :: r ∧ ∀ s ∈ r, s ≠ [] := by
  obtain ⟨-, hnd, hsort⟩ := C07_group_strings o it wf.tabs hgood
  by_cases h : [] ∈ it.setStrings o
  · obtain ⟨r, hr⟩ := nil_first hsort h
    right
    refine ⟨r, hr, ?_⟩
    rintro s hs rfl
    rw [hr] at hnd
    exact (List.nodup_cons.1 hnd).1 hs
  · left; rintro s hs rfl; exact h hs

theorem readBack_empty (it : Item) (n : Str) : ReadBack it emptyItem [] n := by
  intro p w
  simp [Explicit, Item.tab, emptyItem]

theorem truthy_of_wf {env : Env} {it : Item} (wf : ItemWF env it) :
    ∀ n v S, (v, S) ∈ it.tab n → v.truthy = true := fun n v S h => (wf.tab n).truthy v S h

/-- **C08.** Whenever the Item elements generated for a consistent item (all of whose values can be
represented in XML) are successfully loaded into a fresh item, every ordinary property reads the same
under every profile as it did in the original, for every set iteration order used in the generation;
and the new item is consistent. -/
theorem C08_roundtrip_preserves {env : Env} {o : Orders} {it it' : Item} {els : List Elem}
    (wf : ItemWF env it) (hgood : GoodProfiles it) (hrep : Representable env it)
    (hgen : it.generateItems env o = .ok els) (hadd : addItems env els emptyItem = .ok it') :
    ItemWF env it' ∧
    (∀ n, Plain env n → ∀ p w, Reads (it'.tab n) p w ↔ Reads (it.tab n) p w) ∧
    (∀ n, Plain env n → ∀ P : PSet, P ≠ ∅ → it'.getValue env n (some P) = it.getValue env n (some P)) := by
  have hw := allWritable_of_representable (truthy_of_wf wf) hrep
  unfold Item.generateItems at hgen
  cases htag : itemTagForNamespace env.ver it.ns with
  | error x => rw [htag] at hgen; cases hgen
  | ok tag =>
  rw [htag] at hgen
  simp only at hgen
  obtain ⟨⟨x, hns⟩, -⟩ := itemTag_braced htag
  obtain ⟨f1, f2, f3, f4, f5⟩ := setStrings_facts o wf hgood
  have key : ItemWF env it' ∧ ∀ n, Plain env n →
      ReadBack it it' ((it.setStrings o).map stringSet) n := by
    rcases setStrings_split o wf hgood with hne | ⟨r, hr, hne⟩
    · exact readBack_fold wf hns hw _ els [] emptyItem it' (.empty env) hgen
        (fun s hs => ⟨hne s hs, f1 s hs⟩) f2 (by simpa using f3) (by simp) hadd
        (fun n _ => readBack_empty it n)
    · rw [hr] at hgen f1 f2 f3 ⊢
      obtain ⟨e, es, h1, h2, rfl⟩ := mapE_cons hgen
      obtain ⟨it1, h3, h4⟩ := addItems_cons hadd
      have wf1 : ItemWF env it1 := by
        obtain ⟨_, _, _, _, w, _⟩ := addItem_inv (.empty env) h3; exact w
      have hs0 : stringSet [] = ({none} : PSet) := by simp [stringSet]
      have := readBack_fold wf hns hw r es [{none}] it1 it' wf1 h2
        (fun s hs => ⟨hne s hs, f1 s (List.mem_cons_of_mem _ hs)⟩)
        (fun s hs => f2 s (List.mem_cons_of_mem _ hs))
        (by simpa [hs0] using f3) (by simp) h4
        (fun n hp => readBack_default wf hns hw (.empty env) rfl h1 h3 hp)
      simpa [hs0] using this
  have hreads : ∀ n, Plain env n → ∀ p w, Reads (it'.tab n) p w ↔ Reads (it.tab n) p w :=
    fun n hp p w => reads_of_readBack wf f4 f5 (key.2 n hp) p w
  refine ⟨key.1, hreads, ?_⟩
  intro n hn P hP
  exact getValue_congr key.1 wf hn hP (fun p _ w => hreads n hn p w)

/-- **C08**, success of both directions.  Partial: for items without an ElementName or a Description
(the text of those is a template over the other properties, expanded and re-abbreviated by `re.sub`,
which is a parameter of the model and may fail). -/
theorem C08_roundtrip_succeeds_partial {env : Env} {o : Orders} {it : Item} {tag : Str}
    (wf : ItemWF env it) (hgood : GoodProfiles it) (hrep : Representable env it)
    (hns : itemTagForNamespace env.ver it.ns = .ok tag)
    (hpl : ∀ n ∈ dkeys it.props, Plain env n) :
    ∃ els it', it.generateItems env o = .ok els ∧ addItems env els emptyItem = .ok it' := by
  have hw := allWritable_of_representable (truthy_of_wf wf) hrep
  obtain ⟨⟨x, hnsx⟩, htag⟩ := itemTag_braced hns
  obtain ⟨f1, f2, f3, f4, f5⟩ := setStrings_facts o wf hgood
  have hgen : ∀ s, ∃ e, it.genItem env tag s = .ok e := by
    intro s
    refine genItem_ok wf.names hnsx hw tag s ?_
    intro n hn
    rw [getValue_plain (hpl n hn)]; exact ⟨_, rfl⟩
  obtain ⟨els, hels⟩ := mapE_ok (f := it.genItem env tag) (l := it.setStrings o) (fun s _ => hgen s)
  have hg : it.generateItems env o = .ok els := by
    unfold Item.generateItems; rw [hns]; exact hels
  refine ⟨els, ?_⟩
  suffices ∃ it', addItems env els emptyItem = .ok it' by
    obtain ⟨it', h⟩ := this; exact ⟨it', hg, h⟩
  rcases setStrings_split o wf hgood with hne | ⟨r, hr, hne⟩
  · exact readBack_fold_ok wf hnsx hw hpl htag _ els [] emptyItem (.empty env) hels
      (fun s hs => ⟨hne s hs, f1 s hs⟩) f2 (by simpa using f3) (by simp)
      (fun n _ => readBack_empty it n)
  · rw [hr] at hels f1 f2 f3
    obtain ⟨e, es, h1, h2, rfl⟩ := mapE_cons hels
    obtain ⟨it1, h3⟩ := addDefault_ok wf hnsx hw hpl htag (.empty env) rfl h1
    have wf1 : ItemWF env it1 := by
      obtain ⟨_, _, _, _, w, _⟩ := addItem_inv (.empty env) h3; exact w
    have hs0 : stringSet [] = ({none} : PSet) := by simp [stringSet]
    obtain ⟨it', h4⟩ := readBack_fold_ok wf hnsx hw hpl htag r es [{none}] it1 wf1 h2
      (fun s hs => ⟨hne s hs, f1 s (List.mem_cons_of_mem _ hs)⟩)
      (fun s hs => f2 s (List.mem_cons_of_mem _ hs))
      (by simpa [hs0] using f3) (by simp)
      (fun n hp => readBack_default wf hnsx hw (.empty env) rfl h1 h3 hp)
    refine ⟨it', ?_⟩
    rw [addItems, h3]; exact h4

theorem exItem_good : GoodProfiles exItem := by
  rintro S ⟨n, t, v, h1, h2⟩ s hs
  simp only [exItem, List.mem_cons, Prod.mk.injEq, List.not_mem_nil, or_false] at h1
  rcases h1 with ⟨rfl, rfl⟩ | ⟨rfl, rfl⟩ | ⟨rfl, rfl⟩ <;>
    simp only [List.mem_cons, Prod.mk.injEq, List.not_mem_nil, or_false] at h2
  · obtain ⟨-, rfl⟩ := h2; simp at hs
  · obtain ⟨-, rfl⟩ := h2; simp at hs
  · rcases h2 with ⟨-, rfl⟩ | ⟨-, rfl⟩
    · simp at hs
    · simp [pX] at hs; subst hs; decide

theorem mem_tab {it : Item} {n : Str} {v : Val} {S : PSet} (h : (v, S) ∈ it.tab n) :
    ∃ t, (n, t) ∈ it.props ∧ (v, S) ∈ t := by
  unfold Item.tab at h
  cases hd : dget? it.props n with
  | none => rw [hd] at h; simp at h
  | some t => rw [hd] at h; exact ⟨t, dget?_mem hd, h⟩

theorem exItem_representable : Representable exEnv exItem := by
  intro n v S h
  obtain ⟨t, h1, h2⟩ := mem_tab h
  simp only [exItem, List.mem_cons, Prod.mk.injEq, List.not_mem_nil, or_false] at h1
  rcases h1 with ⟨rfl, rfl⟩ | ⟨rfl, rfl⟩ | ⟨rfl, rfl⟩ <;>
    simp only [List.mem_cons, Prod.mk.injEq, List.not_mem_nil, or_false] at h2
  · obtain ⟨rfl, -⟩ := h2; exact .child (by decide +kernel) (by decide +kernel)
  · obtain ⟨rfl, -⟩ := h2; exact .child (by decide +kernel) (by decide +kernel)
  · rcases h2 with ⟨rfl, -⟩ | ⟨rfl, -⟩ <;> exact .child (by decide +kernel) (by decide +kernel)

/-- non-vacuity of C08: the example item meets all the hypotheses; it is written and read back -/
example (o : Orders) : ∃ els it', exItem.generateItems exEnv o = .ok els ∧
    addItems exEnv els emptyItem = .ok it' ∧
    it'.getValue exEnv virtualQuantity (some {pX}) = .ok (some (.str "4".toList)) ∧
    it'.getValue exEnv virtualQuantity (some {pY}) = .ok (some (.str "1".toList)) := by
  obtain ⟨els, it', h1, h2⟩ := C08_roundtrip_succeeds_partial (o := o) (tag := itemTag .v1) exItem_wf
    exItem_good exItem_representable rfl
    (by intro n hn
        simp only [exItem, dkeys, List.map_cons, List.map_nil, List.mem_cons, List.not_mem_nil,
          or_false] at hn
        rcases hn with rfl | rfl | rfl <;> (constructor <;> decide))
  have h3 := (C08_roundtrip_preserves exItem_wf exItem_good exItem_representable h1 h2).2.2
    virtualQuantity (by constructor <;> decide)
  exact ⟨els, it', h1, h2, by rw [h3 _ (by simp)]; rfl, by rw [h3 _ (by simp)]; rfl⟩

/-! ### C08 fails for attributes of child elements -/

/-- an Item element with an attribute on one of its children -/
def exChildAttr : Elem :=
  .mk (itemTag .v1) [] none none
    [.mk (rasd ++ "InstanceID".toList) [] (some "1".toList) none [],
     .mk (rasd ++ "VirtualQuantity".toList) [("unit".toList, "u".toList)] (some "2".toList) none []]

/-- the item loaded from it -/
def exAttrItem : Item :=
  { props := [("InstanceID".toList, [(.str "1".toList, {none})]),
      ("VirtualQuantity".toList, [(.str "2".toList, {none})]),
      ("VirtualQuantity_attrib_unit".toList, [(.str "u".toList, {none})])],
    ns := rasd, modified := true }

/-- the element generated for it -/
def exAttrOut : Elem :=
  .mk (itemTag .v1) [] none none
    [.mk (rasd ++ "InstanceID".toList) [] (some "1".toList) none [],
     .mk (rasd ++ "VirtualQuantity".toList) [] (some "2".toList) none [],
     .mk "VirtualQuantity".toList [("unit".toList, "u".toList)] none none []]

theorem enum_singleton {α : Type} [DecidableEq α] (o : SetOrder α) (a : α) : o.enum {a} = [a] :=
  List.perm_singleton.1 ((List.perm_ext_iff_of_nodup (o.nodup {a}) (by simp)).2
    (by intro b; rw [o.mem]; simp))

/-- an item all of whose values are stored for the default profile has one group -/
theorem setStrings_default (o : Orders) {it : Item} (h : ∀ n t, (n, t) ∈ it.props → ∃ v, t = [(v, {none})])
    (hne : it.props ≠ []) : it.setStrings o = [[]] := by
  have hstep : ∀ L : List PSet, (L = [] ∨ L = [{none}]) → refineStep o L {none} = [{none}] := by
    rintro L (rfl | rfl) <;> simp [refineStep, splitLoop, enum_singleton]
  have hfold : ∀ (ps : List (Str × Tab)) (L : List PSet), (∀ n t, (n, t) ∈ ps → ∃ v, t = [(v, {none})]) →
      (L = [] ∨ L = [{none}]) → (L = [{none}] ∨ ps ≠ []) →
      (ps.flatMap (fun nt => nt.2.map Prod.snd)).foldl (refineStep o) L = [{none}] := by
    intro ps
    induction ps with
    | nil => intro L _ _ h; simpa using h
    | cons e r ih =>
      intro L hh hL _
      obtain ⟨n, t⟩ := e
      obtain ⟨v, rfl⟩ := hh n t (by simp)
      simp only [List.flatMap_cons, List.map_cons, List.map_nil, List.singleton_append, List.foldl_cons]
      rw [hstep L hL]
      exact ih _ (fun n t hm => hh n t (List.mem_cons_of_mem _ hm)) (Or.inr rfl) (Or.inl rfl)
  unfold Item.setStrings Item.setList
  rw [hfold it.props [] h (Or.inl rfl) (Or.inr hne)]
  simp [setString, naturalSort, natInsert]

/-- **C08 fails** for attributes of child elements: an Item element with such an attribute loads, but
the element generated from the result carries the attribute on an extra element that is not in the
item's XML namespace, next to the real one, and reading that back is an error. -/
theorem C08_child_attributes_fails (o : Orders) :
    emptyItem.addItem exEnv exChildAttr = .ok exAttrItem ∧
    exAttrItem.generateItems exEnv o = .ok [exAttrOut] ∧
    addItems exEnv [exAttrOut] emptyItem = .error .itemDataError := by
  refine ⟨rfl, ?_, rfl⟩
  unfold Item.generateItems
  rw [setStrings_default o ?_ (by simp [exAttrItem])]
  · rfl
  · intro n t h
    simp only [exAttrItem, List.mem_cons, Prod.mk.injEq, List.not_mem_nil, or_false] at h
    rcases h with ⟨-, rfl⟩ | ⟨-, rfl⟩ | ⟨-, rfl⟩ <;> exact ⟨_, rfl⟩

/-! ### C09 -/

/-- Every profile for which the item stores any value sees the item's InstanceID. -/
def Scoped (v : Ver) (it : Item) : Prop :=
  ∀ n p w, Explicit (it.tab n) p w → ∃ id, Reads (it.tab (instanceId v)) p id

theorem tab_of_mem {env : Env} {it : Item} (wf : ItemWF env it) {n : Str} {t : Tab} (h : (n, t) ∈ it.props) :
    it.tab n = t := by
  unfold Item.tab; rw [dget?_of_mem wf.names h]; rfl

/-- **C09**, restricted to items whose values are all stored for profiles under which the item exists:
every generated Item element has an InstanceID child carrying the one InstanceID of the item. -/
theorem C09_instance_id_partial {env : Env} {o : Orders} {it : Item} {els : List Elem}
    (wf : ItemWF env it) (hgood : GoodProfiles it) (hrep : Representable env it)
    (hsc : Scoped env.ver it) (hgen : it.generateItems env o = .ok els) :
    ∀ e ∈ els, ∃ id S, it.tab (instanceId env.ver) = [(.str id, S)] ∧
      ∃ c ∈ e.children, c.tag = it.ns ++ instanceId env.ver ∧ c.text = some id := by
  have hw := allWritable_of_representable (truthy_of_wf wf) hrep
  unfold Item.generateItems at hgen
  cases htag : itemTagForNamespace env.ver it.ns with
  | error x => rw [htag] at hgen; cases hgen
  | ok tag =>
  rw [htag] at hgen
  simp only at hgen
  obtain ⟨⟨x, hns⟩, -⟩ := itemTag_braced htag
  obtain ⟨f1, f2, f3, f4, f5⟩ := setStrings_facts o wf hgood
  have hmapE : ∀ (l : List Str) (els : List Elem), mapE (it.genItem env tag) l = .ok els →
      ∀ e ∈ els, ∃ s ∈ l, it.genItem env tag s = .ok e := by
    intro l
    induction l with
    | nil => intro els h; simp only [mapE, Except.ok.injEq] at h; subst h; simp
    | cons s r ih =>
      intro els h e he
      obtain ⟨e0, es, h1, h2, rfl⟩ := mapE_cons h
      rcases List.mem_cons.1 he with rfl | he
      · exact ⟨s, by simp, h1⟩
      · obtain ⟨s', hs', h'⟩ := ih es h2 e he
        exact ⟨s', List.mem_cons_of_mem _ hs', h'⟩
  intro e he
  obtain ⟨s, hs, hge⟩ := hmapE _ _ hgen e he
  obtain ⟨-, -, -, c4⟩ := genItem_spec wf.names hns hw hge
  obtain ⟨hc1, hc2, hc3, hc4, hi, hi1, hi2, hi3⟩ := names_mem_children env.ver
  have hpl : Plain env (instanceId env.ver) := ⟨hi1, hi2⟩
  -- some value
  obtain ⟨p, hp⟩ := Finset.nonempty_iff_ne_empty.2 (f1 s hs)
  have hread : ∀ p ∈ stringSet s, ∃ id, Reads (it.tab (instanceId env.ver)) p id := by
    intro p hp
    obtain ⟨S, hS, hpS⟩ := (f4 p).1 ⟨_, List.mem_map.2 ⟨s, hs, rfl⟩, hp⟩
    obtain ⟨n, t, v, h1, h2⟩ := mem_storedSets.1 hS
    refine hsc n p v ⟨S, ?_, hpS⟩
    rw [tab_of_mem wf h1]; exact h2
  obtain ⟨v, hv⟩ := hread p hp
  have hone : ∃ S, it.tab (instanceId env.ver) = [(v, S)] := by
    have hin : v ∈ dkeys (it.tab (instanceId env.ver)) := by
      rcases hv with ⟨S, h, _⟩ | ⟨_, S, h, _⟩ <;> exact List.mem_map.2 ⟨_, h, rfl⟩
    have hl := wf.oneId
    match ht : it.tab (instanceId env.ver) with
    | [] => rw [ht] at hin; simp [dkeys] at hin
    | [(a, S)] => rw [ht] at hin; simp [dkeys] at hin; exact ⟨S, by rw [hin]⟩
    | a :: b :: r => rw [ht] at hl; simp at hl
  obtain ⟨S, hS⟩ := hone
  have htyp := wf.typed (instanceId env.ver) v S (by rw [hS]; simp)
  obtain ⟨id, rfl⟩ : ∃ id, v = .str id := by
    cases v with
    | str s => exact ⟨s, rfl⟩
    | tup l => exact absurd (htyp.1 rfl) hi3
  refine ⟨id, S, hS, ?_⟩
  have hall : ∀ q ∈ stringSet s, Reads (it.tab (instanceId env.ver)) q (.str id) := by
    intro q hq
    obtain ⟨u, hu⟩ := hread q hq
    have : u ∈ dkeys (it.tab (instanceId env.ver)) := by
      rcases hu with ⟨S, h, _⟩ | ⟨_, S, h, _⟩ <;> exact List.mem_map.2 ⟨_, h, rfl⟩
    rw [hS] at this
    simp [dkeys] at this
    rw [← this]; exact hu
  have hg : it.getValue env (instanceId env.ver) (some (stringSet s)) = .ok (some (.str id)) :=
    ((C06_get_value_agreement wf hpl (f1 s hs)).1 _).2 hall
  have htr := (wf.tab (instanceId env.ver)).truthy (.str id) S (by rw [hS]; simp)
  refine c4 (instanceId env.ver) (reads_key hv) hi id ?_
  unfold emitted1
  rw [hg]
  simp [htr, outStr, hi3, Env.valStr]

/-- Edits that only touch profiles under which the item exists keep `Scoped`: setting a property other
than InstanceID for a non-empty set of such profiles, adding a profile, and removing a profile (if
the item mentions only configured profiles). -/
theorem C09_scoped_edits {env : Env} {it it' : Item} (wf : ItemWF env it) (hsc : Scoped env.ver it) :
    (∀ n val P ow, n ≠ instanceId env.ver → P ≠ ∅ →
      (∀ p ∈ P, ∃ id, Reads (it.tab (instanceId env.ver)) p id) →
      it.setProperty env n val P ow = .ok it' → Scoped env.ver it') ∧
    (∀ p, it.hasProfile env (some p) = false → it.addProfile env (some p) none = .ok it' →
      Scoped env.ver it') ∧
    (∀ p, (∀ n q w, Explicit (it.tab n) (some q) w → q ∈ env.configProfiles) →
      it.removeProfile env (some p) true = .ok it' → Scoped env.ver it') := by
  have hset : ∀ (t : Tab) (v : Val) (P : PSet), TabWF t → ∀ p w,
      Explicit (collapseTab (setTab v P t)) p w → p ∈ P ∨ ∃ u, Explicit t p u := by
    intro t v P wt p w h
    have h1 := ((explicit_collapseTab _ _ _ (setTab_keys wt)).1 h).1
    by_cases hv : v.truthy = true
    · rw [explicit_setTab wt hv] at h1
      rcases h1 with ⟨_, _, h⟩ | ⟨_, h | ⟨h, _⟩⟩
      · exact Or.inr ⟨_, h⟩
      · exact Or.inr ⟨_, h⟩
      · exact Or.inl h
    · rw [explicit_updTab_falsy wt (by simpa using hv)] at h1
      exact Or.inr ⟨_, h1.2⟩
  refine ⟨?_, ?_, ?_⟩
  · intro n val P ow hn hP hin h
    obtain ⟨v, -, -, h3, h4, -⟩ := setProperty_spec wf h
    rw [effProfiles_of_ne it n hP] at h4
    intro m p w he
    rw [h3 _ (Ne.symm hn)]
    by_cases hm : m = n
    · subst hm
      rw [h4] at he
      rcases hset _ _ _ (wf.tab m) p w he with h | ⟨u, h⟩
      · exact hin p h
      · exact hsc m p u h
    · rw [h3 m hm] at he; exact hsc m p w he
  · intro p hp h
    obtain ⟨wf', h2, h3⟩ := addProfile_spec wf (by intro s h; cases h) hp h
    simp only [Option.getD_none] at h2 h3
    have hpl : Plain env (instanceId env.ver) := by
      obtain ⟨-, -, -, -, -, h1, h2, -⟩ := names_mem_children env.ver; exact ⟨h1, h2⟩
    have c3 := (C05_add_profile wf (by intro s h; cases h) hp h)
    intro m q w he
    by_cases hid : it.tab (instanceId env.ver) = []
    · -- then nothing is stored at all
      exfalso
      have hnone : ∀ n p w, ¬ Explicit (it.tab n) p w := by
        intro n p w hx
        obtain ⟨id, hr⟩ := hsc n p w hx
        rw [hid] at hr; unfold Reads Explicit at hr; simp at hr
      have hm : it.tab m = [] := (tab_eq_nil_iff (wf.tab m)).2 (hnone m)
      rw [h2 m hm] at he
      exact hnone m q w he
    · by_cases hq : q = some p
      · subst hq
        obtain ⟨v, -, hv⟩ := c3.1 _ hpl hid
        exact ⟨v, ((C06_get_value_agreement wf' hpl (by simp)).1 v).1 hv _ (by simp)⟩
      · have hold : ∃ u, Explicit (it.tab m) q u := by
          by_cases hm : it.tab m = []
          · rw [h2 m hm] at he; exact ⟨w, he⟩
          · obtain ⟨v, v', -, htab, -⟩ := h3 m hm
            rw [htab] at he
            rcases hset _ _ _ (wf.tab m) q w he with h | h
            · rw [Finset.mem_singleton] at h; exact absurd h hq
            · exact h
        obtain ⟨u, hu⟩ := hold
        obtain ⟨id, hr⟩ := hsc m q u hu
        refine ⟨id, ?_⟩
        have hgv := c3.2.2.1 {q} (by simp) (by simpa using Ne.symm hq) (instanceId env.ver)
        have h1 := ((C06_get_value_agreement wf hpl (P := {q}) (by simp)).1 id).2
          (by intro r hr'; rw [Finset.mem_singleton] at hr'; subst hr'; exact hr)
        rw [← hgv] at h1
        exact ((C06_get_value_agreement wf' hpl (by simp)).1 id).1 h1 q (by simp)
  · intro p hcfg h
    obtain ⟨it1, h1, wf', h2, h3⟩ := removeProfile_spec wf (some p) true
    rw [h1] at h; cases h
    by_cases hp : it.hasProfile env (some p) = true
    · have htab := h3 hp
      intro m q w he
      rw [htab m, explicit_removeLoop (wf.tab m)] at he
      obtain ⟨hqp, he⟩ := he
      have key : q ≠ none ∧ q ∈ env.cfgSet ∧ ∃ id, Reads (it.tab (instanceId env.ver)) q id := by
        rcases he with ⟨h1, h2⟩ | ⟨_, _, h3, h4, h5, _⟩
        · have hqn : q ≠ none := by intro h; have := h2 h; cases this
          obtain ⟨c, rfl⟩ := Option.ne_none_iff_exists'.1 hqn
          exact ⟨hqn, by simp [Env.cfgSet, hcfg m c w h1], hsc m _ w h1⟩
        · obtain ⟨id, hr⟩ := hsc m none w h5
          rw [reads_none] at hr
          refine ⟨h3, h4, ?_⟩
          by_cases hex : ∃ u, Explicit (it.tab (instanceId env.ver)) q u
          · obtain ⟨u, hu⟩ := hex; exact ⟨u, Or.inl hu⟩
          · exact ⟨id, Or.inr ⟨fun u hu => hex ⟨u, hu⟩, hr⟩⟩
      obtain ⟨hqn, hqc, id, hr⟩ := key
      refine ⟨id, Or.inl ?_⟩
      rw [htab, explicit_removeLoop (wf.tab _)]
      refine ⟨hqp, ?_⟩
      rcases hr with hr | ⟨hr1, hr2⟩
      · exact Or.inl ⟨hr, fun h => absurd h hqn⟩
      · exact Or.inr ⟨rfl, by simp, hqn, hqc, hr2, hr1⟩
    · rw [h2 (by simpa using hp)]; exact hsc

theorem exItem_scoped : Scoped .v1 exItem := by
  have ht : exItem.tab (instanceId .v1) = [(.str "1".toList, {none})] := rfl
  intro n p w h
  refine ⟨.str "1".toList, ?_⟩
  rw [ht]
  by_cases hp : p = none
  · subst hp; exact Or.inl (explicit_singleton.2 ⟨rfl, by simp⟩)
  · refine Or.inr ⟨?_, explicit_singleton.2 ⟨rfl, by simp⟩⟩
    intro u hu
    exact hp (by simpa using (explicit_singleton.1 hu).2)

/-- non-vacuity of C09: the example item is scoped, and both its elements carry InstanceID 1 -/
example (o : Orders) : ∃ els, exItem.generateItems exEnv o = .ok els ∧ els ≠ [] ∧
    ∀ e ∈ els, ∃ c ∈ e.children, c.tag = rasd ++ "InstanceID".toList ∧ c.text = some "1".toList := by
  obtain ⟨els, it', h1, h2⟩ := C08_roundtrip_succeeds_partial (o := o) (tag := itemTag .v1) exItem_wf
    exItem_good exItem_representable rfl
    (by intro n hn
        simp only [exItem, dkeys, List.map_cons, List.map_nil, List.mem_cons, List.not_mem_nil,
          or_false] at hn
        rcases hn with rfl | rfl | rfl <;> (constructor <;> decide))
  refine ⟨els, h1, ?_, ?_⟩
  · rintro rfl
    have h3 := (C08_roundtrip_preserves exItem_wf exItem_good exItem_representable h1 h2).2.2
      virtualQuantity (by constructor <;> decide) {pX} (by simp)
    cases h2
    cases h3
  · intro e he
    obtain ⟨id, S, hid, c, hc, h3, h4⟩ :=
      C09_instance_id_partial exItem_wf exItem_good exItem_representable exItem_scoped h1 e he
    have : (exItem.tab (instanceId exEnv.ver)) = [(.str "1".toList, {none})] := rfl
    rw [this] at hid
    simp only [List.cons.injEq, Prod.mk.injEq, Val.str.injEq, and_true] at hid
    exact ⟨c, hc, h3, by rw [h4, ← hid.1]⟩

theorem mapE_mem {α β : Type} {f : α → Except Err β} {l : List α} {ys : List β} (h : mapE f l = .ok ys)
    {x : α} (hx : x ∈ l) : ∃ y ∈ ys, f x = .ok y := by
  induction l generalizing ys with
  | nil => simp at hx
  | cons a r ih =>
    obtain ⟨y, zs, h1, h2, rfl⟩ := mapE_cons h
    rcases List.mem_cons.1 hx with rfl | hx
    · exact ⟨y, by simp, h1⟩
    · obtain ⟨z, hz, h'⟩ := ih h2 hx
      exact ⟨z, List.mem_cons_of_mem _ hz, h'⟩

/-- `exItemX` (which exists only under profile x) after setting a property for profile y -/
def exItemXY : Item :=
  { props := [("InstanceID".toList, [(.str "7".toList, {pX})]),
              ("ResourceType".toList, [(.str "10".toList, {pX})]),
              ("Connection".toList, [(.str "net".toList, {pX}), (.str "other".toList, {pY})])],
    ns := rasd, modified := true }

theorem exItemXY_set : exItemX.setProperty exEnv "Connection".toList (.str "other".toList) {pY} true =
    .ok exItemXY := rfl

theorem exItemXY_reachable : Reachable .v1 exItemXY :=
  .step (env := exEnv) (ed := .set "Connection".toList (.str "other".toList) {pY} true)
    exItemX_reachable rfl (by intro _ _ h; cases h) exItemXY_set

/-- **C09 fails** in general: setting a property of an item for a profile under which the item does not
exist is accepted, and from then on the item generates an Item element without any InstanceID
(loading which fails, hardware.py:74). -/
theorem C09_set_unscoped_fails (o : Orders) :
    Reachable .v1 exItemXY ∧ exItemX.hasProfile exEnv pY = false ∧
    exItemX.setProperty exEnv "Connection".toList (.str "other".toList) {pY} true = .ok exItemXY ∧
    ∃ els, exItemXY.generateItems exEnv o = .ok els ∧
      ∃ e ∈ els, e.get (itemConfig .v1) = some "y".toList ∧
        ∀ c ∈ e.children, stripNs c.tag ≠ instanceId .v1 := by
  refine ⟨exItemXY_reachable, rfl, rfl, ?_⟩
  have wf : ItemWF exEnv exItemXY := (C02_edits_preserve_consistency exItemXY_reachable).2.2.2.2 exEnv rfl
  have hmem : ∀ n t, (n, t) ∈ exItemXY.props → (n ∈ itemChildren exEnv.ver ∧ n ≠ resourceSubType ∧
      Plain exEnv n) ∧ ∀ v S, (v, S) ∈ t → (∃ s, v = .str s) ∧ (S = {pX} ∨ S = {pY}) := by
    intro n t h
    simp only [exItemXY, List.mem_cons, Prod.mk.injEq, List.not_mem_nil, or_false] at h
    rcases h with ⟨rfl, rfl⟩ | ⟨rfl, rfl⟩ | ⟨rfl, rfl⟩
    all_goals
      refine ⟨⟨by decide +kernel, by decide +kernel, by constructor <;> decide +kernel⟩, ?_⟩
      intro v S h
      simp only [List.mem_cons, Prod.mk.injEq, List.not_mem_nil, or_false] at h
    · obtain ⟨rfl, rfl⟩ := h; exact ⟨⟨_, rfl⟩, Or.inl rfl⟩
    · obtain ⟨rfl, rfl⟩ := h; exact ⟨⟨_, rfl⟩, Or.inl rfl⟩
    · rcases h with ⟨rfl, rfl⟩ | ⟨rfl, rfl⟩
      · exact ⟨⟨_, rfl⟩, Or.inl rfl⟩
      · exact ⟨⟨_, rfl⟩, Or.inr rfl⟩
  have hgood : GoodProfiles exItemXY := by
    rintro S ⟨n, t, v, h1, h2⟩ s hs
    rcases ((hmem n t h1).2 v S h2).2 with rfl | rfl <;>
      (simp [pX, pY] at hs; subst hs; decide)
  have hrep : Representable exEnv exItemXY := by
    intro n v S h
    obtain ⟨t, h1, h2⟩ := mem_tab h
    obtain ⟨⟨a, b, -⟩, h3⟩ := hmem n t h1
    obtain ⟨⟨s, rfl⟩, -⟩ := h3 v S h2
    exact .child a b
  obtain ⟨els, it', hels, -⟩ := C08_roundtrip_succeeds_partial (o := o) (tag := itemTag .v1) wf hgood hrep rfl
    (by intro n hn
        obtain ⟨⟨n, t⟩, hm, rfl⟩ := List.mem_map.1 hn
        exact (hmem n t hm).1.2.2)
  refine ⟨els, hels, ?_⟩
  -- the group {y}
  obtain ⟨-, -, h3, h4⟩ := C07_profile_groups o exItemXY
  have hsX : Stored exItemXY {pX} := ⟨"InstanceID".toList, [(.str "7".toList, {pX})], .str "7".toList,
    by simp [exItemXY], by simp⟩
  have hsY : Stored exItemXY {pY} := ⟨"Connection".toList, [(.str "net".toList, {pX}),
    (.str "other".toList, {pY})], .str "other".toList, by simp [exItemXY], by simp⟩
  obtain ⟨g, hg, hgY⟩ := (h3 pY).2 ⟨_, hsY, by simp⟩
  have hgs : g = {pY} := by
    ext q
    rw [Finset.mem_singleton]
    constructor
    · intro hq
      have := ((h4 pY q).1 ⟨g, hg, hgY, hq⟩).2 _ hsY
      simpa using this
    · rintro rfl; exact hgY
  subst hgs
  have hstr : setString o {pY} = "y".toList := by
    unfold setString
    rw [if_neg (by decide), enum_singleton]
    rfl
  have hin : "y".toList ∈ exItemXY.setStrings o := by
    unfold Item.setStrings
    rw [mem_naturalSort, ← hstr]
    exact List.mem_map.2 ⟨_, hg, rfl⟩
  obtain ⟨e, he, hge⟩ := mapE_mem (f := exItemXY.genItem exEnv (itemTag .v1)) hels hin
  have : exItemXY.genItem exEnv (itemTag .v1) "y".toList = .ok (.mk (itemTag .v1)
      [(itemConfig .v1, "y".toList)] none none
      [.mk (rasd ++ "Connection".toList) [] (some "other".toList) none []]) := rfl
  rw [this] at hge
  cases hge
  refine ⟨_, he, rfl, ?_⟩
  intro c hc
  simp only [Elem.children, List.mem_singleton] at hc
  subst hc
  decide +kernel

end Cot
