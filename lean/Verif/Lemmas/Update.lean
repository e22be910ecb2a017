import Verif.Lemmas.Load2
import Verif.Props.RoundTrip
/-
Writing hardware back: where the generated Item elements end up, and what is loaded from them.
-/
namespace Cot

theorem mapE_nil_iff {α β : Type} {f : α → Except Err β} {l : List α} {ys : List β} (h : mapE f l = .ok ys) : ys = [] ↔ l = [] := by
  cases l with
  | nil => simp only [mapE, Except.ok.injEq] at h; subst h; simp
  | cons x r => obtain ⟨y0, y1, h1, h2, rfl⟩ := mapE_cons h; simp

theorem mapE_back {α β : Type} {f : α → Except Err β} : ∀ {l : List α} {ys : List β}, mapE f l = .ok ys →
    ∀ y ∈ ys, ∃ x ∈ l, f x = .ok y
  | [], ys, h => by simp only [mapE, Except.ok.injEq] at h; subst h; simp
  | x :: r, ys, h => by
    obtain ⟨y0, y1, h1, h2, rfl⟩ := mapE_cons h
    intro y hy
    rcases List.mem_cons.1 hy with rfl | hy
    · exact ⟨x, by simp, h1⟩
    · obtain ⟨x', hx', h'⟩ := mapE_back h2 y hy
      exact ⟨x', List.mem_cons_of_mem _ hx', h'⟩

/-- the elements generated for an item -/
theorem gen_ids {env : Env} {o : Orders} {it : Item} {els : List Elem} {id tag : Str} (wf : ItemWF env it) (hgood : GoodProfiles it)
    (hrep : Representable env it) (hsc : Scoped env.ver it) (htag : itemTagForNamespace env.ver it.ns = .ok tag)
    (hid : ∃ S, it.tab (instanceId env.ver) = [(.str id, S)]) (hgen : it.generateItems env o = .ok els) :
    els ≠ [] ∧ ∀ e ∈ els, itemId env.ver e = some id ∧ e.tag = tag ∧
      ∀ p ∈ elemNames env.ver e, ∃ n w, Explicit (it.tab n) (some p) w := by
  have hc09 := C09_instance_id_partial wf hgood hrep hsc hgen
  obtain ⟨S, hS⟩ := hid
  have hw := allWritable_of_representable (truthy_of_wf wf) hrep
  obtain ⟨⟨x, hns⟩, hback⟩ := itemTag_braced htag
  obtain ⟨f1, f2, f3, f4, f5⟩ := setStrings_facts o wf hgood
  unfold Item.generateItems at hgen
  rw [htag] at hgen
  simp only at hgen
  have hst : ∀ n w T, (w, T) ∈ it.tab n → T ∈ it.storedSets := by
    intro n w T h
    obtain ⟨t, h1, h2⟩ := mem_tab h
    exact mem_storedSets.2 ⟨n, t, w, h1, h2⟩
  refine ⟨?_, ?_⟩
  · intro hc
    rw [mapE_nil_iff hgen] at hc
    have hSm : (Val.str id, S) ∈ it.tab (instanceId env.ver) := by rw [hS]; simp
    obtain ⟨p, hp⟩ := Finset.nonempty_iff_ne_empty.2 ((wf.tab (instanceId env.ver)).nonempty _ S hSm)
    obtain ⟨g, hg, -⟩ := (f4 p).2 ⟨S, hst _ _ _ hSm, hp⟩
    rw [hc] at hg; simp at hg
  · intro e he
    obtain ⟨id', S', hS', c, hc, hct, hcx⟩ := hc09 e he
    rw [hS] at hS'
    obtain ⟨rfl, rfl⟩ : id = id' ∧ S = S' := by simpa using hS'
    obtain ⟨s, hs, hge⟩ := mapE_back hgen e he
    obtain ⟨c1, c2, c3, c4⟩ := genItem_spec wf.names hns hw hge
    refine ⟨?_, c2, ?_⟩
    · unfold itemId
      rw [c2, hback]
      simp only
      cases hf : e.children.find? (fun c => c.tag == it.ns ++ instanceId env.ver) with
      | none =>
        have := List.find?_eq_none.1 hf c hc
        rw [hct] at this; simp at this
      | some d =>
        simp only
        have hdt : d.tag = it.ns ++ instanceId env.ver := by simpa using List.find?_some hf
        have hstrip : ∀ c' : Elem, c'.tag = it.ns ++ instanceId env.ver → stripNs c'.tag = instanceId env.ver := by
          intro c' h'
          rw [h', hns]; exact stripNs_braced _ _ (std_chars env.ver _ (id_std env.ver).1).2.2
        have m1 := mem_calls_of_child (env := env) (List.mem_of_find?_eq_some hf) (id_std env.ver).1 (hstrip d hdt)
        have m2 := mem_calls_of_child (env := env) hc (id_std env.ver).1 (hstrip c hct)
        rw [c1.mem_iff] at m1 m2
        obtain ⟨-, v1, g1, -, o1⟩ := emitted_names _ m1
        obtain ⟨-, v2, g2, -, o2⟩ := emitted_names _ m2
        rw [g1] at g2
        cases g2
        rw [← o2, hcx] at o1
        cases hd : d.text with
        | none => rw [hd] at o1; simp [textIn] at o1
        | some t => rw [hd] at o1; simp [textIn] at o1; rw [o1]
    · intro p hp
      have hpm : some p ∈ elemProfiles env.ver e := by
        unfold elemProfiles; exact List.mem_toFinset.2 (List.mem_map.2 ⟨p, hp, rfl⟩)
      rw [c3] at hpm
      have hss : some p ∈ stringSet s := by
        unfold stringSet
        by_cases hs0 : s = []
        · rw [hs0] at hpm; exact absurd hpm (by rw [show splitWs ([] : Str) = [] from rfl]; simp)
        · rw [if_neg hs0]; exact hpm
      obtain ⟨T, hT, hpT⟩ := (f4 (some p)).1 ⟨_, List.mem_map.2 ⟨s, hs, rfl⟩, hss⟩
      obtain ⟨n, t, v, h1, h2⟩ := mem_storedSets.1 hT
      exact ⟨n, v, T, by rw [tab_of_mem wf h1]; exact h2, hpT⟩

/-! ### where they are inserted -/

theorem item_tags (v : Ver) : ∀ t, isItemTag v t = true → t = itemTag v ∨ t ∉ sectionOrder v := by
  intro t h
  unfold isItemTag at h
  simp only [Bool.or_eq_true, beq_iff_eq] at h
  rcases h with (h | h) | h
  · exact Or.inl h
  · subst h; cases v
    · exact Or.inl rfl
    · exact Or.inl rfl
    · right; decide +kernel
  · subst h; cases v
    · exact Or.inl rfl
    · exact Or.inl rfl
    · right; decide +kernel

theorem insertChild_at {o : List Str} {k : Nat} {c : Elem} : ∀ (a b : List Elem), (∀ e ∈ a, e.tag ∈ o ∧ o.idxOf e.tag ≤ k) →
    (∀ e ∈ b.head?, e.tag ∉ o) → insertChild o k c (a ++ b) = a ++ c :: b
  | [], [], _, _ => rfl
  | [], e :: r, _, h => by
    have := h e (by simp)
    simp only [List.nil_append]
    rw [insertChild, if_neg this]
  | e :: r, b, h1, h2 => by
    rw [List.forall_mem_cons] at h1
    simp only [List.cons_append]
    rw [insertChild, if_pos h1.1.1, if_neg (by have := h1.1.2; omega), insertChild_at r b h1.2 h2]

/-- the children that come before the Items -/
def itemPrefix (v : Ver) (l : List Elem) : List Elem := l.takeWhile (fun e => decide (e.tag ∈ sectionOrder v))

def itemSuffix (v : Ver) (l : List Elem) : List Elem := l.dropWhile (fun e => decide (e.tag ∈ sectionOrder v))

theorem prefix_suffix (v : Ver) (l : List Elem) : itemPrefix v l ++ itemSuffix v l = l := List.takeWhile_append_dropWhile

theorem order_idx (v : Ver) : (sectionOrder v).idxOf (itemTag v) = 2 ∧ itemTag v ∈ sectionOrder v := by
  cases v <;> decide +kernel

theorem addChild_item {v : Ver} {s e : Elem} {pre A post B : List Elem} (hs : s.children = pre ++ A ++ post ++ B)
    (hpre : ∀ x ∈ pre, x.tag ∈ sectionOrder v) (hA : ∀ x ∈ A, x.tag = itemTag v) (hpost : ∀ x ∈ post.head?, x.tag ∉ sectionOrder v)
    (hB : ∀ x ∈ B, x.tag ∉ sectionOrder v) (he : e.tag = itemTag v) :
    addChild s e (sectionOrder v) = s.setChildren (pre ++ (A ++ [e]) ++ post ++ B) := by
  obtain ⟨h1, h2⟩ := order_idx v
  unfold addChild
  rw [if_neg (by rw [he]; simp only [h2, not_true, or_false]; simp [sectionOrder]), he, h1, hs]
  rw [show pre ++ A ++ post ++ B = (pre ++ A) ++ (post ++ B) by simp, insertChild_at]
  · simp
  · intro x hx
    have hlt : ∀ t, t ∈ sectionOrder v → (sectionOrder v).idxOf t ≤ 2 := by
      intro t ht
      have := List.idxOf_lt_length_iff.2 ht
      simp only [sectionOrder, List.length_cons, List.length_nil] at this ⊢
      omega
    rcases List.mem_append.1 hx with hx | hx
    · exact ⟨hpre x hx, hlt _ (hpre x hx)⟩
    · rw [hA x hx]; exact ⟨h2, hlt _ h2⟩
  · intro x hx
    cases post with
    | nil => exact hB x (List.mem_of_mem_head? hx)
    | cons a r => exact hpost x hx

theorem addChild_other {v : Ver} {s e : Elem} (he : e.tag ∉ sectionOrder v) :
    addChild s e (sectionOrder v) = s.setChildren (s.children ++ [e]) := by
  unfold addChild; rw [if_pos (Or.inr he)]

theorem setChildren_twice (s : Elem) (a b : List Elem) : (s.setChildren a).setChildren b = s.setChildren b := by
  cases s; rfl

/-- inserting generated elements, in terms of where they go -/
theorem insert_fold {v : Ver} {pre post : List Elem} (hpre : ∀ x ∈ pre, x.tag ∈ sectionOrder v)
    (hpost : ∀ x ∈ post.head?, x.tag ∉ sectionOrder v) : ∀ (G : List Elem) (s : Elem) (A B : List Elem),
    (∀ e ∈ G, e.tag = itemTag v ∨ e.tag ∉ sectionOrder v) → s.children = pre ++ A ++ post ++ B →
    (∀ x ∈ A, x.tag = itemTag v) → (∀ x ∈ B, x.tag ∉ sectionOrder v) →
    G.foldl (fun s e => addChild s e (sectionOrder v)) s =
      s.setChildren (pre ++ (A ++ G.filter (fun e => e.tag == itemTag v)) ++ post ++ (B ++ G.filter (fun e => e.tag != itemTag v)))
  | [], s, A, B, _, hs, _, _ => by
    simp only [List.foldl_nil, List.filter_nil, List.append_nil]
    rw [← hs]; cases s; rfl
  | e :: r, s, A, B, hG, hs, hA, hB => by
    rw [List.forall_mem_cons] at hG
    rw [List.foldl_cons]
    by_cases he : e.tag = itemTag v
    · rw [addChild_item hs hpre hA hpost hB he,
        insert_fold hpre hpost r _ (A ++ [e]) B hG.2 (setChildren_children _ _)
          (by intro x hx; rcases List.mem_append.1 hx with hx | hx
              · exact hA x hx
              · rw [List.mem_singleton] at hx; rw [hx]; exact he) hB, setChildren_twice]
      congr 1
      simp [he]
    · have he' : e.tag ∉ sectionOrder v := by
        rcases hG.1 with h | h
        · exact absurd h he
        · exact h
      rw [addChild_other he',
        insert_fold hpre hpost r _ A (B ++ [e]) hG.2 (by rw [setChildren_children, hs]; simp) hA
          (by intro x hx; rcases List.mem_append.1 hx with hx | hx
              · exact hB x hx
              · rw [List.mem_singleton] at hx; rw [hx]; exact he'), setChildren_twice]
      congr 1
      simp [he]

/-- all elements, instance by instance -/
def genAll (env : Env) (o : Orders) (hw : Hw) : List Str → Except Err (List Elem)
  | [] => .ok []
  | id :: r => match dget? hw id with
    | none => .error .keyError
    | some it => match it.generateItems env o with
      | .error x => .error x
      | .ok els => match genAll env o hw r with
        | .error x => .error x
        | .ok l => .ok (els ++ l)

theorem emitHw_eq {env : Env} {o : Orders} {hw : Hw} : ∀ (ids : List Str) (s : Elem),
    emitHw env o hw ids s = match genAll env o hw ids with
      | .error x => .error x
      | .ok G => .ok (G.foldl (fun s e => addChild s e (sectionOrder env.ver)) s)
  | [], s => rfl
  | id :: r, s => by
    rw [emitHw, genAll]
    cases dget? hw id with
    | none => rfl
    | some it =>
      simp only
      cases it.generateItems env o with
      | error x => rfl
      | ok els =>
        simp only
        rw [emitHw_eq r]
        cases genAll env o hw r with
        | error x => rfl
        | ok l => simp only [List.foldl_append]

/-- what all the generated elements are -/
theorem genAll_ok {env : Env} {o : Orders} {hw : Hw} (gen : Str → List Elem) : ∀ (ids : List Str),
    (∀ id ∈ ids, ∃ it, dget? hw id = some it ∧ it.generateItems env o = .ok (gen id)) →
    genAll env o hw ids = .ok (ids.flatMap gen)
  | [], _ => rfl
  | id :: r, h => by
    rw [List.forall_mem_cons] at h
    obtain ⟨⟨it, h1, h2⟩, h3⟩ := h
    rw [genAll, h1]
    simp only
    rw [h2]
    simp only
    rw [genAll_ok gen r h3, List.flatMap_cons]

theorem ofId_flatMap {v : Ver} {gen : Str → List Elem} {id : Str} : ∀ (ids : List Str), ids.Nodup →
    (∀ i ∈ ids, ∀ e ∈ gen i, itemId v e = some i) → ofId v id (ids.flatMap gen) = if id ∈ ids then gen id else []
  | [], _, _ => rfl
  | i :: r, hnd, h => by
    rw [List.nodup_cons] at hnd
    rw [List.forall_mem_cons] at h
    rw [List.flatMap_cons]
    unfold ofId
    rw [List.filter_append]
    have ih := ofId_flatMap (id := id) r hnd.2 h.2
    unfold ofId at ih
    rw [ih]
    by_cases hi : id = i
    · subst hi
      rw [if_neg hnd.1, if_pos (by simp), List.append_nil]
      exact List.filter_eq_self.2 fun e he => by simp [h.1 e he]
    · have : (gen i).filter (fun e => decide (itemId v e = some id)) = [] := by
        refine List.filter_eq_nil_iff.2 fun e he => ?_
        rw [h.1 e he]; simpa using fun hc => hi hc.symm
      rw [this, List.nil_append]
      by_cases hr : id ∈ r
      · rw [if_pos hr, if_pos (by simp [hr])]
      · rw [if_neg hr, if_neg (by simp [hi, hr])]

theorem notItem_ns {v : Ver} {t : Str} (h : isItemTag v t = false) : namespaceForItemTag v t = none := by
  unfold isItemTag at h
  simp only [Bool.or_eq_false_iff, beq_eq_false_iff_ne, ne_eq] at h
  unfold namespaceForItemTag
  rw [if_neg h.1.1, if_neg h.1.2, if_neg h.2]

theorem isItem_of_ns {v : Ver} {t ns : Str} (h : namespaceForItemTag v t = some ns) : isItemTag v t = true := by
  cases h' : isItemTag v t with
  | true => rfl
  | false => rw [notItem_ns h'] at h; cases h

/-- the elements of one instance among the children after the update -/
theorem ofId_update {v : Ver} {gen : Str → List Elem} {tag : Str → Str} {ids : List Str} {pre post : List Elem} (hnd : ids.Nodup)
    (hpre : ∀ e ∈ pre, isItemTag v e.tag = false) (hpost : ∀ e ∈ post, isItemTag v e.tag = false)
    (hgen : ∀ i ∈ ids, ∀ e ∈ gen i, itemId v e = some i ∧ e.tag = tag i) (id : Str) :
    ofId v id (pre ++ (ids.flatMap gen).filter (fun e => e.tag == itemTag v) ++ post ++
      (ids.flatMap gen).filter (fun e => e.tag != itemTag v)) = if id ∈ ids then gen id else [] := by
  have hno : ∀ l : List Elem, (∀ e ∈ l, isItemTag v e.tag = false) → ofId v id l = [] := by
    intro l hl
    refine List.filter_eq_nil_iff.2 fun e he => ?_
    rw [itemId_of_ns (notItem_ns (hl e he))]; simp
  have happ : ∀ a b, ofId v id (a ++ b) = ofId v id a ++ ofId v id b := fun a b => List.filter_append ..
  have hcomm : ∀ (q : Elem → Bool) (l : List Elem), ofId v id (l.filter q) = (ofId v id l).filter q := by
    intro q l; unfold ofId; rw [List.filter_filter, List.filter_filter]
    congr 1; funext e; exact Bool.and_comm ..
  rw [happ, happ, happ, hno pre hpre, hno post hpost, hcomm, hcomm, ofId_flatMap ids hnd (fun i hi e he => (hgen i hi e he).1)]
  by_cases hi : id ∈ ids
  · rw [if_pos hi]
    by_cases ht : tag id = itemTag v
    · rw [List.filter_eq_self.2 (fun e he => by simp [(hgen id hi e he).2, ht]),
        List.filter_eq_nil_iff.2 (fun e he => by simp [(hgen id hi e he).2, ht])]
      simp
    · rw [List.filter_eq_nil_iff.2 (fun e he => by simp [(hgen id hi e he).2, ht]),
        List.filter_eq_self.2 (fun e he => by simp [(hgen id hi e he).2, ht])]
      simp
  · rw [if_neg hi]; simp

/-- an unmodified collection is the one the section was loaded as -/
theorem unmodified_keys {env : Env} {s : Elem} {hw0 hw : Hw} (h0 : (dkeys hw0).Nodup) (hk : (dkeys hw).Nodup)
    (hkeys : ∀ id, id ∈ dkeys hw0 ↔ ∃ e ∈ s.children, itemId env.ver e = some id) (hsub : ∀ id ∈ dkeys hw, id ∈ dkeys hw0)
    (hlen : hw.length = (s.children.filter (fun e => isItemTag env.ver e.tag)).length) : (dkeys hw0).Perm (dkeys hw) := by
  have hle : (dkeys hw0).length ≤ ((s.children.filter (fun e => isItemTag env.ver e.tag)).filterMap (itemId env.ver)).length := by
    apply (List.subperm_of_subset h0 _).length_le
    intro id hid
    obtain ⟨e, he, hi⟩ := (hkeys id).1 hid
    refine List.mem_filterMap.2 ⟨e, List.mem_filter.2 ⟨he, ?_⟩, hi⟩
    cases h' : isItemTag env.ver e.tag with
    | true => rfl
    | false => rw [itemId_of_ns (notItem_ns h')] at hi; cases hi
  have hle2 := List.length_filterMap_le (itemId env.ver) (s.children.filter (fun e => isItemTag env.ver e.tag))
  have hsp := List.subperm_of_subset hk hsub
  refine (hsp.perm_of_length_le ?_).symm
  have : (dkeys hw).length = hw.length := by simp [dkeys]
  omega

end Cot
