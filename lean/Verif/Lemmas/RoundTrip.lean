import Verif.Lemmas.Emit
import Verif.Lemmas.Partition
import Verif.Lemmas.ItemOps2
namespace Cot

/-! ### the calls for one generated element -/

/-- what one property contributes to the Item generated for the group `P` -/
def emitted1 (env : Env) (it : Item) (P : PSet) (n : Str) : Option (Str × InVal) :=
  match it.getValue env n (some P) with
  | .ok (some v) => if v.truthy then some (n, .str (outStr env n v)) else none
  | _ => none

/-- every value to be written is representable -/
def AllWritable (env : Env) (it : Item) : Prop := ∀ P n v, n ∈ dkeys it.props →
  it.getValue env n (some P) = .ok (some v) → v.truthy = true → Writable env n v

theorem getScan_mem (P : PSet) (t : Tab) (d : Option Val) {v : Val} (h : getScan P t d = some v) :
    (∃ S, (v, S) ∈ t) ∨ d = some v := by
  induction t generalizing d with
  | nil => right; exact h
  | cons e t ih =>
    obtain ⟨w, S⟩ := e
    unfold getScan at h
    split at h
    · cases h; exact Or.inl ⟨S, by simp⟩
    · split at h
      · rcases ih _ h with ⟨S', h'⟩ | h'
        · exact Or.inl ⟨S', List.mem_cons_of_mem _ h'⟩
        · cases h'; exact Or.inl ⟨S, by simp⟩
      · split at h
        · cases h
        · rcases ih _ h with ⟨S', h'⟩ | h'
          · exact Or.inl ⟨S', List.mem_cons_of_mem _ h'⟩
          · exact Or.inr h'

theorem names_mem_children (v : Ver) : elementName v ∈ itemChildren v ∧ itemDescription ∈ itemChildren v ∧
    elementName v ≠ resourceSubType ∧ itemDescription ≠ resourceSubType ∧
    instanceId v ∈ itemChildren v ∧ instanceId v ≠ elementName v ∧ instanceId v ≠ itemDescription ∧
    instanceId v ≠ resourceSubType := by
  cases v <;> decide +kernel

theorem replaceWildcards_str {env : Env} {it : Item} {n : Str} {v w : Val} {P : Option PSet}
    (hn : n = elementName env.ver ∨ n = itemDescription) (hv : v.truthy = true)
    (h : it.replaceWildcards env n v P = .ok w) : ∃ s, w = .str s := by
  unfold Item.replaceWildcards at h
  rw [if_neg (by simp [hv]), if_pos hn] at h
  split at h
  all_goals
    obtain ⟨a, -, h⟩ := bind_ok_inv h
    obtain ⟨b, -, h⟩ := bind_ok_inv h
    obtain ⟨c, -, h⟩ := bind_ok_inv h
    first
    | (obtain ⟨d, -, h⟩ := bind_ok_inv h; cases h; exact ⟨_, rfl⟩)
    | (cases h; exact ⟨_, rfl⟩)

theorem allWritable_of_representable {env : Env} {it : Item}
    (htr : ∀ n v S, (v, S) ∈ it.tab n → v.truthy = true)
    (h : Representable env it) : AllWritable env it := by
  intro P n v hn hg hv
  by_cases hp : Plain env n
  · rw [getValue_plain hp] at hg
    simp only [Except.ok.injEq] at hg
    unfold Item.getRaw at hg
    rcases getScan_mem P _ _ hg with ⟨S, hS⟩ | h'
    · exact h n v S hS
    · cases h'
  · have hn' : n = elementName env.ver ∨ n = itemDescription := by
      unfold Plain at hp; tauto
    unfold Item.getValue at hg
    cases hr : it.getRaw n (some P) with
    | none => rw [hr] at hg; cases hg
    | some u =>
      rw [hr] at hg
      simp only at hg
      obtain ⟨v', h1, h2⟩ := bind_ok_inv hg
      have hu : u.truthy = true := by
        unfold Item.getRaw at hr
        rcases getScan_mem P _ _ hr with ⟨S, hS⟩ | h'
        · exact htr n u S hS
        · cases h'
      obtain ⟨s, rfl⟩ := replaceWildcards_str hn' hu h1
      rw [if_pos hn'] at h2
      simp only at h2
      have hv' : v = .str s := by
        split at h2
        · cases h2
        · cases h2; rfl
      subst hv'
      have hm := names_mem_children env.ver
      rcases hn' with rfl | rfl
      · exact .child hm.1 hm.2.2.1
      · exact .child hm.2.1 hm.2.2.2.1

theorem emitAll_spec {env : Env} {x : Str} {it : Item} (hns : it.ns = braced x)
    (hw : AllWritable env it) (P : PSet) : ∀ (names : List Str) (e e' : Elem) (D : List (Str × InVal)),
    (∀ n ∈ names, n ∈ dkeys it.props) → names.Nodup → (∀ n ∈ names, n ∉ dkeys D) →
    (docCalls env e).Perm D → emitAll env it P names e = .ok e' →
    (docCalls env e').Perm (D ++ names.filterMap (emitted1 env it P)) ∧ e'.tag = e.tag ∧
      e'.get (itemConfig env.ver) = e.get (itemConfig env.ver) ∧
      (∀ c ∈ e.children, c ∈ e'.children) ∧
      (∀ n ∈ names, n ∈ itemChildren env.ver → ∀ s, emitted1 env it P n = some (n, .str s) →
        ∃ c ∈ e'.children, c.tag = braced x ++ n ∧ c.text = some s) := by
  intro names
  induction names with
  | nil =>
    intro e e' D _ _ _ hI h
    simp only [emitAll, Except.ok.injEq] at h; subst h
    simp [hI]
  | cons n r ih =>
    intro e e' D hk hnd hD hI h
    rw [List.nodup_cons] at hnd
    unfold emitAll at h
    have hskip : emitted1 env it P n = none → emitAll env it P r e = .ok e' →
        (docCalls env e').Perm (D ++ (n :: r).filterMap (emitted1 env it P)) ∧ e'.tag = e.tag ∧
        e'.get (itemConfig env.ver) = e.get (itemConfig env.ver) ∧
        (∀ c ∈ e.children, c ∈ e'.children) ∧
        (∀ m ∈ n :: r, m ∈ itemChildren env.ver → ∀ s, emitted1 env it P m = some (m, .str s) →
          ∃ c ∈ e'.children, c.tag = braced x ++ m ∧ c.text = some s) := by
      intro h1 h2
      rw [List.filterMap_cons, h1]
      obtain ⟨i1, i2, i3, i4, i5⟩ := ih e e' D (fun m hm => hk m (List.mem_cons_of_mem _ hm)) hnd.2
        (fun m hm => hD m (List.mem_cons_of_mem _ hm)) hI h2
      refine ⟨i1, i2, i3, i4, ?_⟩
      intro m hm hc s he
      rcases List.mem_cons.1 hm with rfl | hm
      · rw [h1] at he; cases he
      · exact i5 m hm hc s he
    cases hg : it.getValue env n (some P) with
    | error x => rw [hg] at h; cases h
    | ok ov =>
      rw [hg] at h
      cases ov with
      | none =>
        simp only at h
        exact hskip (by simp [emitted1, hg]) h
      | some v =>
        simp only at h
        cases hv : v.truthy with
        | false =>
          rw [hv] at h
          simp only [Bool.not_false, if_true] at h
          exact hskip (by simp [emitted1, hg, hv]) h
        | true =>
          rw [hv] at h
          simp only [Bool.not_true, Bool.false_eq_true, if_false] at h
          have hwn := hw P n v (hk n (by simp)) hg hv
          obtain ⟨e1, h1, h2, h3, h4, h5, h6⟩ := emitProp_spec (x := x) hwn hI (hD n (by simp))
          rw [hns, h1] at h
          simp only at h
          have := ih e1 e' (D ++ [(n, .str (outStr env n v))])
            (fun m hm => hk m (List.mem_cons_of_mem _ hm)) hnd.2 (by
              intro m hm
              simp only [dkeys, List.map_append, List.map_cons, List.map_nil, List.mem_append,
                List.mem_singleton, not_or]
              exact ⟨hD m (List.mem_cons_of_mem _ hm), fun e => hnd.1 (e ▸ hm)⟩) h2 h
          have he : emitted1 env it P n = some (n, .str (outStr env n v)) := by
            simp [emitted1, hg, hv]
          rw [List.filterMap_cons, he]
          simp only
          rw [List.append_assoc] at this
          obtain ⟨i1, i2, i3, i4, i5⟩ := this
          refine ⟨i1, i2.trans h3, i3.trans h4, fun c hc => i4 c (h5 c hc), ?_⟩
          intro m hm hc s hes
          rcases List.mem_cons.1 hm with rfl | hm
          · rw [he] at hes
            simp only [Option.some.injEq, Prod.mk.injEq, InVal.str.injEq, true_and] at hes
            subst hes
            obtain ⟨c, hcm, hct, hcx⟩ := h6 hc
            exact ⟨c, i4 c hcm, hct, hcx⟩
          · exact i5 m hm hc s hes

/-- generation of an element only fails if a value cannot be read -/
theorem emitAll_ok {env : Env} {x : Str} {it : Item} (hns : it.ns = braced x)
    (hw : AllWritable env it) (P : PSet) : ∀ (names : List Str) (e : Elem) (D : List (Str × InVal)),
    (∀ n ∈ names, n ∈ dkeys it.props) → names.Nodup → (∀ n ∈ names, n ∉ dkeys D) →
    (docCalls env e).Perm D → (∀ n ∈ names, ∃ ov, it.getValue env n (some P) = .ok ov) →
    ∃ e', emitAll env it P names e = .ok e' := by
  intro names
  induction names with
  | nil => intro e D _ _ _ _ _; exact ⟨e, rfl⟩
  | cons n r ih =>
    intro e D hk hnd hD hI hok
    rw [List.nodup_cons] at hnd
    unfold emitAll
    obtain ⟨ov, hg⟩ := hok n (by simp)
    have hskip := ih e D (fun m hm => hk m (List.mem_cons_of_mem _ hm)) hnd.2
        (fun m hm => hD m (List.mem_cons_of_mem _ hm)) hI
        (fun m hm => hok m (List.mem_cons_of_mem _ hm))
    rw [hg]
    cases ov with
    | none => exact hskip
    | some v =>
      simp only
      cases hv : v.truthy with
      | false => simpa using hskip
      | true =>
        simp only [Bool.not_true, Bool.false_eq_true, if_false]
        have hwn := hw P n v (hk n (by simp)) hg hv
        obtain ⟨e1, h1, h2, h3, h4, h5, h6⟩ := emitProp_spec (x := x) hwn hI (hD n (by simp))
        rw [hns, h1]
        simp only
        refine ih e1 (D ++ [(n, .str (outStr env n v))])
            (fun m hm => hk m (List.mem_cons_of_mem _ hm)) hnd.2 (by
              intro m hm
              simp only [dkeys, List.map_append, List.map_cons, List.map_nil, List.mem_append,
                List.mem_singleton, not_or]
              exact ⟨hD m (List.mem_cons_of_mem _ hm), fun e => hnd.1 (e ▸ hm)⟩) h2
            (fun m hm => hok m (List.mem_cons_of_mem _ hm))

theorem strInsert_perm (x : Str) (l : List Str) : (strInsert x l).Perm (x :: l) := by
  induction l with
  | nil => exact List.Perm.refl _
  | cons y t ih =>
    unfold strInsert; split
    · exact List.Perm.refl _
    · exact (ih.cons y).trans (List.Perm.swap x y t)

theorem strSort_perm (l : List Str) : (strSort l).Perm l := by
  induction l with
  | nil => exact List.Perm.refl _
  | cons x t ih => exact (strInsert_perm x _).trans (ih.cons x)

/-- the calls made when the element generated for the group string `s` is read back -/
theorem genItem_spec {env : Env} {x : Str} {it : Item} (wf : (dkeys it.props).Nodup)
    (hns : it.ns = braced x) (hw : AllWritable env it) {tag s : Str} {e : Elem}
    (h : it.genItem env tag s = .ok e) :
    (addItemCalls env e).Perm ((strSort (dkeys it.props)).filterMap (emitted1 env it (stringSet s))) ∧
    e.tag = tag ∧ elemProfiles env.ver e = ((splitWs s).map some).toFinset ∧
    (∀ n ∈ dkeys it.props, n ∈ itemChildren env.ver → ∀ t,
      emitted1 env it (stringSet s) n = some (n, .str t) →
      ∃ c ∈ e.children, c.tag = it.ns ++ n ∧ c.text = some t) := by
  unfold Item.genItem at h
  have hnd : (strSort (dkeys it.props)).Nodup := (strSort_perm _).nodup_iff.2 wf
  have hmem : ∀ n ∈ strSort (dkeys it.props), n ∈ dkeys it.props :=
    fun n hn => (strSort_perm _).mem_iff.1 hn
  have key := emitAll_spec hns hw (stringSet s) (strSort (dkeys it.props))
    (if s = [] then Elem.new tag else Elem.new tag [(itemConfig env.ver, s)]) e [] hmem hnd
    (by simp [dkeys]) (by
      split <;> simp [docCalls, attribCalls, Elem.new, Elem.attrib, Elem.children]) h
  obtain ⟨k1, k2, k3, -, k5⟩ := key
  rw [List.nil_append] at k1
  refine ⟨(addItemCalls_perm env e).trans k1, ?_, ?_, ?_⟩
  · rw [k2]; split <;> rfl
  · unfold elemProfiles
    rw [k3]
    by_cases hs : s = []
    · subst hs; simp [Elem.new, Elem.get, Elem.attrib, splitWs, splitWsAux]
    · simp [hs, Elem.new, Elem.get, Elem.attrib, dget?]
  · intro n hn hc t ht
    rw [hns]
    exact k5 n ((strSort_perm _).mem_iff.2 hn) hc t ht

/-! ### a batch of calls for distinct properties -/

theorem effProfiles_congr {it it' : Item} {n : Str} {P : PSet}
    (h : it.tab n = it'.tab n) : it.effProfiles n P = it'.effProfiles n P := by
  unfold Item.effProfiles
  have : it.allProfiles n = it'.allProfiles n := by
    cases h1 : it.allProfiles n with
    | none =>
      have e1 : it.tab n = [] := by
        by_contra hc; obtain ⟨S, hS⟩ := allProfiles_iff.2 hc; rw [h1] at hS; cases hS
      rw [h] at e1
      cases h2 : it'.allProfiles n with
      | none => rfl
      | some S => exact absurd e1 (allProfiles_iff.1 ⟨S, h2⟩)
    | some S =>
      have e1 : it.tab n ≠ [] := allProfiles_iff.1 ⟨S, h1⟩
      rw [h] at e1
      obtain ⟨S', h2⟩ := allProfiles_iff.2 e1
      rw [allProfiles_some h1, h2, allProfiles_some h2, h]
  rw [this]

theorem setAll_nodup {env : Env} {P : PSet} : ∀ (l : List (Str × InVal)) {it it' : Item},
    ItemWF env it → (dkeys l).Nodup → setAll env P l it = .ok it' →
    ItemWF env it' ∧
    (∀ n, n ∉ dkeys l → it'.tab n = it.tab n) ∧
    (∀ n val, (n, val) ∈ l → ∃ v, (Plain env n → v = normValue env n val) ∧
      it'.tab n = collapseTab (setTab v (it.effProfiles n P) (it.tab n)) ∧
      ∀ w S, (w, S) ∈ it.tab n → S ∩ it.effProfiles n P = ∅)
  | [], it, it', wf, _, h => by
    simp only [setAll, Except.ok.injEq] at h; subst h; simp [wf]
  | (m, u) :: r, it, it', wf, hnd, h => by
    unfold setAll at h
    simp only [dkeys, List.map_cons, List.nodup_cons] at hnd
    cases hs : it.setProperty env m u P false with
    | error e => rw [hs] at h; cases h
    | ok it1 =>
      rw [hs] at h
      obtain ⟨v, hv, wf1, e1, e2, e3, -, -⟩ := setProperty_spec wf hs
      obtain ⟨wf2, f1, f2⟩ := setAll_nodup r wf1 hnd.2 h
      refine ⟨wf2, ?_, ?_⟩
      · intro n hn
        simp only [dkeys, List.map_cons, List.mem_cons, not_or] at hn
        rw [f1 n hn.2, e1 n hn.1]
      · intro n val hm
        rcases List.mem_cons.1 hm with heq | hm
        · cases heq
          refine ⟨v, ?_, ?_, e3 rfl⟩
          · intro hp
            rw [addWildcards_plain hp] at hv
            cases hv; rfl
          · rw [f1 _ hnd.1, e2]
        · have hne : n ≠ m := fun e => hnd.1 (e ▸ List.mem_map.2 ⟨_, hm, rfl⟩)
          obtain ⟨v', g1, g2, g3⟩ := f2 n val hm
          rw [effProfiles_congr (e1 n hne), e1 n hne] at g2 g3
          exact ⟨v', g1, g2, g3⟩

/-! ### reading the generated elements back -/

/-- Alike profiles read the same. -/
theorem reads_alike {it : Item} {p q : Prof}
    (h : ∀ S ∈ it.storedSets, p ∈ S ↔ q ∈ S) (n : Str) (w : Val) :
    Explicit (it.tab n) p w ↔ Explicit (it.tab n) q w := by
  have hst : ∀ v S, (v, S) ∈ it.tab n → S ∈ it.storedSets := by
    intro v S hm
    unfold Item.tab at hm
    cases hd : dget? it.props n with
    | none => rw [hd] at hm; simp at hm
    | some t => rw [hd] at hm; exact mem_storedSets.2 ⟨n, t, v, dget?_mem hd, hm⟩
  constructor
  · rintro ⟨S, hm, hp⟩; exact ⟨S, hm, (h S (hst _ _ hm)).1 hp⟩
  · rintro ⟨S, hm, hp⟩; exact ⟨S, hm, (h S (hst _ _ hm)).2 hp⟩

theorem reads_iff_of_explicit {t : Tab} {p q : Prof}
    (h : ∀ w, Explicit t p w ↔ Explicit t q w) (w : Val) : Reads t p w ↔ Reads t q w := by
  unfold Reads; simp only [h]

/-- what the item read back so far stores for a plain property: `G` are the groups already read -/
def ReadBack (it it' : Item) (G : List PSet) (n : Str) : Prop :=
  ∀ p w, Explicit (it'.tab n) p w ↔
    (∃ g ∈ G, p ∈ g) ∧ Reads (it.tab n) p w ∧
      (p ≠ none → ¬ (({none} : PSet) ∈ G ∧ Reads (it.tab n) none w))

theorem tab_eq_nil_iff {t : Tab} (wf : TabWF t) : t = [] ↔ ∀ p w, ¬ Explicit t p w := by
  constructor
  · rintro rfl p w ⟨S, h, _⟩; simp at h
  · intro h
    cases t with
    | nil => rfl
    | cons e r =>
      obtain ⟨v, S⟩ := e
      obtain ⟨p, hp⟩ := Finset.nonempty_iff_ne_empty.2 (wf.nonempty v S (by simp))
      exact absurd ⟨S, by simp, hp⟩ (h p v)

theorem reads_truthy {t : Tab} (wf : TabWF t) {p : Prof} {v : Val} (h : Reads t p v) :
    v.truthy = true := by
  rcases h with ⟨S, h, _⟩ | ⟨_, S, h, _⟩ <;> exact wf.truthy _ _ h

theorem reads_key {it : Item} {n : Str} {p : Prof} {v : Val} (h : Reads (it.tab n) p v) :
    n ∈ dkeys it.props := by
  have : it.tab n ≠ [] := by
    intro he
    rcases h with ⟨S, h, _⟩ | ⟨_, S, h, _⟩ <;> (rw [he] at h; simp at h)
  unfold Item.tab at this
  cases hd : dget? it.props n with
  | none => rw [hd] at this; simp at this
  | some t => exact List.mem_map.2 ⟨_, dget?_mem hd, rfl⟩

theorem reads_none {t : Tab} {w : Val} : Reads t none w ↔ Explicit t none w := by
  unfold Reads
  constructor
  · rintro (h | ⟨_, h⟩) <;> exact h
  · exact Or.inl

theorem emitted_names {env : Env} {it : Item} {P : PSet} (l : List Str) {n : Str} {val : InVal}
    (h : (n, val) ∈ l.filterMap (emitted1 env it P)) : n ∈ l ∧ ∃ v,
      it.getValue env n (some P) = .ok (some v) ∧ v.truthy = true ∧ val = .str (outStr env n v) := by
  rw [List.mem_filterMap] at h
  obtain ⟨m, hm, he⟩ := h
  unfold emitted1 at he
  split at he
  · rename_i v hg
    split at he
    · rename_i hv; cases he; exact ⟨hm, v, hg, hv, rfl⟩
    · cases he
  · cases he

theorem emitted_nodup {env : Env} {it : Item} {P : PSet} {l : List Str} (h : l.Nodup) :
    (dkeys (l.filterMap (emitted1 env it P))).Nodup := by
  induction l with
  | nil => simp [dkeys]
  | cons n r ih =>
    rw [List.nodup_cons] at h
    rw [List.filterMap_cons]
    split
    · exact ih h.2
    · rename_i b hb
      simp only [dkeys, List.map_cons, List.nodup_cons]
      refine ⟨?_, ih h.2⟩
      intro hmem
      obtain ⟨⟨m, val⟩, hm, he⟩ := List.mem_map.1 hmem
      have h1 := (emitted_names r hm).1
      have h2 : b.1 = n := by
        unfold emitted1 at hb
        split at hb
        · split at hb
          · cases hb; rfl
          · cases hb
        · cases hb
      rw [h2] at he
      simp only at he
      exact h.1 (he ▸ h1)

/-- one property of one generated element, read back -/
theorem call_of_reads {env : Env} {it : Item} (wf : ItemWF env it) {g : PSet} (hg : g ≠ ∅) {n : Str}
    (hp : Plain env n) {v : Val} (hv : ∀ p ∈ g, Reads (it.tab n) p v) :
    (n, InVal.str (outStr env n v)) ∈ (strSort (dkeys it.props)).filterMap (emitted1 env it g) := by
  obtain ⟨p, hpg⟩ := Finset.nonempty_iff_ne_empty.2 hg
  have ht := reads_truthy (wf.tab n) (hv p hpg)
  refine List.mem_filterMap.2 ⟨n, (strSort_perm _).mem_iff.2 (reads_key (hv p hpg)), ?_⟩
  unfold emitted1
  rw [getValue_plain hp, (getRaw_iff wf n hg v).2 hv]
  simp [ht]

theorem no_call {env : Env} {it : Item} (wf : ItemWF env it) {g : PSet} (hg : g ≠ ∅) {n : Str}
    (hp : Plain env n) (hv : ∀ v, ¬ ∀ p ∈ g, Reads (it.tab n) p v) :
    n ∉ dkeys ((strSort (dkeys it.props)).filterMap (emitted1 env it g)) := by
  intro h
  obtain ⟨⟨m, val⟩, hm, he⟩ := List.mem_map.1 h
  simp only at he; subst he
  obtain ⟨_, v, h1, _, _⟩ := emitted_names _ hm
  rw [getValue_plain hp] at h1
  simp only [Except.ok.injEq] at h1
  exact hv v ((getRaw_iff wf m hg v).1 h1)

theorem readBack_named {env : Env} {x : Str} {it it' it'' : Item} (wf : ItemWF env it)
    (hns : it.ns = braced x) (hw : AllWritable env it) (wf' : ItemWF env it')
    {G : List PSet} {tag s : Str} {e : Elem} (hgen : it.genItem env tag s = .ok e)
    (hs : s ≠ []) (hgood : ((splitWs s).map some).toFinset ≠ (∅ : PSet))
    (halike : ∀ p ∈ stringSet s, ∀ q ∈ stringSet s, ∀ S ∈ it.storedSets, p ∈ S ↔ q ∈ S)
    (hdisj : ∀ g ∈ G, ∀ p ∈ stringSet s, p ∉ g)
    (hdflt : ∀ g ∈ G, none ∈ g → g = {none})
    (hadd : it'.addItem env e = .ok it'') {n : Str} (hp : Plain env n) (hrb : ReadBack it it' G n) :
    ReadBack it it'' (G ++ [stringSet s]) n := by
  obtain ⟨c1, c2, c3, -⟩ := genItem_spec wf.names hns hw hgen
  have hset : stringSet s = ((splitWs s).map some).toFinset := by unfold stringSet; rw [if_neg hs]
  have hne : stringSet s ≠ ∅ := by rw [hset]; exact hgood
  have hnn : none ∉ stringSet s := by rw [hset]; simp
  obtain ⟨ns, it1, wfn, hall, wf2, heq, -⟩ := addItem_inv wf' hadd
  rw [c3, ← hset] at hall
  have hnd : (dkeys (addItemCalls env e)).Nodup :=
    (c1.map Prod.fst).nodup_iff.2 (emitted_nodup ((strSort_perm _).nodup_iff.2 wf.names))
  obtain ⟨wf1, f1, f2⟩ := setAll_nodup _ wfn hnd hall
  have htab : ∀ m, it''.tab m = it1.tab m := fun m => by rw [heq]; rfl
  have heff : ∀ m, ({ it' with ns := ns } : Item).effProfiles m (stringSet s) = stringSet s :=
    fun m => effProfiles_of_ne _ m hne
  have htab' : ({ it' with ns := ns } : Item).tab n = it'.tab n := rfl
  have hG1 : ∀ p, p ∉ stringSet s → ((∃ g ∈ G ++ [stringSet s], p ∈ g) ↔ ∃ g ∈ G, p ∈ g) := by
    intro p hp
    constructor
    · rintro ⟨g, hg, hpg⟩
      rcases List.mem_append.1 hg with hg | hg
      · exact ⟨g, hg, hpg⟩
      · rw [List.mem_singleton] at hg; subst hg; exact absurd hpg hp
    · rintro ⟨g, hg, hpg⟩; exact ⟨g, List.mem_append_left _ hg, hpg⟩
  have hG2 : (({none} : PSet) ∈ G ++ [stringSet s]) ↔ ({none} : PSet) ∈ G := by
    rw [List.mem_append, List.mem_singleton]
    constructor
    · rintro (h | h)
      · exact h
      · rw [← h] at hnn; simp at hnn
    · exact Or.inl
  have hG3 : (({none} : PSet) ∈ G) ↔ ∃ g ∈ G, (none : Prof) ∈ g := by
    constructor
    · intro h; exact ⟨_, h, by simp⟩
    · rintro ⟨g, hg, hn⟩; rw [hdflt g hg hn] at hg; exact hg
  have hEg : ∀ p ∈ stringSet s, ∀ w, ¬ Explicit (it'.tab n) p w := by
    intro p hp w hE
    obtain ⟨⟨g, hg, hpg⟩, -⟩ := (hrb p w).1 hE
    exact hdisj g hg p hp hpg
  have hreads : ∀ p ∈ stringSet s, ∀ q ∈ stringSet s, ∀ w,
      Reads (it.tab n) p w ↔ Reads (it.tab n) q w := fun p hp q hq w =>
    reads_iff_of_explicit (fun w => reads_alike (halike p hp q hq) n w) w
  obtain ⟨p0, hp0⟩ := Finset.nonempty_iff_ne_empty.2 hne
  by_cases hex : ∃ v, Reads (it.tab n) p0 v
  · obtain ⟨v, hv⟩ := hex
    have hallv : ∀ p ∈ stringSet s, Reads (it.tab n) p v := fun p hp => (hreads p0 hp0 p hp v).1 hv
    have hcall := c1.mem_iff.2 (call_of_reads wf hne hp hallv)
    have htr := reads_truthy (wf.tab n) hv
    obtain ⟨v', g1, g2, g3⟩ := f2 n _ hcall
    have hwr : Writable env n v := by
      refine hw (stringSet s) n v (reads_key hv) ?_ htr
      rw [getValue_plain hp, (getRaw_iff wf n hne v).2 hallv]
    have hv' : v' = v := by rw [g1 hp, normValue_outStr hwr htr]
    subst hv'
    rw [heff, htab'] at g2
    intro p w
    rw [htab, g2, explicit_collapseTab _ _ _ (setTab_keys (wf'.tab n)),
      explicit_setTab (wf'.tab n) htr, explicit_setTab (wf'.tab n) htr]
    have hnone : ∀ w, ((w ≠ v' ∧ (none : Prof) ∉ stringSet s ∧ Explicit (it'.tab n) none w) ∨
        (w = v' ∧ (Explicit (it'.tab n) none v' ∨ ((none : Prof) ∈ stringSet s ∧
          ¬ Explicit (it'.tab n) none v')))) ↔ Explicit (it'.tab n) none w := by
      intro w
      by_cases hwv : w = v'
      · subst hwv; simp [hnn]
      · simp [hwv, hnn]
    rw [hnone w]
    by_cases hpg : p ∈ stringSet s
    · have hpn : p ≠ none := fun h => hnn (h ▸ hpg)
      have hr : Reads (it.tab n) p w ↔ w = v' :=
        ⟨fun h => (wf.tab n).reads_functional h (hallv p hpg), fun h => h ▸ hallv p hpg⟩
      have hE0 := hEg p hpg
      rw [hr, hG2, hG3]
      have hnE := hrb none w
      simp only [ne_eq, not_true, false_implies, and_true] at hnE
      have hcov : ∃ g ∈ G ++ [stringSet s], p ∈ g := ⟨stringSet s, by simp, hpg⟩
      by_cases hwv : w = v'
      · subst hwv
        simp only [hE0, hpg, hcov, hpn, hnE]
        simp; tauto
      · simp [hwv, hpg]
    · rw [hG1 p hpg, hG2, ← hrb p w]
      by_cases hwv : w = v'
      · subst hwv
        simp only [hpg]
        simp
        exact fun h1 h2 => (wf'.tab n).dflt_alone h2 h1
      · have hda : Explicit (it'.tab n) p w → Explicit (it'.tab n) none w → p = none :=
          fun h1 h2 => (wf'.tab n).dflt_alone h2 h1
        constructor
        · rintro ⟨⟨-, -, h⟩ | ⟨h, -⟩, -⟩
          · exact h
          · exact absurd h hwv
        · exact fun h => ⟨Or.inl ⟨hwv, hpg, h⟩, hda h⟩
  · have hno : ∀ v, ¬ ∀ p ∈ stringSet s, Reads (it.tab n) p v := fun v h => hex ⟨v, h p0 hp0⟩
    have hnc : n ∉ dkeys (addItemCalls env e) := by
      intro h
      exact no_call wf hne hp hno ((c1.map Prod.fst).mem_iff.1 h)
    intro p w
    rw [htab, f1 n hnc, htab', hrb p w, hG2]
    by_cases hpg : p ∈ stringSet s
    · have : ¬ Reads (it.tab n) p w := fun h => hex ⟨w, (hreads p hpg p0 hp0 w).1 h⟩
      simp [this]
    · rw [hG1 p hpg]

theorem readBack_default {env : Env} {x : Str} {it it' it'' : Item} (wf : ItemWF env it)
    (hns : it.ns = braced x) (hw : AllWritable env it) (wf' : ItemWF env it')
    (hempty : it'.props = [])
    {tag : Str} {e : Elem} (hgen : it.genItem env tag [] = .ok e)
    (hadd : it'.addItem env e = .ok it'') {n : Str} (hp : Plain env n) :
    ReadBack it it'' [{none}] n := by
  obtain ⟨c1, c2, c3, -⟩ := genItem_spec wf.names hns hw hgen
  have hset : stringSet [] = {none} := by simp [stringSet]
  have hemp : (((splitWs []).map some).toFinset : PSet) = ∅ := rfl
  rw [hset] at c1
  obtain ⟨ns, it1, wfn, hall, wf2, heq, -⟩ := addItem_inv wf' hadd
  rw [c3, hemp] at hall
  have hnd : (dkeys (addItemCalls env e)).Nodup :=
    (c1.map Prod.fst).nodup_iff.2 (emitted_nodup ((strSort_perm _).nodup_iff.2 wf.names))
  obtain ⟨wf1, f1, f2⟩ := setAll_nodup _ wfn hnd hall
  have htab : ∀ m, it''.tab m = it1.tab m := fun m => by rw [heq]; rfl
  have htab' : ({ it' with ns := ns } : Item).tab n = [] := by simp [Item.tab, hempty]
  have heff : ({ it' with ns := ns } : Item).effProfiles n ∅ = {none} := by
    simp [Item.effProfiles, Item.allProfiles, hempty]
  have hone : (({none} : PSet)) ≠ ∅ := by simp
  by_cases hex : ∃ v, Reads (it.tab n) none v
  · obtain ⟨v, hv⟩ := hex
    have hallv : ∀ p ∈ ({none} : PSet), Reads (it.tab n) p v := by
      intro p hp; rw [Finset.mem_singleton] at hp; subst hp; exact hv
    have hcall := c1.mem_iff.2 (call_of_reads wf hone hp hallv)
    have htr := reads_truthy (wf.tab n) hv
    obtain ⟨v', g1, g2, g3⟩ := f2 n _ hcall
    have hwr : Writable env n v := by
      refine hw {none} n v (reads_key hv) ?_ htr
      rw [getValue_plain hp, (getRaw_iff wf n hone v).2 hallv]
    have hv' : v' = v := by rw [g1 hp, normValue_outStr hwr htr]
    subst hv'
    rw [heff, htab'] at g2
    intro p w
    have hnil : ∀ p w, ¬ Explicit [] p w := by rintro p w ⟨S, h, _⟩; simp at h
    rw [htab, g2, explicit_collapseTab _ _ _ (setTab_keys TabWF.nil),
      explicit_setTab TabWF.nil htr, explicit_setTab TabWF.nil htr]
    have hr : Reads (it.tab n) none w ↔ w = v' :=
      ⟨fun h => (wf.tab n).reads_functional h hv, fun h => h ▸ hv⟩
    by_cases hpn : p = none
    · subst hpn; simp [hnil, hr]
    · simp [hnil, hpn]
  · have hno : ∀ v, ¬ ∀ p ∈ ({none} : PSet), Reads (it.tab n) p v :=
      fun v h => hex ⟨v, h none (by simp)⟩
    have hnc : n ∉ dkeys (addItemCalls env e) := by
      intro h
      exact no_call wf hone hp hno ((c1.map Prod.fst).mem_iff.1 h)
    intro p w
    rw [htab, f1 n hnc, htab']
    constructor
    · rintro ⟨S, h, _⟩; simp at h
    · rintro ⟨⟨g, hg, hpg⟩, hr, _⟩
      rw [List.mem_singleton] at hg; subst hg
      rw [Finset.mem_singleton] at hpg; subst hpg
      exact absurd ⟨w, hr⟩ hex


theorem alphanumSplit_eq_nil {s : Str} (h : alphanumSplit s = alphanumSplit []) : s = [] := by
  have h1 := (reSplitDigits_spec s).1
  unfold alphanumSplit at h
  simp [reSplitDigits] at h
  rw [← h1]; simp [unsplit, h.1, h.2]

theorem natLe_nil (s : Str) : NatLe [] s := by
  unfold NatLe natKeyLe
  by_cases h : (alphanumSplit []).1 = (alphanumSplit s).1
  · rw [if_pos h]; rfl
  · rw [if_neg h]; rfl

/-- the empty string sorts first -/
theorem nil_first {l : List Str} (hs : l.Pairwise NatLe) (h : [] ∈ l) : ∃ t, l = [] :: t := by
  cases l with
  | nil => simp at h
  | cons a t =>
    rw [List.pairwise_cons] at hs
    rcases List.mem_cons.1 h with h | h
    · subst h; exact ⟨t, rfl⟩
    · have h1 : NatLe a [] := hs.1 [] h
      have := natKeyLe_antisymm h1 (natLe_nil a)
      rw [alphanumSplit_eq_nil this]; exact ⟨t, rfl⟩

theorem mapE_cons {α β : Type} {f : α → Except Err β} {x : α} {r : List α} {l : List β}
    (h : mapE f (x :: r) = .ok l) : ∃ y ys, f x = .ok y ∧ mapE f r = .ok ys ∧ l = y :: ys := by
  unfold mapE at h
  cases h1 : f x with
  | error e => rw [h1] at h; cases h
  | ok y =>
    rw [h1] at h
    simp only at h
    cases h2 : mapE f r with
    | error e => rw [h2] at h; cases h
    | ok ys => rw [h2] at h; cases h; exact ⟨y, ys, rfl, rfl, rfl⟩

theorem addItems_cons {env : Env} {e : Elem} {r : List Elem} {it it' : Item}
    (h : addItems env (e :: r) it = .ok it') :
    ∃ it1, it.addItem env e = .ok it1 ∧ addItems env r it1 = .ok it' := by
  unfold addItems at h
  cases h1 : it.addItem env e with
  | error x => rw [h1] at h; cases h
  | ok it1 => rw [h1] at h; exact ⟨it1, rfl, h⟩

theorem readBack_fold {env : Env} {x : Str} {it : Item} (wf : ItemWF env it)
    (hns : it.ns = braced x) (hw : AllWritable env it) {tag : Str} :
    ∀ (ss : List Str) (els : List Elem) (G : List PSet) (it' it'' : Item), ItemWF env it' →
    mapE (it.genItem env tag) ss = .ok els →
    (∀ s ∈ ss, s ≠ [] ∧ stringSet s ≠ ∅) →
    (∀ s ∈ ss, ∀ p ∈ stringSet s, ∀ q ∈ stringSet s, ∀ S ∈ it.storedSets, p ∈ S ↔ q ∈ S) →
    (G ++ ss.map stringSet).Pairwise (fun a b => a ∩ b = ∅) →
    (∀ g ∈ G, none ∈ g → g = {none}) →
    addItems env els it' = .ok it'' →
    (∀ n, Plain env n → ReadBack it it' G n) →
    ItemWF env it'' ∧ ∀ n, Plain env n → ReadBack it it'' (G ++ ss.map stringSet) n
  | [], els, G, it', it'', wf', hm, _, _, _, _, hadd, hrb => by
    simp only [mapE, Except.ok.injEq] at hm; subst hm
    simp only [addItems, Except.ok.injEq] at hadd; subst hadd
    simp [wf']; exact hrb
  | s :: ss, els, G, it', it'', wf', hm, hgood, halike, hdisj, hdflt, hadd, hrb => by
    obtain ⟨e, es, h1, h2, rfl⟩ := mapE_cons hm
    obtain ⟨it1, h3, h4⟩ := addItems_cons hadd
    obtain ⟨hs, hne⟩ := hgood s (by simp)
    have hset : stringSet s = ((splitWs s).map some).toFinset := by unfold stringSet; rw [if_neg hs]
    have hdj : ∀ g ∈ G, ∀ p ∈ stringSet s, p ∉ g := by
      intro g hg p hp hpg
      have := (List.pairwise_append.1 hdisj).2.2 g hg (stringSet s) (by simp)
      exact absurd (Finset.mem_inter.2 ⟨hpg, hp⟩) (by rw [this]; simp)
    have wf1 : ItemWF env it1 := by
      obtain ⟨_, _, _, _, w, _⟩ := addItem_inv wf' h3; exact w
    have hnn : none ∉ stringSet s := by rw [hset]; simp
    have := readBack_fold wf hns hw ss es (G ++ [stringSet s]) it1 it'' wf1 h2
      (fun t ht => hgood t (List.mem_cons_of_mem _ ht))
      (fun t ht => halike t (List.mem_cons_of_mem _ ht))
      (by simpa using hdisj)
      (by
        intro g hg hn
        rcases List.mem_append.1 hg with hg | hg
        · exact hdflt g hg hn
        · rw [List.mem_singleton] at hg; subst hg; exact absurd hn hnn)
      h4
      (fun n hp => readBack_named wf hns hw wf' h1 hs (by rw [← hset]; exact hne)
        (halike s (by simp)) hdj hdflt h3 hp (hrb n hp))
    simpa using this

/-- the final comparison: the item read back reads the same everywhere -/
theorem reads_of_readBack {env : Env} {it it' : Item} (wf : ItemWF env it) {G : List PSet} {n : Str}
    (hcover : ∀ p, (∃ g ∈ G, p ∈ g) ↔ ∃ S ∈ it.storedSets, p ∈ S)
    (hdflt : ∀ g ∈ G, none ∈ g → g = {none})
    (hrb : ReadBack it it' G n) (p : Prof) (w : Val) :
    Reads (it'.tab n) p w ↔ Reads (it.tab n) p w := by
  have hst : ∀ p w, Explicit (it.tab n) p w → ∃ g ∈ G, p ∈ g := by
    rintro p w ⟨S, hm, hp⟩
    refine (hcover p).2 ⟨S, ?_, hp⟩
    unfold Item.tab at hm
    cases hd : dget? it.props n with
    | none => rw [hd] at hm; simp at hm
    | some t => rw [hd] at hm; exact mem_storedSets.2 ⟨n, t, w, dget?_mem hd, hm⟩
  have hnone : ∀ w, Explicit (it'.tab n) none w ↔ Explicit (it.tab n) none w := by
    intro w
    rw [hrb none w, reads_none]
    simp only [ne_eq, not_true, false_implies, and_true]
    exact ⟨fun h => h.2, fun h => ⟨hst _ _ h, h⟩⟩
  have hnG : ∀ w, Explicit (it.tab n) none w → ({none} : PSet) ∈ G := by
    intro w h
    obtain ⟨g, hg, hn⟩ := hst _ _ h
    rw [hdflt g hg hn] at hg; exact hg
  by_cases hpn : p = none
  · subst hpn; rw [reads_none, reads_none]; exact hnone w
  have hE := fun w => hrb p w
  constructor
  · rintro (h | ⟨h1, h2⟩)
    · exact ((hE w).1 h).2.1
    · rw [hnone] at h2
      -- p reads something in the original: its explicit value or the default
      by_cases hex : ∃ u, Explicit (it.tab n) p u
      · obtain ⟨u, hu⟩ := hex
        have hru : Reads (it.tab n) p u := Or.inl hu
        by_cases huw : u = w
        · subst huw; exact hru
        · exfalso
          refine h1 u ((hE u).2 ⟨hst _ _ hu, hru, fun _ h => ?_⟩)
          rw [reads_none] at h
          exact huw ((wf.tab n).functional none u w h.2 h2)
      · exact Or.inr ⟨fun u hu => hex ⟨u, hu⟩, h2⟩
  · intro h
    by_cases hd : Explicit (it.tab n) none w
    · refine Or.inr ⟨?_, (hnone w).2 hd⟩
      intro u hu
      obtain ⟨_, hr, hno⟩ := (hE u).1 hu
      have := (wf.tab n).reads_functional hr h
      subst this
      exact hno hpn ⟨hnG u hd, reads_none.2 hd⟩
    · rcases h with h | ⟨_, h⟩
      · refine Or.inl ((hE w).2 ⟨hst _ _ h, Or.inl h, fun _ hh => hd (reads_none.1 hh.2)⟩)
      · exact absurd h hd

end Cot
