import Verif.Spec.Load
import Verif.Lemmas.RoundTripNames2
/-
Loading Item elements: what ends up in the tables.
-/
namespace Cot

theorem std_chars (v : Ver) : ∀ n ∈ itemChildren v, '_' ∉ n ∧ '{' ∉ n ∧ '}' ∉ n := by
  cases v <;> decide +kernel

theorem id_std (v : Ver) : instanceId v ∈ itemChildren v ∧ resourceType ∈ itemChildren v := by
  cases v <;> decide +kernel

theorem childCalls_filter {env : Env} {c : Elem} {n : Str} (hn : n ∈ itemChildren env.ver) :
    (childCalls env c).filter (fun kv => kv.1 == n) = if stripNs c.tag = n then [(n, textIn c.text)] else [] := by
  obtain ⟨c1, c2, c3⟩ := std_chars env.ver n hn
  by_cases h : stripNs c.tag = n
  · rw [if_pos h]
    obtain ⟨r, hr, hr'⟩ := childCalls_std (env := env) (c := c) (by rw [h]; exact hn)
    rw [hr, List.filter_cons, if_pos (by simp [h]), h]
    have : r.filter (fun kv => kv.1 == n) = [] := by
      rw [List.filter_eq_nil_iff]
      intro kv hkv hh
      simp only [beq_iff_eq] at hh
      exact c1 (hh ▸ hr' _ (List.mem_map.2 ⟨kv, hkv, rfl⟩))
    rw [this]
  · rw [if_neg h, List.filter_eq_nil_iff]
    rintro ⟨m, val⟩ hm hh
    simp only [beq_iff_eq] at hh
    subst hh
    rcases childCalls_names hm with h' | h' | h'
    · exact h h'.symm
    · exact c1 h'
    · exact c2 h'

theorem docCalls_filter {env : Env} {e : Elem} {n : Str} (hn : n ∈ itemChildren env.ver) :
    (docCalls env e).filter (fun kv => kv.1 == n) =
      (e.children.filter (fun c => stripNs c.tag == n)).map (fun c => (n, textIn c.text)) := by
  unfold docCalls
  rw [List.filter_append]
  have h1 : (attribCalls env.ver e).filter (fun kv => kv.1 == n) = [] := by
    rw [List.filter_eq_nil_iff]
    rintro ⟨m, val⟩ hm hh
    simp only [beq_iff_eq] at hh
    subst hh
    exact (std_chars env.ver _ hn).2.1 (attribCalls_names hm)
  rw [h1, List.nil_append]
  induction e.children with
  | nil => rfl
  | cons c r ih =>
    rw [List.flatMap_cons, List.filter_append, childCalls_filter hn, ih, List.filter_cons]
    by_cases h : stripNs c.tag = n
    · rw [if_pos h, if_pos (by simp [h])]; rfl
    · rw [if_neg h, if_neg (by simp [h])]; rfl

theorem calls_one_split {n : Str} {x : Str × InVal} : ∀ {l : List (Str × InVal)},
    l.filter (fun kv => kv.1 == n) = [x] → ∃ a b, l = a ++ x :: b ∧ n ∉ dkeys a ∧ n ∉ dkeys b ∧ x.1 = n
  | [], h => by cases h
  | y :: l, h => by
    rw [List.filter_cons] at h
    split at h
    · rename_i hy
      simp only [List.cons.injEq] at h
      obtain ⟨rfl, h⟩ := h
      refine ⟨[], l, rfl, by simp [dkeys], ?_, by simpa using hy⟩
      intro hm
      obtain ⟨z, hz, rfl⟩ := List.mem_map.1 hm
      have := List.filter_eq_nil_iff.1 h z hz
      simp at this
    · rename_i hy
      obtain ⟨a, b, rfl, h1, h2, h3⟩ := calls_one_split h
      refine ⟨y :: a, b, rfl, ?_, h2, h3⟩
      rw [dkeys, List.map_cons, List.mem_cons]
      rintro (hh | hh)
      · exact hy (by simp [hh])
      · exact h1 hh

theorem setAll_not {env : Env} {P : PSet} {n : Str} : ∀ (l : List (Str × InVal)) {it it' : Item},
    ItemWF env it → n ∉ dkeys l → setAll env P l it = .ok it' → it'.tab n = it.tab n
  | [], it, it', _, _, h => by simp only [setAll, Except.ok.injEq] at h; rw [h]
  | (m, u) :: r, it, it', wf, hn, h => by
    rw [setAll] at h
    cases hs : it.setProperty env m u P false with
    | error e => rw [hs] at h; cases h
    | ok it1 =>
      rw [hs] at h
      simp only at h
      obtain ⟨v, -, wf1, e1, -⟩ := setProperty_spec wf hs
      rw [dkeys, List.map_cons, List.mem_cons] at hn
      rw [setAll_not r wf1 (fun hh => hn (Or.inr hh)) h, e1 n (fun hh => hn (Or.inl hh))]

/-- a name with one call -/
theorem setAll_once {env : Env} {P : PSet} {n : Str} {val : InVal} {l : List (Str × InVal)} {it it' : Item}
    (wf : ItemWF env it) (hf : l.filter (fun kv => kv.1 == n) = [(n, val)]) (hp : Plain env n)
    (h : setAll env P l it = .ok it') :
    it'.tab n = collapseTab (setTab (normValue env n val) (it.effProfiles n P) (it.tab n)) ∧
    ∀ w S, (w, S) ∈ it.tab n → S ∩ it.effProfiles n P = ∅ := by
  obtain ⟨a, b, rfl, ha, hb, -⟩ := calls_one_split hf
  rw [setAll_append] at h
  cases h1 : setAll env P a it with
  | error e => rw [h1] at h; cases h
  | ok it1 =>
    rw [h1] at h
    simp only at h
    rw [setAll] at h
    have wf1 := setAll_wf a wf h1
    cases h2 : it1.setProperty env n val P false with
    | error e => rw [h2] at h; cases h
    | ok it2 =>
      rw [h2] at h
      simp only at h
      obtain ⟨v, k1, wf2, -, k3, k4, -⟩ := setProperty_spec wf1 h2
      have ht := setAll_not a wf ha h1
      rw [addWildcards_plain hp] at k1
      cases k1
      rw [setAll_not b wf2 hb h, k3, effProfiles_congr ht, ht]
      refine ⟨rfl, fun w S hw => ?_⟩
      have := k4 rfl w S (by rw [ht]; exact hw)
      rwa [effProfiles_congr ht] at this

/-- loading never removes a value -/
theorem setProperty_keeps {env : Env} {it it' : Item} {n : Str} {val : InVal} {P : PSet} (wf : ItemWF env it)
    (h : it.setProperty env n val P false = .ok it') (m : Str) (w : Val) (hw : w ∈ dkeys (it.tab m)) : w ∈ dkeys (it'.tab m) := by
  obtain ⟨v, -, -, e1, e2, e3, -⟩ := setProperty_spec wf h
  by_cases hm : m = n
  · subst hm
    rw [e2, dkeys_collapseTab]
    have : w ∈ dkeys (updTab v (it.effProfiles m P) (it.tab m)) := by
      obtain ⟨⟨w', S⟩, hS, rfl⟩ := List.mem_map.1 hw
      have hd := e3 rfl w' S hS
      refine List.mem_map.2 ⟨(w', updSet v (it.effProfiles m P) w' S), mem_updTab.2 ⟨S, hS, rfl, ?_⟩, rfl⟩
      have hne := (wf.tab m).nonempty w' S hS
      unfold updSet
      split
      · intro he
        obtain ⟨q, hq⟩ := Finset.nonempty_iff_ne_empty.2 hne
        have : q ∈ S \ it.effProfiles m P := Finset.mem_sdiff.2 ⟨hq, fun hh => by
          have : q ∈ S ∩ it.effProfiles m P := Finset.mem_inter.2 ⟨hq, hh⟩
          rw [hd] at this; simp at this⟩
        rw [he] at this; simp at this
      · split
        · exact hne
        · intro he
          obtain ⟨q, hq⟩ := Finset.nonempty_iff_ne_empty.2 hne
          have : q ∈ S ∪ it.effProfiles m P := Finset.mem_union_left _ hq
          rw [he] at this; simp at this
    unfold setTab
    split
    · rw [dkeys, List.map_append]; exact List.mem_append_left _ this
    · exact this
  · rw [e1 m hm]; exact hw

theorem setAll_keeps {env : Env} {P : PSet} (m : Str) (w : Val) : ∀ (l : List (Str × InVal)) {it it' : Item},
    ItemWF env it → setAll env P l it = .ok it' → w ∈ dkeys (it.tab m) → w ∈ dkeys (it'.tab m)
  | [], it, it', _, h, hw => by simp only [setAll, Except.ok.injEq] at h; rw [← h]; exact hw
  | (n, u) :: r, it, it', wf, h, hw => by
    rw [setAll] at h
    cases hs : it.setProperty env n u P false with
    | error e => rw [hs] at h; cases h
    | ok it1 =>
      rw [hs] at h
      simp only at h
      obtain ⟨v, -, wf1, -⟩ := setProperty_spec wf hs
      exact setAll_keeps m w r wf1 h (setProperty_keeps wf hs m w hw)

/-- a value passed is among those stored at the end -/
theorem setAll_key {env : Env} {P : PSet} {n : Str} {val : InVal} (hp : Plain env n)
    (ht : (normValue env n val).truthy = true) {l : List (Str × InVal)} {it it' : Item} (wf : ItemWF env it)
    (hm : (n, val) ∈ l) (h : setAll env P l it = .ok it') : normValue env n val ∈ dkeys (it'.tab n) := by
  obtain ⟨a, b, rfl⟩ := List.append_of_mem hm
  rw [setAll_append] at h
  cases h1 : setAll env P a it with
  | error e => rw [h1] at h; cases h
  | ok it1 =>
    rw [h1] at h
    simp only at h
    rw [setAll] at h
    have wf1 := setAll_wf a wf h1
    cases h2 : it1.setProperty env n val P false with
    | error e => rw [h2] at h; cases h
    | ok it2 =>
      rw [h2] at h
      simp only at h
      obtain ⟨v, k1, wf2, -, k3, -⟩ := setProperty_spec wf1 h2
      refine setAll_keeps n _ b wf2 h ?_
      rw [addWildcards_plain hp] at k1
      cases k1
      rw [k3, dkeys_collapseTab]
      unfold setTab
      split
      · rw [dkeys, List.map_append]; simp
      · rename_i hh
        by_contra hc
        exact hh ⟨ht, hc⟩

theorem mem_calls_of_child {env : Env} {e c : Elem} (hc : c ∈ e.children) {n : Str} (hn : n ∈ itemChildren env.ver)
    (ht : stripNs c.tag = n) : (n, textIn c.text) ∈ addItemCalls env e := by
  have : (n, textIn c.text) ∈ (docCalls env e).filter (fun kv => kv.1 == n) := by
    rw [docCalls_filter hn]
    exact List.mem_map.2 ⟨c, List.mem_filter.2 ⟨hc, by simp [ht]⟩, rfl⟩
  exact (addItemCalls_perm env e).mem_iff.2 (List.mem_of_mem_filter this)

theorem strip_ns_id {v : Ver} {tag ns : Str} (h : namespaceForItemTag v tag = some ns) :
    ∃ x, ns = braced x := by
  unfold namespaceForItemTag at h
  split at h
  · cases h; exact ⟨_, rfl⟩
  · split at h
    · cases h; cases v <;> exact ⟨_, rfl⟩
    · split at h
      · cases h; cases v <;> exact ⟨_, rfl⟩
      · cases h

theorem one_entry {t : Tab} {w : Val} (h1 : t.length ≤ 1) (h2 : w ∈ dkeys t) : ∃ S, t = [(w, S)] := by
  cases t with
  | nil => simp [dkeys] at h2
  | cons a r =>
    cases r with
    | nil =>
      simp only [dkeys, List.map_cons, List.map_nil, List.mem_singleton] at h2
      obtain ⟨a1, a2⟩ := a
      simp only at h2
      subst h2
      exact ⟨a2, rfl⟩
    | cons b r => simp at h1

/-- after loading an Item element, the item's InstanceID is that of the element -/
theorem addItem_id {env : Env} {it it' : Item} {e : Elem} {id : Str} (wf : ItemWF env it)
    (hid : itemId env.ver e = some id) (hne : id ≠ []) (h : it.addItem env e = .ok it') :
    ItemWF env it' ∧ ∃ S, it'.tab (instanceId env.ver) = [(.str id, S)] := by
  obtain ⟨ns, it1, wfn, hall, wf', heq, hns⟩ := addItem_inv wf h
  refine ⟨wf', ?_⟩
  obtain ⟨x, hx⟩ := strip_ns_id hns
  unfold itemId at hid
  rw [hns] at hid
  simp only at hid
  cases hf : e.children.find? (fun c => c.tag == ns ++ instanceId env.ver) with
  | none => rw [hf] at hid; cases hid
  | some c =>
    rw [hf] at hid
    simp only at hid
    have hc := List.mem_of_find?_eq_some hf
    have htag : c.tag = ns ++ instanceId env.ver := by simpa using List.find?_some hf
    have hst : stripNs c.tag = instanceId env.ver := by
      rw [htag, hx]; exact stripNs_braced _ _ (std_chars env.ver _ (id_std env.ver).1).2.2
    have hcall := mem_calls_of_child hc (id_std env.ver).1 hst
    rw [hid] at hcall
    have hnv : normValue env (instanceId env.ver) (textIn (some id)) = .str id := by
      unfold normValue
      rw [if_neg (by cases env.ver <;> decide +kernel)]
      rfl
    have hk := setAll_key (by unfold Plain; cases env.ver <;> decide +kernel) (by rw [hnv]; simp [Val.truthy, hne]) wfn hcall hall
    rw [hnv] at hk
    refine one_entry wf'.oneId ?_
    rw [heq]; exact hk

end Cot
