import Verif.Lemmas.RoundTrip
namespace Cot

theorem setExistingLoop_disjoint (v : Val) (P : PSet) (t : Tab) (hd : ∀ w S, (w, S) ∈ t → S ∩ P = ∅) :
    setExistingLoop v P false t = setExistingLoop v P true t := by
  induction t with
  | nil => rfl
  | cons e t ih =>
    obtain ⟨kv, S⟩ := e
    have h1 := hd kv S (by simp)
    rw [setExistingLoop, setExistingLoop, ih (fun w S h => hd w S (List.mem_cons_of_mem _ h))]
    simp [h1]

theorem setProperty_disjoint {env : Env} {it : Item} {name : Str} {val : InVal} {P : PSet}
    (hd : ∀ w S, (w, S) ∈ it.tab name → S ∩ it.effProfiles name P = ∅) :
    it.setProperty env name val P false = it.setProperty env name val P true := by
  unfold Item.setProperty
  simp only [updNs_eff]
  have : ∀ v, (it.updNs env name (normValue env name val)).storeProperty name v
        (it.effProfiles name P) false =
      (it.updNs env name (normValue env name val)).storeProperty name v
        (it.effProfiles name P) true := by
    intro v
    unfold Item.storeProperty
    cases hg : dget? (it.updNs env name (normValue env name val)).props name with
    | none => rfl
    | some t =>
      have ht : it.tab name = t := by
        rw [← updNs_tab env it name (normValue env name val) name]; simp [Item.tab, hg]
      rw [ht] at hd
      simp only [setExisting, setExistingLoop_disjoint v _ t hd]
  simp only [this]

/-- setting the same value again keeps a single value -/
theorem setTab_same_length {v : Val} {P : PSet} {t : Tab} (wf : TabWF t)
    (h : t = [] ∨ ∃ S, t = [(v, S)]) :
    (collapseTab (setTab v P t)).length ≤ 1 := by
  have hl : (collapseTab (setTab v P t)).length = (setTab v P t).length := by simp [collapseTab]
  rw [hl]
  rcases h with rfl | ⟨S, rfl⟩
  · unfold setTab
    split
    · simp [updTab]
    · simp [updTab]
  · have hk : v ∈ dkeys (updTab v P [(v, S)]) := by
      rw [mem_keys_updTab_self wf.nonempty]; simp [dkeys]
    unfold setTab
    have : ¬ (v.truthy = true ∧ v ∉ dkeys (updTab v P [(v, S)])) := fun hh => hh.2 hk
    rw [if_neg this]
    have := (dkeys_updTab_sublist v P [(v, S)]).length_le
    simpa [dkeys] using this

theorem setProperty_ok' {env : Env} {it : Item} (wf : ItemWF env it) {name : Str} (val : InVal)
    (P : PSet) (hpl : Plain env name)
    (hid : name = instanceId env.ver ∨ name = resourceType →
      it.tab name = [] ∨ ∃ S, it.tab name = [(normValue env name val, S)])
    (hd : ∀ w S, (w, S) ∈ it.tab name → S ∩ it.effProfiles name P = ∅) :
    ∃ it', it.setProperty env name val P false = .ok it' := by
  rw [setProperty_disjoint hd]
  have wf0 := updNs_wf wf name (normValue env name val)
  obtain ⟨it1, h1⟩ := storeProperty_ok wf0 (name := name) (v := normValue env name val)
    (P := it.effProfiles name P)
  have hP := effProfiles_ne wf name P
  obtain ⟨k1, k2, k3, k4, k5, k6, k7, k8⟩ := storeProperty_spec wf0 hP h1
  rw [updNs_tab] at k4
  have hlen : ∀ m, m = instanceId env.ver ∨ m = resourceType → (it.tab m).length ≤ 1 →
      (it1.tab m).length ≤ 1 := by
    intro m hm hl
    by_cases he : m = name
    · subst he
      have h2 := setTab_same_length (P := it.effProfiles m P) (wf.tab m) (hid hm)
      rw [← k4] at h2
      simpa [collapseTab] using h2
    · rw [k3 m he, updNs_tab]; exact hl
  unfold Item.setProperty
  simp only [updNs_eff]
  rw [addWildcards_plain hpl]
  simp only [bind, Except.bind, h1]
  split
  · refine ⟨_, validate_ok_of ?_ ?_ ?_⟩
    · exact hlen _ (Or.inl rfl) wf.oneId
    · exact hlen _ (Or.inr rfl) wf.oneType
    · intro n t hm
      exact validateTab_ok_of_collapse (k2 n t hm)
  · exact ⟨_, rfl⟩

theorem setAll_ok {env : Env} {P : PSet} : ∀ (l : List (Str × InVal)) {it : Item},
    ItemWF env it → (dkeys l).Nodup → (∀ n ∈ dkeys l, Plain env n) →
    (∀ n val, (n, val) ∈ l → n = instanceId env.ver ∨ n = resourceType →
      it.tab n = [] ∨ ∃ S, it.tab n = [(normValue env n val, S)]) →
    (∀ n val, (n, val) ∈ l → ∀ w S, (w, S) ∈ it.tab n → S ∩ it.effProfiles n P = ∅) →
    ∃ it', setAll env P l it = .ok it'
  | [], it, _, _, _, _, _ => ⟨it, rfl⟩
  | (m, u) :: r, it, wf, hnd, hpl, hid, hd => by
    simp only [dkeys, List.map_cons, List.nodup_cons] at hnd
    obtain ⟨it1, h1⟩ := setProperty_ok' wf u P (hpl m (by simp [dkeys])) (hid m u (by simp))
      (hd m u (by simp))
    obtain ⟨v, hv, wf1, e1, e2, e3, -, -⟩ := setProperty_spec wf h1
    have hne : ∀ n val, (n, val) ∈ r → n ≠ m := fun n val hm e =>
      hnd.1 (e ▸ List.mem_map.2 ⟨_, hm, rfl⟩)
    obtain ⟨it', h2⟩ := setAll_ok r (P := P) wf1 hnd.2
      (fun n hn => hpl n (by simp only [dkeys, List.map_cons]; exact List.mem_cons_of_mem _ hn))
      (fun n val hm hh => by
        rw [e1 n (hne n val hm)]; exact hid n val (List.mem_cons_of_mem _ hm) hh)
      (fun n val hm => by
        rw [effProfiles_congr (e1 n (hne n val hm)), e1 n (hne n val hm)]
        exact hd n val (List.mem_cons_of_mem _ hm))
    exact ⟨it', by rw [setAll, h1]; exact h2⟩

theorem addItem_ok {env : Env} {it : Item} {e : Elem} {ns : Str} (wf : ItemWF env it)
    (hns : namespaceForItemTag env.ver e.tag = some ns)
    (h : ∃ it1, setAll env (elemProfiles env.ver e) (addItemCalls env e) { it with ns := ns } = .ok it1) :
    ∃ it', it.addItem env e = .ok it' := by
  obtain ⟨it1, h1⟩ := h
  have wf1 := (setAll_wf _ (wf.setNs ns) h1).flag true
  unfold Item.addItem
  rw [hns]
  simp only [h1]
  exact ⟨_, validate_ok_of wf1.oneId wf1.oneType
    (fun n t hm => validateTab_ok_of_collapse (by rw [(wf1.tabs n t hm).collapse_id]; exact wf1.tabs n t hm))⟩

/-- a table read back for InstanceID / ResourceType holds at most the original value -/
theorem single_of_readBack {env : Env} {it it' : Item} (wf' : ItemWF env it')
    {G : List PSet} {n : Str} (hrb : ReadBack it it' G n) (hl : (it.tab n).length ≤ 1)
    {p : Prof} {v : Val} (hv : Reads (it.tab n) p v) :
    it'.tab n = [] ∨ ∃ S, it'.tab n = [(v, S)] := by
  have hall : ∀ w S, (w, S) ∈ it'.tab n → w = v := by
    intro w S hm
    obtain ⟨q, hq⟩ := Finset.nonempty_iff_ne_empty.2 ((wf'.tab n).nonempty w S hm)
    have hr := ((hrb q w).1 ⟨S, hm, hq⟩).2.1
    have hin : ∀ q u, Reads (it.tab n) q u → u ∈ dkeys (it.tab n) := by
      rintro q u (⟨S, h, _⟩ | ⟨_, S, h, _⟩) <;> exact List.mem_map.2 ⟨_, h, rfl⟩
    have h1 := hin q w hr
    have h2 := hin p v hv
    match ht : it.tab n with
    | [] => rw [ht] at h1; simp [dkeys] at h1
    | [a] => rw [ht] at h1 h2; simp [dkeys] at h1 h2; rw [h1, h2]
    | a :: b :: r => rw [ht] at hl; simp at hl
  match ht : it'.tab n with
  | [] => exact Or.inl rfl
  | [(w, S)] => right; exact ⟨S, by rw [hall w S (by rw [ht]; simp)]⟩
  | (w, S) :: (w', S') :: r =>
    have h1 := hall w S (by rw [ht]; simp)
    have h2 := hall w' S' (by rw [ht]; simp)
    have := (wf'.tab n).keys
    rw [ht] at this
    simp [dkeys, h1, h2] at this

theorem readBack_fold_ok {env : Env} {x : Str} {it : Item} (wf : ItemWF env it)
    (hns : it.ns = braced x) (hw : AllWritable env it) {tag : Str}
    (hpl : ∀ n ∈ dkeys it.props, Plain env n)
    {ns : Str} (htag : namespaceForItemTag env.ver tag = some ns) :
    ∀ (ss : List Str) (els : List Elem) (G : List PSet) (it' : Item), ItemWF env it' →
    mapE (it.genItem env tag) ss = .ok els →
    (∀ s ∈ ss, s ≠ [] ∧ stringSet s ≠ ∅) →
    (∀ s ∈ ss, ∀ p ∈ stringSet s, ∀ q ∈ stringSet s, ∀ S ∈ it.storedSets, p ∈ S ↔ q ∈ S) →
    (G ++ ss.map stringSet).Pairwise (fun a b => a ∩ b = ∅) →
    (∀ g ∈ G, none ∈ g → g = {none}) →
    (∀ n, Plain env n → ReadBack it it' G n) →
    ∃ it'', addItems env els it' = .ok it''
  | [], els, G, it', wf', hm, _, _, _, _, hrb => by
    simp only [mapE, Except.ok.injEq] at hm; subst hm
    exact ⟨it', rfl⟩
  | s :: ss, els, G, it', wf', hm, hgood, halike, hdisj, hdflt, hrb => by
    obtain ⟨e, es, h1, h2, rfl⟩ := mapE_cons hm
    obtain ⟨hs, hne⟩ := hgood s (by simp)
    have hset : stringSet s = ((splitWs s).map some).toFinset := by unfold stringSet; rw [if_neg hs]
    have hdj : ∀ g ∈ G, ∀ p ∈ stringSet s, p ∉ g := by
      intro g hg p hp hpg
      have := (List.pairwise_append.1 hdisj).2.2 g hg (stringSet s) (by simp)
      exact absurd (Finset.mem_inter.2 ⟨hpg, hp⟩) (by rw [this]; simp)
    obtain ⟨c1, c2, c3, -⟩ := genItem_spec wf.names hns hw h1
    have hnd : (dkeys (addItemCalls env e)).Nodup :=
      (c1.map Prod.fst).nodup_iff.2 (emitted_nodup ((strSort_perm _).nodup_iff.2 wf.names))
    have hcalls : ∀ n val, (n, val) ∈ addItemCalls env e → n ∈ dkeys it.props ∧ ∃ v,
        (∀ p ∈ stringSet s, Reads (it.tab n) p v) ∧ normValue env n val = v := by
      intro n val hm
      obtain ⟨hn, v, hg, ht, rfl⟩ := emitted_names _ (c1.mem_iff.1 hm)
      have hn' := (strSort_perm _).mem_iff.1 hn
      refine ⟨hn', v, ?_, normValue_outStr (hw _ n v hn' hg ht) ht⟩
      rw [getValue_plain (hpl n hn')] at hg
      simp only [Except.ok.injEq] at hg
      exact (getRaw_iff wf n hne v).1 hg
    obtain ⟨p0, hp0⟩ := Finset.nonempty_iff_ne_empty.2 hne
    have hadd : ∃ it1, it'.addItem env e = .ok it1 := by
      refine addItem_ok wf' (ns := ns) (by rw [c2]; exact htag) ?_
      rw [c3, ← hset]
      refine setAll_ok _ (wf'.setNs ns) hnd ?_ ?_ ?_
      · intro n hn
        obtain ⟨⟨m, val⟩, hm, rfl⟩ := List.mem_map.1 hn
        exact hpl m (hcalls m val hm).1
      · intro n val hm hh
        obtain ⟨hn, v, hv, he⟩ := hcalls n val hm
        rw [he]
        refine single_of_readBack wf' (hrb n (hpl n hn)) ?_ (hv p0 hp0)
        rcases hh with rfl | rfl
        · exact wf.oneId
        · exact wf.oneType
      · intro n val hm w S hwS
        rw [effProfiles_of_ne _ n hne]
        obtain ⟨hn, v, hv, he⟩ := hcalls n val hm
        ext q
        simp only [Finset.mem_inter, Finset.notMem_empty, iff_false]
        rintro ⟨hq1, hq2⟩
        obtain ⟨⟨g, hg, hqg⟩, -⟩ := (hrb n (hpl n hn) q w).1 ⟨S, hwS, hq1⟩
        exact hdj g hg q hq2 hqg
    obtain ⟨it1, h3⟩ := hadd
    have wf1 : ItemWF env it1 := by
      obtain ⟨_, _, _, _, w, _⟩ := addItem_inv wf' h3; exact w
    have hnn : none ∉ stringSet s := by rw [hset]; simp
    obtain ⟨it'', h4⟩ := readBack_fold_ok wf hns hw hpl htag ss es (G ++ [stringSet s]) it1 wf1 h2
      (fun t ht => hgood t (List.mem_cons_of_mem _ ht))
      (fun t ht => halike t (List.mem_cons_of_mem _ ht))
      (by simpa using hdisj)
      (by
        intro g hg hn
        rcases List.mem_append.1 hg with hg | hg
        · exact hdflt g hg hn
        · rw [List.mem_singleton] at hg; subst hg; exact absurd hn hnn)
      (fun n hp => readBack_named wf hns hw wf' h1 hs (by rw [← hset]; exact hne)
        (halike s (by simp)) hdj hdflt h3 hp (hrb n hp))
    exact ⟨it'', by rw [addItems, h3]; exact h4⟩

theorem addDefault_ok {env : Env} {x : Str} {it it' : Item} (wf : ItemWF env it)
    (hns : it.ns = braced x) (hw : AllWritable env it) {tag : Str}
    (hpl : ∀ n ∈ dkeys it.props, Plain env n)
    {ns : Str} (htag : namespaceForItemTag env.ver tag = some ns) (wf' : ItemWF env it')
    (hempty : it'.props = []) {e : Elem} (hgen : it.genItem env tag [] = .ok e) :
    ∃ it'', it'.addItem env e = .ok it'' := by
  obtain ⟨c1, c2, c3, -⟩ := genItem_spec wf.names hns hw hgen
  have hnd : (dkeys (addItemCalls env e)).Nodup :=
    (c1.map Prod.fst).nodup_iff.2 (emitted_nodup ((strSort_perm _).nodup_iff.2 wf.names))
  have htab : ∀ n, ({ it' with ns := ns } : Item).tab n = [] := by
    intro n; simp [Item.tab, hempty]
  refine addItem_ok wf' (ns := ns) (by rw [c2]; exact htag) ?_
  refine setAll_ok _ (wf'.setNs ns) hnd ?_ ?_ ?_
  · intro n hn
    obtain ⟨⟨m, val⟩, hm, rfl⟩ := List.mem_map.1 hn
    exact hpl m ((strSort_perm _).mem_iff.1 (emitted_names _ (c1.mem_iff.1 hm)).1)
  · intro n val _ _; exact Or.inl (htab n)
  · intro n val _ w S h; rw [htab] at h; simp at h

/-! ### generate_items succeeds -/

theorem mapE_ok {α β : Type} {f : α → Except Err β} {l : List α} (h : ∀ x ∈ l, ∃ y, f x = .ok y) :
    ∃ ys, mapE f l = .ok ys := by
  induction l with
  | nil => exact ⟨[], rfl⟩
  | cons x r ih =>
    obtain ⟨y, hy⟩ := h x (by simp)
    obtain ⟨ys, hys⟩ := ih (fun z hz => h z (List.mem_cons_of_mem _ hz))
    exact ⟨y :: ys, by rw [mapE, hy]; simp only; rw [hys]⟩

theorem genItem_ok {env : Env} {x : Str} {it : Item} (wf : (dkeys it.props).Nodup)
    (hns : it.ns = braced x) (hw : AllWritable env it) (tag s : Str)
    (hg : ∀ n ∈ dkeys it.props, ∃ ov, it.getValue env n (some (stringSet s)) = .ok ov) :
    ∃ e, it.genItem env tag s = .ok e := by
  unfold Item.genItem
  refine emitAll_ok hns hw (stringSet s) _ _ [] (fun n hn => (strSort_perm _).mem_iff.1 hn)
    ((strSort_perm _).nodup_iff.2 wf) (by simp [dkeys]) ?_
    (fun n hn => hg n ((strSort_perm _).mem_iff.1 hn))
  split <;> simp [docCalls, attribCalls, Elem.new, Elem.attrib, Elem.children]

theorem itemTag_braced {v : Ver} {ns tag : Str} (h : itemTagForNamespace v ns = .ok tag) :
    (∃ x, ns = braced x) ∧ namespaceForItemTag v tag = some ns := by
  unfold itemTagForNamespace at h
  split at h
  · rename_i h1; cases h; subst h1
    exact ⟨⟨_, rfl⟩, by cases v <;> simp [namespaceForItemTag]⟩
  · rename_i h0
    split at h
    · rename_i h1; cases h; subst h1
      cases v with
      | v0 => exact absurd rfl h0
      | v1 => exact absurd rfl h0
      | v2 => exact ⟨⟨_, rfl⟩, by decide +kernel⟩
    · split at h
      · rename_i h1; cases h; subst h1
        cases v with
        | v0 => exact absurd rfl h0
        | v1 => exact absurd rfl h0
        | v2 => exact ⟨⟨_, rfl⟩, by decide +kernel⟩
      · cases h

end Cot
