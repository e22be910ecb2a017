import Verif.Lemmas.Load2
/-
The values read after loading the elements of one instance.
-/
namespace Cot

/-- the elements loaded so far, and what is stored -/
def Holds (v : Ver) (n : Str) (t : Tab) (els : List Elem) : Prop := ∀ p w,
  Explicit t p w ↔ (∃ e ∈ els, p ∈ itemProfiles v e ∧ Says e n w) ∧
    (p ≠ none → ¬ ∃ e ∈ els, none ∈ itemProfiles v e ∧ Says e n w)

theorem itemProfiles_cases (v : Ver) (e : Elem) :
    (elemProfiles v e = ∅ ∧ itemProfiles v e = {none}) ∨
    (elemProfiles v e ≠ ∅ ∧ itemProfiles v e = elemProfiles v e ∧ none ∉ elemProfiles v e) := by
  unfold itemProfiles elemProfiles
  by_cases h : splitWs ((e.get (itemConfig v)).getD []) = []
  · left; rw [if_pos h, h]; exact ⟨rfl, rfl⟩
  · right
    rw [if_neg h]
    refine ⟨?_, rfl, by simp⟩
    intro he
    cases hs : splitWs ((e.get (itemConfig v)).getD []) with
    | nil => exact h hs
    | cons a r => rw [hs] at he; simp at he

theorem itemProfiles_ne (v : Ver) (e : Elem) : itemProfiles v e ≠ ∅ := by
  rcases itemProfiles_cases v e with ⟨-, h⟩ | ⟨h1, h2, -⟩
  · rw [h]; simp
  · rw [h2]; exact h1

theorem itemProfiles_none {v : Ver} {e : Elem} (h : none ∈ itemProfiles v e) : itemProfiles v e = {none} := by
  rcases itemProfiles_cases v e with ⟨-, h'⟩ | ⟨-, h2, h3⟩
  · exact h'
  · rw [h2] at h; exact absurd h h3

theorem split_ne_nil (c : Char) (s : Str) : splitOnChar c s ≠ [] := by
  cases s with
  | nil => simp [splitOnChar]
  | cons a t =>
    unfold splitOnChar
    split
    · simp
    · split <;> simp

theorem denote_truthy {n t : Str} (h : t ≠ []) : (denoteText n t).truthy = true := by
  unfold denoteText
  split
  · simp [Val.truthy, split_ne_nil]
  · simp [Val.truthy, h]

theorem norm_text {env : Env} {n t : Str} (h : t ≠ []) : normValue env n (textIn (some t)) = denoteText n t := by
  unfold normValue denoteText textIn
  cases t with
  | nil => exact absurd rfl h
  | cons a r => split <;> rfl

/-- the call for a standard name, if there is one -/
theorem calls_filter_ordinary {env : Env} {e : Elem} (ho : OrdinaryItem env.ver e) {n : Str} (hn : n ∈ itemChildren env.ver) :
    (n ∉ dkeys (addItemCalls env e) ∧ ∀ w, ¬ Says e n w) ∨
    ∃ t, t ≠ [] ∧ (addItemCalls env e).filter (fun kv => kv.1 == n) = [(n, textIn (some t))] ∧
      ∀ w, Says e n w ↔ w = denoteText n t := by
  have hperm := (addItemCalls_perm env e).filter (fun kv => kv.1 == n)
  rw [docCalls_filter hn] at hperm
  have hl := ho.once n hn
  cases hf : e.children.filter (fun c => stripNs c.tag == n) with
  | nil =>
    left
    rw [hf, List.map_nil] at hperm
    have := hperm.eq_nil
    constructor
    · intro hm
      obtain ⟨⟨m, val⟩, h1, h2⟩ := List.mem_map.1 hm
      have := List.filter_eq_nil_iff.1 this _ h1
      simp at this
      exact this h2
    · rintro w ⟨c, hc, ht, -⟩
      have := List.filter_eq_nil_iff.1 hf c hc
      simp [ht] at this
  | cons c r =>
    right
    have hr : r = [] := by
      rw [hf] at hl
      cases r with
      | nil => rfl
      | cons a b => simp at hl
    subst hr
    have hc : c ∈ e.children.filter (fun c => stripNs c.tag == n) := by rw [hf]; simp
    obtain ⟨hc1, hc2⟩ := List.mem_filter.1 hc
    have hct : stripNs c.tag = n := by simpa using hc2
    obtain ⟨t, ht, hne⟩ := ho.texts c hc1 (by rw [hct]; exact hn)
    rw [hf, List.map_cons, List.map_nil, ht] at hperm
    refine ⟨t, hne, List.perm_singleton.1 hperm, ?_⟩
    intro w
    constructor
    · rintro ⟨c', h1, h2, t', h3, rfl⟩
      have : c' ∈ e.children.filter (fun c => stripNs c.tag == n) := List.mem_filter.2 ⟨h1, by simp [h2]⟩
      rw [hf, List.mem_singleton] at this
      subst this
      rw [ht] at h3; cases h3; rfl
    · rintro rfl
      exact ⟨c, hc1, hct, t, ht, rfl⟩

theorem Says.unique {env : Env} {e : Elem} (ho : OrdinaryItem env.ver e) {n : Str} (hn : n ∈ itemChildren env.ver) {v w : Val}
    (h1 : Says e n v) (h2 : Says e n w) : v = w := by
  rcases calls_filter_ordinary ho hn with ⟨-, h⟩ | ⟨t, -, -, h⟩
  · exact absurd h1 (h v)
  · rw [(h v).1 h1, (h w).1 h2]

/-- an element for the default profile cannot be added to a property that has values -/
theorem default_conflict {env : Env} {l : List (Str × InVal)} {it it' : Item} {n : Str} {val : InVal} (wf : ItemWF env it)
    (hne : it.tab n ≠ []) (hm : (n, val) ∈ l) : ¬ setAll env ∅ l it = .ok it' := by
  intro h
  obtain ⟨a, b, rfl⟩ := List.append_of_mem hm
  rw [setAll_append] at h
  cases h1 : setAll env ∅ a it with
  | error e => rw [h1] at h; cases h
  | ok it1 =>
    rw [h1] at h
    simp only at h
    have ht := setAll_default a wf h1 n hne
    have wf1 := setAll_wf a wf h1
    rw [setAll] at h
    cases h2 : it1.setProperty env n val ∅ false with
    | error e => rw [h2] at h; cases h
    | ok it2 =>
      obtain ⟨v', _, _, _, _, e5, _⟩ := setProperty_spec wf1 h2
      have hne1 : it1.tab n ≠ [] := by rw [ht]; exact hne
      obtain ⟨S, hS⟩ := allProfiles_iff.2 hne1
      have heff : it1.effProfiles n ∅ = tabUnion (it1.tab n) := by
        unfold Item.effProfiles; rw [if_pos rfl, hS, Option.getD_some, allProfiles_some hS]
      obtain ⟨⟨w, T⟩, hm⟩ := List.exists_mem_of_ne_nil _ hne1
      have := e5 rfl w T hm
      rw [heff] at this
      obtain ⟨q, hq⟩ := Finset.nonempty_iff_ne_empty.2 ((wf1.tab n).nonempty w T hm)
      have hmem : q ∈ T ∩ tabUnion (it1.tab n) :=
        Finset.mem_inter.2 ⟨hq, (mem_tabUnion _ _).2 ⟨w, T, hm, hq⟩⟩
      rw [this] at hmem; simp at hmem

/-- loading one more element -/
theorem holds_step {env : Env} {it it' : Item} {els : List Elem} {e : Elem} (wf : ItemWF env it)
    (ho : OrdinaryItem env.ver e) (hdisj : ∀ e' ∈ els, itemProfiles env.ver e' ∩ itemProfiles env.ver e = ∅)
    {id : Str} (hfirst : els ≠ [] → ∃ S, it.tab (instanceId env.ver) = [(.str id, S)])
    (hempty : els = [] → it.props = [])
    (hid : itemId env.ver e = some id) (hidne : id ≠ [])
    (h : it.addItem env e = .ok it') {n : Str} (hn : n ∈ itemChildren env.ver) (hp : Plain env n)
    (hh : Holds env.ver n (it.tab n) els) : Holds env.ver n (it'.tab n) (els ++ [e]) := by
  obtain ⟨ns, it1, wfn, hall, wf', heq, hns⟩ := addItem_inv wf h
  have htab : ∀ m, it'.tab m = it1.tab m := fun m => by rw [heq]; rfl
  have htab0 : ∀ m, ({ it with ns := ns } : Item).tab m = it.tab m := fun m => rfl
  -- the elements not concerned
  have hsame : (∀ w, ¬ Says e n w) → (∀ p w, (∃ e' ∈ els ++ [e], p ∈ itemProfiles env.ver e' ∧ Says e' n w) ↔
      ∃ e' ∈ els, p ∈ itemProfiles env.ver e' ∧ Says e' n w) := by
    intro hno p w
    constructor
    · rintro ⟨e', h1, h2, h3⟩
      rcases List.mem_append.1 h1 with h1 | h1
      · exact ⟨e', h1, h2, h3⟩
      · rw [List.mem_singleton] at h1; subst h1; exact absurd h3 (hno w)
    · rintro ⟨e', h1, h2, h3⟩; exact ⟨e', List.mem_append_left _ h1, h2, h3⟩
  rcases calls_filter_ordinary ho hn with ⟨h1, h2⟩ | ⟨t, hne, hf, hsays⟩
  · intro p w
    rw [htab, setAll_not _ wfn h1 hall, htab0, hh p w, hsame h2, hsame h2]
  · obtain ⟨k1, k2⟩ := setAll_once wfn hf hp hall
    rw [norm_text hne, htab0] at k1
    rw [htab0] at k2
    have htr := denote_truthy (n := n) hne
    generalize denoteText n t = v at *
    have hE : ∀ p w, (∃ e' ∈ els ++ [e], p ∈ itemProfiles env.ver e' ∧ Says e' n w) ↔
        (∃ e' ∈ els, p ∈ itemProfiles env.ver e' ∧ Says e' n w) ∨ (p ∈ itemProfiles env.ver e ∧ w = v) := by
      intro p w
      constructor
      · rintro ⟨e', h1, h2, h3⟩
        rcases List.mem_append.1 h1 with h1 | h1
        · exact Or.inl ⟨e', h1, h2, h3⟩
        · rw [List.mem_singleton] at h1; subst h1; exact Or.inr ⟨h2, (hsays w).1 h3⟩
      · rintro (⟨e', h1, h2, h3⟩ | ⟨h2, h3⟩)
        · exact ⟨e', List.mem_append_left _ h1, h2, h3⟩
        · exact ⟨e, by simp, h2, (hsays w).2 h3⟩
    intro p w
    rw [htab, k1, hE, hE, explicit_collapseTab _ _ _ (setTab_keys (wf.tab n)), explicit_setTab (wf.tab n) htr,
      explicit_setTab (wf.tab n) htr]
    rcases itemProfiles_cases env.ver e with ⟨q1, q2⟩ | ⟨q1, q2, q3⟩
    · -- an element for the default profile comes first
      have hels : els = [] := by
        by_contra hc
        obtain ⟨S, hS⟩ := hfirst hc
        rw [q1] at hall
        obtain ⟨c1, c2⟩ : ∃ a, (instanceId env.ver, a) ∈ addItemCalls env e := by
          unfold itemId at hid
          rw [hns] at hid
          simp only at hid
          cases hf : e.children.find? (fun c => c.tag == ns ++ instanceId env.ver) with
          | none => rw [hf] at hid; cases hid
          | some c =>
            obtain ⟨x, hx⟩ := strip_ns_id hns
            have htag : c.tag = ns ++ instanceId env.ver := by simpa using List.find?_some hf
            exact ⟨_, mem_calls_of_child (List.mem_of_find?_eq_some hf) (id_std env.ver).1
              (by rw [htag, hx]; exact stripNs_braced _ _ (std_chars env.ver _ (id_std env.ver).1).2.2)⟩
        exact default_conflict wfn (by rw [htab0, hS]; simp) c2 hall
      subst hels
      have hprops := hempty rfl
      have ht0 : it.tab n = [] := by simp [Item.tab, hprops]
      have heff : ({ it with ns := ns } : Item).effProfiles n (elemProfiles env.ver e) = {none} := by
        rw [q1]; simp [Item.effProfiles, Item.allProfiles, hprops]
      have hnoE : ∀ p w, ¬ Explicit (it.tab n) p w := by
        rw [ht0]; rintro p w ⟨S, hS, -⟩; cases hS
      rw [heff, q2]
      simp only [hnoE, List.not_mem_nil, false_and, exists_false, false_or, and_false, Finset.mem_singleton, not_false_eq_true,
        and_true]
      constructor
      · rintro ⟨⟨rfl, rfl⟩, -⟩; simp
      · rintro ⟨⟨rfl, rfl⟩, -⟩; simp
    · have heff : ({ it with ns := ns } : Item).effProfiles n (elemProfiles env.ver e) = itemProfiles env.ver e := by
        rw [effProfiles_of_ne _ n q1, q2]
      rw [heff] at k2 ⊢
      have hnn : none ∉ itemProfiles env.ver e := by rw [q2]; exact q3
      have hx := hh p w
      have hxn := hh none w
      have hxv := hh none v
      -- nothing was stored for the new profiles
      have hfree : p ∈ itemProfiles env.ver e → (¬ ∃ e' ∈ els, p ∈ itemProfiles env.ver e' ∧ Says e' n w) ∧
          ∀ u, ¬ Explicit (it.tab n) p u := by
        intro hpe
        have : ∀ e' ∈ els, p ∉ itemProfiles env.ver e' := by
          intro e' he' hpe'
          have hm : p ∈ itemProfiles env.ver e' ∩ itemProfiles env.ver e := Finset.mem_inter.2 ⟨hpe', hpe⟩
          rw [hdisj e' he'] at hm; simp at hm
        refine ⟨fun ⟨e', h1, h2, _⟩ => this e' h1 h2, ?_⟩
        intro u hu
        obtain ⟨⟨e', h1, h2, _⟩, _⟩ := (hh p u).1 hu
        exact this e' h1 h2
      have hpn : p ∈ itemProfiles env.ver e → p ≠ none := fun h1 h2 => hnn (h2 ▸ h1)
      simp only [ne_eq, not_true, false_implies, and_true] at hxn hxv
      by_cases hpe : p ∈ itemProfiles env.ver e
      · obtain ⟨f1, f2⟩ := hfree hpe
        have f3 := hpn hpe
        simp only [hpe, f1, f2, hnn, false_and, and_false, not_true, not_false_eq_true, true_and, false_or, or_false, ne_eq, f3,
          imp_false]
        by_cases hwv : w = v
        · subst hwv
          simp only [not_true, false_and, false_or, true_and]
          rw [hxn]
          exact ⟨fun h _ => h.1, fun h => ⟨h trivial, h trivial⟩⟩
        · simp only [hwv, false_and]
      · simp only [hpe, hnn, false_and, or_false, not_false_eq_true, true_and]
        have hl : ∀ q u, (u ≠ v ∧ Explicit (it.tab n) q u ∨ u = v ∧ Explicit (it.tab n) q v) ↔ Explicit (it.tab n) q u := by
          intro q u
          by_cases huv : u = v
          · subst huv; simp
          · simp [huv]
        rw [hl, hl, hx, hxn]
        constructor
        · rintro ⟨⟨h1, h2⟩, h3⟩; exact ⟨h1, h2⟩
        · rintro ⟨h1, h2⟩; exact ⟨⟨h1, h2⟩, fun h3 => by by_contra hc; exact h2 hc h3⟩

/-- loading all elements of an instance -/
theorem holds_all {env : Env} {n : Str} (hn : n ∈ itemChildren env.ver) (hp : Plain env n) {id : Str} (hidne : id ≠ []) :
    ∀ (els pre : List Elem) {it it' : Item}, ItemWF env it → (∀ e ∈ pre ++ els, OrdinaryItem env.ver e) →
    (∀ e ∈ pre ++ els, itemId env.ver e = some id) →
    (pre ++ els).Pairwise (fun a b => itemProfiles env.ver a ∩ itemProfiles env.ver b = ∅) →
    (pre ≠ [] → ∃ S, it.tab (instanceId env.ver) = [(.str id, S)]) → (pre = [] → it.props = []) →
    Holds env.ver n (it.tab n) pre → addItems env els it = .ok it' → Holds env.ver n (it'.tab n) (pre ++ els)
  | [], pre, it, it', wf, _, _, _, _, _, hh, h => by
    simp only [addItems, Except.ok.injEq] at h; subst h; rw [List.append_nil]; exact hh
  | e :: r, pre, it, it', wf, ho, hid, hd, hf, he, hh, h => by
    rw [addItems] at h
    cases ha : it.addItem env e with
    | error x => rw [ha] at h; cases h
    | ok it1 =>
      rw [ha] at h
      simp only at h
      have hem : e ∈ pre ++ e :: r := by simp
      have hd' : ∀ e' ∈ pre, itemProfiles env.ver e' ∩ itemProfiles env.ver e = ∅ := fun e' he' =>
        (List.pairwise_append.1 hd).2.2 e' he' e (by simp)
      have h1 := holds_step wf (ho e hem) hd' hf he (hid e hem) hidne ha hn hp hh
      obtain ⟨wf1, S, hS⟩ := addItem_id wf (hid e hem) hidne ha
      rw [show pre ++ e :: r = (pre ++ [e]) ++ r by simp] at ho hid hd ⊢
      exact holds_all hn hp hidne r (pre ++ [e]) wf1 ho hid hd (fun _ => ⟨S, hS⟩) (by simp) h1 h

theorem holds_nil (v : Ver) (n : Str) : Holds v n [] [] := by
  intro p w
  constructor
  · rintro ⟨S, hS, -⟩; cases hS
  · rintro ⟨⟨e, he, -⟩, -⟩; cases he

/-- what is read, from what is stored -/
theorem reads_of_holds {env : Env} {n : Str} {t : Tab} {els : List Elem} (hn : n ∈ itemChildren env.ver)
    (ho : ∀ e ∈ els, OrdinaryItem env.ver e)
    (hd : els.Pairwise (fun a b => itemProfiles env.ver a ∩ itemProfiles env.ver b = ∅))
    (h : Holds env.ver n t els) (p : Prof) (w : Val) :
    Reads t p w ↔ (∃ e ∈ els, p ∈ itemProfiles env.ver e ∧ Says e n w) ∨
      ((¬ ∃ e ∈ els, p ∈ itemProfiles env.ver e ∧ ∃ u, Says e n u) ∧
        ∃ e ∈ els, none ∈ itemProfiles env.ver e ∧ Says e n w) := by
  have huniq : ∀ q u u', (∃ e ∈ els, q ∈ itemProfiles env.ver e ∧ Says e n u) →
      (∃ e ∈ els, q ∈ itemProfiles env.ver e ∧ Says e n u') → u = u' := by
    rintro q u u' ⟨e1, a1, a2, a3⟩ ⟨e2, b1, b2, b3⟩
    by_cases h12 : e1 = e2
    · subst h12; exact Says.unique (ho e1 a1) hn a3 b3
    · have hs : Std.Symm (fun a b : Elem => itemProfiles env.ver a ∩ itemProfiles env.ver b = ∅) :=
        ⟨fun a b hab => by rw [Finset.inter_comm]; exact hab⟩
      have := hd.forall a1 b1 h12
      have hm : q ∈ itemProfiles env.ver e1 ∩ itemProfiles env.ver e2 := Finset.mem_inter.2 ⟨a2, b2⟩
      rw [this] at hm; simp at hm
  have hA : (∃ e ∈ els, p ∈ itemProfiles env.ver e ∧ ∃ u, Says e n u) ↔ ∃ u, ∃ e ∈ els, p ∈ itemProfiles env.ver e ∧ Says e n u := by
    constructor
    · rintro ⟨e, h1, h2, u, h3⟩; exact ⟨u, e, h1, h2, h3⟩
    · rintro ⟨u, e, h1, h2, h3⟩; exact ⟨e, h1, h2, u, h3⟩
  have hall : (∀ u, ¬ Explicit t p u) ↔ ∀ u, ¬ ((∃ e ∈ els, p ∈ itemProfiles env.ver e ∧ Says e n u) ∧
    (p ≠ none → ¬ ∃ e ∈ els, none ∈ itemProfiles env.ver e ∧ Says e n u)) := forall_congr' fun u => not_congr (h p u)
  have hu1 := huniq none
  have hu2 := huniq p
  clear huniq
  unfold Reads
  rw [hA, h p w, h none w, hall]
  simp only [ne_eq, not_true, false_implies, and_true]
  by_cases hpn : p = none
  · subst hpn
    simp only [not_true, false_implies, and_true]
    constructor
    · rintro (h | ⟨-, h⟩) <;> exact Or.inl h
    · rintro (h | ⟨-, h⟩) <;> exact Or.inl h
  · simp only [hpn, not_false_eq_true, true_implies]
    generalize hAe : (fun u => ∃ e ∈ els, p ∈ itemProfiles env.ver e ∧ Says e n u) = A at *
    generalize hBe : (fun u => ∃ e ∈ els, none ∈ itemProfiles env.ver e ∧ Says e n u) = B at *
    have hA' : ∀ u, (∃ e ∈ els, p ∈ itemProfiles env.ver e ∧ Says e n u) = A u := fun u => by rw [← hAe]
    have hB' : ∀ u, (∃ e ∈ els, none ∈ itemProfiles env.ver e ∧ Says e n u) = B u := fun u => by rw [← hBe]
    simp only [hA', hB'] at *
    constructor
    · rintro (⟨h, -⟩ | ⟨h1, h2⟩)
      · exact Or.inl h
      · by_cases hex : ∃ u, A u
        · obtain ⟨u, hu⟩ := hex
          have hBu : B u := by by_contra hc; exact h1 u ⟨hu, hc⟩
          exact Or.inl (hu1 u w hBu h2 ▸ hu)
        · exact Or.inr ⟨hex, h2⟩
    · rintro (h | ⟨h1, h2⟩)
      · by_cases hB : B w
        · exact Or.inr ⟨fun u hu => hu.2 (hu2 u w hu.1 h ▸ hB), hB⟩
        · exact Or.inl ⟨h, hB⟩
      · exact Or.inr ⟨fun u hu => h1 ⟨u, hu.1⟩, h2⟩

end Cot
