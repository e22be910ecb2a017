import Verif.Lemmas.RoundTripNames
namespace Cot

/-! ### the order of the calls -/

theorem name_chars (v : Ver) : (∀ n ∈ [elementName v, itemDescription, virtualQuantity, resourceSubType, connection],
    '_' ∉ n ∧ '{' ∉ n) ∧ elementName v ∈ itemChildren v ∧ itemDescription ∈ itemChildren v ∧ elementName v ≠ itemDescription := by
  cases v <;> decide +kernel

/-- names of calls for one child: its tag, or a name with an underscore or a brace -/
theorem childCalls_names {env : Env} {c : Elem} {m : Str} {val : InVal} (h : (m, val) ∈ childCalls env c) :
    m = stripNs c.tag ∨ '_' ∈ m ∨ '{' ∈ m := by
  unfold childCalls at h
  simp only at h
  split at h
  · rw [List.mem_singleton] at h
    cases h
    right; right
    exact List.mem_append_right _ (by decide)
  · rcases List.mem_cons.1 h with h | h
    · cases h; exact Or.inl rfl
    · rw [List.mem_map] at h
      obtain ⟨kv, -, he⟩ := h
      cases he
      right; left
      exact List.mem_append_left _ (List.mem_append_right _ (by decide))

theorem attribCalls_names {v : Ver} {e : Elem} {m : Str} {val : InVal} (h : (m, val) ∈ attribCalls v e) : '{' ∈ m := by
  unfold attribCalls at h
  rw [List.mem_map] at h
  obtain ⟨kv, -, he⟩ := h
  cases he
  exact List.mem_append_right _ (by decide)

/-- the calls for a child with a standard tag -/
theorem childCalls_std {env : Env} {c : Elem} (h : stripNs c.tag ∈ itemChildren env.ver) :
    ∃ r, childCalls env c = (stripNs c.tag, textIn c.text) :: r ∧ ∀ m ∈ dkeys r, '_' ∈ m := by
  unfold childCalls
  simp only
  rw [if_neg (by simpa using h)]
  refine ⟨_, rfl, ?_⟩
  intro m hm
  simp only [dkeys, List.map_map, List.mem_map, Function.comp] at hm
  obtain ⟨kv, -, rfl⟩ := hm
  exact List.mem_append_left _ (List.mem_append_right _ (by decide))

theorem mem_moveToEnd {q : Elem → Bool} {l : List Elem} {c : Elem} (h : c ∈ moveToEnd q l) : c ∈ l := by
  unfold moveToEnd at h
  split at h
  · exact h
  · rename_i e he
    rcases List.mem_append.1 h with h | h
    · exact List.mem_of_mem_eraseP h
    · rw [List.mem_singleton] at h; subst h; exact List.mem_of_find?_eq_some he

theorem moveToEnd_last {q : Elem → Bool} {l : List Elem} {c : Elem} (h : c ∈ l) (hq : q c = true) :
    ∃ a d, moveToEnd q l = a ++ [d] ∧ q d = true := by
  unfold moveToEnd
  cases hf : l.find? q with
  | none =>
    rw [List.find?_eq_none] at hf
    exact absurd hq (hf c h)
  | some d => exact ⟨_, d, rfl, List.find?_some hf⟩

theorem moveToEnd_keep {q : Elem → Bool} {a : List Elem} {d : Elem} (hd : q d = false) :
    ∃ a' t, moveToEnd q (a ++ [d]) = a' ++ [d] ++ t ∧ (∀ c ∈ t, q c = true) := by
  unfold moveToEnd
  cases hf : (a ++ [d]).find? q with
  | none => exact ⟨a, [], by simp, by simp⟩
  | some e =>
    have hq := List.find?_some hf
    have hm : e ∈ a := by
      have := List.mem_of_find?_eq_some hf
      rcases List.mem_append.1 this with h | h
      · exact h
      · rw [List.mem_singleton] at h; subst h; rw [hd] at hq; cases hq
    refine ⟨a.eraseP q, [e], ?_, by simpa using hq⟩
    rw [List.eraseP_append_left hq [d] hm]

theorem std_child_of_call {env : Env} {e : Elem} {n : Str} {val : InVal}
    (hn : '_' ∉ n ∧ '{' ∉ n) (h : (n, val) ∈ addItemCalls env e) : ∃ c ∈ e.children, stripNs c.tag = n := by
  unfold addItemCalls at h
  rcases List.mem_append.1 h with h | h
  · exact absurd (attribCalls_names h) hn.2
  · rw [List.mem_flatMap] at h
    obtain ⟨c, hc, h⟩ := h
    refine ⟨c, mem_moveToEnd (mem_moveToEnd hc), ?_⟩
    rcases childCalls_names h with h | h | h
    · exact h.symm
    · exact absurd h hn.1
    · exact absurd h hn.2

theorem nodup_unique {l : List (Str × InVal)} (h : (dkeys l).Nodup) {n : Str} {u v : InVal} (h1 : (n, u) ∈ l)
    (h2 : (n, v) ∈ l) : u = v := by
  have a := dget?_of_mem h h1
  have b := dget?_of_mem h h2
  rw [a] at b; exact Option.some.inj b

theorem calls_en {env : Env} {e : Elem} {val : InVal} (h : (elementName env.ver, val) ∈ addItemCalls env e)
    (hnd : (dkeys (addItemCalls env e)).Nodup) : ∃ a b, addItemCalls env e = a ++ (elementName env.ver, val) :: b ∧
      ∀ m ∈ dkeys b, '_' ∈ m ∨ m = itemDescription := by
  obtain ⟨hc0, hm1, hm2, hne⟩ := name_chars env.ver
  obtain ⟨c, hc, hct⟩ := std_child_of_call (hc0 _ (by simp)) h
  obtain ⟨a, d, hmv, hd⟩ := moveToEnd_last (q := fun c => stripNs c.tag == elementName env.ver) hc (by simp [hct])
  have hd' : stripNs d.tag = elementName env.ver := by simpa using hd
  have hdq : (fun c : Elem => stripNs c.tag == itemDescription) d = false := by
    simp only [hd', beq_eq_false_iff_ne]; exact hne
  obtain ⟨a', t, h2, ht⟩ := moveToEnd_keep (q := fun c => stripNs c.tag == itemDescription) (a := a) hdq
  obtain ⟨r, hr, hrn⟩ := childCalls_std (env := env) (c := d) (by rw [hd']; exact hm1)
  have hcalls : addItemCalls env e = (attribCalls env.ver e ++ a'.flatMap (childCalls env)) ++
      (elementName env.ver, textIn d.text) :: (r ++ t.flatMap (childCalls env)) := by
    unfold addItemCalls orderedChildren
    rw [hmv, h2]
    simp [hr, hd']
  have hval : val = textIn d.text := nodup_unique hnd h (by rw [hcalls]; simp)
  refine ⟨_, _, by rw [hval]; exact hcalls, ?_⟩
  intro m hm
  rw [dkeys, List.map_append, List.mem_append] at hm
  rcases hm with hm | hm
  · exact Or.inl (hrn m hm)
  · rw [List.mem_map] at hm
    obtain ⟨⟨m', u⟩, hm, rfl⟩ := hm
    rw [List.mem_flatMap] at hm
    obtain ⟨c', hc', hm⟩ := hm
    have htag : stripNs c'.tag = itemDescription := by simpa using ht c' hc'
    obtain ⟨r', hr', hrn'⟩ := childCalls_std (env := env) (c := c') (by rw [htag]; exact hm2)
    rw [hr'] at hm
    rcases List.mem_cons.1 hm with hm | hm
    · cases hm; exact Or.inr htag
    · exact Or.inl (hrn' m' (List.mem_map.2 ⟨_, hm, rfl⟩))

theorem calls_desc {env : Env} {e : Elem} {val : InVal} (h : (itemDescription, val) ∈ addItemCalls env e)
    (hnd : (dkeys (addItemCalls env e)).Nodup) : ∃ a b, addItemCalls env e = a ++ (itemDescription, val) :: b ∧
      ∀ m ∈ dkeys b, '_' ∈ m := by
  obtain ⟨hc0, hm1, hm2, hne⟩ := name_chars env.ver
  obtain ⟨c, hc, hct⟩ := std_child_of_call (hc0 _ (by simp)) h
  have hc' : c ∈ moveToEnd (fun c => stripNs c.tag == elementName env.ver) e.children := by
    unfold moveToEnd
    split
    · exact hc
    · rename_i d hd
      have hq := List.find?_some hd
      refine List.mem_append_left _ ((List.mem_eraseP_of_neg ?_).2 hc)
      simp only [hct, beq_iff_eq]
      exact fun h => hne h.symm
  obtain ⟨a, d, hmv, hd⟩ := moveToEnd_last (q := fun c => stripNs c.tag == itemDescription) hc' (by simp [hct])
  have hd' : stripNs d.tag = itemDescription := by simpa using hd
  obtain ⟨r, hr, hrn⟩ := childCalls_std (env := env) (c := d) (by rw [hd']; exact hm2)
  have hcalls : addItemCalls env e = (attribCalls env.ver e ++ a.flatMap (childCalls env)) ++
      (itemDescription, textIn d.text) :: r := by
    unfold addItemCalls orderedChildren
    rw [hmv]
    simp [hr, hd']
  have hval : val = textIn d.text := nodup_unique hnd h (by rw [hcalls]; simp)
  exact ⟨_, _, by rw [hval]; exact hcalls, hrn⟩

/-! ### one batch of calls, up to some point -/

theorem setAll_append {env : Env} {P : PSet} : ∀ (a b : List (Str × InVal)) (it : Item),
    setAll env P (a ++ b) it = (match setAll env P a it with | .error e => .error e | .ok it1 => setAll env P b it1)
  | [], b, it => rfl
  | (n, v) :: a, b, it => by
    rw [List.cons_append, setAll, setAll]
    cases it.setProperty env n v P false with
    | error e => rfl
    | ok it1 => exact setAll_append a b it1

/-- What is known while one generated element is being read: `it` is the original, `it0` the item before, `P` the
profiles of the element (passed as `P0`), and `l` all the calls made. -/
structure Reading (env : Env) (it it0 : Item) (G : List PSet) (P0 P : PSet) (l : List (Str × InVal)) : Prop where
  wf : ItemWF env it
  tame : TameItem env it
  lit : LiteralSub env
  wf0 : ItemWF env it0
  ne : P ≠ ∅
  eff : ∀ m, it0.effProfiles m P0 = P
  case : (none : Prof) ∉ P ∨ (P = {none} ∧ G = [])
  alike : ∀ p ∈ P, ∀ m, it.getRaw m (some P) = it.getRaw m (some {p})
  disj : ∀ g ∈ G, ∀ p ∈ P, p ∉ g
  dflt : ∀ g ∈ G, none ∈ g → g = {none}
  nodup : (dkeys l).Nodup
  yes : ∀ n v, it.getValue env n (some P) = .ok (some v) → ∃ val, (n, val) ∈ l ∧ normValue env n val = v
  no : ∀ n, it.getValue env n (some P) = .ok none → n ∉ dkeys l
  calls : ∀ n val, (n, val) ∈ l → ∃ v, it.getValue env n (some P) = .ok (some v) ∧ normValue env n val = v
  rb : ∀ n, ReadBackS env it it0 G n

theorem Reading.alike2 {env : Env} {it it0 : Item} {G : List PSet} {P0 P : PSet} {l : List (Str × InVal)}
    (h : Reading env it it0 G P0 P l) : ∀ p ∈ P, ∀ q ∈ P, ∀ m, it.getRaw m (some {p}) = it.getRaw m (some {q}) :=
  fun p hp q hq m => by rw [← h.alike p hp m, h.alike q hq m]

theorem Reading.dfltG {env : Env} {it it0 : Item} {G : List PSet} {P0 P : PSet} {l : List (Str × InVal)}
    (h : Reading env it it0 G P0 P l) : ∀ g ∈ G ++ [P], none ∈ g → g = {none} := by
  intro g hg hn
  rcases List.mem_append.1 hg with hg | hg
  · exact h.dflt g hg hn
  · rw [List.mem_singleton] at hg
    subst hg
    rcases h.case with hh | hh
    · exact absurd hn hh
    · exact hh.1

/-- if the default is stored, something is stored for every profile -/
theorem storedAs_of_default {env : Env} {it : Item} (wf : ItemWF env it) (ht : TameItem env it) {n : Str} {w : Val}
    (h : StoredAs env it n none w) (p : Prof) : ∃ u, StoredAs env it n p u := by
  have hread : ∀ v, Reads (it.tab n) none v → ∃ u, Reads (it.tab n) p u := by
    intro v hv
    rw [reads_none] at hv
    by_cases hex : ∃ u, Explicit (it.tab n) p u
    · obtain ⟨u, hu⟩ := hex; exact ⟨u, Or.inl hu⟩
    · exact ⟨v, Or.inr ⟨fun u hu => hex ⟨u, hu⟩, hv⟩⟩
  have hraw : ∀ x, it.getValue env n (some {none}) = .ok (some x) → it.getValue env n (some {p}) ≠ .ok none := by
    intro x hx hcon
    cases hr : it.getRaw n (some {none}) with
    | none => unfold Item.getValue at hx; rw [hr] at hx; cases hx
    | some v =>
      obtain ⟨u, hu⟩ := hread v ((getRaw_single wf n none v).1 hr)
      have := (getRaw_single wf n p u).2 hu
      unfold Item.getValue at hcon
      rw [this] at hcon
      simp only at hcon
      obtain ⟨a, h1, h2⟩ := bind_ok_inv hcon
      split at h2
      · split at h2
        · split at h2 <;> cases h2
        · cases h2
      · cases h2
  rcases name_cases env n with hp | rfl | rfl
  · rw [storedAs_plain hp] at h
    obtain ⟨u, hu⟩ := hread w h
    exact ⟨u, (storedAs_plain hp p u).2 hu⟩
  · rw [storedAs_en] at h
    obtain ⟨x, hx, -⟩ := h
    rcases ht.name p with h' | ⟨y, h', -⟩
    · exact absurd h' (hraw _ hx)
    · exact ⟨_, (storedAs_en p _).2 ⟨y, h', rfl⟩⟩
  · rw [storedAs_desc] at h
    obtain ⟨x, hx, -⟩ := h
    rcases ht.descr p with h' | ⟨y, h', -⟩
    · exact absurd h' (hraw _ hx)
    · exact ⟨_, (storedAs_desc p _).2 ⟨y, h', rfl⟩⟩

/-- A plain property after the calls `a`, when no later call is about it. -/
theorem Reading.plain {env : Env} {it it0 : Item} {G : List PSet} {P0 P : PSet} {a b : List (Str × InVal)}
    (h : Reading env it it0 G P0 P (a ++ b)) {itm : Item} (hs : setAll env P0 a it0 = .ok itm) {n : Str}
    (hp : Plain env n) (hb : n ∉ dkeys b) : ReadBackS env it itm (G ++ [P]) n := by
  have hnd : (dkeys a).Nodup := by
    have := h.nodup
    rw [dkeys, List.map_append] at this
    exact (List.nodup_append.1 this).1
  obtain ⟨wfm, f1, f2⟩ := setAll_nodup a h.wf0 hnd hs
  refine readBackS_step h.wf h.tame h.wf0 h.ne h.case h.alike2 h.disj h.dflt ?_ ?_ (h.rb n)
  · intro v hv
    have hg : it.getValue env n (some P) = .ok (some v) := by
      rw [getValue_plain hp, (getRaw_iff h.wf n h.ne v).2 (fun p hpP => (storedAs_plain hp p v).1 (hv p hpP))]
    obtain ⟨val, hm, hval⟩ := h.yes n v hg
    have hma : (n, val) ∈ a := by
      rcases List.mem_append.1 hm with hm | hm
      · exact hm
      · exact absurd (List.mem_map.2 ⟨_, hm, rfl⟩) hb
    obtain ⟨v', g1, g2, -⟩ := f2 n val hma
    rw [g2, g1 hp, hval, h.eff]
  · intro hn
    refine f1 n ?_
    have hg : it.getValue env n (some P) = .ok none := by
      rw [getValue_plain hp]
      cases hr : it.getRaw n (some P) with
      | none => rfl
      | some v =>
        obtain ⟨p0, hp0⟩ := Finset.nonempty_iff_ne_empty.2 h.ne
        exact absurd ((storedAs_plain hp p0 v).2 ((getRaw_iff h.wf n h.ne v).1 hr p0 hp0)) (hn p0 hp0 v)
    intro hm
    refine h.no n hg ?_
    rw [dkeys, List.map_append]
    exact List.mem_append_left _ hm

/-- the raw value read by `P` once its calls about the property were made -/
theorem Reading.raw {env : Env} {it it0 itm : Item} {G : List PSet} {P0 P : PSet} {l : List (Str × InVal)}
    (h : Reading env it it0 G P0 P l) (wfm : ItemWF env itm) {n : Str} (hrb : ReadBackS env it itm (G ++ [P]) n) (w : Val) :
    itm.getRaw n (some P) = some w ↔ ∀ p ∈ P, StoredAs env it n p w := by
  rw [getRaw_iff wfm n h.ne]
  have : ∀ p ∈ P, (Reads (itm.tab n) p w ↔ StoredAs env it n p w) := fun p hp =>
    reads_covered h.wf h.dfltG hrb ⟨P, by simp, hp⟩ (fun w _ hs => storedAs_of_default h.wf h.tame hs p) w
  exact ⟨fun hh p hp => (this p hp).1 (hh p hp), fun hh p hp => (this p hp).2 (hh p hp)⟩

theorem Reading.raw_plain {env : Env} {it it0 itm : Item} {G : List PSet} {P0 P : PSet} {l : List (Str × InVal)}
    (h : Reading env it it0 G P0 P l) (wfm : ItemWF env itm) {n : Str} (hp : Plain env n)
    (hrb : ReadBackS env it itm (G ++ [P]) n) : itm.getRaw n (some P) = it.getRaw n (some P) := by
  apply Option.ext
  intro w
  rw [h.raw wfm hrb, getRaw_iff h.wf n h.ne]
  simp only [storedAs_plain hp]

/-- the values behind placeholders while reading -/
theorem Reading.vals {env : Env} {it it0 : Item} {G : List PSet} {P0 P : PSet} {a b : List (Str × InVal)}
    (h : Reading env it it0 G P0 P (a ++ b)) {itm : Item} (hs : setAll env P0 a it0 = .ok itm)
    (hb : ∀ m ∈ [virtualQuantity, resourceSubType, connection], m ∉ dkeys b) (k : Ph) (hk : k ∈ enOrder) :
    phVals env itm P k = phVals env it P k := by
  have wfm := setAll_wf a h.wf0 hs
  obtain ⟨p1, p2, p3, -⟩ := names_plain env
  cases k with
  | en => exact absurd hk (by decide)
  | vq => simp only [phVals]; rw [h.raw_plain wfm p1 (h.plain hs p1 (hb _ (by simp)))]
  | rst => simp only [phVals]; rw [h.raw_plain wfm p2 (h.plain hs p2 (hb _ (by simp)))]
  | conn => simp only [phVals]; rw [h.raw_plain wfm p3 (h.plain hs p3 (hb _ (by simp)))]

theorem Reading.group {env : Env} {it it0 : Item} {G : List PSet} {P0 P : PSet} {l : List (Str × InVal)}
    (h : Reading env it it0 G P0 P l) {p : Prof} (hp : p ∈ P) :
    (∀ n, it.getValue env n (some P) = it.getValue env n (some {p})) ∧ phVals env it P = phVals env it {p} :=
  ⟨fun n => getValue_same (h.alike p hp) n, phVals_same (h.alike p hp)⟩

/-- all the values the group reads are tame -/
theorem Reading.tameVals {env : Env} {it it0 : Item} {G : List PSet} {P0 P : PSet} {l : List (Str × InVal)}
    (h : Reading env it it0 G P0 P l) (k : Ph) (v : Str) (hv : phVals env it P k = some v) : TameVal v := by
  obtain ⟨p0, hp0⟩ := Finset.nonempty_iff_ne_empty.2 h.ne
  rw [(h.group hp0).2] at hv
  exact phVals_tame h.wf h.tame p0 k v hv

/-- a name stored for all of the group -/
theorem Reading.storedAll {env : Env} {it it0 : Item} {G : List PSet} {P0 P : PSet} {l : List (Str × InVal)}
    (h : Reading env it it0 G P0 P l) (w : Val) :
    ((∀ p ∈ P, StoredAs env it (elementName env.ver) p w) ↔
      ∃ x, it.getValue env (elementName env.ver) (some P) = .ok (some (.str x)) ∧
        w = .str (hideAll (phVals env it P) enOrder x)) ∧
    ((∀ p ∈ P, StoredAs env it itemDescription p w) ↔
      ∃ x, it.getValue env itemDescription (some P) = .ok (some (.str x)) ∧
        w = .str (hideAll (phVals env it P) descOrder x)) := by
  obtain ⟨p0, hp0⟩ := Finset.nonempty_iff_ne_empty.2 h.ne
  constructor
  · constructor
    · intro hh
      have := (storedAs_en p0 w).1 (hh p0 hp0)
      rwa [← (h.group hp0).1, ← (h.group hp0).2] at this
    · intro hh p hp
      rw [storedAs_en, ← (h.group hp).1, ← (h.group hp).2]; exact hh
  · constructor
    · intro hh
      have := (storedAs_desc p0 w).1 (hh p0 hp0)
      rwa [← (h.group hp0).1, ← (h.group hp0).2] at this
    · intro hh p hp
      rw [storedAs_desc, ← (h.group hp).1, ← (h.group hp).2]; exact hh

/-- what is stored by the call about the name -/
theorem Reading.enCall {env : Env} {it it0 : Item} {G : List PSet} {P0 P : PSet} {a b : List (Str × InVal)}
    (h : Reading env it it0 G P0 P (a ++ b)) {itm : Item} (hs : setAll env P0 a it0 = .ok itm)
    (hb : ∀ m ∈ [virtualQuantity, resourceSubType, connection], m ∉ dkeys b) (x : Str) :
    itm.addWildcards env (elementName env.ver) (.str x) P = .ok (.str (hideAll (phVals env it P) enOrder x)) := by
  have hv := h.vals hs hb
  rw [addWildcards_en h.lit (fun k hk v hvv => h.tameVals k v (by rw [← hv k hk]; exact hvv))]
  have : ∀ (ks : List Ph) (s : Str), (∀ k ∈ ks, k ∈ enOrder) →
      hideAll (phVals env itm P) ks s = hideAll (phVals env it P) ks s := by
    intro ks
    induction ks with
    | nil => intro s _; rfl
    | cons k ks ih =>
      intro s hks
      rw [hideAll, hideAll, hv k (hks k (by simp)), ih _ (fun k hk => hks k (List.mem_cons_of_mem _ hk))]
  rw [this enOrder x (fun k hk => hk)]

/-- The name after the calls `a`, when no later call is about it. -/
theorem Reading.en {env : Env} {it it0 : Item} {G : List PSet} {P0 P : PSet} {a b : List (Str × InVal)}
    (h : Reading env it it0 G P0 P (a ++ b)) {itm : Item} (hs : setAll env P0 a it0 = .ok itm)
    (hord : ∀ val, (elementName env.ver, val) ∈ a ++ b → ∃ a1 b1, a = a1 ++ (elementName env.ver, val) :: b1 ∧
      ∀ m ∈ [virtualQuantity, resourceSubType, connection], m ∉ dkeys (b1 ++ b)) :
    ReadBackS env it itm (G ++ [P]) (elementName env.ver) := by
  obtain ⟨-, -, -, hned, hnrt, -, hnrs, -⟩ := names_plain env
  have hnd : (dkeys a).Nodup := by
    have := h.nodup
    rw [dkeys, List.map_append] at this
    exact (List.nodup_append.1 this).1
  refine readBackS_step h.wf h.tame h.wf0 h.ne h.case h.alike2 h.disj h.dflt ?_ ?_ (h.rb _)
  · intro v hv
    obtain ⟨x, hx, rfl⟩ := (h.storedAll v).1.1 hv
    obtain ⟨val, hm, hval⟩ := h.yes _ _ hx
    obtain ⟨a1, b1, rfl, hb1⟩ := hord val hm
    rw [setAll_append] at hs
    cases h1 : setAll env P0 a1 it0 with
    | error e => rw [h1] at hs; cases hs
    | ok it1 =>
      rw [h1] at hs
      simp only at hs
      rw [setAll] at hs
      have wf1 := setAll_wf a1 h.wf0 h1
      cases h2 : it1.setProperty env (elementName env.ver) val P0 false with
      | error e => rw [h2] at hs; cases hs
      | ok it2 =>
        rw [h2] at hs
        simp only at hs
        rw [dkeys, List.map_append, List.map_cons, List.nodup_append] at hnd
        obtain ⟨nd1, nd2, nd3⟩ := hnd
        rw [List.nodup_cons] at nd2
        obtain ⟨v', k1, wf2, k2, k3, k4, -⟩ := setProperty_spec wf1 h2
        obtain ⟨-, f1, -⟩ := setAll_nodup a1 h.wf0 nd1 h1
        obtain ⟨-, g1, -⟩ := setAll_nodup b1 wf2 nd2.2 hs
        have hna1 : elementName env.ver ∉ dkeys a1 := fun hh => nd3 _ hh _ (by simp) rfl
        have htab := f1 _ hna1
        have heff : it1.effProfiles (elementName env.ver) P0 = P := by rw [effProfiles_congr htab, h.eff]
        rw [hval, Item.updNs, if_neg hnrt, heff] at k1
        have h' : Reading env it it0 G P0 P (a1 ++ ((elementName env.ver, val) :: b1 ++ b)) := by
          rw [← List.append_assoc]; exact h
        rw [h'.enCall h1 (by
          intro m hm hmm
          rw [List.cons_append, dkeys, List.map_cons, List.mem_cons] at hmm
          rcases hmm with rfl | hmm
          · obtain ⟨q1, q2, q3, -⟩ := names_plain env
            simp only [List.mem_cons, List.not_mem_nil, or_false] at hm
            rcases hm with hm | hm | hm
            · exact q1.1 hm.symm
            · exact q2.1 hm.symm
            · exact q3.1 hm.symm
          · exact hb1 m hm hmm)] at k1
        cases k1
        rw [g1 _ nd2.1, k3, heff, htab]
  · intro hn
    obtain ⟨-, f1, -⟩ := setAll_nodup a h.wf0 hnd hs
    refine f1 _ ?_
    obtain ⟨p0, hp0⟩ := Finset.nonempty_iff_ne_empty.2 h.ne
    have hg : it.getValue env (elementName env.ver) (some P) = .ok none := by
      rw [(h.group hp0).1]
      rcases h.tame.name p0 with h' | ⟨x, h', -⟩
      · exact h'
      · exact absurd ((storedAs_en p0 _).2 ⟨x, h', rfl⟩) (hn p0 hp0 _)
    intro hm
    refine h.no _ hg ?_
    rw [dkeys, List.map_append]
    exact List.mem_append_left _ hm

/-- the name read by the group once its call was made -/
theorem Reading.enValue {env : Env} {it it0 itm : Item} {G : List PSet} {P0 P : PSet} {l : List (Str × InVal)}
    (h : Reading env it it0 G P0 P l) (wfm : ItemWF env itm) (hv : ∀ k ∈ enOrder, phVals env itm P k = phVals env it P k)
    (hrb : ReadBackS env it itm (G ++ [P]) (elementName env.ver)) :
    itm.getValue env (elementName env.ver) (some P) = it.getValue env (elementName env.ver) (some P) := by
  obtain ⟨p0, hp0⟩ := Finset.nonempty_iff_ne_empty.2 h.ne
  rcases h.tame.name p0 with h' | ⟨x, h', hx, hxv⟩
  · rw [← (h.group hp0).1] at h'
    rw [h']
    have : itm.getRaw (elementName env.ver) (some P) = none := by
      cases hr : itm.getRaw (elementName env.ver) (some P) with
      | none => rfl
      | some w =>
        obtain ⟨x, hx, -⟩ := (h.storedAll w).1.1 ((h.raw wfm hrb w).1 hr)
        rw [h'] at hx; cases hx
    unfold Item.getValue
    rw [this]
  · rw [← (h.group hp0).1] at h'
    rw [h']
    exact getValue_en_back h.lit (fun k _ v => h.tameVals k v) hv hx hxv.1
      ((h.raw wfm hrb _).2 ((h.storedAll _).1.2 ⟨x, h', rfl⟩))

/-- what is stored by the call about the description -/
theorem Reading.descCall {env : Env} {it it0 : Item} {G : List PSet} {P0 P : PSet} {a b : List (Str × InVal)}
    (h : Reading env it it0 G P0 P (a ++ b)) {itm : Item} (hs : setAll env P0 a it0 = .ok itm)
    (hb : ∀ m ∈ [virtualQuantity, resourceSubType, connection], m ∉ dkeys b)
    (hrb : ReadBackS env it itm (G ++ [P]) (elementName env.ver)) (x : Str) :
    itm.addWildcards env itemDescription (.str x) P = .ok (.str (hideAll (phVals env it P) descOrder x)) := by
  have hv0 := h.vals hs hb
  have wfm := setAll_wf a h.wf0 hs
  have hev := h.enValue wfm hv0 hrb
  have hv : phVals env itm P = phVals env it P := by
    funext k
    cases k with
    | en => simp only [phVals, hev]
    | vq => exact hv0 _ (by decide)
    | rst => exact hv0 _ (by decide)
    | conn => exact hv0 _ (by decide)
  obtain ⟨p0, hp0⟩ := Finset.nonempty_iff_ne_empty.2 h.ne
  rw [addWildcards_desc h.lit (fun k hk v hvv => h.tameVals k v (by rw [← hv]; exact hvv)) (by
    rw [hev, (h.group hp0).1]
    rcases h.tame.name p0 with h' | ⟨x, h', -⟩
    · exact ⟨_, h'⟩
    · exact ⟨_, h'⟩), hv]

end Cot
