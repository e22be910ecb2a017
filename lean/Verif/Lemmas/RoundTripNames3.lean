import Verif.Lemmas.RoundTripNames2
namespace Cot

/-- names come after what they may refer to -/
def Ordered (env : Env) (l : List (Str × InVal)) : Prop :=
  (∀ val, (elementName env.ver, val) ∈ l → ∃ a b, l = a ++ (elementName env.ver, val) :: b ∧
    ∀ m ∈ dkeys b, '_' ∈ m ∨ m = itemDescription) ∧
  (∀ val, (itemDescription, val) ∈ l → ∃ a b, l = a ++ (itemDescription, val) :: b ∧ ∀ m ∈ dkeys b, '_' ∈ m)

theorem split_unique {n : Str} {u u' : InVal} : ∀ {a b a' b' : List (Str × InVal)},
    a ++ (n, u) :: b = a' ++ (n, u') :: b' → (dkeys (a ++ (n, u) :: b)).Nodup → a = a' ∧ b = b'
  | [], b, [], b', h, _ => by
    simp only [List.nil_append, List.cons.injEq] at h
    exact ⟨rfl, h.2⟩
  | [], b, x :: a', b', h, hn => by
    simp only [List.nil_append, List.cons_append, List.cons.injEq] at h
    rw [List.nil_append, dkeys, List.map_cons, List.nodup_cons] at hn
    exact absurd (by rw [h.2]; simp) hn.1
  | x :: a, b, [], b', h, hn => by
    simp only [List.nil_append, List.cons_append, List.cons.injEq] at h
    rw [List.cons_append, dkeys, List.map_cons, List.nodup_cons] at hn
    refine absurd ?_ hn.1
    rw [h.1]; simp
  | x :: a, b, x' :: a', b', h, hn => by
    simp only [List.cons_append, List.cons.injEq] at h
    rw [List.cons_append, dkeys, List.map_cons, List.nodup_cons] at hn
    obtain ⟨e1, e2⟩ := split_unique h.2 hn.2
    exact ⟨by rw [h.1, e1], e2⟩

theorem ref_names (env : Env) : ∀ m ∈ [virtualQuantity, resourceSubType, connection], '_' ∉ m ∧ m ≠ elementName env.ver ∧
    m ≠ itemDescription := by
  cases env.ver <;> decide +kernel

theorem en_no_underscore (env : Env) : '_' ∉ elementName env.ver := by
  cases env.ver <;> decide +kernel

/-- the position of the name, seen from any later point -/
theorem Ordered.enSplit {env : Env} {a b : List (Str × InVal)} (ho : Ordered env (a ++ b)) (hnd : (dkeys (a ++ b)).Nodup)
    (hb : elementName env.ver ∉ dkeys b) {val : InVal} (hm : (elementName env.ver, val) ∈ a ++ b) :
    ∃ a1 b1, a = a1 ++ (elementName env.ver, val) :: b1 ∧
      ∀ m ∈ [virtualQuantity, resourceSubType, connection], m ∉ dkeys (b1 ++ b) := by
  have hma : (elementName env.ver, val) ∈ a := by
    rcases List.mem_append.1 hm with h | h
    · exact h
    · exact absurd (List.mem_map.2 ⟨_, h, rfl⟩) hb
  obtain ⟨a1, b1, rfl⟩ := List.append_of_mem hma
  obtain ⟨a2, b2, he, hb2⟩ := ho.1 val hm
  refine ⟨a1, b1, rfl, ?_⟩
  rw [List.append_assoc, List.cons_append] at he hnd
  obtain ⟨-, rfl⟩ := split_unique he hnd
  intro m hm hmb
  obtain ⟨q1, -, q3⟩ := ref_names env m hm
  rcases hb2 m hmb with h | h
  · exact q1 h
  · exact q3 h

theorem Reading.descPoint {env : Env} {it it0 : Item} {G : List PSet} {P0 P : PSet} {a b : List (Str × InVal)} {val : InVal}
    (h : Reading env it it0 G P0 P (a ++ (itemDescription, val) :: b))
    (ho : Ordered env (a ++ (itemDescription, val) :: b)) {itm : Item} (hs : setAll env P0 a it0 = .ok itm) (x : Str) :
    itm.addWildcards env itemDescription (.str x) P = .ok (.str (hideAll (phVals env it P) descOrder x)) := by
  obtain ⟨a2, b2, he, hb2⟩ := ho.2 val (by simp)
  obtain ⟨-, rfl⟩ := split_unique he h.nodup
  have hned := (names_plain env).2.2.2.1
  have hb : ∀ m ∈ [virtualQuantity, resourceSubType, connection], m ∉ dkeys ((itemDescription, val) :: b) := by
    intro m hm hmm
    obtain ⟨q1, -, q3⟩ := ref_names env m hm
    rw [dkeys, List.map_cons, List.mem_cons] at hmm
    rcases hmm with hmm | hmm
    · exact q3 hmm
    · exact q1 (hb2 m hmm)
  refine h.descCall hs hb ?_ x
  refine h.en hs (fun v hv => ho.enSplit h.nodup ?_ hv)
  intro hmm
  rw [dkeys, List.map_cons, List.mem_cons] at hmm
  rcases hmm with hmm | hmm
  · exact hned hmm
  · exact en_no_underscore env (hb2 _ hmm)

/-- The description after all the calls. -/
theorem Reading.desc {env : Env} {it it0 : Item} {G : List PSet} {P0 P : PSet} {l : List (Str × InVal)}
    (h : Reading env it it0 G P0 P l) (ho : Ordered env l) {itm : Item} (hs : setAll env P0 l it0 = .ok itm) :
    ReadBackS env it itm (G ++ [P]) itemDescription := by
  obtain ⟨-, -, -, hned, -, hnrt, -, hnrs⟩ := names_plain env
  refine readBackS_step h.wf h.tame h.wf0 h.ne h.case h.alike2 h.disj h.dflt ?_ ?_ (h.rb _)
  · intro v hv
    obtain ⟨x, hx, rfl⟩ := (h.storedAll v).2.1 hv
    obtain ⟨val, hm, hval⟩ := h.yes _ _ hx
    obtain ⟨a1, b1, rfl, hb1⟩ := ho.2 val hm
    rw [setAll_append] at hs
    cases h1 : setAll env P0 a1 it0 with
    | error e => rw [h1] at hs; cases hs
    | ok it1 =>
      rw [h1] at hs
      simp only at hs
      rw [setAll] at hs
      have wf1 := setAll_wf a1 h.wf0 h1
      cases h2 : it1.setProperty env itemDescription val P0 false with
      | error e => rw [h2] at hs; cases hs
      | ok it2 =>
        rw [h2] at hs
        simp only at hs
        have hnd := h.nodup
        rw [dkeys, List.map_append, List.map_cons, List.nodup_append] at hnd
        obtain ⟨nd1, nd2, nd3⟩ := hnd
        rw [List.nodup_cons] at nd2
        obtain ⟨v', k1, wf2, k2, k3, k4, -⟩ := setProperty_spec wf1 h2
        obtain ⟨-, f1, -⟩ := setAll_nodup a1 h.wf0 nd1 h1
        obtain ⟨-, g1, -⟩ := setAll_nodup b1 wf2 nd2.2 hs
        have hna1 : itemDescription ∉ dkeys a1 := fun hh => nd3 _ hh _ (by simp) rfl
        have htab := f1 _ hna1
        have heff : it1.effProfiles itemDescription P0 = P := by rw [effProfiles_congr htab, h.eff]
        rw [hval, Item.updNs, if_neg hnrt, heff, h.descPoint ho h1] at k1
        cases k1
        rw [g1 _ nd2.1, k3, heff, htab]
  · intro hn
    obtain ⟨-, f1, -⟩ := setAll_nodup l h.wf0 h.nodup hs
    refine f1 _ ?_
    obtain ⟨p0, hp0⟩ := Finset.nonempty_iff_ne_empty.2 h.ne
    have hg : it.getValue env itemDescription (some P) = .ok none := by
      rw [(h.group hp0).1]
      rcases h.tame.descr p0 with h' | ⟨x, h', -⟩
      · exact h'
      · exact absurd ((storedAs_desc p0 _).2 ⟨x, h', rfl⟩) (hn p0 hp0 _)
    exact fun hm => h.no _ hg hm

/-- Everything after all the calls. -/
theorem Reading.all {env : Env} {it it0 : Item} {G : List PSet} {P0 P : PSet} {l : List (Str × InVal)}
    (h : Reading env it it0 G P0 P l) (ho : Ordered env l) {itm : Item} (hs : setAll env P0 l it0 = .ok itm) (n : Str) :
    ReadBackS env it itm (G ++ [P]) n := by
  have h' : Reading env it it0 G P0 P (l ++ []) := by rw [List.append_nil]; exact h
  have ho' : Ordered env (l ++ []) := by rw [List.append_nil]; exact ho
  rcases name_cases env n with hp | rfl | rfl
  · exact h'.plain hs hp (by simp [dkeys])
  · exact h'.en hs (fun v hv => ho'.enSplit h'.nodup (by simp [dkeys]) hv)
  · exact h.desc ho hs

theorem readBackS_plain {env : Env} {it it' : Item} {G : List PSet} {n : Str} (hp : Plain env n) :
    ReadBackS env it it' G n ↔ ReadBack it it' G n := by
  unfold ReadBackS ReadBack
  simp only [storedAs_plain hp]

/-! ### the calls succeed -/

theorem setProperty_okW {env : Env} {it : Item} (wf : ItemWF env it) {name : Str} {val : InVal} {P : PSet} {v : Val}
    (hv : (it.updNs env name (normValue env name val)).addWildcards env name (normValue env name val)
      (it.effProfiles name P) = .ok v)
    (hid : name = instanceId env.ver ∨ name = resourceType → it.tab name = [] ∨ ∃ S, it.tab name = [(v, S)])
    (hd : ∀ w S, (w, S) ∈ it.tab name → S ∩ it.effProfiles name P = ∅) :
    ∃ it', it.setProperty env name val P false = .ok it' := by
  rw [setProperty_disjoint hd]
  have wf0 := updNs_wf wf name (normValue env name val)
  obtain ⟨it1, h1⟩ := storeProperty_ok wf0 (name := name) (v := v) (P := it.effProfiles name P)
  have hP := effProfiles_ne wf name P
  obtain ⟨k1, k2, k3, k4, k5, k6, k7, k8⟩ := storeProperty_spec wf0 hP h1
  rw [updNs_tab] at k4
  have hlen : ∀ m, m = instanceId env.ver ∨ m = resourceType → (it.tab m).length ≤ 1 → (it1.tab m).length ≤ 1 := by
    intro m hm hl
    by_cases he : m = name
    · subst he
      have h2 := setTab_same_length (P := it.effProfiles m P) (wf.tab m) (hid hm)
      rw [← k4] at h2
      simpa [collapseTab] using h2
    · rw [k3 m he, updNs_tab]; exact hl
  unfold Item.setProperty
  simp only [updNs_eff]
  rw [hv]
  simp only [bind, Except.bind, h1]
  split
  · refine ⟨_, validate_ok_of ?_ ?_ ?_⟩
    · exact hlen _ (Or.inl rfl) wf.oneId
    · exact hlen _ (Or.inr rfl) wf.oneType
    · intro n t hm
      exact validateTab_ok_of_collapse (k2 n t hm)
  · exact ⟨_, rfl⟩

theorem id_type_plain (env : Env) : Plain env (instanceId env.ver) ∧ Plain env resourceType := by
  unfold Plain
  cases env.ver <;> decide +kernel

theorem Reading.ok {env : Env} {it it0 : Item} {G : List PSet} {P0 P : PSet} {l : List (Str × InVal)}
    (h : Reading env it it0 G P0 P l) (ho : Ordered env l) : ∃ itm, setAll env P0 l it0 = .ok itm := by
  obtain ⟨-, -, -, hned, hnrt, hdrt, hnrs, hdrs⟩ := names_plain env
  obtain ⟨p0, hp0⟩ := Finset.nonempty_iff_ne_empty.2 h.ne
  have main : ∀ (k : Nat) (a b : List (Str × InVal)), a.length = k → l = a ++ b → ∃ itm, setAll env P0 a it0 = .ok itm := by
    intro k
    induction k with
    | zero =>
      intro a b hl _
      rw [List.length_eq_zero_iff.1 hl]; exact ⟨it0, rfl⟩
    | succ k ih =>
      intro a b hl he
      have hane : a ≠ [] := by rintro rfl; simp at hl
      obtain ⟨a', x, rfl⟩ : ∃ a' x, a = a' ++ [x] := ⟨a.dropLast, a.getLast hane, (List.dropLast_append_getLast hane).symm⟩
      obtain ⟨n, val⟩ := x
      rw [List.append_assoc, List.singleton_append] at he
      obtain ⟨itm, hs⟩ := ih a' ((n, val) :: b) (by simpa using hl) he
      have wfm := setAll_wf a' h.wf0 hs
      rw [setAll_append, hs]
      simp only
      suffices ∃ it', itm.setProperty env n val P0 false = .ok it' by
        obtain ⟨it', hh⟩ := this
        exact ⟨it', by rw [setAll, hh]; rfl⟩
      subst he
      have hnd := h.nodup
      rw [dkeys, List.map_append, List.map_cons, List.nodup_append] at hnd
      obtain ⟨nd1, nd2, nd3⟩ := hnd
      have hna : n ∉ dkeys a' := fun hh => nd3 _ hh _ (by simp) rfl
      obtain ⟨-, f1, -⟩ := setAll_nodup a' h.wf0 nd1 hs
      have htab := f1 n hna
      have heff : itm.effProfiles n P0 = P := by rw [effProfiles_congr htab, h.eff]
      obtain ⟨v, hg, hval⟩ := h.calls n val (by simp)
      have hd : ∀ w S, (w, S) ∈ itm.tab n → S ∩ itm.effProfiles n P0 = ∅ := by
        intro w S hwS
        rw [heff]
        rw [htab] at hwS
        ext q
        simp only [Finset.mem_inter, Finset.notMem_empty, iff_false]
        rintro ⟨hq1, hq2⟩
        obtain ⟨⟨g, hgm, hqg⟩, -⟩ := (h.rb n q w).1 ⟨S, hwS, hq1⟩
        exact h.disj g hgm q hq2 hqg
      have hnotid : ¬ Plain env n → ¬ (n = instanceId env.ver ∨ n = resourceType) := by
        rintro hnp (rfl | rfl)
        · exact hnp (id_type_plain env).1
        · exact hnp (id_type_plain env).2
      rcases name_cases env n with hp | rfl | rfl
      · refine setProperty_okW wfm (v := v) ?_ ?_ hd
        · rw [hval, addWildcards_plain hp]
        · intro hh
          rw [htab]
          have hr : Reads (it.tab n) p0 v := by
            rw [getValue_plain hp] at hg
            simp only [Except.ok.injEq] at hg
            exact (getRaw_iff h.wf n h.ne v).1 hg p0 hp0
          refine single_of_readBack h.wf0 ((readBackS_plain hp).1 (h.rb n)) ?_ hr
          rcases hh with rfl | rfl
          · exact h.wf.oneId
          · exact h.wf.oneType
      · have hx : ∃ x, v = .str x := by
          rw [(h.group hp0).1] at hg
          rcases h.tame.name p0 with h' | ⟨x, h', -⟩
          · rw [h'] at hg; cases hg
          · rw [h'] at hg; cases hg; exact ⟨x, rfl⟩
        obtain ⟨x, rfl⟩ := hx
        refine setProperty_okW wfm (v := .str (hideAll (phVals env it P) enOrder x)) ?_
          (fun hh => absurd hh (hnotid (fun hq => hq.1 rfl))) hd
        rw [hval, Item.updNs, if_neg hnrt, heff]
        refine h.enCall hs ?_ x
        obtain ⟨a2, b2, he2, hb2⟩ := ho.1 val (by simp)
        obtain ⟨-, rfl⟩ := split_unique he2 h.nodup
        intro m hm hmm
        obtain ⟨q1, q2, q3⟩ := ref_names env m hm
        rw [dkeys, List.map_cons, List.mem_cons] at hmm
        rcases hmm with hmm | hmm
        · exact q2 hmm
        · rcases hb2 m hmm with h | h
          · exact q1 h
          · exact q3 h
      · have hx : ∃ x, v = .str x := by
          rw [(h.group hp0).1] at hg
          rcases h.tame.descr p0 with h' | ⟨x, h', -⟩
          · rw [h'] at hg; cases hg
          · rw [h'] at hg; cases hg; exact ⟨x, rfl⟩
        obtain ⟨x, rfl⟩ := hx
        refine setProperty_okW wfm (v := .str (hideAll (phVals env it P) descOrder x)) ?_
          (fun hh => absurd hh (hnotid (fun hq => hq.2 rfl))) hd
        rw [hval, Item.updNs, if_neg hdrt, heff]
        exact h.descPoint ho hs x
  exact main l.length l [] rfl (by simp)

/-! ### one generated element, all of them -/

theorem readBackS_ns {env : Env} {it it' : Item} {G : List PSet} {n ns : Str} (h : ReadBackS env it it' G n) :
    ReadBackS env it { it' with ns := ns } G n := h

theorem getValue_alike_ok {env : Env} {it : Item} (ht : TameItem env it) (n : Str) (p : Prof) :
    ∃ ov, it.getValue env n (some {p}) = .ok ov := by
  rcases name_cases env n with hp | rfl | rfl
  · exact ⟨_, getValue_plain hp _⟩
  · rcases ht.name p with h | ⟨x, h, -⟩ <;> exact ⟨_, h⟩
  · rcases ht.descr p with h | ⟨x, h, -⟩ <;> exact ⟨_, h⟩

theorem getValue_truthy {env : Env} {it : Item} (wf : ItemWF env it) (ht : TameItem env it) {n : Str} {p : Prof} {v : Val}
    (h : it.getValue env n (some {p}) = .ok (some v)) : v.truthy = true ∧ n ∈ dkeys it.props := by
  constructor
  · rcases name_cases env n with hp | rfl | rfl
    · rw [getValue_plain hp] at h
      simp only [Except.ok.injEq] at h
      exact reads_truthy (wf.tab n) ((getRaw_single wf n p v).1 h)
    · rcases ht.name p with h' | ⟨x, h', -, hx⟩
      · rw [h'] at h; cases h
      · rw [h'] at h; cases h; simp [Val.truthy, hx.1]
    · rcases ht.descr p with h' | ⟨x, h', -, hx⟩
      · rw [h'] at h; cases h
      · rw [h'] at h; cases h; simp [Val.truthy, hx]
  · cases hr : it.getRaw n (some {p}) with
    | none => unfold Item.getValue at h; rw [hr] at h; cases h
    | some u => exact reads_key ((getRaw_single wf n p u).1 hr)

/-- reading one generated element -/
theorem addElem_names {env : Env} {x : Str} {it it' : Item} (wf : ItemWF env it) (ht : TameItem env it)
    (hl : LiteralSub env) (hns : it.ns = braced x) (hw : AllWritable env it) {tag ns : Str}
    (htag : namespaceForItemTag env.ver tag = some ns) (wf' : ItemWF env it') {G : List PSet} {s : Str} {e : Elem}
    (hgen : it.genItem env tag s = .ok e) (hne : stringSet s ≠ ∅)
    (hcase : s ≠ [] ∨ (G = [] ∧ it'.props = []))
    (halike : ∀ p ∈ stringSet s, ∀ q ∈ stringSet s, ∀ S ∈ it.storedSets, p ∈ S ↔ q ∈ S)
    (hdisj : ∀ g ∈ G, ∀ p ∈ stringSet s, p ∉ g) (hdflt : ∀ g ∈ G, none ∈ g → g = {none})
    (hrb : ∀ n, ReadBackS env it it' G n) :
    ∃ it'', it'.addItem env e = .ok it'' ∧ ItemWF env it'' ∧ ∀ n, ReadBackS env it it'' (G ++ [stringSet s]) n := by
  obtain ⟨c1, c2, c3, -⟩ := genItem_spec wf.names hns hw hgen
  have hnd : (dkeys (addItemCalls env e)).Nodup :=
    (c1.map Prod.fst).nodup_iff.2 (emitted_nodup ((strSort_perm _).nodup_iff.2 wf.names))
  obtain ⟨p0, hp0⟩ := Finset.nonempty_iff_ne_empty.2 hne
  have hgroup : ∀ p ∈ stringSet s, ∀ m, it.getRaw m (some (stringSet s)) = it.getRaw m (some {p}) :=
    fun p hp m => getRaw_alike wf halike hp m
  have hgv : ∀ n, it.getValue env n (some (stringSet s)) = it.getValue env n (some {p0}) :=
    fun n => getValue_same (hgroup p0 hp0) n
  have hset : s ≠ [] → stringSet s = ((splitWs s).map some).toFinset := fun h => by unfold stringSet; rw [if_neg h]
  have hR : Reading env it { it' with ns := ns } G (elemProfiles env.ver e) (stringSet s) (addItemCalls env e) :=
    { wf := wf, tame := ht, lit := hl, wf0 := wf'.setNs ns, ne := hne
      eff := by
        intro m
        rw [c3]
        by_cases hs : s = []
        · rcases hcase with h | ⟨-, h⟩
          · exact absurd hs h
          · subst hs
            have : (((splitWs []).map some).toFinset : PSet) = ∅ := rfl
            rw [this]
            simp [Item.effProfiles, Item.allProfiles, h, stringSet]
        · rw [← hset hs, effProfiles_of_ne _ m hne]
      case := by
        rcases hcase with h | ⟨h, -⟩
        · left; rw [hset h]; simp
        · by_cases hs : s = []
          · right; subst hs; exact ⟨by simp [stringSet], h⟩
          · left; rw [hset hs]; simp
      alike := hgroup, disj := hdisj, dflt := hdflt, nodup := hnd
      yes := by
        intro n v hv
        have hv' := hv
        rw [hgv] at hv'
        obtain ⟨t1, t2⟩ := getValue_truthy wf ht hv'
        refine ⟨.str (outStr env n v), ?_, normValue_outStr (hw _ n v t2 hv t1) t1⟩
        refine c1.mem_iff.2 (List.mem_filterMap.2 ⟨n, (strSort_perm _).mem_iff.2 t2, ?_⟩)
        unfold emitted1
        rw [hv]
        simp [t1]
      no := by
        intro n hv hm
        obtain ⟨⟨m, val⟩, hm', he⟩ := List.mem_map.1 hm
        simp only at he; subst he
        obtain ⟨_, v, h1, _, _⟩ := emitted_names _ (c1.mem_iff.1 hm')
        rw [hv] at h1; cases h1
      calls := by
        intro n val hm
        obtain ⟨hn, v, hg, htr, rfl⟩ := emitted_names _ (c1.mem_iff.1 hm)
        have hn' := (strSort_perm _).mem_iff.1 hn
        exact ⟨v, hg, normValue_outStr (hw _ n v hn' hg htr) htr⟩
      rb := hrb }
  have ho : Ordered env (addItemCalls env e) := ⟨fun val h => calls_en h hnd, fun val h => calls_desc h hnd⟩
  obtain ⟨it1, h1⟩ := hR.ok ho
  obtain ⟨it'', h2⟩ := addItem_ok wf' (ns := ns) (by rw [c2]; exact htag) ⟨it1, h1⟩
  obtain ⟨ns', it1', -, hall, wf2, heq, hns'⟩ := addItem_inv wf' h2
  have : ns' = ns := by
    rw [c2, htag] at hns'
    exact (Option.some.inj hns').symm
  subst this
  rw [h1] at hall
  cases hall
  refine ⟨it'', h2, wf2, fun n => ?_⟩
  have := hR.all ho h1 n
  intro p w
  rw [heq]
  exact this p w

theorem addElems_names {env : Env} {x : Str} {it : Item} (wf : ItemWF env it) (ht : TameItem env it)
    (hl : LiteralSub env) (hns : it.ns = braced x) (hw : AllWritable env it) {tag ns : Str}
    (htag : namespaceForItemTag env.ver tag = some ns) :
    ∀ (ss : List Str) (els : List Elem) (G : List PSet) (it' : Item), ItemWF env it' →
    mapE (it.genItem env tag) ss = .ok els →
    (∀ s ∈ ss, stringSet s ≠ ∅) →
    ((∀ s ∈ ss, s ≠ []) ∨ (G = [] ∧ it'.props = [] ∧ ∃ r, ss = [] :: r ∧ ∀ s ∈ r, s ≠ [])) →
    (∀ s ∈ ss, ∀ p ∈ stringSet s, ∀ q ∈ stringSet s, ∀ S ∈ it.storedSets, p ∈ S ↔ q ∈ S) →
    (G ++ ss.map stringSet).Pairwise (fun a b => a ∩ b = ∅) →
    (∀ g ∈ G, none ∈ g → g = {none}) →
    (∀ n, ReadBackS env it it' G n) →
    ∃ it'', addItems env els it' = .ok it'' ∧ ItemWF env it'' ∧ ∀ n, ReadBackS env it it'' (G ++ ss.map stringSet) n
  | [], els, G, it', wf', hm, _, _, _, _, _, hrb => by
    simp only [mapE, Except.ok.injEq] at hm; subst hm
    exact ⟨it', rfl, wf', by simpa using hrb⟩
  | s :: ss, els, G, it', wf', hm, hgood, hcase, halike, hdisj, hdflt, hrb => by
    obtain ⟨e, es, h1, h2, rfl⟩ := mapE_cons hm
    have hdj : ∀ g ∈ G, ∀ p ∈ stringSet s, p ∉ g := by
      intro g hg p hp hpg
      have := (List.pairwise_append.1 hdisj).2.2 g hg (stringSet s) (by simp)
      exact absurd (Finset.mem_inter.2 ⟨hpg, hp⟩) (by rw [this]; simp)
    have hc1 : s ≠ [] ∨ (G = [] ∧ it'.props = []) := by
      rcases hcase with h | ⟨h, h', -⟩
      · exact Or.inl (h s (by simp))
      · exact Or.inr ⟨h, h'⟩
    obtain ⟨it1, g1, wf1, g2⟩ := addElem_names wf ht hl hns hw htag wf' h1 (hgood s (by simp)) hc1 (halike s (by simp))
      hdj hdflt hrb
    have hc2 : ∀ t ∈ ss, t ≠ [] := by
      rcases hcase with h | ⟨-, -, r, hr, h⟩
      · exact fun t ht => h t (List.mem_cons_of_mem _ ht)
      · cases hr; exact h
    obtain ⟨it'', k1, k2, k3⟩ := addElems_names wf ht hl hns hw htag ss es (G ++ [stringSet s]) it1 wf1 h2
      (fun t ht => hgood t (List.mem_cons_of_mem _ ht)) (Or.inl hc2)
      (fun t ht => halike t (List.mem_cons_of_mem _ ht))
      (by simpa using hdisj)
      (by
        intro g hg hn
        rcases List.mem_append.1 hg with hg | hg
        · exact hdflt g hg hn
        · rw [List.mem_singleton] at hg; subst hg
          by_cases hs : s = []
          · subst hs; simp [stringSet]
          · unfold stringSet at hn; rw [if_neg hs] at hn; simp at hn)
      g2
    exact ⟨it'', by rw [addItems, g1]; exact k1, k2, by simpa using k3⟩

end Cot
