import Verif.Lemmas.ItemOps
import Verif.Model.ItemXml
namespace Cot

/-! ### reading -/

theorem getValue_plain {env : Env} {it : Item} {n : Str} (h : Plain env n) (P : Option PSet) :
    it.getValue env n P = .ok (it.getRaw n P) := by
  unfold Item.getValue
  cases hr : it.getRaw n P with
  | none => rfl
  | some v =>
    have hn : ¬ (n = elementName env.ver ∨ n = itemDescription) := by
      unfold Plain at h; tauto
    have : it.replaceWildcards env n v P = .ok v := by
      unfold Item.replaceWildcards; rw [if_neg hn]; split <;> rfl
    simp only [this, bind, Except.bind, if_neg hn]
    rfl

theorem getRaw_iff {env : Env} {it : Item} (wf : ItemWF env it) (n : Str) {P : PSet} (hP : P ≠ ∅)
    (v : Val) : it.getRaw n (some P) = some v ↔ ∀ p ∈ P, Reads (it.tab n) p v :=
  getScan_spec (wf.tab n) hP v

theorem getRaw_single {env : Env} {it : Item} (wf : ItemWF env it) (n : Str) (p : Prof) (v : Val) :
    it.getRaw n (some {p}) = some v ↔ Reads (it.tab n) p v := by
  rw [getRaw_iff wf n (by simp)]; simp

theorem getRaw_congr {env env' : Env} {it it' : Item} (wf : ItemWF env it) (wf' : ItemWF env' it')
    (n : Str) {P : PSet} (hP : P ≠ ∅)
    (h : ∀ p ∈ P, ∀ w, Reads (it.tab n) p w ↔ Reads (it'.tab n) p w) :
    it.getRaw n (some P) = it'.getRaw n (some P) := by
  apply Option.ext
  intro v
  rw [getRaw_iff wf n hP, getRaw_iff wf' n hP]
  constructor
  · intro hh p hp; exact (h p hp v).1 (hh p hp)
  · intro hh p hp; exact (h p hp v).2 (hh p hp)

theorem getValue_congr {env : Env} {it it' : Item} (wf : ItemWF env it) (wf' : ItemWF env it')
    {n : Str} (hn : Plain env n) {P : PSet} (hP : P ≠ ∅)
    (h : ∀ p ∈ P, ∀ w, Reads (it.tab n) p w ↔ Reads (it'.tab n) p w) :
    it.getValue env n (some P) = it'.getValue env n (some P) := by
  rw [getValue_plain hn, getValue_plain hn, getRaw_congr wf wf' n hP h]

theorem ItemWF.congr {env env' : Env} {it : Item} (wf : ItemWF env it) (h : env'.ver = env.ver) :
    ItemWF env' it := ⟨wf.names, wf.tabs, by rw [h]; exact wf.oneId, wf.oneType, wf.typed⟩

theorem ItemWF.flag {env : Env} {it : Item} (wf : ItemWF env it) (m : Bool) :
    ItemWF env { it with modified := m } := ⟨wf.names, wf.tabs, wf.oneId, wf.oneType, wf.typed⟩

theorem ItemWF.setNs {env : Env} {it : Item} (wf : ItemWF env it) (s : Str) :
    ItemWF env { it with ns := s } := ⟨wf.names, wf.tabs, wf.oneId, wf.oneType, wf.typed⟩

theorem getValue_congr_all {env : Env} {it it' : Item} {P : Option PSet}
    (h : ∀ m, it.getRaw m P = it'.getRaw m P) (n : Str) :
    it.getValue env n P = it'.getValue env n P := by
  unfold Item.getValue Item.replaceWildcards
  simp only [h]

/-! ### has_profile -/

theorem allProfiles_iff {it : Item} {n : Str} :
    (∃ S, it.allProfiles n = some S) ↔ it.tab n ≠ [] := by
  unfold Item.allProfiles Item.tab
  cases dget? it.props n with
  | none => simp
  | some t => cases t <;> simp

theorem allProfiles_some {it : Item} {n : Str} {S : PSet} (h : it.allProfiles n = some S) :
    S = tabUnion (it.tab n) := by
  unfold Item.allProfiles at h
  unfold Item.tab
  revert h
  cases dget? it.props n with
  | none => simp
  | some t => cases t <;> simp [eq_comm]

/-- an item exists under a profile iff its InstanceID is stored for it, or for the default and the
profile is configured -/
theorem hasProfile_iff {env : Env} {it : Item} {p : Prof} :
    it.hasProfile env p = true ↔
      (∃ v, Explicit (it.tab (instanceId env.ver)) p v) ∨
      ((∃ v, Explicit (it.tab (instanceId env.ver)) none v) ∧ p ∈ env.cfgSet) := by
  unfold Item.hasProfile
  cases h : it.allProfiles (instanceId env.ver) with
  | none =>
    have : it.tab (instanceId env.ver) = [] := by
      by_contra hc
      obtain ⟨S, hS⟩ := allProfiles_iff.2 hc
      rw [h] at hS; cases hS
    simp [this, Explicit]
  | some S =>
    have := allProfiles_some h
    subst this
    simp [mem_tabUnion]

/-! ### add_profile -/

theorem explicit_mem_iff_reads {t : Tab} (p : Prof) (w : Val) :
    Explicit t p w → Reads t p w := Or.inl

theorem normValue_toIn {env : Env} {n : Str} {v : Val} (h : v.isTup = true ↔ n = resourceSubType) :
    normValue env n v.toIn = v := by
  cases v with
  | str s =>
    have : n ≠ resourceSubType := by
      intro hn; have := h.2 hn; simp [Val.isTup] at this
    simp [normValue, this, Val.toIn]
  | tup l =>
    have : n = resourceSubType := h.1 rfl
    subst this
    simp [normValue, Val.toIn]

theorem effProfiles_single (it : Item) (n : Str) (p : Prof) : it.effProfiles n {p} = {p} := by
  unfold Item.effProfiles; rw [if_neg (by simp)]

theorem effProfiles_of_ne (it : Item) (n : Str) {P : PSet} (h : P ≠ ∅) : it.effProfiles n P = P := by
  unfold Item.effProfiles; rw [if_neg h]

theorem cloneValue_mem {t : Tab} {v : Val} (h : cloneValue t = some v) :
    ∃ S, (v, S) ∈ t ∧ (none ∈ S ∨ t.length = 1) := by
  unfold cloneValue at h
  rw [Option.map_eq_some_iff] at h
  obtain ⟨⟨a, S⟩, h1, rfl⟩ := h
  have hm := List.mem_of_find?_eq_some h1
  have hp := List.find?_some h1
  simp at hp
  exact ⟨S, hm, hp⟩

theorem cloneValue_iff {t : Tab} (wf : TabWF t) (v : Val) : cloneValue t = some v ↔ Inheritable t v := by
  constructor
  · intro h
    obtain ⟨S, hm, hn | hl⟩ := cloneValue_mem h
    · exact Or.inl ⟨S, hm, hn⟩
    · right
      obtain ⟨a, rfl⟩ := List.length_eq_one_iff.1 hl
      simp at hm; exact ⟨S, by rw [hm]⟩
  · rintro (⟨S, hm, hn⟩ | ⟨S, rfl⟩)
    · cases hc : cloneValue t with
      | none =>
        unfold cloneValue at hc
        rw [Option.map_eq_none_iff, List.find?_eq_none] at hc
        have := hc _ hm; simp [hn] at this
      | some w =>
        obtain ⟨S', hm', hn' | hl⟩ := cloneValue_mem hc
        · rw [wf.functional none w v ⟨S', hm', hn'⟩ ⟨S, hm, hn⟩]
        · obtain ⟨a, rfl⟩ := List.length_eq_one_iff.1 hl
          simp at hm hm'; rw [← hm] at hm'; cases hm'; rfl
    · simp [cloneValue]

theorem addProfileLoop_spec {env : Env} {p : Prof} {src : Option Item}
    (wfs : ∀ s, src = some s → ItemWF env s) : ∀ (names : List Str) {it it' : Item},
    ItemWF env it → names.Nodup → addProfileLoop env p src names it = .ok it' →
    ItemWF env it' ∧ (∀ n, n ∉ names → it'.tab n = it.tab n) ∧
    (∀ n, n ∈ names → (src.getD it).tab n = [] → it'.tab n = it.tab n) ∧
    (∀ n, n ∈ names → (src.getD it).tab n ≠ [] → ∃ v v', Inheritable ((src.getD it).tab n) v ∧
        it'.tab n = collapseTab (setTab v' {p} (it.tab n)) ∧ (Plain env n → v' = v))
  | [], it, it', wf, _, h => by
    simp only [addProfileLoop, Except.ok.injEq] at h; subst h; simp [wf]
  | name :: rest, it, it', wf, hnd, h => by
    have hnd' := List.nodup_cons.1 hnd
    unfold addProfileLoop at h
    simp only at h
    have wfsrc : ItemWF env (src.getD it) := by
      cases src with
      | none => exact wf
      | some s => exact wfs s rfl
    by_cases ht : (src.getD it).tab name = []
    · rw [if_pos ht] at h
      obtain ⟨i1, i2, i3, i4⟩ := addProfileLoop_spec wfs rest wf hnd'.2 h
      refine ⟨i1, ?_, ?_, ?_⟩
      · intro n hn; exact i2 n (fun h => hn (List.mem_cons_of_mem _ h))
      · intro n hn ht'
        rcases List.mem_cons.1 hn with rfl | hn
        · exact i2 _ hnd'.1
        · exact i3 n hn ht'
      · intro n hn ht'
        rcases List.mem_cons.1 hn with rfl | hn
        · exact absurd ht ht'
        · exact i4 n hn ht'
    · rw [if_neg ht] at h
      cases hc : cloneValue ((src.getD it).tab name) with
      | none => rw [hc] at h; cases h
      | some v =>
        rw [hc] at h
        simp only at h
        cases hs : it.setProperty env name v.toIn {p} true with
        | error e => rw [hs] at h; cases h
        | ok it1 =>
          rw [hs] at h
          simp only at h
          obtain ⟨S, hm, _⟩ := cloneValue_mem hc
          have hnv : normValue env name v.toIn = v := normValue_toIn (wfsrc.typed _ _ _ hm)
          obtain ⟨v', e1, e2, e3, e4, _⟩ := setProperty_spec wf hs
          rw [effProfiles_single] at e1 e4
          obtain ⟨i1, i2, i3, i4⟩ := addProfileLoop_spec wfs rest e2 hnd'.2 h
          have hsrc : ∀ n, n ≠ name → (src.getD it1).tab n = (src.getD it).tab n := by
            intro n hn
            cases src with
            | none => exact e3 n hn
            | some s => rfl
          refine ⟨i1, ?_, ?_, ?_⟩
          · intro n hn
            rw [i2 n (fun h => hn (List.mem_cons_of_mem _ h)), e3 n (fun h => hn (by simp [h]))]
          · intro n hn ht'
            rcases List.mem_cons.1 hn with rfl | hn
            · exact absurd ht' ht
            · have hne : n ≠ name := fun h => hnd'.1 (h ▸ hn)
              rw [i3 n hn (by rw [hsrc n hne]; exact ht'), e3 n hne]
          · intro n hn ht'
            rcases List.mem_cons.1 hn with rfl | hn
            · refine ⟨v, v', (cloneValue_iff (wfsrc.tab n) v).1 hc, ?_, ?_⟩
              · rw [i2 n hnd'.1, e4]
              · intro hp
                rw [hnv, addWildcards_plain hp] at e1
                cases e1; rfl
            · have hne : n ≠ name := fun h => hnd'.1 (h ▸ hn)
              obtain ⟨a, b, h1, h2, h3⟩ := i4 n hn (by rw [hsrc n hne]; exact ht')
              rw [hsrc n hne] at h1
              rw [e3 n hne] at h2
              exact ⟨a, b, h1, h2, h3⟩

theorem addProfile_spec {env : Env} {it it' : Item} {p : Prof} {src : Option Item}
    (wf : ItemWF env it) (wfs : ∀ s, src = some s → ItemWF env s)
    (hp : it.hasProfile env p = false) (h : it.addProfile env p src = .ok it') :
    ItemWF env it' ∧
    (∀ n, (src.getD it).tab n = [] → it'.tab n = it.tab n) ∧
    (∀ n, (src.getD it).tab n ≠ [] → ∃ v v', Inheritable ((src.getD it).tab n) v ∧
        it'.tab n = collapseTab (setTab v' {p} (it.tab n)) ∧ (Plain env n → v' = v)) := by
  unfold Item.addProfile at h
  rw [if_neg (by simp [hp])] at h
  have wfsrc : ItemWF env (src.getD it) := by
    cases src with
    | none => exact wf
    | some s => exact wfs s rfl
  cases hg : dget? (src.getD it).props (instanceId env.ver) with
  | none => rw [hg] at h; cases h
  | some t0 =>
    rw [hg] at h
    simp only at h
    cases hl : addProfileLoop env p src (dkeys (src.getD it).props) it with
    | error e => rw [hl] at h; cases h
    | ok it1 =>
      rw [hl] at h
      simp only at h
      obtain ⟨i1, i2, i3, i4⟩ := addProfileLoop_spec wfs _ wf wfsrc.names hl
      rw [(i1.flag true).validate] at h
      cases h
      have hk : ∀ n, n ∉ dkeys (src.getD it).props → (src.getD it).tab n = [] := by
        intro n hn; simp [Item.tab, dget?_eq_none.2 hn]
      refine ⟨i1.flag true, ?_, ?_⟩
      · intro n ht
        by_cases hn : n ∈ dkeys (src.getD it).props
        · exact i3 n hn ht
        · exact i2 n hn
      · intro n ht
        have hn : n ∈ dkeys (src.getD it).props := by
          by_contra hc; exact ht (hk n hc)
        exact i4 n hn ht

theorem addProfile_wf {env : Env} {it it' : Item} {p : Prof} {src : Option Item}
    (wf : ItemWF env it) (wfs : ∀ s, src = some s → ItemWF env s)
    (h : it.addProfile env p src = .ok it') : ItemWF env it' := by
  by_cases hp : it.hasProfile env p = true
  · unfold Item.addProfile at h; rw [if_pos hp] at h; cases h; exact wf
  · exact (addProfile_spec wf wfs (by simpa using hp) h).1

/-! ### add_item -/

theorem setAll_wf {env : Env} {P : PSet} : ∀ (l : List (Str × InVal)) {it it' : Item},
    ItemWF env it → setAll env P l it = .ok it' → ItemWF env it'
  | [], it, it', wf, h => by simp only [setAll, Except.ok.injEq] at h; subst h; exact wf
  | (n, v) :: r, it, it', wf, h => by
    unfold setAll at h
    cases hs : it.setProperty env n v P false with
    | error e => rw [hs] at h; cases h
    | ok it1 =>
      rw [hs] at h
      obtain ⟨_, _, w, _⟩ := setProperty_spec wf hs
      exact setAll_wf r w h

theorem explicit_set_named {v : Val} {P : PSet} {t : Tab} (wf : TabWF t) (hn : none ∉ P)
    (hd : ∀ w S, (w, S) ∈ t → S ∩ P = ∅) (p : Prof) (w : Val) :
    (Explicit t p w → Explicit (collapseTab (setTab v P t)) p w) ∧
    (p ∉ P → Explicit (collapseTab (setTab v P t)) p w → Explicit t p w) := by
  have hdis : ∀ q u, Explicit t q u → q ∉ P := by
    rintro q u ⟨S, hm, hq⟩ hqP
    have := hd u S hm
    exact absurd (Finset.mem_inter.2 ⟨hq, hqP⟩) (by rw [this]; simp)
  rw [explicit_collapseTab _ _ _ (setTab_keys wf)]
  by_cases hv : v.truthy = true
  · rw [explicit_setTab wf hv, explicit_setTab wf hv]
    constructor
    · intro h
      refine ⟨?_, ?_⟩
      · by_cases hw : w = v
        · subst hw; exact Or.inr ⟨rfl, Or.inl h⟩
        · exact Or.inl ⟨hw, hdis _ _ h, h⟩
      · rintro (⟨_, _, h2⟩ | ⟨rfl, h2 | ⟨h2, _⟩⟩)
        · exact wf.dflt_alone h2 h
        · exact wf.dflt_alone h2 h
        · exact absurd h2 hn
    · rintro hp ⟨⟨_, _, h⟩ | ⟨rfl, h | ⟨h, _⟩⟩, _⟩
      · exact h
      · exact h
      · exact absurd h hp
  · have hv' : v.truthy = false := by simpa using hv
    rw [explicit_updTab_falsy wf hv', explicit_updTab_falsy wf hv']
    constructor
    · intro h
      exact ⟨⟨hdis _ _ h, h⟩, fun h2 => wf.dflt_alone h2.2 h⟩
    · rintro hp ⟨⟨_, h⟩, _⟩; exact h

theorem setAll_named {env : Env} {P : PSet} (hP : P ≠ ∅) (hn : none ∉ P) :
    ∀ (l : List (Str × InVal)) {it it' : Item},
    ItemWF env it → setAll env P l it = .ok it' → ∀ n p w,
      (Explicit (it.tab n) p w → Explicit (it'.tab n) p w) ∧
      (p ∉ P → Explicit (it'.tab n) p w → Explicit (it.tab n) p w)
  | [], it, it', wf, h, n, p, w => by
    simp only [setAll, Except.ok.injEq] at h; subst h; exact ⟨id, fun _ => id⟩
  | (m, v) :: r, it, it', wf, h, n, p, w => by
    unfold setAll at h
    cases hs : it.setProperty env m v P false with
    | error e => rw [hs] at h; cases h
    | ok it1 =>
      rw [hs] at h
      obtain ⟨v', _, wf1, e3, e4, e5, _⟩ := setProperty_spec wf hs
      rw [effProfiles_of_ne it m hP] at e4 e5
      have ih := setAll_named hP hn r wf1 h n p w
      by_cases hnm : n = m
      · subst hnm
        rw [e4] at ih
        have st := explicit_set_named (v := v') (wf.tab n) hn (e5 rfl) p w
        exact ⟨fun h => ih.1 (st.1 h), fun hp h => st.2 hp (ih.2 hp h)⟩
      · rw [e3 n hnm] at ih; exact ih

theorem setAll_default {env : Env} : ∀ (l : List (Str × InVal)) {it it' : Item},
    ItemWF env it → setAll env ∅ l it = .ok it' → ∀ n, it.tab n ≠ [] → it'.tab n = it.tab n
  | [], it, it', wf, h, n, _ => by simp only [setAll, Except.ok.injEq] at h; subst h; rfl
  | (m, v) :: r, it, it', wf, h, n, hne => by
    unfold setAll at h
    cases hs : it.setProperty env m v ∅ false with
    | error e => rw [hs] at h; cases h
    | ok it1 =>
      rw [hs] at h
      obtain ⟨v', _, wf1, e3, e4, e5, _⟩ := setProperty_spec wf hs
      have hnm : n ≠ m := by
        rintro rfl
        obtain ⟨S, hS⟩ := allProfiles_iff.2 hne
        have heff : it.effProfiles n ∅ = tabUnion (it.tab n) := by
          unfold Item.effProfiles; rw [if_pos rfl, hS, Option.getD_some, allProfiles_some hS]
        obtain ⟨⟨w, T⟩, hm⟩ := List.exists_mem_of_ne_nil _ hne
        have := e5 rfl w T hm
        rw [heff] at this
        obtain ⟨q, hq⟩ := Finset.nonempty_iff_ne_empty.2 ((wf.tab n).nonempty w T hm)
        have hmem : q ∈ T ∩ tabUnion (it.tab n) :=
          Finset.mem_inter.2 ⟨hq, (mem_tabUnion _ _).2 ⟨w, T, hm, hq⟩⟩
        rw [this] at hmem; simp at hmem
      rw [setAll_default r wf1 h n (by rw [e3 n hnm]; exact hne), e3 n hnm]

theorem addItem_inv {env : Env} {it it' : Item} {e : Elem} (wf : ItemWF env it)
    (h : it.addItem env e = .ok it') :
    ∃ ns it1, ItemWF env { it with ns := ns } ∧
      setAll env (elemProfiles env.ver e) (addItemCalls env e) { it with ns := ns } = .ok it1 ∧
      ItemWF env it' ∧ it' = { it1 with modified := true } ∧
      namespaceForItemTag env.ver e.tag = some ns := by
  unfold Item.addItem at h
  cases hn : namespaceForItemTag env.ver e.tag with
  | none => rw [hn] at h; cases h
  | some ns =>
    rw [hn] at h
    simp only at h
    cases hs : setAll env (elemProfiles env.ver e) (addItemCalls env e) { it with ns := ns } with
    | error x => rw [hs] at h; cases h
    | ok it1 =>
      rw [hs] at h
      simp only at h
      have w1 := setAll_wf _ (wf.setNs ns) hs
      rw [(w1.flag true).validate] at h
      cases h
      exact ⟨ns, it1, wf.setNs ns, hs, w1.flag true, rfl, rfl⟩

theorem none_not_mem_elemProfiles (v : Ver) (e : Elem) : none ∉ elemProfiles v e := by
  simp [elemProfiles]

end Cot
