import Verif.Lemmas.EditSteps
/-
The profile stage of edit-hardware.
-/
namespace Cot

theorem allSome_iff {l : List (Option Str)} {ids : List Str} : allSome l = some ids ↔ l = ids.map some := by
  induction l generalizing ids with
  | nil => cases ids <;> simp [allSome]
  | cons a r ih =>
    cases a with
    | none => cases ids <;> simp [allSome]
    | some x =>
      unfold allSome
      cases ids with
      | nil => simp
      | cons y ids =>
        simp only [Option.map_eq_some_iff, List.cons.injEq, List.map_cons, Option.some.injEq]
        constructor
        · rintro ⟨a, h, rfl, rfl⟩; exact ⟨rfl, ih.1 h⟩
        · rintro ⟨rfl, h⟩; exact ⟨ids, ih.2 h, rfl, rfl⟩

theorem curEnv_iff {c : EhCtx} {e : Elem} {env : Env} : curEnv c e = .ok env ↔
    ∃ ids, configProfiles c.env.ver e = .ok (ids.map some) ∧ env = { c.env with configProfiles := ids } := by
  unfold curEnv
  split
  · rename_i x hx; simp [hx]
  · rename_i l hl
    rw [hl]
    cases ha : allSome l with
    | none =>
      simp only [Except.ok.injEq, false_iff, not_exists, not_and, reduceCtorEq]
      rintro ids rfl
      rw [allSome_iff.2 rfl] at ha; cases ha
    | some ids =>
      rw [allSome_iff] at ha
      subst ha
      simp only [Except.ok.injEq]
      constructor
      · rintro rfl; exact ⟨ids, rfl, rfl⟩
      · rintro ⟨ids', h1, rfl⟩
        have : ids = ids' := List.map_injective_iff.2 (Option.some_injective _) h1
        rw [this]

/-- the listed profiles with those of `P` that are not listed, once each -/
def addNew (L P : List Str) : List Str := P.foldl (fun L p => if p ∈ L then L else L ++ [p]) L

theorem mem_addNew {L P : List Str} {p : Str} : p ∈ addNew L P ↔ p ∈ L ∨ p ∈ P := by
  unfold addNew
  induction P generalizing L with
  | nil => simp
  | cons a r ih =>
    rw [List.foldl_cons, ih]
    split
    · rename_i h; simp only [List.mem_cons]
      constructor
      · rintro (h | h)
        · exact Or.inl h
        · exact Or.inr (Or.inr h)
      · rintro (h' | rfl | h')
        · exact Or.inl h'
        · exact Or.inl h
        · exact Or.inr h'
    · simp only [List.mem_append, List.mem_cons, List.not_mem_nil, or_false]
      tauto

theorem addNew_nodup {L P : List Str} (h : L.Nodup) : (addNew L P).Nodup := by
  unfold addNew
  induction P generalizing L with
  | nil => exact h
  | cons a r ih =>
    rw [List.foldl_cons]
    apply ih
    split
    · exact h
    · rename_i ha
      rw [List.nodup_append]
      exact ⟨h, by simp, by intro x hx b hb; simp at hb; subst hb; rintro rfl; exact ha hx⟩

theorem addNew_prefix {L P : List Str} : L <+: addNew L P := by
  unfold addNew
  induction P generalizing L with
  | nil => exact List.prefix_refl _
  | cons a r ih =>
    rw [List.foldl_cons]
    refine List.IsPrefix.trans ?_ ih
    split
    · exact List.prefix_refl _
    · exact List.prefix_append _ _

theorem SameButKids.trans' {t : Str} {a b c : Elem} (h1 : SameButKids t a b) (h2 : SameButKids t b c) :
    SameButKids t a c := by
  obtain ⟨a1, a2, a3, a4, a5⟩ := h1
  obtain ⟨b1, b2, b3, b4, b5⟩ := h2
  exact ⟨b1.trans a1, b2.trans a2, b3.trans a3, b4.trans a4, b5.trans a5⟩

theorem ehOrDie_ok {c : EhCtx} {a : EhAsk} {u : Unit} (h : ehOrDie c a = .ok u) : c.ask a = true := by
  unfold ehOrDie at h
  split at h
  · assumption
  · cases h

theorem createLoop_inv {c : EhCtx} {known : List Str} : ∀ (P : List Str) {e e' : Elem} {ids : List Str},
    ConfigsWF c.env.ver e → configProfiles c.env.ver e = .ok (ids.map some) → (∀ x ∈ known, x ∈ ids) →
    createLoop c known P e = .ok e' →
    ConfigsWF c.env.ver e' ∧ SameButKids (ovfTag c.env.ver "DeploymentOptionSection".toList) e e' ∧
      configProfiles c.env.ver e' = .ok ((addNew ids P).map some) ∧
      ∀ p ∈ P, p ∉ known → c.ask (.createProfile p) = true
  | [], e, e', ids, wf, hids, hk, h => by
    cases h; exact ⟨wf, sameButKids_refl _ _, hids, by simp⟩
  | p :: r, e, e', ids, wf, hids, hk, h => by
    unfold createLoop at h
    split at h
    · rename_i hp
      obtain ⟨k1, k2, k3, k4⟩ := createLoop_inv r wf hids hk h
      refine ⟨k1, k2, ?_, ?_⟩
      · have : addNew ids (p :: r) = addNew ids r := by
          unfold addNew; rw [List.foldl_cons, if_pos (hk p hp)]
        rw [this]; exact k3
      · intro x hx hn
        rcases List.mem_cons.1 hx with rfl | hx
        · exact absurd hp hn
        · exact k4 x hx hn
    · split at h
      · cases h
      · rename_i u hu
        simp only at h
        split at h
        · cases h
        · rename_i e1 h1
          obtain ⟨e1', s', c', g1, g2, g3, -, -, -, -, g4, -⟩ := C46_create wf p (c.input (.profileLabel p))
            (c.input (.profileDesc (c.input (.profileLabel p))))
          rw [h1] at g1; cases g1
          have g5 := g4 _ hids
          have hx : (if some p ∈ ids.map some then ids.map some else ids.map some ++ [some p]) =
              (if p ∈ ids then ids else ids ++ [p]).map some := by
            by_cases hm : p ∈ ids
            · rw [if_pos hm, if_pos (List.mem_map.2 ⟨p, hm, rfl⟩)]
            · rw [if_neg hm, if_neg (by intro hh; obtain ⟨y, hy, hyy⟩ := List.mem_map.1 hh; cases hyy; exact hm hy)]
              simp
          rw [hx] at g5
          obtain ⟨k1, k2, k3, k4⟩ := createLoop_inv r g2 g5 (by
            intro x hx
            have := hk x hx
            split
            · exact this
            · exact List.mem_append_left _ this) h
          refine ⟨k1, g3.trans' k2, ?_, ?_⟩
          · have : addNew ids (p :: r) = addNew (if p ∈ ids then ids else ids ++ [p]) r := by
              unfold addNew; rw [List.foldl_cons]
            rw [this]; exact k3
          · intro x hx hn
            rcases List.mem_cons.1 hx with rfl | hx
            · exact ehOrDie_ok hu
            · exact k4 x hx hn

/-! ### deletion -/

theorem removeLoop_one (p : Prof) (cfg : PSet) (v : Val) (S : PSet) :
    removeLoop p cfg false [] [(v, S)] = tagTab v (S \ {p}) := by
  simp only [removeLoop, tagTab, List.nil_append]
  simp

theorem deleted_twin {ver : Ver} {p : Prof} {cfg : PSet} {it it' : Item} {code : Str}
    (hone : (it.tab resourceType).length ≤ 1)
    (h : ∀ n, it'.tab n = removeLoop p cfg false [] (it.tab n)) (ht : OfType it' code)
    (htw : OfType it code → Twin ver it) : OfType it code ∧ Twin ver it' := by
  have hr := h resourceType
  obtain ⟨S', hS'⟩ := ht
  match hrt : it.tab resourceType, hone with
  | [], _ => rw [hrt, hS'] at hr; simp [removeLoop] at hr
  | [(v, S)], _ =>
    rw [hrt, hS', removeLoop_one] at hr
    unfold tagTab at hr
    split at hr
    · simp at hr
    · rename_i hne
      simp only [List.cons.injEq, Prod.mk.injEq, and_true] at hr
      have ho : OfType it code := ⟨S, by rw [hrt, hr.1]⟩
      refine ⟨ho, ?_⟩
      have := htw ho
      unfold Twin at this ⊢
      rw [hrt] at this
      match hi : it.tab (instanceId ver) with
      | [] => rw [hi] at this; simp at this
      | [(w, T)] =>
        rw [hi] at this
        simp only [List.map_cons, List.map_nil, List.cons.injEq, and_true] at this
        subst this
        rw [h (instanceId ver), hi, removeLoop_one, hS', hr.2]
        unfold tagTab
        rw [if_neg hne]
        rfl
      | _ :: _ :: _ => rw [hi] at this; simp at this

theorem deleteProfile_items {e : Env} {envl envl' : Elem} {hw hw' : Hw} {p : Str} (wf : HwWF e hw)
    (h : deleteProfile e envl hw p = .ok (envl', hw')) : ∀ id it', dget? hw' id = some it' →
      ∃ it, dget? hw id = some it ∧ (it' = it ∨ ∀ n, it'.tab n = removeLoop (some p) e.cfgSet false [] (it.tab n)) := by
  obtain ⟨ids, i1, i2, i3⟩ := findByProfile_spec (e := e) wf.keys (some p)
  obtain ⟨hw2, r1, r2, r3, r4⟩ := removeEach_spec (e := e) (p := p) i2 wf.keys (fun id hid => by
    obtain ⟨it, hit, -⟩ := (i3 id).1 hid
    exact ⟨it, hit, (wf.get hit).1⟩)
  unfold deleteProfile at h
  split at h
  · cases h
  · cases h
  · split at h
    · cases h
    · cases h
    · rw [i1] at h
      simp only [r1] at h
      have hw2e : hw2 = hw' := by
        split at h <;> simp only [Except.ok.injEq, Prod.mk.injEq] at h <;> exact h.2
      subst hw2e
      intro id it' hit'
      by_cases hm : id ∈ ids
      · obtain ⟨it, g1, g2⟩ := (i3 id).1 hm
        obtain ⟨it2, k1, k2⟩ := r4 id hm it g1
        rw [hit'] at k2; cases k2
        obtain ⟨it3, l1, -, -, l3⟩ := removeProfile_spec (wf.get g1).1 (some p) false
        rw [k1] at l1; cases l1
        exact ⟨it, g1, Or.inr (l3 g2)⟩
      · rw [r3 id hm] at hit'
        exact ⟨it', hit', Or.inl rfl⟩

theorem net_ne_deploy (v : Ver) : ovfTag v "NetworkSection".toList ≠ ovfTag v "DeploymentOptionSection".toList :=
  fun hh => deploy_ne_net v hh.symm

theorem SameIn.refl (env : Env) (q : Prof) (hw : Hw) : SameIn env env q hw hw :=
  ⟨fun _ it h hh => ⟨it, h, hh, fun _ => rfl⟩, fun _ it h hh => ⟨it, h, hh⟩⟩

theorem SameIn.trans {e1 e2 e3 : Env} {q : Prof} {a b c : Hw} (h1 : SameIn e1 e2 q a b) (h2 : SameIn e2 e3 q b c) :
    SameIn e1 e3 q a c := by
  refine ⟨?_, ?_⟩
  · intro id it hi hh
    obtain ⟨it1, g1, g2, g3⟩ := h1.1 id it hi hh
    obtain ⟨it2, k1, k2, k3⟩ := h2.1 id it1 g1 g2
    exact ⟨it2, k1, k2, fun n => (k3 n).trans (g3 n)⟩
  · intro id it hi hh
    obtain ⟨it1, g1, g2⟩ := h2.2 id it hi hh
    exact h1.2 id it1 g1 g2

theorem HwWF.congr {e e' : Env} {hw : Hw} (wf : HwWF e hw) (h : e'.ver = e.ver) : HwWF e' hw :=
  ⟨wf.keys, fun id it hm => (wf.items id it hm).congr h, by rw [h]; exact wf.ident⟩

theorem named_length_le {s x : Elem} {t a : Str} {f : Elem → Bool} (h : kids x t = (kids s t).filter f) (y : Str) :
    (named x t a y).length ≤ (named s t a y).length := by
  have hsub : ∀ (u : Elem), named u t a y = (kids u t).filter (fun c => decide (c.get a = some y)) := by
    intro u
    unfold named kids
    rw [List.filter_filter]
    apply List.filter_congr
    intro z _
    simp [Bool.and_comm]
  rw [hsub, hsub, h]
  exact List.Sublist.length_le (List.Sublist.filter _ List.filter_sublist)

/-- a device that is left under a profile keeps its type -/
theorem deleted_type {ver : Ver} {p : Prof} {cfg : PSet} {it it' : Item} {code : Str} (htw : Twin ver it)
    (h : ∀ n, it'.tab n = removeLoop p cfg false [] (it.tab n)) (ht : OfType it code)
    (hi : it'.tab (instanceId ver) ≠ []) : OfType it' code := by
  obtain ⟨S, hS⟩ := ht
  unfold Twin at htw
  rw [hS] at htw
  match hit : it.tab (instanceId ver) with
  | [] => rw [hit] at htw; simp at htw
  | [(w, T)] =>
    rw [hit] at htw
    simp only [List.map_cons, List.map_nil, List.cons.injEq, and_true] at htw
    subst htw
    have h1 := h (instanceId ver)
    rw [hit, removeLoop_one] at h1
    have h2 := h resourceType
    rw [hS, removeLoop_one] at h2
    unfold tagTab at h1 h2
    split at h1
    · exact absurd h1 hi
    · rename_i hne
      rw [if_neg hne] at h2
      exact ⟨_, h2⟩
  | _ :: _ :: _ => rw [hit] at htw; simp at htw

theorem tab_of_has {env : Env} {it : Item} {q : Prof} (h : it.hasProfile env q = true) :
    it.tab (instanceId env.ver) ≠ [] := by
  rw [hasProfile_iff] at h
  intro hh
  rw [hh] at h
  simp [Explicit] at h

/-- deleting one listed profile -/
theorem deleteProfile_step {env : Env} {envl : Elem} {hw : Hw} {p : Str} (wf : HwWF env hw)
    (cw : ConfigsWF env.ver envl) (hids : configProfiles env.ver envl = .ok (env.configProfiles.map some))
    (hp : p ∈ env.configProfiles) {envl' : Elem} {hw' : Hw} (h : deleteProfile env envl hw p = .ok (envl', hw')) :
    ConfigsWF env.ver envl' ∧ SameButKids (ovfTag env.ver "DeploymentOptionSection".toList) envl envl' ∧
    configProfiles env.ver envl' = .ok ((withoutProfile env p).configProfiles.map some) ∧
    HwWF (withoutProfile env p) hw' ∧
    (∀ q, q ≠ some p → SameIn env (withoutProfile env p) q hw hw') ∧
    (∀ code, TwinType env.ver code hw → TwinType env.ver code hw') ∧
    (∀ code, DefaultType env code hw → DefaultType (withoutProfile env p) code hw') ∧
    (∀ code, TwinType env.ver code hw → ∀ q : Prof, q ≠ some p →
      countOf (withoutProfile env p) hw' code q = countOf env hw code q) := by
  have hlen := cw.1
  match hk : kids envl (ovfTag env.ver "DeploymentOptionSection".toList), hlen with
  | [], _ =>
    rw [(C46_listing env.ver envl).2 hk] at hids
    simp only [Except.ok.injEq] at hids
    have : env.configProfiles = [] := List.map_eq_nil_iff.1 hids.symm
    rw [this] at hp; cases hp
  | [s], _ =>
    have hcs := cw.2 s (by rw [hk]; simp)
    have hex : (named s (ovfTag env.ver "Configuration".toList) (ovfTag env.ver "id".toList) p).length = 1 := by
      have h1 := hcs.1 p
      have h2 : named s (ovfTag env.ver "Configuration".toList) (ovfTag env.ver "id".toList) p ≠ [] := by
        rw [(C46_listing env.ver envl).1 s hk] at hids
        simp only [Except.ok.injEq] at hids
        have hm : some p ∈ env.configProfiles.map some := List.mem_map.2 ⟨p, hp, rfl⟩
        rw [← hids] at hm
        unfold listing at hm
        simp only [List.mem_append, List.mem_reverse, List.mem_map, List.mem_filter] at hm
        have : ∃ x ∈ kids s (ovfTag env.ver "Configuration".toList), x.get (ovfTag env.ver "id".toList) = some p := by
          rcases hm with ⟨x, ⟨hx, -⟩, hg⟩ | ⟨x, ⟨hx, -⟩, hg⟩ <;> exact ⟨x, hx, hg⟩
        obtain ⟨x, hx, hg⟩ := this
        intro hnil
        have := named_sub.2 ⟨hx, hg⟩
        rw [hnil] at this; cases this
      have : (named s (ovfTag env.ver "Configuration".toList) (ovfTag env.ver "id".toList) p).length ≠ 0 := by
        intro h0; exact h2 (List.length_eq_zero_iff.1 h0)
      omega
    obtain ⟨e1, hw1, g1, g2, g3, g4, g5, g6, g7, g8⟩ := C46_delete wf hk hex
    rw [h] at g1
    simp only [Except.ok.injEq, Prod.mk.injEq] at g1
    obtain ⟨rfl, rfl⟩ := g1
    have hback : ∀ id it', dget? hw' id = some it' → ∃ it, dget? hw id = some it := by
      intro id it' hi
      exact dget?_of_mem_dkeys (g7 ▸ mem_dkeys_of_dget? hi)
    have hdef : ∀ id it', dget? hw' id = some it' → ∀ code, OfType it' code → ∃ it, dget? hw id = some it ∧
        OfType it code ∧ it'.hasProfile (withoutProfile env p) none = it.hasProfile env none ∧
        (Twin env.ver it → Twin env.ver it') := by
      intro id it' hi code ht
      obtain ⟨it, k1, k2⟩ := deleteProfile_items wf h id it' hi
      obtain ⟨it2, m1, -, m3, -⟩ := g8 id it k1
      rw [hi] at m1; cases m1
      rcases k2 with rfl | k2
      · exact ⟨it', k1, ht, m3 none (by simp), fun x => x⟩
      · have hone : (it.tab resourceType).length ≤ 1 := (wf.get k1).1.oneType
        by_cases htw : Twin env.ver it
        · obtain ⟨n1, n2⟩ := deleted_twin (ver := env.ver) hone k2 ht (fun _ => htw)
          exact ⟨it, k1, n1, m3 none (by simp), fun _ => n2⟩
        · by_cases ho : OfType it code
          · exact ⟨it, k1, ho, m3 none (by simp), fun hh => absurd hh htw⟩
          · obtain ⟨n1, n2⟩ := deleted_twin (ver := env.ver) hone k2 ht (fun hh => absurd hh ho)
            exact absurd n1 ho
    refine ⟨?_, g2, ?_, g6, ?_, ?_, ?_, ?_⟩
    · by_cases hall : ∀ c ∈ kids s (ovfTag env.ver "Configuration".toList), c.get (ovfTag env.ver "id".toList) = some p
      · have h0 := g4 hall
        exact ⟨by rw [h0]; simp, by rw [h0]; simp⟩
      · have hne : ∃ c ∈ kids s (ovfTag env.ver "Configuration".toList), c.get (ovfTag env.ver "id".toList) ≠ some p := by
          by_contra hc
          exact hall (fun c hcc => by by_contra hx; exact hc ⟨c, hcc, hx⟩)
        obtain ⟨s', n1, n2, n3⟩ := g5 hne
        refine ⟨by rw [n1]; simp, ?_⟩
        rw [n1]
        intro x hx
        simp only [List.mem_singleton] at hx
        subst hx
        refine ⟨?_, ?_⟩
        · intro y
          refine le_trans ?_ (hcs.1 y)
          exact named_length_le n3 y
        · intro y hy
          rw [n3] at hy
          exact hcs.2 y (List.mem_filter.1 hy).1
    · rw [g3 _ hids]
      congr 1
      unfold withoutProfile
      simp only
      induction env.configProfiles with
      | nil => rfl
      | cons a r ih =>
        simp only [List.map_cons, List.filter_cons]
        by_cases ha : a = p
        · subst ha; simpa using ih
        · simp only [ne_eq, Option.some.injEq, ha, not_false_eq_true, decide_true, if_true, List.map_cons, List.cons.injEq, true_and]
          simpa using ih
    · intro q hq
      refine ⟨?_, ?_⟩
      · intro id it hi hh
        obtain ⟨it', m1, -, m3, m4⟩ := g8 id it hi
        exact ⟨it', m1, by rw [m3 q hq]; exact hh, fun n => m4 {q} (by simp) (by simpa using Ne.symm hq) n⟩
      · intro id it' hi hh
        obtain ⟨it, hit⟩ := hback id it' hi
        obtain ⟨it2, m1, -, m3, -⟩ := g8 id it hit
        rw [hi] at m1; cases m1
        exact ⟨it, hit, by rw [← m3 q hq]; exact hh⟩
    · intro code htw id it' hi ht
      obtain ⟨it, k1, k2, -, k4⟩ := hdef id it' hi code ht
      exact k4 (htw id it k1 k2)
    · intro code hdf id it' hi ht
      obtain ⟨it, k1, k2, k3, -⟩ := hdef id it' hi code ht
      rw [k3]; exact hdf id it k1 k2
    · intro code htw q hq
      refine countOf_keys g7 wf.keys ?_
      intro id it it' hi hi'
      obtain ⟨it2, m1, -, m3, -⟩ := g8 id it hi
      rw [hi'] at m1; cases m1
      rw [m3 q hq]
      refine and_congr_left ?_
      intro hh
      constructor
      · intro ht
        obtain ⟨it3, k1, k2, -⟩ := hdef id it' hi' code ht
        rw [hi] at k1; cases k1
        exact k2
      · intro ht
        obtain ⟨it3, k1, k2⟩ := deleteProfile_items wf h id it' hi'
        rw [hi] at k1; cases k1
        rcases k2 with rfl | k2
        · exact ht
        · refine deleted_type (htw id it hi ht) k2 ht ?_
          have : it'.hasProfile (withoutProfile env p) q = true := by rw [m3 q hq]; exact hh
          have hne := tab_of_has this
          exact hne
  | _ :: _ :: _, hl => simp at hl

theorem configsWF_congr {v : Ver} {a b : Elem} (h : kids b (ovfTag v "DeploymentOptionSection".toList) =
    kids a (ovfTag v "DeploymentOptionSection".toList)) (wf : ConfigsWF v a) : ConfigsWF v b := by
  unfold ConfigsWF; rw [h]; exact wf

/-- the profiles that the loop deletes -/
def delSet (c : EhCtx) (named : Bool) (todo : List Str) : List Str :=
  todo.filter (fun p => !named || c.ask (.deleteProfile p))

theorem deleteLoop_inv {c : EhCtx} {named : Bool} : ∀ (todo : List Str) {s s' : EhSt} {env : Env}, todo.Nodup →
    (∀ p ∈ todo, p ∈ env.configProfiles) → curEnv c s.envl = .ok env → ConfigsWF c.env.ver s.envl → HwWF env s.hw →
    deleteLoop c named todo s = .ok s' →
    ∃ env', curEnv c s'.envl = .ok env' ∧
      env'.configProfiles = env.configProfiles.filter (fun p => decide (p ∉ delSet c named todo)) ∧
      ConfigsWF c.env.ver s'.envl ∧ HwWF env' s'.hw ∧
      SameButKids (ovfTag c.env.ver "DeploymentOptionSection".toList) s.envl s'.envl ∧ s'.hws = s.hws ∧
      (∀ q : Prof, (∀ p ∈ delSet c named todo, q ≠ some p) → SameIn env env' q s.hw s'.hw) ∧
      (∀ code, TwinType c.env.ver code s.hw → TwinType c.env.ver code s'.hw) ∧
      (∀ code, DefaultType env code s.hw → DefaultType env' code s'.hw) ∧
      (∀ code, TwinType c.env.ver code s.hw → ∀ q : Prof, (∀ p ∈ delSet c named todo, q ≠ some p) →
        countOf env' s'.hw code q = countOf env s.hw code q)
  | [], s, s', env, _, _, he, cw, wf, h => by
    cases h
    refine ⟨env, he, ?_, cw, wf, sameButKids_refl _ _, rfl, fun q _ => SameIn.refl _ _ _, fun _ x => x, fun _ x => x,
      fun _ _ _ _ => rfl⟩
    simp [delSet]
  | p :: r, s, s', env, hnd, hin, he, cw, wf, h => by
    rw [List.nodup_cons] at hnd
    unfold deleteLoop at h
    split at h
    · rename_i hc
      have hds : delSet c named (p :: r) = delSet c named r := by
        unfold delSet; rw [List.filter_cons_of_neg]; simp [hc.1, hc.2]
      rw [hds]
      exact deleteLoop_inv r hnd.2 (fun x hx => hin x (List.mem_cons_of_mem _ hx)) he cw wf h
    · rename_i hc
      have hds : delSet c named (p :: r) = p :: delSet c named r := by
        unfold delSet; rw [List.filter_cons_of_pos]
        simp only [not_and, Bool.not_eq_false] at hc
        cases named <;> simp_all
      rw [he] at h
      simp only at h
      split at h
      · cases h
      · rename_i e1 hw1 h1
        obtain ⟨ids, c1, c2⟩ := curEnv_iff.1 he
        have hv : env.ver = c.env.ver := curEnv_ver he
        have hids : configProfiles env.ver s.envl = .ok (env.configProfiles.map some) := by rw [c2]; exact c1
        obtain ⟨k1, k2, k3, k4, k5, k6, k7, k8⟩ := deleteProfile_step wf (by rw [hv]; exact cw) hids
          (hin p (by simp)) h1
        rw [hv] at k1 k2 k3 k6 k8
        have he1 : curEnv c e1 = .ok (withoutProfile env p) := by
          rw [curEnv_iff]
          exact ⟨_, k3, by rw [c2]; rfl⟩
        obtain ⟨env', g1, g2, g3, g4, g5, g6, g7, g8, g9, g10⟩ := deleteLoop_inv r
          (s := { s with envl := e1, hw := hw1 }) (env := withoutProfile env p) hnd.2
          (by
            intro x hx
            unfold withoutProfile
            simp only [List.mem_filter, decide_eq_true_eq]
            exact ⟨hin x (List.mem_cons_of_mem _ hx), by rintro rfl; exact hnd.1 hx⟩) he1 k1 k4 h
        refine ⟨env', g1, ?_, g3, g4, k2.trans' g5, g6, ?_, ?_, ?_, ?_⟩
        · rw [g2, hds]
          unfold withoutProfile
          simp only [List.filter_filter]
          apply List.filter_congr
          intro x _
          simp only [List.mem_cons, not_or]
          by_cases hx : x = p <;> simp [hx]
        · intro q hq
          rw [hds] at hq
          exact (k5 q (hq p (by simp))).trans (g7 q (fun x hx => hq x (List.mem_cons_of_mem _ hx)))
        · intro code ht; exact g8 code (k6 code ht)
        · intro code ht; exact g9 code (k7 code ht)
        · intro code ht q hq
          rw [hds] at hq
          rw [g10 code (k6 code ht) q (fun x hx => hq x (List.mem_cons_of_mem _ hx)), k8 code ht q (hq p (by simp))]

theorem updateProfiles_inv {c : EhCtx} {q : EhReq} {s s' : EhSt} {env : Env} (ho : OrdersSets c.setOrder)
    (he : curEnv c s.envl = .ok env) (hnd : env.configProfiles.Nodup) (cw : ConfigsWF c.env.ver s.envl)
    (wf : HwWF env s.hw) (h : updateProfiles c q s = .ok s') :
    ∃ env', curEnv c s'.envl = .ok env' ∧
      env'.configProfiles = (addNew env.configProfiles (q.profiles.getD [])).filter (fun p => decide (¬ Deleted c q p)) ∧
      ConfigsWF c.env.ver s'.envl ∧ HwWF env' s'.hw ∧
      SameButKids (ovfTag c.env.ver "DeploymentOptionSection".toList) s.envl s'.envl ∧ s'.hws = s.hws ∧
      (∀ p : Str, p ∈ env.configProfiles → ¬ Deleted c q p → SameIn env env' (some p) s.hw s'.hw) ∧
      SameIn env env' none s.hw s'.hw ∧
      (∀ code, TwinType c.env.ver code s.hw → TwinType c.env.ver code s'.hw) ∧
      (∀ code, DefaultType env code s.hw → DefaultType env' code s'.hw) ∧
      (∀ p ∈ q.profiles.getD [], p ∉ env.configProfiles → c.ask (.createProfile p) = true) ∧
      (q.deleteOthers = true → q.profiles = none → c.ask .deleteAllProfiles = true) ∧
      (q.profiles.isSome = true → q.systemTypes.isSome = true → c.ask .systemTypesForAll = true) ∧
      (q.profiles.isSome = true → q.descriptions.isSome = true → c.ask .descriptionsForAll = true) ∧
      (q.deleteOthers = false → s'.hw = s.hw) ∧
      (∀ code, TwinType c.env.ver code s.hw → ∀ x : Prof, (x = none ∨ ∃ p ∈ env.configProfiles, x = some p ∧ ¬ Deleted c q p) →
        countOf env' s'.hw code x = countOf env s.hw code x) := by
  obtain ⟨ids, c1, c2⟩ := curEnv_iff.1 he
  have hids : env.configProfiles = ids := by rw [c2]
  -- the first half
  unfold updateProfiles at h
  obtain ⟨s1, h1, h⟩ := bind_ok_inv h
  obtain ⟨env1, e1, l1, cw1, d1, r1, w1, a1, a2, a3⟩ : ∃ env1, curEnv c s1.envl = .ok env1 ∧
      env1.configProfiles = addNew env.configProfiles (q.profiles.getD []) ∧ ConfigsWF c.env.ver s1.envl ∧
      SameButKids (ovfTag c.env.ver "DeploymentOptionSection".toList) s.envl s1.envl ∧ s1.hws = s.hws ∧ s1.hw = s.hw ∧
      (∀ p ∈ q.profiles.getD [], p ∉ env.configProfiles → c.ask (.createProfile p) = true) ∧
      (q.profiles.isSome = true → q.systemTypes.isSome = true → c.ask .systemTypesForAll = true) ∧
      (q.profiles.isSome = true → q.descriptions.isSome = true → c.ask .descriptionsForAll = true) := by
    cases hp : q.profiles with
    | none =>
      rw [hp] at h1
      cases h1
      exact ⟨env, he, by simp [addNew], cw, sameButKids_refl _ _, rfl, rfl, by simp, by simp, by simp⟩
    | some P =>
      rw [hp] at h1
      simp only at h1
      obtain ⟨u1, b1, h1⟩ := bind_ok_inv h1
      obtain ⟨u2, b2, h1⟩ := bind_ok_inv h1
      obtain ⟨env0, b3, h1⟩ := bind_ok_inv h1
      obtain ⟨e1, b4, h1⟩ := bind_ok_inv h1
      cases h1
      rw [he] at b3; cases b3
      obtain ⟨k1, k2, k3, k4⟩ := createLoop_inv P cw c1 (by rw [hids]; exact fun _ x => x) b4
      refine ⟨{ c.env with configProfiles := addNew ids P }, curEnv_iff.2 ⟨_, k3, rfl⟩, by rw [hids]; rfl, k1, k2, rfl, rfl,
        k4, ?_, ?_⟩
      · intro _ hs
        rw [if_pos hs] at b1
        exact ehOrDie_ok b1
      · intro _ hs
        rw [if_pos hs] at b2
        exact ehOrDie_ok b2
  obtain ⟨ids1, m1, m2⟩ := curEnv_iff.1 e1
  have hver : env1.ver = env.ver := by rw [c2, m2]
  have wf1 : HwWF env1 s1.hw := by rw [w1]; exact wf.congr hver
  have hval : ∀ (it : Item) n P, it.getValue env1 n P = it.getValue env n P := by
    intro it n P; rw [c2, m2]; rfl
  have hhas : ∀ (it : Item) (x : Prof), (x = none ∨ ∃ p ∈ env.configProfiles, x = some p) →
      it.hasProfile env1 x = it.hasProfile env x := by
    intro it x hx
    unfold Item.hasProfile
    rw [hver]
    have : decide (x ∈ env1.cfgSet) = decide (x ∈ env.cfgSet) := by
      rw [decide_eq_decide]
      unfold Env.cfgSet
      rcases hx with rfl | ⟨p, hp, rfl⟩
      · simp
      · simp only [List.mem_toFinset, List.mem_map, Option.some.injEq, exists_eq_right]
        rw [l1, mem_addNew]
        exact ⟨fun _ => hp, Or.inl⟩
    rw [this]
  have same1 : ∀ x : Prof, (x = none ∨ ∃ p ∈ env.configProfiles, x = some p) → SameIn env env1 x s.hw s1.hw := by
    intro x hx
    rw [w1]
    refine ⟨?_, ?_⟩
    · intro id it hi hh
      exact ⟨it, hi, by rw [hhas it x hx]; exact hh, fun n => hval _ _ _⟩
    · intro id it hi hh
      exact ⟨it, hi, by rw [← hhas it x hx]; exact hh⟩
  have nd1 : env1.configProfiles.Nodup := by rw [l1]; exact addNew_nodup hnd
  have df1 : ∀ code, DefaultType env code s.hw → DefaultType env1 code s1.hw := by
    intro code hd id it hi ht
    rw [w1] at hi
    rw [hhas it none (Or.inl rfl)]
    exact hd id it hi ht
  have cnt1 : ∀ code x, (x = none ∨ ∃ p ∈ env.configProfiles, x = some p) →
      countOf env1 s1.hw code x = countOf env s.hw code x := by
    intro code x hx
    rw [w1]
    unfold countOf
    congr 1
    apply List.filter_congr
    intro kv _
    rw [hhas kv.2 x hx]
  cases hdo : q.deleteOthers with
  | false =>
    rw [hdo] at h
    simp only [Bool.false_eq_true, if_false] at h
    cases h
    have hnd : ∀ p, ¬ Deleted c q p := by intro p hh; have := hh.1; rw [hdo] at this; cases this
    refine ⟨env1, e1, ?_, cw1, wf1, d1, r1, fun p hp _ => same1 _ (Or.inr ⟨p, hp, rfl⟩), same1 _ (Or.inl rfl), ?_, df1, a1,
      by simp, a2, a3, fun _ => w1, fun code _ x hx => cnt1 code x (by
        rcases hx with rfl | ⟨p, hp, rfl, -⟩
        · exact Or.inl rfl
        · exact Or.inr ⟨p, hp, rfl⟩)⟩
    · rw [← l1]
      symm
      rw [List.filter_eq_self]
      intro p _
      simp [hnd p]
    · intro code; rw [w1]; exact fun x => x
  | true =>
    rw [hdo] at h
    simp only [if_true] at h
    unfold deleteOthersStep at h
    obtain ⟨env1', b1, h⟩ := bind_ok_inv h
    rw [e1] at b1; cases b1
    obtain ⟨named, todo, hdel, ht1, ht2, hdd, hask⟩ : ∃ named todo, deleteLoop c named todo s1 = .ok s' ∧ todo.Nodup ∧
        (∀ p ∈ todo, p ∈ env1.configProfiles) ∧
        (∀ p ∈ env1.configProfiles, p ∈ delSet c named todo ↔ Deleted c q p) ∧
        (q.profiles = none → c.ask .deleteAllProfiles = true) := by
      cases hp : q.profiles with
      | none =>
        rw [hp] at h
        simp only at h
        obtain ⟨u, b2, h⟩ := bind_ok_inv h
        refine ⟨_, _, h, nd1, fun p x => x, ?_, fun _ => ehOrDie_ok b2⟩
        intro p hpp
        unfold delSet Deleted
        simp [hp, hdo, hpp]
      | some P =>
        rw [hp] at h
        simp only at h
        obtain ⟨o1, o2⟩ := ho (env1.configProfiles.filter (fun p => decide (p ∉ P)))
        refine ⟨_, _, h, o1, fun p hpp => (List.mem_filter.1 ((o2 p).1 hpp)).1, ?_, by simp⟩
        intro p hpp
        unfold delSet Deleted
        rw [List.mem_filter, o2, List.mem_filter]
        simp [hp, hdo, hpp]
    obtain ⟨env', g1, g2, g3, g4, g5, g6, g7, g8, g9, g10⟩ := deleteLoop_inv todo ht1 ht2 e1 cw1 wf1 hdel
    have hsub : ∀ p ∈ delSet c named todo, p ∈ env1.configProfiles := by
      intro p hp; unfold delSet at hp; exact ht2 p (List.mem_filter.1 hp).1
    refine ⟨env', g1, ?_, g3, g4, d1.trans' g5, by rw [g6, r1], ?_, ?_, ?_, ?_, a1, fun _ => hask, a2, a3,
      by simp, ?_⟩
    · rw [g2, l1]
      apply List.filter_congr
      intro p hp
      rw [← l1] at hp
      simp only [hdd p hp]
    · intro p hp hnd'
      refine (same1 _ (Or.inr ⟨p, hp, rfl⟩)).trans (g7 _ ?_)
      rintro x hx hxx
      cases hxx
      exact hnd' ((hdd p (hsub p hx)).1 hx)
    · exact (same1 _ (Or.inl rfl)).trans (g7 _ (by simp))
    · intro code ht; exact g8 code (by rw [w1]; exact ht)
    · intro code hd; exact g9 code (df1 code hd)
    · intro code ht x hx
      rw [g10 code (by rw [w1]; exact ht) x (by
        rintro y hy rfl
        rcases hx with hx | ⟨p, hp, hxp, hnd'⟩
        · cases hx
        · cases hxp
          exact hnd' ((hdd y (hsub y hy)).1 hy))]
      refine cnt1 code x ?_
      rcases hx with rfl | ⟨p, hp, rfl, -⟩
      · exact Or.inl rfl
      · exact Or.inr ⟨p, hp, rfl⟩

end Cot
