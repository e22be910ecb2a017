import Verif.Props.Networks
import Verif.Props.Hardware
/-
C46: creating and deleting configuration profiles.
-/
namespace Cot

/-- this Configuration is marked as the default -/
def IsDefault (v : Ver) (c : Elem) : Prop :=
  c.get (ovfTag v "default".toList) = some "true".toList ∨ c.get (ovfTag v "default".toList) = some "1".toList

instance (v : Ver) (c : Elem) : Decidable (IsDefault v c) := by unfold IsDefault; infer_instance

/-- the ids of the given Configurations, those marked as default first -/
def listing (v : Ver) (cs : List Elem) : List (Option Str) :=
  ((cs.filter (fun c => IsDefault v c)).map (fun c => c.get (ovfTag v "id".toList))).reverse ++
  (cs.filter (fun c => ¬ IsDefault v c)).map (fun c => c.get (ovfTag v "id".toList))

theorem addProfileId_eq (v : Ver) (ids : List (Option Str)) (c : Elem) :
    addProfileId v ids c = if IsDefault v c then c.get (configId v) :: ids else ids ++ [c.get (configId v)] := by
  unfold addProfileId
  by_cases h : IsDefault v c
  · rw [if_pos h]; exact if_pos h
  · rw [if_neg h]; exact if_neg h

theorem foldl_listing (v : Ver) : ∀ (cs : List Elem) (pre post : List (Option Str)),
    cs.foldl (addProfileId v) (pre ++ post) =
      ((cs.filter (fun c => IsDefault v c)).map (fun c => c.get (configId v))).reverse ++ pre ++ post ++
      (cs.filter (fun c => ¬ IsDefault v c)).map (fun c => c.get (configId v))
  | [], pre, post => by simp
  | c :: cs, pre, post => by
    rw [List.foldl_cons, addProfileId_eq]
    by_cases h : IsDefault v c
    · rw [if_pos h]
      have := foldl_listing v cs (c.get (configId v) :: pre) post
      rw [List.cons_append] at this
      rw [this, List.filter_cons, if_pos (by simpa using h), List.filter_cons, if_neg (by simpa using h)]
      simp
    · rw [if_neg h, List.append_assoc, foldl_listing v cs pre (post ++ [c.get (configId v)]), List.filter_cons, if_neg (by simpa using h),
        List.filter_cons, if_pos (by simpa using h)]
      simp

/-- **C46 (listing).** The list of configuration profiles consists of the ids of the Configuration elements in
order, those marked as default moved to the front. -/
theorem C46_listing (v : Ver) (env : Elem) :
    (∀ s, kids env (ovfTag v "DeploymentOptionSection".toList) = [s] →
      configProfiles v env = .ok (listing v (kids s (ovfTag v "Configuration".toList)))) ∧
    (kids env (ovfTag v "DeploymentOptionSection".toList) = [] → configProfiles v env = .ok []) := by
  constructor
  · intro s hs
    unfold configProfiles deployTag
    rw [findChild_kids hs]
    simp only
    rw [findAll_nil]
    have := foldl_listing v (kids s (configTag v)) [] []
    simp only [List.append_nil] at this
    rw [this]
    rfl
  · intro hs
    unfold configProfiles deployTag
    rw [findChild_no_kids hs]

theorem listing_congr {v : Ver} {l l' : List Elem}
    (h : l.map (fun c => (c.get (ovfTag v "id".toList), c.get (ovfTag v "default".toList))) =
      l'.map (fun c => (c.get (ovfTag v "id".toList), c.get (ovfTag v "default".toList)))) : listing v l = listing v l' := by
  have key : ∀ (l : List Elem) (b : Bool),
      (l.filter (fun c => decide (IsDefault v c) == b)).map (fun c => c.get (ovfTag v "id".toList)) =
      ((l.map (fun c => (c.get (ovfTag v "id".toList), c.get (ovfTag v "default".toList)))).filter
        (fun x => decide (x.2 = some "true".toList ∨ x.2 = some "1".toList) == b)).map Prod.fst := by
    intro l b
    induction l with
    | nil => rfl
    | cons c l ih =>
      rw [List.filter_cons, List.map_cons, List.filter_cons]
      have e : (decide (IsDefault v c) == b) = (decide (c.get (ovfTag v "default".toList) = some "true".toList ∨
        c.get (ovfTag v "default".toList) = some "1".toList) == b) := by
        congr 1
      rw [e]
      simp only
      split
      · rw [List.map_cons, List.map_cons, ih]
      · exact ih
  have k1 : ∀ l : List Elem, l.filter (fun c => decide (IsDefault v c)) = l.filter (fun c => decide (IsDefault v c) == true) := by
    intro l; congr 1; funext c; simp
  have k2 : ∀ l : List Elem, l.filter (fun c => decide (¬ IsDefault v c)) = l.filter (fun c => decide (IsDefault v c) == false) := by
    intro l; congr 1; funext c; simp
  unfold listing
  rw [k1, k2, k1 l', k2 l', key, key, key, key, h]

theorem listing_append {v : Ver} {l : List Elem} {c : Elem} (h : ¬ IsDefault v c) :
    listing v (l ++ [c]) = listing v l ++ [c.get (ovfTag v "id".toList)] := by
  unfold listing
  rw [List.filter_append, List.filter_append, List.filter_cons, if_neg (by simpa using h), List.filter_cons, if_pos (by simpa using h)]
  simp

theorem mem_listing {v : Ver} {l : List Elem} {x : Option Str} :
    x ∈ listing v l ↔ ∃ c ∈ l, c.get (ovfTag v "id".toList) = x := by
  unfold listing
  rw [List.mem_append, List.mem_reverse, List.mem_map, List.mem_map]
  constructor
  · rintro (⟨c, hc, h⟩ | ⟨c, hc, h⟩) <;> exact ⟨c, (List.mem_filter.1 hc).1, h⟩
  · rintro ⟨c, hc, h⟩
    by_cases hd : IsDefault v c
    · exact Or.inl ⟨c, List.mem_filter.2 ⟨hc, by simpa using hd⟩, h⟩
    · exact Or.inr ⟨c, List.mem_filter.2 ⟨hc, by simpa using hd⟩, h⟩

theorem listing_filter {v : Ver} (l : List Elem) (p : Str) :
    listing v (l.filter (fun c => decide (c.get (ovfTag v "id".toList) ≠ some p))) =
      (listing v l).filter (fun x => decide (x ≠ some p)) := by
  have key : ∀ (P : Elem → Bool),
      ((l.filter (fun c => decide (c.get (ovfTag v "id".toList) ≠ some p))).filter P).map (fun c => c.get (ovfTag v "id".toList)) =
      ((l.filter P).map (fun c => c.get (ovfTag v "id".toList))).filter (fun x => decide (x ≠ some p)) := by
    intro P
    rw [List.filter_map, List.filter_filter, List.filter_filter]
    congr 2
    funext c
    exact Bool.and_comm _ _
  unfold listing
  rw [List.filter_append, key, key, List.filter_reverse]

theorem mem_kids_update {s1 n n' m : Elem} {t a x : Str} (h : named s1 t a x = [n])
    (hm : m ∈ kids (updateFirst s1 t [(a, x)] (fun _ => n')) t) : m = n' ∨ m ∈ kids s1 t := by
  by_cases hm' : m = n'
  · exact Or.inl hm'
  right
  have hf : findAllChildren s1 t [(a, x)] = [n] := by rw [findAll_named]; exact h
  obtain ⟨pre, post, p1, p2, -, -, -⟩ := updateFirst_split (f := fun _ => n') hf
  unfold kids at hm ⊢
  rw [p2, List.mem_filter] at hm
  rw [p1, List.mem_filter]
  refine ⟨?_, hm.2⟩
  rcases List.mem_append.1 hm.1 with h | h
  · exact List.mem_append_left _ h
  · rcases List.mem_cons.1 h with h | h
    · exact absurd h hm'
    · exact List.mem_append_right _ (List.mem_cons_of_mem _ h)

theorem newElem_get (t a x : Str) : (Elem.new t [(a, x)]).get a = some x := by
  unfold Elem.new Elem.get Elem.attrib
  simp [dget?]

/-- the Configuration with an id: found, or created at the end of the section -/
theorem foundOrNew_spec {s : Elem} {t a x : Str} (h : (named s t a x).length ≤ 1) :
    ∃ found, findChild s t [(a, x)] false = .ok found ∧
      ∃ s1 n, (found = some n ∧ s1 = s ∧ named s t a x = [n] ∨
        found = none ∧ s1 = s.setChildren (s.children ++ [n]) ∧ n = Elem.new t [(a, x)] ∧ named s t a x = [] ∧
          kids s1 t = kids s t ++ [n]) ∧
      named s1 t a x = [n] ∧ (∀ y, y ≠ x → named s1 t a y = named s t a y) ∧ SameButKids t s s1 := by
  match hk : named s t a x, h with
  | [], _ =>
    have hf : findChild s t [(a, x)] false = .ok none := findChild_none.2 (by rw [findAll_named]; exact hk)
    obtain ⟨u1, u2, u3, u4⟩ := named_append hk (n := Elem.new t [(a, x)]) rfl (newElem_get _ _ _)
    exact ⟨none, hf, _, _, Or.inr ⟨rfl, rfl, rfl, rfl, u4⟩, u1, u2, u3⟩
  | [n], _ =>
    have hf : findChild s t [(a, x)] false = .ok (some n) := findChild_some.2 (by rw [findAll_named]; exact hk)
    exact ⟨some n, hf, s, n, Or.inl ⟨rfl, rfl, rfl⟩, hk, fun _ _ => rfl, sameButKids_refl _ _⟩

/-- **C46 (create).** Creating a profile makes it known once (a new one comes last), with the given label and
description; every other profile, and everything else in the envelope, stays as it was. -/
theorem C46_create {v : Ver} {env : Elem} (h : ConfigsWF v env) (pid label desc : Str) :
    ∃ env' s' c', createProfile v env pid label desc = .ok env' ∧ ConfigsWF v env' ∧
      SameButKids (ovfTag v "DeploymentOptionSection".toList) env env' ∧
      kids env' (ovfTag v "DeploymentOptionSection".toList) = [s'] ∧
      named s' (ovfTag v "Configuration".toList) (ovfTag v "id".toList) pid = [c'] ∧
      TextIs c' (ovfTag v "Label".toList) (some label) ∧ TextIs c' (ovfTag v "Description".toList) (some desc) ∧
      (∀ L, configProfiles v env = .ok L → configProfiles v env' = .ok (if some pid ∈ L then L else L ++ [some pid])) ∧
      (∀ s, kids env (ovfTag v "DeploymentOptionSection".toList) = [s] →
        SameButKids (ovfTag v "Configuration".toList) s s' ∧
        (∀ x, x ≠ pid → named s' (ovfTag v "Configuration".toList) (ovfTag v "id".toList) x =
          named s (ovfTag v "Configuration".toList) (ovfTag v "id".toList) x)) := by
  obtain ⟨env1, s, e1, e2, e3, e4⟩ := ensure_spec (v := v) "Configuration Profiles".toList h.1
  have hinfo : ovfTag v "Configuration".toList ≠ infoTag v := fun hh => absurd (List.append_cancel_left hh) (by decide)
  have hld : ovfTag v "Label".toList ≠ ovfTag v "Description".toList := fun hh => absurd (List.append_cancel_left hh) (by decide)
  have hnew : ∀ info, kids (newSection v (ovfTag v "DeploymentOptionSection".toList) [] info) (ovfTag v "Configuration".toList) = [] :=
    fun info => newSection_kids hinfo
  have hwf : (∀ x, (named s (ovfTag v "Configuration".toList) (ovfTag v "id".toList) x).length ≤ 1) ∧
      ∀ c ∈ kids s (ovfTag v "Configuration".toList),
        (kids c (ovfTag v "Label".toList)).length ≤ 1 ∧ (kids c (ovfTag v "Description".toList)).length ≤ 1 := by
    rcases e4 with ⟨a, -⟩ | ⟨-, rfl⟩
    · exact h.2 s (by rw [a]; simp)
    · refine ⟨fun x => ?_, fun n hn => ?_⟩
      · have : named (newSection v (ovfTag v "DeploymentOptionSection".toList) [] "Configuration Profiles".toList)
            (ovfTag v "Configuration".toList) (ovfTag v "id".toList) x = [] := by
          rw [List.eq_nil_iff_forall_not_mem]
          intro c hc
          have := (named_sub.1 hc).1
          rw [hnew] at this
          cases this
        rw [this]; simp
      · rw [hnew] at hn; cases hn
  obtain ⟨found, f0, s1, c, f1, f2, f3, f4⟩ := foundOrNew_spec (hwf.1 pid)
  have hc1 : (kids c (ovfTag v "Label".toList)).length ≤ 1 ∧ (kids c (ovfTag v "Description".toList)).length ≤ 1 := by
    rcases f1 with ⟨-, -, a⟩ | ⟨-, -, a, -⟩
    · exact hwf.2 c (named_sub.1 (by rw [a]; simp)).1
    · subst a
      rw [newNet_kids, newNet_kids]; simp
  obtain ⟨c1, d1, g1, g2, g3, -, g5, -⟩ := setText_spec (x := label) (o := []) hc1.1
  have hc2 : (kids c1 (ovfTag v "Description".toList)).length ≤ 1 := by rw [g2.kids hld.symm]; exact hc1.2
  obtain ⟨c2, d2, k1, k2, k3, -, k5, -⟩ := setText_spec (x := desc) (o := []) hc2
  have hct := named_tag (s := s1) (c := c) (by rw [f2]; simp)
  have hget : ∀ k, c2.get k = c.get k := fun k => (k2.get k).trans (g2.get k)
  have htag : c2.tag = ovfTag v "Configuration".toList := k2.1.trans (g2.1.trans hct.1)
  obtain ⟨u1, u2, u3, u4⟩ := named_update f2 (n' := c2) htag ((hget _).trans hct.2)
  generalize hs' : updateFirst s1 (ovfTag v "Configuration".toList) [(ovfTag v "id".toList, pid)] (fun _ => c2) = s' at u1 u2 u3 u4
  have hst : s.tag = ovfTag v "DeploymentOptionSection".toList := kids_tag (by rw [e2]; simp)
  have w := updateFirst_spec e2 (s' := s') (u3.1.trans (f4.1.trans hst))
  have hset : createProfile v env pid label desc = .ok (updateFirst env1 (ovfTag v "DeploymentOptionSection".toList) [] (fun _ => s')) := by
    unfold createProfile deployTag configTag configId configLabel configDesc
    rw [e1]
    simp only
    rw [findChild_kids e2]
    simp only
    rw [f0]
    rcases f1 with ⟨rfl, rfl, -⟩ | ⟨rfl, rfl, rfl, -⟩
    · simp only [Option.getD_some]
      rw [g1]
      simp only
      rw [k1]
      simp only
      rw [hs']
    · simp only [Option.getD_none]
      rw [g1]
      simp only
      rw [k1]
      simp only
      rw [hs']
  have hl2 : TextIs c2 (ovfTag v "Label".toList) (some label) := by
    unfold TextIs at g5 ⊢
    rw [k2.kids hld]
    exact g5
  have hids : listing v (kids s' (ovfTag v "Configuration".toList)) = listing v (kids s1 (ovfTag v "Configuration".toList)) := by
    apply listing_congr
    apply u4 (fun c => (c.get (ovfTag v "id".toList), c.get (ovfTag v "default".toList)))
    rw [hget, hget]
  refine ⟨_, s', c2, hset, ⟨by rw [w.1]; simp, ?_⟩, e3.trans w.2, w.1, u1, hl2, k5, ?_, ?_⟩
  · intro s0 hs0
    rw [w.1, List.mem_singleton] at hs0
    subst hs0
    refine ⟨fun x => ?_, fun m hm => ?_⟩
    · by_cases hx : x = pid
      · subst hx; rw [u1]; simp
      · rw [u2 x hx, f3 x hx]; exact hwf.1 x
    · rw [← hs'] at hm
      rcases mem_kids_update f2 hm with rfl | hmem
      · rw [k2.kids hld, g3, k3]; simp
      · rcases f1 with ⟨-, a, -⟩ | ⟨-, -, a, -, b⟩
        · rw [a] at hmem; exact hwf.2 m hmem
        · rw [b] at hmem
          rcases List.mem_append.1 hmem with h | h
          · exact hwf.2 m h
          · rw [List.mem_singleton.1 h]; exact hc1
  · intro L hL
    rw [(C46_listing v _).1 s' w.1, hids]
    have hLs : L = listing v (kids s (ovfTag v "Configuration".toList)) := by
      rcases e4 with ⟨a, -⟩ | ⟨a, rfl⟩
      · rw [(C46_listing v _).1 s a] at hL
        exact (Except.ok.inj hL).symm
      · rw [(C46_listing v _).2 a] at hL
        rw [hnew]
        exact (Except.ok.inj hL).symm
    rcases f1 with ⟨-, b, a⟩ | ⟨-, -, b, a, d⟩
    · have hin : some pid ∈ L := by
        rw [hLs, mem_listing]
        have := named_sub.1 (show c ∈ named s _ _ pid by rw [a]; simp)
        exact ⟨c, this.1, this.2⟩
      rw [if_pos hin, b, hLs]
    · have hnin : ¬ some pid ∈ L := by
        rw [hLs, mem_listing]
        rintro ⟨m, hm, hm'⟩
        have : m ∈ named s (ovfTag v "Configuration".toList) (ovfTag v "id".toList) pid := named_sub.2 ⟨hm, hm'⟩
        rw [a] at this
        cases this
      have hnd : ¬ IsDefault v c := by
        subst b
        have hda : ovfTag v "id".toList ≠ ovfTag v "default".toList := fun hh => absurd (List.append_cancel_left hh) (by decide)
        have : (Elem.new (ovfTag v "Configuration".toList) [(ovfTag v "id".toList, pid)]).get (ovfTag v "default".toList) = none := by
          unfold Elem.new Elem.get Elem.attrib
          simp only [dget?]
          rw [if_neg hda]
        unfold IsDefault
        rw [this]
        simp
      rw [if_neg hnin, d, listing_append hnd, hct.2, hLs]
  · intro s0 hs0
    have : s0 = s := by
      rcases e4 with ⟨a, -⟩ | ⟨a, -⟩
      · rw [hs0] at a; cases a; rfl
      · rw [hs0] at a; cases a
    subst this
    exact ⟨f4.trans u3, fun x hx => (u2 x hx).trans (f3 x hx)⟩

/-- the environment once the profile is gone -/
def withoutProfile (e : Env) (p : Str) : Env := { e with configProfiles := e.configProfiles.filter (fun q => decide (q ≠ p)) }

theorem removeEach_spec {e : Env} {p : Str} : ∀ {ids : List Str} {hw : Hw}, ids.Nodup → (dkeys hw).Nodup →
    (∀ id ∈ ids, ∃ it, dget? hw id = some it ∧ ItemWF e it) →
    ∃ hw', removeProfileEach e p ids hw = .ok hw' ∧ dkeys hw' = dkeys hw ∧
      (∀ id, id ∉ ids → dget? hw' id = dget? hw id) ∧
      (∀ id ∈ ids, ∀ it, dget? hw id = some it → ∃ it', it.removeProfile e (some p) false = .ok it' ∧ dget? hw' id = some it')
  | [], hw, _, _, _ => ⟨hw, rfl, rfl, fun _ _ => rfl, by simp⟩
  | id :: r, hw, hn, hk, hw0 => by
    obtain ⟨it, h1, h2⟩ := hw0 id (by simp)
    obtain ⟨it', k1, k2, -, -⟩ := removeProfile_spec h2 (some p) false
    obtain ⟨n1, n2⟩ := List.nodup_cons.1 hn
    have hmem : id ∈ dkeys hw := mem_dkeys_of_dget? h1
    have hkd : dkeys (dset hw id it') = dkeys hw := dkeys_dset_mem hmem it'
    have hne : ∀ j ∈ r, id ≠ j := fun j hj e => n1 (e ▸ hj)
    obtain ⟨hw', g1, g2, g3, g4⟩ := removeEach_spec (e := e) (p := p) (ids := r) (hw := dset hw id it') n2 (by rw [hkd]; exact hk)
      (fun j hj => by
        rw [dget?_dset, if_neg (hne j hj)]
        exact hw0 j (List.mem_cons_of_mem _ hj))
    refine ⟨hw', ?_, g2.trans hkd, ?_, ?_⟩
    · rw [removeProfileEach, h1]
      simp only
      rw [k1]
      exact g1
    · intro j hj
      rw [List.mem_cons, not_or] at hj
      rw [g3 j hj.2, dget?_dset, if_neg (Ne.symm hj.1)]
    · intro j hj it0 hit0
      rcases List.mem_cons.1 hj with rfl | hj
      · rw [h1] at hit0
        cases hit0
        exact ⟨it', k1, by rw [g3 j n1, dget?_dset, if_pos rfl]⟩
      · exact g4 j hj it0 (by rw [dget?_dset, if_neg (hne j hj)]; exact hit0)

theorem itemMatch_profile (e : Env) (it : Item) (p : Prof) : itemMatch e it none [] [p] = .ok (it.hasProfile e p) := by
  unfold itemMatch typeMatch
  simp only [List.any_cons, List.any_nil, Bool.or_false]
  cases it.hasProfile e p <;> rfl

/-- the items found by profile -/
theorem findByProfile_spec {e : Env} {hw : Hw} (hk : (dkeys hw).Nodup) (p : Prof) :
    ∃ ids, findAllItems e hw none [] [p] = .ok ids ∧ ids.Nodup ∧
      ∀ id, id ∈ ids ↔ ∃ it, dget? hw id = some it ∧ it.hasProfile e p = true := by
  have hf : ∀ id ∈ naturalSort (dkeys hw), ∃ it, dget? hw id = some it := fun id hid =>
    dget?_of_mem_dkeys ((naturalSort_perm (dkeys hw)).mem_iff.1 hid)
  obtain ⟨ids, h⟩ := filterE_ok (f := fun id => match dget? hw id with
    | none => .error .keyError
    | some it => itemMatch e it none [] [p]) (l := naturalSort (dkeys hw)) (fun id hid => by
      obtain ⟨it, hit⟩ := hf id hid
      refine ⟨it.hasProfile e p, ?_⟩
      simp only [hit]
      exact itemMatch_profile e it p)
  obtain ⟨h1, h2⟩ := filterE_mem h
  refine ⟨ids, h, (naturalSort_nodup hk).sublist h2, fun id => ?_⟩
  rw [h1]
  constructor
  · rintro ⟨a, b⟩
    obtain ⟨it, hit⟩ := hf id a
    simp only [hit, itemMatch_profile, Except.ok.injEq] at b
    exact ⟨it, hit, b⟩
  · rintro ⟨it, hit, b⟩
    refine ⟨(naturalSort_perm (dkeys hw)).mem_iff.2 (mem_dkeys_of_dget? hit), ?_⟩
    simp only [hit, itemMatch_profile, b]

/-- what deleting a profile does to an item -/
theorem itemDeleted {e : Env} {it : Item} (wf : ItemWF e it) (p : Str) {it' : Item}
    (h : it.hasProfile e (some p) = true ∧ it.removeProfile e (some p) false = .ok it' ∨
      it.hasProfile e (some p) = false ∧ it' = it) :
    ItemWF (withoutProfile e p) it' ∧ it'.hasProfile (withoutProfile e p) (some p) = false ∧
    (∀ q, q ≠ some p → it'.hasProfile (withoutProfile e p) q = it.hasProfile e q) ∧
    (∀ Q : PSet, Q ≠ ∅ → some p ∉ Q → ∀ n, it'.getValue (withoutProfile e p) n (some Q) = it.getValue e n (some Q)) ∧
    (∀ n v S, (v, S) ∈ it'.tab n → ∃ T, (v, T) ∈ it.tab n) := by
  have hcfg : ∀ q : Prof, q ≠ some p → (q ∈ (withoutProfile e p).cfgSet ↔ q ∈ e.cfgSet) := by
    intro q hq
    cases q with
    | none => exact ⟨fun h => absurd h (none_not_cfg _), fun h => absurd h (none_not_cfg _)⟩
    | some q =>
      rw [mem_cfgSet, mem_cfgSet]
      unfold withoutProfile
      simp only [List.mem_filter, decide_eq_true_eq]
      exact ⟨fun h => h.1, fun h => ⟨h, fun hh => hq (by rw [hh])⟩⟩
  have hcp : some p ∉ (withoutProfile e p).cfgSet := by
    rw [mem_cfgSet]; unfold withoutProfile; simp
  have hwf : ∀ {i : Item}, ItemWF e i → ItemWF (withoutProfile e p) i := fun w => ⟨w.1, w.2, w.3, w.4, w.5⟩
  rcases h with ⟨hp, h⟩ | ⟨hp, rfl⟩
  · obtain ⟨i2, k1, k2, -, k3⟩ := removeProfile_spec wf (some p) false
    have k4 := k3 hp
    rw [h] at k1
    cases k1
    have he : ∀ n q w, Explicit (it'.tab n) q w ↔ q ≠ some p ∧ Explicit (it.tab n) q w := fun n q w => by
      rw [k4 n, explicit_removeLoop (wf.tab n)]; simp
    obtain ⟨i3, m1, -, -, -, m5⟩ := C04_remove_profile_keep_default wf hp
    rw [h] at m1
    cases m1
    refine ⟨hwf k2, ?_, ?_, fun Q hQ hpQ n => m5 Q hQ hpQ n, ?_⟩
    · rw [Bool.eq_false_iff]
      intro hh
      rcases hasProfile_iff.1 hh with ⟨v, hv⟩ | ⟨-, hc⟩
      · exact ((he _ _ _).1 hv).1 rfl
      · exact hcp hc
    · intro q hq
      rw [Bool.eq_iff_iff, hasProfile_iff, hasProfile_iff, hcfg q hq]
      have h1 : (∃ v, Explicit (it'.tab (instanceId (withoutProfile e p).ver)) q v) ↔ ∃ v, Explicit (it.tab (instanceId e.ver)) q v := by
        constructor
        · rintro ⟨v, hv⟩; exact ⟨v, ((he _ _ _).1 hv).2⟩
        · rintro ⟨v, hv⟩; exact ⟨v, (he _ _ _).2 ⟨hq, hv⟩⟩
      have h2 : (∃ v, Explicit (it'.tab (instanceId (withoutProfile e p).ver)) none v) ↔ ∃ v, Explicit (it.tab (instanceId e.ver)) none v := by
        constructor
        · rintro ⟨v, hv⟩; exact ⟨v, ((he _ _ _).1 hv).2⟩
        · rintro ⟨v, hv⟩; exact ⟨v, (he _ _ _).2 ⟨by simp, hv⟩⟩
      rw [h1, h2]
    · intro n v S hv
      obtain ⟨q, hq⟩ := Finset.nonempty_iff_ne_empty.2 ((k2.tab n).nonempty v S hv)
      obtain ⟨T, hT, -⟩ := ((he n q v).1 ⟨S, hv, hq⟩).2
      exact ⟨T, hT⟩
  · refine ⟨hwf wf, ?_, ?_, fun _ _ _ _ => rfl, fun n v S h => ⟨S, h⟩⟩
    · rw [Bool.eq_false_iff] at hp ⊢
      intro hh
      apply hp
      rcases hasProfile_iff.1 hh with h | ⟨-, hc⟩
      · exact hasProfile_iff.2 (Or.inl h)
      · exact absurd hc hcp
    · intro q hq
      rw [Bool.eq_iff_iff, hasProfile_iff, hasProfile_iff, hcfg q hq]
      rfl

/-- **C46 (delete, the list of profiles).** Deleting a known profile removes it from the list and keeps the
others in order; the section goes away exactly when no Configuration is left; the other Configurations and
everything else in the envelope stay as they were.

**C46 (delete, the hardware).** No item exists under the deleted profile any more; whatever profiles other than
it see, of every item, is unchanged. -/
theorem C46_delete {e : Env} {env s : Elem} {hw : Hw} (wf : HwWF e hw) {p : Str}
    (hs : kids env (ovfTag e.ver "DeploymentOptionSection".toList) = [s])
    (hc : (named s (ovfTag e.ver "Configuration".toList) (ovfTag e.ver "id".toList) p).length = 1) :
    ∃ env' hw', deleteProfile e env hw p = .ok (env', hw') ∧
      SameButKids (ovfTag e.ver "DeploymentOptionSection".toList) env env' ∧
      (∀ L, configProfiles e.ver env = .ok L → configProfiles e.ver env' = .ok (L.filter (fun q => decide (q ≠ some p)))) ∧
      ((∀ c ∈ kids s (ovfTag e.ver "Configuration".toList), c.get (ovfTag e.ver "id".toList) = some p) →
        kids env' (ovfTag e.ver "DeploymentOptionSection".toList) = []) ∧
      ((∃ c ∈ kids s (ovfTag e.ver "Configuration".toList), c.get (ovfTag e.ver "id".toList) ≠ some p) →
        ∃ s', kids env' (ovfTag e.ver "DeploymentOptionSection".toList) = [s'] ∧
          SameButKids (ovfTag e.ver "Configuration".toList) s s' ∧
          kids s' (ovfTag e.ver "Configuration".toList) =
            (kids s (ovfTag e.ver "Configuration".toList)).filter (fun c => decide (c.get (ovfTag e.ver "id".toList) ≠ some p))) ∧
      HwWF (withoutProfile e p) hw' ∧ dkeys hw' = dkeys hw ∧
      (∀ id it, dget? hw id = some it → ∃ it', dget? hw' id = some it' ∧
        it'.hasProfile (withoutProfile e p) (some p) = false ∧
        (∀ q, q ≠ some p → it'.hasProfile (withoutProfile e p) q = it.hasProfile e q) ∧
        (∀ Q : PSet, Q ≠ ∅ → some p ∉ Q → ∀ n,
          it'.getValue (withoutProfile e p) n (some Q) = it.getValue e n (some Q))) := by
  obtain ⟨c, hc⟩ := List.length_eq_one_iff.1 hc
  obtain ⟨ids, i1, i2, i3⟩ := findByProfile_spec (e := e) wf.keys (some p)
  obtain ⟨hw', r1, r2, r3, r4⟩ := removeEach_spec (e := e) (p := p) i2 wf.keys (fun id hid => by
    obtain ⟨it, hit, -⟩ := (i3 id).1 hid
    exact ⟨it, hit, (wf.get hit).1⟩)
  obtain ⟨-, -, d3, d4⟩ := dropNamed_spec s (ovfTag e.ver "Configuration".toList) (ovfTag e.ver "id".toList) p
  generalize hs' : s.setChildren (s.children.filter (fun c => !(c.tag == ovfTag e.ver "Configuration".toList &&
    attribMatch c [(ovfTag e.ver "id".toList, p)]))) = s' at d3 d4
  have hst : s.tag = ovfTag e.ver "DeploymentOptionSection".toList := kids_tag (by rw [hs]; simp)
  have w := updateFirst_spec hs (s' := s') (d3.1.trans hst)
  have dk := dropKids_spec env (ovfTag e.ver "DeploymentOptionSection".toList)
  have hdel : deleteProfile e env hw p = .ok (if kids s' (ovfTag e.ver "Configuration".toList) = [] then
      env.setChildren (env.children.filter (fun c => !(c.tag == ovfTag e.ver "DeploymentOptionSection".toList)))
      else updateFirst env (ovfTag e.ver "DeploymentOptionSection".toList) [] (fun _ => s'), hw') := by
    unfold deleteProfile deployTag configTag configId
    rw [findChild_kids hs]
    simp only
    rw [findChild_some.2 (show findAllChildren s _ _ = [c] by rw [findAll_named]; exact hc)]
    simp only
    rw [i1]
    simp only
    rw [r1]
    simp only
    rw [hs', findAll_nil]
    split <;> rfl
  have hitems : ∀ id it, dget? hw id = some it → ∃ it', dget? hw' id = some it' ∧
      (it.hasProfile e (some p) = true ∧ it.removeProfile e (some p) false = .ok it' ∨
      it.hasProfile e (some p) = false ∧ it' = it) := by
    intro id it hit
    by_cases hp : it.hasProfile e (some p) = true
    · obtain ⟨it', a, b⟩ := r4 id ((i3 id).2 ⟨it, hit, hp⟩) it hit
      exact ⟨it', b, Or.inl ⟨hp, a⟩⟩
    · refine ⟨it, ?_, Or.inr ⟨Bool.eq_false_iff.2 hp, rfl⟩⟩
      rw [r3 id ?_]
      · exact hit
      · intro hid
        obtain ⟨i2, h1, h2⟩ := (i3 id).1 hid
        rw [hit] at h1
        cases h1
        exact hp h2
  have hback : ∀ id it', (id, it') ∈ hw' → ∃ it, dget? hw id = some it ∧
      (it.hasProfile e (some p) = true ∧ it.removeProfile e (some p) false = .ok it' ∨
      it.hasProfile e (some p) = false ∧ it' = it) := by
    intro id it' hm
    have hg : dget? hw' id = some it' := dget?_of_mem (by rw [r2]; exact wf.keys) hm
    have : id ∈ dkeys hw := by rw [← r2]; exact mem_dkeys_of_dget? hg
    obtain ⟨it, hit⟩ := dget?_of_mem_dkeys this
    obtain ⟨i2, a, b⟩ := hitems id it hit
    rw [hg] at a
    cases a
    exact ⟨it, hit, b⟩
  refine ⟨_, hw', hdel, ?_, ?_, ?_, ?_, ⟨by rw [r2]; exact wf.keys, ?_, ?_⟩, r2, ?_⟩
  · split
    · exact dk.2
    · exact w.2
  · intro L hL
    rw [(C46_listing e.ver env).1 s hs] at hL
    cases hL
    rw [← listing_filter, ← d4]
    by_cases h0 : kids s' (ovfTag e.ver "Configuration".toList) = []
    · rw [if_pos h0, (C46_listing e.ver _).2 dk.1, h0]
      rfl
    · rw [if_neg h0, (C46_listing e.ver _).1 s' w.1]
  · intro hall
    have h0 : kids s' (ovfTag e.ver "Configuration".toList) = [] := by
      rw [d4, List.filter_eq_nil_iff]
      intro c hc
      rw [decide_eq_true_eq]
      exact fun h => h (hall c hc)
    rw [if_pos h0]
    exact dk.1
  · rintro ⟨c, hc, hne⟩
    have h0 : ¬ kids s' (ovfTag e.ver "Configuration".toList) = [] := by
      intro h0
      rw [d4, List.filter_eq_nil_iff] at h0
      exact h0 c hc (by simpa using hne)
    rw [if_neg h0]
    exact ⟨s', w.1, d3, d4⟩
  · intro id it' hm
    obtain ⟨it, hit, b⟩ := hback id it' hm
    exact (itemDeleted (wf.get hit).1 p b).1
  · intro id it' hm v S hv
    obtain ⟨it, hit, b⟩ := hback id it' hm
    obtain ⟨T, hT⟩ := (itemDeleted (wf.get hit).1 p b).2.2.2.2 _ v S hv
    exact wf.ident id it (dget?_mem hit) v T hT
  · intro id it hit
    obtain ⟨it', a, b⟩ := hitems id it hit
    obtain ⟨-, k2, k3, k4, -⟩ := itemDeleted (wf.get hit).1 p b
    exact ⟨it', a, k2, k3, k4⟩

/-- **C46 (unknown profile).** Deleting a profile that is not listed changes nothing and reports it. -/
theorem C46_unknown {e : Env} {env s : Elem} (hw : Hw) {p : Str}
    (hs : kids env (ovfTag e.ver "DeploymentOptionSection".toList) = [s])
    (hc : ∀ c ∈ kids s (ovfTag e.ver "Configuration".toList), c.get (ovfTag e.ver "id".toList) ≠ some p) :
    deleteProfile e env hw p = .error .lookupError := by
  unfold deleteProfile deployTag configTag configId
  rw [findChild_kids hs]
  simp only
  rw [findChild_none.2]
  rw [findAll_named, List.eq_nil_iff_forall_not_mem]
  intro c hm
  exact hc c (named_sub.1 hm).1 (named_sub.1 hm).2

/-- A package without any DeploymentOptionSection gives AttributeError where LookupError is documented. -/
theorem C46_no_section_fails : ∀ (e : Env) (hw : Hw) (p : Str),
    deleteProfile e (Elem.new (ovfTag e.ver "Envelope".toList)) hw p = .error .attributeError := by
  intro e hw p
  unfold deleteProfile
  rw [findChild_none.2]
  rfl

/-- an envelope with two profiles, the second being the default -/
def exCfgEnv : Elem :=
  .mk (ovfTag .v1 "Envelope".toList) [] none none
    [.mk (ovfTag .v1 "References".toList) [] none none [],
     .mk (ovfTag .v1 "DeploymentOptionSection".toList) [] none none
      [.mk (ovfTag .v1 "Configuration".toList) [(ovfTag .v1 "id".toList, "x".toList)] none none [],
       .mk (ovfTag .v1 "Configuration".toList) [(ovfTag .v1 "id".toList, "y".toList),
        (ovfTag .v1 "default".toList, "true".toList)] none none []]]

example : exEnv.ver = .v1 ∧ HwWF exEnv exHw ∧ configProfiles .v1 exCfgEnv = .ok [some "y".toList, some "x".toList] ∧
    (createProfile .v1 exCfgEnv "z".toList "Z".toList "third".toList).bind (configProfiles .v1) =
      .ok [some "y".toList, some "x".toList, some "z".toList] ∧
    (deleteProfile exEnv exCfgEnv exHw "y".toList).bind (fun r => configProfiles .v1 r.1) = .ok [some "x".toList] :=
  ⟨rfl, exHw_wf, rfl, rfl, rfl⟩

/-- starting without any profile, creating two gives a well-formed envelope with both -/
example : ∃ env', ConfigsWF .v1 env' ∧ configProfiles .v1 env' = .ok [some "x".toList, some "y".toList] := by
  have h0 : ConfigsWF .v1 (Elem.new (ovfTag .v1 "Envelope".toList)) :=
    ⟨by decide +kernel, fun s hs => by cases hs⟩
  obtain ⟨e1, -, -, -, w1, -, -, -, -, -, l1, -⟩ := C46_create h0 "x".toList "X".toList "first".toList
  obtain ⟨e2, -, -, -, w2, -, -, -, -, -, l2, -⟩ := C46_create w1 "y".toList "Y".toList "second".toList
  have a := l1 [] rfl
  have b := l2 _ a
  exact ⟨e2, w2, b⟩

end Cot
