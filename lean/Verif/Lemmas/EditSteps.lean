import Verif.Lemmas.EditFrame
import Verif.Props.Networks
import Verif.Props.Profiles
/-
The steps of edit-hardware, one by one.
-/
namespace Cot

theorem configProfiles_congr {v : Ver} {a b : Elem}
    (h : kids b (ovfTag v "DeploymentOptionSection".toList) = kids a (ovfTag v "DeploymentOptionSection".toList)) :
    configProfiles v b = configProfiles v a := by
  unfold configProfiles findChild deployTag
  rw [findAll_nil, findAll_nil, h]

theorem deploy_ne_net (v : Ver) : ovfTag v "DeploymentOptionSection".toList ≠ ovfTag v "NetworkSection".toList :=
  fun hh => absurd (List.append_cancel_left hh) (by decide)

theorem curEnv_congr {c : EhCtx} {a b : Elem} (h : configProfiles c.env.ver b = configProfiles c.env.ver a) :
    curEnv c b = curEnv c a := by
  unfold curEnv; rw [h]

theorem curEnv_ver {c : EhCtx} {e : Elem} {env : Env} (h : curEnv c e = .ok env) : env.ver = c.env.ver := by
  unfold curEnv at h
  split at h
  · cases h
  · split at h
    · cases h
    · cases h; rfl

/-! ### hardware only -/

/-- only the hardware (and the record of validated values) changed -/
def OnlyHw (s s' : EhSt) : Prop := s'.envl = s.envl ∧ s'.hws = s.hws

theorem vmValidate_inv {c : EhCtx} {k : HwKind} {v : Int} {s s' : EhSt} (h : vmValidate c k v s = .ok s') :
    OnlyHw s s' ∧ s'.hw = s.hw ∧ (validateHw c.plat k s.seen v).1 = .ok () := by
  unfold vmValidate at h
  split at h
  · cases h
  · rename_i u seen' hv; cases h; exact ⟨⟨rfl, rfl⟩, rfl, by rw [hv]⟩

theorem cpuStep_inv {c : EhCtx} {q : EhReq} {s s' : EhSt} {env : Env} (he : curEnv c s.envl = .ok env)
    (h : cpuStep c q s = .ok s') : OnlyHw s s' ∧ (q.cpus = none → s'.hw = s.hw) ∧
      ∀ n, q.cpus = some n →
        setValueForAll env s.hw "cpu".toList virtualQuantity (.str (intStr n)) q.profList true = .ok s'.hw := by
  unfold cpuStep at h
  split at h
  · rename_i hn; cases h; exact ⟨⟨rfl, rfl⟩, fun _ => rfl, by rw [hn]; simp⟩
  · rename_i n hn
    obtain ⟨s1, h1, h⟩ := bind_ok_inv h
    obtain ⟨env1, h2, h⟩ := bind_ok_inv h
    obtain ⟨hw, h3, h⟩ := bind_ok_inv h
    cases h
    obtain ⟨⟨a, b⟩, d, -⟩ := vmValidate_inv h1
    rw [a, he] at h2; cases h2
    rw [d] at h3
    refine ⟨⟨a, b⟩, by rw [hn]; simp, ?_⟩
    intro m hm; rw [hn] at hm; cases hm; exact h3

theorem memoryStep_inv {c : EhCtx} {q : EhReq} {s s' : EhSt} {env : Env} (he : curEnv c s.envl = .ok env)
    (h : memoryStep c q s = .ok s') : OnlyHw s s' ∧ (q.memory = none → s'.hw = s.hw) ∧
      ∀ n, q.memory = some n → ∃ hw1,
        setValueForAll env s.hw "memory".toList virtualQuantity (.str (natStr n)) q.profList true = .ok hw1 ∧
        setValueForAll env hw1 "memory".toList allocationUnits (.str "byte * 2^20".toList) q.profList false = .ok s'.hw := by
  unfold memoryStep at h
  split at h
  · rename_i hn; cases h; exact ⟨⟨rfl, rfl⟩, fun _ => rfl, by rw [hn]; simp⟩
  · rename_i n hn
    obtain ⟨s1, h1, h⟩ := bind_ok_inv h
    obtain ⟨env1, h2, h⟩ := bind_ok_inv h
    obtain ⟨hw, h3, h⟩ := bind_ok_inv h
    obtain ⟨hw', h4, h⟩ := bind_ok_inv h
    cases h
    obtain ⟨⟨a, b⟩, d, -⟩ := vmValidate_inv h1
    rw [a, he] at h2; cases h2
    rw [d] at h3
    refine ⟨⟨a, b⟩, by rw [hn]; simp, ?_⟩
    intro m hm; rw [hn] at hm; cases hm; exact ⟨hw, h3, h4⟩

theorem nicCountStep_inv {c : EhCtx} {q : EhReq} {s s' : EhSt} {env : Env} (he : curEnv c s.envl = .ok env)
    (h : nicCountStep c q s = .ok s') : OnlyHw s s' ∧ (q.nics = none → s'.hw = s.hw) ∧
      ∀ n, q.nics = some n →
        setItemCount env c.nicName s.hw "ethernet".toList n q.profList = .ok s'.hw ∧
        ∃ d, itemCounts env s.hw "ethernet".toList q.profList = .ok d ∧
          askEach c (fun p k => .deleteNics p k n) d n (allProfilesIfEmpty env q.profList) = .ok () := by
  unfold nicCountStep at h
  obtain ⟨env1, h1, h⟩ := bind_ok_inv h
  rw [he] at h1; cases h1
  obtain ⟨d, hd, h⟩ := bind_ok_inv h
  split at h
  · rename_i hn; cases h; exact ⟨⟨rfl, rfl⟩, fun _ => rfl, by rw [hn]; simp⟩
  · rename_i n hn
    obtain ⟨u, h2, h⟩ := bind_ok_inv h
    obtain ⟨s1, h3, h⟩ := bind_ok_inv h
    obtain ⟨hw, h4, h⟩ := bind_ok_inv h
    cases h
    obtain ⟨⟨a, b⟩, e, -⟩ := vmValidate_inv h3
    rw [e] at h4
    refine ⟨⟨a, b⟩, by rw [hn]; simp, ?_⟩
    intro m hm; rw [hn] at hm; cases hm; exact ⟨h4, d, hd, h2⟩

theorem nicTypesStep_inv {c : EhCtx} {q : EhReq} {s s' : EhSt} {env : Env} (he : curEnv c s.envl = .ok env)
    (h : nicTypesStep c q s = .ok s') : OnlyHw s s' ∧ (q.nicTypes = none → s'.hw = s.hw) ∧
      ∀ l, q.nicTypes = some l → ∃ l', canonNics l = .ok l' ∧ validateNicTypes c.plat l' = .ok () ∧
        setValueForAll env s.hw "ethernet".toList resourceSubType (.list l') q.profList false = .ok s'.hw := by
  unfold nicTypesStep at h
  split at h
  · rename_i hn; cases h; exact ⟨⟨rfl, rfl⟩, fun _ => rfl, by rw [hn]; simp⟩
  · rename_i l hn
    obtain ⟨l', h1, h⟩ := bind_ok_inv h
    obtain ⟨u, h2, h⟩ := bind_ok_inv h
    obtain ⟨env1, h3, h⟩ := bind_ok_inv h
    obtain ⟨hw, h4, h⟩ := bind_ok_inv h
    cases h
    rw [he] at h3; cases h3
    refine ⟨⟨rfl, rfl⟩, by rw [hn]; simp, ?_⟩
    intro m hm; rw [hn] at hm; cases hm; exact ⟨l', h1, h2, h4⟩

theorem macsStep_inv {c : EhCtx} {q : EhReq} {s s' : EhSt} {env : Env} (he : curEnv c s.envl = .ok env)
    (h : macsStep c q s = .ok s') : OnlyHw s s' ∧ (q.macs = none → s'.hw = s.hw) ∧
      ∀ l, q.macs = some l → setNicValues env s.hw address l q.profOpt = .ok s'.hw := by
  unfold macsStep at h
  split at h
  · rename_i hn; cases h; exact ⟨⟨rfl, rfl⟩, fun _ => rfl, by rw [hn]; simp⟩
  · rename_i l hn
    obtain ⟨env1, h3, h⟩ := bind_ok_inv h
    obtain ⟨hw, h4, h⟩ := bind_ok_inv h
    cases h
    rw [he] at h3; cases h3
    refine ⟨⟨rfl, rfl⟩, by rw [hn]; simp, ?_⟩
    intro m hm; rw [hn] at hm; cases hm; exact h4

theorem nicNamesStep_inv {c : EhCtx} {q : EhReq} {s s' : EhSt} {env : Env} (he : curEnv c s.envl = .ok env)
    (h : nicNamesStep c q s = .ok s') : OnlyHw s s' ∧ (q.nicNames = none → s'.hw = s.hw) ∧
      ∀ l, q.nicNames = some l → ∃ d, itemCounts env s.hw "ethernet".toList q.profList = .ok d ∧
        setItemValues env s.hw "ethernet".toList (elementName c.env.ver)
          ((expandListWildcard l (maxCount d (allProfilesIfEmpty env q.profList))).map InVal.str) q.profOpt .none = .ok s'.hw := by
  unfold nicNamesStep at h
  split at h
  · rename_i hn; cases h; exact ⟨⟨rfl, rfl⟩, fun _ => rfl, by rw [hn]; simp⟩
  · rename_i l hn
    obtain ⟨env1, h3, h⟩ := bind_ok_inv h
    obtain ⟨d, hd, h⟩ := bind_ok_inv h
    obtain ⟨hw, h4, h⟩ := bind_ok_inv h
    cases h
    rw [he] at h3; cases h3
    refine ⟨⟨rfl, rfl⟩, by rw [hn]; simp, ?_⟩
    intro m hm; rw [hn] at hm; cases hm; exact ⟨d, hd, h4⟩

theorem serialCountStep_inv {c : EhCtx} {q : EhReq} {s s' : EhSt} {env : Env} (he : curEnv c s.envl = .ok env)
    (h : serialCountStep c q s = .ok s') : OnlyHw s s' ∧ (q.serialPorts = none → s'.hw = s.hw) ∧
      ∀ n, q.serialPorts = some n →
        setItemCount env c.nicName s.hw "serial".toList n q.profList = .ok s'.hw ∧
        ∃ d, itemCounts env s.hw "serial".toList q.profList = .ok d ∧
          askEach c (fun p k => .deleteSerial p k n) d n (allProfilesIfEmpty env q.profList) = .ok () := by
  unfold serialCountStep at h
  split at h
  · rename_i hn; cases h; exact ⟨⟨rfl, rfl⟩, fun _ => rfl, by rw [hn]; simp⟩
  · rename_i n hn
    obtain ⟨env1, h3, h⟩ := bind_ok_inv h
    obtain ⟨d, hd, h⟩ := bind_ok_inv h
    obtain ⟨u, h2, h⟩ := bind_ok_inv h
    obtain ⟨hw, h4, h⟩ := bind_ok_inv h
    cases h
    rw [he] at h3; cases h3
    refine ⟨⟨rfl, rfl⟩, by rw [hn]; simp, ?_⟩
    intro m hm; rw [hn] at hm; cases hm; exact ⟨h4, d, hd, h2⟩

theorem serialConnStep_inv {c : EhCtx} {q : EhReq} {s s' : EhSt} {env : Env} (he : curEnv c s.envl = .ok env)
    (h : serialConnStep c q s = .ok s') : OnlyHw s s' ∧ (q.serialConn = none → s'.hw = s.hw) ∧
      ∀ l, q.serialConn = some l →
        setItemValues env s.hw "serial".toList address (l.map InVal.str) q.profOpt (.str []) = .ok s'.hw ∧
        ∃ d, itemCounts env s.hw "serial".toList q.profList = .ok d ∧
          askEach c (fun p k => .unreachable p k l.length) d l.length (allProfilesIfEmpty env q.profList) = .ok () := by
  unfold serialConnStep at h
  split at h
  · rename_i hn; cases h; exact ⟨⟨rfl, rfl⟩, fun _ => rfl, by rw [hn]; simp⟩
  · rename_i l hn
    obtain ⟨env1, h3, h⟩ := bind_ok_inv h
    obtain ⟨d, hd, h⟩ := bind_ok_inv h
    obtain ⟨u, h2, h⟩ := bind_ok_inv h
    obtain ⟨hw, h4, h⟩ := bind_ok_inv h
    cases h
    rw [he] at h3; cases h3
    refine ⟨⟨rfl, rfl⟩, by rw [hn]; simp, ?_⟩
    intro m hm; rw [hn] at hm; cases hm; exact ⟨h4, d, hd, h2⟩

theorem subtypesStep_inv {c : EhCtx} {q : EhReq} {rt : Str} {types : Option (List Str)} {s s' : EhSt} {env : Env}
    (he : curEnv c s.envl = .ok env) (h : subtypesStep c q rt types s = .ok s') :
    OnlyHw s s' ∧ (types = none → s'.hw = s.hw) ∧
      ∀ l, types = some l → setValueForAll env s.hw rt resourceSubType (.list l) q.profList false = .ok s'.hw := by
  unfold subtypesStep at h
  split at h
  · cases h; exact ⟨⟨rfl, rfl⟩, fun _ => rfl, by simp⟩
  · rename_i l
    obtain ⟨env1, h3, h⟩ := bind_ok_inv h
    obtain ⟨hw, h4, h⟩ := bind_ok_inv h
    cases h
    rw [he] at h3; cases h3
    refine ⟨⟨rfl, rfl⟩, by simp, ?_⟩
    intro m hm; cases hm; exact h4

/-! ### networks -/

/-- the requests that matter after the networks were inferred -/
theorem inferNetworks_inv {c : EhCtx} {q q' : EhReq} {s : EhSt} (h : inferNetworks c q s = .ok q') :
    ∃ nets descs, q' = { q with networks := nets, descriptions := descs } ∧
      (q.nics = none → q' = q) ∧ (∀ l, q.networks = some l → q' = q) ∧ (∀ l, q.descriptions = some l → q'.descriptions = some l) ∧
      (networks c.env.ver s.envl = .ok [] → q' = q) := by
  unfold inferNetworks at h
  split at h
  · cases h; exact ⟨_, _, rfl, fun _ => rfl, fun _ _ => rfl, fun l hl => hl, fun _ => rfl⟩
  · cases h; exact ⟨_, _, rfl, fun _ => rfl, fun _ _ => rfl, fun l hl => hl, fun _ => rfl⟩
  · rename_i n h1 h2
    obtain ⟨env, h3, h⟩ := bind_ok_inv h
    obtain ⟨d, h4, h⟩ := bind_ok_inv h
    simp only at h
    generalize maxCount d (allProfilesIfEmpty env q.profList) = m at h
    by_cases hm : n ≤ m ∨ m < 2
    · rw [if_pos hm] at h
      cases h; exact ⟨_, _, rfl, fun _ => rfl, fun _ _ => rfl, fun l hl => hl, fun _ => rfl⟩
    · rw [if_neg hm] at h
      obtain ⟨nets, h5, h⟩ := bind_ok_inv h
      split at h
      · cases h; exact ⟨_, _, rfl, fun _ => rfl, fun _ _ => rfl, fun l hl => hl, fun _ => rfl⟩
      · split at h
        · cases h
        · obtain ⟨descs, h6, h⟩ := bind_ok_inv h
          cases h
          refine ⟨_, _, rfl, (by rw [h1]; simp), (by rw [h2]; simp), ?_, ?_⟩
          · intro l hl
            simp only [hl]
          · intro hnil
            rw [hnil] at h5
            cases h5
            simp only [List.length_nil] at *
            omega

/-- the envelope after some networks were declared or described: everything but the network section is the same, no
network is lost, and the names in `ns` are declared -/
structure NetsAdded (v : Ver) (ns : List Str) (e e' : Elem) : Prop where
  wf : NetsWF v e'
  rest : SameButKids (ovfTag v "NetworkSection".toList) e e'
  list : ∀ L, networks v e = .ok L → ∃ M, networks v e' = .ok (L ++ M) ∧ (∀ n ∈ ns, some n ∈ L ++ M) ∧
    (∀ x ∈ M, x ∉ L ∧ ∃ n ∈ ns, x = some n)

theorem NetsAdded.refl {v : Ver} {e : Elem} (h : NetsWF v e) : NetsAdded v [] e e :=
  ⟨h, sameButKids_refl _ _, fun L hL => ⟨[], by simpa using hL, by simp, by simp⟩⟩

theorem NetsAdded.trans {v : Ver} {n1 n2 : List Str} {a b c : Elem} (h1 : NetsAdded v n1 a b) (h2 : NetsAdded v n2 b c) :
    NetsAdded v (n1 ++ n2) a c := by
  refine ⟨h2.wf, ?_, ?_⟩
  · obtain ⟨a1, a2, a3, a4, a5⟩ := h1.rest
    obtain ⟨b1, b2, b3, b4, b5⟩ := h2.rest
    exact ⟨b1.trans a1, b2.trans a2, b3.trans a3, b4.trans a4, b5.trans a5⟩
  · intro L hL
    obtain ⟨M, k1, k2, k3⟩ := h1.list L hL
    obtain ⟨N, g1, g2, g3⟩ := h2.list _ k1
    refine ⟨M ++ N, by rw [← List.append_assoc]; exact g1, ?_, ?_⟩
    · intro n hn
      rw [← List.append_assoc]
      rcases List.mem_append.1 hn with hn | hn
      · exact List.mem_append_left _ (k2 n hn)
      · exact g2 n hn
    · intro x hx
      rcases List.mem_append.1 hx with hx | hx
      · obtain ⟨p1, n, p2, p3⟩ := k3 x hx
        exact ⟨p1, n, List.mem_append_left _ p2, p3⟩
      · obtain ⟨p1, n, p2, p3⟩ := g3 x hx
        exact ⟨fun hh => p1 (List.mem_append_left _ hh), n, List.mem_append_right _ p2, p3⟩

theorem createNetwork_added {v : Ver} (hv : v ≠ .v0) {e e' : Elem} (h : NetsWF v e) {n : Str} {d : Option Str}
    (hc : createNetwork v e n d = .ok e') : NetsAdded v [n] e e' := by
  obtain ⟨e1, s', n', h1, h2, h3, -, -, -, h4, -⟩ := C60_create hv h n d
  rw [hc] at h1; cases h1
  refine ⟨h2, h3, ?_⟩
  intro L hL
  have := h4 L hL
  by_cases hm : some n ∈ L
  · rw [if_pos hm] at this
    exact ⟨[], by simpa using this, by simpa using hm, by simp⟩
  · rw [if_neg hm] at this
    exact ⟨[some n], this, by simp, by simpa using hm⟩

theorem networkLoop_added {c : EhCtx} (hv : c.env.ver ≠ .v0) {existing : List (Option Str)} : ∀ (l descs : List Str)
    {e e' : Elem}, NetsWF c.env.ver e → networkLoop c existing l descs e = .ok e' → NetsAdded c.env.ver l e e' ∧
      ∀ n ∈ l, some n ∉ existing → c.ask (.createNetwork n) = true
  | [], descs, e, e', wf, h => by cases h; exact ⟨NetsAdded.refl wf, by simp⟩
  | n :: r, descs, e, e', wf, h => by
    unfold networkLoop at h
    split at h
    · cases h
    · rename_i d hd
      split at h
      · cases h
      · rename_i e1 h1
        have a1 := createNetwork_added hv wf h1
        obtain ⟨a2, k⟩ := networkLoop_added hv r descs.tail a1.wf h
        refine ⟨a1.trans a2, ?_⟩
        intro m hm hne
        rcases List.mem_cons.1 hm with rfl | hm
        · unfold netDescFor at hd
          rw [if_neg hne] at hd
          unfold ehOrDie at hd
          split at hd
          · cases hd
          · rename_i u hu
            split at hu
            · assumption
            · cases hu
        · exact k m hm hne

theorem describeLoop_added {v : Ver} (hv : v ≠ .v0) : ∀ (l : List (Option Str × Str)) {e e' : Elem}, NetsWF v e →
    describeLoop v l e = .ok e' → ∃ ns, NetsAdded v ns e e' ∧ ∀ n ∈ ns, some n ∈ l.map Prod.fst
  | [], e, e', wf, h => by cases h; exact ⟨[], NetsAdded.refl wf, by simp⟩
  | (none, d) :: r, e, e', wf, h => by cases h
  | (some n, d) :: r, e, e', wf, h => by
    unfold describeLoop at h
    split at h
    · cases h
    · rename_i e1 h1
      have a1 := createNetwork_added hv wf h1
      obtain ⟨ns, a2, k⟩ := describeLoop_added hv r a1.wf h
      refine ⟨[n] ++ ns, a1.trans a2, ?_⟩
      intro m hm
      simp only [List.singleton_append, List.mem_cons] at hm
      rcases hm with rfl | hm
      · simp
      · simp only [List.map_cons, List.mem_cons]
        exact Or.inr (k m hm)

theorem networksStep_inv {c : EhCtx} (hv : c.env.ver ≠ .v0) {q : EhReq} {s s' : EhSt} {env : Env}
    (wf : NetsWF c.env.ver s.envl) (he : curEnv c s.envl = .ok env)
    (h : networksStep c q s = .ok s') :
    ∃ d existing ns, itemCounts env s.hw "ethernet".toList q.profList = .ok d ∧
      networks c.env.ver s.envl = .ok existing ∧ NetsAdded c.env.ver ns s.envl s'.envl ∧ s'.hws = s.hws ∧
      curEnv c s'.envl = .ok env ∧
      (∀ n ∈ ns, some n ∉ existing → c.ask (.createNetwork n) = true) ∧
      (effNetworks q (maxCount d (allProfilesIfEmpty env q.profList)) existing = none →
        s'.hw = s.hw ∧ (∀ n ∈ ns, some n ∈ existing) ∧ (q.descriptions = none → s' = s)) ∧
      (∀ nets, effNetworks q (maxCount d (allProfilesIfEmpty env q.profList)) existing = some nets →
        ns = expandListWildcard nets (maxCount d (allProfilesIfEmpty env q.profList)) ∧
        setNicValues env s.hw connection (expandListWildcard nets (maxCount d (allProfilesIfEmpty env q.profList)))
          q.profOpt = .ok s'.hw) ∧
      (match effNetworks q (maxCount d (allProfilesIfEmpty env q.profList)) existing with
        | none => ∀ ds, q.descriptions = some ds → describeLoop c.env.ver (existing.zip
            (expandListWildcard ds (maxCount d (allProfilesIfEmpty env q.profList)))) s.envl = .ok s'.envl
        | some l => networkLoop c existing (expandListWildcard l (maxCount d (allProfilesIfEmpty env q.profList)))
            (expandListWildcard (q.descriptions.getD []) (maxCount d (allProfilesIfEmpty env q.profList))) s.envl =
            .ok s'.envl) := by
  unfold networksStep at h
  obtain ⟨env1, h1, h⟩ := bind_ok_inv h
  rw [he] at h1; cases h1
  obtain ⟨d, hd, h⟩ := bind_ok_inv h
  obtain ⟨existing, hx, h⟩ := bind_ok_inv h
  simp only at h
  have hcur : ∀ {ns e'}, NetsAdded c.env.ver ns s.envl e' → curEnv c e' = .ok env := by
    intro ns e' ha
    rw [curEnv_congr (configProfiles_congr (ha.rest.kids (deploy_ne_net _))), he]
  generalize hef : effNetworks q (maxCount d (allProfilesIfEmpty env q.profList)) existing = ef at h
  cases ef with
  | none =>
    simp only at h
    cases hq : q.descriptions with
    | none =>
      rw [hq] at h; cases h
      exact ⟨d, existing, [], hd, hx, NetsAdded.refl wf, rfl, he, by simp, fun _ => ⟨rfl, by simp, fun _ => rfl⟩,
        (fun _ h => by rw [hef] at h; cases h), by rw [hef]; simp⟩
    | some ds =>
      rw [hq] at h
      simp only at h
      obtain ⟨e, h2, h⟩ := bind_ok_inv h
      cases h
      obtain ⟨ns, a, k⟩ := describeLoop_added hv _ wf h2
      have hk : ∀ n ∈ ns, some n ∈ existing := by
        intro n hn
        obtain ⟨x, hx, hxx⟩ := List.mem_map.1 (k n hn)
        rw [← hxx]
        exact (List.of_mem_zip hx).1
      exact ⟨d, existing, ns, hd, hx, a, rfl, hcur a, fun n hn hne => absurd (hk n hn) hne,
        fun _ => ⟨rfl, hk, by simp⟩, (fun _ h => by rw [hef] at h; cases h), by
          rw [hef]; intro x hx; cases hx; exact h2⟩
  | some nets =>
    simp only at h
    obtain ⟨e, h2, h⟩ := bind_ok_inv h
    obtain ⟨hw, h3, h⟩ := bind_ok_inv h
    cases h
    obtain ⟨a, k⟩ := networkLoop_added hv _ _ wf h2
    exact ⟨d, existing, _, hd, hx, a, rfl, hcur a, k, (fun h => by rw [hef] at h; cases h),
      (fun n hn => by rw [hef] at hn; cases hn; exact ⟨rfl, h3⟩), by rw [hef]; exact h2⟩

end Cot
