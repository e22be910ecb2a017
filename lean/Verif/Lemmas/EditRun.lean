import Verif.Lemmas.EditEffects
import Verif.Lemmas.EditDeclares
/-
The run of edit-hardware as a whole.
-/
namespace Cot

theorem systemTypesStep_inv {c : EhCtx} {q : EhReq} {s s' : EhSt} (h : systemTypesStep c q s = .ok s') :
    s'.envl = s.envl ∧ s'.hw = s.hw ∧ (q.systemTypes = none → s'.hws = s.hws) ∧
      ∀ L, q.systemTypes = some L → ∃ e, setSystemTypes c.env.ver s.hws L = .ok e ∧ s'.hws = some e := by
  unfold systemTypesStep at h
  split at h
  · rename_i hn; cases h; exact ⟨rfl, rfl, fun _ => rfl, by rw [hn]; simp⟩
  · rename_i L hn
    split at h
    · cases h
    · rename_i e he; cases h
      refine ⟨rfl, rfl, by rw [hn]; simp, ?_⟩
      intro M hM; rw [hn] at hM; cases hM; exact ⟨e, he, rfl⟩

theorem netsWF_congr {v : Ver} {a b : Elem} (h : SameButKids (ovfTag v "DeploymentOptionSection".toList) a b)
    (wf : NetsWF v a) : NetsWF v b := by
  unfold NetsWF
  rw [h.kids (net_ne_deploy v)]
  exact wf

theorem networks_congr {v : Ver} (hv : v ≠ .v0) {a b : Elem}
    (h : SameButKids (ovfTag v "DeploymentOptionSection".toList) a b) : networks v b = networks v a := by
  unfold networks netSecTag netSecAttrib findChild
  rw [section_tag hv, section_attrib hv, findAll_nil, findAll_nil, h.kids (net_ne_deploy v)]

/-- everything about a run -/
structure EhRun (c : EhCtx) (q : EhReq) (env : Env) (s s' : EhSt) (env' : Env) (q' : EhReq) (s1 : EhSt) (h : Nat → Hw) :
    Prop where
  ready : q.ready = true
  cfg : curEnv c s'.envl = .ok env'
  prof : env'.configProfiles =
    (addNew env.configProfiles (q.profiles.getD [])).filter (fun p => decide (¬ Deleted c q p))
  deploy : SameButKids (ovfTag c.env.ver "DeploymentOptionSection".toList) s.envl s1.envl
  sys : q.systemTypes = none → s'.hws = s.hws
  sysS : ∀ L, q.systemTypes = some L → ∃ e, setSystemTypes c.env.ver s.hws L = .ok e ∧ s'.hws = some e
  kept : ∀ p : Str, p ∈ env.configProfiles → ¬ Deleted c q p → SameIn env env' (some p) s.hw s1.hw
  create : ∀ p ∈ q.profiles.getD [], p ∉ env.configProfiles → c.ask (.createProfile p) = true
  delAll : q.deleteOthers = true → q.profiles = none → c.ask .deleteAllProfiles = true
  sysAsk : q.profiles.isSome = true → q.systemTypes.isSome = true → c.ask .systemTypesForAll = true
  descAsk : q.profiles.isSome = true → q.descriptions.isSome = true → c.ask .descriptionsForAll = true
  hwSame : q.deleteOthers = false → s1.hw = s.hw
  counts : ∀ code, TwinType c.env.ver code s.hw → ∀ x : Prof,
    (x = none ∨ ∃ p ∈ env.configProfiles, x = some p ∧ ¬ Deleted c q p) → countOf env' s1.hw code x = countOf env s.hw code x
  nets : networks c.env.ver s1.envl = networks c.env.ver s.envl
  declS : ∀ p, ¬ Deleted c q p → p ∉ q.profiles.getD [] ∨ p ∈ env.configProfiles → ∀ x, DeclaresProfile c.env.ver s.envl p x →
    DeclaresProfile c.env.ver s1.envl p x
  declN : ∀ p ∈ q.profiles.getD [], p ∉ env.configProfiles → ∃ x, DeclaresProfile c.env.ver s1.envl p x ∧
      TextIs x (ovfTag c.env.ver "Label".toList) (some (c.input (.profileLabel p))) ∧
      TextIs x (ovfTag c.env.ver "Description".toList) (some (c.input (.profileDesc (c.input (.profileLabel p)))))
  netsWF : NetsWF c.env.ver s1.envl
  tr : EhTrace c q q' env' s1 s' h
  ehr : EhReady env' q s1.hw
  ver : env'.ver = c.env.ver

theorem editHardware_run {c : EhCtx} {q : EhReq} {env : Env} {s s' : EhSt} (st : EhStart c q env s)
    (h : editHardware c q s = .ok s') : ∃ env' q' s1 t, EhRun c q env s s' env' q' s1 t := by
  unfold editHardware at h
  split at h
  · cases h
  · rename_i hr
    obtain ⟨s0, h0, h⟩ := bind_ok_inv h
    obtain ⟨s1, h1, h2⟩ := bind_ok_inv h
    obtain ⟨env', a1, a2, a3, a4, a5, a6, a7, a8, a9, a10, a11, a12, a13, a14, a15, a16⟩ :=
      updateProfiles_inv st.order st.cfg st.nodup st.configs st.wf h0
    obtain ⟨b1, b2, b3, b4⟩ := systemTypesStep_inv h1
    have nw : NetsWF c.env.ver s1.envl := by rw [b1]; exact netsWF_congr a5 st.nets
    obtain ⟨q', env2, t, t1, t2, t3, tr⟩ := editItems_trace st.ver nw h2
    rw [b1, a1] at t1; cases t1
    have hv : env'.ver = c.env.ver := curEnv_ver a1
    have hnd : env'.configProfiles.Nodup := by rw [a2]; exact (addNew_nodup st.nodup).filter _
    have known : ∀ p ∈ q.profList, ∃ x ∈ env'.configProfiles, p = some x := by
      intro p hp
      unfold EhReq.profList at hp
      obtain ⟨x, hx, rfl⟩ := List.mem_map.1 hp
      refine ⟨x, ?_, rfl⟩
      rw [a2, List.mem_filter, mem_addNew]
      refine ⟨Or.inr hx, ?_⟩
      rw [decide_eq_true_eq]
      exact fun hd => hd.2.1 hx
    have cnt : ∀ code, ((q.profiles.getD []).Nodup ∧ TwinType c.env.ver code s.hw ∧
        (q.profiles.getD [] = [] → DefaultType env code s.hw)) → Countable env' code q.profList s1.hw := by
      rintro code ⟨n1, n2, n3⟩
      rw [b2]
      refine ⟨?_, ?_, hnd, known, ?_⟩
      · rw [hv]; exact a9 code n2
      · exact n1.map (Option.some_injective _)
      · intro hP
        exact a10 code (n3 (List.map_eq_nil_iff.1 hP))
    refine ⟨env', q', s1, t, ?_⟩
    exact {
      ready := by simpa using hr
      cfg := t2, prof := a2, deploy := by rw [b1]; exact a5
      sys := fun hs => by rw [t3, b3 hs, a6]
      sysS := fun L hL => by
        obtain ⟨e, e1, e2⟩ := b4 L hL
        exact ⟨e, by rw [← a6]; exact e1, by rw [t3, e2]⟩
      kept := by rw [b2]; exact a7
      create := a11, delAll := a12, sysAsk := a13, descAsk := a14
      hwSame := by rw [b2]; exact a15
      counts := by rw [b2]; exact a16
      nets := by rw [b1]; exact networks_congr st.ver a5
      declS := fun p hp hh x hx => by
        rw [b1]; exact (updateProfiles_declares st.order st.cfg st.nodup st.configs st.wf h0 p hp).1 hh x hx
      declN := fun p hp hn => by
        rw [b1]
        exact (updateProfiles_declares st.order st.cfg st.nodup st.configs st.wf h0 p (fun hd => hd.2.1 hp)).2 hn hp
      netsWF := nw
      tr := tr
      ehr := ⟨by rw [b2]; exact a4, fun hn => cnt _ (st.nics hn), fun hn => cnt _ (st.serial hn)⟩
      ver := hv }

theorem askEach_inv {c : EhCtx} {mk : Prof → Nat → EhAsk} {d : Prof → Nat} {n : Nat} : ∀ (L : List Prof) {u : Unit},
    askEach c mk d n L = .ok u → ∀ p ∈ L, n < d p → c.ask (mk p (d p)) = true
  | [], _, _ => by simp
  | a :: r, u, h => by
    unfold askEach at h
    split at h
    · split at h
      · cases h
      · rename_i v hv
        intro p hp hn
        rcases List.mem_cons.1 hp with rfl | hp
        · exact ehOrDie_ok hv
        · exact askEach_inv r h p hp hn
    · rename_i hna
      intro p hp hn
      rcases List.mem_cons.1 hp with rfl | hp
      · exact absurd hn hna
      · exact askEach_inv r h p hp hn

theorem itemCounts_countOf {env : Env} {hw : Hw} {rt code : Str} {L : List Prof} {d : Prof → Nat} (wf : HwWF env hw)
    (hc : resourceCode rt = .ok code) (hnd : (allProfilesIfEmpty env L).Nodup) (h : itemCounts env hw rt L = .ok d)
    {p : Prof} (hp : p ∈ allProfilesIfEmpty env L) : d p = countOf env hw code p := by
  obtain ⟨ids, hids⟩ := findAllItems_ok (env := env) (hw := hw) hc
  obtain ⟨k1, -, k3⟩ := typeIds_mem wf hc hids
  rw [itemCounts_inv h hids hnd hp, countOf_eq wf.keys k1]
  intro id it hi _
  rw [k3]
  exact ⟨fun ht => ⟨it, hi, ht⟩, fun ⟨x, hx, ht⟩ => by rw [hi] at hx; cases hx; exact ht⟩

end Cot
