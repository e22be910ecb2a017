import Verif.Lemmas.EditSteps
/-
The hardware edits of edit-hardware as a sequence of collections.
-/
namespace Cot

/-- the collections `h 0`, `h 1`, ... `h 11` between the steps of `editItems` -/
structure EhTrace (c : EhCtx) (q q' : EhReq) (env : Env) (s s' : EhSt) (h : Nat → Hw) : Prop where
  first : h 0 = s.hw
  last : h 11 = s'.hw
  cpuN : q.cpus = none → h 1 = h 0
  cpu : ∀ n, q.cpus = some n →
    setValueForAll env (h 0) "cpu".toList virtualQuantity (.str (intStr n)) q.profList true = .ok (h 1)
  memN : q.memory = none → h 2 = h 1
  mem : ∀ n, q.memory = some n → ∃ hw1,
    setValueForAll env (h 1) "memory".toList virtualQuantity (.str (natStr n)) q.profList true = .ok hw1 ∧
    setValueForAll env hw1 "memory".toList allocationUnits (.str "byte * 2^20".toList) q.profList false = .ok (h 2)
  infer : ∃ t : EhSt, t.envl = s.envl ∧ t.hw = h 2 ∧ inferNetworks c q t = .ok q'
  nicsN : q.nics = none → h 3 = h 2
  nics : ∀ n, q.nics = some n → setItemCount env c.nicName (h 2) "ethernet".toList n q.profList = .ok (h 3) ∧
    ∃ d, itemCounts env (h 2) "ethernet".toList q.profList = .ok d ∧
      askEach c (fun p k => .deleteNics p k n) d n (allProfilesIfEmpty env q.profList) = .ok ()
  typesN : q.nicTypes = none → h 4 = h 3
  types : ∀ l, q.nicTypes = some l → ∃ l', canonNics l = .ok l' ∧ validateNicTypes c.plat l' = .ok () ∧
    setValueForAll env (h 3) "ethernet".toList resourceSubType (.list l') q.profList false = .ok (h 4)
  macsN : q.macs = none → h 5 = h 4
  macs : ∀ l, q.macs = some l → setNicValues env (h 4) address l q.profOpt = .ok (h 5)
  nets : ∃ d existing ns, itemCounts env (h 5) "ethernet".toList q.profList = .ok d ∧
    networks c.env.ver s.envl = .ok existing ∧ NetsAdded c.env.ver ns s.envl s'.envl ∧
    (∀ n ∈ ns, some n ∉ existing → c.ask (.createNetwork n) = true) ∧
    (effNetworks q' (maxCount d (allProfilesIfEmpty env q.profList)) existing = none →
      h 6 = h 5 ∧ (∀ n ∈ ns, some n ∈ existing) ∧ (q'.descriptions = none → s'.envl = s.envl)) ∧
    (∀ l, effNetworks q' (maxCount d (allProfilesIfEmpty env q.profList)) existing = some l →
      ns = expandListWildcard l (maxCount d (allProfilesIfEmpty env q.profList)) ∧
      setNicValues env (h 5) connection (expandListWildcard l (maxCount d (allProfilesIfEmpty env q.profList)))
        q.profOpt = .ok (h 6))
  descr : ∃ d existing, itemCounts env (h 5) "ethernet".toList q.profList = .ok d ∧
    networks c.env.ver s.envl = .ok existing ∧
    (match effNetworks q' (maxCount d (allProfilesIfEmpty env q.profList)) existing with
      | none => ∀ ds, q'.descriptions = some ds → describeLoop c.env.ver (existing.zip
          (expandListWildcard ds (maxCount d (allProfilesIfEmpty env q.profList)))) s.envl = .ok s'.envl
      | some l => networkLoop c existing (expandListWildcard l (maxCount d (allProfilesIfEmpty env q.profList)))
          (expandListWildcard (q'.descriptions.getD []) (maxCount d (allProfilesIfEmpty env q.profList))) s.envl =
          .ok s'.envl)
  namesN : q.nicNames = none → h 7 = h 6
  names : ∀ l, q.nicNames = some l → ∃ d, itemCounts env (h 6) "ethernet".toList q.profList = .ok d ∧
    setItemValues env (h 6) "ethernet".toList (elementName c.env.ver)
      ((expandListWildcard l (maxCount d (allProfilesIfEmpty env q.profList))).map InVal.str) q.profOpt .none = .ok (h 7)
  serialN : q.serialPorts = none → h 8 = h 7
  serial : ∀ n, q.serialPorts = some n → setItemCount env c.nicName (h 7) "serial".toList n q.profList = .ok (h 8) ∧
    ∃ d, itemCounts env (h 7) "serial".toList q.profList = .ok d ∧
      askEach c (fun p k => .deleteSerial p k n) d n (allProfilesIfEmpty env q.profList) = .ok ()
  connN : q.serialConn = none → h 9 = h 8
  conn : ∀ l, q.serialConn = some l →
    setItemValues env (h 8) "serial".toList address (l.map InVal.str) q.profOpt (.str []) = .ok (h 9) ∧
    ∃ d, itemCounts env (h 8) "serial".toList q.profList = .ok d ∧
      askEach c (fun p k => .unreachable p k l.length) d l.length (allProfilesIfEmpty env q.profList) = .ok ()
  scsiN : q.scsi = none → h 10 = h 9
  scsi : ∀ l, q.scsi = some l → setValueForAll env (h 9) "scsi".toList resourceSubType (.list l) q.profList false = .ok (h 10)
  ideN : q.ide = none → h 11 = h 10
  ide : ∀ l, q.ide = some l → setValueForAll env (h 10) "ide".toList resourceSubType (.list l) q.profList false = .ok (h 11)

theorem editItems_trace {c : EhCtx} (hv : c.env.ver ≠ .v0) {q : EhReq} {s s' : EhSt} (wf : NetsWF c.env.ver s.envl)
    (h : editItems c q s = .ok s') : ∃ q' env t, curEnv c s.envl = .ok env ∧ curEnv c s'.envl = .ok env ∧
      s'.hws = s.hws ∧ EhTrace c q q' env s s' t := by
  unfold editItems at h
  obtain ⟨s1, h1, h⟩ := bind_ok_inv h
  obtain ⟨s2, h2, h⟩ := bind_ok_inv h
  obtain ⟨q', hq, h⟩ := bind_ok_inv h
  obtain ⟨s3, h3, h⟩ := bind_ok_inv h
  obtain ⟨s4, h4, h⟩ := bind_ok_inv h
  obtain ⟨s5, h5, h⟩ := bind_ok_inv h
  obtain ⟨s6, h6, h⟩ := bind_ok_inv h
  obtain ⟨s7, h7, h⟩ := bind_ok_inv h
  obtain ⟨s8, h8, h⟩ := bind_ok_inv h
  obtain ⟨s9, h9, h⟩ := bind_ok_inv h
  obtain ⟨s10, h10, h11⟩ := bind_ok_inv h
  -- the envelope at the start of the NIC step is that of `s`
  have e1 : s1.envl = s.envl := by
    have hh := h1
    unfold cpuStep at hh
    split at hh
    · cases hh; rfl
    · obtain ⟨x, hx, hh⟩ := bind_ok_inv hh
      obtain ⟨_, _, hh⟩ := bind_ok_inv hh
      obtain ⟨_, _, hh⟩ := bind_ok_inv hh
      cases hh
      exact (vmValidate_inv hx).1.1
  have e2 : s2.envl = s1.envl := by
    have hh := h2
    unfold memoryStep at hh
    split at hh
    · cases hh; rfl
    · obtain ⟨x, hx, hh⟩ := bind_ok_inv hh
      obtain ⟨_, _, hh⟩ := bind_ok_inv hh
      obtain ⟨_, _, hh⟩ := bind_ok_inv hh
      obtain ⟨_, _, hh⟩ := bind_ok_inv hh
      cases hh
      exact (vmValidate_inv hx).1.1
  obtain ⟨env, he⟩ : ∃ env, curEnv c s.envl = .ok env := by
    have hh := h3
    unfold nicCountStep at hh
    obtain ⟨env, hx, _⟩ := bind_ok_inv hh
    rw [e2, e1] at hx
    exact ⟨env, hx⟩
  obtain ⟨⟨p1, r1⟩, a1, b1⟩ := cpuStep_inv he h1
  have he1 : curEnv c s1.envl = .ok env := by rw [p1]; exact he
  obtain ⟨⟨p2, r2⟩, a2, b2⟩ := memoryStep_inv he1 h2
  have he2 : curEnv c s2.envl = .ok env := by rw [p2]; exact he1
  obtain ⟨nets, descs, hq', -⟩ := inferNetworks_inv hq
  obtain ⟨⟨p3, r3⟩, a3, b3⟩ := nicCountStep_inv he2 h3
  have he3 : curEnv c s3.envl = .ok env := by rw [p3]; exact he2
  obtain ⟨⟨p4, r4⟩, a4, b4⟩ := nicTypesStep_inv he3 h4
  have he4 : curEnv c s4.envl = .ok env := by rw [p4]; exact he3
  obtain ⟨⟨p5, r5⟩, a5, b5⟩ := macsStep_inv he4 h5
  have he5 : curEnv c s5.envl = .ok env := by rw [p5]; exact he4
  have e5 : s5.envl = s.envl := by rw [p5, p4, p3, p2, p1]
  obtain ⟨d6, ex6, ns6, f1, f2, f3, f4, f5, f6, f7, f8, f9⟩ := networksStep_inv hv (by rw [e5]; exact wf) he5 h6
  obtain ⟨⟨p7, r7⟩, a7, b7⟩ := nicNamesStep_inv f5 h7
  have he7 : curEnv c s7.envl = .ok env := by rw [p7]; exact f5
  obtain ⟨⟨p8, r8⟩, a8, b8⟩ := serialCountStep_inv he7 h8
  have he8 : curEnv c s8.envl = .ok env := by rw [p8]; exact he7
  obtain ⟨⟨p9, r9⟩, a9, b9⟩ := serialConnStep_inv he8 h9
  have he9 : curEnv c s9.envl = .ok env := by rw [p9]; exact he8
  obtain ⟨⟨p10, r10⟩, a10, b10⟩ := subtypesStep_inv he9 h10
  have he10 : curEnv c s10.envl = .ok env := by rw [p10]; exact he9
  obtain ⟨⟨p11, r11⟩, a11, b11⟩ := subtypesStep_inv he10 h11
  have he11 : curEnv c s'.envl = .ok env := by rw [p11]; exact he10
  have e6 : s'.envl = s6.envl := by rw [p11, p10, p9, p8, p7]
  have hpl : q'.profList = q.profList := by rw [hq']; rfl
  have hpo : q'.profOpt = q.profOpt := by rw [hq']; rfl
  refine ⟨q', env, fun i => match i with
    | 0 => s.hw | 1 => s1.hw | 2 => s2.hw | 3 => s3.hw | 4 => s4.hw | 5 => s5.hw | 6 => s6.hw | 7 => s7.hw
    | 8 => s8.hw | 9 => s9.hw | 10 => s10.hw | _ => s'.hw, he, he11,
    by rw [r11, r10, r9, r8, r7, f4, r5, r4, r3, r2, r1], ?_⟩
  rw [hpl] at f1 f7 f8 f9 b3 b4 b8
  rw [hpo] at f8 b5
  have g3 : q'.nics = q.nics := by rw [hq']
  have g4 : q'.nicTypes = q.nicTypes := by rw [hq']
  have g5 : q'.macs = q.macs := by rw [hq']
  have g7 : q'.nicNames = q.nicNames := by rw [hq']
  have g8 : q'.serialPorts = q.serialPorts := by rw [hq']
  have g9 : q'.serialConn = q.serialConn := by rw [hq']
  have g10 : q'.scsi = q.scsi := by rw [hq']
  have g11 : q'.ide = q.ide := by rw [hq']
  rw [g3] at a3 b3
  rw [g4] at a4 b4
  rw [g5] at a5 b5
  rw [g7] at a7 b7
  rw [g8] at a8 b8
  rw [g9] at a9 b9
  rw [g10] at a10 b10
  rw [g11] at a11 b11
  rw [hpl] at b7 b9 b10 b11
  rw [hpo] at b7 b9
  rw [e5] at f2 f3 f9
  exact {
    first := rfl, last := rfl, cpuN := a1, cpu := b1, memN := a2, mem := b2,
    infer := ⟨s2, by rw [p2, p1], rfl, hq⟩
    nicsN := a3, nics := b3, typesN := a4, types := b4, macsN := a5, macs := b5
    nets := ⟨d6, ex6, ns6, f1, f2, by rw [e6]; exact f3, f6,
      fun hh => ⟨(f7 hh).1, (f7 hh).2.1, fun hd => by rw [e6, (f7 hh).2.2 hd, e5]⟩, f8⟩
    descr := ⟨d6, ex6, f1, f2, by rw [e6]; exact f9⟩
    namesN := a7, names := b7, serialN := a8, serial := b8, connN := a9, conn := b9, scsiN := a10, scsi := b10,
    ideN := a11, ide := b11 }

/-! ### what each step may touch -/

theorem code_cpu : resourceCode "cpu".toList = .ok "3".toList := rfl
theorem code_memory : resourceCode "memory".toList = .ok "4".toList := rfl
theorem code_eth : resourceCode "ethernet".toList = .ok "10".toList := rfl
theorem code_serial : resourceCode "serial".toList = .ok "21".toList := rfl
theorem code_scsi : resourceCode "scsi".toList = .ok "6".toList := rfl
theorem code_ide : resourceCode "ide".toList = .ok "5".toList := rfl

theorem vq_iid (v : Ver) : virtualQuantity ≠ instanceId v := by cases v <;> decide +kernel
theorem vq_rt : virtualQuantity ≠ resourceType := by decide +kernel
theorem au_iid (v : Ver) : allocationUnits ≠ instanceId v := by cases v <;> decide +kernel
theorem au_rt : allocationUnits ≠ resourceType := by decide +kernel
theorem rst_iid (v : Ver) : resourceSubType ≠ instanceId v := by cases v <;> decide +kernel
theorem rst_rt : resourceSubType ≠ resourceType := by decide +kernel
theorem addr_iid (v : Ver) : address ≠ instanceId v := by cases v <;> decide +kernel
theorem addr_rt : address ≠ resourceType := by decide +kernel
theorem conn_iid (v : Ver) : connection ≠ instanceId v := by cases v <;> decide +kernel
theorem conn_rt : connection ≠ resourceType := by decide +kernel
theorem en_iid (v : Ver) : elementName v ≠ instanceId v := by cases v <;> decide +kernel
theorem en_rt (v : Ver) : elementName v ≠ resourceType := by cases v <;> decide +kernel

theorem setNicValues_edits {env : Env} {hw hw' : Hw} {name : Str} {vs : List Str} {P : Option (List Prof)}
    (wf : HwWF env hw) (h : setNicValues env hw name vs P = .ok hw') : Edits env "10".toList name hw hw' := by
  unfold setNicValues at h
  split at h
  · cases h
  · exact setItemValues_edits wf code_eth h

/-- the hardware is consistent before a step, after it, and only devices of these types were touched -/
def Step (env : Env) (codes : List Str) (a b : Hw) : Prop := HwWF env b ∧ SameExcept env.ver codes a b

theorem Step.rfl' {env : Env} {codes : List Str} {a b : Hw} (wf : HwWF env a) (h : b = a) : Step env codes a b := by
  subst h; exact ⟨wf, SameExcept.refl _ _ _⟩

theorem Step.mono {env : Env} {c1 c2 : List Str} {a b : Hw} (h : Step env c1 a b) (hs : ∀ x ∈ c1, x ∈ c2) :
    Step env c2 a b := ⟨h.1, h.2.mono hs⟩

theorem Step.trans {env : Env} {cs : List Str} {a b c : Hw} (h1 : Step env cs a b) (h2 : Step env cs b c) :
    Step env cs a c :=
  ⟨h2.1, (h1.2.trans h2.2).mono (by intro x hx; rcases List.mem_append.1 hx with h | h <;> exact h)⟩

theorem Edits.step {env : Env} {code name : Str} {a b : Hw} (h : Edits env code name a b) (wf : HwWF env a)
    (h1 : name ≠ instanceId env.ver) (h2 : name ≠ resourceType) : Step env [code] a b := ⟨h.wf wf h1, h.same h2⟩

variable {c : EhCtx} {q q' : EhReq} {env : Env} {s s' : EhSt} {h : Nat → Hw}

theorem EhTrace.step1 (t : EhTrace c q q' env s s' h) (wf : HwWF env (h 0)) :
    Step env (if q.cpus.isSome then ["3".toList] else []) (h 0) (h 1) := by
  cases hq : q.cpus with
  | none => exact Step.rfl' wf (t.cpuN hq)
  | some n => exact setValueForAll_frame wf code_cpu (vq_iid _) vq_rt (t.cpu n hq)

theorem EhTrace.step2 (t : EhTrace c q q' env s s' h) (wf : HwWF env (h 1)) :
    Step env (if q.memory.isSome then ["4".toList] else []) (h 1) (h 2) := by
  cases hq : q.memory with
  | none => exact Step.rfl' wf (t.memN hq)
  | some n =>
    obtain ⟨hw1, k1, k2⟩ := t.mem n hq
    have f1 : Step env ["4".toList] (h 1) hw1 := setValueForAll_frame wf code_memory (vq_iid _) vq_rt k1
    exact f1.trans (setValueForAll_frame f1.1 code_memory (au_iid _) au_rt k2)

theorem EhTrace.step3 (t : EhTrace c q q' env s s' h) (wf : HwWF env (h 2))
    (hc : q.nics.isSome = true → Countable env "10".toList q.profList (h 2)) :
    Step env (if q.nics.isSome then ["10".toList] else []) (h 2) (h 3) := by
  cases hq : q.nics with
  | none => exact Step.rfl' wf (t.nicsN hq)
  | some n =>
    obtain ⟨k1, -⟩ := t.nics n hq
    obtain ⟨a, b, -⟩ := setItemCount_frame wf code_eth (hc (by rw [hq]; rfl)) k1
    exact ⟨a, b⟩

theorem EhTrace.step4 (t : EhTrace c q q' env s s' h) (wf : HwWF env (h 3)) :
    Step env (if q.nicTypes.isSome then ["10".toList] else []) (h 3) (h 4) := by
  cases hq : q.nicTypes with
  | none => exact Step.rfl' wf (t.typesN hq)
  | some l =>
    obtain ⟨l', -, -, k⟩ := t.types l hq
    exact setValueForAll_frame wf code_eth (rst_iid _) rst_rt k

theorem EhTrace.step5 (t : EhTrace c q q' env s s' h) (wf : HwWF env (h 4)) :
    Step env (if q.macs.isSome then ["10".toList] else []) (h 4) (h 5) := by
  cases hq : q.macs with
  | none => exact Step.rfl' wf (t.macsN hq)
  | some l => exact (setNicValues_edits wf (t.macs l hq)).step wf (addr_iid _) addr_rt

theorem EhTrace.step6 (t : EhTrace c q q' env s s' h) (wf : HwWF env (h 5)) {existing : List (Option Str)}
    (hx : networks c.env.ver s.envl = .ok existing) :
    Step env (if q.nics.isSome || q.networks.isSome || decide (existing = []) then ["10".toList] else []) (h 5) (h 6) := by
  obtain ⟨d, ex, ns, f1, f2, f3, f4, f5, f6⟩ := t.nets
  rw [hx] at f2; cases f2
  generalize hef : effNetworks q' (maxCount d (allProfilesIfEmpty env q.profList)) existing = ef at f5 f6
  cases ef with
  | none => exact Step.rfl' wf (f5 rfl).1
  | some l =>
    have hcond : (q.nics.isSome || q.networks.isSome || decide (existing = [])) = true := by
      by_contra hn
      simp only [Bool.or_eq_true, not_or, Bool.not_eq_true, decide_eq_true_eq] at hn
      obtain ⟨⟨n1, n2⟩, n3⟩ := hn
      have hnics : q.nics = none := by cases hh : q.nics with
        | none => rfl
        | some x => rw [hh] at n1; cases n1
      obtain ⟨u, -, -, hu⟩ := t.infer
      obtain ⟨_, _, _, k, _⟩ := inferNetworks_inv hu
      have hqq := k hnics
      have hnets : q.networks = none := by cases hh : q.networks with
        | none => rfl
        | some x => rw [hh] at n2; cases n2
      unfold effNetworks at hef
      rw [hqq, if_neg (fun hh => n3 hh.2.1), hnets] at hef
      cases hef
    rw [if_pos hcond]
    exact (setNicValues_edits wf (f6 l rfl).2).step wf (conn_iid _) conn_rt

theorem EhTrace.step7 (t : EhTrace c q q' env s s' h) (hve : env.ver = c.env.ver) (wf : HwWF env (h 6)) :
    Step env (if q.nicNames.isSome then ["10".toList] else []) (h 6) (h 7) := by
  cases hq : q.nicNames with
  | none => exact Step.rfl' wf (t.namesN hq)
  | some l =>
    obtain ⟨d, -, k⟩ := t.names l hq
    rw [← hve] at k
    exact (setItemValues_edits wf code_eth k).step wf (en_iid _) (en_rt _)

theorem EhTrace.step8 (t : EhTrace c q q' env s s' h) (wf : HwWF env (h 7))
    (hc : q.serialPorts.isSome = true → Countable env "21".toList q.profList (h 7)) :
    Step env (if q.serialPorts.isSome then ["21".toList] else []) (h 7) (h 8) := by
  cases hq : q.serialPorts with
  | none => exact Step.rfl' wf (t.serialN hq)
  | some n =>
    obtain ⟨k1, -⟩ := t.serial n hq
    obtain ⟨a, b, -⟩ := setItemCount_frame wf code_serial (hc (by rw [hq]; rfl)) k1
    exact ⟨a, b⟩

theorem EhTrace.step9 (t : EhTrace c q q' env s s' h) (wf : HwWF env (h 8)) :
    Step env (if q.serialConn.isSome then ["21".toList] else []) (h 8) (h 9) := by
  cases hq : q.serialConn with
  | none => exact Step.rfl' wf (t.connN hq)
  | some l => exact (setItemValues_edits wf code_serial (t.conn l hq).1).step wf (addr_iid _) addr_rt

theorem EhTrace.step10 (t : EhTrace c q q' env s s' h) (wf : HwWF env (h 9)) :
    Step env (if q.scsi.isSome then ["6".toList] else []) (h 9) (h 10) := by
  cases hq : q.scsi with
  | none => exact Step.rfl' wf (t.scsiN hq)
  | some l => exact setValueForAll_frame wf code_scsi (rst_iid _) rst_rt (t.scsi l hq)

theorem EhTrace.step11 (t : EhTrace c q q' env s s' h) (wf : HwWF env (h 10)) :
    Step env (if q.ide.isSome then ["5".toList] else []) (h 10) (h 11) := by
  cases hq : q.ide with
  | none => exact Step.rfl' wf (t.ideN hq)
  | some l => exact setValueForAll_frame wf code_ide (rst_iid _) rst_rt (t.ide l hq)

/-- the device types of a step -/
def stepCodes (i : Nat) : List Str :=
  match i with
  | 0 => ["3".toList] | 1 => ["4".toList]
  | 2 => ["10".toList] | 3 => ["10".toList] | 4 => ["10".toList] | 5 => ["10".toList] | 6 => ["10".toList]
  | 7 => ["21".toList] | 8 => ["21".toList] | 9 => ["6".toList] | _ => ["5".toList]

theorem Step.sub {env : Env} {b : Bool} {code : Str} {a b' : Hw} (h : Step env (if b then [code] else []) a b') :
    Step env [code] a b' := h.mono (by intro x hx; cases b <;> simp at hx; simp [hx])

theorem EhTrace.all (t : EhTrace c q q' env s s' h) (hve : env.ver = c.env.ver) (r : EhReady env q s.hw)
    {existing : List (Option Str)} (hx : networks c.env.ver s.envl = .ok existing) :
    (∀ i ≤ 11, HwWF env (h i)) ∧ (∀ i < 11, SameExcept env.ver (stepCodes i) (h i) (h (i+1))) ∧
    SameExcept env.ver (q.types (decide (existing = []))) s.hw s'.hw ∧
    (q.nics.isSome = true → Countable env "10".toList q.profList (h 2)) ∧
    (q.serialPorts.isSome = true → Countable env "21".toList q.profList (h 7)) := by
  have w0 : HwWF env (h 0) := by rw [t.first]; exact r.wf
  have s1 := t.step1 w0
  have s2 := t.step2 s1.1
  have cn : q.nics.isSome = true → Countable env "10".toList q.profList (h 2) := by
    intro hn
    have := r.nics hn
    rw [← t.first] at this
    exact (this.of_same s1.sub.2 (by decide)).of_same s2.sub.2 (by decide)
  have s3 := t.step3 s2.1 cn
  have s4 := t.step4 s3.1
  have s5 := t.step5 s4.1
  have s6 := t.step6 s5.1 hx
  have s7 := t.step7 hve s6.1
  have cs : q.serialPorts.isSome = true → Countable env "21".toList q.profList (h 7) := by
    intro hn
    have := r.serial hn
    rw [← t.first] at this
    exact ((((((this.of_same s1.sub.2 (by decide)).of_same s2.sub.2 (by decide)).of_same s3.sub.2 (by decide)).of_same
      s4.sub.2 (by decide)).of_same s5.sub.2 (by decide)).of_same s6.sub.2 (by decide)).of_same s7.sub.2 (by decide)
  have s8 := t.step8 s7.1 cs
  have s9 := t.step9 s8.1
  have s10 := t.step10 s9.1
  have s11 := t.step11 s10.1
  refine ⟨?_, ?_, ?_, cn, cs⟩
  · intro i hi
    match i, hi with
    | 0, _ => exact w0
    | 1, _ => exact s1.1
    | 2, _ => exact s2.1
    | 3, _ => exact s3.1
    | 4, _ => exact s4.1
    | 5, _ => exact s5.1
    | 6, _ => exact s6.1
    | 7, _ => exact s7.1
    | 8, _ => exact s8.1
    | 9, _ => exact s9.1
    | 10, _ => exact s10.1
    | 11, _ => exact s11.1
    | n + 12, hh => omega
  · intro i hi
    match i, hi with
    | 0, _ => exact s1.sub.2
    | 1, _ => exact s2.sub.2
    | 2, _ => exact s3.sub.2
    | 3, _ => exact s4.sub.2
    | 4, _ => exact s5.sub.2
    | 5, _ => exact s6.sub.2
    | 6, _ => exact s7.sub.2
    | 7, _ => exact s8.sub.2
    | 8, _ => exact s9.sub.2
    | 9, _ => exact s10.sub.2
    | 10, _ => exact s11.sub.2
    | n + 11, hh => omega
  · rw [← t.first, ← t.last]
    have m : ∀ {b : Bool} {code : Str} {x y : Hw}, Step env (if b then [code] else []) x y →
        (b = true → code ∈ q.types (decide (existing = []))) → Step env (q.types (decide (existing = []))) x y := by
      intro b code x y st hin
      refine st.mono ?_
      intro z hz
      cases b with
      | false => simp at hz
      | true => simp at hz; subst hz; exact hin rfl
    have eth : ∀ {b : Bool}, (b = true → (q.nics.isSome || q.nicTypes.isSome || q.macs.isSome || q.networks.isSome ||
        q.nicNames.isSome || decide (existing = [])) = true) → b = true → "10".toList ∈ q.types (decide (existing = [])) := by
      intro b hb hbt
      unfold EhReq.types
      rw [hb hbt]
      simp
    have ser : ∀ {b : Bool}, (b = true → (q.serialPorts.isSome || q.serialConn.isSome) = true) → b = true →
        "21".toList ∈ q.types (decide (existing = [])) := by
      intro b hb hbt
      unfold EhReq.types
      rw [hb hbt]
      simp
    have a1 := m s1 (by intro hb; unfold EhReq.types; rw [hb]; simp)
    have a2 := m s2 (by intro hb; unfold EhReq.types; rw [hb]; simp)
    have a3 := m s3 (eth (by intro hb; simp [hb]))
    have a4 := m s4 (eth (by intro hb; simp [hb]))
    have a5 := m s5 (eth (by intro hb; simp [hb]))
    have a6 := m s6 (eth (by intro hb; simp only [Bool.or_eq_true] at hb ⊢; tauto))
    have a7 := m s7 (eth (by intro hb; simp [hb]))
    have a8 := m s8 (ser (by intro hb; simp [hb]))
    have a9 := m s9 (ser (by intro hb; simp [hb]))
    have a10 := m s10 (by intro hb; unfold EhReq.types; rw [hb]; simp)
    have a11 := m s11 (by intro hb; unfold EhReq.types; rw [hb]; simp)
    exact ((((((((((a1.trans a2).trans a3).trans a4).trans a5).trans a6).trans a7).trans a8).trans a9).trans a10).trans a11).2

end Cot
