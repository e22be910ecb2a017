import Verif.Lemmas.AgainHardware
/-
Running the same edit-hardware command again (C118).
-/
namespace Cot

variable {c : EhCtx} {q : EhReq} {env env' : Env} {s s' : EhSt}

/-- **C118.** When edit-hardware was carried out, carrying out the same command (with the same answers) on the result succeeds
and changes nothing: the descriptor with its profiles and networks, the system types, and every property of every device are as
they were.  `seen` is the platform's record of the values that were checked, which starts anew with the arguments.

Missing: network descriptions and NIC names, and packages in which two identifiers of devices are the same number. -/
theorem C118_hardware_partial (st : EhStart c q env s) (hd : q.descriptions = none) (hn : q.nicNames = none)
    (h : editHardware c q s = .ok s') (ht : NoTies s'.hw) :
    ∃ s2, editHardware c q { s' with seen := s.seen } = .ok s2 ∧ s2.envl = s'.envl ∧ s2.hws = s'.hws ∧ SameHw s'.hw s2.hw := by
  obtain ⟨env', q', s1, t, r⟩ := editHardware_run st h
  obtain ⟨ca, cb, cd, hk1, hk2, hk3⟩ := editHardware_checked h
  obtain ⟨d, ex, ns, f1, f2, f3, f4, f5, f6⟩ := r.tr.nets
  obtain ⟨w, se, -, cn, cs⟩ := r.tr.all r.ver r.ehr f2
  have wf : HwWF env' s'.hw := by rw [← r.tr.last]; exact w 11 (by omega)
  have n2 : env'.configProfiles.Nodup := by rw [r.prof]; exact (addNew_nodup st.nodup).filter _
  have hprof : ∀ p, p ∈ env'.configProfiles ↔ (p ∈ env.configProfiles ∨ p ∈ q.profiles.getD []) ∧ ¬ Deleted c q p := by
    intro p; rw [r.prof, List.mem_filter, mem_addNew]; simp
  -- counts
  have hnics : ∀ n, q.nics = some n → (allProfilesIfEmpty env' q.profList).Nodup ∧
      ∀ p ∈ allProfilesIfEmpty env' q.profList, countOf env' s'.hw "10".toList p = n := by
    intro n hq
    refine ⟨allProfiles_nodup n2 (st.nics (by rw [hq]; rfl)).1, ?_⟩
    intro p hp
    obtain ⟨-, -, -, k⟩ := setItemCount_frame (w 2 (by omega)) code_eth (cn (by rw [hq]; rfl)) (r.tr.nics n hq).1
    rw [← r.tr.last, r.tr.counts r.ver w se (a := 3) (by omega) (Nat.le_refl _) ?_ p]
    · exact k p hp
    · intro i h1 h2
      interval_cases i
      all_goals first | exact Or.inl (by decide) | exact Or.inr (vq_ne_step _ (by omega))
  have hserial : ∀ n, q.serialPorts = some n → (allProfilesIfEmpty env' q.profList).Nodup ∧
      ∀ p ∈ allProfilesIfEmpty env' q.profList, countOf env' s'.hw "21".toList p = n := by
    intro n hq
    refine ⟨allProfiles_nodup n2 (st.serial (by rw [hq]; rfl)).1, ?_⟩
    intro p hp
    obtain ⟨-, -, -, k⟩ := setItemCount_frame (w 7 (by omega)) code_serial (cs (by rw [hq]; rfl)) (r.tr.serial n hq).1
    rw [← r.tr.last, r.tr.counts r.ver w se (a := 8) (by omega) (Nat.le_refl _) ?_ p]
    · exact k p hp
    · intro i h1 h2
      interval_cases i
      all_goals first | exact Or.inl (by decide) | exact Or.inr (vq_ne_step _ (by omega))
  -- the profiles and the system types
  have hup : updateProfiles c q { s' with seen := s.seen } = .ok { s' with seen := s.seen } := by
    refine updateProfiles_again st.order r.cfg ?_ ?_ r.delAll r.sysAsk r.descAsk
    · intro p hp
      exact (hprof p).2 ⟨Or.inr hp, fun hh => hh.2.1 hp⟩
    · intro p hp
      exact ((hprof p).1 hp).2
  have hsys : systemTypesStep c q { s' with seen := s.seen } = .ok { s' with seen := s.seen } := by
    unfold systemTypesStep
    cases hq : q.systemTypes with
    | none => rfl
    | some L =>
      obtain ⟨e, e1, e2⟩ := r.sysS L hq
      simp only [e2, setSystemTypes_again e1]
  have u0 : Unchanged env' s' { s' with seen := s.seen } := ⟨rfl, rfl, SameHw.rfl' _, wf⟩
  have he := r.cfg
  -- CPUs
  obtain ⟨x1, a1, u1, v1⟩ := cpuStep_again (q := q) (a := ca) u0 he hk1 (by
    intro n hq
    obtain ⟨g1, g2⟩ := r.tr.allSet r.ver w se code_cpu (vq_plain _) (vq_iid _) vq_rt (i := 0) (by omega) (r.tr.cpu n hq)
      (by intro j h1 h2; left; interval_cases j <;> decide)
    exact ⟨g1, g2 rfl⟩)
  -- memory
  obtain ⟨x2, a2, u2, v2⟩ := memoryStep_again (q := q) (a := cb) u1 he (by rw [v1]; exact hk2) (by
    intro n hq
    obtain ⟨hw1, m1, m2⟩ := r.tr.mem n hq
    obtain ⟨g0, g2⟩ := setValueForAll_after (w 1 (by omega)) code_memory (vq_plain _) (vq_iid _) vq_rt m1
    have w1 : HwWF env' hw1 := (setValueForAll_frame (w 1 (by omega)) code_memory (vq_iid _) vq_rt m1).1
    have kv := (setValueForAll_edits w1 code_memory (by simp) m2).1.keeps (c := "4".toList) (au_iid _) au_rt
      (show virtualQuantity ≠ allocationUnits by decide +kernel)
    obtain ⟨g1, -⟩ := setValueForAll_after w1 code_memory (au_plain _) (au_iid _) au_rt m2
    have k2 : ∀ nm, KeepsTab env' "4".toList nm (t 2) s'.hw := fun nm => by
      rw [← r.tr.last]
      exact r.tr.keeps r.ver w se (by omega) (Nat.le_refl _) (fun j h1 h2 => Or.inl (by interval_cases j <;> decide))
    refine ⟨g0.keep (kv.trans (k2 _)), g1.keep (k2 _), ?_⟩
    obtain ⟨id, it, i1, i2⟩ := g2 rfl
    obtain ⟨y, y1, y2, -⟩ := (kv.trans (k2 _)).fwd id it i1 i2
    exact ⟨id, y, y1, y2⟩)
  have ai := inferNetworks_again (q := q) u2 he wf hnics
  -- NICs
  obtain ⟨x3, a3, u3, v3⟩ := nicCountStep_again (q := q) (a := cd) u2 he (by rw [v2]; exact hk3) wf hnics
  obtain ⟨x4, a4, u4, -⟩ := nicTypesStep_again (q := q) u3 he (by
    intro l hq
    obtain ⟨l', l1, l2, l3⟩ := r.tr.types l hq
    refine ⟨l', l1, l2, (r.tr.allSet r.ver w se code_eth (rst_plain _) (rst_iid _) rst_rt (i := 3) (by omega) l3 ?_).1⟩
    intro j h1 h2
    interval_cases j
    · exact Or.inr ⟨_, rfl, by decide +kernel⟩
    · exact Or.inr ⟨_, rfl, by decide +kernel⟩
    · exact Or.inr ⟨_, rfl, (rst_plain _).1⟩
    all_goals exact Or.inl (by decide))
  obtain ⟨x5, a5, u5, -⟩ := macsStep_again (q := q) u4 he (by
    intro l hq
    have k := r.tr.macs l hq
    unfold setNicValues at k
    split at k
    · cases k
    · rename_i z hz
      refine ⟨z, hz, r.tr.inOrderSet r.ver w se ht code_eth (addr_plain _) (addr_iid _) (i := 4) (by omega) k ?_ ?_⟩
      · intro j h1 h2
        interval_cases j
        · exact Or.inr ⟨_, rfl, by decide +kernel⟩
        · exact Or.inr ⟨_, rfl, (addr_plain _).1⟩
        all_goals exact Or.inl (by decide)
      · intro j h1 h2
        interval_cases j
        all_goals first | exact Or.inl (by decide) | exact Or.inr (vq_ne_step _ (by omega)))
  -- networks
  have k5 : KeepsTab env' "10".toList virtualQuantity (t 5) (t 11) := by
    refine r.tr.keeps r.ver w se (by omega) (Nat.le_refl _) ?_
    intro j h1 h2
    interval_cases j
    all_goals first | exact Or.inl (by decide) | exact Or.inr (vq_ne_step _ (by omega))
  have hcnt : itemCounts env' s'.hw "ethernet".toList q.profList = .ok d := by
    rw [← f1, ← r.tr.last]
    exact k5.itemCounts (w 5 (by omega)) (w 11 (by omega)) code_eth (by rw [r.tr.last]; exact ht) _
  obtain ⟨M, m1, m2, m3⟩ := f3.list ex f2
  obtain ⟨t0, hte, -, hinf⟩ := r.tr.infer
  obtain ⟨_, _, -, i1, i2, -, i4⟩ := inferNetworks_inv hinf
  obtain ⟨x6, a6, u6, -⟩ := networksStep_again (q := q) st.ver u5 he wf hd hcnt m1 (by
    intro hq hm hnil
    obtain ⟨e1, e2⟩ := List.append_eq_nil_iff.1 hnil
    subst e1
    have hqq : q' = q := i4 (by rw [hte]; exact f2)
    have hef : effNetworks q' (maxCount d (allProfilesIfEmpty env' q.profList)) [] = some ["VM Network".toList] := by
      unfold effNetworks
      rw [if_pos ⟨hm, rfl, by rw [hqq]; exact hq⟩]
    obtain ⟨g1, g2⟩ := f6 _ hef
    unfold setNicValues at g2
    split at g2
    · cases g2
    · rename_i z hz
      have := m2 z (by rw [g1]; exact List.mem_of_getLast? hz)
      rw [hnil] at this
      cases this) (by
    intro l hq
    have hqq : q' = q := i2 l hq
    have hef : effNetworks q' (maxCount d (allProfilesIfEmpty env' q.profList)) ex = some l := by
      unfold effNetworks
      rw [hqq, if_neg (fun hh => by rw [hq] at hh; cases hh.2.2), hq]
    obtain ⟨g1, g2⟩ := f6 _ hef
    refine ⟨?_, ?_⟩
    · intro m hm
      refine ⟨m2 m (by rw [g1]; exact hm), ?_⟩
      obtain ⟨d', ex', b1, b2, b3⟩ := r.tr.descr
      rw [f1] at b1; cases b1
      rw [f2] at b2; cases b2
      rw [hef] at b3
      exact networkLoop_some st.ver _ _ r.netsWF b3 m (Or.inl hm)
    · unfold setNicValues at g2
      split at g2
      · cases g2
      · rename_i z hz
        refine ⟨z, hz, r.tr.inOrderSet r.ver w se ht code_eth (conn_plain _) (conn_iid _) (i := 5) (by omega) g2 ?_ ?_⟩
        · intro j h1 h2
          interval_cases j
          · exact Or.inr ⟨_, rfl, (conn_plain _).1⟩
          all_goals exact Or.inl (by decide)
        · intro j h1 h2
          interval_cases j
          all_goals first | exact Or.inl (by decide) | exact Or.inr (vq_ne_step _ (by omega)))
  have a7 : nicNamesStep c q x6 = .ok x6 := by
    unfold nicNamesStep; rw [hn]
  -- serial ports
  obtain ⟨x8, a8, u8, -⟩ := serialCountStep_again (q := q) u6 he wf hserial
  obtain ⟨x9, a9, u9, -⟩ := serialConnStep_again (q := q) u8 he wf (by
    intro l hq
    obtain ⟨g1, d', g2, g3⟩ := r.tr.conn l hq
    have kb : ∀ j, 8 ≤ j → j < 11 → "21".toList ∉ stepCodes j ∨ ∃ m, stepName env'.ver j = some m ∧ virtualQuantity ≠ m := by
      intro j h1 h2
      interval_cases j
      all_goals first | exact Or.inl (by decide) | exact Or.inr (vq_ne_step _ (by omega))
    refine ⟨r.tr.inOrderSet r.ver w se ht code_serial (addr_plain _) (addr_iid _) (i := 8) (by omega) g1 ?_ kb, d', ?_, g3⟩
    · intro j h1 h2
      interval_cases j <;> exact Or.inl (by decide)
    · rw [← g2, ← r.tr.last]
      exact (r.tr.keeps r.ver w se (by omega) (Nat.le_refl _) kb).itemCounts (w 8 (by omega)) (w 11 (by omega)) code_serial
        (by rw [r.tr.last]; exact ht) _)
  -- controllers
  obtain ⟨x10, a10, u10, -⟩ := subtypesStep_again (q := q) (types := q.scsi) code_scsi u9 he (by
    intro l hq
    refine (r.tr.allSet r.ver w se code_scsi (rst_plain _) (rst_iid _) rst_rt (i := 9) (by omega) (r.tr.scsi l hq) ?_).1
    intro j h1 h2
    interval_cases j
    exact Or.inl (by decide))
  obtain ⟨x11, a11, u11, -⟩ := subtypesStep_again (q := q) (types := q.ide) code_ide u10 he (by
    intro l hq
    refine (r.tr.allSet r.ver w se code_ide (rst_plain _) (rst_iid _) rst_rt (i := 10) (by omega) (r.tr.ide l hq) ?_).1
    intro j h1 h2
    omega)
  refine ⟨x11, ?_, u11.envl, u11.hws, u11.hw⟩
  unfold editHardware
  rw [if_neg (by rw [r.ready]; simp), hup]
  simp only [bind, Except.bind, hsys]
  unfold editItems
  simp only [bind, Except.bind, a1, a2, ai, a3, a4, a5, a6, a7, a8, a9, a10, a11]

/-- non-vacuity: the command of the examples in Props/EditHardware (profiles, CPUs, memory, NICs with types, addresses and
networks, and serial ports) -/
example : exEhReq.descriptions = none ∧ exEhReq.nicNames = none ∧ NoTies exEhSt'.hw ∧
    ∃ s2, editHardware exEhCtx exEhReq { exEhSt' with seen := exEhSt.seen } = .ok s2 ∧ s2.envl = exEhSt'.envl ∧
      s2.hws = exEhSt'.hws ∧ SameHw exEhSt'.hw s2.hw := by
  have ht : NoTies exEhSt'.hw := by unfold NoTies NatLe; decide +kernel
  exact ⟨rfl, rfl, ht, C118_hardware_partial exEh_start rfl rfl exEh_run ht⟩

/-- `--nic-networks B --network-descriptions ""` -/
def exEhReqE : EhReq := { networks := some ["B".toList], descriptions := some [[]] }

/-- **C118 fails** with an empty description: for a new network the user is asked for a description instead, but when the command
is run again the network exists, and its description is emptied. -/
theorem C118_description_fails : ∃ s' s2, editHardware exEhCtx exEhReqE exEhSt = .ok s' ∧
    editHardware exEhCtx exEhReqE { s' with seen := exEhSt.seen } = .ok s2 ∧
    networkDescriptions .v1 s'.envl = .ok [[], "text".toList] ∧ networkDescriptions .v1 s2.envl = .ok [[], []] :=
  ⟨_, _, rfl, rfl, rfl, rfl⟩

end Cot
