import Verif.Props.PackageFiles
import Verif.Lemmas.SetAll
/-
Lemmas about adding disks.
-/
namespace Cot

theorem diskNames_ne (v : Ver) : diskId v ≠ diskFileRef v ∧ diskId v ≠ diskCapacity v ∧ diskId v ≠ diskCapUnits v ∧
    diskId v ≠ diskFormat v ∧ diskFileRef v ≠ diskCapacity v ∧ diskFileRef v ≠ diskCapUnits v ∧
    diskFileRef v ≠ diskFormat v ∧ diskCapacity v ≠ diskCapUnits v ∧ diskCapacity v ≠ diskFormat v ∧
    diskCapUnits v ≠ diskFormat v := by
  cases v <;> decide +kernel

/-- a capacity that was written reads as the same number of bytes -/
theorem setCapacity_reads {v : Ver} {py : PyVer} {d d' : Elem} {n : Nat} (h0 : 0 < n) (hb : n ≤ 2 ^ 63)
    (hu : v = .v0 → d.get (diskCapUnits v) = none) (h : setCapacity v py d n = .ok d') :
    capacityOf v d' = .ok (n : Int) ∧ d'.tag = d.tag ∧
      ∀ key, key ≠ diskCapacity v → key ≠ diskCapUnits v → d'.get key = d.get key := by
  obtain ⟨-, -, -, -, -, -, -, hcu, -⟩ := diskNames_ne v
  have hrest : ∀ v', v' = v → v' ≠ .v0 → (match intBytesToUnits py (n + 1) n with
      | none => .error .runtimeError
      | some (.error e) => .error e
      | some (.ok (c, u)) => .ok ((d.set (diskCapacity v) c).set (diskCapUnits v) u) : Except Err Elem) = .ok d' →
      capacityOf v d' = .ok (n : Int) ∧ d'.tag = d.tag ∧
      ∀ key, key ≠ diskCapacity v → key ≠ diskCapUnits v → d'.get key = d.get key := by
    intro v' hv' hne h
    clear hu
    obtain ⟨fuel, value, unit, r1, r2⟩ := C22_roundtrip_partial py n h0 hb
    unfold intBytesToUnits at h r1
    cases hl : unitsLoop py (n + 1) 0 n with
    | none => rw [hl] at h; cases h
    | some x =>
      rw [hl] at h
      cases x with
      | error e => cases h
      | ok sv =>
        obtain ⟨sh, w⟩ := sv
        simp only [Except.ok.injEq] at h
        cases hl' : unitsLoop py fuel 0 n with
        | none => rw [hl'] at r1; cases r1
        | some x =>
          have e1 := unitsLoop_fuel_mono (le_max_left (n + 1) fuel) hl
          have e2 := unitsLoop_fuel_mono (le_max_right (n + 1) fuel) hl'
          rw [e1] at e2
          cases e2
          rw [hl'] at r1
          simp only [Option.some.injEq, Except.ok.injEq, Prod.mk.injEq] at r1
          obtain ⟨rfl, rfl⟩ := r1
          subst h
          clear hb h0
          refine ⟨?_, by rw [set_tag, set_tag], ?_⟩
          · unfold capacityOf
            rw [set_get, if_neg hcu.symm, set_get, if_pos rfl]
            simp only [pyInt_natStr]
            rw [set_get, if_pos rfl]
            exact r2
          · intro key k1 k2
            rw [set_get, if_neg (Ne.symm k2), set_get, if_neg (Ne.symm k1)]
  cases v with
  | v0 =>
    simp only [setCapacity, Except.ok.injEq] at h
    subst h
    refine ⟨?_, set_tag _ _ _, ?_⟩
    · unfold capacityOf
      rw [set_get, if_pos rfl]
      simp only [pyInt_natStr]
      rw [set_get, if_neg hcu, hu rfl]
      have := (C22_units (pyInt_iff.1 (pyInt_natStr n))).2.2.1
      exact this
    · intro key k1 k2
      rw [set_get, if_neg (Ne.symm k1)]
  | v1 => exact hrest .v1 rfl (by simp) h
  | v2 => exact hrest .v2 rfl (by simp) h

theorem diskElem_says {c : Ctx} {did : Option Str} {fid : Str} {cap : Nat} {e : Elem} (h0 : 0 < cap) (hb : cap ≤ 2 ^ 63)
    (h : diskElem c did fid cap = .ok e) : ∃ s, did = some s ∧ DiskSays c.env.ver e s fid cap := by
  unfold diskElem at h
  simp only at h
  obtain ⟨e0, h1, h⟩ := bind_ok_inv h
  obtain ⟨g1, g2, g3⟩ := setCapacity_reads h0 hb (fun _ => rfl) h1
  cases did with
  | none => cases h
  | some s =>
    simp only [Except.ok.injEq] at h
    obtain ⟨n1, n2, n3, n4, n5, n6, n7, n8, n9, n10⟩ := diskNames_ne c.env.ver
    refine ⟨s, rfl, ?_⟩
    subst h
    refine ⟨?_, ?_, ?_, ?_⟩
    · simp only [set_tag, g2]; rfl
    · rw [set_get, if_neg n4.symm, set_get, if_neg n1.symm, set_get, if_pos rfl]
    · rw [set_get, if_neg n7.symm, set_get, if_pos rfl]
    · unfold capacityOf at g1 ⊢
      rw [set_get, if_neg n9.symm, set_get, if_neg n5, set_get, if_neg n2,
        set_get, if_neg n10.symm, set_get, if_neg n6, set_get, if_neg n3]
      exact g1


/-! ### The Disk entry -/

theorem info_no_id (v : Ver) (j : Nat) : attrOf (newDiskSection v).children j (diskId v) = none := by
  unfold attrOf newDiskSection
  match j with
  | 0 => rfl
  | j + 1 => rfl

theorem addDisk_inv {c : Ctx} {p p' : Pkg} {cap : Nat} {fid drive : Str} {disk n : Option Nat} (h0 : 0 < cap)
    (hb : cap ≤ 2 ^ 63) (h : addDisk c p cap fid drive disk = .ok (n, p')) :
    p'.refs = p.refs ∧ p'.files = p.files ∧ p'.hw = p.hw ∧
    (drive = "harddisk".toList → ∃ j e did, n = some j ∧ DiskSays c.env.ver e did fid cap ∧ p'.diskList[j]? = some e ∧
      ((∃ old, disk = some j ∧ p.diskList[j]? = some old ∧ old.get (diskId c.env.ver) = some did ∧
          p'.diskList = p.diskList.set j e) ∨
        (disk = none ∧ did = fid ∧ ∃ pre, p'.diskList = p.diskList ++ pre ++ [e] ∧
          ∀ x ∈ pre, x.tag ≠ diskTag c.env.ver))) ∧
    (drive ≠ "harddisk".toList →
      (p'.diskList = p.diskList ∧ (disk = none ∨ p.disks = none)) ∨
      ∃ j, disk = some j ∧ (p'.diskList = p.diskList.eraseIdx j ∨
        p'.diskList = [] ∧ ∀ x ∈ p.diskList.eraseIdx j, x.tag ≠ diskTag c.env.ver)) := by
  unfold addDisk at h
  simp only at h
  by_cases hd : drive = "harddisk".toList
  · rw [if_neg (by simpa using hd)] at h
    cases disk with
    | some j =>
      simp only at h
      obtain ⟨e, he, h⟩ := bind_ok_inv h
      simp only [Except.ok.injEq, Prod.mk.injEq] at h
      obtain ⟨rfl, rfl⟩ := h
      obtain ⟨did, hdid, hs⟩ := diskElem_says h0 hb he
      refine ⟨rfl, rfl, rfl, fun _ => ?_, fun hn => absurd hd hn⟩
      cases hp : p.disks with
      | none => rw [hp] at hdid; simp only [Option.getD_none, info_no_id] at hdid; cases hdid
      | some ds =>
        rw [hp] at hdid
        simp only [Option.getD_some] at hdid
        obtain ⟨old, h1, h2⟩ := attrOf_some hdid
        have hl : p.diskList = ds.children := by unfold Pkg.diskList; rw [hp]
        have hlt : j < ds.children.length := (List.getElem?_eq_some_iff.1 h1).1
        have hl' : ∀ q : Pkg, q.disks = some (ds.setChildren (ds.children.set j e)) → q.diskList = ds.children.set j e := by
          intro q hq; unfold Pkg.diskList; rw [hq]; exact setChildren_children _ _
        have := hl' { p with disks := some (ds.setChildren (ds.children.set j e)) } rfl
        simp only [Option.getD_some]
        rw [this, hl]
        exact ⟨j, e, did, rfl, hs, by rw [List.getElem?_set_self hlt], Or.inl ⟨old, rfl, h1, h2, rfl⟩⟩
    | none =>
      simp only at h
      obtain ⟨e, he, h⟩ := bind_ok_inv h
      simp only [Except.ok.injEq, Prod.mk.injEq] at h
      obtain ⟨rfl, rfl⟩ := h
      obtain ⟨did, hdid, hs⟩ := diskElem_says h0 hb he
      cases hdid
      refine ⟨rfl, rfl, rfl, fun _ => ?_, fun hn => absurd hd hn⟩
      have hl' : ∀ (q : Pkg) (d : Elem), q.disks = some (d.setChildren (d.children ++ [e])) →
          q.diskList = d.children ++ [e] := by
        intro q d hq; unfold Pkg.diskList; rw [hq]; exact setChildren_children _ _
      have := hl' { p with disks := some ((p.disks.getD (newDiskSection c.env.ver)).setChildren
        ((p.disks.getD (newDiskSection c.env.ver)).children ++ [e])) } _ rfl
      rw [this]
      refine ⟨_, e, fid, rfl, hs, by simp, Or.inr ⟨rfl, rfl, ?_⟩⟩
      cases hp : p.disks with
      | none =>
        refine ⟨(newDiskSection c.env.ver).children, ?_, ?_⟩
        · unfold Pkg.diskList; rw [hp]; rfl
        · intro x hx
          have : x = .mk (infoTag c.env.ver) [] (some "Virtual disk information".toList) none [] := by
            simpa [newDiskSection, Elem.children] using hx
          subst this
          cases c.env.ver <;> decide +kernel
      | some ds =>
        refine ⟨[], ?_, by simp⟩
        unfold Pkg.diskList; rw [hp]; simp
  · rw [if_pos hd] at h
    have key : p'.refs = p.refs ∧ p'.files = p.files ∧ p'.hw = p.hw ∧
        ((p'.diskList = p.diskList ∧ (disk = none ∨ p.disks = none)) ∨
          ∃ j, disk = some j ∧ (p'.diskList = p.diskList.eraseIdx j ∨
          p'.diskList = [] ∧ ∀ x ∈ p.diskList.eraseIdx j, x.tag ≠ diskTag c.env.ver)) := by
      cases disk with
      | none =>
        cases h
        exact ⟨rfl, rfl, rfl, Or.inl ⟨rfl, Or.inl rfl⟩⟩
      | some j =>
        cases hp : p.disks with
        | none =>
          rw [hp] at h; cases h
          exact ⟨rfl, rfl, rfl, Or.inl ⟨rfl, Or.inr rfl⟩⟩
        | some ds =>
          rw [hp] at h
          simp only at h
          have hl : p.diskList = ds.children := by unfold Pkg.diskList; rw [hp]
          rw [hl]
          by_cases ha : (ds.children.eraseIdx j).any (fun e => e.tag == diskTag c.env.ver) = true
          · rw [if_pos ha] at h
            cases h
            refine ⟨rfl, rfl, rfl, Or.inr ⟨j, rfl, Or.inl ?_⟩⟩
            show (ds.setChildren (ds.children.eraseIdx j)).children = _
            exact setChildren_children _ _
          · rw [if_neg ha] at h
            cases h
            refine ⟨rfl, rfl, rfl, Or.inr ⟨j, rfl, Or.inr ⟨rfl, ?_⟩⟩⟩
            intro x hx hxt
            apply ha
            rw [List.any_eq_true]
            exact ⟨x, hx, by simpa using hxt⟩
    exact ⟨key.1, key.2.1, key.2.2.1, fun h => absurd h hd, fun _ => key.2.2.2⟩

/-! ### The controller -/

theorem newController_tabs {env : Env} {hw hw' : Hw} {rt id : Str} {addr : Option Str}
    (h : newController env hw rt addr = .ok (id, hw')) :
    ∃ it, dget? hw' id = some it ∧ it.tab (instanceId env.ver) ≠ [] ∧ it.tab parentName = [] ∧
      it.tab resourceSubType = [] := by
  unfold newController at h
  cases h3 : newItem env hw rt [] with
  | error e => rw [h3] at h; cases h
  | ok r =>
    obtain ⟨id', hw1⟩ := r
    rw [h3] at h; simp only at h
    obtain ⟨z, code, it, -, rfl, hf, hc, rfl, w, t1, t2, t3, -⟩ := newItem_spec h3
    split at h
    · cases h
    · split at h
      · cases h
      · simp only [dget?_dset, if_pos] at h
        rename_i a _ _ _ _
        cases h6 : fillController env rt a it with
        | error e => rw [h6] at h; cases h
        | ok it3 =>
          rw [h6] at h
          simp only [Except.ok.injEq, Prod.mk.injEq] at h
          obtain ⟨rfl, rfl⟩ := h
          refine ⟨it3, by rw [dget?_dset, if_pos rfl], ?_⟩
          unfold fillController at h6
          cases f1 : it.setProperty env address (.str a) ∅ true with
          | error e => rw [f1] at h6; cases h6
          | ok it1 =>
            rw [f1] at h6; simp only at h6
            cases f2 : it1.setProperty env (elementName env.ver) (.str (upper rt ++ " Controller".toList)) ∅ true with
            | error e => rw [f2] at h6; cases h6
            | ok it2 =>
              rw [f2] at h6; simp only at h6
              obtain ⟨_, _, w1, o1, _⟩ := setProperty_spec w f1
              obtain ⟨_, _, w2, o2, _⟩ := setProperty_spec w1 f2
              obtain ⟨_, _, w3, o3, _⟩ := setProperty_spec w2 h6
              have n1 : ∀ v, instanceId v ≠ address ∧ instanceId v ≠ elementName v ∧ instanceId v ≠ itemDescription := by
                intro v; cases v <;> decide +kernel
              have n2 : ∀ v, parentName ≠ address ∧ parentName ≠ elementName v ∧ parentName ≠ itemDescription := by
                intro v; cases v <;> decide +kernel
              have n3 : ∀ v, resourceSubType ≠ address ∧ resourceSubType ≠ elementName v ∧ resourceSubType ≠ itemDescription ∧
                  resourceSubType ≠ instanceId v ∧ resourceSubType ≠ resourceType := by
                intro v; cases v <;> decide +kernel
              obtain ⟨a1, a2, a3⟩ := n1 env.ver
              obtain ⟨c1, c2, c3, c4, c5⟩ := n3 env.ver
              obtain ⟨b1, b2, b3⟩ := n2 env.ver
              obtain ⟨p1, p2, -, -, -, p6, -⟩ := parent_ne env.ver
              rw [o3 _ a3, o2 _ a2, o1 _ a1, t1, o3 _ b3, o2 _ b2, o1 _ b1, t3 _ p1 p2 p6, o3 _ c3,
                o2 _ c2, o1 _ c1, t3 _ c4 c5 c2]
              exact ⟨by simp, rfl, rfl⟩

/-- what `add_controller_device` does -/
theorem addController_inv {env : Env} {hw hw' : Hw} {ct id : Str} {sub : Option InVal} {addr ctrl : Option Str}
    (wf : HwWF env hw) (haddr : ∀ a, addr = some a → ctrl = none → Digits a)
    (hctrl : ∀ c, ctrl = some c → ∃ ci, dget? hw c = some ci)
    (h : addControllerDevice env hw ct sub addr ctrl = .ok (id, hw')) :
    HwWF env hw' ∧ (∀ k, k ≠ id → dget? hw' k = dget? hw k) ∧ ∃ ci', dget? hw' id = some ci' ∧
      (∀ s, sub = some (.str s) → s ≠ [] → HasSubtype ci' s) ∧
      ((ctrl = some id ∧ ∃ ci, dget? hw id = some ci ∧ (∀ m, m ≠ resourceSubType → ci'.tab m = ci.tab m) ∧
          (sub = none → ci' = ci)) ∨
        (ctrl = none ∧ id ∉ dkeys hw ∧ ci'.tab (instanceId env.ver) ≠ [] ∧ ci'.tab parentName = [] ∧
          ∃ code a, resourceCode ct = .ok code ∧ OfType ci' code ∧ (∃ S, ci'.tab address = [(.str a, S)]) ∧
            CtrlOk code (digitsVal a) ∧
            (addr = some a ∨ addr = none ∧ ∃ n, a = natStr n ∧ FirstFree (CtrlAddress hw code) n))) := by
  have hne : ∀ v : Ver, resourceType ≠ resourceSubType ∧ address ≠ resourceSubType ∧ parentName ≠ resourceSubType ∧
      instanceId v ≠ resourceSubType := by intro v; cases v <;> decide +kernel
  obtain ⟨e1, e2, e3, e4⟩ := hne env.ver
  -- the part after the controller is there
  have rest : ∀ id1 hw1, HwWF env hw1 → (∀ k, k ≠ id1 → dget? hw1 k = dget? hw k) → ∀ ci', dget? hw1 id1 = some ci' →
      ((ctrl = some id1 ∧ dget? hw id1 = some ci') ∨
        (ctrl = none ∧ id1 ∉ dkeys hw ∧ ci'.tab (instanceId env.ver) ≠ [] ∧ ci'.tab parentName = [] ∧
          ∃ code a, resourceCode ct = .ok code ∧ OfType ci' code ∧ (∃ S, ci'.tab address = [(.str a, S)]) ∧
            CtrlOk code (digitsVal a) ∧
            (addr = some a ∨ addr = none ∧ ∃ n, a = natStr n ∧ FirstFree (CtrlAddress hw code) n))) →
      (match (generalizing := false) sub with
        | none => .ok (id1, hw1)
        | some s => match dget? hw1 id1 with
          | none => .error .keyError
          | some it => match it.setProperty env resourceSubType s ∅ true with
            | .error e => .error e
            | .ok it' => .ok (id1, dset hw1 id1 it') : Except Err (Str × Hw)) = .ok (id, hw') →
      HwWF env hw' ∧ (∀ k, k ≠ id → dget? hw' k = dget? hw k) ∧ ∃ ci', dget? hw' id = some ci' ∧
      (∀ s, sub = some (.str s) → s ≠ [] → HasSubtype ci' s) ∧
      ((ctrl = some id ∧ ∃ ci, dget? hw id = some ci ∧ (∀ m, m ≠ resourceSubType → ci'.tab m = ci.tab m) ∧
          (sub = none → ci' = ci)) ∨
        (ctrl = none ∧ id ∉ dkeys hw ∧ ci'.tab (instanceId env.ver) ≠ [] ∧ ci'.tab parentName = [] ∧
          ∃ code a, resourceCode ct = .ok code ∧ OfType ci' code ∧ (∃ S, ci'.tab address = [(.str a, S)]) ∧
            CtrlOk code (digitsVal a) ∧
            (addr = some a ∨ addr = none ∧ ∃ n, a = natStr n ∧ FirstFree (CtrlAddress hw code) n))) := by
    intro id1 hw1 w1 o1 ci' g1 g2 h
    cases sub with
    | none =>
      cases h
      refine ⟨w1, o1, ci', g1, fun _ h => (nomatch h), ?_⟩
      rcases g2 with ⟨q1, q2⟩ | g2
      · exact Or.inl ⟨q1, ci', q2, fun _ _ => rfl, fun _ => rfl⟩
      · exact Or.inr g2
    | some s =>
      simp only [g1] at h
      cases hs : ci'.setProperty env resourceSubType s ∅ true with
      | error e => rw [hs] at h; cases h
      | ok ci2 =>
        rw [hs] at h
        simp only [Except.ok.injEq, Prod.mk.injEq] at h
        obtain ⟨rfl, rfl⟩ := h
        obtain ⟨-, -, w2, o2, -⟩ := setProperty_spec (w1.get g1).1 hs
        refine ⟨w1.replace (mem_dkeys_of_dget? g1) w2 ?_, ?_, ci2, by rw [dget?_dset, if_pos rfl], ?_, ?_⟩
        · rw [o2 _ e4]; exact w1.ident _ _ (dget?_mem g1)
        · intro k hk; rw [dget?_dset, if_neg (Ne.symm hk)]; exact o1 k hk
        · rintro t ht hne
          cases ht
          exact ⟨_, _, setProperty_subtype (w1.get g1).1 hne hs, joinWith_splitOnChar ' ' t, splitOnChar_sepfree ' ' t⟩
        · rcases g2 with ⟨q1, q2⟩ | ⟨q1, q2, q3, q4, code, a, q5, q6, q7, q8, q9⟩
          · exact Or.inl ⟨q1, ci', q2, fun m hm => o2 m hm, fun h => (nomatch h)⟩
          · refine Or.inr ⟨q1, q2, by rw [o2 _ e4]; exact q3, by rw [o2 _ e3]; exact q4, code, a, q5, ?_, ?_, q8, q9⟩
            · unfold OfType at q6 ⊢; rw [o2 _ e1]; exact q6
            · rw [o2 _ e2]; exact q7
  unfold addControllerDevice at h
  cases ctrl with
  | some c =>
    obtain ⟨ci, hci⟩ := hctrl _ rfl
    exact rest c hw wf (fun _ _ => rfl) ci hci (Or.inl ⟨rfl, hci⟩) h
  | none =>
    simp only at h
    cases h1 : newController env hw ct addr with
    | error e => rw [h1] at h; cases h
    | ok r =>
      obtain ⟨id1, hw1⟩ := r
      rw [h1] at h
      obtain ⟨g1, g2, g3, g4, it, code, a, g5, g6, g7, g8, g9, g10⟩ :=
        C36_new_controller wf (fun a ha => haddr a ha rfl) h1
      obtain ⟨it', g11, g12, g13, -⟩ := newController_tabs h1
      rw [g5] at g11; cases g11
      exact rest id1 hw1 g4 g3 it g5 (Or.inr ⟨rfl, g1, g12, g13, code, a, g6, g7, g8, g9, g10⟩) h

/-! ### The device -/

/-- the properties of a disk device that adding a disk to it may change -/
def DiskProp (v : Ver) (n : Str) : Prop :=
  n = resourceType ∨ n = hostResource ∨ n = elementName v ∨ n = itemDescription

theorem fillDisk_inv {c : Ctx} {hw hw' : Hw} {k drive res : Str} {name descr : Option Str} (wf : HwWF c.env hw)
    (hres : res ≠ []) (h : fillDisk c hw k drive res name descr = .ok hw') :
    ∃ it it' code, dget? hw k = some it ∧ resourceCode drive = .ok code ∧ dget? hw' k = some it' ∧
      (∀ k', k' ≠ k → dget? hw' k' = dget? hw k') ∧ HwWF c.env hw' ∧ OfType it' code ∧ Mapped it' res ∧
      ∀ n, ¬ DiskProp c.env.ver n → it'.tab n = it.tab n := by
  unfold fillDisk at h
  cases hk : dget? hw k with
  | none => rw [hk] at h; cases h
  | some it =>
    rw [hk] at h
    simp only at h
    obtain ⟨code, hc, h⟩ := bind_ok_inv h
    obtain ⟨i1, h1, h⟩ := bind_ok_inv h
    obtain ⟨i2, h2, h⟩ := bind_ok_inv h
    obtain ⟨i3, h3, h⟩ := bind_ok_inv h
    obtain ⟨i4, h4, h⟩ := bind_ok_inv h
    simp only [Except.ok.injEq] at h
    subst h
    have hne : ∀ v : Ver, resourceType ≠ resourceSubType ∧ hostResource ≠ resourceSubType ∧ resourceType ≠ hostResource ∧
        resourceType ≠ elementName v ∧ hostResource ≠ elementName v ∧ resourceType ≠ itemDescription ∧
        hostResource ≠ itemDescription ∧ instanceId v ≠ resourceType ∧ instanceId v ≠ hostResource ∧
        instanceId v ≠ elementName v ∧ instanceId v ≠ itemDescription := by intro v; cases v <;> decide +kernel
    obtain ⟨e1, e2, e3, e4, e5, e6, e7, e8, e9, e10, e11⟩ := hne c.env.ver
    obtain ⟨w1, o1, -, t1⟩ := setProperty_all (wf.get hk).1 (plain_rt c.env) e1 h1
    obtain ⟨w2, o2, -, t2⟩ := setProperty_all w1 (plain_hr c.env) e2 h2
    have s3 : ItemWF c.env i3 ∧ ∀ m, m ≠ elementName c.env.ver → i3.tab m = i2.tab m := by
      cases name with
      | none => cases h3; exact ⟨w2, fun _ _ => rfl⟩
      | some n =>
        obtain ⟨-, -, w, o, -⟩ := setProperty_spec w2 h3
        exact ⟨w, o⟩
    obtain ⟨w3, o3⟩ := s3
    have s4 : ItemWF c.env i4 ∧ ∀ m, m ≠ itemDescription → i4.tab m = i3.tab m := by
      cases descr with
      | none => cases h4; exact ⟨w3, fun _ _ => rfl⟩
      | some n =>
        obtain ⟨-, -, w, o, -⟩ := setProperty_spec w3 h4
        exact ⟨w, o⟩
    obtain ⟨w4, o4⟩ := s4
    refine ⟨it, i4, code, rfl, hc, by rw [dget?_dset, if_pos rfl], ?_, wf.replace (mem_dkeys_of_dget? hk) w4 ?_, ?_, ?_, ?_⟩
    · intro k' hk'; rw [dget?_dset, if_neg (Ne.symm hk')]
    · rw [o4 _ e11, o3 _ e10, o2 _ e9, o1 _ e8]; exact wf.ident _ _ (dget?_mem hk)
    · exact ⟨_, by rw [o4 _ e6, o3 _ e4, o2 _ e3, t1 (resourceCode_ne hc).2]⟩
    · exact ⟨_, by rw [o4 _ e7, o3 _ e5, t2 hres]⟩
    · intro n hn
      rw [o4 _ (fun h => hn (Or.inr (Or.inr (Or.inr h)))), o3 _ (fun h => hn (Or.inr (Or.inr (Or.inl h)))),
        o2 _ (fun h => hn (Or.inr (Or.inl h))), o1 _ (fun h => hn (Or.inl h))]

/-- the reference recorded in the device -/
def Reference (v : Ver) (p : Pkg) (drive : Str) (disk : Option Nat) (file : Nat) (res : Str) : Prop :=
  (drive = "harddisk".toList ∧ ∃ j s, disk = some j ∧ attrOf p.diskList j (diskId v) = some s ∧ res = hostDiskRef v ++ s) ∨
  (drive ≠ "harddisk".toList ∧ ∃ s, attrOf p.refs.children file (fileId v) = some s ∧ res = hostFileRef v ++ s)

theorem inDefault_of_tab {env : Env} {it : Item} {k : Str} (h : it.tab (instanceId env.ver) = [(.str k, {none})]) :
    InDefault env it := by
  have hd : dget? it.props (instanceId env.ver) = some [(.str k, {none})] := by
    unfold Item.tab at h
    cases hx : dget? it.props (instanceId env.ver) with
    | none => rw [hx] at h; cases h
    | some t => rw [hx] at h; simpa using h
  unfold InDefault Item.hasProfile Item.allProfiles
  rw [hd]
  simp [tabUnion]

/-- a new drive belongs to the default configuration -/
theorem createNewDisk_default {env : Env} {hw hw' : Hw} {drive ctrl id nm : Str} {address name : Option Str}
    (h : createNewDisk env hw drive address name ctrl = .ok (id, nm, hw')) :
    ∃ it, dget? hw' id = some it ∧ it.tab (instanceId env.ver) = [(.str id, {none})] := by
  unfold createNewDisk at h
  split at h
  · cases h
  split at h
  · cases h
  split at h
  · cases h
  split at h
  · cases h
  split at h
  · cases h
  split at h
  · cases h
  rename_i id1 hw1 hni
  obtain ⟨z, code, it0, -, -, -, -, rfl, wfi, hi, -⟩ := newItem_spec hni
  rw [dget?_dset, if_pos rfl] at h
  dsimp only at h
  split at h
  · cases h
  rename_i it1 h1
  split at h
  · cases h
  rename_i it2 h2
  cases h
  obtain ⟨-, -, w1, o1, -⟩ := setProperty_spec wfi h1
  obtain ⟨-, -, w2, o2, -⟩ := setProperty_spec w1 h2
  obtain ⟨n1, -, -, n2, -⟩ := parent_ne env.ver
  refine ⟨it2, by rw [dget?_dset, if_pos rfl], ?_⟩
  rw [o2 _ n1.symm, o1 _ n2.symm, hi]
  rfl

theorem addDiskDevice_inv {c : Ctx} {p p' : Pkg} {drive ctrl k : Str} {addr name descr : Option Str} {disk : Option Nat}
    {file : Nat} {dev : Option Str} {ci : Item} (wf : HwWF c.env p.hw) (hci : dget? p.hw ctrl = some ci)
    (hid : ci.tab (instanceId c.env.ver) ≠ []) (haddr : ∀ a, addr = some a → a ≠ [])
    (h : addDiskDevice c p drive addr name descr disk file ctrl dev = .ok (k, p')) :
    p'.refs = p.refs ∧ p'.files = p.files ∧ p'.disks = p.disks ∧ HwWF c.env p'.hw ∧
      (∀ k', k' ≠ k → dget? p'.hw k' = dget? p.hw k') ∧
      ∃ res it code, Reference c.env.ver p drive disk file res ∧ dget? p'.hw k = some it ∧
        resourceCode drive = .ok code ∧ OfType it code ∧ Mapped it res ∧
        ((dev = some k ∧ ∃ it0, dget? p.hw k = some it0 ∧ ∀ n, ¬ DiskProp c.env.ver n → it.tab n = it0.tab n) ∨
          (dev = none ∧ k ∉ dkeys p.hw ∧ ChildOf it ctrl ∧ ∃ a S, it.tab addressOnParent = [(.str a, S)] ∧
            (addr = some a ∨ addr = none ∧ ∃ n, a = natStr n ∧ FirstFree (Occupied p.hw ctrl) n) ∧
            checkDiskLimit (ci.hardwareType c.env) a = .ok () ∧ InDefault c.env it)) := by
  unfold addDiskDevice at h
  simp only at h
  obtain ⟨r, hr, h⟩ := bind_ok_inv h
  obtain ⟨res, hres, h⟩ := bind_ok_inv h
  obtain ⟨hw, hf, h⟩ := bind_ok_inv h
  simp only [Except.ok.injEq, Prod.mk.injEq] at h
  obtain ⟨rfl, rfl⟩ := h
  have hR : Reference c.env.ver p drive disk file res := by
    by_cases hd : drive = "harddisk".toList
    · rw [if_pos hd] at hres
      cases disk with
      | none => cases hres
      | some j =>
        simp only at hres
        cases ha : attrOf p.diskList j (diskId c.env.ver) with
        | none => rw [ha] at hres; cases hres
        | some s => rw [ha] at hres; cases hres; exact Or.inl ⟨hd, j, s, rfl, ha, rfl⟩
    · rw [if_neg hd] at hres
      cases ha : attrOf p.refs.children file (fileId c.env.ver) with
      | none => rw [ha] at hres; cases hres
      | some s => rw [ha] at hres; cases hres; exact Or.inr ⟨hd, s, ha, rfl⟩
  have hRne : res ≠ [] := by
    have h1 : ∀ v s, hostDiskRef v ++ s ≠ [] ∧ hostFileRef v ++ s ≠ [] := by
      intro v s; cases v <;> simp [hostDiskRef, hostFileRef]
    rcases hR with ⟨-, j, s, -, -, rfl⟩ | ⟨-, s, -, rfl⟩
    · exact (h1 _ _).1
    · exact (h1 _ _).2
  have hcr : ∀ v, ¬ DiskProp v parentName ∧ ¬ DiskProp v addressOnParent := by
    intro v; unfold DiskProp; cases v <;> decide +kernel
  cases dev with
  | some k0 =>
    cases hr
    obtain ⟨it, it', code, g1, g2, g3, g4, g5, g6, g7, g8⟩ := fillDisk_inv wf hRne hf
    exact ⟨rfl, rfl, rfl, g5, g4, res, it', code, hR, g3, g2, g6, g7, Or.inl ⟨rfl, it, g1, g8⟩⟩
  | none =>
    simp only at hr
    cases hcn : createNewDisk c.env p.hw drive addr name ctrl with
    | error e => rw [hcn] at hr; cases hr
    | ok x =>
      obtain ⟨k1, nm, hw1⟩ := x
      rw [hcn] at hr
      cases hr
      obtain ⟨a, ha, hlim, -, hcre⟩ := create_with wf hci hid hcn
      have hane : a ≠ [] := by
        rcases ha with ha | ⟨-, n, rfl, -⟩
        · exact haddr a ha
        · exact natStr_ne_nil n
      have hcre := hcre hane
      obtain ⟨it, it', code, g1, g2, g3, g4, g5, g6, g7, g8⟩ := fillDisk_inv hcre.wf hRne hf
      obtain ⟨it0, code0, d1, d2, d3, d4, S, d5⟩ := hcre.device
      rw [d1] at g1; cases g1
      refine ⟨rfl, rfl, rfl, g5, ?_, res, it', code, hR, g3, g2, g6, g7, Or.inr ⟨rfl, hcre.fresh, ?_, a, S, ?_, ha, hlim, ?_⟩⟩
      · intro k' hk'
        rw [g4 k' hk']
        exact hcre.others k' hk'
      · unfold ChildOf; rw [g8 _ (hcr _).1]; exact d4
      · rw [g8 _ (hcr _).2]; exact d5
      · obtain ⟨it3, e1, e2⟩ := createNewDisk_default hcn
        rw [d1] at e1; cases e1
        have hii : ∀ v, ¬ DiskProp v (instanceId v) := by intro v; unfold DiskProp; cases v <;> decide +kernel
        exact inDefault_of_tab (by rw [g8 _ (hii _)]; exact e2)

end Cot
