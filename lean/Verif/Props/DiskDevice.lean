import Verif.Lemmas.DiskDevice
import Verif.Lemmas.Manifest
import Verif.Props.Hardware
/-
C35: address limits of disk controllers; C36: free addresses for new disks.
-/
namespace Cot

/-! ### C35 -/

theorem splitOnChar_pair {a b : Str} (ha : ':' ∉ a) (hb : ':' ∉ b) : splitOnChar ':' (a ++ ':' :: b) = [a, b] := by
  have := splitOnChar_join (c := ':') (l := [a, b]) (by simp) (by
    intro f hf
    simp only [List.mem_cons, List.not_mem_nil, or_false] at hf
    rcases hf with rfl | rfl <;> assumption)
  simpa [joinWith] using this

theorem digits_no_colon {d : Str} (h : Digits d) : ':' ∉ d := fun hc => absurd (h.2 _ hc) (by decide)

theorem intGt_digits {d : Str} (h : Digits d) (n : Nat) : intGt d n = .ok (decide (digitsVal d > n)) := by
  unfold intGt
  rw [pyInt_digits h]
  simp

theorem eitherGt_digits {a b : Str} (ha : Digits a) (hb : Digits b) (m n : Nat) :
    eitherGt a b m n = .ok (decide (digitsVal a > m ∨ digitsVal b > n)) := by
  unfold eitherGt
  rw [intGt_digits ha, intGt_digits hb]
  by_cases h : digitsVal a > m <;> simp [h]

/-- the validation of a controller type and an address -/
theorem validate_address {c a b : Str} (ha : Digits a) (hb : Digits b) :
    validateControllerAddress (some c) (some (a ++ ':' :: b)) =
      if (c = "scsi".toList ∧ (digitsVal a > 3 ∨ digitsVal b > 15)) ∨
        (c = "ide".toList ∧ (digitsVal a > 1 ∨ digitsVal b > 1)) then .error .invalidInput else .ok () := by
  unfold validateControllerAddress
  simp only [splitOnChar_pair (digits_no_colon ha) (digits_no_colon hb)]
  have e1 : eitherGt a b 3 15 = _ := eitherGt_digits ha hb 3 15
  have e2 : eitherGt a b 1 1 = _ := eitherGt_digits ha hb 1 1
  rw [e1, e2]
  have hne : "scsi".toList ≠ "ide".toList := by decide +kernel
  by_cases h1 : c = "scsi".toList
  · have h2 : c ≠ "ide".toList := by rw [h1]; exact hne
    rw [if_pos h1, if_neg h2]
    by_cases h3 : digitsVal a > 3 ∨ digitsVal b > 15
    · rw [if_pos (Or.inl ⟨h1, h3⟩)]; simp only [h3, decide_true]
    · have : ¬ ((c = "scsi".toList ∧ (digitsVal a > 3 ∨ digitsVal b > 15)) ∨
        (c = "ide".toList ∧ (digitsVal a > 1 ∨ digitsVal b > 1))) := by
        rintro (⟨-, h⟩ | ⟨h, -⟩)
        · exact h3 h
        · exact h2 h
      rw [if_neg this]; simp only [h3, decide_false]
  · rw [if_neg h1]
    by_cases h2 : c = "ide".toList
    · rw [if_pos h2]
      by_cases h3 : digitsVal a > 1 ∨ digitsVal b > 1
      · rw [if_pos (Or.inr ⟨h2, h3⟩)]; simp only [h3, decide_true]
      · have : ¬ ((c = "scsi".toList ∧ (digitsVal a > 3 ∨ digitsVal b > 15)) ∨
          (c = "ide".toList ∧ (digitsVal a > 1 ∨ digitsVal b > 1))) := by
          rintro (⟨h, -⟩ | ⟨-, h⟩)
          · exact h1 h
          · exact h3 h
        rw [if_neg this]; simp only [h3, decide_false]
    · have : ¬ ((c = "scsi".toList ∧ (digitsVal a > 3 ∨ digitsVal b > 15)) ∨
          (c = "ide".toList ∧ (digitsVal a > 1 ∨ digitsVal b > 1))) := by
        rintro (⟨h, -⟩ | ⟨h, -⟩)
        · exact h1 h
        · exact h2 h
      rw [if_neg this, if_neg h2]

theorem addressOk_iff {c : Str} {a b : Nat} : AddressOk c a b ↔
    ¬ ((c = "scsi".toList ∧ (a > 3 ∨ b > 15)) ∨ (c = "ide".toList ∧ (a > 1 ∨ b > 1))) := by
  unfold AddressOk
  constructor
  · rintro ⟨h1, h2⟩ (⟨h, h'⟩ | ⟨h, h'⟩)
    · have := h1 h; omega
    · have := h2 h; omega
  · intro h
    constructor
    · intro hc
      by_contra hx
      exact h (Or.inl ⟨hc, by omega⟩)
    · intro hc
      by_contra hx
      exact h (Or.inr ⟨hc, by omega⟩)

theorem validate_iff {c a b : Str} (ha : Digits a) (hb : Digits b) :
    (AddressOk c (digitsVal a) (digitsVal b) → validateControllerAddress (some c) (some (a ++ ':' :: b)) = .ok ()) ∧
    (¬ AddressOk c (digitsVal a) (digitsVal b) →
      validateControllerAddress (some c) (some (a ++ ':' :: b)) = .error .invalidInput) := by
  rw [validate_address ha hb, addressOk_iff]
  constructor
  · intro h; rw [if_neg h]
  · intro h; rw [if_pos (Classical.not_not.1 h)]

/-- **C35.** For every controller type and every address `a:b`, giving the controller first and then the
address, or the address first and then the controller, has the same outcome: the pair is recorded if it
is within the documented limits, and is refused with InvalidInputError otherwise. -/
theorem C35_order {c a b : Str} (ha : Digits a) (hb : Digits b) :
    let addr := a ++ ':' :: b
    let byAddress := (DiskArgs.mk none none).setAddress (some addr) >>= fun st => st.setController (some c)
    let byController := (DiskArgs.mk none none).setController (some c) >>= fun st => st.setAddress (some addr)
    (AddressOk c (digitsVal a) (digitsVal b) →
      byAddress = .ok ⟨some c, some addr⟩ ∧ byController = .ok ⟨some c, some addr⟩) ∧
    (¬ AddressOk c (digitsVal a) (digitsVal b) →
      byAddress = .error .invalidInput ∧ byController = .error .invalidInput) := by
  obtain ⟨h1, h2⟩ := validate_iff (c := c) ha hb
  constructor
  · intro h
    have e := h1 h
    refine ⟨?_, ?_⟩
    · show (match validateControllerAddress (some c) (some (a ++ ':' :: b)) with
        | .error e => .error e
        | .ok _ => .ok (DiskArgs.mk (some c) (some (a ++ ':' :: b))) : Except Err DiskArgs) = _
      rw [e]
    · show (match validateControllerAddress (some c) (some (a ++ ':' :: b)) with
        | .error e => .error e
        | .ok _ => .ok (DiskArgs.mk (some c) (some (a ++ ':' :: b))) : Except Err DiskArgs) = _
      rw [e]
  · intro h
    have e := h2 h
    refine ⟨?_, ?_⟩
    · show (match validateControllerAddress (some c) (some (a ++ ':' :: b)) with
        | .error e => .error e
        | .ok _ => .ok (DiskArgs.mk (some c) (some (a ++ ':' :: b))) : Except Err DiskArgs) = _
      rw [e]
    · show (match validateControllerAddress (some c) (some (a ++ ':' :: b)) with
        | .error e => .error e
        | .ok _ => .ok (DiskArgs.mk (some c) (some (a ++ ':' :: b))) : Except Err DiskArgs) = _
      rw [e]

/-- one use of a setter by a caller -/
inductive DiskSet where
  | address (v : Option Str)
  | controller (v : Option Str)

/-- a setter that raises leaves the object as it was -/
def DiskArgs.apply (st : DiskArgs) : DiskSet → DiskArgs
  | .address v => match st.setAddress v with
    | .ok st' => st'
    | .error _ => st
  | .controller v => match st.setController v with
    | .ok st' => st'
    | .error _ => st

/-- **C35**, all histories: whatever sequence of settings is tried, with failed ones ignored, the
recorded controller and address are always within the limits. -/
theorem C35_history (ops : List DiskSet)
    (hops : ∀ v, DiskSet.address (some v) ∈ ops → IsDeviceAddress v) :
    let st := ops.foldl DiskArgs.apply ⟨none, none⟩
    ∀ c v, st.controller = some c → st.address = some v →
      ∃ a b, Digits a ∧ Digits b ∧ v = a ++ ':' :: b ∧ AddressOk c (digitsVal a) (digitsVal b) := by
  let Good : DiskArgs → Prop := fun st =>
    (∀ v, st.address = some v → IsDeviceAddress v) ∧
    ∀ c v, st.controller = some c → st.address = some v →
      ∃ a b, Digits a ∧ Digits b ∧ v = a ++ ':' :: b ∧ AddressOk c (digitsVal a) (digitsVal b)
  have hval : ∀ c v, IsDeviceAddress v → validateControllerAddress (some c) (some v) = .ok () →
      ∃ a b, Digits a ∧ Digits b ∧ v = a ++ ':' :: b ∧ AddressOk c (digitsVal a) (digitsVal b) := by
    rintro c v ⟨a, b, ha, hb, rfl⟩ hv
    refine ⟨a, b, ha, hb, rfl, ?_⟩
    by_contra hx
    rw [(validate_iff ha hb).2 hx] at hv
    cases hv
  have step : ∀ (ops : List DiskSet) (st : DiskArgs), Good st →
      (∀ v, DiskSet.address (some v) ∈ ops → IsDeviceAddress v) → Good (ops.foldl DiskArgs.apply st) := by
    intro ops
    induction ops with
    | nil => intro st h _; exact h
    | cons op r ih =>
      intro st h hr
      refine ih _ ?_ (fun v hv => hr v (by simp [hv]))
      cases op with
      | address v =>
        show Good (match st.setAddress v with
          | .ok st' => st'
          | .error _ => st)
        unfold DiskArgs.setAddress
        cases hvd : validateControllerAddress st.controller v with
        | error e => exact h
        | ok u =>
          refine ⟨fun w hw => ?_, fun c w hc hw => ?_⟩
          · simp only at hw; subst hw; exact hr w (by simp)
          · simp only at hw hc; subst hw
            rw [hc] at hvd
            exact hval c w (hr w (by simp)) hvd
      | controller v =>
        show Good (match st.setController v with
          | .ok st' => st'
          | .error _ => st)
        unfold DiskArgs.setController
        cases hvd : validateControllerAddress v st.address with
        | error e => exact h
        | ok u =>
          refine ⟨fun w hw => h.1 w hw, fun c w hc hw => ?_⟩
          simp only at hw hc; subst hc
          rw [hw] at hvd
          exact hval c w (h.1 w hw) hvd
  exact (step ops ⟨none, none⟩ ⟨by simp, by simp⟩ hops).2

/-- non-vacuity: 3:15 is fine for SCSI, 3:16 is not; 1:1 is fine for IDE, 2:0 is not -/
example : AddressOk "scsi".toList 3 15 ∧ ¬ AddressOk "scsi".toList 3 16 ∧ AddressOk "ide".toList 1 1 ∧
    ¬ AddressOk "ide".toList 2 0 ∧ AddressOk "sata".toList 7 99 := by
  simp only [addressOk_iff]
  decide +kernel
example : Digits "3".toList ∧ Digits "15".toList := by unfold Digits; decide

/-! ### C36 -/

theorem hardwareType_scsi {env : Env} {it : Item} : it.hardwareType env = "scsi".toList ↔ OfType it scsiCode := by
  unfold OfType; rw [← getRaw_none_eq]
  unfold Item.hardwareType
  cases h : it.getRaw resourceType none with
  | none => simp only [reduceCtorEq, iff_false]; decide +kernel
  | some v =>
    simp only [Option.some.injEq]
    cases hf : resMap.find? (fun kv => Val.str kv.2 = v) with
    | none =>
      simp only
      have hv : v ≠ .str scsiCode := by
        rintro rfl
        rw [show resMap.find? (fun kv => decide (Val.str kv.2 = Val.str scsiCode)) = some ("scsi".toList, "6".toList) by
          decide +kernel] at hf
        cases hf
      constructor
      · intro h; exfalso
        have := congrArg (List.head?) h
        revert this
        rw [show "unknown (".toList = 'u' :: "nknown (".toList from rfl]
        simp
      · intro h; exact absurd h hv
    | some kv =>
      simp only
      have hm := List.find?_some hf
      have hin := List.mem_of_find?_eq_some hf
      simp only [decide_eq_true_eq] at hm
      subst hm
      have hall : ∀ kv ∈ resMap, kv.1 = "scsi".toList ↔ Val.str kv.2 = .str scsiCode := by decide +kernel
      exact hall kv hin

theorem hardwareType_ide {env : Env} {it : Item} : it.hardwareType env = "ide".toList ↔ OfType it ideCode := by
  unfold OfType; rw [← getRaw_none_eq]
  unfold Item.hardwareType
  cases h : it.getRaw resourceType none with
  | none => simp only [reduceCtorEq, iff_false]; decide +kernel
  | some v =>
    simp only [Option.some.injEq]
    cases hf : resMap.find? (fun kv => Val.str kv.2 = v) with
    | none =>
      simp only
      have hv : v ≠ .str ideCode := by
        rintro rfl
        rw [show resMap.find? (fun kv => decide (Val.str kv.2 = Val.str ideCode)) = some ("ide".toList, "5".toList) by
          decide +kernel] at hf
        cases hf
      constructor
      · intro h; exfalso
        have := congrArg (List.head?) h
        revert this
        rw [show "unknown (".toList = 'u' :: "nknown (".toList from rfl]
        simp
      · intro h; exact absurd h hv
    | some kv =>
      simp only
      have hm := List.find?_some hf
      have hin := List.mem_of_find?_eq_some hf
      simp only [decide_eq_true_eq] at hm
      subst hm
      have hall : ∀ kv ∈ resMap, kv.1 = "ide".toList ↔ Val.str kv.2 = .str ideCode := by decide +kernel
      exact hall kv hin

theorem ofType_scsi_not_ide {c : Item} (h : OfType c scsiCode) : ¬ OfType c ideCode := by
  rintro ⟨T, hT⟩
  obtain ⟨S, hS⟩ := h
  rw [hS] at hT
  simp only [List.cons.injEq, Prod.mk.injEq, Val.str.injEq, and_true] at hT
  exact absurd hT.1 (by decide)

theorem checkDiskLimit_digits {env : Env} {c : Item} {d : Str} (hd : Digits d) :
    (UnitOk c (digitsVal d) → checkDiskLimit (c.hardwareType env) d = .ok ()) ∧
    (¬ UnitOk c (digitsVal d) → checkDiskLimit (c.hardwareType env) d = .error .valueTooHigh) := by
  unfold checkDiskLimit UnitOk
  have e1 : intGt d 15 = _ := intGt_digits hd 15
  have e2 : intGt d 1 = _ := intGt_digits hd 1
  rw [e1, e2]
  by_cases h1 : OfType c scsiCode
  · have h2 := ofType_scsi_not_ide h1
    have g1 := hardwareType_scsi (env := env).2 h1
    have g2 : ¬ c.hardwareType env = "ide".toList := fun h => h2 (hardwareType_ide.1 h)
    rw [if_pos g1, if_neg g2]
    by_cases h3 : digitsVal d > 15
    · simp only [h3, decide_true, reduceCtorEq, imp_false, implies_true, and_true]
      intro h; have := h.1 h1; omega
    · simp only [h3, decide_false, reduceCtorEq, imp_false, implies_true, true_and, Classical.not_not]
      exact ⟨fun _ => by omega, fun h => absurd h h2⟩
  · have g1 : ¬ c.hardwareType env = "scsi".toList := fun h => h1 (hardwareType_scsi.1 h)
    rw [if_neg g1]
    by_cases h2 : OfType c ideCode
    · rw [if_pos (hardwareType_ide.2 h2)]
      by_cases h3 : digitsVal d > 1
      · simp only [h3, decide_true, reduceCtorEq, imp_false, implies_true, and_true]
        intro h; have := h.2 h2; omega
      · simp only [h3, decide_false, reduceCtorEq, imp_false, implies_true, true_and, Classical.not_not]
        exact ⟨fun h => absurd h h1, fun _ => by omega⟩
    · have g2 : ¬ c.hardwareType env = "ide".toList := fun h => h2 (hardwareType_ide.1 h)
      rw [if_neg g2]
      simp only [reduceCtorEq, imp_false, implies_true, true_and, Classical.not_not]
      exact ⟨fun h => absurd h h1, fun h => absurd h h2⟩

theorem driveName_ok {drive : Str} {name : Option Str} {nm : Str} (h : driveName drive name = .ok nm) :
    DriveName drive name nm := by
  cases name with
  | some n => cases h; exact Or.inl rfl
  | none =>
    have e : driveName drive none = (if drive = "cdrom".toList then .ok "CD-ROM Drive".toList
      else if drive = "harddisk".toList then .ok "Hard Disk Drive".toList else .error .valueUnsupported) := rfl
    rw [e] at h
    split at h
    · cases h; exact Or.inr ⟨rfl, Or.inl ⟨by assumption, rfl⟩⟩
    · split at h
      · cases h; exact Or.inr ⟨rfl, Or.inr ⟨by assumption, rfl⟩⟩
      · cases h

/-- the state after the last steps of `_create_new_disk_device` -/
structure DiskCreated (env : Env) (hw hw' : Hw) (id drive addr ctrl : Str) : Prop where
  fresh : id ∉ dkeys hw
  keys : dkeys hw' = dkeys hw ++ [id]
  others : ∀ k, k ≠ id → dget? hw' k = dget? hw k
  wf : HwWF env hw'
  device : ∃ it code, dget? hw' id = some it ∧ resourceCode drive = .ok code ∧ OfType it code ∧ ChildOf it ctrl ∧
    ∃ S, it.tab addressOnParent = [(.str addr, S)]

theorem parent_ne (v : Ver) : parentName ≠ instanceId v ∧ parentName ≠ resourceType ∧ parentName ≠ addressOnParent ∧
    addressOnParent ≠ instanceId v ∧ addressOnParent ≠ resourceType ∧ parentName ≠ elementName v ∧
    addressOnParent ≠ elementName v ∧ parentName ≠ resourceSubType ∧ addressOnParent ≠ resourceSubType := by
  cases v <;> decide +kernel

theorem setProperty_nil {env : Env} {it it' : Item} {n s : Str} {ow : Bool}
    (wf : ItemWF env it) (hpl : Plain env n) (hn : n ≠ resourceSubType) (ht : it.tab n = [])
    (hs : s ≠ []) (h : it.setProperty env n (.str s) ∅ ow = .ok it') :
    it'.tab n = [(.str s, {none})] := by
  obtain ⟨v, h1, wf', h3, h4, -⟩ := setProperty_spec wf h
  rw [normValue_str hn, addWildcards_plain hpl] at h1
  cases h1
  have heff : it.effProfiles n ∅ = {none} := by
    unfold Item.effProfiles Item.allProfiles
    unfold Item.tab at ht
    cases hd : dget? it.props n with
    | none => rfl
    | some t => rw [hd] at ht; simp only [Option.getD_some] at ht; subst ht; rfl
  have htr : (Val.str s).truthy = true := by
    cases s with
    | nil => exact absurd rfl hs
    | cons c t => rfl
  rw [heff, ht, setTab_nil, if_pos htr] at h4
  rw [h4]; rfl

theorem diskCreated_of {env : Env} {hw hw1 : Hw} {id drive addr ctrl : Str} {it it1 it2 : Item}
    (wf : HwWF env hw) (hne : addr ≠ []) (hcne : ctrl ≠ [])
    (hn : newItem env hw drive [] = .ok (id, hw1)) (hg : dget? hw1 id = some it)
    (h1 : it.setProperty env addressOnParent (.str addr) ∅ true = .ok it1)
    (h2 : it1.setProperty env parentName (.str ctrl) ∅ true = .ok it2) :
    DiskCreated env hw (dset hw1 id it2) id drive addr ctrl := by
  obtain ⟨n1, n2, n3, n4, code, it0, n5, n6, n7, -⟩ := C11_new_item wf hn
  rw [n6] at hg; cases hg
  obtain ⟨z, code', it', -, rfl, hf, hc, rfl, w, t1, t2, t3, -⟩ := newItem_spec hn
  rw [dget?_dset, if_pos rfl] at n6; cases n6
  obtain ⟨p1, p2, p3, p4, p5, p6, p7, p8, p9⟩ := parent_ne env.ver
  have a1 := setProperty_nil w (plain_aop env) p9 (t3 _ p4 p5 p7) hne h1
  obtain ⟨_, _, w1, o1, _⟩ := setProperty_spec w h1
  have a2 := setProperty_nil w1 (plain_parent env) p8 (by rw [o1 _ p3, t3 _ p1 p2 p6]) hcne h2
  obtain ⟨_, _, w2, o2, _⟩ := setProperty_spec w1 h2
  have hid : ∀ v S, (v, S) ∈ it2.tab (instanceId env.ver) → v = .str (intStr z) := by
    intro v S hv
    rw [o2 _ p1.symm, o1 _ p4.symm, t1] at hv
    simp only [List.mem_singleton, Prod.mk.injEq] at hv
    exact hv.1
  refine ⟨hf, ?_, ?_, ?_, it2, code', ?_, hc, ?_, ⟨_, a2⟩, {none}, ?_⟩
  · rw [dkeys_dset_mem (by rw [n2]; simp), n2]
  · intro k hk
    rw [dget?_dset, if_neg (Ne.symm hk), dget?_dset, if_neg (Ne.symm hk)]
  · exact n4.replace (by rw [n2]; simp) w2 hid
  · rw [dget?_dset, if_pos rfl]
  · exact ⟨_, by rw [o2 _ p2.symm, o1 _ p5.symm, t2]⟩
  · rw [o2 _ (Ne.symm p3), a1]

/-- What `_create_new_disk_device` does once an address has been settled. -/
theorem create_with {env : Env} {hw hw' : Hw} {drive ctrl id nm : Str} {address name : Option Str} {c : Item}
    (wf : HwWF env hw) (hc : dget? hw ctrl = some c) (hid : c.tab (instanceId env.ver) ≠ [])
    (h : createNewDisk env hw drive address name ctrl = .ok (id, nm, hw')) :
    ∃ a, (address = some a ∨ address = none ∧ ∃ n, a = natStr n ∧ FirstFree (Occupied hw ctrl) n) ∧
      checkDiskLimit (c.hardwareType env) a = .ok () ∧ DriveName drive name nm ∧
      (a ≠ [] → DiskCreated env hw hw' id drive a ctrl) := by
  have hinst : c.getValue env (instanceId env.ver) none = .ok (some (.str ctrl)) := by
    rw [getValue_plain (plain_iid env)]
    obtain ⟨wc, S, hS⟩ := wf.get hc
    have : c.getRaw (instanceId env.ver) none = some (.str ctrl) := by
      rw [getRaw_none_eq]
      unfold tagTab at hS
      by_cases hSe : S = ∅
      · rw [if_pos hSe] at hS; exact absurd hS hid
      · rw [if_neg hSe] at hS; exact ⟨S, hS⟩
    rw [this]
  have hctrl : ctrl ≠ [] := by
    rintro rfl
    rw [getValue_plain (plain_iid env)] at hinst
    obtain ⟨wc, -⟩ := wf.get hc
    simp only [Except.ok.injEq] at hinst
    obtain ⟨S, hS⟩ := getRaw_none_eq.1 hinst
    have := (wc.tab (instanceId env.ver)).truthy (.str []) S (by rw [hS]; simp)
    cases this
  unfold createNewDisk at h
  rw [hc] at h
  simp only [hinst] at h
  obtain ⟨n, hn1, hn2⟩ := freeOnController_spec env hw ctrl
  have key : ∀ a, (match checkDiskLimit (c.hardwareType env) a with
        | .error e => .error e
        | .ok _ => match driveName drive name with
          | .error e => .error e
          | .ok nm => match newItem env hw drive [] with
            | .error e => .error e
            | .ok (id, hw1) => match dget? hw1 id with
              | none => .error .keyError
              | some it => match it.setProperty env addressOnParent (.str a) ∅ true with
                | .error e => .error e
                | .ok it1 => match it1.setProperty env parentName (optIn (some (.str ctrl))) ∅ true with
                  | .error e => .error e
                  | .ok it2 => .ok (id, nm, dset hw1 id it2) : Except Err (Str × Str × Hw)) = .ok (id, nm, hw') →
      checkDiskLimit (c.hardwareType env) a = .ok () ∧ DriveName drive name nm ∧
      (a ≠ [] → DiskCreated env hw hw' id drive a ctrl) := by
    intro a h
    cases h1 : checkDiskLimit (c.hardwareType env) a with
    | error e => rw [h1] at h; cases h
    | ok u =>
      rw [h1] at h; simp only at h
      cases h2 : driveName drive name with
      | error e => rw [h2] at h; cases h
      | ok nm' =>
        rw [h2] at h; simp only at h
        cases h3 : newItem env hw drive [] with
        | error e => rw [h3] at h; cases h
        | ok r =>
          obtain ⟨id', hw1⟩ := r
          rw [h3] at h; simp only at h
          cases h4 : dget? hw1 id' with
          | none => rw [h4] at h; cases h
          | some it =>
            rw [h4] at h; simp only at h
            cases h5 : it.setProperty env addressOnParent (.str a) ∅ true with
            | error e => rw [h5] at h; cases h
            | ok it1 =>
              rw [h5] at h; simp only at h
              cases h6 : it1.setProperty env parentName (optIn (some (.str ctrl))) ∅ true with
              | error e => rw [h6] at h; cases h
              | ok it2 =>
                rw [h6] at h
                simp only [Except.ok.injEq, Prod.mk.injEq] at h
                obtain ⟨rfl, rfl, rfl⟩ := h
                exact ⟨rfl, driveName_ok h2, fun hne => diskCreated_of wf hne hctrl h3 h4 h5 h6⟩
  cases address with
  | some a =>
    simp only at h
    exact ⟨a, Or.inl rfl, key a h⟩
  | none =>
    simp only [hn1] at h
    exact ⟨natStr n, Or.inr ⟨rfl, n, rfl, hn2⟩, key _ h⟩

/-- **C36.** When a disk device is created on a controller without an explicit address, it is attached to
that controller at the smallest address not used by another device of the controller, which is within the
controller's limit; every other device stays as it was. -/
theorem C36_new_disk_partial {env : Env} {hw hw' : Hw} {drive ctrl id nm : Str} {name : Option Str} {c : Item}
    (wf : HwWF env hw) (hc : dget? hw ctrl = some c) (hid : c.tab (instanceId env.ver) ≠ [])
    (h : createNewDisk env hw drive none name ctrl = .ok (id, nm, hw')) :
    ∃ a, FirstFree (Occupied hw ctrl) a ∧ UnitOk c a ∧ DriveName drive name nm ∧
      DiskCreated env hw hw' id drive (natStr a) ctrl := by
  obtain ⟨s, h1, h2, h3, h4⟩ := create_with wf hc hid h
  rcases h1 with h1 | ⟨-, n, rfl, hn⟩
  · cases h1
  · refine ⟨n, hn, ?_, h3, h4 (natStr_ne_nil n)⟩
    by_contra hx
    have := (checkDiskLimit_digits (env := env) (c := c) (digits_natStr n)).2 (by rw [digitsVal_natStr]; exact hx)
    rw [this] at h2; cases h2

/-- C36, a full controller: creation fails with ValueTooHighError exactly when the smallest free address
is beyond the controller's limit, and then the collection is not touched; otherwise it succeeds for every
known drive type. -/
theorem C36_full {env : Env} {hw : Hw} {drive ctrl : Str} {name : Option Str} {c : Item}
    (wf : HwWF env hw) (hc : dget? hw ctrl = some c) (hid : c.tab (instanceId env.ver) ≠ []) {a : Nat}
    (ha : FirstFree (Occupied hw ctrl) a) :
    (¬ UnitOk c a → createNewDisk env hw drive none name ctrl = .error .valueTooHigh) ∧
    (UnitOk c a → (drive = "harddisk".toList ∨ drive = "cdrom".toList) →
      ∃ r, createNewDisk env hw drive none name ctrl = .ok r) := by
  have hinst : c.getValue env (instanceId env.ver) none = .ok (some (.str ctrl)) := by
    rw [getValue_plain (plain_iid env)]
    obtain ⟨wc, S, hS⟩ := wf.get hc
    have : c.getRaw (instanceId env.ver) none = some (.str ctrl) := by
      rw [getRaw_none_eq]
      unfold tagTab at hS
      by_cases hSe : S = ∅
      · rw [if_pos hSe] at hS; exact absurd hS hid
      · rw [if_neg hSe] at hS; exact ⟨S, hS⟩
    rw [this]
  obtain ⟨n, hn1, hn2⟩ := freeOnController_spec env hw ctrl
  have hna : n = a := by
    rcases Nat.lt_trichotomy n a with h | h | h
    · exact absurd (ha.2 n h) hn2.1
    · exact h
    · exact absurd (hn2.2 a h) ha.1
  subst hna
  unfold createNewDisk
  rw [hc]
  simp only [hinst, hn1]
  have hl := checkDiskLimit_digits (env := env) (c := c) (digits_natStr n)
  rw [digitsVal_natStr] at hl
  constructor
  · intro hx
    rw [hl.2 hx]
  · intro hok hd
    rw [hl.1 hok]
    simp only
    obtain ⟨nm, hnm⟩ : ∃ nm, driveName drive name = .ok nm := by
      cases name with
      | some x => exact ⟨x, rfl⟩
      | none => rcases hd with rfl | rfl <;> exact ⟨_, rfl⟩
    obtain ⟨code, hcode⟩ : ∃ code, resourceCode drive = .ok code := by
      rcases hd with rfl | rfl <;> exact ⟨_, rfl⟩
    obtain ⟨id, hw1, h3⟩ := newItem_ok (env := env) hw [] hcode
    rw [hnm]; simp only [h3]
    obtain ⟨z, code', it', -, rfl, hf, -, rfl, w, t1, t2, t3, -⟩ := newItem_spec h3
    rw [dget?_dset, if_pos rfl]
    simp only
    obtain ⟨p1, p2, p3, p4, p5, p6, p7, p8, p9⟩ := parent_ne env.ver
    obtain ⟨it1, h5⟩ := setProperty_ok w (.str (natStr n)) ∅ (plain_aop env) p4 p5
    obtain ⟨_, _, w1, -⟩ := setProperty_spec w h5
    obtain ⟨it2, h6⟩ := setProperty_ok w1 (optIn (some (.str ctrl))) ∅ (plain_parent env) p1 p2
    rw [h5]; simp only [h6]
    exact ⟨_, rfl⟩

/-- C36, explicit addresses: an address the user asks for is used if it is within the limit and refused
otherwise. -/
theorem C36_explicit {env : Env} {hw : Hw} {drive ctrl a : Str} {name : Option Str} {c : Item}
    (wf : HwWF env hw) (hc : dget? hw ctrl = some c) (hid : c.tab (instanceId env.ver) ≠ []) (ha : Digits a) :
    (∀ r, createNewDisk env hw drive (some a) name ctrl = .ok r → UnitOk c (digitsVal a) ∧
      DiskCreated env hw r.2.2 r.1 drive a ctrl) ∧
    (¬ UnitOk c (digitsVal a) → createNewDisk env hw drive (some a) name ctrl = .error .valueTooHigh) := by
  constructor
  · rintro ⟨id, nm, hw'⟩ h
    obtain ⟨s, h1, h2, h3, h4⟩ := create_with wf hc hid h
    rcases h1 with h1 | ⟨h1, -⟩
    · cases h1
      refine ⟨?_, h4 ha.1⟩
      by_contra hx
      rw [(checkDiskLimit_digits (env := env) (c := c) ha).2 hx] at h2; cases h2
    · cases h1
  · intro hx
    unfold createNewDisk
    rw [hc]
    simp only
    rw [getValue_plain (plain_iid env)]
    simp only
    rw [(checkDiskLimit_digits (env := env) (c := c) ha).2 hx]

theorem resourceCode_scsi_iff {rt code : Str} (h : resourceCode rt = .ok code) :
    (rt = "scsi".toList ↔ code = scsiCode) ∧ (rt = "ide".toList ↔ code = ideCode) := by
  have hall : ∀ kv ∈ resMap, (kv.1 = "scsi".toList ↔ kv.2 = scsiCode) ∧ (kv.1 = "ide".toList ↔ kv.2 = ideCode) := by
    decide +kernel
  exact hall (rt, code) (dget?_mem (resourceCode_ok h))

theorem openLoop_spec {env : Env} {hw : Hw} {rt code : Str} (wf : HwWF env hw) (hcode : resourceCode rt = .ok code) :
    ∀ (ids : List Str), (∀ id ∈ ids, ∃ c, dget? hw id = some c ∧ c.tab (instanceId env.ver) ≠ []) →
    ∃ r, openLoop env hw rt ids = .ok r ∧
      (r = none → ∀ id ∈ ids, ∀ a, ¬ OpenAt hw code id a) ∧
      (∀ id s, r = some (id, s) → ∃ pre post a c, ids = pre ++ id :: post ∧ OpenAt hw code id a ∧
        (∀ id' ∈ pre, ∀ b, ¬ OpenAt hw code id' b) ∧ dget? hw id = some c ∧
        ∀ ca S, c.tab address = [(.str ca, S)] → s = ca ++ ':' :: natStr a)
  | [], _ => ⟨none, rfl, by simp, by simp⟩
  | id :: r, h => by
    obtain ⟨c, hc, hid⟩ := h id (by simp)
    obtain ⟨r', hr1, hr2, hr3⟩ := openLoop_spec wf hcode r (fun x hx => h x (by simp [hx]))
    have hinst : c.getValue env (instanceId env.ver) none = .ok (some (.str id)) := by
      rw [getValue_plain (plain_iid env)]
      obtain ⟨wc, S, hS⟩ := wf.get hc
      have : c.getRaw (instanceId env.ver) none = some (.str id) := by
        rw [getRaw_none_eq]
        unfold tagTab at hS
        by_cases hSe : S = ∅
        · rw [if_pos hSe] at hS; exact absurd hS hid
        · rw [if_neg hSe] at hS; exact ⟨S, hS⟩
      rw [this]
    obtain ⟨n, hn1, hn2⟩ := freeOnController_spec env hw id
    obtain ⟨e1, e2⟩ := resourceCode_scsi_iff hcode
    have huniq : ∀ a, FirstFree (Occupied hw id) a → a = n := by
      intro a ha
      rcases Nat.lt_trichotomy n a with h | h | h
      · exact absurd (ha.2 n h) hn2.1
      · exact h.symm
      · exact absurd (hn2.2 a h) ha.1
    unfold openLoop
    rw [hc]
    simp only [hinst, getValue_plain (plain_address env), hn1]
    by_cases hfull : (rt = "scsi".toList ∧ n > 7) ∨ (rt = "ide".toList ∧ n > 1)
    · rw [if_pos hfull]
      have hno : ∀ a, ¬ OpenAt hw code id a := by
        rintro a ⟨ha, h1, h2⟩
        have := huniq a ha; subst this
        rcases hfull with ⟨h3, h4⟩ | ⟨h3, h4⟩
        · have := h1 (e1.1 h3); omega
        · have := h2 (e2.1 h3); omega
      refine ⟨r', hr1, ?_, ?_⟩
      · intro hr x hx
        rcases List.mem_cons.1 hx with rfl | hx
        · exact hno
        · exact hr2 hr x hx
      · intro x s hx
        obtain ⟨pre, post, a, c', h1, h2, h3, h4⟩ := hr3 x s hx
        refine ⟨id :: pre, post, a, c', by rw [h1]; rfl, h2, ?_, h4⟩
        intro y hy
        rcases List.mem_cons.1 hy with rfl | hy
        · exact hno
        · exact h3 y hy
    · rw [if_neg hfull]
      refine ⟨_, rfl, by simp, ?_⟩
      intro x s hx
      simp only [Option.some.injEq, Prod.mk.injEq] at hx
      obtain ⟨rfl, rfl⟩ := hx
      refine ⟨[], r, n, c, rfl, ⟨hn2, ?_, ?_⟩, by simp, hc, ?_⟩
      · intro h3
        by_contra hx
        exact hfull (Or.inl ⟨e1.2 h3, by omega⟩)
      · intro h3
        by_contra hx
        exact hfull (Or.inr ⟨e2.2 h3, by omega⟩)
      · intro ca S hS
        rw [getRaw_none_eq.2 ⟨S, hS⟩]
        rfl

/-- C36, choice of a controller: `find_open_controller(type)` returns the first controller of the type (in
natural order of InstanceID) that has a free slot, with the address `<controller>:<first free slot>`; it
returns nothing exactly when every controller of the type is full.  A SCSI controller counts as full once
units 0 to 7 are taken. -/
theorem C36_open_controller_partial {env : Env} {hw : Hw} {rt code : Str} (wf : HwWF env hw)
    (hcode : resourceCode rt = .ok code)
    (hids : ∀ id it, dget? hw id = some it → OfType it code → it.tab (instanceId env.ver) ≠ []) :
    ∃ r, findOpenController env hw rt = .ok r ∧
      (r = none ↔ ∀ id it, dget? hw id = some it → OfType it code → ∀ a, ¬ OpenAt hw code id a) ∧
      (∀ id s, r = some (id, s) → ∃ c a, dget? hw id = some c ∧ OfType c code ∧ OpenAt hw code id a ∧
        (∀ ca S, c.tab address = [(.str ca, S)] → s = ca ++ ':' :: natStr a) ∧
        ∀ id' it', dget? hw id' = some it' → OfType it' code → ¬ NatLe id id' → ∀ b, ¬ OpenAt hw code id' b) := by
  obtain ⟨ids, hf⟩ := findAllItems_ok (env := env) (hw := hw) hcode
  obtain ⟨hnd, hsorted, hcases⟩ := findAllItems_spec wf.keys (resourceCode_ne hcode).1 hf
  have hmem : ∀ id, id ∈ ids ↔ ∃ it, dget? hw id = some it ∧ OfType it code := by
    rcases hcases with ⟨rfl, rfl⟩ | ⟨code', hc', hm⟩
    · intro id; simp [dget?]
    · rw [hcode] at hc'; cases hc'; exact hm
  obtain ⟨r, hr1, hr2, hr3⟩ := openLoop_spec wf hcode ids (fun id hid => by
    obtain ⟨it, h1, h2⟩ := (hmem id).1 hid
    exact ⟨it, h1, hids id it h1 h2⟩)
  refine ⟨r, by unfold findOpenController; rw [hf]; exact hr1, ?_, ?_⟩
  · constructor
    · intro hr id it h1 h2
      exact hr2 hr id ((hmem id).2 ⟨it, h1, h2⟩)
    · intro hall
      match r, hr3 with
      | none, _ => rfl
      | some (id, s), hr3 =>
        exfalso
        obtain ⟨pre, post, a, c, h1, h2, -, h4, -⟩ := hr3 id s rfl
        obtain ⟨it, h5, h6⟩ := (hmem id).1 (by rw [h1]; simp)
        exact hall id it h5 h6 a h2
  · intro id s hr
    obtain ⟨pre, post, a, c, h1, h2, h3, h4, h5⟩ := hr3 id s hr
    obtain ⟨it, h6, h7⟩ := (hmem id).1 (by rw [h1]; simp)
    rw [h4] at h6; cases h6
    refine ⟨c, a, h4, h7, h2, h5, ?_⟩
    intro id' it' h8 h9 hle
    have hin := (hmem id').2 ⟨it', h8, h9⟩
    rw [h1] at hin hsorted
    rw [List.mem_append, List.mem_cons] at hin
    rcases hin with hin | rfl | hin
    · exact h3 id' hin
    · exact h3 id' (absurd (natKeyLe_refl _) hle)
    · exfalso
      rw [List.pairwise_append, List.pairwise_cons] at hsorted
      exact hle (hsorted.2.1.1 id' hin)

theorem checkCtrlLimit_ok {rt code d : Str} (hc : resourceCode rt = .ok code) (hd : Digits d)
    (h : checkCtrlLimit rt d = .ok ()) : CtrlOk code (digitsVal d) := by
  unfold checkCtrlLimit at h
  obtain ⟨e1, e2⟩ := resourceCode_scsi_iff hc
  have g1 : intGt d 3 = _ := intGt_digits hd 3
  have g2 : intGt d 1 = _ := intGt_digits hd 1
  rw [g1, g2] at h
  constructor
  · intro hs
    have h1 := e1.2 hs
    rw [if_pos h1] at h
    by_contra hx
    have : digitsVal d > 3 := by omega
    simp only [this, decide_true] at h
    cases h
  · intro hs
    have h1 := e2.2 hs
    have h2 : ¬ rt = "scsi".toList := by rw [h1]; decide +kernel
    rw [if_neg h2, if_pos h1] at h
    by_contra hx
    have : digitsVal d > 1 := by omega
    simp only [this, decide_true] at h
    cases h

theorem address_ne (v : Ver) : address ≠ instanceId v ∧ address ≠ resourceType ∧ address ≠ elementName v ∧
    address ≠ itemDescription ∧ address ≠ resourceSubType ∧ itemDescription ≠ instanceId v ∧
    itemDescription ≠ resourceType := by cases v <;> decide +kernel

/-- C36, new controllers: a controller created without an explicit address gets the smallest address no
controller of its type has, within the limit (0-3 for SCSI, 0-1 for IDE); an explicit address is used as
it is, within the same limit; no other device changes. -/
theorem C36_new_controller {env : Env} {hw hw' : Hw} {rt id : Str} {addr : Option Str} (wf : HwWF env hw)
    (haddr : ∀ a, addr = some a → Digits a)
    (h : newController env hw rt addr = .ok (id, hw')) :
    id ∉ dkeys hw ∧ dkeys hw' = dkeys hw ++ [id] ∧ (∀ k, k ≠ id → dget? hw' k = dget? hw k) ∧ HwWF env hw' ∧
    ∃ it code a, dget? hw' id = some it ∧ resourceCode rt = .ok code ∧ OfType it code ∧
      (∃ S, it.tab address = [(.str a, S)]) ∧ CtrlOk code (digitsVal a) ∧
      (addr = some a ∨ addr = none ∧ ∃ n, a = natStr n ∧ FirstFree (CtrlAddress hw code) n) := by
  unfold newController at h
  cases h3 : newItem env hw rt [] with
  | error e => rw [h3] at h; cases h
  | ok r =>
    obtain ⟨id', hw1⟩ := r
    rw [h3] at h; simp only at h
    obtain ⟨n1, n2, n3, n4, -⟩ := C11_new_item wf h3
    obtain ⟨z, code, it, -, rfl, hf, hc, rfl, w, t1, t2, t3, -⟩ := newItem_spec h3
    obtain ⟨p1, p2, p3, p4, p5, p6, p7⟩ := address_ne env.ver
    have ta : it.tab address = [] := t3 _ p1 p2 p3
    cases h4 : controllerAddress env (dset hw (intStr z) it) rt addr with
    | error e => rw [h4] at h; cases h
    | ok a =>
      rw [h4] at h; simp only at h
      cases h5 : checkCtrlLimit rt a with
      | error e => rw [h5] at h; cases h
      | ok u =>
        rw [h5] at h; simp only [dget?_dset, if_pos] at h
        cases h6 : fillController env rt a it with
        | error e => rw [h6] at h; cases h
        | ok it3 =>
          rw [h6] at h
          simp only [Except.ok.injEq, Prod.mk.injEq] at h
          obtain ⟨rfl, rfl⟩ := h
          -- the address
          have hchoice : Digits a ∧
              (addr = some a ∨ addr = none ∧ ∃ n, a = natStr n ∧ FirstFree (CtrlAddress hw code) n) := by
            cases addr with
            | some b => cases h4; exact ⟨haddr _ rfl, Or.inl rfl⟩
            | none =>
              unfold controllerAddress at h4
              obtain ⟨ids, hi⟩ := findAllItems_ok (env := env) (hw := dset hw (intStr z) it) hc
              obtain ⟨hnd, hsorted, hcases⟩ := findAllItems_spec n4.keys (resourceCode_ne hc).1 hi
              have hmem : ∀ id, id ∈ ids ↔ ∃ it', dget? (dset hw (intStr z) it) id = some it' ∧ OfType it' code := by
                rcases hcases with ⟨h0, -⟩ | ⟨code', hc', hm⟩
                · have := congrArg dkeys h0; rw [n2] at this; simp [dkeys] at this
                · rw [hc] at hc'; cases hc'; exact hm
              obtain ⟨vs, hv1, hv2⟩ := valuesOf_ok (hw := dset hw (intStr z) it) (plain_address env) ids (fun id hid => by
                obtain ⟨it, h, -⟩ := (hmem id).1 hid; exact ⟨it, h⟩)
              rw [hi] at h4; simp only [hv1] at h4
              cases h4
              refine ⟨digits_natStr _, Or.inr ⟨rfl, _, rfl, (freeAddress_spec vs).congr ?_⟩⟩
              intro b
              rw [hv2]
              constructor
              · rintro ⟨k, hk, itk, hg, hr⟩
                obtain ⟨it', hg', ht'⟩ := (hmem k).1 hk
                rw [hg] at hg'; cases hg'
                by_cases hkz : k = intStr z
                · subst hkz
                  rw [dget?_dset, if_pos rfl] at hg; cases hg
                  rw [getRaw_nil ta] at hr; cases hr
                · rw [dget?_dset, if_neg (Ne.symm hkz)] at hg
                  exact ⟨k, itk, hg, ht', getRaw_none_eq.1 hr⟩
              · rintro ⟨k, itk, hg, ht, hr⟩
                have hkz : k ≠ intStr z := by
                  rintro rfl; exact n1 (mem_dkeys_of_dget? hg)
                have hg' : dget? (dset hw (intStr z) it) k = some itk := by
                  rw [dget?_dset, if_neg (Ne.symm hkz)]; exact hg
                exact ⟨k, (hmem k).2 ⟨itk, hg', ht⟩, itk, hg', getRaw_none_eq.2 hr⟩
          obtain ⟨hdig, hch⟩ := hchoice
          -- the properties
          unfold fillController at h6
          cases f1 : it.setProperty env address (.str a) ∅ true with
          | error e => rw [f1] at h6; cases h6
          | ok it1 =>
            rw [f1] at h6; simp only at h6
            cases f2 : it1.setProperty env (elementName env.ver) (.str (upper rt ++ " Controller".toList)) ∅ true with
            | error e => rw [f2] at h6; cases h6
            | ok it2 =>
              rw [f2] at h6; simp only at h6
              have a1 := setProperty_nil w (plain_address env) p5 ta hdig.1 f1
              obtain ⟨_, _, w1, o1, _⟩ := setProperty_spec w f1
              obtain ⟨_, _, w2, o2, _⟩ := setProperty_spec w1 f2
              obtain ⟨_, _, w3, o3, _⟩ := setProperty_spec w2 h6
              obtain ⟨q1, q2⟩ := en_ne env.ver
              have hid : ∀ v S, (v, S) ∈ it3.tab (instanceId env.ver) → v = .str (intStr z) := by
                intro v S hv
                rw [o3 _ p6.symm, o2 _ q1.symm, o1 _ p1.symm, t1] at hv
                simp only [List.mem_singleton, Prod.mk.injEq] at hv
                exact hv.1
              refine ⟨n1, ?_, ?_, ?_, it3, code, a, ?_, hc, ?_, ?_, checkCtrlLimit_ok hc hdig h5, hch⟩
              · rw [dkeys_dset_mem (by rw [n2]; simp), n2]
              · intro k hk
                rw [dget?_dset, if_neg (Ne.symm hk), dget?_dset, if_neg (Ne.symm hk)]
              · exact n4.replace (by rw [n2]; simp) w3 hid
              · rw [dget?_dset, if_pos rfl]
              · exact ⟨_, by rw [o3 _ p7.symm, o2 _ q2.symm, o1 _ p2.symm, t2]⟩
              · exact ⟨_, by rw [o3 _ p4, o2 _ p3, a1]⟩

/-! ### examples -/

/-- an item with one value per property, for the default profile -/
def simpleItem (l : List (Str × Str)) : Item :=
  { props := l.map (fun kv => (kv.1, [(Val.str kv.2, {none})])), ns := rasd, modified := false }

theorem simpleItem_tab {l : List (Str × Str)} (n : Str) :
    (simpleItem l).tab n = match dget? l n with
      | none => []
      | some s => [(.str s, {none})] := by
  unfold Item.tab simpleItem
  simp only
  induction l with
  | nil => rfl
  | cons a r ih =>
    simp only [List.map_cons, dget?]
    by_cases h : a.1 = n
    · simp [h]
    · simpa [h] using ih

theorem simpleItem_wf (env : Env) {l : List (Str × Str)} (hk : (dkeys l).Nodup)
    (hv : ∀ n s, (n, s) ∈ l → s ≠ [] ∧ n ≠ resourceSubType) : ItemWF env (simpleItem l) := by
  have one : ∀ s : Str, s ≠ [] → TabWF [(Val.str s, {none})] := by
    intro s hs
    have ht : (Val.str s).truthy = true := by
      cases s with
      | nil => exact absurd rfl hs
      | cons c t => rfl
    refine ⟨by simp [dkeys], ?_, ?_, ?_, ?_⟩
    · intro w T h; simp at h; rw [h.1]; exact ht
    · intro w T h; simp at h; rw [h.2]; simp
    · intro p a b ha hb; rw [explicit_singleton] at ha hb; rw [ha.1, hb.1]
    · intro w T h; simp at h; rw [h.2]; simp
  have hlen : ∀ n, ((simpleItem l).tab n).length ≤ 1 := by
    intro n; rw [simpleItem_tab]; cases dget? l n <;> simp
  refine ⟨?_, ?_, hlen _, hlen _, ?_⟩
  · simpa [simpleItem, dkeys, Function.comp_def] using hk
  · intro n t h
    simp only [simpleItem, List.mem_map] at h
    obtain ⟨⟨k, s⟩, hm, he⟩ := h
    simp only [Prod.mk.injEq] at he
    obtain ⟨rfl, rfl⟩ := he
    exact one s (hv k s hm).1
  · intro n v S h
    rw [simpleItem_tab] at h
    cases hg : dget? l n with
    | none => rw [hg] at h; simp at h
    | some s =>
      rw [hg] at h
      simp only [List.mem_singleton, Prod.mk.injEq] at h
      obtain ⟨rfl, rfl⟩ := h
      simp only [Val.isTup]
      have := (hv n s (dget?_mem hg)).2
      simp [this]

theorem simpleHw_wf (env : Env) {hw : List (Str × List (Str × Str))} (hk : (dkeys hw).Nodup)
    (hv : ∀ id l, (id, l) ∈ hw → (dkeys l).Nodup ∧ (∀ n s, (n, s) ∈ l → s ≠ [] ∧ n ≠ resourceSubType) ∧
      dget? l (instanceId env.ver) = some id) :
    HwWF env (hw.map (fun kv => (kv.1, simpleItem kv.2))) := by
  refine ⟨by simpa [dkeys, Function.comp_def] using hk, ?_, ?_⟩
  · intro id it h
    simp only [List.mem_map, Prod.mk.injEq] at h
    obtain ⟨⟨k, l⟩, hm, rfl, rfl⟩ := h
    exact simpleItem_wf env (hv k l hm).1 (hv k l hm).2.1
  · intro id it h v S hvS
    simp only [List.mem_map, Prod.mk.injEq] at h
    obtain ⟨⟨k, l⟩, hm, rfl, rfl⟩ := h
    rw [simpleItem_tab, (hv k l hm).2.2] at hvS
    simp only [List.mem_singleton, Prod.mk.injEq] at hvS
    exact hvS.1

/-- an IDE controller 5 with a disk 9 at address 0, and a SCSI controller 6 -/
def exDisksL : List (Str × List (Str × Str)) :=
  [("5".toList, [("InstanceID".toList, "5".toList), ("ResourceType".toList, "5".toList), ("Address".toList, "1".toList)]),
   ("6".toList, [("InstanceID".toList, "6".toList), ("ResourceType".toList, "6".toList), ("Address".toList, "0".toList)]),
   ("9".toList, [("InstanceID".toList, "9".toList), ("ResourceType".toList, "17".toList),
     ("Parent".toList, "5".toList), ("AddressOnParent".toList, "0".toList)])]

def exDisks : Hw := exDisksL.map (fun kv => (kv.1, simpleItem kv.2))

theorem exDisks_wf : HwWF exEnv exDisks := simpleHw_wf exEnv (by decide +kernel) (by
  have : ∀ kl ∈ exDisksL, (dkeys kl.2).Nodup ∧ (∀ ns ∈ kl.2, ns.2 ≠ [] ∧ ns.1 ≠ resourceSubType) ∧
      dget? kl.2 (instanceId exEnv.ver) = some kl.1 := by decide +kernel
  intro id l h
  obtain ⟨h1, h2, h3⟩ := this _ h
  exact ⟨h1, fun n s hm => h2 _ hm, h3⟩)

/-- non-vacuity of C36: a new disk on controller 5 gets address 1; the next one does not fit; a disk on
controller 6 gets address 0. -/
example : ∃ hw' c, createNewDisk exEnv exDisks "harddisk".toList none none "5".toList =
      .ok ("1".toList, "Hard Disk Drive".toList, hw') ∧ HwWF exEnv exDisks ∧
    dget? exDisks "5".toList = some c ∧ c.tab (instanceId exEnv.ver) ≠ [] ∧
    (∃ it, dget? hw' "1".toList = some it ∧ it.getValue exEnv addressOnParent none = .ok (some (.str "1".toList))) ∧
    createNewDisk exEnv hw' "cdrom".toList none none "5".toList = .error .valueTooHigh ∧
    (∃ hw'' it, createNewDisk exEnv hw' "cdrom".toList none none "6".toList =
      .ok ("2".toList, "CD-ROM Drive".toList, hw'') ∧ dget? hw'' "2".toList = some it ∧
      it.getValue exEnv addressOnParent none = .ok (some (.str "0".toList))) :=
  ⟨_, _, rfl, exDisks_wf, rfl, by decide +kernel, ⟨_, rfl, rfl⟩, rfl, ⟨_, _, rfl, rfl, rfl⟩⟩

/-- non-vacuity of the controller theorems: IDE controller 5 (address 1) has room for unit 1; a new SCSI
controller gets address 1, a new IDE controller address 0. -/
example : findOpenController exEnv exDisks "ide".toList = .ok (some ("5".toList, "1:1".toList)) ∧
    findOpenController exEnv exDisks "sata".toList = .ok none ∧
    (∃ hw' it, newController exEnv exDisks "scsi".toList none = .ok ("1".toList, hw') ∧ dget? hw' "1".toList = some it ∧
      it.getValue exEnv address none = .ok (some (.str "1".toList))) ∧
    (∃ hw' it, newController exEnv exDisks "ide".toList none = .ok ("1".toList, hw') ∧ dget? hw' "1".toList = some it ∧
      it.getValue exEnv address none = .ok (some (.str "0".toList))) :=
  ⟨rfl, rfl, ⟨_, _, rfl, rfl, rfl⟩, ⟨_, _, rfl, rfl, rfl⟩⟩

/-- A disk of controller 5 in profile x and of controller 6 in profile y, at address 0 of either. -/
def exSplitDisk : Item :=
  { props := [("InstanceID".toList, [(.str "9".toList, {pX, pY})]),
      ("ResourceType".toList, [(.str "17".toList, {pX, pY})]),
      ("Parent".toList, [(.str "5".toList, {pX}), (.str "6".toList, {pY})]),
      ("AddressOnParent".toList, [(.str "0".toList, {pX, pY})])],
    ns := rasd, modified := false }

/-- What C36's reading of "used by another device" leaves out: a device attached to different controllers
in different profiles is overlooked, so the new disk is put at the address this device has in profile x. -/
theorem C36_per_profile_parent_fails :
    let hw : Hw := [("5".toList, simpleItem [("InstanceID".toList, "5".toList), ("ResourceType".toList, "5".toList)]),
      ("9".toList, exSplitDisk)]
    exSplitDisk.getValue exEnv parentName (some {pX}) = .ok (some (.str "5".toList)) ∧
    exSplitDisk.getValue exEnv addressOnParent (some {pX}) = .ok (some (.str "0".toList)) ∧
    ∃ id nm hw' it, createNewDisk exEnv hw "harddisk".toList none none "5".toList = .ok (id, nm, hw') ∧
      dget? hw' id = some it ∧ it.getValue exEnv parentName (some {pX}) = .ok (some (.str "5".toList)) ∧
      it.getValue exEnv addressOnParent (some {pX}) = .ok (some (.str "0".toList)) := by
  refine ⟨rfl, rfl, _, _, _, _, rfl, rfl, rfl, rfl⟩

end Cot
