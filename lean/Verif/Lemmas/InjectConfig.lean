import Verif.Spec.InjectConfig
import Verif.Props.PackageDiskCases
/-
Lemmas about inject-config: the choice of the drive and its location.
-/
namespace Cot

theorem bootstrap_cases (pl : Plat) :
    (BootsFromDisk pl ∧ bootstrapDrive pl = "harddisk".toList) ∨ (¬ BootsFromDisk pl ∧ bootstrapDrive pl = "cdrom".toList) := by
  cases pl <;> first
    | exact Or.inl ⟨rfl, rfl⟩
    | exact Or.inr ⟨by unfold BootsFromDisk; exact fun h => Plat.noConfusion h, rfl⟩

theorem configDiskName_eq (pl : Plat) : configDiskName (bootstrapDrive pl) = injectedName pl := by
  cases pl <;> rfl

theorem drive_code (pl : Plat) : DriveCode (bootstrapDrive pl) (injectedCode pl) := by
  cases pl <;> first
    | exact Or.inl ⟨rfl, rfl⟩
    | exact Or.inr ⟨rfl, rfl⟩

theorem icTarget_inv {env : Env} {over : Option Str → Bool} {p : Pkg} {drive : Str} {fid : Option Str} {d : Str}
    (h : icTarget env over p drive = .ok (fid, d)) :
    ∃ r, searchFromFilename env p (some (configDiskName drive)) = .ok r ∧
      ((∃ i, r.file = some i ∧ fid = attrOf p.refs.children i (fileId env.ver) ∧ over fid = true ∧ r.dev = some d) ∨
        (r.file = none ∧ fid = none ∧ findEmptyDrive env p drive = .ok (some d))) := by
  unfold icTarget at h
  obtain ⟨r, hr, h⟩ := bind_ok_inv h
  obtain ⟨t, ht, h⟩ := bind_ok_inv h
  have hr' : searchFromFilename env p (some (configDiskName drive)) = .ok r := by
    split at hr
    · exact hr
    · cases hr
  refine ⟨r, hr', ?_⟩
  cases hf : r.file with
  | some i =>
    rw [hf] at ht
    simp only at ht
    split at ht
    · rename_i hov
      cases ht
      simp only at h
      cases hd : r.dev with
      | none => rw [hd] at h; cases h
      | some d' =>
        rw [hd] at h; cases h
        exact Or.inl ⟨i, rfl, rfl, hov, rfl⟩
    · cases ht
  | none =>
    rw [hf] at ht
    simp only at ht
    cases hd : findEmptyDrive env p drive with
    | error e => rw [hd] at ht; cases ht
    | ok o =>
      rw [hd] at ht; cases ht
      simp only at h
      cases o with
      | none => cases h
      | some d' => cases h; exact Or.inr ⟨rfl, rfl, rfl⟩

theorem getRaw_none_none {it : Item} {n : Str} : it.getRaw n none = none ↔ ∀ v S, it.tab n ≠ [(v, S)] := by
  constructor
  · intro h v S hv
    have := (getRaw_none_eq (it := it) (n := n) (v := v)).2 ⟨S, hv⟩
    rw [h] at this; cases this
  · intro h
    cases hr : it.getRaw n none with
    | none => rfl
    | some v =>
      obtain ⟨S, hS⟩ := getRaw_none_eq.1 hr
      exact absurd hS (h v S)

theorem findEmptyDrive_inv {env : Env} {p : Pkg} {pl : Plat} {d : Str}
    (h : findEmptyDrive env p (bootstrapDrive pl) = .ok (some d)) :
    ∃ it, dget? p.hw d = some it ∧ EmptyDrive env p pl it ∧ (BootsFromDisk pl → InDefault env it) := by
  unfold findEmptyDrive at h
  rcases bootstrap_cases pl with ⟨hb, hd⟩ | ⟨hb, hd⟩
  · rw [hd] at h
    rw [if_neg (by decide), if_pos rfl] at h
    cases hp : positions (entryIs (diskTag env.ver) (diskFileRef env.ver) none) p.diskList 0 with
    | nil => rw [hp] at h; cases h
    | cons j t =>
      rw [hp] at h
      simp only at h
      obtain ⟨j', e, did, it, h1, h2, h3, h4, h5, h6⟩ := findItemFromDisk_some h
      cases h1
      have hj : j ∈ positions (entryIs (diskTag env.ver) (diskFileRef env.ver) none) p.diskList 0 := by rw [hp]; simp
      obtain ⟨j2, e2, g1, g2, g3⟩ := mem_positions.1 hj
      have hjj : j = j2 := by omega
      subst hjj
      rw [h2] at g2
      cases g2
      simp only [entryIs, Bool.and_eq_true, beq_iff_eq] at g3
      exact ⟨it, h4, Or.inr ⟨hb, e, List.mem_of_getElem? h2, g3.1, g3.2, did, h3, h6⟩, fun _ => h5⟩
  · rw [hd] at h
    rw [if_pos rfl] at h
    cases hf : findAllItems env p.hw (some "cdrom".toList) [(hostResource, none)] [] with
    | error e => rw [hf] at h; cases h
    | ok ids =>
      rw [hf] at h
      simp only [Except.ok.injEq] at h
      have hm := (findAll_mem (by
        intro kv hkv; simp at hkv; subst hkv; exact plain_hr env) hf d).1 (List.mem_of_mem_head? h)
      obtain ⟨it, h1, h2, -, h3⟩ := hm
      refine ⟨it, h1, Or.inl ⟨hb, ?_, ?_⟩, fun hx => absurd hx hb⟩
      · rcases h2 with h2 | ⟨code, h2, h4⟩
        · exact absurd h2 (by decide)
        · have h5 : resourceCode "cdrom".toList = .ok "15".toList := rfl
          rw [h5] at h2
          cases h2
          exact h4
      · exact getRaw_none_none.1 (h3 (hostResource, none) (by simp))

theorem hardwareType_of {env : Env} {it : Item} {t code : Str} (hc : ControllerCode t code) (h : OfType it code) :
    it.hardwareType env = t := by
  rcases hc with ⟨rfl, rfl⟩ | ⟨rfl, rfl⟩ | ⟨rfl, rfl⟩
  · exact hardwareType_ide.2 h
  · exact hardwareType_scsi.2 h
  · unfold OfType at h
    rw [← getRaw_none_eq] at h
    unfold Item.hardwareType
    rw [h]
    rfl

/-- the location of a drive that is in order leads back to it -/
theorem location_back {env : Env} {p : Pkg} {d : Str} {it : Item} {loc : Str × Str} {r : Found} (wf : HwWF env p.hw)
    (hit : dget? p.hw d = some it) (hb : Bay env p.hw it) (hl : deviceLocation env p.hw d = .ok loc)
    (hr : searchFromController env p (some loc.1) (some loc.2) = .ok r) :
    r.dev = some d ∧ IsDeviceAddress loc.2 ∧ (∃ code, ControllerCode loc.1 code) ∧
      ∃ c ci, r.ctrl = some c ∧ dget? p.hw c = some ci ∧ ChildOf it c := by
  unfold deviceLocation at hl
  obtain ⟨o, ho, hl⟩ := bind_ok_inv hl
  cases o with
  | none => cases hl
  | some c =>
    obtain ⟨d', it', ci, h1, h2, h3, h4, h5⟩ := findParent_some wf ho
    cases h1
    rw [hit] at h2
    cases h2
    simp only [h3] at hl
    obtain ⟨a, ha, hl⟩ := bind_ok_inv hl
    obtain ⟨b, hb', hl⟩ := bind_ok_inv hl
    unfold valueAt at hb'
    rw [hit] at hb'
    simp only at hb'
    rw [getValue_plain (plain_address env)] at ha
    rw [getValue_plain (plain_aop env)] at hb'
    match a, b, hl with
    | some (.str a), some (.str b), hl =>
      cases hl
      obtain ⟨Sa, hSa⟩ := getRaw_none_eq.1 (Except.ok.inj ha)
      obtain ⟨Sb, hSb⟩ := getRaw_none_eq.1 (Except.ok.inj hb')
      obtain ⟨t, code, hc1, hc2⟩ := hb.ctrl c ci h5 h3
      have ht := hardwareType_of (env := env) hc1 hc2
      have hda := hb.addr c ci a Sa h5 h3 hSa
      have hdb := hb.unit b Sb hSb
      simp only [ht] at hr ⊢
      have nocolon : ∀ x, Digits x → ':' ∉ x := by
        intro x hx hm
        have := hx.2 ':' hm
        exact absurd this (by decide)
      have hne : t ≠ [] := by
        rcases hc1 with ⟨rfl, -⟩ | ⟨rfl, -⟩ | ⟨rfl, -⟩ <;> decide
      obtain ⟨k1, k2, k3, k4⟩ := C69_by_address wf hne (nocolon a hda) (nocolon b hdb) hr
      have hrc := resourceCode_ctrl hc1
      have hctrl : r.ctrl = some c := by
        cases hx : r.ctrl with
        | none => exact absurd ⟨Sa, hSa⟩ ((k3 hx).2 code hrc c ci h3 h4 hc2)
        | some c' =>
          obtain ⟨code', ci', g1, -, -, -, -, g2⟩ := k1 c' hx
          rw [hrc] at g1
          cases g1
          rw [g2 c ci h3 h4 hc2 ⟨Sa, hSa⟩]
      refine ⟨?_, ⟨a, b, hda, hdb, rfl⟩, ⟨code, hc1⟩, c, ci, hctrl, h3, h5⟩
      cases hx : r.dev with
      | none => exact absurd ⟨Sb, hSb⟩ ((k4 c hctrl hx).2.2 d it hit hb.inDefault h5)
      | some d' =>
        obtain ⟨c', it', g1, -, -, -, -, g2⟩ := k2 d' hx
        rw [hctrl] at g1
        cases g1
        rw [g2 d it hit hb.inDefault h5 ⟨Sb, hSb⟩]

theorem applyDisk_dev {c : Ctx} {p p' : Pkg} {q : DiskReq} {r : Found} {ct : Str} {addr : Option Str} {k d : Str}
    (hd : r.dev = some d) (h : applyDisk c p q r ct addr = .ok (k, p')) : k = d := by
  unfold applyDisk at h
  simp only at h
  obtain ⟨f, -, h⟩ := bind_ok_inv h
  obtain ⟨dd, -, h⟩ := bind_ok_inv h
  obtain ⟨parts, -, h⟩ := bind_ok_inv h
  obtain ⟨sub, -, h⟩ := bind_ok_inv h
  obtain ⟨kk, -, h⟩ := bind_ok_inv h
  unfold addDiskDevice at h
  rw [hd] at h
  simp only at h
  obtain ⟨x, hx, h⟩ := bind_ok_inv h
  cases hx
  obtain ⟨res, -, h⟩ := bind_ok_inv h
  obtain ⟨hw, -, h⟩ := bind_ok_inv h
  cases h
  rfl

/-- the device at the address given is the one that is used -/
theorem addDiskCmd_dev {c : Ctx} {plat : Str → Str} {ask : Prompt → Bool} {p p' : Pkg} {q : DiskReq} {k d : Str} {r3 : Found}
    (h : addDiskCmd c plat ask p q = .ok (k, p')) (h3 : searchFromController c.env p q.controller q.address = .ok r3)
    (hd : r3.dev = some d) : k = d := by
  unfold addDiskCmd at h
  obtain ⟨r, hr, h⟩ := bind_ok_inv h
  obtain ⟨s, hs, h⟩ := bind_ok_inv h
  simp only at h
  obtain ⟨_, -, h⟩ := bind_ok_inv h
  obtain ⟨_, -, h⟩ := bind_ok_inv h
  refine applyDisk_dev (r := { r with ctrl := s.2.1 }) ?_ h
  show r.dev = some d
  unfold searchForElements at hr
  obtain ⟨r1, -, hr⟩ := bind_ok_inv hr
  obtain ⟨r2, -, hr⟩ := bind_ok_inv hr
  obtain ⟨r3', h3', hr⟩ := bind_ok_inv hr
  obtain ⟨f, -, hr⟩ := bind_ok_inv hr
  obtain ⟨dd, -, hr⟩ := bind_ok_inv hr
  obtain ⟨cc, -, hr⟩ := bind_ok_inv hr
  obtain ⟨kk, hk, hr⟩ := bind_ok_inv hr
  cases hr
  rw [h3] at h3'
  cases h3'
  rw [hd] at hk
  cases kk with
  | none =>
    obtain ⟨-, -, hx⟩ := conflict_none hk
    cases hx
  | some x =>
    rw [(conflict_some hk).2.2.2 d rfl]

end Cot
