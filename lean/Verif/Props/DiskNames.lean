import Verif.Lemmas.DiskNames
import Verif.Props.PackageDisk
/-
C67: the name and the description given to `add-disk` are those of the drive.
-/
namespace Cot

/-- the last step of `add-disk` -/
theorem addDiskCmd_last {c : Ctx} {plat : Str → Str} {ask : Prompt → Bool} {p p' : Pkg} {q : DiskReq} {k : Str}
    (wf : HwWF c.env p.hw) (h : addDiskCmd c plat ask p q = .ok (k, p')) :
    ∃ P0 addr disk file ctrl dev, addDiskDevice c P0 q.drive addr q.name q.descr disk file ctrl dev = .ok (k, p') ∧
      (∀ k0, dev = some k0 → k0 ∈ dkeys p.hw) := by
  unfold addDiskCmd at h
  obtain ⟨r, hr, h⟩ := bind_ok_inv h
  obtain ⟨s, hs, h⟩ := bind_ok_inv h
  simp only at h
  obtain ⟨_, hv, h⟩ := bind_ok_inv h
  obtain ⟨_, hcf, h⟩ := bind_ok_inv h
  obtain ⟨hsound, -⟩ := searchForElements_inv wf hr
  unfold applyDisk at h
  simp only at h
  obtain ⟨f, hf, h⟩ := bind_ok_inv h
  obtain ⟨d, hd, h⟩ := bind_ok_inv h
  obtain ⟨parts, hparts, h⟩ := bind_ok_inv h
  obtain ⟨sub, hsub, h⟩ := bind_ok_inv h
  obtain ⟨kc, hkc, h⟩ := bind_ok_inv h
  refine ⟨_, _, _, _, _, _, h, ?_⟩
  intro k0 hk0
  obtain ⟨it, _, h1, -⟩ := hsound.dev k0 hk0
  exact mem_dkeys_of_dget? h1

theorem addDiskDevice_last {c : Ctx} {p p' : Pkg} {drive ctrl k : Str} {addr name descr : Option Str}
    {disk : Option Nat} {file : Nat} {dev : Option Str}
    (h : addDiskDevice c p drive addr name descr disk file ctrl dev = .ok (k, p')) :
    ∃ name' hw1 res, fillDisk c hw1 k drive res name' descr = .ok p'.hw ∧
      ((dev = some k ∧ name' = name ∧ hw1 = p.hw) ∨
        (dev = none ∧ ∃ nm, name' = some nm ∧ createNewDisk c.env p.hw drive addr name ctrl = .ok (k, nm, hw1))) := by
  unfold addDiskDevice at h
  simp only at h
  obtain ⟨r, hr, h⟩ := bind_ok_inv h
  obtain ⟨res, hres, h⟩ := bind_ok_inv h
  obtain ⟨hw, hf, h⟩ := bind_ok_inv h
  simp only [Except.ok.injEq, Prod.mk.injEq] at h
  obtain ⟨rfl, rfl⟩ := h
  cases dev with
  | some k0 =>
    cases hr
    exact ⟨_, _, _, hf, Or.inl ⟨rfl, rfl, rfl⟩⟩
  | none =>
    simp only at hr
    cases hcn : createNewDisk c.env p.hw drive addr name ctrl with
    | error e => rw [hcn] at hr; cases hr
    | ok x =>
      obtain ⟨k1, nm, hw1⟩ := x
      rw [hcn] at hr
      cases hr
      exact ⟨_, _, _, hf, Or.inr ⟨rfl, nm, rfl, rfl⟩⟩

/-- **C67.** A drive that `add-disk` adds is named as asked for, or "CD-ROM Drive" or "Hard Disk Drive" if no name was
asked for, and that is its only name.  Its description is the one given; it has none if none was given.  Names and
descriptions are read back as given under every set of profiles as long as they cannot be taken for texts with
placeholders. -/
theorem C67_names {c : Ctx} {plat : Str → Str} {ask : Prompt → Bool} {p p' : Pkg} {q : DiskReq} {k : Str}
    (wf : HwWF c.env p.hw) (hk : k ∉ dkeys p.hw) (h : addDiskCmd c plat ask p q = .ok (k, p')) :
    ∃ it nm, dget? p'.hw k = some it ∧ DriveNamed q nm ∧
      (nm ≠ [] → it.tab (elementName c.env.ver) = [(.str nm, {none})]) ∧
      (q.descr = none → it.tab itemDescription = []) ∧
      (LiteralSub c.env → TameText nm → nm ≠ [] → ∀ P : PSet,
        it.getValue c.env (elementName c.env.ver) (some P) = .ok (some (.str nm))) ∧
      (LiteralSub c.env → TameText nm → TameVal nm → ∀ d, q.descr = some d → TameText d → d ≠ [] → ∀ P : PSet,
        it.getValue c.env itemDescription (some P) = .ok (some (.str d))) := by
  obtain ⟨P0, addr, disk, file, ctrl, dev, h1, h2⟩ := addDiskCmd_last wf h
  obtain ⟨name', hw1, res, hf, ⟨rfl, -, -⟩ | ⟨rfl, nm, rfl, hcn⟩⟩ := addDiskDevice_last h1
  · exact absurd (h2 k rfl) hk
  · obtain ⟨hnm, it, g1, g2, g3, g4, g5, g6, g7⟩ := createNewDisk_bare hcn
    obtain ⟨it', e1, e2, e3, e4, e5⟩ := fillDisk_names g1 g2 g3 g4 g5 g6 g7 hf
    refine ⟨it', nm, e1, ?_, e2, e3, e4, e5⟩
    unfold driveName at hnm
    unfold DriveNamed
    cases hq : q.name with
    | some n => rw [hq] at hnm; cases hnm; exact Or.inl rfl
    | none =>
      rw [hq] at hnm
      simp only at hnm
      right
      refine ⟨rfl, ?_⟩
      by_cases hd : q.drive = "cdrom".toList
      · rw [if_pos hd] at hnm; exact Or.inl ⟨hd, (Except.ok.inj hnm).symm⟩
      · rw [if_neg hd] at hnm
        by_cases hd' : q.drive = "harddisk".toList
        · rw [if_pos hd'] at hnm; exact Or.inr ⟨hd', (Except.ok.inj hnm).symm⟩
        · rw [if_neg hd'] at hnm; cases hnm

end Cot
