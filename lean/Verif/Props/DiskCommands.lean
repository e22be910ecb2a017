import Verif.Props.Disks
/-
C61: the commands run to convert a hard disk for a package.
-/
namespace Cot

theorem make_ops {w : ConvWorld} {h ops : List DiskOp} {op : DiskOp} {out : Str} {f : DiskFmt} {i : Image}
    (hm : w.make h op out f = (.ok i, ops)) : ops = op :: h ∧ i.fmt = f ∧ i.path = out := by
  unfold ConvWorld.make ConvWorld.run at hm
  cases hf : w.fails h op with
  | some e => rw [hf] at hm; cases hm
  | none =>
    rw [hf] at hm
    simp only [Prod.mk.injEq] at hm
    obtain ⟨h1, h2⟩ := hm
    refine ⟨h2.symm, ?_⟩
    unfold ConvWorld.open at h1
    split at h1
    · cases h1
    · split at h1
      · cases h1
      · cases h1; exact ⟨rfl, rfl⟩

/-- `qemu-img` writing a stream-optimized VMDK -/
def qemuToVmdk (src out : Str) : DiskOp := .call "qemu-img".toList
  ["convert".toList, "-O".toList, "vmdk".toList, "-o".toList, "subformat=streamOptimized".toList, src, out]
/-- `vmdktool` writing a stream-optimized VMDK: it takes raw images only -/
def vmdktoolToVmdk (src out : Str) : DiskOp := .call "vmdktool".toList ["-z9".toList, "-v".toList, out, src]
/-- `qemu-img` writing a raw image -/
def qemuToRaw (src out : Str) : DiskOp := .call "qemu-img".toList ["convert".toList, "-O".toList, "raw".toList, src, out]
/-- `vmdktool` writing a raw image: it takes stream-optimized VMDKs only -/
def vmdktoolToRaw (src out : Str) : DiskOp := .call "vmdktool".toList ["-s".toList, out, src]

theorem rawFrom_ops {w : ConvWorld} {h ops : List DiskOp} {img i : Image} {dir : Str}
    (hr : rawFrom w h img dir = (.ok i, ops)) :
    i.fmt = .raw ∧ i.path = outputPath dir img.path ".img".toList ∧
    (ops = qemuToRaw img.path (outputPath dir img.path ".img".toList) :: h ∨
      (img.fmt = .vmdk ∧ img.subformat = .ok (some "streamOptimized".toList) ∧
        ops = vmdktoolToRaw img.path (outputPath dir img.path ".img".toList) :: h)) := by
  unfold rawFrom at hr
  simp only at hr
  cases hn : needsNewQemu img with
  | error e => rw [hn] at hr; cases hr
  | ok b =>
    rw [hn] at hr
    cases b with
    | false => obtain ⟨h1, h2, h3⟩ := make_ops hr; exact ⟨h2, h3, Or.inl h1⟩
    | true =>
      simp only at hr
      split at hr
      · cases hr
      · split at hr
        · obtain ⟨h1, h2, h3⟩ := make_ops hr
          refine ⟨h2, h3, Or.inr ?_⟩
          unfold needsNewQemu at hn
          split at hn
          · rename_i hf
            refine ⟨hf, ?_, h1⟩
            cases hs : img.subformat with
            | error e => rw [hs] at hn; cases hn
            | ok s =>
              rw [hs] at hn
              simp only [Except.ok.injEq, decide_eq_true_eq] at hn
              rw [hn]
          · cases hn
        · obtain ⟨h1, h2, h3⟩ := make_ops hr; exact ⟨h2, h3, Or.inl h1⟩

theorem vmdkStep_ops_raw {w : ConvWorld} {again : List DiskOp → Image → Except Err Image × List DiskOp}
    {h ops : List DiskOp} {img i : Image} {dir : Str} (hf : img.fmt = .raw)
    (hr : vmdkStep w again h img dir "streamOptimized".toList = (.ok i, ops)) :
    ops = qemuToVmdk img.path (outputPath dir img.path ".vmdk".toList) :: h ∨
    ops = vmdktoolToVmdk img.path (outputPath dir img.path ".vmdk".toList) :: h := by
  unfold vmdkStep at hr
  simp only [if_true] at hr
  split at hr
  · cases hr
  · split at hr
    · rw [if_neg (fun h => h hf)] at hr
      exact Or.inr (make_ops hr).1
    · exact Or.inl (make_ops hr).1

/-- **C61 (commands).** When a hard disk that is not yet a stream-optimized VMDK is converted for a package, the commands
run are one of three sequences (listed latest first): `qemu-img` writes a stream-optimized VMDK from the image; or
`vmdktool` does, which happens for raw images only; or the image is first made into a raw scratch image, from which either
tool then writes a stream-optimized VMDK, and the scratch image is removed.  So `vmdktool` is never given an image it
cannot read, and the last thing written to the result is a stream-optimized VMDK. -/
theorem C61_commands {w : ConvWorld} {img i : Image} {dir : Str} {ops : List DiskOp}
    (hr : ∃ c ∈ pathRoot (pathBase img.path), c ≠ '.')
    (hneed : img.fmt = .vmdk → ∃ s, img.subformat = .ok s ∧ s ≠ some "streamOptimized".toList)
    (h : convertIfNeeded w img "harddisk".toList dir = (.ok i, ops)) :
    let out := pathJoin dir (pathRoot (pathBase img.path) ++ ".vmdk".toList)
    let scratch := pathJoin dir (pathRoot (pathBase img.path) ++ ".img".toList)
    ops = [qemuToVmdk img.path out] ∨
    (img.fmt = .raw ∧ ops = [vmdktoolToVmdk img.path out]) ∨
    (img.fmt ≠ .raw ∧ ∃ c, (c = qemuToVmdk scratch out ∨ c = vmdktoolToVmdk scratch out) ∧
      ops = [.remove scratch, c, qemuToRaw img.path scratch]) := by
  intro out scratch
  have hn : needsNewQemu img = .ok false := by
    unfold needsNewQemu
    split
    · rename_i hf
      obtain ⟨s, e1, e2⟩ := hneed hf
      rw [e1]; exact congrArg _ (decide_eq_false e2)
    · rfl
  unfold convertIfNeeded at h
  rw [hn, if_neg (fun h => h rfl)] at h
  change vmdkFrom w [] img dir "streamOptimized".toList = _ at h
  unfold vmdkFrom at h
  rw [vmdkStep] at h
  simp only [if_true] at h
  split at h
  · cases h
  · split at h
    · split at h
      · rename_i hf
        split at h
        · cases h
        · rename_i temp h' hraw
          obtain ⟨g1, g2, g3⟩ := rawFrom_ops hraw
          have g3' : h' = [qemuToRaw img.path (outputPath dir img.path ".img".toList)] := by
            rcases g3 with g3 | ⟨k1, k2, -⟩
            · exact g3
            · obtain ⟨s, e1, e2⟩ := hneed k1
              rw [k2] at e1; cases e1; exact absurd rfl e2
          unfold ConvWorld.thenRemove ConvWorld.run at h
          cases hf2 : w.fails (vmdkStep w (fun h'' _ => (.error .runtimeError, h'')) h' temp dir "streamOptimized".toList).2
              (.remove temp.path) with
          | some e => rw [hf2] at h; cases h
          | none =>
            rw [hf2] at h
            simp only [Prod.mk.injEq] at h
            obtain ⟨h1, h2⟩ := h
            have h3 := vmdkStep_ops_raw (w := w) (again := fun h'' _ => (.error .runtimeError, h'')) (h := h') (dir := dir)
              (i := i) g1 (Prod.ext h1 rfl)
            have hp : outputPath dir temp.path ".vmdk".toList = out := by
              rw [g2]; exact outputPath_again _ hr (by decide) (by decide)
            rw [hp, g2, g3'] at h3
            refine Or.inr (Or.inr ⟨hf, ?_⟩)
            rcases h3 with h3 | h3
            · exact ⟨_, Or.inl rfl, by rw [← h2, g2, g3']; exact congrArg _ h3⟩
            · exact ⟨_, Or.inr rfl, by rw [← h2, g2, g3']; exact congrArg _ h3⟩
      · rename_i hf
        exact Or.inr (Or.inl ⟨not_not.1 hf, (make_ops h).1⟩)
    · exact Or.inl (make_ops h).1

/-- non-vacuity: a qcow2 image with vmdktool at hand takes the third sequence -/
example : (∃ c ∈ pathRoot (pathBase exQcow.path), c ≠ '.') ∧
    (exQcow.fmt = .vmdk → ∃ s, exQcow.subformat = .ok s ∧ s ≠ some "streamOptimized".toList) ∧
    ∃ i, convertIfNeeded oldQemu exQcow "harddisk".toList "/d".toList = (.ok i,
      [.remove "/d/foo.img".toList, vmdktoolToVmdk "/d/foo.img".toList "/d/foo.vmdk".toList,
        qemuToRaw "/d/foo.qcow2".toList "/d/foo.img".toList]) :=
  ⟨⟨'f', by decide +kernel, by decide⟩, (fun h => by cases h), _, rfl⟩

end Cot
