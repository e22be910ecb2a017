import Verif.Lemmas.Refresh
import Verif.Props.PackageDiskCases
/-
C70: before a package is written, its entries are brought up to date with the files.
-/
namespace Cot

open Classical in
theorem dropMissing_eq {v : Ver} {fs : Fs} {files files' : List (Str × FRef)}
    (h : ∀ x, x ∈ dkeys files' ↔ Present fs files x) (cs : List Elem) :
    dropMissing v files' cs = cs.filter (fun e => decide (Retains v fs files e)) := by
  unfold dropMissing
  refine List.filter_congr (fun e _ => ?_)
  unfold Retains
  rw [Bool.eq_iff_iff]
  simp only [Bool.not_eq_true', Bool.and_eq_false_iff, beq_eq_false_iff_ne, ne_eq, Bool.not_eq_false', decide_eq_true_eq]
  constructor
  · rintro (h1 | h1) ht
    · exact absurd ht h1
    · cases hg : e.get (fileHref v) with
      | none => rw [hg] at h1; cases h1
      | some x =>
        rw [hg] at h1
        simp only [decide_eq_true_eq] at h1
        exact ⟨x, rfl, (h x).1 h1⟩
  · intro hk
    by_cases ht : e.tag = fileTag v
    · right
      obtain ⟨x, hx, hp⟩ := hk ht
      rw [hx]
      simp only [decide_eq_true_eq]
      exact (h x).2 hp
    · exact Or.inl ht

theorem distinct_filter {cs : List Elem} {tag key : Str} {P : Elem → Bool} (h : Distinct cs tag key) :
    Distinct (cs.filter P) tag key := by
  rw [distinct_iff] at h ⊢
  exact h.sublist List.filter_sublist

open Classical in
/-- **C70.** After the refresh exactly the files that can still be read are part of the package.  The entries for the other
files are gone; the remaining entries are in the same order and say the same, except that every size is the size that the
file has now.  For every file there is exactly one entry.  No device is touched. -/
theorem C70_files_partial {c : Ctx} {capOf : Str → Except Err Nat} {p p' : Pkg} (hv : c.env.ver ≠ .v0)
    (hcap : ∀ s n, capOf s = .ok n → 0 < n ∧ n ≤ 2 ^ 63) (hnd : (dkeys p.files).Nodup)
    (hids : Distinct p.refs.children (fileTag c.env.ver) (fileId c.env.ver))
    (h : refreshFiles c capOf p = .ok p') :
    p'.hw = p.hw ∧ (∀ n, n ∈ dkeys p'.files ↔ Present c.fs p.files n) ∧ (∃ cs, p'.refs = p.refs.setChildren cs) ∧
    List.Forall₂ (UpToDate c.env.ver c.fs p.files)
      (p.refs.children.filter (fun e => decide (Retains c.env.ver c.fs p.files e))) p'.refs.children ∧
    (∀ n ∈ dkeys p'.files, ∃ i, OnlyAt p'.refs.children (FileWith c.env.ver (fileHref c.env.ver) n) i) := by
  unfold refreshFiles at h
  obtain ⟨files, hf, h⟩ := bind_ok_inv h
  obtain ⟨f1, f2, f3, f4⟩ := refreshRefs_inv hnd hf
  have hcs : (p.refs.setChildren (dropMissing c.env.ver files p.refs.children)).children =
      p.refs.children.filter (fun e => decide (Retains c.env.ver c.fs p.files e)) := by
    rw [setChildren_children]; exact dropMissing_eq f2 _
  obtain ⟨g1, g2, ⟨cs, g3⟩, g4, -, -, g5⟩ := refreshEach_inv hv hcap f1 (by
    simp only; rw [hcs]; exact distinct_filter hids) h
  simp only at g1 g2 g3 g4 g5
  obtain ⟨n1, n2, n3⟩ := fileNames_ne c.env.ver
  have hlen := g4.length_eq
  rw [hcs] at g4 g5 hlen
  refine ⟨g1, fun n => by rw [g2]; exact f2 n, ⟨cs, by rw [g3]; cases p.refs; rfl⟩, ?_, ?_⟩
  · refine forall₂_of_getElem? hlen ?_
    intro i e e' hi hi'
    have R := forall₂_getElem? g4 i _ _ hi hi'
    have he := List.mem_of_getElem? hi
    have hk : Retains c.env.ver c.fs p.files e := by
      have := List.mem_filter.1 he
      simpa using this.2
    refine ⟨R.tag, R.other, ?_, ?_⟩
    · intro n hn
      obtain ⟨x, hx, hp⟩ := hk hn.1
      rw [hn.2] at hx; cases hx
      have hm := (f2 n).2 hp
      obtain ⟨r', hr'⟩ := dget?_of_mem_dkeys hm
      obtain ⟨r, b, q1, q2, q3, -⟩ := f4 n r' hr'
      obtain ⟨sz, s1, s2⟩ := R.size n r' hr' hn
      rw [q3] at s1; cases s1
      exact ⟨r, b, q1, q2, s2⟩
    · intro ht
      exact R.same (fun n hn => absurd hn.1 ht)
  · intro n hn
    rw [g2] at hn
    obtain ⟨i, ⟨e, he, hfe⟩, huq⟩ := g5 n hn
    have hi : i < p'.refs.children.length := by rw [← hlen]; exact (List.getElem?_eq_some_iff.1 he).1
    have R := forall₂_getElem? g4 i _ _ he (List.getElem?_eq_getElem hi)
    refine ⟨i, ⟨_, List.getElem?_eq_getElem hi, R.tag.trans hfe.1, (R.other _ n3).trans hfe.2⟩, ?_⟩
    intro j o hj hfo
    have hjl : j < (p.refs.children.filter (fun e => decide (Retains c.env.ver c.fs p.files e))).length := by
      rw [hlen]; exact (List.getElem?_eq_some_iff.1 hj).1
    have R' := forall₂_getElem? g4 j _ _ (List.getElem?_eq_getElem hjl) hj
    exact huq j _ (List.getElem?_eq_getElem hjl) ⟨R'.tag.symm.trans hfo.1, (R'.other _ n3).symm.trans hfo.2⟩

/-- **C70**, capacities: the Disk entries are the same, in the same order, apart from the capacity (and its unit); and the
capacity of every Disk whose image is a file on disk (rather than in an archive) is what the disk helper reports for that
file. -/
theorem C70_capacity {c : Ctx} {capOf : Str → Except Err Nat} {p p' : Pkg} (hv : c.env.ver ≠ .v0)
    (hcap : ∀ s n, capOf s = .ok n → 0 < n ∧ n ≤ 2 ^ 63) (hnd : (dkeys p.files).Nodup)
    (hids : Distinct p.refs.children (fileTag c.env.ver) (fileId c.env.ver))
    (h : refreshFiles c capOf p = .ok p') :
    List.Forall₂ (fun d d' : Elem => d'.tag = d.tag ∧
      (∀ key, key ≠ diskCapacity c.env.ver → key ≠ diskCapUnits c.env.ver → d'.get key = d.get key)) p.diskList p'.diskList ∧
    ∀ n r b e fid d, dget? p.files n = some r → r.inTar = false → Leads c.fs r b → e ∈ p'.refs.children →
      FileWith c.env.ver (fileHref c.env.ver) n e → FileWith c.env.ver (fileId c.env.ver) fid e → d ∈ p'.diskList →
      DiskWith c.env.ver (diskFileRef c.env.ver) fid d →
      ∃ cap : Nat, capOf (pathJoin r.container r.filename) = .ok cap ∧ capacityOf c.env.ver d = .ok (cap : Int) := by
  unfold refreshFiles at h
  obtain ⟨files, hf, h⟩ := bind_ok_inv h
  obtain ⟨f1, f2, f3, f4⟩ := refreshRefs_inv hnd hf
  obtain ⟨g1, g2, -, g4, g5, -, -⟩ := refreshEach_inv hv hcap f1 (by
    simp only; rw [setChildren_children]; exact distinct_filter hids) h
  simp only at g4
  have hdl : ∀ x, ({ p with files := files, refs := x } : Pkg).diskList = p.diskList := fun _ => rfl
  rw [hdl] at g5
  obtain ⟨n1, n2, n3⟩ := fileNames_ne c.env.ver
  obtain ⟨c1, c2, -, -⟩ := diskNames_cap c.env.ver
  refine ⟨g5.imp (fun d d' R => ⟨R.tag, R.other⟩), ?_⟩
  intro n r b e fid d hr ht hl he hen hei hd hdd
  have hm := (f2 n).2 ⟨r, b, hr, hl⟩
  obtain ⟨r', hr'⟩ := dget?_of_mem_dkeys hm
  obtain ⟨r0, b', q1, q2, q3, q4, q5, q6⟩ := f4 n r' hr'
  rw [hr] at q1; cases q1
  obtain ⟨i, hi⟩ := List.mem_iff_getElem?.1 he
  obtain ⟨j, hj⟩ := List.mem_iff_getElem?.1 hd
  have hlt : i < (p.refs.setChildren (dropMissing c.env.ver files p.refs.children)).children.length := by
    rw [g4.length_eq]; exact (List.getElem?_eq_some_iff.1 hi).1
  have hjl : j < p.diskList.length := by rw [g5.length_eq]; exact (List.getElem?_eq_some_iff.1 hj).1
  have R := forall₂_getElem? g4 i _ _ (List.getElem?_eq_getElem hlt) hi
  have D := forall₂_getElem? g5 j _ _ (List.getElem?_eq_getElem hjl) hj
  have := D.cap n r' _ fid hr' (q4.trans ht) (List.getElem_mem hlt) ⟨R.tag.symm.trans hen.1, (R.other _ n3).symm.trans hen.2⟩
    ((R.other _ n2).symm.trans hei.2) ⟨D.tag.symm.trans hdd.1, (D.other _ c1 c2).symm.trans hdd.2⟩
  rw [q5, q6 ht] at this
  exact this

/-! ### Cases -/

/-- the helper says 7 for every image -/
def exCap : Str → Except Err Nat := fun _ => .ok 7

theorem exCap_ok : ∀ s n, exCap s = .ok n → 0 < n ∧ n ≤ 2 ^ 63 := by
  intro s n h
  cases h
  exact ⟨by decide, by norm_num⟩

/-- on the example, `d.vmdk` has 1 byte (not 10) and its disk has capacity 7, while `c.iso` does not exist -/
example : (refreshFiles exCtx exCap exPkg).map (fun p => (dkeys p.files, p.refs.children,
      (diskEntries .v1 p).map (fun d => (d.get (diskCapacity .v1), d.get (diskId .v1))))) =
    .ok (["d.vmdk".toList], [exFileE "vmdk".toList "d.vmdk".toList "1".toList],
      [(some "7".toList, some "vmdisk1".toList)]) := rfl

theorem exPkg_ids : Distinct exPkg.refs.children (fileTag .v1) (fileId .v1) := by
  intro i j e f s hi hj te tf ge gf
  match i, j, hi, hj with
  | 0, 0, _, _ => rfl
  | 1, 1, _, _ => rfl
  | 0, 1, hi, hj => cases hi; cases hj; cases ge; exact absurd gf (by decide +kernel)
  | 1, 0, hi, hj => cases hi; cases hj; cases ge; exact absurd gf (by decide +kernel)
  | n + 2, _, hi, _ => cases hi
  | _, n + 2, _, hj => cases hj

/-- the hypotheses of the theorems are met -/
example : ∃ p', refreshFiles exCtx exCap exPkg = .ok p' ∧ p'.hw = exPkg.hw ∧
    (∀ n, n ∈ dkeys p'.files ↔ Present exFs exPkg.files n) :=
  ⟨_, rfl, (C70_files_partial (c := exCtx) (by decide) exCap_ok (by decide +kernel) exPkg_ids rfl).1,
    (C70_files_partial (c := exCtx) (by decide) exCap_ok (by decide +kernel) exPkg_ids rfl).2.1⟩

/-- **C70 fails** for references to dropped files: the File entry for the missing `c.iso` is removed, but the CD-ROM drive
still refers to it, so the package that is written has a dangling reference. -/
theorem C70_dangling_device_fails : ∃ p' it, refreshFiles exCtx exCap exPkg = .ok p' ∧
    dget? p'.hw "8".toList = some it ∧ UsesFile .v1 it "iso".toList ∧
    (∃ e ∈ exPkg.refs.children, FileWith .v1 (fileId .v1) "iso".toList e) ∧
    ∀ e ∈ p'.refs.children, ¬ FileWith .v1 (fileId .v1) "iso".toList e := by
  refine ⟨_, _, rfl, rfl, Or.inl ⟨_, rfl⟩, ⟨_, List.mem_of_getElem? (i := 1) rfl, rfl, rfl⟩, ?_⟩
  refine findPos_none.1 ?_
  rfl

/-- a file system without `d.vmdk` -/
def exFs2 : Fs := { exFs with file := fun s => if s = "/d/c.iso".toList then some [1] else none }

/-- **C70 fails** in the same way for a Disk whose image is missing. -/
theorem C70_dangling_disk_fails : ∃ p' d, refreshFiles { exCtx with fs := exFs2 } exCap exPkg = .ok p' ∧
    d ∈ p'.diskList ∧ DiskWith .v1 (diskFileRef .v1) "vmdk".toList d ∧
    (∃ e ∈ exPkg.refs.children, FileWith .v1 (fileId .v1) "vmdk".toList e) ∧
    ∀ e ∈ p'.refs.children, ¬ FileWith .v1 (fileId .v1) "vmdk".toList e := by
  refine ⟨_, exDiskE "vmdisk1".toList "vmdk".toList "1000".toList, rfl, ?_, ⟨rfl, rfl⟩,
    ⟨_, List.mem_of_getElem? (i := 0) rfl, rfl, rfl⟩, ?_⟩
  · exact List.mem_of_getElem? (i := 1) rfl
  · refine findPos_none.1 ?_
    rfl

end Cot
