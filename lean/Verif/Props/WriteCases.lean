import Verif.Props.WriteTouch
import Mathlib.Logic.Encodable.Basic
import Mathlib.Logic.Equiv.List
/-
Cases for C72 to C74: the hypotheses are met by a package with files of all kinds; and what goes wrong without them.
-/
namespace Cot

/-! ### Libraries that keep what is put into them exist -/

@[instance_reducible] def charEnc : Encodable Char := Encodable.ofLeftInverse Char.toNat Char.ofNat Char.ofNat_toNat
@[instance_reducible] def byteEnc : Encodable UInt8 := Encodable.ofLeftInverse UInt8.toNat UInt8.ofNat (by intro x; simp)
attribute [local instance] charEnc byteEnc

/-- a library that numbers all archives and all texts -/
def exLib : Lib :=
  { pack := fun ms => List.replicate (Encodable.encode ms) 0
    unpack := fun b => Encodable.decode b.length
    enc := fun s => List.replicate (Encodable.encode s) 0
    dec := fun b => Encodable.decode b.length }

theorem exLib_lawful : exLib.Lawful := by
  constructor
  · intro ms _; simp [exLib]
  · intro s; simp [exLib]

/-! ### A package -/

instance (n : Str) : Decidable (PlainName n) := by unfold PlainName; infer_instance

/-- In `/d`: the archive `x.ova` with the member `./d.vmdk`, and the file `new.iso`. -/
def wFs : Fs :=
  { cwd := "/d".toList
    file := fun p => if p = "/d/new.iso".toList then some [1, 2, 3] else if p = "/d/x.ova".toList then some [9] else none
    isDir := fun p => decide (p = "/d".toList ∨ p = "/o".toList ∨ p = "/w".toList)
    tar := fun p => if p = "/d/x.ova".toList then some [("x.ovf".toList, [8]), ("./d.vmdk".toList, [5])] else none }

/-- The package from `x.ova`: a disk, an added file, and a file that has disappeared. -/
def wPkg : Pkg :=
  { refs := .mk (ovfTag .v1 "References".toList) [] none none
      [exFileE "vmdk".toList "d.vmdk".toList "10".toList, exFileE "iso".toList "c.iso".toList "20".toList,
        exFileE "new".toList "new.iso".toList "7".toList],
    disks := none, hw := [],
    files := [("d.vmdk".toList, ⟨true, "/d/x.ova".toList, "./d.vmdk".toList, some "sha1".toList, none, none, false⟩),
      ("c.iso".toList, ⟨true, "/d/x.ova".toList, "c.iso".toList, some "sha1".toList, none, none, false⟩),
      ("new.iso".toList, ⟨false, "/d".toList, "new.iso".toList, some "sha1".toList, none, none, false⟩)] }

/-- a checksum -/
def wSum (b : List UInt8) : Str := 'a' :: b.map (fun _ => '0')
def wCtx : Ctx := { env := exEnv, py := .py3, fs := wFs, digest := fun _ b => .ok (wSum b), algo := none }
/-- the contents of the files -/
def wCont (h : Str) : List UInt8 := if h = "d.vmdk".toList then [5] else [1, 2, 3]
/-- the descriptor -/
def wXml (_ : Pkg) : List UInt8 := [77]

theorem wPkg_get {h : Str} {r : FRef} (hr : dget? wPkg.files h = some r) :
    (h = "d.vmdk".toList ∧ r = ⟨true, "/d/x.ova".toList, "./d.vmdk".toList, some "sha1".toList, none, none, false⟩) ∨
    (h = "c.iso".toList ∧ r = ⟨true, "/d/x.ova".toList, "c.iso".toList, some "sha1".toList, none, none, false⟩) ∨
    (h = "new.iso".toList ∧ r = ⟨false, "/d".toList, "new.iso".toList, some "sha1".toList, none, none, false⟩) := by
  have := dget?_mem hr
  simp only [wPkg, List.mem_cons, Prod.mk.injEq, List.not_mem_nil, or_false] at this
  exact this

theorem wPkg_ids : Distinct wPkg.refs.children (fileTag .v1) (fileId .v1) := by
  rw [distinct_iff]
  show List.Pairwise _ [_, _, _]
  simp only [List.pairwise_cons, List.mem_cons, List.not_mem_nil, or_false, forall_eq_or_imp, forall_eq, IsEmpty.forall_iff,
    implies_true, List.Pairwise.nil, and_true]
  refine ⟨⟨?_, ?_⟩, ?_⟩ <;>
  · rintro ⟨-, -, s, h1, h2⟩
    cases h1
    exact absurd h2 (by decide +kernel)

theorem w_can : CanWrite wCtx exCap wSum wFs "/d/x.ova".toList wCont wPkg where
  ver := by decide
  cap := exCap_ok
  keys := by decide +kernel
  ids := wPkg_ids
  files := by
    intro h r hr
    rcases wPkg_get hr with ⟨rfl, rfl⟩ | ⟨rfl, rfl⟩ | ⟨rfl, rfl⟩
    · refine Or.inl ⟨by decide +kernel, rfl, rfl, (fun h => by cases h), fun _ => ⟨rfl, rfl, by decide, _, rfl, rfl⟩⟩
    · exact Or.inr (Or.inr ⟨rfl, _, rfl, by decide +kernel⟩)
    · refine Or.inl ⟨by decide +kernel, rfl, rfl, fun _ => ⟨rfl, rfl, rfl⟩, (fun h => by cases h)⟩
  digest := fun _ => rfl
  hex := by
    intro b
    refine ⟨by simp [wSum], ?_⟩
    intro c hc
    simp only [wSum, List.mem_cons, List.mem_map] at hc
    rcases hc with rfl | ⟨_, _, rfl⟩
    · right; decide
    · left; decide

/-- the refresh succeeds: two files are left -/
theorem w_refresh : ∃ q, refreshFiles { wCtx with fs := wFs } exCap wPkg = .ok q ∧
    namedFiles .v1 q.refs = ["d.vmdk".toList, "new.iso".toList] := ⟨_, rfl, rfl⟩

theorem w_notIn {p : Str} (h : (normpath p).take 3 ≠ "/w/".toList) (hp : p.head? = some '/') : NotIn wFs "/w".toList p := by
  intro n hn
  rw [normal_join (by decide) (by decide) hn, absName_abs hp]
  have : pathJoin "/w".toList n = "/w/".toList ++ n := by
    unfold pathJoin
    rw [if_neg (show ¬ n.head? = some '/' from fun hh => hn.2.2.2 (List.mem_of_mem_head? hh)), if_neg (by decide)]
    rfl
  rw [this]
  intro he
  rw [he] at h
  exact h rfl

theorem w_plan : OvaPlan wFs wPkg.files "/d/x.ova".toList "/o/y.ova".toList "/w".toList where
  cwd := rfl
  work := ⟨rfl, rfl, by decide⟩
  inputOut := w_notIn (by decide) rfl
  outputOut := w_notIn (by decide) rfl
  file := by decide +kernel
  base := by decide +kernel
  names := by decide +kernel
  sources := by
    intro h r hr _
    rcases wPkg_get hr with ⟨rfl, rfl⟩ | ⟨rfl, rfl⟩ | ⟨rfl, rfl⟩ <;> decide +kernel

theorem w_plan_same : OvaPlan wFs wPkg.files "/d/x.ova".toList "/d/x.ova".toList "/w".toList where
  cwd := rfl
  work := ⟨rfl, rfl, by decide⟩
  inputOut := w_notIn (by decide) rfl
  outputOut := w_notIn (by decide) rfl
  file := by decide +kernel
  base := by decide +kernel
  names := by decide +kernel
  sources := by
    intro h r hr ht
    rcases wPkg_get hr with ⟨rfl, rfl⟩ | ⟨rfl, rfl⟩ | ⟨rfl, rfl⟩
    · cases ht
    · cases ht
    · decide +kernel

theorem w_plan_dir : OvfPlan wFs wPkg.files "/d/x.ova".toList "/o/y.ovf".toList where
  cwd := rfl
  dir := by decide +kernel
  base := by decide +kernel
  names := by decide +kernel
  archive := by
    intro h r _ _ n hn
    rcases hn with rfl | rfl | hn
    · decide +kernel
    · decide +kernel
    · revert n; decide +kernel

/-! ### The theorems apply -/

/-- the archive that is written -/
example : ∃ cs q m1 m2, writePackage exLib wCtx exCap wXml wPkg "/d/x.ova".toList "/o/y.ova".toList "/w".toList
      ".ova".toList wFs = (.ok q, cs) ∧
    (applyAll exLib wFs cs).tar "/o/y.ova".toList = some [("y.ovf".toList, [77]),
      ("y.mf".toList, exLib.enc "SHA1(y.ovf)= a0\nSHA1(d.vmdk)= a0\nSHA1(new.iso)= a000\n".toList), m1, m2] ∧
    (normpath m1.1, m1.2) = ("d.vmdk".toList, [5]) ∧ (normpath m2.1, m2.2) = ("new.iso".toList, [1, 2, 3]) := by
  obtain ⟨q, hq, hn⟩ := w_refresh
  obtain ⟨cs, ms, h1, h2, h3, -⟩ := C73_archive (xml := wXml) exLib_lawful w_can w_plan hq
  rw [show wCtx.env.ver = .v1 from rfl, hn] at h2 h3
  match ms, h3 with
  | [m1, m2], h3 =>
    simp only [List.map_cons, List.map_nil, List.cons.injEq, and_true] at h3
    exact ⟨cs, q, m1, m2, h1, h2, h3.1, h3.2⟩
  | [], h3 => cases h3
  | [_], h3 => simp at h3
  | _ :: _ :: _ :: _, h3 => simp at h3

/-- it is opened again, and so is the package that is written over itself or to a directory -/
example : ∃ cs q, writePackage exLib wCtx exCap wXml wPkg "/d/x.ova".toList "/o/y.ova".toList "/w".toList
      ".ova".toList wFs = (.ok q, cs) ∧
    ∃ d fs, openFiles exLib wCtx.digest (applyAll exLib wFs cs) .v1 "/o/y.ova".toList d q.refs = .ok (fs, []) ∧
      dkeys fs = ["d.vmdk".toList, "new.iso".toList] := by
  obtain ⟨q, hq, hn⟩ := w_refresh
  obtain ⟨cs, ms, h1, -⟩ := C73_archive (xml := wXml) exLib_lawful w_can w_plan hq
  obtain ⟨-, d, fs, -, -, -, h5, h6, -⟩ := C72_archive_partial exLib_lawful w_can w_plan hq h1
    (w' := applyAll exLib wFs cs) (newDir := "/v".toList)
    ⟨applyAll_cwd _ _, by rw [applyAll_isDir]; decide +kernel, rfl, rfl⟩ ⟨rfl, rfl⟩ (by decide)
  exact ⟨cs, q, h1, d, fs, h5, h6.trans hn⟩

example : ∃ cs q, writePackage exLib wCtx exCap wXml wPkg "/d/x.ova".toList "/d/x.ova".toList "/w".toList
      ".ova".toList wFs = (.ok q, cs) ∧
    ∃ d fs, openFiles exLib wCtx.digest (applyAll exLib wFs cs) .v1 "/d/x.ova".toList d q.refs = .ok (fs, []) ∧
      dkeys fs = ["d.vmdk".toList, "new.iso".toList] := by
  obtain ⟨q, hq, hn⟩ := w_refresh
  obtain ⟨cs, ms, h1, -⟩ := C73_archive (xml := wXml) exLib_lawful w_can w_plan_same hq
  obtain ⟨-, d, fs, -, -, -, h5, h6, -⟩ := C72_archive_partial exLib_lawful w_can w_plan_same hq h1
    (w' := applyAll exLib wFs cs) (newDir := "/v".toList)
    ⟨applyAll_cwd _ _, by rw [applyAll_isDir]; decide +kernel, rfl, rfl⟩ ⟨rfl, rfl⟩ (by decide)
  exact ⟨cs, q, h1, d, fs, h5, h6.trans hn⟩

example : ∃ cs q, writePackage exLib wCtx exCap wXml wPkg "/d/x.ova".toList "/o/y.ovf".toList "/w".toList
      ".ovf".toList wFs = (.ok q, cs) ∧
    (applyAll exLib wFs cs).file "/o/d.vmdk".toList = some [5] ∧
    ∃ fs, openFiles exLib wCtx.digest (applyAll exLib wFs cs) .v1 "/o/y.ovf".toList "/o/y.ovf".toList q.refs = .ok (fs, []) ∧
      dkeys fs = ["d.vmdk".toList, "new.iso".toList] := by
  obtain ⟨q, hq, hn⟩ := w_refresh
  obtain ⟨cs, h1, -, -, h4, -⟩ := C73_directory (l := exLib) (W := "/w".toList) (xml := wXml) w_can w_plan_dir hq
  obtain ⟨fs, -, h5, h6, -⟩ := C72_directory_partial exLib_lawful w_can w_plan_dir hq h1
    (w' := applyAll exLib wFs cs)
    ⟨applyAll_cwd _ _, by rw [applyAll_isDir]; decide +kernel, fun _ _ => rfl⟩
  refine ⟨cs, q, h1, ?_, fs, h5, h6.trans hn⟩
  exact h4 "d.vmdk".toList (by rw [show wCtx.env.ver = .v1 from rfl, hn]; decide)

/-- at every moment the files of the package are there, and a file that is not involved is not touched -/
example {w' : Fs} (h : During (writePackage exLib wCtx exCap wXml wPkg "/d/x.ova".toList "/o/y.ova".toList "/w".toList
      ".ova".toList) wFs w') :
    w'.file "/d/new.iso".toList = some [1, 2, 3] ∧ w'.tar "/d/x.ova".toList = wFs.tar "/d/x.ova".toList ∧
      w'.file "/o/z".toList = none := by
  refine ⟨?_, ?_, ?_⟩
  · exact (C74_archive w_can.keys w_can.files rfl h (by decide +kernel) (w_notIn (by decide) rfl)).1
  · exact (C74_archive w_can.keys w_can.files rfl h (by decide +kernel) (w_notIn (by decide) rfl)).2
  · exact (C74_archive w_can.keys w_can.files rfl h (by decide +kernel) (w_notIn (by decide) rfl)).1

example : ∃ w', During (writePackage exLib wCtx exCap wXml wPkg "/d/x.ova".toList "/d/x.ova".toList "/w".toList
      ".ova".toList) wFs w' ∧ w'.file "/d/x.ova".toList = some [] := by
  obtain ⟨q, hq, -⟩ := w_refresh
  exact C74_in_place_fails exLib_lawful w_can w_plan_same hq

example {q : Pkg} {w' : Fs} (hq : refreshFiles { wCtx with fs := wFs } exCap wPkg = .ok q)
    (h : During (writePackage exLib wCtx exCap wXml wPkg "/d/x.ova".toList "/o/y.ovf".toList "/w".toList
      ".ovf".toList) wFs w') {n : Str} {r : FRef} (hr : dget? wPkg.files n = some r)
    (H : FileOf .v1 wFs "/d/x.ova".toList n r (wCont n)) : FileOf .v1 w' "/d/x.ova".toList n r (wCont n) :=
  C74_directory_sources_partial w_can w_plan_dir hq h hr H

/-! ### What goes wrong otherwise -/

/-- as `wFs`, with another file `new.iso` in the output directory -/
def wFs2 : Fs := { wFs with file := fun p => if p = "/o/new.iso".toList then some [4, 4] else wFs.file p }

/-- **C74 fails** for files that happen to be in the output directory: a file there with the name of a file of the
package is overwritten without a question. -/
theorem C74_neighbour_fails {l : Lib} : ∃ (w : Fs) (cs : List Change) (q : Pkg),
    w.file "/o/new.iso".toList = some [4, 4] ∧ (∀ r ∈ wPkg.files, pathJoin r.2.container r.2.filename ≠ "/o/new.iso".toList) ∧
    writePackage l wCtx exCap wXml wPkg "/d/x.ova".toList "/o/y.ovf".toList "/w".toList ".ovf".toList w = (.ok q, cs) ∧
    (applyAll l w cs).file "/o/new.iso".toList = some [1, 2, 3] := by
  have hcan : CanWrite wCtx exCap wSum wFs2 "/d/x.ova".toList wCont wPkg :=
    { w_can with
      files := by
        intro h r hr
        rcases wPkg_get hr with ⟨rfl, rfl⟩ | ⟨rfl, rfl⟩ | ⟨rfl, rfl⟩
        · refine Or.inl ⟨by decide +kernel, rfl, rfl, (fun h => by cases h), fun _ => ⟨rfl, rfl, by decide, _, rfl, rfl⟩⟩
        · exact Or.inr (Or.inr ⟨rfl, _, rfl, by decide +kernel⟩)
        · refine Or.inl ⟨by decide +kernel, rfl, rfl, fun _ => ⟨rfl, rfl, rfl⟩, (fun h => by cases h)⟩ }
  have hplan : OvfPlan wFs2 wPkg.files "/d/x.ova".toList "/o/y.ovf".toList := ⟨rfl, by decide +kernel, by decide +kernel,
    by decide +kernel, by
      intro h r _ _ n hn
      rcases hn with rfl | rfl | hn
      · decide +kernel
      · decide +kernel
      · revert n; decide +kernel⟩
  obtain ⟨q, hq, hn⟩ : ∃ q, refreshFiles { wCtx with fs := wFs2 } exCap wPkg = .ok q ∧
    namedFiles .v1 q.refs = ["d.vmdk".toList, "new.iso".toList] := ⟨_, rfl, rfl⟩
  obtain ⟨cs, h1, -, -, h4, -⟩ := C73_directory (l := l) (W := "/w".toList) (xml := wXml) hcan hplan hq
  exact ⟨wFs2, cs, q, rfl, by decide +kernel, h1,
    h4 "new.iso".toList (by rw [show wCtx.env.ver = .v1 from rfl, hn]; decide)⟩

/-- A package in `/d` with the file `sub/a.vmdk`, as it is described by the standard for files in subdirectories. -/
def subFs : Fs :=
  { cwd := "/d".toList
    file := fun p => if p = "/d/sub/a.vmdk".toList then some [1] else if p = "/d/x.ovf".toList then some [9] else none
    isDir := fun p => decide (p = "/d".toList ∨ p = "/o".toList ∨ p = "/d/sub".toList)
    tar := fun _ => none }
@[inherit_doc subFs] def subPkg : Pkg :=
  { refs := .mk (ovfTag .v1 "References".toList) [] none none [exFileE "vmdk".toList "sub/a.vmdk".toList "1".toList],
    disks := none, hw := [],
    files := [("sub/a.vmdk".toList, ⟨false, "/d".toList, "sub/a.vmdk".toList, some "sha1".toList, none, none, false⟩)] }

/-- a library for plain ASCII texts -/
def asciiLib : Lib :=
  { pack := fun _ => [], unpack := fun _ => none
    enc := fun s => s.map (fun c => UInt8.ofNat c.toNat), dec := fun b => some (b.map (fun x => Char.ofNat x.toNat)) }

/-- **C72 fails** for files in subdirectories: `sub/a.vmdk` is copied to the output directory as `a.vmdk`, while the
entry still says `sub/a.vmdk`; when the package is opened again, the file is missing. -/
theorem C72_subdirectory_fails : ∃ cs q fs fs0,
    openFiles asciiLib wCtx.digest subFs .v1 "/d/x.ovf".toList "/d/x.ovf".toList subPkg.refs = .ok (fs0, []) ∧
    writePackage asciiLib wCtx exCap wXml subPkg "/d/x.ovf".toList "/o/y.ovf".toList "/w".toList ".ovf".toList subFs =
      (.ok q, cs) ∧
    openFiles asciiLib wCtx.digest (applyAll asciiLib subFs cs) .v1 "/o/y.ovf".toList "/o/y.ovf".toList q.refs =
      .ok (fs, [.missing "sub/a.vmdk".toList]) :=
  ⟨_, _, _, _, rfl, rfl, rfl⟩

end Cot
