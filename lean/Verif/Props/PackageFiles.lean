import Verif.Props.PackageSearch
import Verif.Lemmas.XmlLens
import Verif.Lemmas.PathAbs
import Verif.Props.FileRef
/-
C66: adding a file to a package.
-/
namespace Cot

theorem fileNames_ne (v : Ver) : fileId v ≠ fileHref v ∧ fileId v ≠ fileSize v ∧ fileHref v ≠ fileSize v := by
  cases v <;> decide +kernel

theorem fileElem_says (v : Ver) (fid name : Str) (n : Nat) : FileSays v (fileElem v fid name (natStr n)) fid name n := by
  obtain ⟨h1, h2, h3⟩ := fileNames_ne v
  unfold fileElem
  refine ⟨by simp [set_tag]; rfl, ?_, ?_, ?_⟩
  · rw [set_get, if_neg h2.symm, set_get, if_neg h1.symm, set_get, if_pos rfl]
  · rw [set_get, if_neg h3.symm, set_get, if_pos rfl]
  · rw [set_get, if_pos rfl]

/-- What `add_file` records about the file itself: a reference to a file on disk, by directory and name. -/
structure RefTo (c : Ctx) (path : Str) (r : FRef) : Prop where
  onDisk : r.inTar = false
  algo : r.algo = c.algo
  dir : r.container = makeAbs c.fs (pathDir (absName c.fs path))
  name : r.filename = normpath (pathBase path)
  readable : ∃ b, r.content c.fs = .ok b

theorem init_plain {digest : Str → List UInt8 → Except Err Str} {w : Fs} {dir name : Str} {algo : Option Str}
    {x : FRef × List FWarn} (h : FRef.init digest w false dir name algo none none = .ok x) :
    x.1 = { inTar := false, container := makeAbs w dir, filename := normpath name, algo := algo, sum := none, size := none,
            force := false } ∧ ∃ b, x.1.content w = .ok b := by
  unfold FRef.init at h
  simp only at h
  generalize hr : FRef.mk false (makeAbs w dir) (normpath name) algo none none false = r at h ⊢
  cases he : r.exists_ w with
  | mk o r' =>
    rw [he] at h
    cases o with
    | error e => cases h
    | ok b =>
      cases b with
      | false => cases h
      | true =>
        obtain ⟨h1, -, h3⟩ := exists_content he
        have : r' = r := h3 (by rw [← hr])
        subst this
        simp only [FRef.compare, Except.ok.injEq] at h
        subst h
        exact ⟨rfl, h1⟩

theorem addFile_inv {c : Ctx} {p p' : Pkg} {path fid : Str} {file disk : Option Nat} {n : Nat}
    (h : addFile c p path fid file disk = .ok (n, p')) :
    ∃ b e r, c.fs.file (absName c.fs path) = some b ∧ FileSays c.env.ver e fid (pathBase path) b.length ∧ RefTo c path r ∧
      p'.disks = p.disks ∧ p'.hw = p.hw ∧ (∃ cs', p'.refs = p.refs.setChildren cs') ∧
      (∀ i, file = some i → n = i ∧ p'.refs.children = p.refs.children.set i e ∧
        p'.files = dset (dropRef p.files (attrOf p.refs.children i (fileHref c.env.ver))) (pathBase path) r) ∧
      (file = none → p'.refs.children = p.refs.children.take n ++ e :: p.refs.children.drop n ∧
        p'.files = dset p.files (pathBase path) r ∧ (disk = none → n = p.refs.children.length) ∧
        ∀ j, disk = some j → filePlace c.env.ver p.refs.children p.diskList j = .ok n) := by
  unfold addFile at h
  simp only at h
  obtain ⟨pos, hpos, h⟩ := bind_ok_inv h
  obtain ⟨size, hsize, h⟩ := bind_ok_inv h
  obtain ⟨r, hr, h⟩ := bind_ok_inv h
  obtain ⟨hr1, hr2⟩ := init_plain hr
  have href : RefTo c path r.1 := ⟨by rw [hr1], by rw [hr1], by rw [hr1], by rw [hr1], hr2⟩
  cases hf : c.fs.file (absName c.fs path) with
  | none => rw [hf] at hsize; cases hsize
  | some b =>
    rw [hf] at hsize
    simp only [Except.ok.injEq] at hsize
    subst hsize
    refine ⟨b, _, r.1, rfl, fileElem_says _ fid (pathBase path) b.length, href, ?_⟩
    cases file with
    | some i =>
      simp only [Except.ok.injEq, Prod.mk.injEq] at h
      obtain ⟨rfl, rfl⟩ := h
      refine ⟨rfl, rfl, ⟨_, rfl⟩, ?_, by simp⟩
      rintro i' ⟨⟩
      exact ⟨rfl, setChildren_children _ _, rfl⟩
    | none =>
      simp only [Except.ok.injEq, Prod.mk.injEq] at h
      obtain ⟨rfl, rfl⟩ := h
      refine ⟨rfl, rfl, ⟨_, rfl⟩, by simp, ?_⟩
      intro _
      refine ⟨setChildren_children _ _, rfl, ?_, ?_⟩
      · rintro rfl
        cases hpos; rfl
      · rintro j rfl
        exact hpos

/-- **C66.** A successful `add-file` changes one entry of References and nothing else among the entries, the disks and
the hardware.  The entry carries the identifier, the base name and the size of the file.  Either it is a new last entry,
and no File had the name (or the identifier, if one was given); or it replaces the File that had the name or the
identifier, keeping its identifier unless another one was given, and the user agreed to exactly that replacement. -/
theorem C66_add_file {c : Ctx} {ask : Prompt → Bool} {p p' : Pkg} {path : Str} {fid : Option Str} (wf : HwWF c.env p.hw)
    (h : addFileCmd c ask p path fid = .ok p') :
    ∃ b e id, c.fs.file (absName c.fs path) = some b ∧ FileSays c.env.ver e id (pathBase path) b.length ∧
      (∀ s, fid = some s → id = s) ∧ p'.disks = p.disks ∧ p'.hw = p.hw ∧ (∃ cs', p'.refs = p.refs.setChildren cs') ∧
      ((p'.refs.children = p.refs.children ++ [e] ∧
          (∀ o ∈ p.refs.children, ¬ FileWith c.env.ver (fileHref c.env.ver) (pathBase path) o) ∧
          (∀ s, fid = some s → ∀ o ∈ p.refs.children, ¬ FileWith c.env.ver (fileId c.env.ver) s o) ∧
          (fid = none → id = pathBase path)) ∨
        (∃ i old, p.refs.children[i]? = some old ∧ p'.refs.children = p.refs.children.set i e ∧
          (OnlyAt p.refs.children (FileWith c.env.ver (fileHref c.env.ver) (pathBase path)) i ∨
            (∀ o ∈ p.refs.children, ¬ FileWith c.env.ver (fileHref c.env.ver) (pathBase path) o) ∧
              ∃ s, fid = some s ∧ OnlyAt p.refs.children (FileWith c.env.ver (fileId c.env.ver) s) i) ∧
          (∀ s, fid = some s → ∀ j o, p.refs.children[j]? = some o → FileWith c.env.ver (fileId c.env.ver) s o → j = i) ∧
          (fid = none → old.get (fileId c.env.ver) = some id) ∧
          ask (.replaceFile (old.get (fileHref c.env.ver)) path) = true)) := by
  unfold addFileCmd at h
  simp only at h
  obtain ⟨r1, hr1, h⟩ := bind_ok_inv h
  obtain ⟨f, hf, h⟩ := bind_ok_inv h
  obtain ⟨id, hid, h⟩ := bind_ok_inv h
  obtain ⟨_, hask, h⟩ := bind_ok_inv h
  obtain ⟨⟨n, p2⟩, hadd, h⟩ := bind_ok_inv h
  simp only [Except.ok.injEq] at h
  subst h
  obtain ⟨b, e, r, hb, he, -, hd, hh, hc, hsome, hnone⟩ := addFile_inv hadd
  obtain ⟨-, n1, n2⟩ := C69_by_name wf hr1
  refine ⟨b, e, id, hb, he, ?_, hd, hh, hc, ?_⟩
  · rintro s rfl; cases hid; rfl
  · cases f with
    | none =>
      left
      obtain ⟨q1, -, q2, -⟩ := hnone rfl
      have hn := q2 rfl
      rw [hn, List.take_length, List.drop_length] at q1
      have hr1f : r1.file = none ∧ ∀ s, fid = some s → ∀ o ∈ p.refs.children, ¬ FileWith c.env.ver (fileId c.env.ver) s o := by
        cases fid with
        | none =>
          simp only [Except.ok.injEq] at hf
          exact ⟨hf, by simp⟩
        | some s =>
          simp only at hf
          cases hs : searchFromFileId c.env p (some s) with
          | error e => rw [hs] at hf; cases hf
          | ok r2 =>
            rw [hs] at hf
            have hn := (C17_check_for_conflict [r1.file, r2.file]).2.1.1 hf
            have a1 : r1.file = none := by
              cases hx : r1.file with
              | none => rfl
              | some x => exact absurd (by simp [hx]) (hn x)
            have a2 : r2.file = none := by
              cases hx : r2.file with
              | none => rfl
              | some x => exact absurd (by simp [hx]) (hn x)
            refine ⟨a1, ?_⟩
            rintro s' ⟨⟩
            exact ((C69_by_id wf hs).2.2 a2).2.1
      refine ⟨q1, (n2 hr1f.1).2, hr1f.2, ?_⟩
      rintro rfl
      cases hid; rfl
    | some i =>
      right
      obtain ⟨-, q1, -⟩ := hsome i rfl
      have key : (OnlyAt p.refs.children (FileWith c.env.ver (fileHref c.env.ver) (pathBase path)) i ∨
            (∀ o ∈ p.refs.children, ¬ FileWith c.env.ver (fileHref c.env.ver) (pathBase path) o) ∧
              ∃ s, fid = some s ∧ OnlyAt p.refs.children (FileWith c.env.ver (fileId c.env.ver) s) i) ∧
          (∀ s, fid = some s → ∀ j o, p.refs.children[j]? = some o → FileWith c.env.ver (fileId c.env.ver) s o → j = i) := by
        cases fid with
        | none =>
          simp only [Except.ok.injEq] at hf
          exact ⟨Or.inl (n1 i hf), by simp⟩
        | some s =>
          simp only at hf
          cases hs : searchFromFileId c.env p (some s) with
          | error e => rw [hs] at hf; cases hf
          | ok r2 =>
            rw [hs] at hf
            obtain ⟨m1, m2⟩ := ((C17_check_for_conflict [r1.file, r2.file]).1 i).1 hf
            obtain ⟨-, i1, i2⟩ := C69_by_id wf hs
            constructor
            · cases hx : r1.file with
              | some i' =>
                have := m2 i' (by simp [hx])
                subst this
                exact Or.inl (n1 _ hx)
              | none =>
                refine Or.inr ⟨(n2 hx).2, s, rfl, i1 i ?_⟩
                simp only [hx, List.mem_cons, List.not_mem_nil, or_false, reduceCtorEq, false_or] at m1
                exact m1.symm
            · rintro s' ⟨⟩ j o ho hfw
              cases hx : r2.file with
              | none => exact absurd hfw ((i2 hx).2.1 o (List.mem_of_getElem? ho))
              | some i' =>
                have := m2 i' (by simp [hx])
                subst this
                exact (i1 _ hx).2 j o ho hfw
      have hold : ∃ old, p.refs.children[i]? = some old := by
        rcases key.1 with ho | ⟨-, s, -, ho⟩
        · obtain ⟨⟨o, ho, -⟩, -⟩ := ho; exact ⟨o, ho⟩
        · obtain ⟨⟨o, ho, -⟩, -⟩ := ho; exact ⟨o, ho⟩
      obtain ⟨old, hold⟩ := hold
      refine ⟨i, old, hold, q1, key.1, key.2, ?_, ?_⟩
      · rintro rfl
        simp only [attrOf_eq hold] at hid
        cases hg : old.get (fileId c.env.ver) with
        | none => rw [hg] at hid; cases hid
        | some s => rw [hg] at hid; cases hid; rfl
      · simp only [attrOf_eq hold, orDie] at hask
        split at hask
        · assumption
        · cases hask

theorem Distinct.snoc {cs : List Elem} {tag key s : Str} {e : Elem} (h : Distinct cs tag key) (he : e.get key = some s)
    (hn : ∀ o ∈ cs, ¬ (o.tag = tag ∧ o.get key = some s)) : Distinct (cs ++ [e]) tag key := by
  intro i j x y t hx hy tx ty gx gy
  have aux : ∀ (k : Nat) (z : Elem), (cs ++ [e])[k]? = some z → (cs[k]? = some z ∧ k < cs.length) ∨ (k = cs.length ∧ z = e) := by
    intro k z hz
    by_cases hk : k < cs.length
    · left; rw [List.getElem?_append_left hk] at hz; exact ⟨hz, hk⟩
    · right
      rw [List.getElem?_append_right (by omega)] at hz
      have : k - cs.length = 0 := by
        by_contra hc
        rw [List.getElem?_eq_none (by simp; omega)] at hz; cases hz
      rw [this] at hz; simp at hz
      exact ⟨by omega, hz.symm⟩
  rcases aux i x hx with ⟨hx', -⟩ | ⟨hi, rfl⟩ <;> rcases aux j y hy with ⟨hy', -⟩ | ⟨hj, rfl⟩
  · exact h i j x y t hx' hy' tx ty gx gy
  · rw [he] at gy; cases gy
    exact absurd ⟨tx, gx⟩ (hn x (List.mem_of_getElem? hx'))
  · rw [he] at gx; cases gx
    exact absurd ⟨ty, gy⟩ (hn y (List.mem_of_getElem? hy'))
  · omega

theorem Distinct.set {cs : List Elem} {tag key s : Str} {e : Elem} {i : Nat} (h : Distinct cs tag key)
    (he : e.get key = some s) (hn : ∀ j o, cs[j]? = some o → o.tag = tag → o.get key = some s → j = i) :
    Distinct (cs.set i e) tag key := by
  intro a b x y t hx hy tx ty gx gy
  have aux : ∀ (k : Nat) (z : Elem), (cs.set i e)[k]? = some z → (k = i ∧ z = e) ∨ (k ≠ i ∧ cs[k]? = some z) := by
    intro k z hz
    rw [List.getElem?_set] at hz
    by_cases hk : i = k
    · rw [if_pos hk] at hz
      split at hz
      · cases hz; exact Or.inl ⟨hk.symm, rfl⟩
      · cases hz
    · rw [if_neg hk] at hz; exact Or.inr ⟨fun h => hk h.symm, hz⟩
  rcases aux a x hx with ⟨ha, rfl⟩ | ⟨ha, hx'⟩ <;> rcases aux b y hy with ⟨hb, rfl⟩ | ⟨hb, hy'⟩
  · omega
  · rw [he] at gx; cases gx
    exact absurd (hn b y hy' ty gy) hb
  · rw [he] at gy; cases gy
    exact absurd (hn a x hx' tx gx) ha
  · exact h a b x y t hx' hy' tx ty gx gy

/-- **C66**, names and identifiers: if no two Files share a name, none do after `add-file`; the same holds for the
identifiers if the user gives one. -/
theorem C66_distinct_partial {c : Ctx} {ask : Prompt → Bool} {p p' : Pkg} {path : Str} {fid : Option Str} (wf : HwWF c.env p.hw)
    (h : addFileCmd c ask p path fid = .ok p') :
    (Distinct p.refs.children (fileTag c.env.ver) (fileHref c.env.ver) →
      Distinct p'.refs.children (fileTag c.env.ver) (fileHref c.env.ver)) ∧
    (fid ≠ none → Distinct p.refs.children (fileTag c.env.ver) (fileId c.env.ver) →
      Distinct p'.refs.children (fileTag c.env.ver) (fileId c.env.ver)) := by
  obtain ⟨b, e, id, -, he, hid, -, -, -, hcase⟩ := C66_add_file wf h
  constructor
  · intro hd
    rcases hcase with ⟨q, n, -, -⟩ | ⟨i, old, ho, q, hk, -⟩
    · rw [q]; exact hd.snoc he.href n
    · rw [q]
      refine hd.set he.href ?_
      intro j o hj ht hg
      rcases hk with hk | ⟨hk, -⟩
      · exact hk.2 j o hj ⟨ht, hg⟩
      · exact absurd ⟨ht, hg⟩ (hk o (List.mem_of_getElem? hj))
  · intro hne hd
    obtain ⟨s, rfl⟩ : ∃ s, fid = some s := by
      cases fid with
      | none => exact absurd rfl hne
      | some s => exact ⟨s, rfl⟩
    have := hid s rfl; subst this
    rcases hcase with ⟨q, -, n, -⟩ | ⟨i, old, ho, q, -, hk, -⟩
    · rw [q]; exact hd.snoc he.id (n _ rfl)
    · rw [q]
      refine hd.set he.id ?_
      intro j o hj ht hg
      exact hk _ rfl j o hj ⟨ht, hg⟩

/-- **C66**, the disks keep their files: if no identifier is given, every identifier that a File had is still there,
so no Disk or device loses the File it refers to. -/
theorem C66_kept {c : Ctx} {ask : Prompt → Bool} {p p' : Pkg} {path : Str} (wf : HwWF c.env p.hw)
    (h : addFileCmd c ask p path none = .ok p') {s : Str} {o : Elem} (ho : o ∈ p.refs.children)
    (hs : FileWith c.env.ver (fileId c.env.ver) s o) :
    ∃ o' ∈ p'.refs.children, FileWith c.env.ver (fileId c.env.ver) s o' := by
  obtain ⟨b, e, id, -, he, -, -, -, -, hcase⟩ := C66_add_file wf h
  rcases hcase with ⟨q, -, -, -⟩ | ⟨i, old, hold, q, -, -, hk, -⟩
  · rw [q]; exact ⟨o, by simp [ho], hs⟩
  · obtain ⟨j, hj⟩ := List.mem_iff_getElem?.1 ho
    by_cases hij : i = j
    · subst hij
      rw [hold] at hj; cases hj
      have h1 := hk rfl
      rw [hs.2] at h1; cases h1
      refine ⟨e, ?_, he.isFile, he.id⟩
      rw [q]
      refine List.mem_iff_getElem?.2 ⟨i, ?_⟩
      rw [List.getElem?_set, if_pos rfl, if_pos (List.getElem?_eq_some_iff.1 hold).1]
    · refine ⟨o, ?_, hs⟩
      rw [q]
      exact List.mem_iff_getElem?.2 ⟨j, by rw [List.getElem?_set, if_neg hij]; exact hj⟩

/-- **C66**, the file itself: the package remembers where the file is, so that its content is what goes into the
package; the files behind other names are as before, except that a replaced File's is forgotten. -/
theorem C66_reference {c : Ctx} {ask : Prompt → Bool} {p p' : Pkg} {path : Str} {fid : Option Str}
    (hcwd : c.fs.cwd.head? = some '/')
    (hname : pathBase path ≠ [] ∧ pathBase path ≠ ['.'] ∧ pathBase path ≠ ['.', '.'])
    (h : addFileCmd c ask p path fid = .ok p') :
    ∃ b r, c.fs.file (absName c.fs path) = some b ∧ dget? p'.files (pathBase path) = some r ∧ r.inTar = false ∧
      r.content c.fs = .ok b ∧
      ∀ n, n ≠ pathBase path → dget? p'.files n = dget? p.files n ∨
        (dget? p'.files n = none ∧ ∃ (i : Nat) (old : Elem), p.refs.children[i]? = some old ∧ old.get (fileHref c.env.ver) = some n ∧
          (p'.refs.children[i]?).bind (fun e : Elem => e.get (fileHref c.env.ver)) = some (pathBase path)) := by
  unfold addFileCmd at h
  simp only at h
  obtain ⟨r1, hr1, h⟩ := bind_ok_inv h
  obtain ⟨f, hf, h⟩ := bind_ok_inv h
  obtain ⟨id, hid, h⟩ := bind_ok_inv h
  obtain ⟨_, hask, h⟩ := bind_ok_inv h
  obtain ⟨⟨n, p2⟩, hadd, h⟩ := bind_ok_inv h
  simp only [Except.ok.injEq] at h
  subst h
  obtain ⟨b, e, r, hb, he, hr, -, -, -, hsome, hnone⟩ := addFile_inv hadd
  have hcont : r.content c.fs = .ok b := by
    unfold FRef.content
    rw [hr.onDisk, hr.dir, hr.name, abs_dir_name hcwd hname.1 hname.2.1 hname.2.2, hb]
    rfl
  cases f with
  | none =>
    obtain ⟨-, q, -⟩ := hnone rfl
    refine ⟨b, r, hb, ?_, hr.onDisk, hcont, ?_⟩
    · rw [q, dget?_dset, if_pos rfl]
    · intro m hm
      rw [q, dget?_dset, if_neg (Ne.symm hm)]
      exact Or.inl rfl
  | some i =>
    obtain ⟨-, q0, q⟩ := hsome i rfl
    refine ⟨b, r, hb, ?_, hr.onDisk, hcont, ?_⟩
    · rw [q, dget?_dset, if_pos rfl]
    · intro m hm
      rw [q, dget?_dset, if_neg (Ne.symm hm)]
      unfold dropRef
      cases ha : attrOf p.refs.children i (fileHref c.env.ver) with
      | none => exact Or.inl rfl
      | some x =>
        simp only
        by_cases hxm : x = m
        · subst hxm
          obtain ⟨old, ho, hg⟩ := attrOf_some ha
          refine Or.inr ⟨by rw [dget?_ddel, if_pos rfl], i, old, ho, hg, ?_⟩
          rw [q0, List.getElem?_set, if_pos rfl, if_pos (List.getElem?_eq_some_iff.1 ho).1]
          exact he.href
        · exact Or.inl (by rw [dget?_ddel, if_neg hxm])

/-! ### Cases -/

/-- the file system: three files in /d -/
def exFs : Fs :=
  { cwd := "/d".toList
    file := fun p => if p = "/d/new.iso".toList then some [1, 2, 3] else if p = "/d/vmdk".toList then some [7, 7]
      else if p = "/d/d.vmdk".toList then some [5] else none
    isDir := fun p => decide (p = "/d".toList)
    tar := fun _ => none }

def exCtx : Ctx := { env := exEnv, py := .py3, fs := exFs, digest := fun _ _ => .error .ioError, algo := none }

/-- a new file -/
example : (addFileCmd exCtx (fun _ => false) exPkg "new.iso".toList none).map (fun p => p.refs.children) =
    .ok [exFileE "vmdk".toList "d.vmdk".toList "10".toList, exFileE "iso".toList "c.iso".toList "20".toList,
      exFileE "new.iso".toList "new.iso".toList "3".toList] := rfl

/-- an old file, with and without consent -/
example : (addFileCmd exCtx (fun _ => true) exPkg "new.iso".toList (some "iso".toList)).map (fun p => p.refs.children) =
    .ok [exFileE "vmdk".toList "d.vmdk".toList "10".toList, exFileE "iso".toList "new.iso".toList "3".toList] := rfl
example : addFileCmd exCtx (fun _ => false) exPkg "new.iso".toList (some "iso".toList) = .error .systemExit := rfl

/-- **C66 fails** for default identifiers: without `--file-id` the base name is used as identifier even if another File
already has it, and then two Files share an identifier. -/
theorem C66_duplicate_id_fails : ∃ p', addFileCmd exCtx (fun _ => true) exPkg "vmdk".toList none = .ok p' ∧
    Distinct exPkg.refs.children (fileTag .v1) (fileId .v1) ∧ ¬ Distinct p'.refs.children (fileTag .v1) (fileId .v1) := by
  refine ⟨_, rfl, ?_, ?_⟩
  · intro i j e f s hi hj te tf ge gf
    have hI := List.mem_of_getElem? hi
    have hJ := List.mem_of_getElem? hj
    match i, j, hi, hj with
    | 0, 0, _, _ => rfl
    | 1, 1, _, _ => rfl
    | 0, 1, hi, hj => cases hi; cases hj; cases ge; exact absurd gf (by decide +kernel)
    | 1, 0, hi, hj => cases hi; cases hj; cases ge; exact absurd gf (by decide +kernel)
    | n + 2, _, hi, _ => cases hi
    | _, n + 2, _, hj => cases hj
  · intro h
    have := h 0 2 _ _ "vmdk".toList rfl rfl rfl rfl rfl rfl
    cases this

/-- **C66 fails** for a changed identifier: replacing a file under another identifier leaves the Disk that was on it
without a File. -/
theorem C66_dangling_fails : ∃ p' d, addFileCmd exCtx (fun _ => true) exPkg "d.vmdk".toList (some "other".toList) = .ok p' ∧
    d ∈ p'.diskList ∧ DiskWith .v1 (diskFileRef .v1) "vmdk".toList d ∧
    (∃ o ∈ exPkg.refs.children, FileWith .v1 (fileId .v1) "vmdk".toList o) ∧
    ∀ o ∈ p'.refs.children, ¬ FileWith .v1 (fileId .v1) "vmdk".toList o := by
  refine ⟨_, exDiskE "vmdisk1".toList "vmdk".toList "1000".toList, rfl, ?_, ⟨rfl, rfl⟩, ?_, ?_⟩
  · exact List.mem_of_getElem? (i := 1) rfl
  · exact ⟨_, List.mem_of_getElem? (i := 0) rfl, rfl, rfl⟩
  · refine findPos_none.1 ?_
    rfl

end Cot
