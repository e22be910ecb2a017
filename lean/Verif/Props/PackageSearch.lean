import Verif.Lemmas.Package
import Verif.Props.Disks
import Verif.Props.Archive
/-
C69: searches for the parts of a package return parts that belong together.
-/
namespace Cot

theorem attrOf_some {cs : List Elem} {i : Nat} {key s : Str} (h : attrOf cs i key = some s) :
    ∃ e, cs[i]? = some e ∧ e.get key = some s := by
  unfold attrOf at h
  cases hc : cs[i]? with
  | none => rw [hc] at h; cases h
  | some e => rw [hc] at h; exact ⟨e, rfl, h⟩

theorem attrOf_eq {cs : List Elem} {i : Nat} {key : Str} {e : Elem} (h : cs[i]? = some e) :
    attrOf cs i key = e.get key := by unfold attrOf; rw [h]

theorem findDisk_some {v : Ver} {p : Pkg} {fid : Option Str} {j : Nat} (h : findDiskFromFileId v p fid = .ok (some j)) :
    ∃ f, fid = some f ∧ OnlyAt p.diskList (DiskWith v (diskFileRef v) f) j := by
  unfold findDiskFromFileId at h
  unfold Pkg.diskList
  cases fid with
  | none => cases h
  | some f =>
    cases hd : p.disks with
    | none => rw [hd] at h; cases h
    | some d => rw [hd] at h; exact ⟨f, rfl, findPos_some.1 h⟩

theorem findDisk_none {v : Ver} {p : Pkg} {f : Str} (h : findDiskFromFileId v p (some f) = .ok none) :
    ∀ d ∈ p.diskList, ¬ DiskWith v (diskFileRef v) f d := by
  unfold findDiskFromFileId at h
  unfold Pkg.diskList
  cases hd : p.disks with
  | none => simp
  | some d => rw [hd] at h; exact findPos_none.1 h

theorem findItemFromFile_some {env : Env} {p : Pkg} {o : Option Nat} {k : Str}
    (h : findItemFromFile env p o = .ok (some k)) :
    ∃ i e fid it, o = some i ∧ p.refs.children[i]? = some e ∧ e.get (fileId env.ver) = some fid ∧
      dget? p.hw k = some it ∧ InDefault env it ∧ UsesFile env.ver it fid := by
  unfold findItemFromFile at h
  cases o with
  | none => cases h
  | some i =>
    obtain ⟨s, it, h1, h2, h3, h4⟩ := itemFromRef_some h
    obtain ⟨e, he, hs⟩ := attrOf_some h1
    exact ⟨i, e, s, it, rfl, he, hs, h2, h3, h4⟩

theorem findItemFromDisk_some {env : Env} {p : Pkg} {o : Option Nat} {k : Str}
    (h : findItemFromDisk env p o = .ok (some k)) :
    ∃ j d did it, o = some j ∧ p.diskList[j]? = some d ∧ d.get (diskId env.ver) = some did ∧
      dget? p.hw k = some it ∧ InDefault env it ∧ UsesDisk env.ver it did := by
  unfold findItemFromDisk at h
  cases o with
  | none => cases h
  | some i =>
    obtain ⟨s, it, h1, h2, h3, h4⟩ := itemFromRef_some h
    obtain ⟨e, he, hs⟩ := attrOf_some h1
    exact ⟨i, e, s, it, rfl, he, hs, h2, h3, h4⟩

theorem findItemFromFile_none {env : Env} {p : Pkg} {i : Nat} {e : Elem} {fid : Str}
    (h : findItemFromFile env p (some i) = .ok none) (he : p.refs.children[i]? = some e)
    (hf : e.get (fileId env.ver) = some fid) :
    ∀ k it, dget? p.hw k = some it → InDefault env it → ¬ UsesFile env.ver it fid := by
  obtain ⟨s, h1, h2⟩ := itemFromRef_none h
  rw [attrOf_eq he, hf] at h1; cases h1
  exact h2

theorem findItemFromDisk_none {env : Env} {p : Pkg} {i : Nat} {e : Elem} {did : Str}
    (h : findItemFromDisk env p (some i) = .ok none) (he : p.diskList[i]? = some e)
    (hf : e.get (diskId env.ver) = some did) :
    ∀ k it, dget? p.hw k = some it → InDefault env it → ¬ UsesDisk env.ver it did := by
  obtain ⟨s, h1, h2⟩ := itemFromRef_none h
  rw [attrOf_eq he, hf] at h1; cases h1
  exact h2

theorem devicesOf_inv {env : Env} {p : Pkg} {f d : Option Nat} {r : Found} (wf : HwWF env p.hw)
    (h : devicesOf env p f d = .ok r) : r.file = f ∧ r.disk = d ∧
      (∀ k, r.dev = some k → ∃ it c ci, dget? p.hw k = some it ∧ InDefault env it ∧ RefersTo env.ver p r it ∧
        r.ctrl = some c ∧ dget? p.hw c = some ci ∧ ChildOf it c) ∧
      (r.dev = none → r.ctrl = none ∧ ∀ k it, dget? p.hw k = some it → InDefault env it → ¬ RefersTo env.ver p r it) := by
  unfold devicesOf at h
  obtain ⟨k1, h1, h⟩ := bind_ok_inv h
  obtain ⟨k2, h2, h⟩ := bind_ok_inv h
  obtain ⟨k, h3, h⟩ := bind_ok_inv h
  obtain ⟨c, h4, h⟩ := bind_ok_inv h
  have hr : r = ⟨f, d, c, k⟩ ∧ (k ≠ none → c ≠ none) := by
    cases k <;> cases c <;> cases h <;> simp
  obtain ⟨rfl, hkc⟩ := hr
  refine ⟨rfl, rfl, ?_, ?_⟩
  · intro k' hk'
    simp only at hk'
    subst hk'
    obtain ⟨hm, -⟩ := ((C17_check_for_conflict [k1, k2]).1 k').1 h3
    obtain ⟨c', rfl⟩ : ∃ c', c = some c' := by
      cases c with
      | none => exact absurd rfl (hkc (by simp))
      | some c' => exact ⟨c', rfl⟩
    obtain ⟨k'', it, ci, he, g1, g2, g3, g4⟩ := findParent_some wf h4
    cases he
    refine ⟨it, c', ci, g1, ?_⟩
    simp only [List.mem_cons, List.not_mem_nil, or_false] at hm
    rcases hm with hm | hm
    · subst hm
      obtain ⟨i, e, fid, it', hi, he, hfid, hit', hd, hu⟩ := findItemFromFile_some h1
      rw [g1] at hit'; cases hit'
      exact ⟨hd, Or.inl ⟨i, e, fid, hi, he, hfid, hu⟩, rfl, g2, g4⟩
    · subst hm
      obtain ⟨i, e, fid, it', hi, he, hfid, hit', hd, hu⟩ := findItemFromDisk_some h2
      rw [g1] at hit'; cases hit'
      exact ⟨hd, Or.inr ⟨i, e, fid, hi, he, hfid, hu⟩, rfl, g2, g4⟩
  · intro hk
    simp only at hk
    subst hk
    have hn := (C17_check_for_conflict [k1, k2]).2.1.1 h3
    have hk1 : k1 = none := by
      cases k1 with
      | none => rfl
      | some x => exact absurd (by simp) (hn x)
    have hk2 : k2 = none := by
      cases k2 with
      | none => rfl
      | some x => exact absurd (by simp) (hn x)
    subst hk1 hk2
    refine ⟨?_, ?_⟩
    · cases h4; rfl
    · rintro k it hk hdft (⟨i, e, fid, hi, he, hfid, hu⟩ | ⟨i, e, fid, hi, he, hfid, hu⟩)
      · simp only at hi; subst hi
        exact findItemFromFile_none h1 he hfid k it hk hdft hu
      · simp only at hi; subst hi
        exact findItemFromDisk_none h2 he hfid k it hk hdft hu

/-- **C69**, by file name.  Whatever `search_from_filename` returns belongs together, the File is the only one with
that name, and if there is none of that name nothing is returned. -/
theorem C69_by_name {env : Env} {p : Pkg} {name : Str} {r : Found} (wf : HwWF env p.hw)
    (h : searchFromFilename env p (some name) = .ok r) :
    Linked env p r ∧
    (∀ i, r.file = some i → OnlyAt p.refs.children (FileWith env.ver (fileHref env.ver) name) i) ∧
    (r.file = none → r = ⟨none, none, none, none⟩ ∧
      ∀ e ∈ p.refs.children, ¬ FileWith env.ver (fileHref env.ver) name e) := by
  unfold searchFromFilename at h
  cases hf : findPos p.refs.children (fileTag env.ver) (fileHref env.ver) (some name) with
  | error e => rw [hf] at h; cases h
  | ok o =>
    rw [hf] at h
    cases o with
    | none =>
      cases h
      refine ⟨⟨by simp, by simp, by simp, ?_⟩, by simp, fun _ => ⟨rfl, findPos_none.1 hf⟩⟩
      intro _
      refine ⟨rfl, ?_⟩
      rintro k it - - (⟨i, _, _, hi, -⟩ | ⟨i, _, _, hi, -⟩) <;> cases hi
    | some i =>
      simp only at h
      cases hd : findDiskFromFileId env.ver p (attrOf p.refs.children i (fileId env.ver)) with
      | error e => rw [hd] at h; cases h
      | ok d =>
        rw [hd] at h
        obtain ⟨e1, e2, e3, e4⟩ := devicesOf_inv wf h
        have ho := findPos_some.1 hf
        refine ⟨⟨?_, ?_, e3, e4⟩, ?_, ?_⟩
        · intro i' j hi' hj
          rw [e1] at hi'; cases hi'
          rw [e2] at hj; subst hj
          obtain ⟨f, hf1, hf2⟩ := findDisk_some hd
          obtain ⟨e, he, hs⟩ := attrOf_some hf1
          exact ⟨e, f, he, hs, hf2⟩
        · intro i' e fid hi' hj he hs
          rw [e1] at hi'; cases hi'
          rw [e2] at hj; subst hj
          rw [attrOf_eq he, hs] at hd
          exact findDisk_none hd
        · intro i' hi'
          rw [e1] at hi'; cases hi'
          exact ho
        · intro hx; rw [e1] at hx; cases hx

/-- **C69**, by file identifier.  Whatever `search_from_file_id` returns belongs together, the File is the only one with
that identifier, and if there is none nothing is returned (a Disk on a File that does not exist is an error). -/
theorem C69_by_id {env : Env} {p : Pkg} {fid : Str} {r : Found} (wf : HwWF env p.hw)
    (h : searchFromFileId env p (some fid) = .ok r) :
    Linked env p r ∧
    (∀ i, r.file = some i → OnlyAt p.refs.children (FileWith env.ver (fileId env.ver) fid) i) ∧
    (r.file = none → r = ⟨none, none, none, none⟩ ∧
      (∀ e ∈ p.refs.children, ¬ FileWith env.ver (fileId env.ver) fid e) ∧
      ∀ d ∈ p.diskList, ¬ DiskWith env.ver (diskFileRef env.ver) fid d) := by
  unfold searchFromFileId at h
  simp only at h
  cases hf : findPos p.refs.children (fileTag env.ver) (fileId env.ver) (some fid) with
  | error e => rw [hf] at h; cases h
  | ok o =>
    rw [hf] at h
    simp only at h
    cases hd : findDiskFromFileId env.ver p (some fid) with
    | error e => rw [hd] at h; cases h
    | ok d =>
      rw [hd] at h
      cases o with
      | none =>
        cases d with
        | some j => cases h
        | none =>
          simp only at h
          obtain ⟨e1, e2, e3, e4⟩ := devicesOf_inv wf h
          refine ⟨⟨by rw [e1]; simp, by rw [e1]; simp, e3, e4⟩, by rw [e1]; simp, fun _ => ⟨?_, findPos_none.1 hf, findDisk_none hd⟩⟩
          cases hdev : r.dev with
          | none =>
            obtain ⟨a, b, c, k⟩ := r
            simp only at e1 e2 hdev
            subst e1 e2 hdev
            have := (e4 rfl).1
            simp only at this; subst this; rfl
          | some k =>
            obtain ⟨it, c, ci, -, -, (⟨i, _, _, hi, -⟩ | ⟨i, _, _, hi, -⟩), -⟩ := e3 k hdev
            · rw [e1] at hi; cases hi
            · rw [e2] at hi; cases hi
      | some i =>
        have ho := findPos_some.1 hf
        simp only at h
        obtain ⟨e1, e2, e3, e4⟩ := devicesOf_inv wf h
        obtain ⟨⟨e, he, -, hid⟩, -⟩ := ho
        refine ⟨⟨?_, ?_, e3, e4⟩, ?_, ?_⟩
        · intro i' j hi' hj
          rw [e1] at hi'; cases hi'
          rw [e2] at hj; subst hj
          obtain ⟨f, hf1, hf2⟩ := findDisk_some hd
          cases hf1
          exact ⟨e, fid, he, hid, hf2⟩
        · intro i' e' fid' hi' hj he' hs
          rw [e1] at hi'; cases hi'
          rw [he] at he'; cases he'
          rw [hid] at hs; cases hs
          rw [e2] at hj; subst hj
          exact findDisk_none hd
        · intro i' hi'
          rw [e1] at hi'; cases hi'
          exact findPos_some.1 hf
        · intro hx; rw [e1] at hx; cases hx

theorem itemFromRef_only {env : Env} {hw : Hw} {new old s : Str} {o : Option Str}
    (hst : new = old ∨ ∀ k it, dget? hw k = some it → ¬ Mapped it (old ++ s))
    (h : itemFromRef env hw new old (some s) = .ok o) {k : Str} {it : Item} (hk : dget? hw k = some it)
    (hd : InDefault env it) (hm : Mapped it (new ++ s) ∨ Mapped it (old ++ s)) : o = some k := by
  have hm' : Mapped it (new ++ s) := by
    rcases hm with hm | hm
    · exact hm
    · rcases hst with rfl | hst
      · exact hm
      · exact absurd hm (hst k it hk)
  unfold itemFromRef at h
  simp only at h
  cases h1 : itemFromResource env hw (new ++ s) with
  | error e => rw [h1] at h; cases h
  | ok o' =>
    rw [h1] at h
    cases o' with
    | none => exact absurd (sought_mapped.2 ⟨hd, hm'⟩) (findItem_none (plain_hr1 _) h1 k it hk)
    | some k1 =>
      cases h
      rw [(findItem_some (plain_hr1 _) h1).2 k it hk (sought_mapped.2 ⟨hd, hm'⟩)]

theorem devicesOf_only {env : Env} {p : Pkg} {f d : Option Nat} {r : Found} (hst : OneStyle env.ver p.hw)
    (h : devicesOf env p f d = .ok r) {k : Str} {it : Item} (hk : dget? p.hw k = some it)
    (hd : InDefault env it) (hm : RefersTo env.ver p r it) : r.dev = some k := by
  unfold devicesOf at h
  obtain ⟨k1, h1, h⟩ := bind_ok_inv h
  obtain ⟨k2, h2, h⟩ := bind_ok_inv h
  obtain ⟨k3, h3, h⟩ := bind_ok_inv h
  obtain ⟨c, h4, h⟩ := bind_ok_inv h
  have hr : r = ⟨f, d, c, k3⟩ := by
    cases k3 <;> cases c <;> cases h <;> rfl
  subst hr
  have hf : hostFileRef env.ver = oldFileRef ∨ ∀ s k it, dget? p.hw k = some it → ¬ Mapped it (oldFileRef ++ s) := by
    rcases hst with hv | hst
    · left; rw [hv]; rfl
    · right; intro s k it hk; exact (hst k it s hk).1
  have hdk : hostDiskRef env.ver = oldDiskRef ∨ ∀ s k it, dget? p.hw k = some it → ¬ Mapped it (oldDiskRef ++ s) := by
    rcases hst with hv | hst
    · left; rw [hv]; rfl
    · right; intro s k it hk; exact (hst k it s hk).2
  show k3 = some k
  have hmem : some k ∈ [k1, k2] := by
    rcases hm with ⟨i, e, fid, hi, he, hid, hu⟩ | ⟨j, e, did, hj, he, hid, hu⟩
    · simp only at hi; subst hi
      unfold findItemFromFile at h1
      simp only [attrOf_eq he, hid] at h1
      rw [itemFromRef_only (hf.imp id (fun h => h fid)) h1 hk hd hu]; simp
    · simp only at hj; subst hj
      unfold findItemFromDisk at h2
      simp only [attrOf_eq he, hid] at h2
      rw [itemFromRef_only (hdk.imp id (fun h => h did)) h2 hk hd hu]; simp
  cases k3 with
  | none => exact absurd hmem ((C17_check_for_conflict [k1, k2]).2.1.1 h3 k)
  | some x =>
    obtain ⟨-, hx⟩ := ((C17_check_for_conflict [k1, k2]).1 x).1 h3
    rw [hx _ hmem]

/-- **C69**, the device is the only one: in a package whose references are all written in one style, every device of the
default configuration that uses the File or the Disk found is the device found. -/
theorem C69_only_device {env : Env} {p : Pkg} {r : Found} (hst : OneStyle env.ver p.hw)
    (h : (∃ name, searchFromFilename env p (some name) = .ok r) ∨ ∃ fid, searchFromFileId env p (some fid) = .ok r)
    {k : Str} {it : Item} (hk : dget? p.hw k = some it) (hd : InDefault env it) (hm : RefersTo env.ver p r it) :
    r.dev = some k := by
  have hempty : ¬ RefersTo env.ver p ⟨none, none, none, none⟩ it := by
    rintro (⟨i, _, _, hi, -⟩ | ⟨i, _, _, hi, -⟩) <;> cases hi
  rcases h with ⟨name, h⟩ | ⟨fid, h⟩
  · unfold searchFromFilename at h
    split at h
    · cases h
    · cases h; exact absurd hm hempty
    · split at h
      · cases h
      · exact devicesOf_only hst h hk hd hm
  · unfold searchFromFileId at h
    simp only at h
    split at h
    · cases h
    · split at h
      · cases h
      · split at h
        · cases h
        · exact devicesOf_only hst h hk hd hm

/-- A consistent disk: a File with this name and identifier, a Disk on it, and a device in the default configuration
that uses the Disk and sits on a controller, each of them the only one of its kind. -/
structure DiskSetUp (env : Env) (p : Pkg) (name fid did : Str) (i j : Nat) (k c : Str) : Prop where
  fileName : OnlyAt p.refs.children (FileWith env.ver (fileHref env.ver) name) i
  fileIdent : OnlyAt p.refs.children (FileWith env.ver (fileId env.ver) fid) i
  onFile : OnlyAt p.diskList (DiskWith env.ver (diskFileRef env.ver) fid) j
  diskIdent : OnlyAt p.diskList (DiskWith env.ver (diskId env.ver) did) j
  device : ∃ it, dget? p.hw k = some it ∧ InDefault env it ∧ UsesDisk env.ver it did ∧ ChildOf it c
  oneDevice : ∀ k' it', dget? p.hw k' = some it' → InDefault env it' → UsesDisk env.ver it' did → k' = k
  notFile : ∀ k' it', dget? p.hw k' = some it' → InDefault env it' → ¬ UsesFile env.ver it' fid
  ctrl : ∃ ci, dget? p.hw c = some ci ∧ InDefault env ci

theorem OnlyAt.unique {cs : List Elem} {P : Elem → Prop} {i : Nat} (h : OnlyAt cs P i) {e : Elem}
    (he : cs[i]? = some e) : P e := by
  obtain ⟨⟨e', h1, h2⟩, -⟩ := h
  rw [he] at h1; cases h1; exact h2

theorem devicesOf_disk {env : Env} {p : Pkg} {name fid did : Str} {i j : Nat} {k c : Str} (wf : HwWF env p.hw)
    (h : DiskSetUp env p name fid did i j k c) : devicesOf env p (some i) (some j) = .ok ⟨some i, some j, some c, some k⟩ := by
  obtain ⟨e, he, -, hfid⟩ := h.fileIdent.1
  obtain ⟨d, hd, -, hdid⟩ := h.diskIdent.1
  obtain ⟨it, g1, g2, g3, g4⟩ := h.device
  obtain ⟨ci, g5, g6⟩ := h.ctrl
  have a1 : findItemFromFile env p (some i) = .ok none := by
    unfold findItemFromFile
    simp only
    rw [attrOf_eq he, hfid]
    exact itemFromRef_absent h.notFile
  have a2 : findItemFromDisk env p (some j) = .ok (some k) := by
    unfold findItemFromDisk
    simp only
    rw [attrOf_eq hd, hdid]
    exact itemFromRef_complete wf.keys g1 g2 g3 h.oneDevice
  have a3 : checkForConflict [none, some k] = .ok (some k) :=
    ((C17_check_for_conflict _).1 k).2 ⟨by simp, by simp⟩
  unfold devicesOf
  simp only [bind, Except.bind, a1, a2, a3, findParent_complete wf g1 g4 g5 g6]

theorem findDisk_complete {v : Ver} {p : Pkg} {fid : Str} {j : Nat}
    (h : OnlyAt p.diskList (DiskWith v (diskFileRef v) fid) j) : findDiskFromFileId v p (some fid) = .ok (some j) := by
  unfold findDiskFromFileId
  unfold Pkg.diskList at h
  cases hd : p.disks with
  | none => rw [hd] at h; obtain ⟨⟨e, he, -⟩, -⟩ := h; simp at he
  | some d => rw [hd] at h; exact findPos_some.2 h

/-- **C69**, completeness: a disk that is set up consistently is found, with all its parts, by the name of its file and
by the identifier of its file alike. -/
theorem C69_found_partial {env : Env} {p : Pkg} {name fid did : Str} {i j : Nat} {k c : Str} (wf : HwWF env p.hw)
    (h : DiskSetUp env p name fid did i j k c) :
    searchFromFilename env p (some name) = .ok ⟨some i, some j, some c, some k⟩ ∧
    searchFromFileId env p (some fid) = .ok ⟨some i, some j, some c, some k⟩ := by
  obtain ⟨e, he, -, hfid⟩ := h.fileIdent.1
  constructor
  · unfold searchFromFilename
    rw [findPos_some.2 h.fileName]
    simp only
    rw [attrOf_eq he, hfid, findDisk_complete h.onFile]
    exact devicesOf_disk wf h
  · unfold searchFromFileId
    simp only
    have : findPos p.refs.children (fileTag env.ver) (fileId env.ver) (some fid) = .ok (some i) :=
      findPos_some.2 h.fileIdent
    rw [this, findDisk_complete h.onFile]
    exact devicesOf_disk wf h

/-- **C69**, by controller type and address.  The controller found is the only one of its type with that address, and
the device is the only one at its address on that controller. -/
theorem C69_by_address {env : Env} {p : Pkg} {ctype ca da : Str} {r : Found} (wf : HwWF env p.hw)
    (hne : ctype ≠ []) (hca : ':' ∉ ca) (hda : ':' ∉ da)
    (h : searchFromController env p (some ctype) (some (ca ++ ':' :: da)) = .ok r) :
    (∀ c, r.ctrl = some c → ∃ code ci, resourceCode ctype = .ok code ∧ dget? p.hw c = some ci ∧ InDefault env ci ∧
      OfType ci code ∧ (∃ S, ci.tab address = [(.str ca, S)]) ∧
      ∀ c' ci', dget? p.hw c' = some ci' → InDefault env ci' → OfType ci' code →
        (∃ S, ci'.tab address = [(.str ca, S)]) → c' = c) ∧
    (∀ k, r.dev = some k → ∃ c it, r.ctrl = some c ∧ dget? p.hw k = some it ∧ InDefault env it ∧ ChildOf it c ∧
      (∃ S, it.tab addressOnParent = [(.str da, S)]) ∧
      ∀ k' it', dget? p.hw k' = some it' → InDefault env it' → ChildOf it' c →
        (∃ S, it'.tab addressOnParent = [(.str da, S)]) → k' = k) ∧
    (r.ctrl = none → r = ⟨none, none, none, none⟩ ∧ ∀ code, resourceCode ctype = .ok code →
      ∀ c' ci', dget? p.hw c' = some ci' → InDefault env ci' → OfType ci' code →
        ¬ ∃ S, ci'.tab address = [(.str ca, S)]) ∧
    (∀ c, r.ctrl = some c → r.dev = none → r.file = none ∧ r.disk = none ∧
      ∀ k' it', dget? p.hw k' = some it' → InDefault env it' → ChildOf it' c →
        ¬ ∃ S, it'.tab addressOnParent = [(.str da, S)]) := by
  have plainA : ∀ kv ∈ [(address, some (Val.str ca))], Plain env kv.1 := by
    intro kv hkv; simp at hkv; subst hkv; exact plain_address env
  have hsA : ∀ it, Sought env (some ctype) [(address, some (Val.str ca))] it ↔
      (∃ code, resourceCode ctype = .ok code ∧ OfType it code) ∧ InDefault env it ∧ ∃ S, it.tab address = [(.str ca, S)] := by
    intro it; unfold Sought TypeIs; simp [getRaw_none_eq, hne]
  unfold searchFromController at h
  simp only [splitOnChar_pair hca hda] at h
  obtain ⟨o, ho, h⟩ := bind_ok_inv h
  cases o with
  | none =>
    cases h
    refine ⟨by simp, by simp, fun _ => ⟨rfl, ?_⟩, by simp⟩
    intro code hcode c' ci' g1 g2 g3 g4
    exact findItem_none plainA ho c' ci' g1 ((hsA ci').2 ⟨⟨code, hcode, g3⟩, g2, g4⟩)
  | some c =>
    simp only at h
    obtain ⟨inst, hinst, h⟩ := bind_ok_inv h
    obtain ⟨⟨ci, b1, b2⟩, b3⟩ := findItem_some plainA ho
    obtain ⟨⟨code, b4, b5⟩, b6, b7⟩ := (hsA ci).1 b2
    have hC : ∃ code ci, resourceCode ctype = .ok code ∧ dget? p.hw c = some ci ∧ InDefault env ci ∧
        OfType ci code ∧ (∃ S, ci.tab address = [(.str ca, S)]) ∧
        ∀ c' ci', dget? p.hw c' = some ci' → InDefault env ci' → OfType ci' code →
          (∃ S, ci'.tab address = [(.str ca, S)]) → c' = c :=
      ⟨code, ci, b4, b1, b6, b5, b7, fun c' ci' g1 g2 g3 g4 => b3 c' ci' g1 ((hsA ci').2 ⟨⟨code, b4, g3⟩, g2, g4⟩)⟩
    have hin : inst = some (.str c) := by
      unfold valueAt at hinst
      simp only [b1, getValue_plain (plain_iid env), Except.ok.injEq] at hinst
      obtain ⟨wc, S, hS⟩ := wf.get b1
      unfold tagTab at hS
      by_cases hSe : S = ∅
      · rw [if_pos hSe] at hS
        exfalso
        unfold InDefault Item.hasProfile Item.allProfiles at b6
        unfold Item.tab at hS
        cases hd : dget? ci.props (instanceId env.ver) with
        | none => rw [hd] at b6; simp at b6
        | some t => rw [hd] at hS b6; simp only [Option.getD_some] at hS; subst hS; simp at b6
      · rw [if_neg hSe] at hS
        rw [← hinst]; exact getRaw_none_eq.2 ⟨S, hS⟩
    subst hin
    have plainD : ∀ kv ∈ [(parentName, some (Val.str c)), (addressOnParent, some (Val.str da))], Plain env kv.1 := by
      intro kv hkv
      simp at hkv
      rcases hkv with rfl | rfl
      · exact plain_parent env
      · exact plain_aop env
    have hsD : ∀ it, Sought env none [(parentName, some (Val.str c)), (addressOnParent, some (Val.str da))] it ↔
        InDefault env it ∧ ChildOf it c ∧ ∃ S, it.tab addressOnParent = [(.str da, S)] := by
      intro it; unfold Sought TypeIs ChildOf; simp [getRaw_none_eq]
    obtain ⟨od, hod, h⟩ := bind_ok_inv h
    cases od with
    | none =>
      cases h
      refine ⟨fun c' hc' => by cases hc'; exact hC, by simp, by simp, ?_⟩
      intro c' hc' _
      cases hc'
      exact ⟨rfl, rfl, fun k' it' g1 g2 g3 g4 => findItem_none plainD hod k' it' g1 ((hsD it').2 ⟨g2, g3, g4⟩)⟩
    | some k =>
      simp only at h
      obtain ⟨⟨it, d1, d2⟩, d3⟩ := findItem_some plainD hod
      obtain ⟨d4, d5, d6⟩ := (hsD it).1 d2
      obtain ⟨hr, hhr, h⟩ := bind_ok_inv h
      have hfin : r.ctrl = some c ∧ r.dev = some k := by
        cases hr with
        | none => cases h; exact ⟨rfl, rfl⟩
        | some v =>
          simp only at h
          obtain ⟨s, hs, h⟩ := bind_ok_inv h
          obtain ⟨fd, hfd, h⟩ := bind_ok_inv h
          cases h; exact ⟨rfl, rfl⟩
      obtain ⟨f1, f2⟩ := hfin
      refine ⟨?_, ?_, by rw [f1]; simp, by rw [f2]; simp⟩
      · intro c' hc'; rw [f1] at hc'; cases hc'; exact hC
      · intro k' hk'
        rw [f2] at hk'; cases hk'
        exact ⟨c, it, f1, d1, d4, d5, d6, fun k' it' g1 g2 g3 g4 => d3 k' it' g1 ((hsD it').2 ⟨g2, g3, g4⟩)⟩

theorem isDiskRef_new (v : Ver) (s : Str) : isDiskRef v (hostDiskRef v ++ s) = true := by
  unfold isDiskRef
  rw [show startsWith (hostDiskRef v ++ s) (hostDiskRef v) = true from startsWith_iff.2 ⟨s, rfl⟩]; rfl

theorem isDiskRef_old (v : Ver) (s : Str) : isDiskRef v ("/disk/".toList ++ s) = true := by
  unfold isDiskRef
  rw [show startsWith ("/disk/".toList ++ s) oldDiskRef = true from startsWith_iff.2 ⟨s, rfl⟩]; simp

theorem base_disk_new (v : Ver) {s : Str} (h : '/' ∉ s) : pathBase (hostDiskRef v ++ s) = s :=
  pathBase_of_noslash h _ (Or.inr (by cases v <;> rfl))

theorem base_disk_old {s : Str} (h : '/' ∉ s) : pathBase ("/disk/".toList ++ s) = s :=
  pathBase_of_noslash h _ (Or.inr rfl)

theorem usesDisk_value {v : Ver} {it : Item} {did : Str} (hs : '/' ∉ did) (h : UsesDisk v it did) :
    ∃ s, it.getRaw hostResource none = some (.str s) ∧ isDiskRef v s = true ∧ pathBase s = did := by
  rcases h with h | h
  · exact ⟨_, getRaw_none_eq.2 h, isDiskRef_new v did, base_disk_new v hs⟩
  · exact ⟨_, getRaw_none_eq.2 h, isDiskRef_old v did, base_disk_old hs⟩

/-- **C69**, completeness by address: the same disk is found by its address, if its identifier has no slash and no other
controller or device shares the addresses. -/
theorem C69_found_by_address_partial {env : Env} {p : Pkg} {name fid did : Str} {i j : Nat} {k c ctype code ca da : Str}
    (wf : HwWF env p.hw) (h : DiskSetUp env p name fid did i j k c) (hslash : '/' ∉ did)
    (hcode : resourceCode ctype = .ok code) (hca : ':' ∉ ca) (hda : ':' ∉ da)
    (hc : ∀ c' ci', dget? p.hw c' = some ci' → InDefault env ci' →
      ((OfType ci' code ∧ ∃ S, ci'.tab address = [(.str ca, S)]) ↔ c' = c))
    (hk : ∀ k' it', dget? p.hw k' = some it' → InDefault env it' →
      ((ChildOf it' c ∧ ∃ S, it'.tab addressOnParent = [(.str da, S)]) ↔ k' = k)) :
    searchFromController env p (some ctype) (some (ca ++ ':' :: da)) = .ok ⟨some i, some j, some c, some k⟩ := by
  obtain ⟨it, g1, g2, g3, g4⟩ := h.device
  obtain ⟨ci, g5, g6⟩ := h.ctrl
  obtain ⟨d, hd, -, hdid⟩ := h.onFile.1
  have hne := (resourceCode_ne hcode).1
  have plainA : ∀ kv ∈ [(address, some (Val.str ca))], Plain env kv.1 := by
    intro kv hkv; simp at hkv; subst hkv; exact plain_address env
  have hsA : ∀ it, Sought env (some ctype) [(address, some (Val.str ca))] it ↔
      InDefault env it ∧ OfType it code ∧ ∃ S, it.tab address = [(.str ca, S)] := by
    intro it; unfold Sought TypeIs; simp [getRaw_none_eq, hne, hcode]; tauto
  have plainD : ∀ kv ∈ [(parentName, some (Val.str c)), (addressOnParent, some (Val.str da))], Plain env kv.1 := by
    intro kv hkv
    simp at hkv
    rcases hkv with rfl | rfl
    · exact plain_parent env
    · exact plain_aop env
  have hsD : ∀ it, Sought env none [(parentName, some (Val.str c)), (addressOnParent, some (Val.str da))] it ↔
      InDefault env it ∧ ChildOf it c ∧ ∃ S, it.tab addressOnParent = [(.str da, S)] := by
    intro it; unfold Sought TypeIs ChildOf; simp [getRaw_none_eq]
  have a1 : findItem env p.hw (some ctype) [(address, some (Val.str ca))] none = .ok (some c) :=
    findItem_complete wf.keys (by rintro s ⟨⟩; exact ⟨code, hcode⟩) plainA g5
      ((hsA ci).2 ⟨g6, (hc c ci g5 g6).2 rfl⟩) (fun c' ci' h1 h2 => (hc c' ci' h1 ((hsA ci').1 h2).1).1 ((hsA ci').1 h2).2)
  have a2 : valueAt env p.hw c (instanceId env.ver) = .ok (some (.str c)) := by
    unfold valueAt
    simp only [g5, getValue_plain (plain_iid env), Except.ok.injEq]
    exact getRaw_none_eq.2 (default_id wf g5 g6)
  have a3 : findItem env p.hw none [(parentName, some (Val.str c)), (addressOnParent, some (Val.str da))] none = .ok (some k) :=
    findItem_complete wf.keys (by simp) plainD g1 ((hsD it).2 ⟨g2, (hk k it g1 g2).2 rfl⟩)
      (fun k' it' h1 h2 => (hk k' it' h1 ((hsD it').1 h2).1).1 ((hsD it').1 h2).2)
  obtain ⟨s, hs1, hs2, hs3⟩ := usesDisk_value hslash g3
  have a4 : valueAt env p.hw k hostResource = .ok (some (.str s)) := by
    unfold valueAt
    simp only [g1, getValue_plain (plain_hr env), hs1]
  have a5 : fromResource env.ver p s = .ok (some i, some j) := by
    unfold fromResource
    rw [if_pos hs2, hs3]
    have hf := findPos_some.2 h.fileIdent
    have hdd := h.diskIdent
    unfold Pkg.diskList at hdd hd
    cases hds : p.disks with
    | none => rw [hds] at hd; simp at hd
    | some ds =>
      rw [hds] at hdd
      simp only
      rw [show findPos ds.children (diskTag env.ver) (diskId env.ver) (some did) = .ok (some j) from findPos_some.2 hdd]
      simp only [Pkg.diskList, hds]
      rw [hds] at hd
      rw [attrOf_eq hd, hdid]
      rw [show findPos p.refs.children (fileTag env.ver) (fileId env.ver) (some fid) = .ok (some i) from hf]
  unfold searchFromController
  simp only [splitOnChar_pair hca hda, bind, Except.bind, a1, a2, a3, a4, asStr, a5]

/-! ### A package -/

/-- a hard disk and a CD-ROM drive on an IDE controller -/
def exDiskHwL : List (Str × List (Str × Str)) :=
  [("5".toList, [("InstanceID".toList, "5".toList), ("ResourceType".toList, "5".toList), ("Address".toList, "1".toList)]),
   ("8".toList, [("InstanceID".toList, "8".toList), ("ResourceType".toList, "15".toList), ("Parent".toList, "5".toList),
     ("AddressOnParent".toList, "1".toList), ("HostResource".toList, "ovf:/file/iso".toList)]),
   ("9".toList, [("InstanceID".toList, "9".toList), ("ResourceType".toList, "17".toList), ("Parent".toList, "5".toList),
     ("AddressOnParent".toList, "0".toList), ("HostResource".toList, "ovf:/disk/vmdisk1".toList)])]

def exDiskHw : Hw := exDiskHwL.map (fun kv => (kv.1, simpleItem kv.2))

theorem exDiskHw_wf : HwWF exEnv exDiskHw := simpleHw_wf exEnv (by decide +kernel) (by
  have : ∀ kl ∈ exDiskHwL, (dkeys kl.2).Nodup ∧ (∀ ns ∈ kl.2, ns.2 ≠ [] ∧ ns.1 ≠ resourceSubType) ∧
      dget? kl.2 (instanceId exEnv.ver) = some kl.1 := by decide +kernel
  intro id l h
  obtain ⟨h1, h2, h3⟩ := this _ h
  exact ⟨h1, fun n s hm => h2 _ hm, h3⟩)

def exFileE (fid href size : Str) : Elem :=
  .mk (fileTag .v1) [(fileId .v1, fid), (fileHref .v1, href), (fileSize .v1, size)] none none []
def exDiskE (did fid cap : Str) : Elem :=
  .mk (diskTag .v1) [(diskId .v1, did), (diskFileRef .v1, fid), (diskCapacity .v1, cap)] none none []

def exPkg : Pkg :=
  { refs := .mk (ovfTag .v1 "References".toList) [] none none
      [exFileE "vmdk".toList "d.vmdk".toList "10".toList, exFileE "iso".toList "c.iso".toList "20".toList],
    disks := some (.mk (diskSecTag .v1) [] none none
      [.mk (infoTag .v1) [] none none [], exDiskE "vmdisk1".toList "vmdk".toList "1000".toList]),
    hw := exDiskHw,
    files := [("d.vmdk".toList, ⟨false, "/d".toList, "d.vmdk".toList, none, none, none, false⟩),
      ("c.iso".toList, ⟨false, "/d".toList, "c.iso".toList, none, none, none, false⟩)] }

/-- the disk is found from all sides -/
example : searchFromFilename exEnv exPkg (some "d.vmdk".toList) = .ok ⟨some 0, some 1, some "5".toList, some "9".toList⟩ :=
  rfl
example : searchFromFileId exEnv exPkg (some "vmdk".toList) = .ok ⟨some 0, some 1, some "5".toList, some "9".toList⟩ :=
  rfl
example : searchFromController exEnv exPkg (some "ide".toList) (some "1:0".toList) =
    .ok ⟨some 0, some 1, some "5".toList, some "9".toList⟩ := rfl
/-- the CD-ROM drive uses its File directly -/
example : searchFromFilename exEnv exPkg (some "c.iso".toList) = .ok ⟨some 1, none, some "5".toList, some "8".toList⟩ := rfl

/-- quantification over the devices of a collection -/
theorem forall_items {hw : Hw} {P : Str → Item → Prop} (h : ∀ kv ∈ hw, P kv.1 kv.2) :
    ∀ k it, dget? hw k = some it → P k it := fun k it hk => h (k, it) (dget?_mem hk)

theorem usesDisk_iff {v : Ver} {it : Item} {did : Str} : UsesDisk v it did ↔
    (it.getRaw hostResource none = some (.str (hostDiskRef v ++ did)) ∨
      it.getRaw hostResource none = some (.str ("/disk/".toList ++ did))) := by
  unfold UsesDisk Mapped; rw [getRaw_none_eq, getRaw_none_eq]

theorem usesFile_iff {v : Ver} {it : Item} {fid : Str} : UsesFile v it fid ↔
    (it.getRaw hostResource none = some (.str (hostFileRef v ++ fid)) ∨
      it.getRaw hostResource none = some (.str ("/file/".toList ++ fid))) := by
  unfold UsesFile Mapped; rw [getRaw_none_eq, getRaw_none_eq]

/-- the example meets the hypotheses -/
theorem exPkg_setUp : DiskSetUp exEnv exPkg "d.vmdk".toList "vmdk".toList "vmdisk1".toList 0 1 "9".toList "5".toList where
  fileName := findPos_some.1 rfl
  fileIdent := findPos_some.1 rfl
  onFile := findPos_some.1 rfl
  diskIdent := findPos_some.1 rfl
  device := ⟨_, rfl, rfl, Or.inl ⟨_, rfl⟩, ⟨_, rfl⟩⟩
  oneDevice := forall_items (by
    simp only [usesDisk_iff]
    unfold InDefault
    show ∀ kv ∈ exDiskHw, kv.2.hasProfile exEnv none = true → _ → kv.1 = "9".toList
    decide +kernel)
  notFile := forall_items (by
    simp only [usesFile_iff]
    unfold InDefault
    show ∀ kv ∈ exDiskHw, kv.2.hasProfile exEnv none = true → ¬ _
    decide +kernel)
  ctrl := ⟨_, rfl, rfl⟩

example : searchFromFilename exEnv exPkg (some "d.vmdk".toList) = searchFromFileId exEnv exPkg (some "vmdk".toList) := by
  rw [(C69_found_partial exDiskHw_wf exPkg_setUp).1, (C69_found_partial exDiskHw_wf exPkg_setUp).2]

/-- the package in which the hard disk exists only under profile x -/
def exProfHw : Hw :=
  [("5".toList, simpleItem [("InstanceID".toList, "5".toList), ("ResourceType".toList, "5".toList), ("Address".toList, "1".toList)]),
   ("9".toList, { props := [("InstanceID".toList, [(.str "9".toList, {pX})]), ("ResourceType".toList, [(.str "17".toList, {pX})]),
      ("Parent".toList, [(.str "5".toList, {pX})]), ("AddressOnParent".toList, [(.str "0".toList, {pX})]),
      ("HostResource".toList, [(.str "ovf:/disk/vmdisk1".toList, {pX})])], ns := rasd, modified := false })]

/-- **C69 fails** for devices of a named profile: a hard disk that exists only under a profile refers to the Disk, but the
search reports that there is no device (find_item is called without profile, which means the default one). -/
theorem C69_profile_only_fails : ∃ r k it,
    searchFromFilename exEnv { exPkg with hw := exProfHw } (some "d.vmdk".toList) = .ok r ∧
    dget? exProfHw k = some it ∧ it.hasProfile exEnv pX = true ∧
    RefersTo .v1 { exPkg with hw := exProfHw } r it ∧ r.dev = none := by
  refine ⟨⟨some 0, some 1, none, none⟩, "9".toList, _, rfl, rfl, ?_, ?_, rfl⟩
  · decide +kernel
  · exact Or.inr ⟨1, _, "vmdisk1".toList, rfl, rfl, rfl, Or.inl ⟨_, rfl⟩⟩

end Cot
