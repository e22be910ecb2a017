import Verif.Props.InjectConfigDrive
/-
C86, cases: a package on which inject-config succeeds, showing that the hypotheses of the theorems can be met, and
packages on which it does not do what one would expect.
-/
namespace Cot

/-- the image appears once a command has been run -/
def exIcWorld : IcWorld where
  fails := fun _ _ => none
  select := fun _ _ => .ok "mkisofs".toList
  disk := fun h =>
    { pathExists := fun _ => h.any (fun op => match op with
        | .disk _ => true
        | .copy _ _ => false)
      qemuInfo := fun _ => .error .helperError, hasIsoinfo := false, isoinfo := fun _ => .error .helperError
      bytes := fun _ => [] }
  size := fun _ _ => 10
  capacity := fun _ _ => .ok 1048576
  fs := fun _ =>
    { cwd := "/d".toList
      file := fun p => if p = "/w/config.iso".toList then some [1, 2, 3]
        else if p = "/w/config.vmdk".toList then some [4, 5] else none
      isDir := fun p => decide (p = "/d".toList)
      tar := fun _ => none }
  dir := "/w".toList

theorem exIcWorld_capacity : ∀ h path n, exIcWorld.capacity h path = .ok n → 0 < n ∧ n ≤ 2 ^ 63 := by
  intro h path n hn
  cases hn
  exact ⟨by norm_num, by norm_num⟩

/-- an IDE controller with an empty CD-ROM drive, a hard disk, and a hard disk without File -/
def exIcHwL : List (Str × List (Str × Str)) :=
  [("5".toList, [("InstanceID".toList, "5".toList), ("ResourceType".toList, "5".toList), ("Address".toList, "1".toList)]),
   ("6".toList, [("InstanceID".toList, "6".toList), ("ResourceType".toList, "6".toList), ("Address".toList, "0".toList)]),
   ("8".toList, [("InstanceID".toList, "8".toList), ("ResourceType".toList, "15".toList), ("Parent".toList, "5".toList),
     ("AddressOnParent".toList, "1".toList)]),
   ("9".toList, [("InstanceID".toList, "9".toList), ("ResourceType".toList, "17".toList), ("Parent".toList, "5".toList),
     ("AddressOnParent".toList, "0".toList), ("HostResource".toList, "ovf:/disk/vmdisk1".toList)]),
   ("10".toList, [("InstanceID".toList, "10".toList), ("ResourceType".toList, "17".toList), ("Parent".toList, "6".toList),
     ("AddressOnParent".toList, "3".toList), ("HostResource".toList, "ovf:/disk/vmdisk2".toList)])]

def exIcHw : Hw := exIcHwL.map (fun kv => (kv.1, simpleItem kv.2))

theorem exIcHw_wf : HwWF exEnv exIcHw := simpleHw_wf exEnv (by decide +kernel) (by
  have : ∀ kl ∈ exIcHwL, (dkeys kl.2).Nodup ∧ (∀ ns ∈ kl.2, ns.2 ≠ [] ∧ ns.1 ≠ resourceSubType) ∧
      dget? kl.2 (instanceId exEnv.ver) = some kl.1 := by decide +kernel
  intro id l h
  obtain ⟨h1, h2, h3⟩ := this _ h
  exact ⟨h1, fun n s hm => h2 _ hm, h3⟩)

theorem tidy_of {env : Env} {hw : Hw} (h1 : ∀ kv ∈ hw, kv.2.tab (instanceId env.ver) ≠ [])
    (h2 : ∀ kv ∈ hw, ∀ e ∈ kv.2.tab parentName, e.1 ≠ .str kv.1)
    (h3 : ∀ kv ∈ hw, ∀ e ∈ kv.2.tab address, (match e.1 with
      | .str s => decide (':' ∉ s)
      | _ => true) = true) : Tidy env hw where
  ident := forall_items h1
  noSelf := by
    rintro k it hk ⟨S, hS⟩
    exact h2 (k, it) (dget?_mem hk) _ (by rw [hS]; exact List.mem_singleton.2 rfl) rfl
  plainAddress := by
    intro k it ca S hk hS
    have := h3 (k, it) (dget?_mem hk) _ (by rw [hS]; exact List.mem_singleton.2 rfl)
    simpa using this

theorem exIcHw_tidy : Tidy exEnv exIcHw := tidy_of (by decide +kernel) (by decide +kernel) (by decide +kernel)

def allDigits (v : Val) : Bool := match v with
  | .str s => decide (s ≠ []) && s.all isDig
  | _ => false

theorem bays_of {env : Env} {hw : Hw} (h1 : ∀ kv ∈ hw, kv.2.hasProfile env none = true)
    (h2 : ∀ kv ∈ hw, ∀ e ∈ kv.2.tab parentName, ∀ ck ∈ hw, e.1 = .str ck.1 →
      OfType ck.2 "5".toList ∨ OfType ck.2 "6".toList ∨ OfType ck.2 "20".toList)
    (h3 : ∀ kv ∈ hw, ∀ e ∈ kv.2.tab address, allDigits e.1 = true)
    (h4 : ∀ kv ∈ hw, ∀ e ∈ kv.2.tab addressOnParent, allDigits e.1 = true) : Bays env hw := by
  have hd : ∀ s, allDigits (.str s) = true → Digits s := by
    intro s h
    simp only [allDigits, Bool.and_eq_true, decide_eq_true_eq, List.all_eq_true] at h
    exact h
  intro k it hk _
  have hm := dget?_mem hk
  refine ⟨h1 _ hm, ?_, ?_, ?_⟩
  · rintro c ci ⟨S, hS⟩ hc
    rcases h2 _ hm _ (by rw [hS]; exact List.mem_singleton.2 rfl) _ (dget?_mem hc) rfl with h | h | h
    · exact ⟨_, _, Or.inl ⟨rfl, rfl⟩, h⟩
    · exact ⟨_, _, Or.inr (Or.inl ⟨rfl, rfl⟩), h⟩
    · exact ⟨_, _, Or.inr (Or.inr ⟨rfl, rfl⟩), h⟩
  · rintro c ci a S _ hc ha
    exact hd a (h3 _ (dget?_mem hc) _ (by rw [ha]; exact List.mem_singleton.2 rfl))
  · intro b S hb
    exact hd b (h4 _ hm _ (by rw [hb]; exact List.mem_singleton.2 rfl))

theorem exIcHw_bays : Bays exEnv exIcHw :=
  bays_of (by decide +kernel) (by decide +kernel) (by decide +kernel) (by decide +kernel)

def exIcPkg : Pkg :=
  { refs := .mk (ovfTag .v1 "References".toList) [] none none [exFileE "vmdk".toList "d.vmdk".toList "10".toList],
    disks := some (.mk (diskSecTag .v1) [] none none
      [.mk (infoTag .v1) [] none none [], exDiskE "vmdisk1".toList "vmdk".toList "1000".toList,
       .mk (diskTag .v1) [(diskId .v1, "vmdisk2".toList), (diskCapacity .v1, "1000".toList)] none none []]),
    hw := exIcHw,
    files := [("d.vmdk".toList, ⟨false, "/d".toList, "d.vmdk".toList, none, none, none, false⟩)] }

def exIcReq : IcReq := { config := some "my.cfg".toList, secondary := none, extra := ["x/y.txt".toList] }

theorem exIcReq_accepted : Accepted .csr exIcReq ∧ Accepted .iosv exIcReq :=
  ⟨⟨fun _ => by decide, fun h => by cases h⟩, ⟨fun _ => by decide, fun h => by cases h⟩⟩

def exInject (pl : Plat) (p : Pkg) : Except Err (Str × Pkg) × List IcOp :=
  injectConfig exCtx exIcWorld pl exPlat (fun _ => true) (fun _ => true) p exIcReq

/-- the drive used -/
def driveOf (r : Except Err (Str × Pkg) × List IcOp) : Option Str := match r.1 with
  | .ok kp => some kp.1
  | .error _ => none

/-- the package that results -/
def pkgOf (r : Except Err (Str × Pkg) × List IcOp) : Pkg := match r.1 with
  | .ok kp => kp.2
  | .error _ => exIcPkg

theorem driveOf_some {r : Except Err (Str × Pkg) × List IcOp} {k : Str} (h : driveOf r = some k) :
    r = (.ok (k, pkgOf r), r.2) := by
  obtain ⟨x, o⟩ := r
  cases x with
  | error e => cases h
  | ok kp => cases h; rfl

/-- both kinds of platform: the command succeeds, and twice in a row -/
theorem exInject_csr : driveOf (exInject .csr exIcPkg) = some "8".toList := by decide +kernel
theorem exInject_iosv : driveOf (exInject .iosv exIcPkg) = some "10".toList := by decide +kernel
theorem exInject_twice : driveOf (exInject .csr (pkgOf (exInject .csr exIcPkg))) = some "8".toList := by decide +kernel

/-- the theorems apply -/
example : ∃ it it', dget? exIcPkg.hw "8".toList = some it ∧
    dget? (pkgOf (exInject .csr exIcPkg)).hw "8".toList = some it' ∧ OfType it' "15".toList ∧
    ∃ fid, Mapped it' ("ovf:/file/".toList ++ fid) := by
  obtain ⟨it, it', _, _, fid, h1, h2, -, -, -, h3, -, h4, -⟩ := C86_medium_partial exIcHw_wf exIcHw_tidy exIcHw_bays (exPlat_ok _)
    exIcWorld_capacity exIcReq_accepted.1 (driveOf_some exInject_csr)
  exact ⟨it, it', h1, h2, h3, fid, h4 (by decide)⟩

example : ∃ it', dget? (pkgOf (exInject .iosv exIcPkg)).hw "10".toList = some it' ∧ OfType it' "17".toList := by
  obtain ⟨_, it', _, _, _, -, h2, -, -, -, h3, -⟩ := C86_medium_partial exIcHw_wf exIcHw_tidy exIcHw_bays (exPlat_ok _)
    exIcWorld_capacity exIcReq_accepted.2 (driveOf_some exInject_iosv)
  exact ⟨it', h2, h3⟩

theorem exIcHw_style : OneStyle .v1 (pkgOf (exInject .csr exIcPkg)).hw := by
  right
  have h : ∀ kv ∈ (pkgOf (exInject .csr exIcPkg)).hw, ∀ e ∈ kv.2.tab hostResource, (match e.1 with
      | .str s => decide (s.head? ≠ some '/')
      | _ => true) = true := by decide +kernel
  intro k it s hk
  constructor
  · rintro ⟨S, hS⟩
    have := h (k, it) (dget?_mem hk) _ (by rw [hS]; exact List.mem_singleton.2 rfl)
    simp at this
  · rintro ⟨S, hS⟩
    have := h (k, it) (dget?_mem hk) _ (by rw [hS]; exact List.mem_singleton.2 rfl)
    simp at this

example : (pkgOf (exInject .csr (pkgOf (exInject .csr exIcPkg)))).refs.children.length =
    (pkgOf (exInject .csr exIcPkg)).refs.children.length :=
  (C86_again exIcHw_wf exIcHw_tidy exIcHw_bays (exPlat_ok _) exIcWorld_capacity exIcReq_accepted.1
    (driveOf_some exInject_csr) exIcHw_style (exPlat_ok _) exIcWorld_capacity exIcReq_accepted.1
    (driveOf_some exInject_twice)).2.1

/-- the image for the first platform and for the second one -/
example : (exInject .csr exIcPkg).2.reverse =
    [.copy "my.cfg".toList "/w/iosxe_config.txt".toList,
     .disk (.call "mkisofs".toList ["-output".toList, "/w/config.iso".toList, "-full-iso9660-filenames".toList,
       "-iso-level".toList, "2".toList, "-allow-lowercase".toList, "-r".toList, "/w/iosxe_config.txt".toList,
       "x/y.txt".toList])] := by decide +kernel
example : (exInject .iosv exIcPkg).2.length = 5 := by decide +kernel

/-- without consent nothing happens -/
example : ∃ err, injectConfig exCtx exIcWorld .csr exPlat (fun _ => true) (fun _ => false)
    (pkgOf (exInject .csr exIcPkg)) exIcReq = (.error err, []) := by
  obtain ⟨_, _, _, _, _, -, -, -, -, -, -, -, -, -, -, hw⟩ := C86_medium_partial exIcHw_wf exIcHw_tidy exIcHw_bays (exPlat_ok _)
    exIcWorld_capacity exIcReq_accepted.1 (driveOf_some exInject_csr)
  exact (C86_refused (k := []) (p' := exIcPkg) (ops := []) hw).1
    (Or.inl ⟨1, _, findPos_some.1 (by decide +kernel), rfl, rfl⟩)

/-! ### What goes wrong -/

/-- the CD-ROM drive exists only under profile x -/
def exIcProfHw : Hw :=
  [("5".toList, simpleItem [("InstanceID".toList, "5".toList), ("ResourceType".toList, "5".toList), ("Address".toList, "1".toList)]),
   ("8".toList, { ns := rasd, modified := false, props := [("InstanceID".toList, [(.str "8".toList, {pX})]), ("ResourceType".toList, [(.str "15".toList, {pX})]),
      ("Parent".toList, [(.str "5".toList, {pX})]), ("AddressOnParent".toList, [(.str "1".toList, {pX})])] })]

/-- **C86 fails** for drives of a named profile: the empty drive is found, but the image does not go into it; instead
another drive is added at the same address. -/
theorem C86_profile_only_fails : ∃ it k it', dget? exIcProfHw "8".toList = some it ∧
    EmptyDrive exEnv { exIcPkg with hw := exIcProfHw } .csr it ∧
    driveOf (exInject .csr { exIcPkg with hw := exIcProfHw }) = some k ∧ k ∉ dkeys exIcProfHw ∧
    dget? (pkgOf (exInject .csr { exIcPkg with hw := exIcProfHw })).hw k = some it' ∧
    ChildOf it "5".toList ∧ ChildOf it' "5".toList ∧ AtAddress it 1 ∧ AtAddress it' 1 := by
  refine ⟨_, "1".toList, _, rfl, Or.inl ⟨by decide, ⟨_, rfl⟩, ?_⟩, by decide +kernel, by decide +kernel, rfl, ⟨_, rfl⟩,
    ⟨_, rfl⟩, ⟨_, rfl⟩, ⟨_, rfl⟩⟩
  intro v S h
  cases h

/-- a package with a File that no drive uses -/
def exIcStale : Pkg :=
  { exIcPkg with refs := .mk (ovfTag .v1 "References".toList) [] none none [exFileE "vmdk".toList "d.vmdk".toList "10".toList,
      exFileE "config.iso".toList "config.iso".toList "3".toList] }

/-- **C86 fails** for a File that no drive uses: if the package has a File with the name of the image but no drive uses it,
the command fails, although there is an empty drive. -/
theorem C86_stale_file_fails : ∃ it, dget? exIcPkg.hw "8".toList = some it ∧
    EmptyDrive exEnv exIcStale .csr it ∧ exInject .csr exIcStale = (.error .lookupError, []) := by
  refine ⟨_, rfl, Or.inl ⟨by decide, ⟨_, rfl⟩, ?_⟩, rfl⟩
  intro v S h
  cases h

/-- the CD-ROM drive has another medium in each profile -/
def exIcMediaHw : Hw :=
  [("5".toList, simpleItem [("InstanceID".toList, "5".toList), ("ResourceType".toList, "5".toList), ("Address".toList, "1".toList)]),
   ("8".toList, { ns := rasd, modified := false, props := [("InstanceID".toList, [(.str "8".toList, {none})]), ("ResourceType".toList, [(.str "15".toList, {none})]),
      ("Parent".toList, [(.str "5".toList, {none})]), ("AddressOnParent".toList, [(.str "1".toList, {none})]),
      ("HostResource".toList, [(.str "ovf:/file/a".toList, {none}), (.str "ovf:/file/b".toList, {pX})])] })]

/-- **C86 fails** for drives whose medium depends on the profile: such a drive counts as empty, and its media are given up
for the image. -/
theorem C86_media_fails : ∃ it it', dget? exIcMediaHw "8".toList = some it ∧
    it.tab hostResource = [(.str "ovf:/file/a".toList, {none}), (.str "ovf:/file/b".toList, {pX})] ∧
    driveOf (exInject .csr { exIcPkg with hw := exIcMediaHw }) = some "8".toList ∧
    dget? (pkgOf (exInject .csr { exIcPkg with hw := exIcMediaHw })).hw "8".toList = some it' ∧
    Mapped it' "ovf:/file/config.iso".toList :=
  ⟨_, _, rfl, rfl, by decide +kernel, rfl, ⟨_, rfl⟩⟩

/-- **C86 fails** for an extra file that is called like the configuration file of the platform: two files of the same name
are put on the image. -/
theorem C86_same_name_fails : ∃ q p' ops, Accepted .csr q ∧
    injectConfig exCtx exIcWorld .csr exPlat (fun _ => true) (fun _ => true) exIcPkg q = (.ok ("8".toList, p'), ops) ∧
    ¬ ((wantedContents .csr q).map Prod.snd).Nodup := by
  have h : driveOf (injectConfig exCtx exIcWorld .csr exPlat (fun _ => true) (fun _ => true) exIcPkg
    { exIcReq with extra := ["x/iosxe_config.txt".toList] }) = some "8".toList := by decide +kernel
  exact ⟨_, _, _, ⟨fun _ => by decide, fun h => by cases h⟩, driveOf_some h, by decide +kernel⟩

end Cot
