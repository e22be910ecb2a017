import Verif.Props.Open
import Verif.Props.WriteCases
/-
C75: damage to a package that COT has written is reported; cases; and where the claim fails.
-/
namespace Cot

variable {l : Lib}

theorem manifestSays_text {v : Ver} {sum : List UInt8 → Str} {files : List (Str × List UInt8)} :
    manifestSays v sum files = manifestText (checksumAlgo v) (files.map (fun f => (f.1, sum f.2))) := by
  unfold manifestSays manifestText
  rw [List.map_map]
  congr 1
  refine List.map_congr_left (fun f _ => ?_)
  simp only [Function.comp_apply]
  unfold manifestLine sumLine
  rw [upper_algo]
  simp

/-- **C75, damage.** If the manifest is one that COT writes (C73), then on opening every file that it lists and that is
not as listed is reported: as different if its content has another checksum, and as missing if it is gone. -/
theorem C75_damage (htext : ∀ s, l.dec (l.enc s) = some s) {digest : Str → List UInt8 → Except Err Str}
    {sum : List UInt8 → Str} (hhex : ∀ b, LowerHex (sum b)) {w : Fs} {v : Ver}
    {input descriptor path base : Str} {refs : Elem} {fs : List (Str × FRef)} {cs : List Complaint}
    (hd : ∀ b, digest (checksumAlgo v) b = .ok (sum b))
    (hpath : path = inputPath w input descriptor) (habs : path.head? = some '/') (hbase : base = pathBase descriptor)
    (hcl : Clear w path) {files : List (Str × List UInt8)} (hf : ∀ f ∈ files, FileName f.1)
    (hnd : (files.map Prod.fst).Nodup)
    (hm : HoldsFile w path (pathRoot base ++ ".mf".toList) (l.enc (manifestSays v sum files)))
    (h : openFiles l digest w v input descriptor refs = .ok (fs, cs))
    {n : Str} {b : List UInt8} (hn : (n, b) ∈ files) (hn' : n = base ∨ n ∈ namedFiles v refs) :
    (∀ b', HoldsFile w path n b' → sum b' ≠ sum b → .differs n .checksum ∈ cs) ∧
    ((¬ ∃ b', HoldsFile w path n b') → .missing n ∈ cs) := by
  have H := C75_complaints hd hpath habs hbase hcl h
  have hl : Lists l w path base n (sum b) := by
    rw [lists_iff hcl hm (htext _), manifestSays_text,
      C24_manifest_roundtrip (checksumAlgo v) (files.map (fun f => (f.1, sum f.2))) (alnum_algo v) (by
        intro f hf'
        obtain ⟨g, hg, rfl⟩ := List.mem_map.1 hf'
        exact ⟨hf g hg, hhex _⟩) (by rw [List.map_map]; exact hnd)]
    refine ⟨upper (checksumAlgo v), dget?_of_mem ?_ ?_⟩
    · simp only [dkeys, List.map_map]
      exact hnd
    · rw [List.map_map]
      exact List.mem_map.2 ⟨(n, b), hn, rfl⟩
  refine ⟨fun b' hb hne => (H _).2 ⟨hn', b', sum b, hb, hl, hne⟩, fun hno => ?_⟩
  rcases hn' with rfl | hn'
  · exact absurd ((C75_opens hd hpath habs hbase hcl).1 ⟨_, h⟩).1 hno
  · exact (H _).2 ⟨hn', hno⟩

/-- A package is written to a directory; later some files are damaged or removed, but not the manifest.  Opening it
reports each of them. -/
theorem C75_damage_directory (hl : l.Lawful) {c : Ctx} {capOf : Str → Except Err Nat} {sum : List UInt8 → Str} {w w' : Fs}
    {input output W : Str} {cont : Str → List UInt8} {xml : Pkg → List UInt8} {p q : Pkg} {ws : List Change}
    (hp : CanWrite c capOf sum w input cont p) (P : OvfPlan w p.files input output)
    (hq : refreshFiles { c with fs := w } capOf p = .ok q)
    (hrun : writePackage l c capOf xml p input output W ".ovf".toList w = (.ok q, ws))
    (hw : w'.cwd = w.cwd ∧ w'.isDir (dirOf w output) = true)
    (hm : w'.file (pathJoin (dirOf w output) (ovfManifest output)) =
      (applyAll l w ws).file (pathJoin (dirOf w output) (ovfManifest output)))
    {fs : List (Str × FRef)} {cs : List Complaint}
    (h : openFiles l c.digest w' c.env.ver output output q.refs = .ok (fs, cs)) :
    (∀ b', w'.file (pathJoin (dirOf w output) (pathBase output)) = some b' → sum b' ≠ sum (xml q) →
      .differs (pathBase output) .checksum ∈ cs) ∧
    ∀ n ∈ namedFiles c.env.ver q.refs,
      (∀ b', w'.file (pathJoin (dirOf w output) n) = some b' → sum b' ≠ sum (cont n) → .differs n .checksum ∈ cs) ∧
      (w'.file (pathJoin (dirOf w output) n) = none → .missing n ∈ cs) := by
  obtain ⟨ws', h1, h2, h3, h4, h5, h6⟩ := C73_directory (l := l) (W := W) (xml := xml) hp P hq
  rw [hrun] at h1
  obtain rfl : ws = ws' := by cases h1; rfl
  obtain ⟨hb, hnl, hbm⟩ := P.base
  obtain ⟨hmf, hD, -, -, -⟩ := ovf_names P.cwd hb
  obtain ⟨w1, w2⟩ := hw
  have hpath : dirOf w output = inputPath w' output output := by
    unfold inputPath; rw [if_pos rfl, absName_cwd w1]; rfl
  have hcl : Clear w' (dirOf w output) := by
    intro hh
    rw [w2] at hh; cases hh
  have name : ∀ n ∈ namedFiles c.env.ver q.refs, PlainName n ∧ '\n' ∉ n ∧ n ≠ pathBase output := by
    intro n hn
    obtain ⟨r, r1, r2⟩ := (h6 n).1 hn
    exact ⟨r2.name.1, r2.name.2, (P.names n (mem_dkeys_of_dget? r1)).1⟩
  have hold : ∀ n b, PlainName n → (HoldsFile w' (dirOf w output) n b ↔ w'.file (pathJoin (dirOf w output) n) = some b) := by
    intro n b hn
    constructor
    · intro hh
      cases hh with
      | disk _ f => rw [plain_norm hn] at f; exact f
      | tar d => rw [w2] at d; cases d
    · intro hh
      exact .disk w2 (by rw [plain_norm hn]; exact hh)
  have D := fun n b => C75_damage (l := l) hl.text hp.hex hp.digest hpath hD rfl hcl (n := n) (b := b)
    (files := (pathBase output, xml q) :: (namedFiles c.env.ver q.refs).map (fun h => (h, cont h)))
    (by
      intro f hf
      rcases List.mem_cons.1 hf with rfl | hf
      · exact ⟨hb.1, hnl⟩
      · obtain ⟨n, hn, rfl⟩ := List.mem_map.1 hf
        exact ⟨(name n hn).1.1, (name n hn).2.1⟩)
    (by
      rw [List.map_cons, List.map_map, List.nodup_cons]
      refine ⟨?_, ?_⟩
      · intro hh
        obtain ⟨n, hn, he⟩ := List.mem_map.1 hh
        exact (name n hn).2.2 he
      · rw [show (Prod.fst ∘ fun h => (h, cont h)) = id from rfl, List.map_id]
        exact h5)
    ((hold _ _ hmf).2 (hm.trans h3)) h
  constructor
  · intro b' hb' hne
    exact (D _ _ (by simp) (Or.inl rfl)).1 b' ((hold _ _ hb).2 hb') hne
  · intro n hn
    have Dn := D n (cont n) (List.mem_cons_of_mem _ (List.mem_map.2 ⟨n, hn, rfl⟩)) (Or.inr hn)
    refine ⟨fun b' hb' hne => Dn.1 b' ((hold _ _ (name n hn).1).2 hb') hne, fun hno => Dn.2 ?_⟩
    rintro ⟨b', hb'⟩
    rw [(hold _ _ (name n hn).1).1 hb'] at hno
    cases hno

/-! ### Cases -/

/-- A directory with a descriptor, a manifest and three of four files; one is damaged, one is not listed, one has
another size; and the manifest lists a file too many and has a line that makes no sense. -/
def oText : Str :=
  "SHA1(x.ovf)= a0\nSHA1 (a.vmdk) = a00\nnonsense\n\nSHA1(more.iso)= abc\nSHA1(gone.iso)= 0\n".toList
@[inherit_doc oText] def oFs : Fs :=
  { cwd := "/".toList
    file := fun p => if p = "/d/x.ovf".toList then some [9] else if p = "/d/x.mf".toList then some (asciiLib.enc oText)
      else if p = "/d/a.vmdk".toList then some [1] else if p = "/d/b.iso".toList then some [1, 2] else none
    isDir := fun p => decide (p = "/d".toList)
    tar := fun _ => none }
@[inherit_doc oText] def oRefs : Elem := .mk (ovfTag .v1 "References".toList) [] none none
  [exFileE "a".toList "a.vmdk".toList "1".toList, exFileE "b".toList "b.iso".toList "7".toList,
   exFileE "g".toList "gone.iso".toList "5".toList]

/-- everything is reported -/
example : ∃ fs, openFiles asciiLib wCtx.digest oFs .v1 "d/x.ovf".toList "d/x.ovf".toList oRefs =
    .ok (fs, [.badLine "nonsense".toList, .extra "more.iso".toList, .unlisted (some "b.iso".toList),
      .differs "a.vmdk".toList .checksum, .differs "b.iso".toList .size, .missing "gone.iso".toList]) := ⟨_, rfl⟩

theorem oFs_place : inputPath oFs "d/x.ovf".toList "d/x.ovf".toList = "/d".toList := rfl
theorem oFs_clear : Clear oFs "/d".toList := by rintro _ ms h; cases h

/-- the hypotheses of C75 are met -/
example : ∃ fs cs, openFiles asciiLib wCtx.digest oFs .v1 "d/x.ovf".toList "d/x.ovf".toList oRefs = .ok (fs, cs) ∧
    (.missing "gone.iso".toList ∈ cs ↔ "gone.iso".toList ∈ namedFiles .v1 oRefs ∧ ¬ ∃ b, HoldsFile oFs "/d".toList "gone.iso".toList b) :=
  ⟨_, _, rfl, C75_complaints (l := asciiLib) (sum := wSum) (digest := wCtx.digest) (v := .v1) (input := "d/x.ovf".toList)
    (descriptor := "d/x.ovf".toList) (fun _ => rfl) oFs_place.symm rfl rfl oFs_clear rfl (.missing "gone.iso".toList)⟩

/-- an archive without damage -/
def oTar : Fs :=
  { cwd := "/".toList
    file := fun p => if p = "/x.ova".toList then some [0] else none
    isDir := fun p => decide (p = "/".toList)
    tar := fun p => if p = "/x.ova".toList then some [("x.ovf".toList, [9]), ("x.mf".toList, asciiLib.enc
      "SHA1(x.ovf)= a0\nSHA1(a.vmdk)= a0\n".toList), ("./a.vmdk".toList, [1])] else none }
def oRefs1 : Elem := .mk (ovfTag .v1 "References".toList) [] none none [exFileE "a".toList "a.vmdk".toList "1".toList]

example : (∃ r, openFiles asciiLib wCtx.digest oTar .v1 "x.ova".toList "/w/x.ovf".toList oRefs1 =
    .ok ([("a.vmdk".toList, r)], [])) ∧ Clear oTar "/x.ova".toList ∧
    HoldsFile oTar "/x.ova".toList "a.vmdk".toList [1] := by
  refine ⟨⟨_, rfl⟩, ?_, ?_⟩
  · intro _ ms h
    cases h
    decide +kernel
  · exact .tar (n := "./a.vmdk".toList) rfl rfl rfl (by decide +kernel) (by decide +kernel)

/-- `/o/new.iso` is removed and `/o/d.vmdk` is changed -/
def damaged (w : Fs) : Fs :=
  { w with file := fun p => if p = "/o/new.iso".toList then none else if p = "/o/d.vmdk".toList then some [5, 6] else w.file p }

theorem damaged_other {w : Fs} {p : Str} (h1 : p ≠ "/o/new.iso".toList) (h2 : p ≠ "/o/d.vmdk".toList) :
    (damaged w).file p = w.file p := by
  unfold damaged
  simp only [if_neg h1, if_neg h2]

/-- the hypotheses of the theorem on damage are met: the package of C72, written to `/o`, then damaged -/
example : ∃ ws q fs cs, writePackage exLib wCtx exCap wXml wPkg "/d/x.ova".toList "/o/y.ovf".toList "/w".toList
      ".ovf".toList wFs = (.ok q, ws) ∧
    openFiles exLib wCtx.digest (damaged (applyAll exLib wFs ws)) .v1 "/o/y.ovf".toList "/o/y.ovf".toList q.refs =
      .ok (fs, cs) ∧
    .missing "new.iso".toList ∈ cs ∧ .differs "d.vmdk".toList .checksum ∈ cs := by
  obtain ⟨q, hq, hn, hsz, hall⟩ : ∃ q, refreshFiles { wCtx with fs := wFs } exCap wPkg = .ok q ∧
      namedFiles .v1 q.refs = ["d.vmdk".toList, "new.iso".toList] ∧
      describedFiles .v1 q.refs = [(some "d.vmdk".toList, some "1".toList), (some "new.iso".toList, some "3".toList)] ∧
      q.refs.children.all (fun e => (e.get (fileHref .v1)).isSome) = true := ⟨_, rfl, rfl, rfl, rfl⟩
  obtain ⟨ws, h1, h2, h3, -⟩ := C73_directory (l := exLib) (W := "/w".toList) (xml := wXml) w_can w_plan_dir hq
  have hdir : dirOf wFs "/o/y.ovf".toList = "/o".toList := by decide +kernel
  rw [hdir] at h2 h3
  have hD : (damaged (applyAll exLib wFs ws)).isDir "/o".toList = true := by
    show (applyAll exLib wFs ws).isDir "/o".toList = true
    rw [applyAll_isDir]; decide +kernel
  have hcwd : (damaged (applyAll exLib wFs ws)).cwd = wFs.cwd := applyAll_cwd _ _
  have hpath : "/o".toList = inputPath (damaged (applyAll exLib wFs ws)) "/o/y.ovf".toList "/o/y.ovf".toList := by
    unfold inputPath; rw [if_pos rfl, absName_cwd hcwd]; exact hdir.symm
  have hcl : Clear (damaged (applyAll exLib wFs ws)) "/o".toList := by
    intro hh; rw [hD] at hh; cases hh
  have hmf : (damaged (applyAll exLib wFs ws)).file "/o/y.mf".toList = (applyAll exLib wFs ws).file "/o/y.mf".toList :=
    damaged_other (by decide) (by decide)
  obtain ⟨⟨fs, cs⟩, ho⟩ := (C75_opens (l := exLib) (digest := wCtx.digest) (sum := wSum) (v := .v1) (refs := q.refs)
      (fun _ => rfl) hpath rfl rfl hcl).2 (by
    refine ⟨⟨[77], .disk hD ?_⟩, ?_, ?_, ?_⟩
    · exact (damaged_other (by decide +kernel) (by decide +kernel)).trans h2
    · intro b hb
      cases hb with
      | disk _ f =>
        rw [show pathJoin "/o".toList (normpath (pathRoot (pathBase "/o/y.ovf".toList) ++ ".mf".toList)) = "/o/y.mf".toList
          by decide +kernel, hmf] at f
        have h3' : (applyAll exLib wFs ws).file "/o/y.mf".toList = _ := h3
        rw [h3'] at f
        cases f
        rw [exLib_lawful.text]
        simp
      | tar d => rw [hD] at d; cases d
    · intro e he _ hn
      have := List.all_eq_true.1 hall e he
      rw [hn] at this
      cases this
    · intro n b s _ hs hi
      have := describedFiles_get.2 hs
      rw [hsz] at this
      simp only [List.mem_cons, Prod.mk.injEq, Option.some.injEq, List.not_mem_nil, or_false] at this
      rcases this with ⟨-, rfl⟩ | ⟨-, rfl⟩
      · exact absurd hi (by decide +kernel)
      · exact absurd hi (by decide +kernel))
  have D := C75_damage_directory exLib_lawful w_can w_plan_dir hq h1 (w' := damaged (applyAll exLib wFs ws))
    ⟨hcwd, by rw [hdir]; exact hD⟩ (by
      rw [hdir]
      exact hmf) ho
  have hv : wCtx.env.ver = .v1 := rfl
  rw [hdir, hv, hn] at D
  refine ⟨ws, q, fs, cs, h1, ho, (D.2 _ (by simp)).2 ?_, (D.2 _ (by simp)).1 [5, 6] ?_ (by decide +kernel)⟩
  · rfl
  · rfl

/-! ### Where it fails -/

/-- The digests of two algorithms. -/
def twoDigests (a : Str) (b : List UInt8) : Except Err Str :=
  .ok ((if a = "sha256".toList then 'b' else 'a') :: b.map (fun _ => '0'))

/-- **C75 fails** for manifests made with another algorithm than the one that COT would use for this version of OVF: the
manifest below gives the right SHA256 sum of each file, but it is compared with the SHA1 sum, and an intact package is
reported as tampered with. -/
theorem C75_algorithm_fails : ∃ w fs,
    parseManifest "SHA256(x.ovf)= b0\nSHA256(a.vmdk)= b0\n".toList =
      [("x.ovf".toList, "SHA256".toList, "b0".toList), ("a.vmdk".toList, "SHA256".toList, "b0".toList)] ∧
    HoldsFile w "/d".toList "x.ovf".toList [9] ∧ twoDigests "sha256".toList [9] = .ok "b0".toList ∧
    HoldsFile w "/d".toList "a.vmdk".toList [1] ∧ twoDigests "sha256".toList [1] = .ok "b0".toList ∧
    openFiles asciiLib twoDigests w .v1 "/d/x.ovf".toList "/d/x.ovf".toList oRefs1 =
      .ok (fs, [.differs "x.ovf".toList .checksum, .differs "a.vmdk".toList .checksum]) :=
  ⟨{ cwd := "/".toList
     file := fun p => if p = "/d/x.ovf".toList then some [9] else if p = "/d/x.mf".toList then
       some (asciiLib.enc "SHA256(x.ovf)= b0\nSHA256(a.vmdk)= b0\n".toList) else if p = "/d/a.vmdk".toList then some [1] else none
     isDir := fun p => decide (p = "/d".toList)
     tar := fun _ => none }, _, by decide +kernel, .disk rfl rfl, rfl, .disk rfl rfl, rfl, rfl⟩

/-- **C75 fails** for an archive whose descriptor is in a subdirectory: the archive is accepted and unpacked, and then
the descriptor is looked for at the top of the archive, which is an error. -/
theorem C75_subdirectory_fails : ∃ w, w.tar "/x.ova".toList = some [("p/x.ovf".toList, [9]), ("p/a.vmdk".toList, [1])] ∧
    untar "/w".toList ["p/x.ovf".toList, "p/a.vmdk".toList] = .ok "/w/p/x.ovf".toList ∧
    openFiles asciiLib wCtx.digest w .v1 "x.ova".toList "/w/p/x.ovf".toList oRefs1 = .error .ioError :=
  ⟨{ cwd := "/".toList
     file := fun p => if p = "/x.ova".toList then some [0] else none
     isDir := fun p => decide (p = "/".toList)
     tar := fun p => if p = "/x.ova".toList then some [("p/x.ovf".toList, [9]), ("p/a.vmdk".toList, [1])] else none },
   rfl, by rfl, rfl⟩

end Cot
