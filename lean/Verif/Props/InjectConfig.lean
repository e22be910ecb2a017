import Verif.Lemmas.InjectConfig
import Verif.Props.Disks
/-
What inject-config does (C86).
-/
namespace Cot

variable {c : Ctx} {w : IcWorld} {pl : Plat} {plat : Str → Str} {ask : Prompt → Bool} {over : Option Str → Bool}
  {p p' : Pkg} {q : IcReq} {k : Str} {ops : List IcOp}

/-! ### The arguments -/

/-- **C86, arguments.** A configuration file is accepted iff it exists and the platform has a name for it; other files
are accepted iff they all exist; and something must be given. -/
theorem C86_arguments (isFile : Str → Bool) (pl : Plat) (value : Option Str) (extra : List Str) (q : IcReq) :
    (setConfigArg isFile (configTextFile pl) value = .ok value ↔
      ∀ s, value = some s → isFile s = true ∧ (wantedNames pl).1 ≠ none) ∧
    (setConfigArg isFile (secondaryTextFile pl) value = .ok value ↔
      ∀ s, value = some s → isFile s = true ∧ (wantedNames pl).2 ≠ none) ∧
    (setExtraArg isFile extra = .ok extra ↔ ∀ s ∈ extra, isFile s = true) ∧
    (q.ready = true ↔ (∃ s, q.config = some s ∧ s ≠ []) ∨ (∃ s, q.secondary = some s ∧ s ≠ []) ∨ q.extra ≠ []) := by
  have key : ∀ name wanted : Option Str, (name = none ∨ name = some [] ↔ wanted = none) →
      (setConfigArg isFile name value = .ok value ↔ ∀ s, value = some s → isFile s = true ∧ wanted ≠ none) := by
    intro name wanted hn
    unfold setConfigArg
    cases value with
    | none => simp
    | some s =>
      simp only
      by_cases h1 : isFile s = true
      · rw [if_neg (by rw [h1]; decide)]
        by_cases h2 : wanted = none
        · rw [if_pos (hn.2 h2)]
          constructor
          · intro h; cases h
          · intro h; exact absurd h2 (h s rfl).2
        · rw [if_neg (fun h => h2 (hn.1 h))]
          exact ⟨fun _ s' h' => by cases h'; exact ⟨h1, h2⟩, fun _ => rfl⟩
      · rw [if_pos (by simpa using h1)]
        constructor
        · intro h; cases h
        · intro h; exact absurd (h s rfl).1 h1
  refine ⟨?_, ?_, ?_, ?_⟩
  · have := key (configTextFile pl) ((wantedNames pl).1.map String.toList) (by cases pl <;> decide)
    rw [this]
    simp
  · have := key (secondaryTextFile pl) ((wantedNames pl).2.map String.toList) (by cases pl <;> decide)
    rw [this]
    simp
  · unfold setExtraArg
    by_cases h : extra.all isFile = true
    · rw [if_pos h]; simpa using h
    · rw [if_neg h]
      constructor
      · intro h'; cases h'
      · intro h'; exact absurd (List.all_eq_true.2 h') h
  · unfold IcReq.ready given
    cases q.config <;> cases q.secondary <;> simp [or_assoc]

/-- non-vacuity -/
example : setConfigArg (fun _ => true) (secondaryTextFile .csr) (some "a".toList) = .error .invalidInput ∧
    setConfigArg (fun _ => true) (secondaryTextFile .xrv) (some "a".toList) = .ok (some "a".toList) := ⟨rfl, rfl⟩

/-! ### The steps -/

theorem inject_inv (h : injectConfig c w pl plat ask over p q = (.ok (k, p'), ops)) :
    ∃ fid d loc img h1 img' hc cap, icTarget c.env over p (bootstrapDrive pl) = .ok (fid, d) ∧
      deviceLocation c.env p.hw d = .ok loc ∧ icImage w c.py pl q = (.ok img, h1) ∧
      convertIfNeeded (w.conv h1) img (bootstrapDrive pl) w.dir = (.ok img', hc) ∧ ops = hc.map .disk ++ h1 ∧
      (BootsFromDisk pl → w.capacity ops img'.path = .ok cap) ∧ (¬ BootsFromDisk pl → cap = 1) ∧
      addDiskCmd { c with fs := w.fs ops } plat ask p (icDiskReq (bootstrapDrive pl) img'.path cap fid loc) = .ok (k, p') := by
  unfold injectConfig at h
  simp only at h
  cases h1 : icTarget c.env over p (bootstrapDrive pl) with
  | error e => rw [h1] at h; simp at h
  | ok fd =>
    obtain ⟨fid, d⟩ := fd
    rw [h1] at h
    simp only at h
    cases h2 : deviceLocation c.env p.hw d with
    | error e => rw [h2] at h; simp at h
    | ok loc =>
      rw [h2] at h
      simp only at h
      cases h3 : icImage w c.py pl q with
      | mk r hh =>
        rw [h3] at h
        cases r with
        | error e => simp at h
        | ok img =>
          simp only at h
          cases h4 : convertIfNeeded (w.conv hh) img (bootstrapDrive pl) w.dir with
          | mk r hc =>
            rw [h4] at h
            cases r with
            | error e => simp at h
            | ok img' =>
              simp only at h
              cases h5 : (if bootstrapDrive pl = "harddisk".toList then
                  w.capacity (hc.map IcOp.disk ++ hh) img'.path else .ok 1) with
              | error e => rw [h5] at h; simp at h
              | ok cap =>
                rw [h5] at h
                simp only [Prod.mk.injEq] at h
                obtain ⟨h6, h7⟩ := h
                subst h7
                refine ⟨fid, d, loc, img, hh, img', hc, cap, rfl, h2, rfl, h4, rfl, ?_, ?_, h6⟩
                · intro hb
                  rcases bootstrap_cases pl with ⟨-, g⟩ | ⟨g, -⟩
                  · rw [if_pos g] at h5; exact h5
                  · exact absurd hb g
                · intro hb
                  rcases bootstrap_cases pl with ⟨g, -⟩ | ⟨-, g⟩
                  · exact absurd g hb
                  · rw [if_neg (by rw [g]; decide)] at h5
                    cases h5; rfl

theorem runAll_ok {h h' : List IcOp} : ∀ {l : List IcOp}, w.runAll h l = (.ok (), h') → h' = l.reverse ++ h
  | [], e => by simp only [IcWorld.runAll, Prod.mk.injEq, true_and] at e; simp [e]
  | op :: t, e => by
    unfold IcWorld.runAll at e
    cases hf : w.fails h op with
    | some x => rw [hf] at e; simp at e
    | none =>
      rw [hf] at e
      simp only at e
      rw [runAll_ok e]
      simp

theorem names_eq (pl : Plat) : configTextFile pl = (wantedNames pl).1.map String.toList ∧
    secondaryTextFile pl = (wantedNames pl).2.map String.toList := by cases pl <;> exact ⟨rfl, rfl⟩

theorem icCopy_eq {dir : Str} {src : Option Str} {name : Option String} (h : given src = true → name ≠ none) :
    icCopy dir src (name.map String.toList) = .ok (paired src name (pathJoin dir)) := by
  unfold icCopy paired
  cases src with
  | none => rfl
  | some s =>
    by_cases hs : s = []
    · subst hs
      simp only [if_true]
      cases name <;> rfl
    · cases name with
      | none => exact absurd rfl (h (by simp [given, hs]))
      | some n => simp [hs]

/-- the image and the commands that made it -/
theorem icImage_inv {py : PyVer} {img : Image} {h : List IcOp} (ha : Accepted pl q) (he : icImage w py pl q = (.ok img, h)) :
    ∃ made : List DiskOp,
      let copies := wantedCopies w.dir pl q
      let h0 := (copies.map (fun c => IcOp.copy c.1 c.2)).reverse
      let files := copies.map Prod.snd ++ q.extra
      h = (made.map IcOp.disk).reverse ++ h0 ∧ (w.disk h0).pathExists img.path = false ∧
      (BootsFromDisk pl → img.path = pathJoin w.dir "config.img".toList ∧ img.fmt = .raw ∧
        rawCreate py img.path (files.map (fun f => (f, w.size h0 f))) none = .ok made) ∧
      (¬ BootsFromDisk pl → img.path = pathJoin w.dir "config.iso".toList ∧ img.fmt = .iso ∧
        ∃ maker, w.select h0 [("mkisofs".toList, none), ("genisoimage".toList, none), ("xorriso".toList, none)] = .ok maker ∧
        isoCreate img.path files "rockridge".toList maker = .ok made) := by
  unfold icImage at he
  rw [(names_eq pl).1, (names_eq pl).2, icCopy_eq ha.1, icCopy_eq ha.2] at he
  simp only at he
  rw [← (show wantedCopies w.dir pl q = paired q.config (wantedNames pl).1 (pathJoin w.dir) ++
    paired q.secondary (wantedNames pl).2 (pathJoin w.dir) from rfl)] at he
  cases hr : w.runAll [] ((wantedCopies w.dir pl q).map (fun c => IcOp.copy c.1 c.2)) with
  | mk r hh =>
    rw [hr] at he
    cases r with
    | error e => simp at he
    | ok u =>
      have hh0 := runAll_ok hr
      rw [List.append_nil] at hh0
      simp only at he
      generalize hpath : pathJoin w.dir (if bootstrapDrive pl = "cdrom".toList then "config.iso".toList
        else "config.img".toList) = path at he
      unfold createFile at he
      by_cases p1 : path = []
      · rw [if_pos p1] at he; simp at he
      rw [if_neg p1] at he
      by_cases p2 : (w.disk hh).pathExists path = true
      · rw [if_pos p2] at he; simp at he
      rw [if_neg p2, if_neg (by simp)] at he
      simp only [Option.getD_some] at he
      have hfin : ∀ {made : List DiskOp} {f : DiskFmt} {r : Except Err Image × List IcOp},
          (match w.runAll hh (made.map IcOp.disk) with
            | (.error e, h) => (.error e, h)
            | (.ok _, h) => ((w.conv h).open [] path f, h)) = (.ok img, h) →
          h = (made.map IcOp.disk).reverse ++ hh ∧ img.path = path ∧ img.fmt = f := by
        intro made f _ he
        cases hr2 : w.runAll hh (made.map IcOp.disk) with
        | mk r h2 =>
          rw [hr2] at he
          cases r with
          | error e => simp at he
          | ok u =>
            have := runAll_ok hr2
            simp only [Prod.mk.injEq] at he
            obtain ⟨he1, he2⟩ := he
            subst he2
            refine ⟨this, ?_⟩
            unfold ConvWorld.open at he1
            rw [if_neg p1] at he1
            split at he1
            · cases he1
            · cases he1; exact ⟨rfl, rfl⟩
      rcases bootstrap_cases pl with ⟨hb, hd⟩ | ⟨hb, hd⟩
      · rw [hd] at he hpath
        rw [if_neg (by decide)] at he hpath
        cases hm : rawCreate py path (((wantedCopies w.dir pl q).map Prod.snd ++ q.extra).map (fun f => (f, w.size hh f)))
            none with
        | error e => rw [hm] at he; simp at he
        | ok made =>
          rw [hm] at he
          simp only at he
          rw [if_neg (by decide)] at he
          obtain ⟨g1, g2, g3⟩ := hfin (r := (.ok img, h)) he
          refine ⟨made, ?_⟩
          simp only
          rw [← hh0, g2]
          exact ⟨g1, by simpa using p2, fun _ => ⟨hpath.symm, g3, hm⟩, fun hn => absurd hb hn⟩
      · rw [hd] at he hpath
        rw [if_pos rfl] at he hpath
        cases hs : w.select hh [("mkisofs".toList, none), ("genisoimage".toList, none), ("xorriso".toList, none)] with
        | error e => rw [hs] at he; simp at he
        | ok maker =>
          rw [hs] at he
          simp only at he
          cases hm : isoCreate path (List.map Prod.fst
              (((wantedCopies w.dir pl q).map Prod.snd ++ q.extra).map (fun f => (f, w.size hh f))))
              "rockridge".toList maker with
          | error e => rw [hm] at he; simp at he
          | ok made =>
            rw [hm] at he
            simp only at he
            rw [if_pos trivial] at he
            obtain ⟨g1, g2, g3⟩ := hfin (r := (.ok img, h)) he
            refine ⟨made, ?_⟩
            simp only
            rw [← hh0, g2]
            refine ⟨g1, by simpa using p2, fun hn => absurd hn hb, fun _ => ⟨hpath.symm, g3, maker, hs, ?_⟩⟩
            rw [← hm, List.map_map]
            congr 1
            simp [Function.comp_def]

/-- converting the raw image: one command -/
theorem convert_raw {cw : ConvWorld} {img img' : Image} {dir : Str} {hc : List DiskOp} (hp : img.path = pathJoin dir "config.img".toList)
    (hf : img.fmt = .raw) (h : convertIfNeeded cw img "harddisk".toList dir = (.ok img', hc)) :
    img'.path = pathJoin dir "config.vmdk".toList ∧
      (hc = [.call "qemu-img".toList ["convert".toList, "-O".toList, "vmdk".toList, "-o".toList,
          "subformat=streamOptimized".toList, img.path, img'.path]] ∨
        hc = [.call "vmdktool".toList ["-z9".toList, "-v".toList, img'.path, img.path]]) := by
  have hn : needsNewQemu img = .ok false := by
    unfold needsNewQemu; rw [if_neg (by rw [hf]; decide)]
  have hout : outputPath dir img.path ".vmdk".toList = pathJoin dir "config.vmdk".toList := by
    unfold outputPath
    rw [hp, pathBase_join (by decide)]
    rfl
  unfold convertIfNeeded at h
  rw [if_neg (by decide), hn] at h
  simp only at h
  have hconv : convertTo cw [] img "vmdk".toList dir (some "streamOptimized".toList) =
      vmdkFrom cw [] img dir "streamOptimized".toList := rfl
  rw [hconv] at h
  unfold vmdkFrom vmdkStep at h
  simp only [if_true, hout] at h
  rw [if_neg (by rw [hf]; simp)] at h
  have hmake : ∀ (op : DiskOp), cw.make [] op (pathJoin dir "config.vmdk".toList) .vmdk = (.ok img', hc) →
      img'.path = pathJoin dir "config.vmdk".toList ∧ hc = [op] := by
    intro op hm
    unfold ConvWorld.make ConvWorld.run at hm
    cases hx : cw.fails [] op with
    | some e => rw [hx] at hm; simp at hm
    | none =>
      rw [hx] at hm
      simp only [Prod.mk.injEq] at hm
      obtain ⟨h1, h2⟩ := hm
      refine ⟨?_, h2.symm⟩
      unfold ConvWorld.open at h1
      split at h1
      · cases h1
      · split at h1
        · cases h1
        · cases h1; rfl
  split at h
  · simp at h
  · split at h
    · obtain ⟨g1, g2⟩ := hmake _ h
      refine ⟨g1, Or.inr ?_⟩
      rw [g2, g1]
    · obtain ⟨g1, g2⟩ := hmake _ h
      refine ⟨g1, Or.inl ?_⟩
      rw [g2, g1]
      rfl

theorem paired_base {src : Option Str} {name : Option String} {dir : Str} (h : ∀ n, name = some n → '/' ∉ n.toList) :
    ((paired src name (pathJoin dir)).map Prod.snd).map pathBase = (paired src name id).map Prod.snd := by
  unfold paired
  cases src with
  | none => rfl
  | some s =>
    cases name with
    | none => rfl
    | some n =>
      by_cases hs : s = []
      · simp [hs]
      · simp only [if_neg hs, List.map_cons, List.map_nil, id]
        rw [pathBase_join (h n rfl)]

theorem image_size (py : PyVer) (total : Nat) (h : total < 2 ^ 70) : total < rawCapacityMB py total * 2 ^ 20 := by
  cases py
  · exact (C52_capacity_partial total).1
  · exact (C52_capacity_partial total).2 h

theorem reverse_ops (cs : List IcOp) (a cv : DiskOp) (l : List DiskOp) :
    ([cv].map IcOp.disk ++ (((a :: l).map IcOp.disk).reverse ++ cs.reverse)).reverse =
      cs ++ [.disk a] ++ l.map IcOp.disk ++ [.disk cv] := by simp

/-- **C86, the image.** If the command succeeds, what it did outside of the package is exactly this: it copied the
configuration files to the working directory, under the names the platform looks for; it made an image of these and of
the other files, in this order, which did not exist before; and for a platform that boots from hard disk it converted
the image to VMDK, having made the image large enough (for files of less than 2^70 bytes).  The names on the image are
the wanted ones. -/
theorem C86_image (ha : Accepted pl q) (h : injectConfig c w pl plat ask over p q = (.ok (k, p'), ops)) :
    ∃ files, files = (wantedCopies w.dir pl q).map Prod.snd ++ q.extra ∧
      files.map pathBase = (wantedContents pl q).map Prod.snd ∧
      (¬ BootsFromDisk pl → ∃ maker, ops.reverse = (wantedCopies w.dir pl q).map (fun c => IcOp.copy c.1 c.2) ++
        [.disk (.call maker ((if maker = "xorriso".toList then ["-as".toList, "mkisofs".toList] else []) ++
          ["-output".toList, pathJoin w.dir "config.iso".toList, "-full-iso9660-filenames".toList, "-iso-level".toList,
            "2".toList, "-allow-lowercase".toList, "-r".toList] ++ files))]) ∧
      (BootsFromDisk pl → ∃ mb convert, ops.reverse = (wantedCopies w.dir pl q).map (fun c => IcOp.copy c.1 c.2) ++
        [.disk (.call "fatdisk".toList [pathJoin w.dir "config.img".toList, "format".toList, "size".toList,
          natStr mb ++ "M".toList, "fat32".toList])] ++
        files.map (fun f => .disk (.call "fatdisk".toList [pathJoin w.dir "config.img".toList, "fileadd".toList, f,
          pathBase f])) ++ [.disk convert] ∧
        (convert = .call "qemu-img".toList ["convert".toList, "-O".toList, "vmdk".toList, "-o".toList,
            "subformat=streamOptimized".toList, pathJoin w.dir "config.img".toList, pathJoin w.dir "config.vmdk".toList] ∨
          convert = .call "vmdktool".toList ["-z9".toList, "-v".toList, pathJoin w.dir "config.vmdk".toList,
            pathJoin w.dir "config.img".toList]) ∧
        let size := (files.map (w.size ((wantedCopies w.dir pl q).map (fun c => IcOp.copy c.1 c.2)).reverse)).sum
        (size < 2 ^ 70 → size < mb * 2 ^ 20)) := by
  obtain ⟨fid, d, loc, img, h1, img', hc, cap, -, -, hi, hv, hops, -, -, -⟩ := inject_inv h
  obtain ⟨made, hm⟩ := icImage_inv ha hi
  simp only at hm
  obtain ⟨m1, m2, m3, m4⟩ := hm
  refine ⟨_, rfl, ?_, ?_, ?_⟩
  · unfold wantedCopies wantedContents
    simp only [List.map_append]
    rw [paired_base (by cases pl <;> simp [wantedNames]), paired_base (by cases pl <;> simp [wantedNames])]
    simp [Function.comp_def]
  · intro hb
    obtain ⟨n1, n2, maker, n3, n4⟩ := m4 hb
    rcases bootstrap_cases pl with ⟨g, -⟩ | ⟨-, g⟩
    · exact absurd g hb
    rw [g] at hv
    unfold convertIfNeeded at hv
    rw [if_pos (by decide)] at hv
    simp only [Prod.mk.injEq] at hv
    obtain ⟨-, rfl⟩ := hv
    rw [hops, m1]
    unfold isoCreate at n4
    split at n4
    · cases n4
    · cases n4
      refine ⟨maker, ?_⟩
      rw [n1, List.map_nil, List.nil_append, List.reverse_append, List.reverse_reverse, List.reverse_reverse]
      have : ∀ x y : List Str, x = y → [IcOp.disk (.call maker x)] = [IcOp.disk (.call maker y)] := by
        rintro x _ rfl; rfl
      refine congrArg _ (this _ _ ?_)
      rw [if_pos rfl]
      by_cases hx : maker = "xorriso".toList
      · rw [if_pos hx, if_pos hx]; rfl
      · rw [if_neg hx, if_neg hx]; rfl
  · intro hb
    obtain ⟨n1, n2, n3⟩ := m3 hb
    rcases bootstrap_cases pl with ⟨-, g⟩ | ⟨g, -⟩
    · rw [g] at hv
      obtain ⟨o1, o2⟩ := convert_raw n1 n2 hv
      unfold rawCreate at n3
      split at n3
      · cases n3
      · cases n3
        rw [hops, m1, ← n1]
        have hsize := fun hlt => image_size c.py (List.map Prod.snd (List.map (fun f => (f, w.size
          (List.map (fun c => IcOp.copy c.1 c.2) (wantedCopies w.dir pl q)).reverse f))
            (List.map Prod.snd (wantedCopies w.dir pl q) ++ q.extra))).sum hlt
        rw [List.map_map] at hsize
        rw [List.map_map]
        rcases o2 with o2 | o2
        · rw [o2, reverse_ops, ← o1]
          refine ⟨rawCapacityMB c.py _, _, ?_, Or.inl rfl, hsize⟩
          refine congrArg (· ++ _) ?_
          refine congr (congrArg HAppend.hAppend rfl) ?_
          rw [List.map_map, List.map_map]
          rfl
        · rw [o2, reverse_ops, ← o1]
          refine ⟨rawCapacityMB c.py _, _, ?_, Or.inr rfl, hsize⟩
          refine congrArg (· ++ _) ?_
          refine congr (congrArg HAppend.hAppend rfl) ?_
          rw [List.map_map, List.map_map]
          rfl
    · exact absurd hb g

end Cot
