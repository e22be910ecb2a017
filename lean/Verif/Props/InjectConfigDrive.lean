import Verif.Props.InjectConfig
import Verif.Props.PackageConsent
/-
What inject-config does to the package (C86): the drive, the medium, a second run.
-/
namespace Cot

variable {c : Ctx} {w : IcWorld} {pl : Plat} {plat : Str → Str} {ask : Prompt → Bool} {over : Option Str → Bool}
  {p p' : Pkg} {q : IcReq} {k : Str} {ops : List IcOp}

/-! ### The drive -/

/-- the path of the image -/
theorem inject_path {img img' : Image} {h1 : List IcOp} {hc : List DiskOp} (ha : Accepted pl q)
    (hi : icImage w c.py pl q = (.ok img, h1))
    (hv : convertIfNeeded (w.conv h1) img (bootstrapDrive pl) w.dir = (.ok img', hc)) :
    img'.path = pathJoin w.dir (injectedName pl) := by
  obtain ⟨made, hm⟩ := icImage_inv ha hi
  simp only at hm
  obtain ⟨-, -, m3, m4⟩ := hm
  unfold injectedName
  rcases bootstrap_cases pl with ⟨hb, g⟩ | ⟨hb, g⟩
  · obtain ⟨n1, n2, -⟩ := m3 hb
    rw [g] at hv
    rw [if_pos hb]
    exact (convert_raw n1 n2 hv).1
  · obtain ⟨n1, -⟩ := m4 hb
    rw [g] at hv
    unfold convertIfNeeded at hv
    rw [if_pos (by decide)] at hv
    simp only [Prod.mk.injEq, Except.ok.injEq] at hv
    rw [if_neg hb, ← hv.1, n1]

theorem addDiskCmd_search {c : Ctx} {q : DiskReq} (h : addDiskCmd c plat ask p q = .ok (k, p')) :
    ∃ r3, searchFromController c.env p q.controller q.address = .ok r3 := by
  unfold addDiskCmd at h
  obtain ⟨r, hr, -⟩ := bind_ok_inv h
  unfold searchForElements at hr
  obtain ⟨_, -, hr⟩ := bind_ok_inv hr
  obtain ⟨_, -, hr⟩ := bind_ok_inv hr
  obtain ⟨r3, h3, -⟩ := bind_ok_inv hr
  exact ⟨r3, h3⟩

/-- the drive whose location is given is the one that is used, and the request is sensible -/
theorem inject_place {c : Ctx} {d path : Str} {it : Item} {loc : Str × Str} {cap : Nat} {fid : Option Str} (wf : HwWF c.env p.hw)
    (hit : dget? p.hw d = some it) (hb : Bay c.env p.hw it) (hl : deviceLocation c.env p.hw d = .ok loc)
    (h0 : 0 < cap) (h63 : cap ≤ 2 ^ 63)
    (h : addDiskCmd c plat ask p (icDiskReq (bootstrapDrive pl) path cap fid loc) = .ok (k, p')) :
    k = d ∧ Sensible (icDiskReq (bootstrapDrive pl) path cap fid loc) ∧
      ∃ ctrl ci, dget? p.hw ctrl = some ci ∧ ChildOf it ctrl := by
  obtain ⟨r3, h3⟩ := addDiskCmd_search h
  obtain ⟨l1, l2, l3, ctrl, ci, -, l4, l5⟩ := location_back wf hit hb hl h3
  refine ⟨addDiskCmd_dev h h3 l1, ⟨⟨_, drive_code pl⟩, ?_, ?_, h0, h63⟩, ctrl, ci, l4, l5⟩
  · intro s hs; cases hs; exact l3
  · intro a ha; cases ha; exact ⟨l2, by simp [icDiskReq]⟩

theorem refersTo_drive {v : Ver} {r : Found} {it : Item} (h : RefersTo v p r it) : IsDrive it := by
  rcases h with ⟨_, _, _, -, -, -, h | h⟩ | ⟨_, _, _, -, -, -, h | h⟩ <;> exact Or.inr (Or.inr ⟨_, h⟩)

theorem empty_drive {env : Env} {it : Item} (h : EmptyDrive env p pl it) : IsDrive it := by
  rcases h with ⟨-, h, -⟩ | ⟨-, _, -, -, -, _, -, h | h⟩
  · exact Or.inl h
  · exact Or.inr (Or.inr ⟨_, h⟩)
  · exact Or.inr (Or.inr ⟨_, h⟩)

/-- where the drive comes from -/
theorem icTarget_drive {env : Env} {fid : Option Str} {d : Str} (wf : HwWF env p.hw)
    (h : icTarget env over p (bootstrapDrive pl) = .ok (fid, d)) :
    ∃ it, dget? p.hw d = some it ∧ IsDrive it ∧
      ((∃ i e s r, OnlyAt p.refs.children (FileWith env.ver (fileHref env.ver) (injectedName pl)) i ∧
          p.refs.children[i]? = some e ∧ e.get (fileId env.ver) = some s ∧ fid = some s ∧ over (some s) = true ∧
          r.file = some i ∧ RefersTo env.ver p r it ∧ Linked env p r) ∨
        ((∀ e ∈ p.refs.children, ¬ FileWith env.ver (fileHref env.ver) (injectedName pl) e) ∧ fid = none ∧
          EmptyDrive env p pl it)) := by
  obtain ⟨r, hr, hcase⟩ := icTarget_inv h
  rw [configDiskName_eq] at hr
  obtain ⟨hl, hn, hno⟩ := C69_by_name wf hr
  rcases hcase with ⟨i, hf, hfid, hov, hd⟩ | ⟨hf, rfl, hd⟩
  · obtain ⟨it, _, _, g1, g2, g3, -⟩ := hl.dev d hd
    refine ⟨it, g1, refersTo_drive g3, Or.inl ?_⟩
    have ho := hn i hf
    obtain ⟨⟨e, he, -⟩, -⟩ := id ho
    have hid : ∃ s, e.get (fileId env.ver) = some s := by
      rcases g3 with ⟨i', e', s, a1, a2, a3, -⟩ | ⟨j, d', did, a1, -, -, -⟩
      · rw [hf] at a1; cases a1
        rw [he] at a2; cases a2
        exact ⟨s, a3⟩
      · obtain ⟨e', s, b1, b2, -⟩ := hl.disk i j hf a1
        rw [he] at b1; cases b1
        exact ⟨s, b2⟩
    obtain ⟨s, hs⟩ := hid
    rw [attrOf_eq he, hs] at hfid
    subst hfid
    exact ⟨i, e, s, r, ho, he, hs, rfl, hov, hf, g3, hl⟩
  · obtain ⟨it, g1, g2, -⟩ := findEmptyDrive_inv hd
    exact ⟨it, g1, empty_drive g2, Or.inr ⟨(hno hf).2, rfl, g2⟩⟩

theorem injectedName_plain (pl : Plat) : '/' ∉ injectedName pl := by cases pl <;> decide

/-- **C86, the drive and the medium.** If the command succeeds, the image it made is in a drive that was there before:
if the package had a File with the name of the image, in the drive that used it, after the user agreed, and the entry of
that File now describes the image, with its identifier kept; otherwise in an empty drive.  The drive is of the type the
platform boots from and refers to the image, directly or through a Disk of the image's capacity.  No device is added or
removed, no other device changes, and of the drive only its type, medium, name and description. -/
theorem C86_medium_partial (wf : HwWF c.env p.hw) (ht : Tidy c.env p.hw) (hbays : Bays c.env p.hw)
    (hplat : ∃ code, ControllerCode (plat (bootstrapDrive pl)) code)
    (hcap : ∀ h path n, w.capacity h path = .ok n → 0 < n ∧ n ≤ 2 ^ 63) (ha : Accepted pl q)
    (h : injectConfig c w pl plat ask over p q = (.ok (k, p'), ops)) :
    let v := c.env.ver
    let image := pathJoin w.dir (injectedName pl)
    ∃ it it' bytes e fid, dget? p.hw k = some it ∧ dget? p'.hw k = some it' ∧
      -- the image
      (w.fs ops).file (absName (w.fs ops) image) = some bytes ∧ FileSays v e fid (injectedName pl) bytes.length ∧
      -- its entry, and which drive it is
      ((∃ i old, OnlyAt p.refs.children (FileWith v (fileHref v) (injectedName pl)) i ∧ p.refs.children[i]? = some old ∧
          old.get (fileId v) = some fid ∧ over (some fid) = true ∧ p'.refs.children = p.refs.children.set i e ∧
          DependsOn v p fid it) ∨
        ((∀ e ∈ p.refs.children, ¬ FileWith v (fileHref v) (injectedName pl) e) ∧ EmptyDrive c.env p pl it ∧
          (Added p.refs.children p'.refs.children e ∨ ∃ old, Replaced p.refs.children p'.refs.children old e ∧
            ask (.replaceFile (old.get (fileHref v)) image) = true))) ∧
      -- the drive afterwards
      OfType it' (injectedCode pl) ∧
      (BootsFromDisk pl → ∃ d did cap, w.capacity ops image = .ok cap ∧ DiskSays v d did fid cap ∧
        Mapped it' (hostDiskRef v ++ did) ∧
        ((did = fid ∧ Added (diskEntries v p) (diskEntries v p') d) ∨
          ∃ old, old.get (diskId v) = some did ∧ Replaced (diskEntries v p) (diskEntries v p') old d)) ∧
      (¬ BootsFromDisk pl → Mapped it' (hostFileRef v ++ fid)) ∧
      -- everything else
      (∀ k', k' ≠ k → dget? p'.hw k' = dget? p.hw k') ∧
      (∀ m, m ≠ resourceType → m ≠ hostResource → m ≠ elementName v → m ≠ itemDescription → it'.tab m = it.tab m) ∧
      HwWF c.env p'.hw := by
  obtain ⟨fid, d, loc, img, h1, img', hc, cap, hi, hl, himg, hv, hops, hcp, hcp1, hadd⟩ := inject_inv h
  obtain ⟨it, hit, hdr, htgt⟩ := icTarget_drive wf hi
  have hpath := inject_path ha himg hv
  have hpos : 0 < cap ∧ cap ≤ 2 ^ 63 := by
    by_cases hb : BootsFromDisk pl
    · exact hcap _ _ _ (hcp hb)
    · rw [hcp1 hb]; decide
  obtain ⟨hk, hq, ctrl0, ci0, hc0, hch0⟩ := inject_place (c := { c with fs := w.fs ops }) wf hit (hbays d it hit hdr) hl
    hpos.1 hpos.2 hadd
  subst hk
  obtain ⟨b, e, f, r3, ctrl, ci, it', ct, code, a1, a2, a3, a4, -, -, -, -, a5, -, a6, a7, a8, a9, a10, a11, -, a12, a13, a14,
    -, -, -, -, a15, -⟩ := addDiskCmd_core (c := { c with fs := w.fs ops }) wf ht hq hplat hadd
  simp only [icDiskReq] at a1 a2 a3 a4 a9 a13 a14 a15
  rw [hpath] at a1 a2 a4
  rw [pathBase_join (injectedName_plain pl)] at a2 a4
  have htab := a12 it hit
  simp only
  refine ⟨it, it', b, e, f, hit, a6, a1, a2, ?_, ?_, ?_, ?_, ?_, ?_, a10⟩
  · rcases htgt with ⟨i, old, s, r, t1, t2, t3, t4, t5, t6, t7, t8⟩ | ⟨t1, t2, t3⟩
    · left
      have hfs := a3 s t4
      subst hfs
      rcases a4 with ⟨n, -, g, -⟩ | ⟨i', old', g1, g2, g3, -, g4, -⟩
      · obtain ⟨⟨o, o1, o2⟩, -⟩ := t1
        exact absurd o2 (g o (List.mem_of_getElem? o1))
      · have hii : i = i' := by
          obtain ⟨⟨o, o1, o2⟩, -⟩ := id t1
          exact g4 i o o1 o2
        subst hii
        refine ⟨i, old, t1, t2, t3, t5, g3, ?_⟩
        rcases t7 with ⟨i2, e2, s2, b1, b2, b3, b4⟩ | ⟨j, dd, did, b1, b2, b3, b4⟩
        · rw [t6] at b1; cases b1
          rw [t2] at b2; cases b2
          rw [t3] at b3; cases b3
          exact Or.inl b4
        · obtain ⟨e2, s2, d1, d2, ⟨d3, d4, d5⟩, -⟩ := t8.disk i j t6 b1
          rw [t2] at d1; cases d1
          rw [t3] at d2; cases d2
          rw [b2] at d4; cases d4
          exact Or.inr ⟨dd, List.mem_of_getElem? b2, d5, did, b3, b4⟩
    · refine Or.inr ⟨t1, t3, ?_⟩
      rcases a4 with ⟨n, g, -⟩ | ⟨i', old', g1, g2, g3, g4, -⟩
      · left; rw [g]; exact added_insert _ _ _
      · right; rw [g3]; exact ⟨old', replaced_set g1, g4⟩
  · obtain ⟨dc, d1, d2⟩ := a9
    have := drive_code pl
    have he : dc = injectedCode pl := by
      rcases d1 with ⟨x, rfl⟩ | ⟨x, rfl⟩ <;> rcases this with ⟨y, z⟩ | ⟨y, z⟩ <;> rw [z]
      · rw [x] at y; exact absurd y (by decide)
      · rw [x] at y; exact absurd y (by decide)
    rw [← he]; exact d2
  · intro hb
    rcases bootstrap_cases pl with ⟨-, g⟩ | ⟨g, -⟩
    · obtain ⟨dd, did, e1, e2, e3⟩ := a13 g
      refine ⟨dd, did, cap, by rw [← hpath]; exact hcp hb, e1, e2, ?_⟩
      rcases e3 with e3 | ⟨old, e3, e4, -⟩
      · exact Or.inl e3
      · exact Or.inr ⟨old, e3, e4⟩
    · exact absurd hb g
  · intro hb
    rcases bootstrap_cases pl with ⟨g, -⟩ | ⟨-, g⟩
    · exact absurd g hb
    · exact (a14 (by rw [g]; decide)).1
  · intro k' hk'
    by_cases hcc : k' = ctrl
    · subst hcc
      have : k' = ctrl0 := by
        obtain ⟨S, hS⟩ := a7
        obtain ⟨T, hT⟩ := hch0
        have := htab parentName (by
          rintro (x | x | x | x)
          · exact absurd x (by decide)
          · exact absurd x (by decide)
          · revert x; cases c.env.ver <;> decide
          · exact absurd x (by decide))
        rw [hS, hT] at this
        simp only [List.cons.injEq, Prod.mk.injEq, Val.str.injEq] at this
        exact this.1.1
      subst this
      rcases a15 ci0 hc0 with g | ⟨s, g, -⟩
      · rw [a5, g, hc0]
      · cases g
    · exact a11 k' hk' hcc
  · intro m m1 m2 m3 m4
    refine htab m ?_
    rintro (x | x | x | x)
    · exact m1 x
    · exact m2 x
    · exact m3 x
    · exact m4 x

/-! ### Consent -/

/-- **C86, refusal.** If the package has a File with the name of the image and the user does not agree to overwrite it, or
if it has none and there is no empty drive, the command fails and nothing is copied or run.  And it never succeeds
unless the user agrees to use the drive. -/
theorem C86_refused (wf : HwWF c.env p.hw) :
    (((∃ i e, OnlyAt p.refs.children (FileWith c.env.ver (fileHref c.env.ver) (injectedName pl)) i ∧
          p.refs.children[i]? = some e ∧ over (e.get (fileId c.env.ver)) = false) ∨
        ((∀ e ∈ p.refs.children, ¬ FileWith c.env.ver (fileHref c.env.ver) (injectedName pl) e) ∧
          ∀ k it, dget? p.hw k = some it → ¬ EmptyDrive c.env p pl it)) →
      ∃ err, injectConfig c w pl plat ask over p q = (.error err, [])) ∧
    (Tidy c.env p.hw → Bays c.env p.hw → (∃ code, ControllerCode (plat (bootstrapDrive pl)) code) →
      (∀ h path n, w.capacity h path = .ok n → 0 < n ∧ n ≤ 2 ^ 63) → Accepted pl q →
      injectConfig c w pl plat ask over p q = (.ok (k, p'), ops) →
      (∃ old, ask (.replaceFile old (pathJoin w.dir (injectedName pl))) = true) ∨
        ask (.fillDrive (if BootsFromDisk pl then "harddisk".toList else "cdrom".toList)) = true) := by
  constructor
  · intro hno
    unfold injectConfig
    simp only
    cases hi : icTarget c.env over p (bootstrapDrive pl) with
    | error e => exact ⟨e, rfl⟩
    | ok t =>
      obtain ⟨fid, d⟩ := t
      obtain ⟨it, g1, -, g2⟩ := icTarget_drive wf hi
      exfalso
      rcases hno with ⟨i, e, o1, o2, o3⟩ | ⟨n1, n2⟩
      · rcases g2 with ⟨i', e', s, r, t1, t2, t3, -, t5, -⟩ | ⟨t1, -⟩
        · obtain ⟨⟨x, x1, x2⟩, -⟩ := t1
          have := o1.2 i' x x1 x2
          subst this
          rw [o2] at t2; cases t2
          rw [t3, t5] at o3
          cases o3
        · obtain ⟨⟨x, x1, x2⟩, -⟩ := o1
          exact t1 x (List.mem_of_getElem? x1) x2
      · rcases g2 with ⟨i', e', s, r, ⟨⟨x, x1, x2⟩, -⟩, -⟩ | ⟨-, -, t3⟩
        · exact n1 x (List.mem_of_getElem? x1) x2
        · exact n2 d it g1 t3
  · intro ht hbays hplat hcap ha h
    obtain ⟨fid, d, loc, img, h1, img', hc, cap, hi, hl, himg, hv, hops, hcp, hcp1, hadd⟩ := inject_inv h
    obtain ⟨it, hit, hdr, -⟩ := icTarget_drive wf hi
    have hpath := inject_path ha himg hv
    have hpos : 0 < cap ∧ cap ≤ 2 ^ 63 := by
      by_cases hb : BootsFromDisk pl
      · exact hcap _ _ _ (hcp hb)
      · rw [hcp1 hb]; decide
    obtain ⟨hk, hq, -⟩ := inject_place (c := { c with fs := w.fs ops }) wf hit (hbays d it hit hdr) hl hpos.1 hpos.2 hadd
    subst hk
    have hag := (C71_add_disk_partial (c := { c with fs := w.fs ops }) wf ht hq hplat hadd).2.2.1 (mem_dkeys_of_dget? hit)
    rcases hag with hag | hag
    · left
      rw [← hpath]
      exact hag
    · right
      rcases bootstrap_cases pl with ⟨hb, g⟩ | ⟨hb, g⟩
      · rw [if_pos hb, ← g]; exact hag
      · rw [if_neg hb, ← g]; exact hag

/-! ### Once more -/

theorem inDefault_congr {env : Env} {it it' : Item} (h : it'.tab (instanceId env.ver) = it.tab (instanceId env.ver)) :
    InDefault env it → InDefault env it' := by
  unfold InDefault
  rw [hasProfile_iff, hasProfile_iff, h]
  exact id

/-- **C86, once more.** Injecting again, in whatever circumstances, uses the same drive and the same File, if it succeeds:
configuration disks do not accumulate. -/
theorem C86_again {w2 : IcWorld} {plat2 : Str → Str} {ask2 : Prompt → Bool} {over2 : Option Str → Bool} {q2 : IcReq}
    {k2 : Str} {p2 : Pkg} {ops2 : List IcOp} (wf : HwWF c.env p.hw) (ht : Tidy c.env p.hw) (hbays : Bays c.env p.hw)
    (hplat : ∃ code, ControllerCode (plat (bootstrapDrive pl)) code)
    (hcap : ∀ h path n, w.capacity h path = .ok n → 0 < n ∧ n ≤ 2 ^ 63) (ha : Accepted pl q)
    (h : injectConfig c w pl plat ask over p q = (.ok (k, p'), ops)) (hst : OneStyle c.env.ver p'.hw)
    (hplat2 : ∃ code, ControllerCode (plat2 (bootstrapDrive pl)) code)
    (hcap2 : ∀ h path n, w2.capacity h path = .ok n → 0 < n ∧ n ≤ 2 ^ 63) (ha2 : Accepted pl q2)
    (h2 : injectConfig c w2 pl plat2 ask2 over2 p' q2 = (.ok (k2, p2), ops2)) :
    k2 = k ∧ p2.refs.children.length = p'.refs.children.length ∧ ∃ fid e, e ∈ p'.refs.children ∧
      e.get (fileHref c.env.ver) = some (injectedName pl) ∧ e.get (fileId c.env.ver) = some fid ∧ over2 (some fid) = true := by
  obtain ⟨it, it', bytes, e, fid, hit, hit', -, hsays, hfile, -, hdisk, hcd, hoth, htab, wf'⟩ :=
    C86_medium_partial wf ht hbays hplat hcap ha h
  have hdr : IsDrive it := by
    rcases hfile with ⟨i, old, -, -, -, -, -, hd | ⟨_, -, -, _, -, hd⟩⟩ | ⟨-, hd, -⟩
    · rcases hd with hd | hd <;> exact Or.inr (Or.inr ⟨_, hd⟩)
    · rcases hd with hd | hd <;> exact Or.inr (Or.inr ⟨_, hd⟩)
    · exact empty_drive hd
  have hb := hbays k it hit hdr
  have tparent := htab parentName (by decide) (by decide) (by cases c.env.ver <;> decide) (by decide)
  have tunit := htab addressOnParent (by decide) (by decide) (by cases c.env.ver <;> decide) (by decide)
  have tid := htab (instanceId c.env.ver) (by cases c.env.ver <;> decide) (by cases c.env.ver <;> decide)
    (by cases c.env.ver <;> decide) (by cases c.env.ver <;> decide)
  have hnoself : ∀ x, ChildOf it x → x ≠ k := by
    rintro x hx rfl
    exact ht.noSelf x it hit hx
  have hb' : Bay c.env p'.hw it' := by
    refine ⟨inDefault_congr tid hb.inDefault, ?_, ?_, ?_⟩
    · intro x ci hx hci
      unfold ChildOf at hx
      rw [tparent] at hx
      rw [hoth x (hnoself x hx)] at hci
      exact hb.ctrl x ci hx hci
    · intro x ci a S hx hci
      unfold ChildOf at hx
      rw [tparent] at hx
      rw [hoth x (hnoself x hx)] at hci
      exact hb.addr x ci a S hx hci
    · intro b S
      rw [tunit]
      exact hb.unit b S
  have ht2 : Tidy c.env p'.hw := by
    have taddr := htab address (by decide) (by decide) (by cases c.env.ver <;> decide) (by decide)
    have hcase : ∀ x xi, dget? p'.hw x = some xi → (x = k ∧ xi = it') ∨ dget? p.hw x = some xi := by
      intro x xi hx
      by_cases hxk : x = k
      · subst hxk
        rw [hit'] at hx; cases hx
        exact Or.inl ⟨rfl, rfl⟩
      · rw [hoth x hxk] at hx; exact Or.inr hx
    refine ⟨?_, ?_, ?_⟩
    · intro x xi hx
      rcases hcase x xi hx with ⟨rfl, rfl⟩ | hx
      · rw [tid]; exact ht.ident x it hit
      · exact ht.ident x xi hx
    · intro x xi hx
      rcases hcase x xi hx with ⟨rfl, rfl⟩ | hx
      · unfold ChildOf; rw [tparent]; exact ht.noSelf x it hit
      · exact ht.noSelf x xi hx
    · intro x xi ca S hx
      rcases hcase x xi hx with ⟨rfl, rfl⟩ | hx
      · rw [taddr]; exact ht.plainAddress x it ca S hit
      · exact ht.plainAddress x xi ca S hx
  have hmem : e ∈ p'.refs.children := by
    rcases hfile with ⟨i, old, -, h1, -, -, h2, -⟩ | ⟨-, -, ⟨a, b, -, h2⟩ | ⟨old, ⟨a, b, -, h2⟩, -⟩⟩
    · rw [h2]
      exact List.mem_of_getElem? (i := i) (by
        rw [List.getElem?_set_self (List.getElem?_eq_some_iff.1 h1).1])
    · rw [h2]; simp
    · rw [h2]; simp
  obtain ⟨fid2, d2, loc2, img2, h12, img2', hc2, cap2, hi2, hl2, himg2, hv2, hops2, hcp2, hcp12, hadd2⟩ := inject_inv h2
  obtain ⟨r, hr, hcase⟩ := icTarget_inv hi2
  rw [configDiskName_eq] at hr
  obtain ⟨hlk, hn, hno⟩ := C69_by_name wf' hr
  rcases hcase with ⟨i, hf, hfid, hov, hd⟩ | ⟨hf, -, -⟩
  · obtain ⟨⟨x, x1, x2⟩, x3⟩ := hn i hf
    have hex : p'.refs.children[i]? = some e := by
      obtain ⟨j, hj⟩ := List.mem_iff_getElem?.1 hmem
      have := x3 j e hj ⟨hsays.isFile, hsays.href⟩
      subst this
      exact hj
    have href : RefersTo c.env.ver p' r it' := by
      by_cases hboot : BootsFromDisk pl
      · obtain ⟨dd, did, cap, -, e1, e2, e3⟩ := hdisk hboot
        have hdm : dd ∈ p'.diskList := by
          have : dd ∈ diskEntries c.env.ver p' := by
            rcases e3 with ⟨-, a, b, -, g⟩ | ⟨-, -, a, b, -, g⟩ <;> rw [g] <;> simp
          exact (List.mem_filter.1 this).1
        cases hrd : r.disk with
        | none => exact absurd ⟨e1.isDisk, e1.ref⟩ (hlk.noDisk i e fid hf hrd hex hsays.id dd hdm)
        | some j =>
          obtain ⟨e', f', y1, y2, ⟨-, y3⟩⟩ := hlk.disk i j hf hrd
          rw [hex] at y1; cases y1
          rw [hsays.id] at y2; cases y2
          obtain ⟨j', hj'⟩ := List.mem_iff_getElem?.1 hdm
          have := y3 j' dd hj' ⟨e1.isDisk, e1.ref⟩
          subst this
          exact Or.inr ⟨_, dd, did, hrd, hj', e1.id, Or.inl e2⟩
      · exact Or.inl ⟨i, e, fid, hf, hex, hsays.id, Or.inl (hcd hboot)⟩
    have hdev := C69_only_device hst (Or.inl ⟨_, hr⟩) hit' hb'.inDefault href
    rw [hd] at hdev
    cases hdev
    have hpos : 0 < cap2 ∧ cap2 ≤ 2 ^ 63 := by
      by_cases hbt : BootsFromDisk pl
      · exact hcap2 _ _ _ (hcp2 hbt)
      · rw [hcp12 hbt]; decide
    obtain ⟨hk, hq, -⟩ := inject_place (c := { c with fs := w2.fs ops2 }) wf' hit' hb' hl2 hpos.1 hpos.2 hadd2
    subst hk
    rw [attrOf_eq hex, hsays.id] at hfid
    subst hfid
    refine ⟨rfl, ?_, fid, e, hmem, hsays.href, hsays.id, hov⟩
    have hpath2 := inject_path ha2 himg2 hv2
    obtain ⟨_, _, _, _, _, _, _, _, _, -, -, -, a4, -⟩ :=
      addDiskCmd_core (c := { c with fs := w2.fs ops2 }) wf' ht2 hq hplat2 hadd2
    simp only [icDiskReq, hpath2, pathBase_join (injectedName_plain pl)] at a4
    rcases a4 with ⟨n, -, g, -⟩ | ⟨i', old', -, -, g3, -⟩
    · exact absurd ⟨hsays.isFile, hsays.href⟩ (g e hmem)
    · rw [g3, List.length_set]
  · exact absurd ⟨hsays.isFile, hsays.href⟩ ((hno hf).2 e hmem)

end Cot
