import Verif.Props.CommandDisk
import Verif.Props.CommandRuns
import Verif.Props.Ui
/-
C125: a right command line of add-disk is carried out exactly as the request that it states.
-/
namespace Cot

variable {f : EhFiles} {w : AdWorld}

/-- a right command line is handed over if the setters accept the values in the states that come up -/
theorem handed_within {Q : Type} {setters : List (Str × Setter Q)} {sc : SubCommand} (hc : PlainCommand sc) {m : ManPage}
    (hm : ∀ m' ∈ commandPages, m'.names = sc.title :: sc.aliases → m' = m)
    {name : Str} (hn : name = sc.title ∨ name ∈ sc.aliases) {g l : List Str} {gus us : List ArgUse} {ws : List Str}
    (hg : CmdLine mainParser g gus []) (hl : CmdLine sc.parser l us ws) (hp : ∀ u ∈ gus ++ us, ¬ OnlyPrints u.opt) (ha : ClearFor mainParser l)
    (hnc : NoConflict gus) (hr : RightLine sc.parser us ws) (q : Q) (I : PkgCmd Q → Prop) (h0 : I { req := q })
    (all : ∀ d : List (Str × ArgVal ArgAtom),
      (∀ o ∈ m.options, o.takes ≠ .prints → ∃ v, Reaches o.takes (givenWith o us) v ∧ Assigned d o.sets v) →
      (∀ (i : Nat) (a w : Str), m.words[i]? = some a → ws[i]? = some w → Assigned d (lower a) (.one (.text w))) →
      ∀ a v, (a, v) ∈ Assignments d → ∀ s, I s → ∃ s', pkgSetattr f setters s a v = .ok s' ∧ I s') :
    ∃ cmd, pkgCommand f setters q (g ++ name :: l) = .ok cmd := by
  obtain ⟨m', hm', hn', ns, d, h1, h2, h3, h4⟩ := C121_reaches_partial hc hn hg hl hp ha hnc hr
  obtain rfl := hm m' hm' hn'
  unfold pkgCommand
  rw [h1]
  dsimp only
  rw [h2]
  dsimp only
  cases hs : setAttributes (pkgSetattr f setters) d { req := q } with
  | mk r st =>
    obtain ⟨done, rest, e1, e2, e3⟩ := C103_set hs
    rcases e3 with ⟨rfl, rfl⟩ | ⟨e, a, v, rest', rfl, e4', e5⟩
    · exact ⟨st, rfl⟩
    · exfalso
      have hst : ∀ {s s' : PkgCmd Q} {x : List (Str × ArgVal ArgAtom)}, Sets (pkgSetattr f setters) s x s' → (∀ y ∈ x, y ∈ Assignments d) → I s → I s' := by
        intro s s' x hx
        induction hx with
        | nil => exact fun _ h => h
        | cons k1 _ ih =>
          intro hin hI
          obtain ⟨s2, k2, k3⟩ := all d h3 h4 _ _ (hin _ List.mem_cons_self) _ hI
          rw [k1] at k2
          cases k2
          exact ih (fun y hy => hin y (List.mem_cons_of_mem _ hy)) k3
      have hI := hst e2 (fun y hy => by rw [← e1]; exact List.mem_append_left _ hy) h0
      obtain ⟨s2, k2, -⟩ := all d h3 h4 a v (by rw [← e1, e4']; simp) _ hI
      rw [k2] at e5
      cases e5

/-- the blanks around an address are the only thing that is left out -/
theorem strip_address {s a b : Str} (hp : Padded s (a ++ ':' :: b)) (ha : Digits a) (hb : Digits b) : strip s = a ++ ':' :: b := by
  refine (strip_word ?_).2 hp
  intro ch hch
  rcases List.mem_append.1 hch with hch | hch
  · exact isDig_not_ws (ha.2 ch hch)
  · rcases List.mem_cons.1 hch with rfl | hch
    · decide
    · exact isDig_not_ws (hb.2 ch hch)

theorem validate_none_left (a : Option Str) : validateControllerAddress none a = .ok () := by
  unfold validateControllerAddress
  rfl

theorem validate_none_right (c : Option Str) : validateControllerAddress c none = .ok () := by
  cases c <;> rfl

/-- the command object of add-disk while its attributes are set -/
def DiskSetting (us : List ArgUse) (st : PkgCmd AddDiskReq) : Prop :=
  (st.req.loc.controller = none ∨ st.req.loc.controller = lastGiven "--controller" us) ∧
    (st.req.loc.address = none ∨ st.req.loc.address = (lastGiven "--address" us).map strip)

theorem addDisk_handed {name : Str} (hn : name = addDiskSub.title ∨ name ∈ addDiskSub.aliases) {g l : List Str} {gus us : List ArgUse}
    {image pkg : Str} {fmt : DiskFmt} (hg : CmdLine mainParser g gus []) (hl : CmdLine addDiskParser l us [image, pkg])
    (hp : ∀ u ∈ gus ++ us, ¬ OnlyPrints u.opt) (ha : ClearFor mainParser l) (hnc : NoConflict gus) (hr : RightLine addDiskParser us [image, pkg])
    (hopen : f.opens pkg = .ok ()) (hagree : ∀ x, lastGiven "--output" us = some x → f.agrees x = .ok ()) (hf : fromFile w.disk image = .ok fmt)
    (had : ∀ s, lastGiven "--address" us = some s → ∃ ctl a b, Padded s (a ++ ':' :: b) ∧ Digits a ∧ Digits b ∧
      lastGiven "--controller" us = some ctl ∧ AddressOk ctl (digitsVal a) (digitsVal b)) :
    ∃ cmd, pkgCommand f (addDiskSetters w.disk) {} (g ++ name :: l) = .ok cmd := by
  have hus : ∀ u ∈ us, u.opt ∈ addDiskParser.opts := uses_known addDisk_plain hl
  have hval : ∀ c a, (c = none ∨ c = lastGiven "--controller" us) → (a = none ∨ a = (lastGiven "--address" us).map strip) →
      validateControllerAddress c a = .ok () := by
    rintro c a (rfl | rfl) (rfl | rfl)
    · exact validate_none_left _
    · exact validate_none_left _
    · exact validate_none_right _
    · cases hs : lastGiven "--address" us with
      | none => exact validate_none_right _
      | some s =>
        obtain ⟨ctl, a, b, h1, h2, h3, h4, h5⟩ := had s hs
        rw [h4, Option.map_some, strip_address h1 h2 h3]
        exact (validate_iff h2 h3).1 h5
  refine handed_within (f := f) (setters := addDiskSetters w.disk) addDisk_plain addDisk_page hn hg hl hp ha hnc hr {} (DiskSetting us)
    ⟨.inl rfl, .inl rfl⟩ ?_
  intro d h3 h4 a v hv s hI
  have htext : ∀ {flags : List Str} {b : Str} (F : AddDiskReq → Str → AddDiskReq), ⟨flags, .value .text, b⟩ ∈ addDiskPage.options → a = b →
      (∀ q x, (F q x).loc = q.loc) → ∃ q', storeText F s.req v = .ok q' ∧ q'.loc = s.req.loc := by
    rintro flags b F ho rfl hF
    obtain ⟨y, e1, e2⟩ := h3 _ ho (by simp)
    obtain ⟨rfl, hgv⟩ := (e2 v).1 hv
    rcases e1 with ⟨-, rfl⟩ | ⟨x, y, -, rfl, rfl⟩
    · exact hgv.elim
    · exact ⟨_, rfl, hF _ _⟩
  have hone : ∀ {flags ch : List Str} {b : Str} {fl : String}, ⟨flags, .oneOf ch, b⟩ ∈ addDiskPage.options → a = b →
      (∀ x ∈ addDiskParser.opts, (∃ g ∈ flags, g ∈ x.flags) ↔ fl.toList ∈ x.flags) → ∃ x, v = .one (.text x) ∧ lastGiven fl us = some x := by
    rintro flags ch b fl ho rfl hfl
    obtain ⟨y, e1, e2⟩ := h3 _ ho (by simp)
    obtain ⟨rfl, hgv⟩ := (e2 v).1 hv
    rcases e1 with ⟨-, rfl⟩ | ⟨x, e1, -, rfl⟩
    · exact hgv.elim
    · rw [withFlag_of hus hfl] at e1
      exact ⟨x, rfl, by unfold lastGiven; rw [e1]; rfl⟩
  unfold pkgSetattr
  split
  · rename_i h1
    subst h1
    obtain ⟨rfl, -⟩ := (h4 1 "PACKAGE".toList pkg rfl rfl v).1 hv
    dsimp only
    rw [hopen]
    exact ⟨_, rfl, hI⟩
  split
  · rename_i h1
    subst h1
    obtain ⟨y, e1, e2⟩ := h3 ⟨["-o".toList, "--output".toList], .value .text, "output".toList⟩ (by decide +kernel) (by decide)
    obtain ⟨rfl, hgv⟩ := (e2 v).1 hv
    rcases e1 with ⟨-, rfl⟩ | ⟨x, y, e3, rfl, rfl⟩
    · exact hgv.elim
    · rw [withFlag_of hus (fl := "--output") (by decide +kernel)] at e3
      dsimp only
      rw [hagree x (by unfold lastGiven; rw [e3]; rfl)]
      exact ⟨_, rfl, hI⟩
  cases hgt : dget? (addDiskSetters w.disk) a with
  | none => exact ⟨_, rfl, hI⟩
  | some gt =>
    dsimp only
    suffices hs : ∃ q', gt s.req v = .ok q' ∧ DiskSetting us { s with req := q' } by
      obtain ⟨q', k1, k2⟩ := hs
      rw [k1]
      exact ⟨_, rfl, k2⟩
    have keep : ∀ {q' : AddDiskReq}, q'.loc = s.req.loc → DiskSetting us { s with req := q' } := by
      intro q' h
      unfold DiskSetting
      rw [show ({ s with req := q' } : PkgCmd AddDiskReq).req.loc = s.req.loc from h]
      exact hI
    have hm := dget?_mem hgt
    unfold addDiskSetters at hm
    simp only [List.mem_cons, List.not_mem_nil, or_false, Prod.mk.injEq] at hm
    rcases hm with ⟨ha1, rfl⟩ | ⟨ha1, rfl⟩ | ⟨ha1, rfl⟩ | ⟨ha1, rfl⟩ | ⟨ha1, rfl⟩ | ⟨ha1, rfl⟩ | ⟨ha1, rfl⟩ | ⟨ha1, rfl⟩
    · subst ha1
      obtain ⟨rfl, -⟩ := (h4 0 "DISK_IMAGE".toList image rfl rfl v).1 hv
      refine ⟨{ s.req with image := some (image, fmt) }, ?_, keep rfl⟩
      unfold storeTextVia setDiskImage
      dsimp only
      rw [hf]
    · obtain ⟨x, rfl, -⟩ := hone (flags := ["-t".toList, "--type".toList]) (ch := ["harddisk".toList, "cdrom".toList]) (fl := "--type") (by decide +kernel) ha1 (by decide +kernel)
      exact ⟨_, rfl, keep rfl⟩
    · obtain ⟨q', k1, k2⟩ := htext (flags := ["-f".toList, "--file-id".toList]) (fun q s => { q with fileId := some s }) (by decide +kernel) ha1 (fun _ _ => rfl)
      exact ⟨q', k1, keep k2⟩
    · obtain ⟨q', k1, k2⟩ := htext (flags := ["-s".toList, "--subtype".toList]) (fun q s => { q with subtype := some s }) (by decide +kernel) ha1 (fun _ _ => rfl)
      exact ⟨q', k1, keep k2⟩
    · obtain ⟨q', k1, k2⟩ := htext (flags := ["-n".toList, "--name".toList]) (fun q s => { q with diskname := some s }) (by decide +kernel) ha1 (fun _ _ => rfl)
      exact ⟨q', k1, keep k2⟩
    · obtain ⟨q', k1, k2⟩ := htext (flags := ["-d".toList, "--description".toList]) (fun q s => { q with description := some s }) (by decide +kernel) ha1 (fun _ _ => rfl)
      exact ⟨q', k1, keep k2⟩
    · subst ha1
      obtain ⟨y, e1, e2⟩ := h3 ⟨["-a".toList, "--address".toList], .value .device, "address".toList⟩ (by decide +kernel) (by decide)
      obtain ⟨rfl, hgv⟩ := (e2 v).1 hv
      rcases e1 with ⟨-, rfl⟩ | ⟨x, y, e3, ⟨t, rfl, ht, ⟨a, b, da, db, rfl⟩⟩, rfl⟩
      · exact hgv.elim
      · rw [withFlag_of hus (fl := "--address") (by decide +kernel)] at e3
        have hlast : lastGiven "--address" us = some x := by unfold lastGiven; rw [e3]; rfl
        have hadr : some (a ++ ':' :: b) = (lastGiven "--address" us).map strip := by
          rw [hlast, Option.map_some, strip_address ht da db]
        refine ⟨{ s.req with loc := ⟨s.req.loc.controller, some (a ++ ':' :: b)⟩ }, ?_, hI.1, .inr hadr⟩
        unfold storeTextIn AddDiskReq.setAddress DiskArgs.setAddress
        dsimp only
        rw [hval _ _ hI.1 (.inr hadr)]
    · obtain ⟨x, rfl, hx⟩ := hone (flags := ["-c".toList, "--controller".toList]) (ch := ["ide".toList, "sata".toList, "scsi".toList]) (fl := "--controller") (by decide +kernel) ha1 (by decide +kernel)
      refine ⟨{ s.req with loc := ⟨some x, s.req.loc.address⟩ }, ?_, .inr hx.symm, hI.2⟩
      unfold storeTextIn AddDiskReq.setController DiskArgs.setController
      dsimp only
      rw [hval _ _ (.inr hx.symm) hI.2]

/-- **C125 (add-disk).** A right command line for an image whose format is recognised and a package that can be opened, where an address is
given with a controller and within its limits, is carried out as the request that its options state.  If the image cannot be converted, this is
the error of the command; otherwise, the result is that of adding the converted image in this way. -/
theorem C125_add_disk_runs_partial {c : Ctx} {plat : Str → Str} {ask : Prompt → Bool} {name : Str}
    (hn : name = addDiskSub.title ∨ name ∈ addDiskSub.aliases) {g l : List Str} {gus us : List ArgUse} {image pkg : Str} {fmt : DiskFmt}
    (hg : CmdLine mainParser g gus []) (hl : CmdLine addDiskParser l us [image, pkg]) (hp : ∀ u ∈ gus ++ us, ¬ OnlyPrints u.opt)
    (ha : ClearFor mainParser l) (hnc : NoConflict gus) (hr : RightLine addDiskParser us [image, pkg]) (hopen : f.opens pkg = .ok ())
    (hagree : ∀ x, lastGiven "--output" us = some x → f.agrees x = .ok ()) (hf : fromFile w.disk image = .ok fmt)
    (had : ∀ s, lastGiven "--address" us = some s → ∃ ctl a b, Padded s (a ++ ':' :: b) ∧ Digits a ∧ Digits b ∧
      lastGiven "--controller" us = some ctl ∧ AddressOk ctl (digitsVal a) (digitsVal b)) (p : Pkg) :
    ∃ drive, DriveAsked us fmt drive ∧
      (∀ e ops, convertIfNeeded w.conv ⟨image, fmt, w.subformat image⟩ drive w.dir = (.error e, ops) →
        addDiskMain f w c plat ask (g ++ name :: l) p = (.error e, ops)) ∧
      ∀ img ops cap, convertIfNeeded w.conv ⟨image, fmt, w.subformat image⟩ drive w.dir = (.ok img, ops) →
        (if drive = "harddisk".toList then w.capacity ops img.path else .ok 1) = .ok cap →
        ∃ q, DiskAsks us fmt q ∧ q.path = img.path ∧ q.cap = cap ∧ q.drive = drive ∧
          (addDiskMain f w c plat ask (g ++ name :: l) p).2 = ops ∧
          (addDiskMain f w c plat ask (g ++ name :: l) p).1.map Prod.snd = addDiskCmd { c with fs := w.fs ops } plat ask p q := by
  obtain ⟨cmd, hc⟩ := addDisk_handed (w := w) hn hg hl hp ha hnc hr hopen hagree hf had
  obtain ⟨d, hd⟩ := handed addDisk_plain addDisk_page hn hg hl hp ha hc
  obtain ⟨image', pkg', fmt', hw, h1, h2, h3, h4, h5, h6, h7, h8, h9, h10, h11, h12⟩ := addDisk_asks hd
  cases hw
  obtain rfl : fmt = fmt' := Except.ok.inj (hf.symm.trans h3)
  have hready : ¬ (cmd.req.loc.address ≠ none ∧ cmd.req.loc.controller = none) := by
    rintro ⟨k1, k2⟩
    rcases h12 with ⟨-, k3⟩ | ⟨s, t, k3, -⟩
    · exact k1 k3
    · obtain ⟨ctl, a, b, -, -, -, k4, -⟩ := had s k3
      rw [h10, k4] at k2
      cases k2
  have hdrive : DriveAsked us fmt (cmd.req.driveType.getD (predictedDrive fmt)) := by
    unfold DriveAsked
    cases ht : cmd.req.driveType with
    | some t =>
      left
      refine ⟨by rw [← h4, ht]; rfl, ?_⟩
      have := h5 t ht
      simpa using this
    | none =>
      right
      rw [← h4, ht]
      cases fmt with
      | iso => exact .inl ⟨rfl, rfl, rfl⟩
      | qcow2 => exact .inr ⟨rfl, by decide, rfl⟩
      | raw => exact .inr ⟨rfl, by decide, rfl⟩
      | vmdk => exact .inr ⟨rfl, by decide, rfl⟩
  have hmain : addDiskMain f w c plat ask (g ++ name :: l) p = (match addDiskWorker w c plat ask cmd.req (image, fmt) p with
      | (.error e, ops) => (.error e, ops)
      | (.ok (k, p'), ops) => (.ok (cmd, k, p'), ops)) := by
    unfold addDiskMain
    rw [hc]
    dsimp only
    rw [h2]
    dsimp only
    rw [if_neg hready]
    cases addDiskWorker w c plat ask cmd.req (image, fmt) p with
    | mk r ops => cases r <;> rfl
  refine ⟨_, hdrive, ?_, ?_⟩
  · intro e ops hcv
    rw [hmain]
    unfold addDiskWorker
    dsimp only
    rw [hcv]
  · intro img ops cap hcv hcap
    refine ⟨{ path := img.path, cap := cap, drive := cmd.req.driveType.getD (predictedDrive fmt), fid := cmd.req.fileId,
              controller := cmd.req.loc.controller, subtype := cmd.req.subtype, address := cmd.req.loc.address, name := cmd.req.diskname,
              descr := cmd.req.description }, ⟨hdrive, h6, h10, h11, h7, h8, h9, ?_⟩, rfl, rfl, rfl, ?_⟩
    · dsimp only
      rcases h12 with h12 | ⟨s, t, e3, e4, ⟨a, b, da, db, rfl⟩, e6⟩
      · exact .inl h12
      · obtain ⟨ctl, a', b', k1, k2, k3, k4, k5⟩ := had s e3
        have := (strip_address e4 da db).symm.trans (strip_address k1 k2 k3)
        right
        refine ⟨s, ctl, a', b', e3, k1, k2, k3, by rw [e6, this], by rw [h10, k4], k5⟩
    · rw [hmain]
      unfold addDiskWorker
      dsimp only
      rw [hcv]
      dsimp only
      rw [hcap]
      dsimp only
      cases addDiskCmd { c with fs := w.fs ops } plat ask p _ with
      | error e => exact ⟨rfl, rfl⟩
      | ok r => exact ⟨rfl, rfl⟩

end Cot
