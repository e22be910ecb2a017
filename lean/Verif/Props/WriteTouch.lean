import Verif.Props.Write
/-
C74: what writing a package touches, at every moment.
-/
namespace Cot

variable {l : Lib} {α β : Type}

theorem Only.bind' {P : Str → Prop} {Q : α → Prop} {x : WM l α} {f : α → WM l β} (h1 : Only P x)
    (hQ : ∀ w a, (x w).1 = .ok a → Q a) (h2 : ∀ a, Q a → Only P (f a)) : Only P (x >>= f) := by
  intro w c hc
  change c ∈ (WM.bind x f w).2 at hc
  unfold WM.bind at hc
  have h1w := h1 w
  have hQw := hQ w
  cases hx : x w with
  | mk o cs =>
    rw [hx] at hc h1w hQw
    cases o with
    | error e => exact h1w c hc
    | ok a =>
      rcases List.mem_append.1 hc with hc | hc
      · exact h1w c hc
      · exact h2 a (hQw a rfl) _ c hc

/-- what is read and returned -/
theorem read_ok {f : Fs → Except Err α} {w : Fs} {a : α} (h : ((WM.read f : WM l α) w).1 = .ok a) : f w = .ok a := h

theorem bind_ok {x : WM l α} {f : α → WM l β} {w : Fs} {b : β} (h : ((x >>= f) w).1 = .ok b) :
    ∃ a w', (x w).1 = .ok a ∧ (f a w').1 = .ok b := by
  change (WM.bind x f w).1 = _ at h
  unfold WM.bind at h
  cases hx : x w with
  | mk o cs =>
    rw [hx] at h
    cases o with
    | error e => cases h
    | ok a => exact ⟨a, _, rfl, h⟩

theorem manifestLoop_keeps {digest : Str → List UInt8 → Except Err Str} {v : Ver} {w : Fs} :
    ∀ {es : List Elem} {files : List (Str × FRef)} {ls fs}, manifestLoop digest v w es files = .ok (ls, fs) →
      ∀ x ∈ fs, ∃ r, (x.1, r) ∈ files ∧ SameRef r x.2
  | [], files, ls, fs, h, x, hx => by
    cases h
    exact ⟨x.2, hx, SameRef.refl _⟩
  | e :: t, files, ls, fs, h, x, hx => by
    unfold manifestLoop at h
    cases hr : refOf v files e with
    | error y => rw [hr] at h; cases h
    | ok z =>
      obtain ⟨n, r⟩ := z
      rw [hr] at h
      simp only at h
      have hget : dget? files n = some r := by
        unfold refOf at hr
        split at hr
        · cases hr
        · split at hr
          · cases hr
          · rename_i hh; cases hr; exact hh
      cases hs : r.readSum digest w with
      | mk y r' =>
        rw [hs] at h
        cases y with
        | error y => cases h
        | ok cc =>
          simp only at h
          cases hrest : manifestLoop digest v w t (dset files n r') with
          | error y => rw [hrest] at h; cases h
          | ok z =>
            obtain ⟨ls', fs'⟩ := z
            rw [hrest] at h
            cases h
            obtain ⟨r0, h0, hs0⟩ := manifestLoop_keeps hrest x hx
            rcases mem_dset h0 with h0 | h0
            · obtain ⟨h01, h02⟩ := Prod.mk.inj h0
              refine ⟨r, by rw [h01]; exact dget?_mem hget, ?_⟩
              rw [h02] at hs0
              exact (readSum_keeps hs).1.trans hs0
            · exact ⟨r0, h0, hs0⟩

theorem generateManifest_only {P : Str → Prop} {digest : Str → List UInt8 → Except Err Str} {v : Ver} {es : List Elem}
    {files : List (Str × FRef)} {ovf : Str} (h : P (pathRoot ovf ++ ".mf".toList)) :
    Only P (generateManifest l digest v es files ovf) := by
  unfold generateManifest
  exact Only.bind (Only.read _) (fun _ => Only.bind (Only.read _) (fun _ => Only.bind (Only.write _ h) (fun _ =>
    Only.bind (Only.read _) (fun _ => Only.bind (Only.write _ h) (fun _ => Only.pure _)))))

theorem generateManifest_keeps {digest : Str → List UInt8 → Except Err Str} {v : Ver} {es : List Elem}
    {files fs : List (Str × FRef)} {ovf : Str} {w : Fs} (h : (generateManifest l digest v es files ovf w).1 = .ok fs) :
    ∀ x ∈ fs, ∃ r, (x.1, r) ∈ files ∧ SameRef r x.2 := by
  unfold generateManifest at h
  obtain ⟨_, _, _, h⟩ := bind_ok h
  obtain ⟨_, _, _, h⟩ := bind_ok h
  obtain ⟨_, _, _, h⟩ := bind_ok h
  obtain ⟨r, _, hr, h⟩ := bind_ok h
  obtain ⟨_, _, _, h⟩ := bind_ok h
  cases h
  exact manifestLoop_keeps (ls := r.1) hr

theorem copyTo_only {P : Str → Prop} {r : FRef} {D : Str}
    (h1 : r.inTar = true → P (pathJoin D r.filename))
    (h2 : r.inTar = false → P (pathJoin D (pathBase (pathJoin r.container r.filename)))) : Only P (r.copyTo l D) := by
  unfold FRef.copyTo
  by_cases ht : r.inTar = true
  · rw [if_pos ht]
    exact Only.bind (Only.read _) (fun _ => Only.write _ (h1 ht))
  · rw [if_neg ht]
    simp only
    split
    · exact Only.pure _
    · exact Only.bind (Only.read _) (fun _ => Only.write _ (h2 (by simpa using ht)))

theorem copyAll_only {P : Str → Prop} {D : Str} : ∀ {files : List (Str × FRef)},
    (∀ x ∈ files, x.2.inTar = true → P (pathJoin D x.2.filename)) →
    (∀ x ∈ files, x.2.inTar = false → P (pathJoin D (pathBase (pathJoin x.2.container x.2.filename)))) →
    Only P (copyAll l D files)
  | [], _, _ => Only.pure _
  | (n, r) :: t, h1, h2 => Only.bind (copyTo_only (h1 (n, r) (by simp)) (h2 (n, r) (by simp)))
      (fun _ => copyAll_only (fun x hx => h1 x (by simp [hx])) (fun x hx => h2 x (by simp [hx])))

theorem extractAll_only {P : Str → Prop} {digest : Str → List UInt8 → Except Err Str} {v : Ver} {W : Str} :
    ∀ {files : List (Str × FRef)}, (∀ x ∈ files, x.2.inTar = true → P (pathJoin W x.2.filename)) →
    Only P (extractAll l digest v W files)
  | [], _ => Only.pure _
  | (n, r) :: t, h1 => by
    have ih := extractAll_only (digest := digest) (v := v) (files := t) (fun x hx => h1 x (by simp [hx]))
    unfold extractAll
    split
    · rename_i ht
      exact Only.bind (copyTo_only (fun _ => h1 (n, r) (by simp) ht) (fun h => absurd (ht.symm.trans h) (by decide)))
        (fun _ => Only.bind (Only.read _) (fun _ => Only.bind ih (fun _ => Only.pure _)))
    · exact Only.bind ih (fun _ => Only.pure _)

theorem tarPackage_only {P : Str → Prop} {digest : Str → List UInt8 → Except Err Str} {v : Ver} {es : List Elem}
    {files : List (Str × FRef)} {input W ovf out : Str} (ho : P out)
    (h1 : ∀ x ∈ files, x.2.inTar = true → P (pathJoin W x.2.filename)) :
    Only P (tarPackage l digest v es files input W ovf out) := by
  unfold tarPackage
  refine Only.bind (Only.read _) (fun same => Only.bind ?_ (fun _ => Only.bind (Only.write _ ho) (fun _ =>
    Only.bind (Only.read _) (fun _ => Only.bind (Only.write _ ho) (fun _ => Only.pure _)))))
  split
  · exact extractAll_only h1
  · exact Only.pure _

theorem refreshOne_files {c : Ctx} {capOf : Str → Except Err Nat} {h : Str} {r : FRef} {p q : Pkg}
    (hq : refreshOne c capOf h r p = .ok q) : q.files = p.files := by
  unfold refreshOne at hq
  obtain ⟨i, -, hq⟩ := bind_ok_inv hq
  cases i with
  | none => cases hq
  | some i =>
    simp only at hq
    obtain ⟨n, -, hq⟩ := bind_ok_inv hq
    obtain ⟨d, -, hq⟩ := bind_ok_inv hq
    split at hq
    · split at hq
      · cases hq; rfl
      · split at hq
        · cases hq; rfl
        · obtain ⟨real, -, hq⟩ := bind_ok_inv hq
          obtain ⟨rep, -, hq⟩ := bind_ok_inv hq
          split at hq
          · cases hq; rfl
          · obtain ⟨e', -, hq⟩ := bind_ok_inv hq
            cases hq; rfl
    · cases hq; rfl

theorem refreshEach_files {c : Ctx} {capOf : Str → Except Err Nat} : ∀ {fs : List (Str × FRef)} {p q : Pkg},
    refreshEach c capOf fs p = .ok q → q.files = p.files
  | [], p, q, h => by cases h; rfl
  | (n, r) :: t, p, q, h => by
    unfold refreshEach at h
    cases h1 : refreshOne c capOf n r p with
    | error e => rw [h1] at h; cases h
    | ok p' =>
      rw [h1] at h
      rw [refreshEach_files h, refreshOne_files h1]

/-- the files after the refresh -/
theorem refresh_files {c : Ctx} {capOf : Str → Except Err Nat} {p q : Pkg} {w : Fs} {v : Ver} {input : Str}
    {cont : Str → List UInt8} (hnd : (dkeys p.files).Nodup)
    (hf : ∀ h r, dget? p.files h = some r → FileOf v w input h r (cont h) ∨ Gone w r)
    (hq : refreshFiles { c with fs := w } capOf p = .ok q) :
    ∀ x ∈ q.files, x.1 ∈ dkeys p.files ∧ PlainName x.1 ∧ normpath x.2.filename = x.1 ∧ (x.2.inTar = false → x.2.filename = x.1) := by
  unfold refreshFiles at hq
  obtain ⟨files, hfl, h⟩ := bind_ok_inv hq
  obtain ⟨f1, f2, f3⟩ := refreshRefs_held (c := { c with fs := w }) (v := v) (sum := fun _ => []) (input := input)
    (cont := cont) hnd hf hfl
  have hqf : q.files = files := refreshEach_files h
  rw [hqf]
  intro x hx
  obtain ⟨H, r, hr, -⟩ := f3 x.1 x.2 (dget?_of_mem (hnd.sublist f1) hx)
  exact ⟨mem_dkeys_of_dget? hr, H.name, H.norm, fun ht => (H.disk ht).1⟩

theorem During.other {x : WM l α} {w w' : Fs} {P : Str → Prop} (h : During x w w') (hO : ∀ c ∈ (x w).2, P c.1) {y : Str}
    (hy : ∀ p, P p → absName w p ≠ absName w y) : w'.file y = w.file y ∧ w'.tar y = w.tar y := by
  obtain ⟨cs, h1, rfl⟩ := h
  exact applyAll_other (fun c hc => hy _ (hO c (h1.subset hc)))

theorem writePackage_only {P : Str → Prop} {c : Ctx} {capOf : Str → Except Err Nat} {xml : Pkg → List UInt8} {p : Pkg}
    {input output W ext : Str} {w : Fs}
    (h : ∀ q, refreshFiles { c with fs := w } capOf p = .ok q → ∀ x ∈ (writeOut l c.digest c.env.ver
      (fileElems c.env.ver q.refs) q.files { input := input, output := output, workDir := W, ext := ext, xml := xml q } w).2, P x.1) :
    ∀ x ∈ (writePackage l c capOf xml p input output W ext w).2, P x.1 := by
  unfold writePackage
  split
  · intro x hx; cases hx
  · intro x hx
    change x ∈ (WM.bind _ _ w).2 at hx
    unfold WM.bind WM.read at hx
    simp only at hx
    cases hr : refreshFiles { c with fs := w } capOf p with
    | error e => rw [hr] at hx; cases hx
    | ok q =>
      rw [hr] at hx
      simp only [List.nil_append, applyAll_nil] at hx
      change x ∈ (WM.bind _ _ w).2 at hx
      unfold WM.bind at hx
      specialize h q hr
      revert h hx
      generalize writeOut l c.digest c.env.ver (fileElems c.env.ver q.refs) q.files
        { input := input, output := output, workDir := W, ext := ext, xml := xml q } w = z
      intro h hx
      obtain ⟨o, cs⟩ := z
      cases o with
      | error e => exact h x hx
      | ok a => exact h x (by simpa [pure, WM.pure] using hx)

/-- C74: at every moment while an archive is written, however this ends, every file is as before, except for the output
and for files in the working directory. -/
theorem C74_archive {c : Ctx} {capOf : Str → Except Err Nat} {w w' : Fs} {input output W : Str} {v : Ver}
    {cont : Str → List UInt8} {xml : Pkg → List UInt8} {p : Pkg} (hnd : (dkeys p.files).Nodup)
    (hf : ∀ h r, dget? p.files h = some r → FileOf v w input h r (cont h) ∨ Gone w r)
    (hW : W.head? = some '/')
    (hrun : During (writePackage l c capOf xml p input output W ".ova".toList) w w') {x : Str}
    (hx : absName w x ≠ absName w output) (hx' : NotIn w W x) : w'.file x = w.file x ∧ w'.tar x = w.tar x := by
  refine hrun.other (P := fun s => s = output ∨ ∃ n, PlainName n ∧ absName w s = absName w (pathJoin W n))
    (writePackage_only (P := fun s => s = output ∨ ∃ n, PlainName n ∧ absName w s = absName w (pathJoin W n))
      (fun q hq => ?_)) ?_
  · have hfiles := refresh_files hnd hf hq
    rw [writeOut_ova rfl]
    have hb : PlainName (ovaDescriptor output) := plain_suffix (noslash_base _) (by decide) ⟨'o', by decide, by decide⟩
    have hovf : pathRoot (pathJoin W (ovaDescriptor output)) ++ ".mf".toList =
        pathJoin W (pathRoot (ovaDescriptor output) ++ ".mf".toList) := by
      have : '/' ∉ pathRoot (ovaDescriptor output) := fun h => hb.2.2.2 (List.mem_of_mem_take h)
      rw [pathRoot_join hb.2.2.2 this, join_append this (by decide)]
    have hm : PlainName (pathRoot (ovaDescriptor output) ++ ".mf".toList) :=
      plain_suffix (fun h => hb.2.2.2 (List.mem_of_mem_take h)) (by decide) ⟨'m', by decide, by decide⟩
    refine Only.bind (P := fun s => s = output ∨ ∃ n, PlainName n ∧ absName w s = absName w (pathJoin W n))
      (Only.write _ (Or.inr ⟨_, hb, rfl⟩)) (fun _ => Only.bind' (Q := fun fs => ∀ x ∈ fs, ∃ r, (x.1, r) ∈ q.files ∧ SameRef r x.2)
      (generateManifest_only (Or.inr ⟨_, hm, congrArg _ hovf⟩)) (fun w a h => generateManifest_keeps h)
      (fun fs hfs => Only.bind (tarPackage_only (Or.inl rfl) ?_) (fun _ => Only.pure _))) w
    intro y hy _
    obtain ⟨r, hr, hs⟩ := hfs y hy
    obtain ⟨-, h1, h2, -⟩ := hfiles _ hr
    exact Or.inr ⟨y.1, h1, absName_join_norm hW h1 (by rw [hs.2.2]; exact h2)⟩
  · rintro s (rfl | ⟨n, hn, he⟩)
    · exact hx.symm
    · rw [he]; exact (hx' n hn).symm

/-- C74: at every moment while a package is written to a directory, however this ends, every file is as before, except
for the descriptor, the manifest and the copies of the files of the package. -/
theorem C74_directory {c : Ctx} {capOf : Str → Except Err Nat} {w w' : Fs} {input output W : Str} {v : Ver}
    {cont : Str → List UInt8} {xml : Pkg → List UInt8} {p : Pkg} (hcwd : w.cwd.head? = some '/')
    (hnd : (dkeys p.files).Nodup)
    (hf : ∀ h r, dget? p.files h = some r → FileOf v w input h r (cont h) ∨ Gone w r) (hb : PlainName (pathBase output))
    (hrun : During (writePackage l c capOf xml p input output W ".ovf".toList) w w') {x : Str}
    (hx : ∀ n, (n = pathBase output ∨ n = ovfManifest output ∨ n ∈ dkeys p.files) →
      absName w x ≠ pathJoin (dirOf w output) n) : w'.file x = w.file x ∧ w'.tar x = w.tar x := by
  obtain ⟨hm, hD, hout, hmfp, hJ⟩ := ovf_names hcwd hb
  refine hrun.other (P := fun s => ∃ n, (n = pathBase output ∨ n = ovfManifest output ∨ n ∈ dkeys p.files) ∧
    absName w s = pathJoin (dirOf w output) n) (writePackage_only (P := fun s => ∃ n, (n = pathBase output ∨
      n = ovfManifest output ∨ n ∈ dkeys p.files) ∧ absName w s = pathJoin (dirOf w output) n) (fun q hq => ?_)) ?_
  · have hfiles := refresh_files hnd hf hq
    rw [writeOut_ovf rfl]
    intro y hy
    change y ∈ (output, xml q) :: ((copyAll l (dirOf w output) q.files >>= fun _ =>
      generateManifest l c.digest c.env.ver (fileElems c.env.ver q.refs) q.files output >>= fun _ => (pure () : WM l Unit))
      (w.put l output (xml q))).2 at hy
    rcases List.mem_cons.1 hy with rfl | hy
    · exact ⟨_, Or.inl rfl, hout⟩
    · refine Only.bind (P := fun s => ∃ n, (n = pathBase output ∨ n = ovfManifest output ∨ n ∈ dkeys p.files) ∧
        absName w s = pathJoin (dirOf w output) n) (copyAll_only ?_ ?_) (fun _ => Only.bind
        (generateManifest_only ⟨_, Or.inr (Or.inl rfl), hmfp⟩) (fun _ => Only.pure _)) _ y hy
      · intro z hz _
        obtain ⟨h0, h1, h2, -⟩ := hfiles z hz
        exact ⟨z.1, Or.inr (Or.inr h0), by rw [absName_join_norm hD h1 h2, hJ _ h1]⟩
      · intro z hz ht
        obtain ⟨h0, h1, -, h3⟩ := hfiles z hz
        rw [h3 ht, pathBase_join h1.2.2.2]
        exact ⟨z.1, Or.inr (Or.inr h0), hJ _ h1⟩
  · rintro s ⟨n, hn, he⟩
    rw [he]; exact (hx n hn).symm

/-- a file of the package is kept if every change is elsewhere, or is to the same content -/
theorem FileOf.kept {v : Ver} {input h : Str} {r : FRef} {b : List UInt8} {w : Fs} {cs : List Change}
    (H : FileOf v w input h r b)
    (h1 : r.inTar = false → ∀ c ∈ cs, absName w c.1 ≠ pathJoin r.container h ∨ c.2 = b)
    (h2 : r.inTar = true → ∀ c ∈ cs, absName w c.1 ≠ absName w input) (hcwd : w.cwd.head? = some '/') :
    FileOf v (applyAll l w cs) input h r b := by
  refine ⟨H.name, H.algo, H.abs, ?_, ?_⟩
  · intro ht
    obtain ⟨a1, a2, a3⟩ := H.disk ht
    refine ⟨a1, a2, ?_⟩
    have habs : absName w (pathJoin r.container h) = pathJoin r.container h := by
      rw [absName_abs (join_abs H.abs), a2]
    have : ∀ (cs : List Change) (u : Fs), u.cwd = w.cwd → u.file (pathJoin r.container h) = some b →
        (∀ c ∈ cs, absName w c.1 ≠ pathJoin r.container h ∨ c.2 = b) →
        (applyAll l u cs).file (pathJoin r.container h) = some b := by
      intro cs
      induction cs with
      | nil => intro u _ hu _; exact hu
      | cons c t ih =>
        intro u hc hu hall
        rw [applyAll_cons]
        refine ih _ hc ?_ (fun x hx => hall x (by simp [hx]))
        rw [put_file]
        split
        · rename_i he
          rw [absName_cwd hc, absName_cwd hc, habs] at he
          rcases hall c (by simp) with hh | hh
          · exact absurd he.symm hh
          · rw [hh]
        · exact hu
    exact this cs w rfl a3 (h1 ht)
  · intro ht
    obtain ⟨a1, a2, a3, ms, a4, a5⟩ := H.tar ht
    refine ⟨by rw [absName_applyAll]; exact a1, a2, a3, ms, ?_, a5⟩
    rw [(applyAll_other (q := r.container) ?_).2, a4]
    intro c hc
    rw [a1, absName_idem hcwd]
    exact h2 ht c hc

/-- C74: at every moment while an archive is written to another place than the input, every file of the package is
still where it was, with its content. -/
theorem C74_archive_sources_partial (hl : l.Lawful) {c : Ctx} {capOf : Str → Except Err Nat} {sum : List UInt8 → Str} {w w' : Fs}
    {input output W : Str} {cont : Str → List UInt8} {xml : Pkg → List UInt8} {p q : Pkg}
    (hp : CanWrite c capOf sum w input cont p) (P : OvaPlan w p.files input output W)
    (hq : refreshFiles { c with fs := w } capOf p = .ok q) (hne : absName w input ≠ absName w output)
    (hrun : During (writePackage l c capOf xml p input output W ".ova".toList) w w') {h : Str} {r : FRef}
    (hr : dget? p.files h = some r) (H : FileOf c.env.ver w input h r (cont h)) :
    FileOf c.env.ver w' input h r (cont h) := by
  have R := hp.refreshed hq
  obtain ⟨cs, ms, files', h1, -, h3, -, -, -⟩ := ova_does hl hp.digest (xml := xml q) R P
  rw [if_neg hne] at h3
  have hrun' := writePackage_does (output_ne P.base.1) hq h1
  obtain ⟨ds, d1, rfl⟩ := hrun
  rw [hrun'] at d1
  obtain ⟨hb, hm, -, -, -⟩ := ova_names (W := W) P.base.1
  obtain ⟨hW, hWn, -⟩ := P.work
  have hJ : ∀ n, PlainName n → absName w (pathJoin W n) = pathJoin W n := fun n hn => normal_join hW hWn hn
  have hin : ∀ n, PlainName n → absName w input ≠ pathJoin W n := fun n hn => by
    have := P.inputOut n hn; rwa [hJ n hn] at this
  have hbase : ∀ n, PlainName n → h ≠ n → pathJoin W n ≠ pathJoin r.container h := by
    intro n hn hhn he
    have e1 := pathBase_join (dir := r.container) H.name.1.2.2.2
    have e2 := pathBase_join (dir := W) hn.2.2.2
    rw [← he, e2] at e1
    exact hhn e1.symm
  have hnames := P.names h (mem_dkeys_of_dget? hr)
  refine H.kept ?_ ?_ P.cwd
  · intro ht x hx
    refine Or.inl ?_
    rcases h3.1 x (d1.subset hx) with e | e | e
    · rw [e]; exact hbase _ hb hnames.1
    · rw [e]; exact hbase _ hm hnames.2
    · rw [e, ← (H.disk ht).1]; exact (P.sources h r hr ht).symm
  · intro ht x hx
    rcases h3.1 x (d1.subset hx) with e | e | e
    · rw [e]; exact (hin _ hb).symm
    · rw [e]; exact (hin _ hm).symm
    · rw [e]; exact hne.symm

/-- C74: at every moment while a package is written to a directory, even to the one it is in, every file of the package
is still where it was, with its content. -/
theorem C74_directory_sources_partial {c : Ctx} {capOf : Str → Except Err Nat} {sum : List UInt8 → Str} {w w' : Fs}
    {input output W : Str} {cont : Str → List UInt8} {xml : Pkg → List UInt8} {p q : Pkg}
    (hp : CanWrite c capOf sum w input cont p) (P : OvfPlan w p.files input output)
    (hq : refreshFiles { c with fs := w } capOf p = .ok q)
    (hrun : During (writePackage l c capOf xml p input output W ".ovf".toList) w w') {h : Str} {r : FRef}
    (hr : dget? p.files h = some r) (H : FileOf c.env.ver w input h r (cont h)) :
    FileOf c.env.ver w' input h r (cont h) := by
  have R := hp.refreshed hq
  obtain ⟨cs, h1, -, -, -, h5⟩ := ovf_does (l := l) hp.digest (W := W) (xml := xml q) R P
  have hrun' := writePackage_does (by
    rintro rfl
    exact absurd P.base.1 (fun h => h.1 (by decide))) hq h1
  obtain ⟨ds, d1, rfl⟩ := hrun
  rw [hrun'] at d1
  obtain ⟨hb, -, -⟩ := P.base
  obtain ⟨hm, -, -, -, -⟩ := ovf_names P.cwd hb
  have hbase : ∀ n, PlainName n → h ≠ n → pathJoin (dirOf w output) n ≠ pathJoin r.container h := by
    intro n hn hhn he
    have e1 := pathBase_join (dir := r.container) H.name.1.2.2.2
    have e2 := pathBase_join (dir := dirOf w output) hn.2.2.2
    rw [← he, e2] at e1
    exact hhn e1.symm
  have hnames := P.names h (mem_dkeys_of_dget? hr)
  refine H.kept ?_ ?_ P.cwd
  · intro ht x hx
    rcases h5 x (d1.subset hx) with e | e | ⟨n, n1, n2, n3⟩
    · rw [e]; exact Or.inl (hbase _ hb hnames.1)
    · rw [e]; exact Or.inl (hbase _ hm hnames.2)
    · by_cases hn : h = n
      · subst hn; exact Or.inr n3
      · obtain ⟨r0, -, q2⟩ := (R.kept n).1 n1
        rw [n2]; exact Or.inl (hbase _ q2.name.1 hn)
  · intro ht x hx
    rcases h5 x (d1.subset hx) with e | e | ⟨n, n1, n2, -⟩
    · rw [e]; exact (P.archive h r hr ht _ (Or.inl rfl)).symm
    · rw [e]; exact (P.archive h r hr ht _ (Or.inr (Or.inl rfl))).symm
    · obtain ⟨r0, q1, -⟩ := (R.kept n).1 n1
      rw [n2]; exact (P.archive h r hr ht _ (Or.inr (Or.inr (mem_dkeys_of_dget? q1)))).symm

/-- **C74 fails** when an archive is written over itself: whatever the package is, there is a moment at which the old
archive is gone and the new one is not there yet.  If the program is interrupted then, the package is lost. -/
theorem C74_in_place_fails (hl : l.Lawful) {c : Ctx} {capOf : Str → Except Err Nat} {sum : List UInt8 → Str} {w : Fs}
    {input W : Str} {cont : Str → List UInt8} {xml : Pkg → List UInt8} {p q : Pkg}
    (hp : CanWrite c capOf sum w input cont p) (P : OvaPlan w p.files input input W)
    (hq : refreshFiles { c with fs := w } capOf p = .ok q) :
    ∃ w', During (writePackage l c capOf xml p input input W ".ova".toList) w w' ∧
      w'.file (absName w input) = some [] := by
  have R := hp.refreshed hq
  obtain ⟨cs, ms, files', h1, -, -, -, -, ds, b, hcs⟩ := ova_does hl hp.digest (xml := xml q) R P
  have hrun' := writePackage_does (output_ne P.base.1) hq h1
  refine ⟨applyAll l w (ds ++ [(input, [])]), ⟨_, ?_, rfl⟩, ?_⟩
  · rw [hrun', hcs]
    exact ⟨[(input, b)], by simp⟩
  · exact (applyAll_last (absName_idem P.cwd input)).1

end Cot
