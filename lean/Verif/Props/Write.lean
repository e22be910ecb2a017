import Verif.Lemmas.WriteMain
import Verif.Lemmas.Reopen
import Verif.Model.Archive
/-
C72: a package that is written can be opened again.  C73: what a written package consists of.
-/
namespace Cot

variable {l : Lib}

theorem named_eq {v : Ver} {refs : Elem} (h : ∀ e ∈ fileElems v refs, ∃ n, e.get (fileHref v) = some n) :
    namedFiles v refs = (fileElems v refs).map (hrefOf v) := by
  unfold namedFiles
  unfold fileElems at *
  revert h
  induction refs.children with
  | nil => exact fun _ => rfl
  | cons e t ih =>
    intro h
    have ih := ih (fun x hx => h x (by
      simp only [List.filter_cons]
      split
      · exact List.mem_cons_of_mem _ hx
      · exact hx))
    by_cases ht : e.tag = fileTag v
    · obtain ⟨n, hn⟩ := h e (by simp [ht])
      rw [List.filterMap_cons, if_pos ht, hn, ih, List.filter_cons, if_pos (by simpa using ht), List.map_cons, hrefOf_eq hn]
    · rw [List.filterMap_cons, if_neg ht, ih, List.filter_cons, if_neg (by simpa using ht)]

theorem upper_algo (v : Ver) : upper (checksumAlgo v) = if v = .v2 then "SHA256".toList else "SHA1".toList := by
  cases v <;> rfl

theorem manifest_says {v : Ver} {sum : List UInt8 → Str} {cont : Str → List UInt8} {es : List Elem} {base : Str}
    {xml : List UInt8} : manifestOf l v sum cont es base xml =
      l.enc (manifestSays v sum ((base, xml) :: (es.map (hrefOf v)).map (fun h => (h, cont h)))) := by
  unfold manifestOf manifestSays manifestText
  congr 1
  simp only [List.map_cons, List.map_map, List.flatten_cons]
  have hline : ∀ n s : Str, manifestLine (checksumAlgo v) n s = sumLine v n s := by
    intro n s
    unfold manifestLine sumLine
    rw [upper_algo]
    simp
  rw [hline]
  congr 2
  refine List.map_congr_left (fun e _ => ?_)
  simp only [Function.comp_apply, hline]

theorem CanWrite.refreshed {c : Ctx} {capOf : Str → Except Err Nat} {sum : List UInt8 → Str} {w : Fs} {input : Str}
    {cont : Str → List UInt8} {p q : Pkg} (hp : CanWrite c capOf sum w input cont p)
    (hq : refreshFiles { c with fs := w } capOf p = .ok q) : Refreshed c.env.ver sum w input cont p q :=
  Cot.refreshed hp.ver hp.cap hp.keys hp.ids hp.files hq

theorem Refreshed.named {v : Ver} {sum : List UInt8 → Str} {w : Fs} {input : Str} {cont : Str → List UInt8} {p q : Pkg}
    (R : Refreshed v sum w input cont p q) : namedFiles v q.refs = (fileElems v q.refs).map (hrefOf v) := by
  refine named_eq (fun e he => ?_)
  obtain ⟨n, hn, -⟩ := R.entry e he
  exact ⟨n, hn⟩

theorem Refreshed.listed {v : Ver} {sum : List UInt8 → Str} {w : Fs} {input : Str} {cont : Str → List UInt8} {p q : Pkg}
    (R : Refreshed v sum w input cont p q) :
    (namedFiles v q.refs).Nodup ∧ ∀ h, h ∈ namedFiles v q.refs ↔ HasFile v w input cont p h := by
  rw [R.named]
  refine ⟨R.hrefs, fun h => ?_⟩
  unfold HasFile
  rw [← R.kept h]
  refine ⟨fun hh => ?_, R.all h⟩
  obtain ⟨e, he, rfl⟩ := List.mem_map.1 hh
  obtain ⟨n, h1, h2, -⟩ := R.entry e he
  rw [hrefOf_eq h1]
  exact h2

theorem writePackage_does {c : Ctx} {capOf : Str → Except Err Nat} {xml : Pkg → List UInt8} {p q : Pkg} {w : Fs}
    {input output W ext : Str} {cs : List Change} (ho : output ≠ [])
    (hq : refreshFiles { c with fs := w } capOf p = .ok q)
    (h : Does (writeOut l c.digest c.env.ver (fileElems c.env.ver q.refs) q.files
      { input := input, output := output, workDir := W, ext := ext, xml := xml q }) w () cs) :
    writePackage l c capOf xml p input output W ext w = (.ok q, cs) := by
  have := Does.bindRead (l := l) (g := fun w => refreshFiles { c with fs := w } capOf p) (f := fun q =>
    writeOut l c.digest c.env.ver (fileElems c.env.ver q.refs) q.files
      { input := input, output := output, workDir := W, ext := ext, xml := xml q } >>= fun _ => (pure q : WM l Pkg))
    hq (Does.bindPure (f := fun _ => q) h)
  unfold writePackage
  rw [if_neg ho]
  exact this

theorem members_map {v : Ver} {files : List (Str × FRef)} {cont : Str → List UInt8} {es : List Elem}
    {ms : List (Str × List UInt8)} (h : List.Forall₂ (MemberFor v files cont) es ms) :
    ms.map (fun m => (normpath m.1, m.2)) = (es.map (hrefOf v)).map (fun h => (h, cont h)) ∧
    ((∀ x ∈ files, x.2.inTar = false) → ms.map Prod.fst = es.map (hrefOf v)) := by
  constructor
  · induction h with
    | nil => rfl
    | cons hM _ ih => simp only [List.map_cons, ih, hM.norm, hM.content]
  · intro h3
    induction h with
    | nil => rfl
    | cons hM _ ih =>
      obtain ⟨r, hr, -, hn⟩ := hM.name
      simp only [List.map_cons, ih, hn (h3 _ (dget?_mem hr))]

theorem output_ne {output : Str} (h : ∃ c ∈ pathBase (pathRoot output), c ≠ '.') : output ≠ [] := by
  rintro rfl
  obtain ⟨c, hc, -⟩ := h
  rw [show pathBase (pathRoot []) = [] by decide] at hc
  cases hc

/-- C73: writing an archive gives one whose members are the descriptor, the manifest, which has a line for the
descriptor and each of the files, and the files that are still there, in the order of their entries and each with its
content; there is nothing else in it.  The members are named as the files, except that a member that is taken over from
another archive keeps the spelling of its name there (`./name`). -/
theorem C73_archive (hl : l.Lawful) {c : Ctx} {capOf : Str → Except Err Nat} {sum : List UInt8 → Str} {w : Fs}
    {input output W : Str} {cont : Str → List UInt8} {xml : Pkg → List UInt8} {p q : Pkg}
    (hp : CanWrite c capOf sum w input cont p) (P : OvaPlan w p.files input output W)
    (hq : refreshFiles { c with fs := w } capOf p = .ok q) :
    ∃ cs ms, writePackage l c capOf xml p input output W ".ova".toList w = (.ok q, cs) ∧
      (applyAll l w cs).tar (absName w output) = some ((ovaDescriptor output, xml q) ::
        (ovaManifest output, l.enc (manifestSays c.env.ver sum ((ovaDescriptor output, xml q) ::
          (namedFiles c.env.ver q.refs).map (fun h => (h, cont h))))) :: ms) ∧
      ms.map (fun m => (normpath m.1, m.2)) = (namedFiles c.env.ver q.refs).map (fun h => (h, cont h)) ∧
      (absName w input = absName w output → ms.map Prod.fst = namedFiles c.env.ver q.refs) ∧
      (namedFiles c.env.ver q.refs).Nodup ∧
      ∀ h, h ∈ namedFiles c.env.ver q.refs ↔ HasFile c.env.ver w input cont p h := by
  have R := hp.refreshed hq
  obtain ⟨cs, ms, files', h1, h2, h3, -, h5, -⟩ := ova_does hl hp.digest (xml := xml q) R P
  rw [manifest_says, ← R.named] at h5
  refine ⟨cs, ms, writePackage_does (output_ne P.base.1) hq h1, h5, ?_, ?_, R.listed⟩
  · rw [R.named]
    exact (members_map h2).1
  · intro hs
    rw [if_pos hs] at h3
    rw [R.named]
    exact (members_map h2).2 h3

/-- C73: writing to a directory gives the descriptor, the manifest beside it, and each of the files beside it with its
content. -/
theorem C73_directory {c : Ctx} {capOf : Str → Except Err Nat} {sum : List UInt8 → Str} {w : Fs} {input output W : Str}
    {cont : Str → List UInt8} {xml : Pkg → List UInt8} {p q : Pkg} (hp : CanWrite c capOf sum w input cont p)
    (P : OvfPlan w p.files input output) (hq : refreshFiles { c with fs := w } capOf p = .ok q) :
    ∃ cs, writePackage l c capOf xml p input output W ".ovf".toList w = (.ok q, cs) ∧
      (applyAll l w cs).file (pathJoin (dirOf w output) (pathBase output)) = some (xml q) ∧
      (applyAll l w cs).file (pathJoin (dirOf w output) (ovfManifest output)) =
        some (l.enc (manifestSays c.env.ver sum ((pathBase output, xml q) ::
          (namedFiles c.env.ver q.refs).map (fun h => (h, cont h))))) ∧
      (∀ h ∈ namedFiles c.env.ver q.refs, (applyAll l w cs).file (pathJoin (dirOf w output) h) = some (cont h)) ∧
      (namedFiles c.env.ver q.refs).Nodup ∧
      ∀ h, h ∈ namedFiles c.env.ver q.refs ↔ HasFile c.env.ver w input cont p h := by
  have R := hp.refreshed hq
  obtain ⟨cs, h1, h2, h3, h4, -⟩ := ovf_does (l := l) hp.digest (W := W) (xml := xml q) R P
  rw [manifest_says, ← R.named] at h3
  refine ⟨cs, writePackage_does ?_ hq h1, h2, h3, ?_, R.listed⟩
  · rintro rfl
    exact absurd P.base.1 (fun h => h.1 (by decide))
  · intro h hh
    exact h4 h ((R.kept h).2 ((R.listed.2 h).1 hh))

theorem member_ok {d m n : Str} (hd : d.head? = some '/') (hnorm : normpath d = d) (hn : PlainName n)
    (h : normpath m = n) : memberOk d m = true := by
  unfold memberOk
  rw [normpath_join hd hn h, ← normpath_join hd hn (plain_norm hn), ← absName_abs (w := ⟨[], fun _ => none, fun _ => false, fun _ => none⟩) (join_abs hd),
    normal_join hd hnorm hn]
  obtain ⟨X, -, ⟨t, hX⟩, hall⟩ := join_head (W := d)
  rw [hall n hn.2.2.2, ← hX, List.append_assoc]
  unfold startsWith
  simp

/-- C72: an archive that was written can be opened again, from any working directory: the descriptor is found in it, no
file is reported missing, changed or unlisted, and each file is read with the content that it had. -/
theorem C72_archive_partial (hl : l.Lawful) {c : Ctx} {capOf : Str → Except Err Nat} {sum : List UInt8 → Str} {w w' : Fs}
    {input output W : Str} {cont : Str → List UInt8} {xml : Pkg → List UInt8} {p q : Pkg} {cs : List Change}
    {newDir : Str}
    (hp : CanWrite c capOf sum w input cont p) (P : OvaPlan w p.files input output W)
    (hq : refreshFiles { c with fs := w } capOf p = .ok q)
    (hrun : writePackage l c capOf xml p input output W ".ova".toList w = (.ok q, cs))
    (hw : w'.cwd = w.cwd ∧ w'.isDir (absName w output) = false ∧
      w'.file (absName w output) = (applyAll l w cs).file (absName w output) ∧
      w'.tar (absName w output) = (applyAll l w cs).tar (absName w output))
    (hnew : newDir.head? = some '/' ∧ normpath newDir = newDir) (hout : output ≠ pathJoin newDir (ovaDescriptor output)) :
    ∃ ms d fs, w'.tar (absName w output) = some ms ∧ untar newDir (ms.map Prod.fst) = .ok d ∧
      ms.head? = some (pathBase d, xml q) ∧
      openFiles l c.digest w' c.env.ver output d q.refs = .ok (fs, []) ∧
      dkeys fs = namedFiles c.env.ver q.refs ∧
      ∀ x ∈ fs, x.2.content w' = .ok (cont x.1) := by
  have R := hp.refreshed hq
  obtain ⟨cs', ms, files', h1, h2, h3, h4, h5, -⟩ := ova_does hl hp.digest (xml := xml q) R P
  have hrun' := writePackage_does (output_ne P.base.1) hq h1
  rw [hrun] at hrun'
  obtain rfl : cs = cs' := by cases hrun'; rfl
  obtain ⟨hb, hm, hne, hroot, -⟩ := ova_names (W := newDir) P.base.1
  obtain ⟨w1, w2, w3, w4⟩ := hw
  rw [h4] at w3
  rw [h5] at w4
  have hbase : pathBase (pathJoin newDir (ovaDescriptor output)) = ovaDescriptor output := pathBase_join hb.2.2.2
  have habs : (absName w output).head? = some '/' := absName_head P.cwd output
  have hnames : ∀ e ∈ fileElems c.env.ver q.refs, hrefOf c.env.ver e ≠ ovaDescriptor output ∧
      hrefOf c.env.ver e ≠ ovaManifest output ∧ FileName (hrefOf c.env.ver e) := by
    intro e he
    obtain ⟨n, n1, n2, -⟩ := R.entry e he
    rw [hrefOf_eq n1]
    obtain ⟨r, q1, q2⟩ := (R.kept n).1 n2
    have := P.names n (mem_dkeys_of_dget? q1)
    exact ⟨this.1, this.2, q2.name.1.1, q2.name.2⟩
  obtain ⟨mf, hmf⟩ : ∃ x, x = manifestOf l c.env.ver sum cont (fileElems c.env.ver q.refs) (ovaDescriptor output) (xml q) :=
    ⟨_, rfl⟩
  rw [← hmf] at w3 w4
  -- a member is determined by its name
  obtain ⟨all, hall⟩ : ∃ all, all = (ovaDescriptor output, xml q) :: (ovaManifest output, mf) :: ms := ⟨_, rfl⟩
  have huq : ∀ m ∈ all, ∀ m' ∈ all, normpath m.1 = normpath m'.1 → m = m' := by
    have hmap : ms.map (fun m => normpath m.1) = (fileElems c.env.ver q.refs).map (hrefOf c.env.ver) := by
      have := congrArg (List.map Prod.fst) (members_map h2).1
      simpa [List.map_map, Function.comp_def] using this
    refine List.inj_on_of_nodup_map (f := fun m : Str × List UInt8 => normpath m.1) ?_
    rw [hall]
    simp only [List.map_cons, plain_norm hb, plain_norm hm, hmap]
    have hnot : ∀ n ∈ (fileElems c.env.ver q.refs).map (hrefOf c.env.ver), n ≠ ovaDescriptor output ∧ n ≠ ovaManifest output := by
      intro n hn
      obtain ⟨e, he, rfl⟩ := List.mem_map.1 hn
      exact ⟨(hnames e he).1, (hnames e he).2.1⟩
    refine List.nodup_cons.2 ⟨?_, List.nodup_cons.2 ⟨?_, R.hrefs⟩⟩
    · intro hh
      rcases List.mem_cons.1 hh with hh | hh
      · exact hne hh
      · exact (hnot _ hh).1 rfl
    · intro hh
      exact (hnot _ hh).2 rfl
  have hgive : ∀ m ∈ all, ∀ n, PlainName n → normpath m.1 = n →
      Gives c.digest c.env.ver sum w' (absName w output) n m.2 := by
    intro m hmm n hn he
    refine gives_tar hp.digest habs w2 (by rw [w3]; rfl) (w4.trans (by rw [← hall])) hmm hn he ?_
    intro m' hm' he'
    exact huq m' hm' m hmm (he'.trans he.symm)
  have hdne : ¬ output = pathJoin newDir (ovaDescriptor output) := hout
  obtain ⟨fs, f1, f2, f3⟩ := openFiles_right (l := l) hl.text hp.hex (v := c.env.ver) (digest := c.digest) (w := w')
    (input := output) (descriptor := pathJoin newDir (ovaDescriptor output)) (path := absName w output) (refs := q.refs)
    (cont := cont) (xml := xml q)
    (by unfold inputPath; rw [if_neg hdne]; exact absName_cwd w1 output)
    (by
      rw [hbase]
      refine ⟨hb.1, ?_⟩
      unfold ovaDescriptor
      intro hh
      rcases List.mem_append.1 hh with hh | hh
      · exact P.base.2 hh
      · revert hh; decide)
    (by
      intro e he
      obtain ⟨n, n1, n2, n3⟩ := R.entry e he
      have hh := hnames e he
      rw [hrefOf_eq n1] at hh
      refine ⟨n, n1, hh.2.2, by rw [hbase]; exact hh.1, ?_, n3⟩
      obtain ⟨m, hmm, M⟩ := forall₂_mem_left h2 e he
      have := hgive m (by rw [hall]; simp [hmm]) (hrefOf c.env.ver e) M.plain M.norm
      rw [M.content, hrefOf_eq n1] at this
      exact this)
    R.hrefs
    (by
      rw [hbase]
      exact hgive (ovaDescriptor output, xml q) (by rw [hall]; simp) _ hb (plain_norm hb))
    (by
      rw [hbase, hroot, ← hmf]
      exact hgive (ovaManifest output, mf) (by rw [hall]; simp) _ hm (plain_norm hm))
  refine ⟨all, pathJoin newDir (ovaDescriptor output), fs, w4.trans (by rw [hall]), ?_, by rw [hall, hbase]; rfl, f1,
    by rw [f2, R.named], f3⟩
  rw [hall]
  unfold untar
  simp only [List.map_cons]
  rw [if_neg, if_pos]
  · unfold ovaDescriptor
    exact pathExt_append (e := "ovf".toList) P.base.1 (noslash_base _) (by decide) (by decide)
  · rw [Bool.not_eq_true, List.any_eq_false]
    intro n hn
    have hok : ∃ k, PlainName k ∧ normpath n = k := by
      rcases List.mem_cons.1 hn with rfl | hn
      · exact ⟨_, hb, plain_norm hb⟩
      · rcases List.mem_cons.1 hn with rfl | hn
        · exact ⟨_, hm, plain_norm hm⟩
        · obtain ⟨m, hmm, rfl⟩ := List.mem_map.1 hn
          obtain ⟨e, -, M⟩ := forall₂_mem_right h2 m hmm
          exact ⟨_, M.plain, M.norm⟩
    obtain ⟨k, hk, he⟩ := hok
    rw [member_ok hnew.1 hnew.2 hk he]
    simp

/-- C72: a package that was written to a directory can be opened again: no file is reported missing, changed or
unlisted, and each file is read with the content that it had. -/
theorem C72_directory_partial (hl : l.Lawful) {c : Ctx} {capOf : Str → Except Err Nat} {sum : List UInt8 → Str} {w w' : Fs}
    {input output W : Str} {cont : Str → List UInt8} {xml : Pkg → List UInt8} {p q : Pkg} {cs : List Change}
    (hp : CanWrite c capOf sum w input cont p) (P : OvfPlan w p.files input output)
    (hq : refreshFiles { c with fs := w } capOf p = .ok q)
    (hrun : writePackage l c capOf xml p input output W ".ovf".toList w = (.ok q, cs))
    (hw : w'.cwd = w.cwd ∧ w'.isDir (dirOf w output) = true ∧
      ∀ n, PlainName n → w'.file (pathJoin (dirOf w output) n) = (applyAll l w cs).file (pathJoin (dirOf w output) n)) :
    ∃ fs, w'.file (pathJoin (dirOf w output) (pathBase output)) = some (xml q) ∧
      openFiles l c.digest w' c.env.ver output output q.refs = .ok (fs, []) ∧
      dkeys fs = namedFiles c.env.ver q.refs ∧
      ∀ x ∈ fs, x.2.content w' = .ok (cont x.1) := by
  have R := hp.refreshed hq
  obtain ⟨cs', h1, h2, h3, h4, -⟩ := ovf_does (l := l) hp.digest (W := W) (xml := xml q) R P
  have ho : output ≠ [] := by
    rintro rfl
    exact absurd P.base.1 (fun h => h.1 (by decide))
  have hrun' := writePackage_does ho hq h1
  rw [hrun] at hrun'
  obtain rfl : cs = cs' := by cases hrun'; rfl
  obtain ⟨hb, hnl, hbm⟩ := P.base
  obtain ⟨hm, hD, hout, hmfp, hJ⟩ := ovf_names P.cwd hb
  obtain ⟨w1, w2, w3⟩ := hw
  have hgive : ∀ n b, PlainName n → (applyAll l w cs).file (pathJoin (dirOf w output) n) = some b →
      Gives c.digest c.env.ver sum w' (dirOf w output) n b := by
    intro n b hn hf
    exact gives_disk hp.digest hD w2 hn ((w3 n hn).trans hf)
  obtain ⟨fs, f1, f2, f3⟩ := openFiles_right (l := l) hl.text hp.hex (v := c.env.ver) (digest := c.digest) (w := w')
    (input := output) (descriptor := output) (path := dirOf w output) (refs := q.refs) (cont := cont) (xml := xml q)
    (by unfold inputPath; rw [if_pos rfl, absName_cwd w1]; rfl)
    ⟨hb.1, hnl⟩
    (by
      intro e he
      obtain ⟨n, n1, n2, n3⟩ := R.entry e he
      obtain ⟨r, q1, q2⟩ := (R.kept n).1 n2
      exact ⟨n, n1, ⟨q2.name.1.1, q2.name.2⟩, (P.names n (mem_dkeys_of_dget? q1)).1, hgive _ _ q2.name.1 (h4 n n2), n3⟩)
    R.hrefs (hgive _ _ hb h2) (hgive _ _ hm h3)
  exact ⟨fs, (w3 _ hb).trans h2, f1, by rw [f2, R.named], f3⟩

end Cot
