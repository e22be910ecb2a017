import Verif.Lemmas.WritePlan
import Verif.Props.PackageRefresh
/-
The runs of `write` for both kinds of packages.
-/
namespace Cot

variable {l : Lib}

theorem hrefOf_eq {v : Ver} {e : Elem} {h : Str} (he : e.get (fileHref v) = some h) : hrefOf v e = h := by
  unfold hrefOf; rw [he]; rfl

/-- what is known after the refresh -/
structure Refreshed (v : Ver) (sum : List UInt8 → Str) (w : Fs) (input : Str) (cont : Str → List UInt8) (p q : Pkg) :
    Prop where
  nodup : (dkeys q.files).Nodup
  kept : ∀ h, h ∈ dkeys q.files ↔ ∃ r, dget? p.files h = some r ∧ FileOf v w input h r (cont h)
  held : ∀ h r', dget? q.files h = some r' → Held v sum w h r' (cont h) ∧ ∃ r, dget? p.files h = some r ∧ SameRef r r'
  entry : ∀ e ∈ fileElems v q.refs, ∃ h, e.get (fileHref v) = some h ∧ h ∈ dkeys q.files ∧
    e.get (fileSize v) = some (natStr (cont h).length)
  hrefs : ((fileElems v q.refs).map (hrefOf v)).Nodup
  all : ∀ h ∈ dkeys q.files, h ∈ (fileElems v q.refs).map (hrefOf v)

theorem refreshed {c : Ctx} {capOf : Str → Except Err Nat} {p q : Pkg} {w : Fs} {sum : List UInt8 → Str} {input : Str}
    {cont : Str → List UInt8} (hv : c.env.ver ≠ .v0) (hcap : ∀ s n, capOf s = .ok n → 0 < n ∧ n ≤ 2 ^ 63)
    (hnd : (dkeys p.files).Nodup) (hids : Distinct p.refs.children (fileTag c.env.ver) (fileId c.env.ver))
    (hf : ∀ h r, dget? p.files h = some r → FileOf c.env.ver w input h r (cont h) ∨ Gone w r)
    (hq : refreshFiles { c with fs := w } capOf p = .ok q) : Refreshed c.env.ver sum w input cont p q := by
  have h70 := (C70_files_partial (c := { c with fs := w }) hv hcap hnd hids hq).2.2.2.2
  unfold refreshFiles at hq
  obtain ⟨files, hfl, h⟩ := bind_ok_inv hq
  obtain ⟨f1, f2, f3⟩ := refreshRefs_held (c := { c with fs := w }) (v := c.env.ver) (sum := sum) (input := input)
    (cont := cont) hnd hf hfl
  have hnd' : (dkeys files).Nodup := hnd.sublist f1
  obtain ⟨g1, g2, ⟨cs, g3⟩, g4, -, -, g5⟩ := refreshEach_inv (c := { c with fs := w }) hv hcap hnd' (by
    simp only; rw [setChildren_children]; exact distinct_filter hids) h
  simp only at g2 g4
  rw [setChildren_children] at g4
  obtain ⟨n1, n2, n3⟩ := fileNames_ne c.env.ver
  have hentry : ∀ e ∈ fileElems c.env.ver q.refs, ∃ h, e.get (fileHref c.env.ver) = some h ∧ h ∈ dkeys q.files ∧
      e.get (fileSize c.env.ver) = some (natStr (cont h).length) := by
    intro e' he'
    obtain ⟨m1, m2⟩ := List.mem_filter.1 he'
    obtain ⟨i, hi⟩ := List.mem_iff_getElem?.1 m1
    have hlt : i < (dropMissing c.env.ver files p.refs.children).length := by
      have := g4.length_eq
      rw [this]; exact (List.getElem?_eq_some_iff.1 hi).1
    have R := forall₂_getElem? g4 i _ _ (List.getElem?_eq_getElem hlt) hi
    have hmem := List.getElem_mem hlt
    generalize (dropMissing c.env.ver files p.refs.children)[i] = e at R hmem
    have htag : e.tag = fileTag c.env.ver := by rw [← R.tag]; simpa using m2
    unfold dropMissing at hmem
    have hp := (List.mem_filter.1 hmem).2
    rw [htag] at hp
    cases hg : e.get (fileHref c.env.ver) with
    | none => rw [hg] at hp; simp at hp
    | some h =>
      rw [hg] at hp
      have hk : h ∈ dkeys files := by simpa using hp
      obtain ⟨r, hr⟩ := dget?_of_mem_dkeys hk
      obtain ⟨n, s1, s2⟩ := R.size h r hr ⟨htag, hg⟩
      obtain ⟨H, -⟩ := f3 h r hr
      obtain ⟨r', hrs⟩ := H.readSize
      rw [show (r.readSize w).1 = _ from congrArg Prod.fst hrs] at s1
      cases s1
      exact ⟨h, (R.other _ n3).trans hg, by rw [g2]; exact hk, s2⟩
  refine ⟨by rw [g2]; exact hnd', fun h => by rw [g2]; exact f2 h, fun h r' hr => by rw [g2] at hr; exact f3 h r' hr,
    hentry, ?_, ?_⟩
  · have hdist : Distinct q.refs.children (fileTag c.env.ver) (fileHref c.env.ver) := by
      intro i j e f s hi hj he hf' hes hfs
      obtain ⟨x, hx1, hx2, -⟩ := hentry e (List.mem_filter.2 ⟨List.mem_of_getElem? hi, by simpa using he⟩)
      rw [hes] at hx1
      cases hx1
      obtain ⟨k, -, huq⟩ := h70 s hx2
      rw [huq i e hi ⟨he, hes⟩, huq j f hj ⟨hf', hfs⟩]
    rw [distinct_iff] at hdist
    unfold List.Nodup
    rw [List.pairwise_map]
    refine (hdist.sublist (List.filter_sublist (p := fun e => e.tag == fileTag c.env.ver))).imp_of_mem ?_
    intro a b ha hb hab heq
    obtain ⟨x, hx, -⟩ := hentry a ha
    obtain ⟨y, hy, -⟩ := hentry b hb
    rw [hrefOf_eq hx, hrefOf_eq hy] at heq
    refine hab ⟨by simpa using (List.mem_filter.1 ha).2, by simpa using (List.mem_filter.1 hb).2, x, hx, ?_⟩
    rw [heq]; exact hy
  · intro h hh
    obtain ⟨i, ⟨e, he, hfe⟩, -⟩ := h70 h hh
    exact List.mem_map.2 ⟨e, List.mem_filter.2 ⟨List.mem_of_getElem? he, by simpa using hfe.1⟩, hrefOf_eq hfe.2⟩

theorem put_file_same (w : Fs) (p : Str) (b : List UInt8) : (w.put l p b).file p = some b := by
  rw [put_file, if_pos rfl]

theorem put_file_other {w : Fs} {p q : Str} (b : List UInt8) (h : absName w q ≠ absName w p) :
    (w.put l p b).file q = w.file q := by
  rw [put_file, if_neg h]

theorem forall₂_mem_right {α β : Type} {R : α → β → Prop} : ∀ {xs : List α} {ys : List β}, List.Forall₂ R xs ys →
    ∀ y ∈ ys, ∃ x ∈ xs, R x y
  | _, _, .nil, _, h => nomatch h
  | x :: xs, y :: ys, .cons h t, z, hz => by
    rcases List.mem_cons.1 hz with rfl | hz
    · exact ⟨x, by simp, h⟩
    · obtain ⟨a, ha, hr⟩ := forall₂_mem_right t z hz
      exact ⟨a, by simp [ha], hr⟩

theorem forall₂_mem_left {α β : Type} {R : α → β → Prop} : ∀ {xs : List α} {ys : List β}, List.Forall₂ R xs ys →
    ∀ x ∈ xs, ∃ y ∈ ys, R x y
  | _, _, .nil, _, h => nomatch h
  | x :: xs, y :: ys, .cons h t, z, hz => by
    rcases List.mem_cons.1 hz with rfl | hz
    · exact ⟨y, by simp, h⟩
    · obtain ⟨a, ha, hr⟩ := forall₂_mem_left t z hz
      exact ⟨a, by simp [ha], hr⟩

theorem applyAll_last {w : Fs} {cs : List Change} {p q : Str} {b : List UInt8} (h : absName w q = absName w p) :
    (applyAll l w (cs ++ [(p, b)])).file q = some b ∧ (applyAll l w (cs ++ [(p, b)])).tar q = l.unpack b := by
  rw [applyAll_append, applyAll_cons, applyAll_nil, put_file, put_tar, absName_applyAll, absName_applyAll, if_pos h, if_pos h]
  exact ⟨rfl, rfl⟩

/-- an archive is written -/
theorem ova_steps {v : Ver} {digest : Str → List UInt8 → Except Err Str} {sum : List UInt8 → Str}
    (hd : ∀ b, digest (checksumAlgo v) b = .ok (sum b)) {w : Fs} {input output W : Str}
    {cont : Str → List UInt8} {p q : Pkg} {xml : List UInt8} (R : Refreshed v sum w input cont p q)
    (P : OvaPlan w p.files input output W) {base mbase : Str} (hb : PlainName base) (hm : PlainName mbase)
    (hroot : pathRoot (pathJoin W base) ++ ".mf".toList = pathJoin W mbase) (hne : base ≠ mbase)
    (hnames : ∀ h ∈ dkeys p.files, h ≠ base ∧ h ≠ mbase) :
    ∃ files2 files' cs ms,
      Does (generateManifest l digest v (fileElems v q.refs) q.files (pathJoin W base)) (w.put l (pathJoin W base) xml)
        files2 [(pathJoin W mbase, []), (pathJoin W mbase, manifestOf l v sum cont (fileElems v q.refs) base xml)] ∧
      Does (tarPackage l digest v (fileElems v q.refs) files2 input W (pathJoin W base) output)
        (((w.put l (pathJoin W base) xml).put l (pathJoin W mbase) []).put l (pathJoin W mbase)
          (manifestOf l v sum cont (fileElems v q.refs) base xml)) files'
        (cs ++ [(output, []), (output, l.pack ((base, xml) ::
          (mbase, manifestOf l v sum cont (fileElems v q.refs) base xml) :: ms))]) ∧
      List.Forall₂ (MemberFor v files' cont) (fileElems v q.refs) ms ∧
      (if absName w input = absName w output then ∀ x ∈ files', x.2.inTar = false else
        cs = [] ∧ ∀ h r', dget? files' h = some r' → ∃ r, dget? p.files h = some r ∧ SameRef r r') := by
  obtain ⟨hW, hWn, hdir⟩ := P.work
  have hJ : ∀ n, PlainName n → absName w (pathJoin W n) = pathJoin W n := fun n hn => normal_join hW hWn hn
  have hin : ∀ n, PlainName n → absName w input ≠ pathJoin W n := fun n hn => by
    have := P.inputOut n hn; rwa [hJ n hn] at this
  have hout : ∀ n, PlainName n → absName w output ≠ pathJoin W n := fun n hn => by
    have := P.outputOut n hn; rwa [hJ n hn] at this
  have hkeys : ∀ h r, dget? q.files h = some r → h ≠ base ∧ h ≠ mbase := by
    intro h r hr
    obtain ⟨-, r0, hr0, -⟩ := R.held h r hr
    exact hnames h (mem_dkeys_of_dget? hr0)
  have htarq : ∀ h r, dget? q.files h = some r → r.inTar = true → r.container = absName w input := by
    intro h r hr ht
    obtain ⟨r0, q1, q2⟩ := (R.kept h).1 (mem_dkeys_of_dget? hr)
    obtain ⟨-, r1, q3, q4⟩ := R.held h r hr
    rw [q1] at q3; cases q3
    rw [q4.2.1]
    exact (q2.tar (q4.1 ▸ ht)).1
  -- places of the files
  have hplW : ∀ h r, dget? q.files h = some r → ∀ n, PlainName n → h ≠ n → r.place w ≠ pathJoin W n := by
    intro h r hr n hn hhn
    obtain ⟨H, -⟩ := R.held h r hr
    by_cases ht : r.inTar = true
    · unfold FRef.place
      rw [if_pos ht, htarq h r hr ht, absName_idem P.cwd]
      exact hin n hn
    · rw [H.place_disk (by simpa using ht)]
      intro he
      have e1 := pathBase_join (dir := r.container) H.name.2.2.2
      have e2 := pathBase_join (dir := W) hn.2.2.2
      rw [he, e2] at e1
      exact hhn e1.symm
  have hjne : pathJoin W base ≠ pathJoin W mbase := fun h => hne (join_inj hb hm h)
  have hbase : pathBase (pathJoin W base) = base := pathBase_join hb.2.2.2
  have hJb := hJ base hb
  have hJm := hJ mbase hm
  have hpb : ∀ h r, dget? q.files h = some r → r.place w ≠ pathJoin W base :=
    fun h r hr => hplW h r hr _ hb (hkeys h r hr).1
  have hpm : ∀ h r, dget? q.files h = some r → r.place w ≠ pathJoin W mbase :=
    fun h r hr => hplW h r hr _ hm (hkeys h r hr).2
  have hes : ∀ e ∈ fileElems v q.refs, ∃ h, e.get (fileHref v) = some h ∧ h ∈ dkeys q.files := by
    intro e he
    obtain ⟨h, h1, h2, -⟩ := R.entry e he
    exact ⟨h, h1, h2⟩
  obtain ⟨w1, hw1⟩ : ∃ w1, w1 = w.put l (pathJoin W base) xml := ⟨_, rfl⟩
  have hab1 : ∀ x, absName w1 x = absName w x := fun x => by rw [hw1]; exact absName_cwd rfl x
  have hpl1 : ∀ r : FRef, r.place w1 = r.place w := fun r => by rw [hw1]; exact place_cwd rfl r
  have hH1 : ∀ h r, dget? q.files h = some r → Held v sum w1 h r (cont h) := by
    intro h r hr
    rw [hw1]
    refine (R.held h r hr).1.put ?_
    rw [hJb]
    exact hpb h r hr
  obtain ⟨files2, g1, g2, g3⟩ := generateManifest_does (l := l) hd (w := w1) (ovf := pathJoin W base) (xml := xml) hes hH1
    (by rw [hw1, put_file_same]) (by
      intro h r hr
      rw [hroot, hpl1, hab1, hJm]
      exact hpm h r hr)
  rw [hroot, hbase] at g1
  obtain ⟨mtext, hmt⟩ : ∃ x, x = manifestOf l v sum cont (fileElems v q.refs) base xml := ⟨_, rfl⟩
  rw [← hmt] at g1 ⊢
  obtain ⟨w3, hw3⟩ : ∃ w3, w3 = (w1.put l (pathJoin W mbase) []).put l (pathJoin W mbase) mtext := ⟨_, rfl⟩
  have hab3 : ∀ x, absName w3 x = absName w x := fun x => by rw [hw3, ← hab1]; exact absName_cwd rfl x
  have hpl3 : ∀ r : FRef, r.place w3 = r.place w := fun r => by rw [hw3, ← hpl1]; exact place_cwd rfl r
  have hab2 : ∀ x, absName (w1.put l (pathJoin W mbase) []) x = absName w x := fun x => by
    rw [← hab1]; exact absName_cwd rfl x
  have hpl2 : ∀ r : FRef, r.place (w1.put l (pathJoin W mbase) []) = r.place w := fun r => by
    rw [← hpl1]; exact place_cwd rfl r
  have hnd2 : (dkeys files2).Nodup := by rw [g2]; exact R.nodup
  have hfrom : ∀ x ∈ files2, ∃ r, dget? q.files x.1 = some r ∧ SameRef r x.2 := by
    intro x hx
    exact (g3 x.1 x.2 (dget?_of_mem hnd2 hx)).2
  have hH3 : ∀ x ∈ files2, Held v sum w3 x.1 x.2 (cont x.1) := by
    intro x hx
    obtain ⟨q1, r, q2, q3⟩ := g3 x.1 x.2 (dget?_of_mem hnd2 hx)
    have hp : x.2.place w ≠ pathJoin W mbase := by
      rw [q3.place]; exact hpm x.1 r q2
    rw [hw3]
    refine (q1.put (l := l) ?_).put ?_
    · rw [hpl1, hab1, hJm]; exact hp
    · rw [hpl2, hab2, hJm]; exact hp
  have hkb : ∀ n, (n = base ∨ n = mbase) → n ∉ dkeys files2 := by
    intro n hn h
    rw [g2] at h
    obtain ⟨r, hr⟩ := dget?_of_mem_dkeys h
    have := hkeys _ r hr
    rcases hn with rfl | rfl
    · exact this.1 rfl
    · exact this.2 rfl
  obtain ⟨files', cs, ms, t1, t2, t3, t4⟩ := tarPackage_does (l := l) hd (cont := cont) hW hWn (w := w3)
    (by rw [hw3, hw1]; exact hdir) hnd2
    (es := fileElems v q.refs) (by rw [g2]; exact hes) hH3 (input := input) (out := output) hb hm hroot
    (xml := xml) (mf := mtext)
    (by
      rw [hw3, put_file_other, put_file_other, hw1, put_file_same]
      · rw [hab1, hab1, hJb, hJm]; exact hjne
      · rw [hab2, hab2, hJb, hJm]; exact hjne)
    (by rw [hw3, put_file_same])
    (hkb _ (Or.inl rfl)) (hkb _ (Or.inr rfl))
    (fun n hn => by rw [hab3]; exact hin n hn) (fun n hn => by rw [hab3]; exact hout n hn)
    (by
      intro x hx ht
      obtain ⟨r, hr, hs⟩ := hfrom x hx
      rw [hs.2.1, hab3]
      exact htarq x.1 r hr (hs.1 ▸ ht))
    (by rw [hw3, hw1]; exact P.cwd)
    (by
      intro x hx ht
      obtain ⟨r, hr, hs⟩ := hfrom x hx
      obtain ⟨H, r0, h0, hs0⟩ := R.held x.1 r hr
      have hrt : r.inTar = false := by rw [← hs.1]; exact ht
      have hr0t : r0.inTar = false := by rw [← hs0.1]; exact hrt
      have := P.sources x.1 r0 h0 hr0t
      rw [hpl3, hab3, hs.place, H.place_disk hrt, ← (H.disk hrt).1, hs0.2.1, hs0.2.2]
      exact this)
  rw [← hw1, ← hw3]
  refine ⟨files2, files', cs, ms, g1, t1, t3, ?_⟩
  rw [hab3, hab3] at t4
  by_cases hs : absName w input = absName w output
  · rw [if_pos hs] at t4 ⊢; exact t4
  · rw [if_neg hs] at t4 ⊢
    obtain ⟨t4, t5⟩ := t4
    subst t4
    refine ⟨t5, ?_⟩
    intro h r' hr'
    obtain ⟨-, r, q2, q3⟩ := g3 h r' hr'
    obtain ⟨-, r0, h0, hs0⟩ := R.held h r q2
    exact ⟨r0, h0, hs0.trans q3⟩

theorem ova_names {output W : Str} (hd : ∃ c ∈ pathBase (pathRoot output), c ≠ '.') :
    PlainName (ovaDescriptor output) ∧ PlainName (ovaManifest output) ∧ ovaDescriptor output ≠ ovaManifest output ∧
    pathRoot (ovaDescriptor output) = pathBase (pathRoot output) ∧
    pathRoot (pathJoin W (ovaDescriptor output)) ++ ".mf".toList = pathJoin W (ovaManifest output) := by
  have hr0 : '/' ∉ pathBase (pathRoot output) := noslash_base _
  have hb : PlainName (ovaDescriptor output) := plain_suffix hr0 (by decide) ⟨'o', by decide, by decide⟩
  have hm : PlainName (ovaManifest output) := plain_suffix hr0 (by decide) ⟨'m', by decide, by decide⟩
  have hrt : pathRoot (ovaDescriptor output) = pathBase (pathRoot output) :=
    pathRoot_append hd hr0 (e := "ovf".toList) (by decide) (by decide)
  refine ⟨hb, hm, ?_, hrt, ?_⟩
  · intro h
    have := List.append_cancel_left h
    revert this; decide
  · rw [pathRoot_join hb.2.2.2 (by rw [hrt]; exact hr0), hrt, join_append hr0 (by decide)]
    rfl

theorem writeOut_ova {digest : Str → List UInt8 → Except Err Str} {v : Ver} {es : List Elem} {files : List (Str × FRef)}
    {j : Job} (h : j.ext = ".ova".toList) : writeOut l digest v es files j = (do
    WM.write j.ovfFile j.xml
    let files ← generateManifest l digest v es files j.ovfFile
    let _ ← tarPackage l digest v es files j.input j.workDir j.ovfFile j.output
    pure ()) := by
  unfold writeOut
  rw [if_pos h]

theorem writeOut_ovf {digest : Str → List UInt8 → Except Err Str} {v : Ver} {es : List Elem} {files : List (Str × FRef)}
    {j : Job} (h : j.ext = ".ovf".toList) : writeOut l digest v es files j = (do
    WM.write j.output j.xml
    let dest ← WM.read (fun w => .ok (pathDir (absName w j.output)))
    copyAll l dest files
    let _ ← generateManifest l digest v es files j.output
    pure ()) := by
  unfold writeOut
  rw [if_neg (by rw [h]; decide), if_pos h]

theorem ova_seq {digest : Str → List UInt8 → Except Err Str} {v : Ver} {es : List Elem} {files files2 files' : List (Str × FRef)}
    {w : Fs} {d input W out : Str} {xml : List UInt8} {m : Str} {b b' : List UInt8} {ds : List Change}
    (h1 : Does (generateManifest l digest v es files d) (w.put l d xml) files2 [(m, b), (m, b')])
    (h2 : Does (tarPackage l digest v es files2 input W d out) (((w.put l d xml).put l m b).put l m b') files' ds) :
    Does (do
      WM.write d xml
      let files ← generateManifest l digest v es files d
      let _ ← tarPackage l digest v es files input W d out
      (pure () : WM l Unit)) w () ((d, xml) :: ([(m, b), (m, b')] ++ ds)) := by
  have h3 := Does.bindPure (f := fun _ => ()) h2
  have h4 := Does.bind (f := fun files => tarPackage l digest v es files input W d out >>= fun _ => (pure () : WM l Unit)) h1 h3
  exact Does.bindWrite (f := fun _ => generateManifest l digest v es files d >>= fun files =>
    tarPackage l digest v es files input W d out >>= fun _ => (pure () : WM l Unit)) h4

theorem ova_does (hl : l.Lawful) {v : Ver} {digest : Str → List UInt8 → Except Err Str} {sum : List UInt8 → Str}
    (hd : ∀ b, digest (checksumAlgo v) b = .ok (sum b)) {w : Fs} {input output W : Str}
    {cont : Str → List UInt8} {p q : Pkg} {xml : List UInt8} (R : Refreshed v sum w input cont p q)
    (P : OvaPlan w p.files input output W) :
    ∃ cs ms files', Does (writeOut l digest v (fileElems v q.refs) q.files
        { input := input, output := output, workDir := W, ext := ".ova".toList, xml := xml }) w () cs ∧
      List.Forall₂ (MemberFor v files' cont) (fileElems v q.refs) ms ∧
      (if absName w input = absName w output then ∀ x ∈ files', x.2.inTar = false else
        (∀ c ∈ cs, absName w c.1 = pathJoin W (ovaDescriptor output) ∨ absName w c.1 = pathJoin W (ovaManifest output) ∨
          absName w c.1 = absName w output) ∧
        ∀ h r', dget? files' h = some r' → ∃ r, dget? p.files h = some r ∧ SameRef r r') ∧
      (applyAll l w cs).file (absName w output) = some (l.pack ((ovaDescriptor output, xml) :: (ovaManifest output,
        manifestOf l v sum cont (fileElems v q.refs) (ovaDescriptor output) xml) :: ms)) ∧
      (applyAll l w cs).tar (absName w output) = some ((ovaDescriptor output, xml) :: (ovaManifest output,
        manifestOf l v sum cont (fileElems v q.refs) (ovaDescriptor output) xml) :: ms) ∧
      ∃ ds b, cs = ds ++ [(output, []), (output, b)] := by
  obtain ⟨hb, hm, hne, -, hroot⟩ := ova_names (W := W) P.base.1
  obtain ⟨files2, files', cs, ms, g1, t1, t3, t4⟩ := ova_steps (l := l) hd (xml := xml) R P hb hm hroot hne P.names
  obtain ⟨j, hj⟩ : ∃ j : Job, j = { input := input, output := output, workDir := W, ext := ".ova".toList, xml := xml } :=
    ⟨_, rfl⟩
  have hovf : j.ovfFile = pathJoin W (ovaDescriptor output) := by rw [hj]; rfl
  have hfields : j.ext = ".ova".toList ∧ j.xml = xml ∧ j.input = input ∧ j.workDir = W ∧ j.output = output := by
    rw [hj]; exact ⟨rfl, rfl, rfl, rfl, rfl⟩
  rw [← hj]
  obtain ⟨mtext, hmt⟩ : ∃ x, x = manifestOf l v sum cont (fileElems v q.refs) (ovaDescriptor output) xml := ⟨_, rfl⟩
  rw [← hmt] at g1 t1 ⊢
  clear hmt
  have hms : ∀ m ∈ ms, m.1 ≠ [] ∧ m.1.head? ≠ some '/' ∧ m.1.getLast? ≠ some '/' := by
    intro m hmm
    obtain ⟨e, -, M⟩ := forall₂_mem_right t3 m hmm
    obtain ⟨n1, n2, -⟩ := normComps_to_name M.plain M.norm
    exact ⟨n1, n2, M.last⟩
  have hplainOk : ∀ n, PlainName n → n ≠ [] ∧ n.head? ≠ some '/' ∧ n.getLast? ≠ some '/' := fun n hn =>
    ⟨hn.1, fun h => hn.2.2.2 (List.mem_of_mem_head? h), plain_last hn⟩
  have hlaw := hl.tar ((ovaDescriptor output, xml) :: (ovaManifest output, mtext) :: ms) (by
    intro m hmm
    rcases List.mem_cons.1 hmm with rfl | hmm
    · exact hplainOk _ hb
    · rcases List.mem_cons.1 hmm with rfl | hmm
      · exact hplainOk _ hm
      · exact hms m hmm)
  obtain ⟨all, hall⟩ : ∃ all, all = (ovaDescriptor output, xml) :: (ovaManifest output, mtext) :: ms := ⟨_, rfl⟩
  rw [← hall] at hlaw t1
  have hlast := applyAll_last (l := l) (w := w) (p := output) (q := absName w output) (b := l.pack all)
    (cs := (pathJoin W (ovaDescriptor output), xml) :: ([(pathJoin W (ovaManifest output), []),
      (pathJoin W (ovaManifest output), mtext)] ++ (cs ++ [(output, [])]))) (absName_idem P.cwd output)
  rw [hlaw] at hlast
  have hrun := ova_seq g1 t1
  obtain ⟨cs', hcs'⟩ : ∃ cs', cs' = (pathJoin W (ovaDescriptor output), xml) :: ([(pathJoin W (ovaManifest output), []),
      (pathJoin W (ovaManifest output), mtext)] ++ (cs ++ [(output, [])])) ++ [(output, l.pack all)] := ⟨_, rfl⟩
  rw [← hcs'] at hlast
  have hrun' : (pathJoin W (ovaDescriptor output), xml) :: ([(pathJoin W (ovaManifest output), []),
      (pathJoin W (ovaManifest output), mtext)] ++ (cs ++ [(output, []), (output, l.pack all)])) = cs' := by
    rw [hcs']; simp only [List.cons_append, List.append_assoc, List.nil_append]
  rw [hrun'] at hrun
  subst hall
  have hJ : ∀ n, PlainName n → absName w (pathJoin W n) = pathJoin W n := fun n hn => normal_join P.work.1 P.work.2.1 hn
  have hJb := hJ _ hb
  have hJm := hJ _ hm
  refine ⟨cs', ms, files', ?_, t3, ?_, hlast.1, hlast.2, (pathJoin W (ovaDescriptor output), xml) ::
      ([(pathJoin W (ovaManifest output), []), (pathJoin W (ovaManifest output), mtext)] ++ cs), _, by
        rw [hcs']; simp only [List.cons_append, List.append_assoc, List.nil_append]; rfl⟩
  · rw [writeOut_ova hfields.1, hovf, hfields.2.1, hfields.2.2.1, hfields.2.2.2.1, hfields.2.2.2.2]
    exact hrun
  · by_cases hs : absName w input = absName w output
    · rw [if_pos hs] at t4 ⊢; exact t4
    · rw [if_neg hs] at t4 ⊢
      refine ⟨?_, t4.2⟩
      intro c hc
      rw [hcs', t4.1] at hc
      simp only [List.nil_append, List.cons_append, List.mem_cons, List.not_mem_nil, or_false] at hc
      rcases hc with rfl | rfl | rfl | rfl | rfl
      · exact Or.inl hJb
      · exact Or.inr (Or.inl hJm)
      · exact Or.inr (Or.inl hJm)
      · exact Or.inr (Or.inr rfl)
      · exact Or.inr (Or.inr rfl)

theorem ovf_names {w : Fs} (hw : w.cwd.head? = some '/') {output : Str} (hb : PlainName (pathBase output)) :
    PlainName (ovfManifest output) ∧ (dirOf w output).head? = some '/' ∧
    absName w output = pathJoin (dirOf w output) (pathBase output) ∧
    absName w (pathRoot output ++ ".mf".toList) = pathJoin (dirOf w output) (ovfManifest output) ∧
    ∀ n, PlainName n → absName w (pathJoin (dirOf w output) n) = pathJoin (dirOf w output) n := by
  have hm : PlainName (ovfManifest output) := plain_suffix (noslash_root output) (by decide) ⟨'m', by decide, by decide⟩
  obtain ⟨d1, d2, d3, d4⟩ := dir_facts hw hb
  refine ⟨hm, d1, d2, ?_, d4⟩
  rw [pathRoot_head, List.append_assoc]
  exact d3 _ hm

/-- a package is written to a directory -/
theorem ovf_does {v : Ver} {digest : Str → List UInt8 → Except Err Str} {sum : List UInt8 → Str}
    (hd : ∀ b, digest (checksumAlgo v) b = .ok (sum b)) {w : Fs} {input output W : Str}
    {cont : Str → List UInt8} {p q : Pkg} {xml : List UInt8} (R : Refreshed v sum w input cont p q)
    (P : OvfPlan w p.files input output) :
    ∃ cs, Does (writeOut l digest v (fileElems v q.refs) q.files
        { input := input, output := output, workDir := W, ext := ".ovf".toList, xml := xml }) w () cs ∧
      (applyAll l w cs).file (pathJoin (dirOf w output) (pathBase output)) = some xml ∧
      (applyAll l w cs).file (pathJoin (dirOf w output) (ovfManifest output)) =
        some (manifestOf l v sum cont (fileElems v q.refs) (pathBase output) xml) ∧
      (∀ h ∈ dkeys q.files, (applyAll l w cs).file (pathJoin (dirOf w output) h) = some (cont h)) ∧
      ∀ c ∈ cs, absName w c.1 = pathJoin (dirOf w output) (pathBase output) ∨
        absName w c.1 = pathJoin (dirOf w output) (ovfManifest output) ∨
        ∃ n ∈ dkeys q.files, absName w c.1 = pathJoin (dirOf w output) n ∧ c.2 = cont n := by
  obtain ⟨hb, hnl, hbm⟩ := P.base
  obtain ⟨hm, hD, hout, hmfp, hJ⟩ := ovf_names P.cwd hb
  obtain ⟨D, hDD⟩ : ∃ D, D = dirOf w output := ⟨_, rfl⟩
  rw [← hDD] at hD hout hmfp hJ ⊢
  obtain ⟨mp, hmp⟩ : ∃ mp, mp = pathRoot output ++ ".mf".toList := ⟨_, rfl⟩
  obtain ⟨mb, hmb⟩ : ∃ mb, mb = ovfManifest output := ⟨_, rfl⟩
  rw [← hmp, ← hmb] at hmfp
  rw [← hmb] at hm hbm ⊢
  have hsub : ∀ h, h ∈ dkeys q.files → h ∈ dkeys p.files := by
    intro h hh
    obtain ⟨r, hr, -⟩ := (R.kept h).1 hh
    exact mem_dkeys_of_dget? hr
  have hkeys : ∀ h ∈ dkeys q.files, PlainName h ∧ h ≠ pathBase output ∧ h ≠ mb := by
    intro h hh
    obtain ⟨r, hr, hfo⟩ := (R.kept h).1 hh
    obtain ⟨n1, n2⟩ := P.names h (mem_dkeys_of_dget? hr)
    exact ⟨hfo.name.1, n1, by rw [hmb]; exact n2⟩
  have hplace : ∀ h r, dget? q.files h = some r → ∀ n, PlainName n → h ≠ n →
      (r.inTar = true → absName w input ≠ pathJoin D n) → r.place w ≠ pathJoin D n := by
    intro h r hr n hn hhn hti
    obtain ⟨H, r1, q3, q4⟩ := R.held h r hr
    by_cases ht : r.inTar = true
    · obtain ⟨r0, q1, q2⟩ := (R.kept h).1 (mem_dkeys_of_dget? hr)
      rw [q1] at q3; cases q3
      have hc : r.container = absName w input := by
        rw [q4.2.1]; exact (q2.tar (q4.1 ▸ ht)).1
      unfold FRef.place
      rw [if_pos ht, hc, absName_idem P.cwd]
      exact hti ht
    · rw [H.place_disk (by simpa using ht)]
      intro he
      have e1 := pathBase_join (dir := r.container) H.name.2.2.2
      have e2 := pathBase_join (dir := D) hn.2.2.2
      rw [he, e2] at e1
      exact hhn e1.symm
  have harch : ∀ h r, dget? q.files h = some r → r.inTar = true →
      ∀ n, (n = pathBase output ∨ n = mb ∨ n ∈ dkeys q.files) → absName w input ≠ pathJoin D n := by
    intro h r hr ht n hn
    obtain ⟨-, r0, q1, q2⟩ := R.held h r hr
    rw [hDD]
    refine P.archive h r0 q1 (q2.1 ▸ ht) n ?_
    rcases hn with hn | hn | hn
    · exact Or.inl hn
    · exact Or.inr (Or.inl (hn.trans hmb))
    · exact Or.inr (Or.inr (hsub n hn))
  -- the descriptor
  obtain ⟨w1, hw1⟩ : ∃ w1, w1 = w.put l output xml := ⟨_, rfl⟩
  have hab1 : ∀ x, absName w1 x = absName w x := fun x => by rw [hw1]; exact absName_cwd rfl x
  have hpl1 : ∀ r : FRef, r.place w1 = r.place w := fun r => by rw [hw1]; exact place_cwd rfl r
  have hH1 : ∀ h r, dget? q.files h = some r → Held v sum w1 h r (cont h) := by
    intro h r hr
    rw [hw1]
    refine (R.held h r hr).1.put ?_
    rw [hout]
    exact hplace h r hr _ hb (hkeys h (mem_dkeys_of_dget? hr)).2.1 (fun ht => harch h r hr ht _ (Or.inl rfl))
  -- the copies
  obtain ⟨cs, c1, c2, c3⟩ := copyAll_does (l := l) (v := v) (sum := sum) (cont := cont) hD q.files w1 R.nodup
    (fun x hx => hH1 x.1 x.2 (dget?_of_mem R.nodup hx)) (fun n hn => by rw [hab1]; exact hJ n hn)
    (fun x hx hxt n hn => by
      rw [hpl1]
      have hg := dget?_of_mem R.nodup hx
      by_cases hxn : x.1 = n
      · subst hxn
        obtain ⟨r0, q1, q2⟩ := (R.kept x.1).1 hn
        obtain ⟨-, r1, q3, q4⟩ := R.held x.1 x.2 hg
        rw [q1] at q3; cases q3
        have hc : x.2.container = absName w input := by
          rw [q4.2.1]; exact (q2.tar (q4.1 ▸ hxt)).1
        unfold FRef.place
        rw [if_pos hxt, hc, absName_idem P.cwd]
        exact harch x.1 x.2 hg hxt _ (Or.inr (Or.inr hn))
      · exact hplace x.1 x.2 hg n (hkeys n hn).1 hxn (fun ht => harch x.1 x.2 hg ht _ (Or.inr (Or.inr hn))))
  obtain ⟨w2, hw2⟩ : ∃ w2, w2 = applyAll l w1 cs := ⟨_, rfl⟩
  rw [← hw2] at c3
  have hab2 : ∀ x, absName w2 x = absName w x := fun x => by rw [hw2, absName_applyAll]; exact hab1 x
  have hpl2 : ∀ r : FRef, r.place w2 = r.place w := fun r => by rw [hw2, place_cwd (applyAll_cwd cs w1)]; exact hpl1 r
  have hother : ∀ n, PlainName n → n ∉ dkeys q.files → w2.file (pathJoin D n) = w1.file (pathJoin D n) := by
    intro n hn hk
    rw [hw2]
    refine (applyAll_other ?_).1
    intro c hc
    obtain ⟨m, hm1, hm2, -⟩ := c2 c hc
    rw [hm2, hab1, hJ n hn]
    intro hj
    exact hk (join_inj (hkeys m hm1).1 hn hj ▸ hm1)
  have hx1 : w2.file (pathJoin D (pathBase output)) = some xml := by
    rw [hother _ hb (fun h => (hkeys _ h).2.1 rfl), hw1, put_file, if_pos]
    rw [hJ _ hb, hout]
  have hx2 : w2.file output = some xml := by
    rw [hw2, (applyAll_other (q := output) ?_).1, hw1, put_file_same]
    intro c hc
    obtain ⟨m, hm1, hm2, -⟩ := c2 c hc
    rw [hm2, hab1, hout]
    intro hj
    exact (hkeys m hm1).2.1 (join_inj (hkeys m hm1).1 hb hj)
  have hH2 : ∀ h r, dget? q.files h = some r → Held v sum w2 h r (cont h) := by
    intro h r hr
    have hk := mem_dkeys_of_dget? hr
    by_cases hpl : r.place w = pathJoin D h
    · -- the file is there already
      have hH := (R.held h r hr).1
      have ht : r.inTar = false := by
        by_contra ht
        have ht' : r.inTar = true := by simpa using ht
        obtain ⟨r0, q1, q2⟩ := (R.kept h).1 hk
        obtain ⟨-, r1, q3, q4⟩ := R.held h r hr
        rw [q1] at q3; cases q3
        have hc : r.container = absName w input := by
          rw [q4.2.1]; exact (q2.tar (q4.1 ▸ ht')).1
        unfold FRef.place at hpl
        rw [if_pos ht', hc, absName_idem P.cwd] at hpl
        exact harch h r hr ht' _ (Or.inr (Or.inr hk)) hpl
      refine { hH with cont := ?_ }
      rw [hH.place_disk ht] at hpl
      unfold FRef.content
      rw [if_neg (by simp [ht]), (hH.disk ht).1, hpl, c3 h hk]
    · rw [hw2]
      refine (hH1 h r hr).kept ?_
      intro c hc
      obtain ⟨m, hm1, hm2, -⟩ := c2 c hc
      rw [hm2, hpl1]
      by_cases hhm : h = m
      · rw [← hhm]; exact hpl
      · exact hplace h r hr m (hkeys m hm1).1 hhm (fun ht => harch h r hr ht _ (Or.inr (Or.inr hm1)))
  have hes : ∀ e ∈ fileElems v q.refs, ∃ h, e.get (fileHref v) = some h ∧ h ∈ dkeys q.files := by
    intro e he
    obtain ⟨h, h1, h2, -⟩ := R.entry e he
    exact ⟨h, h1, h2⟩
  obtain ⟨files2, g1, -, -⟩ := generateManifest_does (l := l) hd (w := w2) (ovf := output) (xml := xml) hes hH2 hx2 (by
      intro h r hr
      rw [← hmp, hpl2, hab2, hmfp]
      exact hplace h r hr _ hm (hkeys h (mem_dkeys_of_dget? hr)).2.2 (fun ht => harch h r hr ht _ (Or.inr (Or.inl rfl))))
  rw [← hmp] at g1
  obtain ⟨mtext, hmt⟩ : ∃ x, x = manifestOf l v sum cont (fileElems v q.refs) (pathBase output) xml := ⟨_, rfl⟩
  rw [← hmt] at g1 ⊢
  have hrun := Does.bindWrite (p := output) (c := xml) (w := w) (f := fun _ =>
    WM.read (fun w => .ok (pathDir (absName w output))) >>= fun dest => copyAll l dest q.files >>= fun _ =>
      generateManifest l digest v (fileElems v q.refs) q.files output >>= fun _ => (pure () : WM l Unit))
    (Does.bindRead (a := D) (by
      show Except.ok (pathDir (absName (w.put l output xml) output)) = _
      rw [hDD]; rfl) (Does.bind (by rw [← hw1]; exact c1) (by
        rw [← hw1, ← hw2]; exact Does.bindPure (f := fun _ => ()) g1)))
  have hend : applyAll l w ((output, xml) :: (cs ++ [(mp, []), (mp, mtext)])) = (w2.put l mp []).put l mp mtext := by
    rw [applyAll_cons, applyAll_append, ← hw1, ← hw2]; rfl
  obtain ⟨cs', hcs'⟩ : ∃ cs', cs' = (output, xml) :: (cs ++ [(mp, []), (mp, mtext)]) := ⟨_, rfl⟩
  rw [← hcs'] at hend hrun
  have hkeep : ∀ n, PlainName n → n ≠ mb → (applyAll l w cs').file (pathJoin D n) = w2.file (pathJoin D n) := by
    intro n hn hne
    have hx : absName w2 (pathJoin D n) ≠ absName w2 mp := by
      rw [hab2, hab2, hJ n hn, hmfp]
      exact fun h => hne (join_inj hn hm h)
    rw [hend, put_file_other _ (by exact hx), put_file_other _ hx]
  refine ⟨cs', ?_, ?_, ?_, ?_, ?_⟩
  · rw [writeOut_ovf rfl]
    exact hrun
  · rw [hkeep _ hb hbm, hx1]
  · rw [hend, put_file, if_pos]
    show absName w2 _ = absName w2 _
    rw [hab2, hab2, hJ _ hm, hmfp]
  · intro h hh
    rw [hkeep h (hkeys h hh).1 (hkeys h hh).2.2]
    exact c3 h hh

  · intro c hc
    rw [hcs'] at hc
    rcases List.mem_cons.1 hc with rfl | hc
    · exact Or.inl hout
    · rcases List.mem_append.1 hc with hc | hc
      · obtain ⟨n, n1, n2, n3⟩ := c2 c hc
        exact Or.inr (Or.inr ⟨n, n1, by rw [← hab1]; exact n2, n3⟩)
      · refine Or.inr (Or.inl ?_)
        have : c.1 = mp := by
          rcases List.mem_cons.1 hc with rfl | hc
          · rfl
          · rcases List.mem_singleton.1 hc with rfl; rfl
        rw [this]; exact hmfp

end Cot
