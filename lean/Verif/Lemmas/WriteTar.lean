import Verif.Lemmas.WriteRun
/-
Writing an archive, when every file can be read.
-/
namespace Cot

variable {l : Lib}

/-- in a directory given by a normal absolute path, names give normal paths -/
theorem normal_join {D : Str} (hD : D.head? = some '/') (hn : normpath D = D) {w : Fs} {n : Str} (h : PlainName n) :
    absName w (pathJoin D n) = pathJoin D n := by
  rw [absName_join hD h (plain_norm h)]
  have e := normpath_abs hD
  rw [hn] at e
  have := (absForm_snoc_shape (initialSlashes_abs hD) (clean_abs D) h).2.2
  rw [← e] at this
  exact this.symm

theorem dget?_same_keys {files files' : List (Str × FRef)} (h : dkeys files' = dkeys files) (n : Str) :
    (∃ r, dget? files n = some r) ↔ ∃ r, dget? files' n = some r := by
  constructor
  · rintro ⟨r, hr⟩; exact dget?_of_mem_dkeys (h ▸ mem_dkeys_of_dget? hr)
  · rintro ⟨r, hr⟩; exact dget?_of_mem_dkeys (h ▸ mem_dkeys_of_dget? hr)

theorem extractAll_does {v : Ver} {digest : Str → List UInt8 → Except Err Str} {sum : List UInt8 → Str}
    (hd : ∀ b, digest (checksumAlgo v) b = .ok (sum b)) {W : Str} {cont : Str → List UInt8}
    (hW : W.head? = some '/') (hWn : normpath W = W) :
    ∀ (files : List (Str × FRef)) (w : Fs), w.isDir W = true → (dkeys files).Nodup →
      (∀ x ∈ files, Held v sum w x.1 x.2 (cont x.1)) →
      (∀ x ∈ files, x.2.inTar = true → ∀ n, PlainName n → x.2.place w ≠ pathJoin W n) →
      ∃ files' cs, Does (extractAll l digest v W files) w files' cs ∧ dkeys files' = dkeys files ∧
        (∀ c ∈ cs, ∃ n ∈ dkeys files, absName w c.1 = pathJoin W n) ∧
        ∀ x ∈ files', Held v sum (applyAll l w cs) x.1 x.2 (cont x.1) ∧ x.2.inTar = false ∧
          (x.2.place w = pathJoin W x.1 ∨ x ∈ files)
  | [], w, _, _, _, _ => ⟨[], [], Does.pure _ _, rfl, by simp, by simp⟩
  | (h, r) :: t, w, hdir, hnd, hH, ht => by
    obtain ⟨hnd1, hnd2⟩ : h ∉ dkeys t ∧ (dkeys t).Nodup := List.nodup_cons.1 hnd
    have H := hH (h, r) (by simp)
    simp only at H
    have hne : ∀ x ∈ t, x.1 ≠ h := by
      rintro x hx rfl
      exact hnd1 (List.mem_map.2 ⟨x, hx, rfl⟩)
    have hJ : ∀ n, PlainName n → absName w (pathJoin W n) = pathJoin W n := fun n hn => normal_join hW hWn hn
    unfold extractAll
    by_cases hin : r.inTar = true
    · rw [if_pos hin]
      obtain ⟨cs, c1, c2, c3⟩ := H.copyTo (l := l) hW (fun _ => hJ h H.name)
      have hcs : ∀ c ∈ cs, absName w c.1 = pathJoin W h := by
        intro c hc
        rcases c2 with rfl | ⟨p, rfl, hp⟩
        · cases hc
        · rcases List.mem_singleton.1 hc with rfl
          rw [hp, hJ h H.name]
      have hab : ∀ p, absName (applyAll l w cs) p = absName w p := absName_applyAll w cs
      have H1 : Held v sum (applyAll l w cs) h r (cont h) := H.kept (fun c hc => by
        rw [hcs c hc]; exact ht (h, r) (by simp) hin h H.name)
      obtain ⟨r1, s1, s2, -⟩ := H1.readSum hd
      obtain ⟨r2, s3⟩ := s2.readSize
      obtain ⟨r', k1, k2, k3, k4, k5, k6, k7, k8, k9⟩ := create_disk hd (c := some (sum (cont h)))
        (sz := some (natStr (cont h).length)) hW (by rw [applyAll_isDir]; exact hdir) H.name c3 (Or.inr rfl) (Or.inr rfl)
      have hpl : ∀ x ∈ t, ∀ c ∈ cs, x.2.place w ≠ absName w c.1 := by
        intro x hx c hc
        rw [hcs c hc]
        have Hx := hH x (by simp [hx])
        by_cases hxt : x.2.inTar = true
        · exact ht x (by simp [hx]) hxt h H.name
        · rw [Hx.place_disk (by simpa using hxt)]
          intro he
          have e1 := pathBase_join (dir := x.2.container) Hx.name.2.2.2
          have e2 := pathBase_join (dir := W) H.name.2.2.2
          rw [he, e2] at e1
          exact hne x hx e1.symm
      obtain ⟨files', ds, d1, d2, d3, d4⟩ := extractAll_does hd (cont := cont) hW hWn t (applyAll l w cs)
        (by rw [applyAll_isDir]; exact hdir) hnd2 (fun x hx => (hH x (by simp [hx])).kept (hpl x hx))
        (fun x hx hxt n hn => by
          rw [place_cwd (applyAll_cwd cs w)]
          exact ht x (by simp [hx]) hxt n hn)
      have hr' : Held v sum (applyAll l w cs) h r' (cont h) :=
        { name := H.name
          algo := k6
          abs := by rw [k3]; exact hW
          norm := by rw [k4]; exact plain_norm H.name
          disk := fun _ => ⟨k4, by
            rw [k3, ← absName_abs (w := w) (join_abs hW)]; exact hJ h H.name⟩
          last := by rw [k4]; exact plain_last H.name
          cont := k5
          fresh := fun _ => k7
          freshSize := fun _ => k8 }
      have hpr : r'.place w = pathJoin W h := by
        unfold FRef.place
        rw [if_neg (by simp [k2]), k3, k4, hJ h H.name]
      refine ⟨(h, r') :: files', cs ++ ds, ?_, ?_, ?_, ?_⟩
      · refine Does.bind c1 (Does.bindRead (a := (r', [])) ?_ (Does.bindPure d1))
        rw [s1]
        simp only [s3]
        exact k1
      · show h :: dkeys files' = h :: dkeys t
        rw [d2]
      · intro c hc
        rcases List.mem_append.1 hc with hc | hc
        · exact ⟨h, by simp [dkeys], hcs c hc⟩
        · obtain ⟨n, hn1, hn2⟩ := d3 c hc
          exact ⟨n, List.mem_cons_of_mem _ hn1, by rw [hab] at hn2; exact hn2⟩
      · intro x hx
        rw [applyAll_append]
        rcases List.mem_cons.1 hx with rfl | hx
        · refine ⟨hr'.kept ?_, k2, Or.inl hpr⟩
          intro c hc
          obtain ⟨n, hn1, hn2⟩ := d3 c hc
          rw [hn2, place_cwd (applyAll_cwd cs w), hpr]
          intro hj
          obtain ⟨y, hy, rfl⟩ := List.mem_map.1 hn1
          have := join_inj H.name (hH y (by simp [hy])).name hj
          exact hne y hy this.symm
        · obtain ⟨q1, q2, q3⟩ := d4 x hx
          refine ⟨q1, q2, ?_⟩
          rw [place_cwd (applyAll_cwd cs w)] at q3
          exact q3.imp id (fun hm => by simp [hm])
    · rw [if_neg hin]
      have hin' : r.inTar = false := by simpa using hin
      obtain ⟨files', ds, d1, d2, d3, d4⟩ := extractAll_does hd (cont := cont) hW hWn t w hdir hnd2
        (fun x hx => hH x (by simp [hx])) (fun x hx => ht x (by simp [hx]))
      refine ⟨(h, r) :: files', ds, Does.bindPure d1, ?_, ?_, ?_⟩
      · show h :: dkeys files' = h :: dkeys t
        rw [d2]
      · intro c hc
        obtain ⟨n, hn1, hn2⟩ := d3 c hc
        exact ⟨n, List.mem_cons_of_mem _ hn1, hn2⟩
      · intro x hx
        rcases List.mem_cons.1 hx with rfl | hx
        · refine ⟨H.kept ?_, hin', Or.inr (by simp)⟩
          intro c hc
          obtain ⟨n, hn1, hn2⟩ := d3 c hc
          rw [hn2, H.place_disk hin']
          intro he
          obtain ⟨y, hy, rfl⟩ := List.mem_map.1 hn1
          have e1 := pathBase_join (dir := r.container) H.name.2.2.2
          have e2 := pathBase_join (dir := W) (hH y (by simp [hy])).name.2.2.2
          rw [he, e2] at e1
          exact hne y hy e1
        · obtain ⟨q1, q2, q3⟩ := d4 x hx
          exact ⟨q1, q2, q3.imp id (fun hm => by simp [hm])⟩

/-- a member of the written archive is for this entry -/
structure MemberFor (v : Ver) (files : List (Str × FRef)) (cont : Str → List UInt8) (e : Elem) (m : Str × List UInt8) :
    Prop where
  norm : normpath m.1 = hrefOf v e
  plain : PlainName (hrefOf v e)
  last : m.1.getLast? ≠ some '/'
  content : m.2 = cont (hrefOf v e)
  name : ∃ r, dget? files (hrefOf v e) = some r ∧ m.1 = r.filename ∧ (r.inTar = false → m.1 = hrefOf v e)

theorem memberLoop_does {v : Ver} {sum : List UInt8 → Str} {w : Fs} {cont : Str → List UInt8} {files : List (Str × FRef)}
    (hH : ∀ h r, dget? files h = some r → Held v sum w h r (cont h)) :
    ∀ (es : List Elem), (∀ e ∈ es, ∃ h, e.get (fileHref v) = some h ∧ h ∈ dkeys files) →
      ∃ ms, memberLoop v files w es = .ok ms ∧ List.Forall₂ (MemberFor v files cont) es ms
  | [], _ => ⟨[], rfl, .nil⟩
  | e :: t, hes => by
    obtain ⟨h, he, hm⟩ := hes e (by simp)
    obtain ⟨r, hr⟩ := dget?_of_mem_dkeys hm
    have H := hH h r hr
    obtain ⟨ms, m1, m2⟩ := memberLoop_does hH t (fun x hx => hes x (by simp [hx]))
    have hh : hrefOf v e = h := by unfold hrefOf; rw [he]; rfl
    refine ⟨(r.filename, cont h) :: ms, ?_, .cons ⟨?_, ?_, H.last, by rw [hh], r, by rw [hh]; exact hr, rfl, ?_⟩ m2⟩
    · unfold memberLoop
      rw [refOf_eq he hr]
      simp only [H.cont, m1]
    · rw [hh]; exact H.norm
    · rw [hh]; exact H.name
    · intro ht; rw [hh]; exact (H.disk ht).1

/-- the archive is written -/
theorem tarPackage_does {v : Ver} {digest : Str → List UInt8 → Except Err Str} {sum : List UInt8 → Str}
    (hd : ∀ b, digest (checksumAlgo v) b = .ok (sum b)) {W : Str} {cont : Str → List UInt8}
    (hW : W.head? = some '/') (hWn : normpath W = W) {w : Fs} (hdir : w.isDir W = true) {es : List Elem}
    {files : List (Str × FRef)} (hnd : (dkeys files).Nodup)
    (hes : ∀ e ∈ es, ∃ h, e.get (fileHref v) = some h ∧ h ∈ dkeys files)
    (hH : ∀ x ∈ files, Held v sum w x.1 x.2 (cont x.1)) {input out base mbase : Str} {xml mf : List UInt8}
    (hb : PlainName base) (hm : PlainName mbase)
    (hroot : pathRoot (pathJoin W base) ++ ".mf".toList = pathJoin W mbase)
    (hx : w.file (pathJoin W base) = some xml) (hmf : w.file (pathJoin W mbase) = some mf)
    (hbn : base ∉ dkeys files) (hmn : mbase ∉ dkeys files)
    (hin : ∀ n, PlainName n → absName w input ≠ pathJoin W n)
    (hout : ∀ n, PlainName n → absName w out ≠ pathJoin W n)
    (htar : ∀ x ∈ files, x.2.inTar = true → x.2.container = absName w input)
    (hcwd : w.cwd.head? = some '/')
    (hdisk : ∀ x ∈ files, x.2.inTar = false → x.2.place w ≠ absName w out) :
    ∃ files' cs ms, Does (tarPackage l digest v es files input W (pathJoin W base) out) w files'
        (cs ++ [(out, []), (out, l.pack ((base, xml) :: (mbase, mf) :: ms))]) ∧
      (∀ c ∈ cs, ∃ n ∈ dkeys files, absName w c.1 = pathJoin W n) ∧
      List.Forall₂ (MemberFor v files' cont) es ms ∧
      (if absName w input = absName w out then ∀ x ∈ files', x.2.inTar = false else files' = files ∧ cs = []) := by
  have hJ : ∀ n, PlainName n → absName w (pathJoin W n) = pathJoin W n := fun n hn => normal_join hW hWn hn
  have hplace : ∀ x ∈ files, x.2.inTar = true → x.2.place w = absName w input := by
    intro x hx ht
    unfold FRef.place
    rw [if_pos ht, htar x hx ht, absName_idem hcwd]
  -- the first step
  obtain ⟨files', cs, x1, x2, x3, x4, x5⟩ : ∃ files' cs,
      Does (if decide (absName w input = absName w out) = true then extractAll l digest v W files else Pure.pure files : WM l _)
        w files' cs ∧ dkeys files' = dkeys files ∧ (∀ c ∈ cs, ∃ n ∈ dkeys files, absName w c.1 = pathJoin W n) ∧
      (∀ x ∈ files', Held v sum (applyAll l w cs) x.1 x.2 (cont x.1) ∧ x.2.place w ≠ absName w out) ∧
      (if absName w input = absName w out then ∀ x ∈ files', x.2.inTar = false else files' = files ∧ cs = []) := by
    by_cases hs : absName w input = absName w out
    · rw [if_pos (by simpa using hs)]
      obtain ⟨files', cs, e1, e2, e3, e4⟩ := extractAll_does (l := l) hd (cont := cont) hW hWn files w hdir hnd hH
        (fun x hx ht n hn => by rw [hplace x hx ht]; exact hin n hn)
      refine ⟨files', cs, e1, e2, e3, ?_, by rw [if_pos hs]; exact fun x hx => (e4 x hx).2.1⟩
      intro x hx
      obtain ⟨q1, q2, q3⟩ := e4 x hx
      refine ⟨q1, ?_⟩
      rcases q3 with q3 | q3
      · rw [q3]; exact (hout x.1 q1.name).symm
      · exact hdisk x q3 q2
    · rw [if_neg (by simpa using hs)]
      refine ⟨files, [], Does.pure _ _, rfl, by simp, ?_, by rw [if_neg hs]; exact ⟨rfl, rfl⟩⟩
      intro x hx
      refine ⟨hH x hx, ?_⟩
      by_cases ht : x.2.inTar = true
      · rw [hplace x hx ht]; exact hs
      · exact hdisk x hx (by simpa using ht)
  have hab : ∀ p, absName (applyAll l w cs) p = absName w p := absName_applyAll w cs
  -- the descriptor and the manifest are still there
  have hkeep : ∀ n, PlainName n → n ∉ dkeys files →
      ((applyAll l w cs).put l out []).file (pathJoin W n) = w.file (pathJoin W n) := by
    intro n hn hk
    rw [put_file, if_neg]
    · refine (applyAll_other ?_).1
      intro c hc
      obtain ⟨m, hm1, hm2⟩ := x3 c hc
      rw [hm2, hJ n hn]
      intro hj
      obtain ⟨y, hy, rfl⟩ := List.mem_map.1 hm1
      exact hk (join_inj (hH y hy).name hn hj ▸ hm1)
    · rw [hab, hab, hJ n hn]
      exact (hout n hn).symm
  have hnd' : (dkeys files').Nodup := by rw [x2]; exact hnd
  have hH2 : ∀ h r, dget? files' h = some r → Held v sum ((applyAll l w cs).put l out []) h r (cont h) := by
    intro h r hr
    obtain ⟨q1, q2⟩ := x4 (h, r) (dget?_mem hr)
    refine q1.put ?_
    rw [place_cwd (applyAll_cwd cs w), hab]
    exact q2
  obtain ⟨ms, m1, m2⟩ := memberLoop_does (cont := cont) hH2 es (fun e he => by rw [x2]; exact hes e he)
  refine ⟨files', cs, ms, ?_, x3, m2, x5⟩
  unfold tarPackage
  refine Does.bindRead (a := decide (absName w input = absName w out)) rfl (Does.bind x1 (Does.bindWrite
    (Does.bindRead (a := (base, xml) :: (mbase, mf) :: ms) ?_ (Does.bindWrite (Does.pure _ _)))))
  unfold tarMembers Fs.content
  rw [hroot, hkeep base hb hbn, hx, hkeep mbase hm hmn, hmf]
  simp only [m1]
  rw [pathBase_join hb.2.2.2, pathBase_join hm.2.2.2]
  rfl

end Cot
