import Verif.Lemmas.WriteBase
/-
The loops of writing a package, when every file can be read.
-/
namespace Cot

variable {l : Lib}

/-- the name of a file in an entry -/
def hrefOf (v : Ver) (e : Elem) : Str := (e.get (fileHref v)).getD []

theorem Held.place_disk {v : Ver} {sum : List UInt8 → Str} {w : Fs} {h : Str} {r : FRef} {b : List UInt8}
    (H : Held v sum w h r b) (ht : r.inTar = false) : r.place w = pathJoin r.container h := by
  obtain ⟨h1, h2⟩ := H.disk ht
  unfold FRef.place
  rw [if_neg (by simp [ht]), h1, absName_abs (join_abs H.abs), h2]

theorem Held.copyTo {v : Ver} {sum : List UInt8 → Str} {w : Fs} {h : Str} {r : FRef} {b : List UInt8} {D : Str}
    (H : Held v sum w h r b) (hD : D.head? = some '/')
    (hn : r.inTar = false → absName w (pathJoin D h) = pathJoin D h) :
    ∃ cs, Does (r.copyTo l D) w () cs ∧ (cs = [] ∨ ∃ p, cs = [(p, b)] ∧ absName w p = absName w (pathJoin D h)) ∧
      (applyAll l w cs).file (pathJoin D h) = some b := by
  unfold FRef.copyTo
  by_cases ht : r.inTar = true
  · rw [if_pos ht]
    refine ⟨[(pathJoin D r.filename, b)], Does.bindRead H.cont (Does.write _ _ _), Or.inr ⟨_, rfl, ?_⟩, ?_⟩
    · exact absName_join_norm hD H.name H.norm
    · rw [applyAll_cons, applyAll_nil, put_file, if_pos (absName_join_norm hD H.name H.norm).symm]
  · rw [if_neg ht]
    have ht' : r.inTar = false := by simpa using ht
    obtain ⟨h1, h2⟩ := H.disk ht'
    have hc := H.cont
    unfold FRef.content at hc
    rw [if_neg ht, h1] at hc
    have hbase : pathBase (pathJoin r.container h) = h := pathBase_join H.name.2.2.2
    have habs : absName w (pathJoin r.container h) = pathJoin r.container h := by
      rw [absName_abs (join_abs H.abs), h2]
    simp only [h1]
    by_cases he : pathJoin r.container h = pathJoin D h
    · rw [if_pos he]
      refine ⟨[], Does.pure _ _, Or.inl rfl, ?_⟩
      rw [applyAll_nil, ← he]
      cases hf : w.file (pathJoin r.container h) with
      | none => rw [hf] at hc; cases hc
      | some b' => rw [hf] at hc; cases hc; rfl
    · rw [if_neg he, hbase]
      refine ⟨[(pathJoin D h, b)], Does.bindRead ?_ (Does.write _ _ _), Or.inr ⟨_, rfl, rfl⟩, ?_⟩
      · rw [if_neg (by rw [habs, hn ht']; exact he)]
        unfold Fs.content
        exact hc
      · rw [applyAll_cons, applyAll_nil, put_file, if_pos rfl]

/-- all the files are copied to a directory -/
theorem copyAll_does {v : Ver} {sum : List UInt8 → Str} {D : Str} {cont : Str → List UInt8} (hD : D.head? = some '/') :
    ∀ (files : List (Str × FRef)) (w : Fs), (dkeys files).Nodup →
      (∀ x ∈ files, Held v sum w x.1 x.2 (cont x.1)) →
      (∀ n, PlainName n → absName w (pathJoin D n) = pathJoin D n) →
      (∀ x ∈ files, x.2.inTar = true → ∀ n ∈ dkeys files, x.2.place w ≠ pathJoin D n) →
      ∃ cs, Does (copyAll l D files) w () cs ∧ (∀ c ∈ cs, ∃ n ∈ dkeys files, absName w c.1 = pathJoin D n ∧ c.2 = cont n) ∧
        ∀ n ∈ dkeys files, (applyAll l w cs).file (pathJoin D n) = some (cont n)
  | [], w, _, _, _, _ => ⟨[], Does.pure _ _, by simp, by simp [dkeys]⟩
  | (h, r) :: t, w, hnd, hH, hn, ht => by
    obtain ⟨hnd1, hnd2⟩ : h ∉ dkeys t ∧ (dkeys t).Nodup := List.nodup_cons.1 hnd
    have H := hH (h, r) (by simp)
    simp only at H
    obtain ⟨cs, c1, c2, c3⟩ := H.copyTo (l := l) hD (fun _ => hn h H.name)
    have hcs' : ∀ c ∈ cs, absName w c.1 = pathJoin D h ∧ c.2 = cont h := by
      intro c hc
      rcases c2 with rfl | ⟨p, rfl, hp⟩
      · cases hc
      · rcases List.mem_singleton.1 hc with rfl
        rw [hp, hn h H.name]
        exact ⟨rfl, rfl⟩
    have hcs : ∀ c ∈ cs, absName w c.1 = pathJoin D h := fun c hc => (hcs' c hc).1
    have hne : ∀ x ∈ t, x.1 ≠ h := by
      rintro x hx rfl
      exact hnd1 (List.mem_map.2 ⟨x, hx, rfl⟩)
    have hpl : ∀ x ∈ t, ∀ c ∈ cs, x.2.place w ≠ absName w c.1 := by
      intro x hx c hc
      rw [hcs c hc]
      have Hx := hH x (by simp [hx])
      by_cases hxt : x.2.inTar = true
      · exact ht x (by simp [hx]) hxt h (by simp [dkeys])
      · rw [Hx.place_disk (by simpa using hxt)]
        intro he
        have e1 := pathBase_join (dir := x.2.container) Hx.name.2.2.2
        have e2 := pathBase_join (dir := D) H.name.2.2.2
        rw [he, e2] at e1
        exact hne x hx e1.symm
    have hab : ∀ p, absName (applyAll l w cs) p = absName w p := absName_applyAll w cs
    obtain ⟨ds, d1, d2, d3⟩ := copyAll_does (v := v) (sum := sum) (cont := cont) hD t (applyAll l w cs) hnd2
      (fun x hx => (hH x (by simp [hx])).kept (hpl x hx))
      (fun n hp => by rw [hab]; exact hn n hp)
      (fun x hx hxt n hnm => by
        rw [place_cwd (applyAll_cwd cs w)]
        exact ht x (by simp [hx]) hxt n (List.mem_cons_of_mem _ hnm))
    refine ⟨cs ++ ds, c1.bind (f := fun _ => copyAll l D t) d1, ?_, ?_⟩
    · intro c hc
      rcases List.mem_append.1 hc with hc | hc
      · exact ⟨h, by simp [dkeys], hcs' c hc⟩
      · obtain ⟨n, hnm, he⟩ := d2 c hc
        exact ⟨n, List.mem_cons_of_mem _ hnm, by rw [hab] at he; exact he⟩
    · intro n hnm
      rw [applyAll_append]
      by_cases hnt : n ∈ dkeys t
      · exact d3 n hnt
      · have hnh : n = h := by
          rcases List.mem_cons.1 hnm with e | e
          · exact e
          · exact absurd e hnt
        subst hnh
        rw [(applyAll_other (q := pathJoin D n) ?_).1]
        · exact c3
        · intro c hc
          obtain ⟨m, hm, he, -⟩ := d2 c hc
          rw [he, hab, hn n H.name]
          intro hj
          obtain ⟨x, hx, rfl⟩ := List.mem_map.1 hm
          have := join_inj (hH x (by simp [hx])).name H.name hj
          exact hnt (this ▸ hm)

/-! ### The manifest -/

theorem refOf_eq {v : Ver} {files : List (Str × FRef)} {e : Elem} {h : Str} {r : FRef}
    (h1 : e.get (fileHref v) = some h) (h2 : dget? files h = some r) : refOf v files e = .ok (h, r) := by
  unfold refOf; rw [h1]; simp only [h2]

theorem manifestLoop_does {v : Ver} {digest : Str → List UInt8 → Except Err Str} {sum : List UInt8 → Str}
    (hd : ∀ b, digest (checksumAlgo v) b = .ok (sum b)) {w : Fs} {cont : Str → List UInt8} :
    ∀ (es : List Elem) (files : List (Str × FRef)),
      (∀ e ∈ es, ∃ h, e.get (fileHref v) = some h ∧ h ∈ dkeys files) →
      (∀ h r, dget? files h = some r → Held v sum w h r (cont h)) →
      ∃ files', manifestLoop digest v w es files =
          .ok (es.map (fun e => (hrefOf v e, sum (cont (hrefOf v e)))), files') ∧
        dkeys files' = dkeys files ∧
        ∀ h r', dget? files' h = some r' → Held v sum w h r' (cont h) ∧ ∃ r, dget? files h = some r ∧ SameRef r r'
  | [], files, _, hH => ⟨files, rfl, rfl, fun h r hr => ⟨hH h r hr, r, hr, SameRef.refl r⟩⟩
  | e :: t, files, hes, hH => by
    obtain ⟨h, he, hm⟩ := hes e (by simp)
    obtain ⟨r, hr⟩ := dget?_of_mem_dkeys hm
    obtain ⟨r1, g1, g2, g3⟩ := (hH h r hr).readSum hd
    have hk : dkeys (dset files h r1) = dkeys files := by rw [dkeys_dset, if_pos hm]
    obtain ⟨files', f1, f2, f3⟩ := manifestLoop_does hd (cont := cont) t (dset files h r1)
      (fun x hx => by rw [hk]; exact hes x (by simp [hx]))
      (fun x y hy => by
        rw [dget?_dset] at hy
        split at hy
        · rename_i hh; subst hh; cases hy; exact g2
        · exact hH x y hy)
    refine ⟨files', ?_, f2.trans hk, ?_⟩
    · unfold manifestLoop
      rw [refOf_eq he hr]
      simp only [g1, f1, Option.getD_some, List.map_cons]
      rw [show hrefOf v e = h by unfold hrefOf; rw [he]; rfl]
    · intro x y hy
      obtain ⟨q1, r0, q2, q3⟩ := f3 x y hy
      refine ⟨q1, ?_⟩
      rw [dget?_dset] at q2
      split at q2
      · rename_i hh; subst hh; cases q2
        exact ⟨r, hr, g3.trans q3⟩
      · exact ⟨r0, q2, q3⟩

/-- the content of a manifest -/
def manifestOf (l : Lib) (v : Ver) (sum : List UInt8 → Str) (cont : Str → List UInt8) (es : List Elem) (base : Str)
    (xml : List UInt8) : List UInt8 :=
  l.enc (manifestText (checksumAlgo v)
    ((base, sum xml) :: es.map (fun e => (hrefOf v e, sum (cont (hrefOf v e))))))

theorem generateManifest_does {v : Ver} {digest : Str → List UInt8 → Except Err Str} {sum : List UInt8 → Str}
    (hd : ∀ b, digest (checksumAlgo v) b = .ok (sum b)) {w : Fs} {cont : Str → List UInt8} {es : List Elem}
    {files : List (Str × FRef)} {ovf : Str} {xml : List UInt8}
    (hes : ∀ e ∈ es, ∃ h, e.get (fileHref v) = some h ∧ h ∈ dkeys files)
    (hH : ∀ h r, dget? files h = some r → Held v sum w h r (cont h)) (hx : w.file ovf = some xml)
    (hp : ∀ h r, dget? files h = some r → r.place w ≠ absName w (pathRoot ovf ++ ".mf".toList)) :
    ∃ files', Does (generateManifest l digest v es files ovf) w files'
        [(pathRoot ovf ++ ".mf".toList, []),
         (pathRoot ovf ++ ".mf".toList, manifestOf l v sum cont es (pathBase ovf) xml)] ∧
      dkeys files' = dkeys files ∧
      ∀ h r', dget? files' h = some r' → Held v sum w h r' (cont h) ∧ ∃ r, dget? files h = some r ∧ SameRef r r' := by
  obtain ⟨files', f1, f2, f3⟩ := manifestLoop_does hd (w := w.put l (pathRoot ovf ++ ".mf".toList) []) (cont := cont) es files
    hes (fun h r hr => (hH h r hr).put (hp h r hr))
  refine ⟨files', ?_, f2, ?_⟩
  · unfold generateManifest
    refine Does.bindRead (a := xml) ?_ (Does.bindRead (a := sum xml) (hd xml) (Does.bindWrite (Does.bindRead f1
      (Does.bindWrite (Does.pure _ _)))))
    unfold Fs.content; rw [hx]
  · intro h r' hr'
    obtain ⟨q1, r, q2, q3⟩ := f3 h r' hr'
    refine ⟨{ q1 with cont := ?_ }, r, q2, q3⟩
    rw [q3.content]
    exact (hH h r q2).cont

/-! ### The archive -/

theorem create_disk {v : Ver} {digest : Str → List UInt8 → Except Err Str} {sum : List UInt8 → Str}
    (hd : ∀ b, digest (checksumAlgo v) b = .ok (sum b)) {w : Fs} {D h : Str} {b : List UInt8} {c : Option Str}
    {sz : Option Str} (hD : D.head? = some '/') (hdir : w.isDir D = true) (hn : PlainName h)
    (hf : w.file (pathJoin D h) = some b) (hc : c = none ∨ c = some (sum b))
    (hs : sz = none ∨ sz = some (natStr b.length)) :
    ∃ r, FRef.create digest w D h (some (checksumAlgo v)) c sz = .ok (r, []) ∧ r.inTar = false ∧ r.container = D ∧
      r.filename = h ∧ r.content w = .ok b ∧ r.algo = some (checksumAlgo v) ∧
      (∀ x, r.sum = some x → x = sum b) ∧ (∀ x, r.size = some x → x = b.length) ∧ r.force = false := by
  unfold FRef.create
  have hm : makeAbs w D = D := by unfold makeAbs; rw [if_pos hD]
  simp only [hm, hdir, if_true]
  unfold FRef.init
  simp only [hm, plain_norm hn]
  unfold FRef.exists_
  simp only [Bool.false_eq_true, if_false, hf, Option.isSome_some]
  unfold FRef.compare
  rcases hc with rfl | rfl
  · rcases hs with rfl | rfl
    · simp only
      refine ⟨_, rfl, rfl, rfl, rfl, ?_, rfl, ?_, ?_, rfl⟩
      · simp [FRef.content, hf]
      · simp
      · simp
    · simp only [FRef.readSize, FRef.content, Bool.false_eq_true, if_false, hf, pyInt_natStr, List.nil_append, if_true]
      refine ⟨_, rfl, rfl, rfl, rfl, ?_, rfl, ?_, ?_, rfl⟩
      · simp [hf]
      · simp
      · intro x hx; cases hx; rfl
  · rcases hs with rfl | rfl
    · simp only [FRef.readSum, FRef.content, Bool.false_eq_true, if_false, hf, hd, if_true]
      refine ⟨_, rfl, rfl, rfl, rfl, ?_, rfl, ?_, ?_, rfl⟩
      · simp [hf]
      · intro x hx; cases hx; rfl
      · simp
    · simp only [FRef.readSum, FRef.readSize, FRef.content, Bool.false_eq_true, if_false, hf, hd, pyInt_natStr, List.nil_append, if_true]
      refine ⟨_, rfl, rfl, rfl, rfl, ?_, rfl, ?_, ?_, rfl⟩
      · simp [hf]
      · intro x hx; cases hx; rfl
      · intro x hx; cases hx; rfl

end Cot
