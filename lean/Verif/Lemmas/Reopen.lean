import Verif.Lemmas.WriteTar
import Verif.Props.Utilities
/-
Opening a package whose files are all as described.
-/
namespace Cot

variable {l : Lib}

/-- looking for this name in this place finds this content, and no difference from what is expected if that is right -/
structure Gives (digest : Str → List UInt8 → Except Err Str) (v : Ver) (sum : List UInt8 → Str) (w : Fs) (path n : Str)
    (b : List UInt8) : Prop where
  plain : ∃ r, FRef.create digest w path n none none none = .ok (r, []) ∧ r.content w = .ok b
  checked : ∀ c sz, (c = none ∨ c = some (sum b)) → (sz = none ∨ sz = some (natStr b.length)) →
    ∃ r, FRef.create digest w path n (some (checksumAlgo v)) c sz = .ok (r, []) ∧ r.content w = .ok b

theorem compare_right {v : Ver} {digest : Str → List UInt8 → Except Err Str} {sum : List UInt8 → Str}
    (hd : ∀ b, digest (checksumAlgo v) b = .ok (sum b)) {w : Fs} {r : FRef} {b : List UInt8} {c sz : Option Str}
    (hr : r.content w = .ok b) (h1 : r.sum = none) (h2 : r.size = none) (ha : r.algo = some (checksumAlgo v))
    (hc : c = none ∨ c = some (sum b)) (hs : sz = none ∨ sz = some (natStr b.length)) :
    ∃ r', r.compare digest w c sz = .ok (r', []) ∧ SameRef r r' := by
  have hsz : ∀ r' : FRef, SameRef r r' → r'.size = none → ∃ r2, r'.readSize w = (.ok b.length, r2) ∧ SameRef r r2 := by
    intro r' hsr hn
    unfold FRef.readSize
    rw [hn, hsr.content, hr]
    exact ⟨_, rfl, hsr⟩
  have hsm : ∃ r', r.readSum digest w = (.ok (some (sum b)), r') ∧ SameRef r r' ∧ r'.size = none := by
    unfold FRef.readSum
    rw [ha, h1, hr]
    simp only [hd]
    exact ⟨_, rfl, ⟨rfl, rfl, rfl⟩, h2⟩
  unfold FRef.compare
  rcases hc with rfl | rfl
  · rcases hs with rfl | rfl
    · exact ⟨r, rfl, SameRef.refl r⟩
    · obtain ⟨r2, e1, e2⟩ := hsz r (SameRef.refl r) h2
      simp only [e1, pyInt_natStr, if_true, List.append_nil]
      exact ⟨r2, rfl, e2⟩
  · obtain ⟨r1, e1, e2, e3⟩ := hsm
    simp only [e1, if_true]
    rcases hs with rfl | rfl
    · exact ⟨r1, rfl, e2⟩
    · obtain ⟨r2, e4, e5⟩ := hsz r1 e2 e3
      simp only [e4, pyInt_natStr, if_true, List.append_nil]
      exact ⟨r2, rfl, e5⟩

theorem gives_of_init {v : Ver} {digest : Str → List UInt8 → Except Err Str} {sum : List UInt8 → Str}
    (hd : ∀ b, digest (checksumAlgo v) b = .ok (sum b)) {w : Fs} {path n : Str} {b : List UInt8}
    (h : ∀ algo c sz, ∃ r : FRef, FRef.create digest w path n algo c sz = r.compare digest w c sz ∧ r.content w = .ok b ∧
      r.sum = none ∧ r.size = none ∧ r.algo = algo) : Gives digest v sum w path n b := by
  constructor
  · obtain ⟨r, h1, h2, -⟩ := h none none none
    exact ⟨r, h1, h2⟩
  · intro c sz hc hs
    obtain ⟨r, h1, h2, h3, h4, h5⟩ := h (some (checksumAlgo v)) c sz
    obtain ⟨r', g1, g2⟩ := compare_right hd h2 h3 h4 h5 hc hs
    exact ⟨r', h1.trans g1, by rw [g2.content]; exact h2⟩

theorem gives_disk {v : Ver} {digest : Str → List UInt8 → Except Err Str} {sum : List UInt8 → Str}
    (hd : ∀ b, digest (checksumAlgo v) b = .ok (sum b)) {w : Fs} {D n : Str} {b : List UInt8}
    (hD : D.head? = some '/') (hdir : w.isDir D = true) (hn : PlainName n) (hf : w.file (pathJoin D n) = some b) :
    Gives digest v sum w D n b := by
  refine gives_of_init hd (fun algo c sz => ?_)
  have hm : makeAbs w D = D := by unfold makeAbs; rw [if_pos hD]
  unfold FRef.create
  simp only [hm, hdir, if_true]
  unfold FRef.init
  simp only [hm, plain_norm hn]
  unfold FRef.exists_
  simp only [Bool.false_eq_true, if_false, hf, Option.isSome_some]
  refine ⟨_, rfl, ?_, rfl, rfl, rfl⟩
  simp [FRef.content, hf]

theorem getMember_some {ms : List (Str × List UInt8)} {n : Str} {b : List UInt8} (h : getMember ms n = some b) :
    (n, b) ∈ ms := by
  unfold getMember at h
  cases hf : ms.reverse.find? (fun m => decide (m.1 = n)) with
  | none => rw [hf] at h; cases h
  | some m =>
    rw [hf] at h
    cases h
    have h1 := List.mem_of_find?_eq_some hf
    have h2 := List.find?_some hf
    simp at h1 h2
    subst h2
    exact h1

theorem getMember_of_mem {ms : List (Str × List UInt8)} {m : Str × List UInt8} (h : m ∈ ms) :
    ∃ b, getMember ms m.1 = some b := by
  unfold getMember
  cases hf : ms.reverse.find? (fun x => decide (x.1 = m.1)) with
  | none =>
    rw [List.find?_eq_none] at hf
    have := hf m (by simpa using h)
    simp at this
  | some x => exact ⟨x.2, rfl⟩

theorem gives_tar {v : Ver} {digest : Str → List UInt8 → Except Err Str} {sum : List UInt8 → Str}
    (hd : ∀ b, digest (checksumAlgo v) b = .ok (sum b)) {w : Fs} {P n : Str} {ms : List (Str × List UInt8)}
    {m : Str × List UInt8} (hP : P.head? = some '/') (hdir : w.isDir P = false) (hf : (w.file P).isSome = true)
    (ht : w.tar P = some ms) (hm : m ∈ ms) (hn : PlainName n) (hmn : normpath m.1 = n)
    (huq : ∀ m' ∈ ms, normpath m'.1 = n → m' = m) : Gives digest v sum w P n m.2 := by
  refine gives_of_init hd (fun algo c sz => ?_)
  have hmk : makeAbs w P = P := by unfold makeAbs; rw [if_pos hP]
  unfold FRef.create
  simp only [hmk, hdir, Bool.false_eq_true, if_false, hf, if_true, ht, Option.isSome_some]
  unfold FRef.init
  simp only [hmk, plain_norm hn]
  unfold FRef.exists_
  simp only [if_true, ht]
  cases hg : getMember ms n with
  | some b =>
    have := huq _ (getMember_some hg) (plain_norm hn)
    refine ⟨_, rfl, ?_, rfl, rfl, rfl⟩
    simp only [FRef.content, if_true, ht, hg]
    rw [← this]
  | none =>
    cases hx : ms.find? (fun m => decide (normpath m.1 = n)) with
    | none =>
      rw [List.find?_eq_none] at hx
      exact absurd hmn (by simpa using hx m hm)
    | some m' =>
      have h1 := List.mem_of_find?_eq_some hx
      have h2 := List.find?_some hx
      simp at h2
      have h3 := huq m' h1 h2
      subst h3
      refine ⟨_, rfl, ?_, rfl, rfl, rfl⟩
      obtain ⟨b, hb⟩ := getMember_of_mem h1
      have := getMember_some hb
      have e := huq _ this h2
      simp only [FRef.content, if_true, ht, hb]
      rw [← e]

/-! ### The checks -/

theorem alnum_algo (v : Ver) : Alnum (checksumAlgo v) := by
  cases v <;> exact ⟨by decide, by decide⟩

theorem badLines_text {v : Ver} {fs : List (Str × Str)} (hf : ∀ f ∈ fs, FileName f.1 ∧ LowerHex f.2) :
    badLines (manifestText (checksumAlgo v) fs) = [] := by
  unfold badLines
  rw [List.filter_eq_nil_iff]
  intro line hl
  have hnl := splitOnChar_sepfree '\n' _ line hl
  rw [manifestText_lines _ _ (alnum_algo v) hf] at hl
  rcases List.mem_append.1 hl with hl | hl
  · obtain ⟨f, hfm, rfl⟩ := List.mem_map.1 hl
    rw [manifestRe_some hnl (manifestLine_is (alnum_algo v) (hf f hfm).1 (hf f hfm).2)]
    simp
  · rcases List.mem_singleton.1 hl with rfl
    simp

theorem describedFiles_eq {v : Ver} : ∀ (es : List Elem) (acc : List (Option Str × Option Str)),
    (es.map (fun e => e.get (fileHref v))).Nodup → (∀ e ∈ es, e.get (fileHref v) ∉ dkeys acc) →
    es.foldl (fun d e => dset d (e.get (fileHref v)) (e.get (fileSize v))) acc =
      acc ++ es.map (fun e => (e.get (fileHref v), e.get (fileSize v)))
  | [], acc, _, _ => by simp
  | e :: t, acc, hnd, hk => by
    obtain ⟨h1, h2⟩ := List.nodup_cons.1 (by rw [List.map_cons] at hnd; exact hnd)
    rw [List.foldl_cons, dset_new (hk e (by simp)), describedFiles_eq t _ h2]
    · simp
    · intro x hx hm
      simp only [dkeys, List.map_append, List.map_cons, List.map_nil, List.mem_append, List.mem_singleton] at hm
      rcases hm with hm | hm
      · exact hk x (by simp [hx]) hm
      · exact h1 (hm ▸ List.mem_map.2 ⟨x, hx, rfl⟩)


theorem checkFiles_right {v : Ver} {digest : Str → List UInt8 → Except Err Str} {sum : List UInt8 → Str} {w : Fs}
    {path : Str} {mf : List (Str × Str × Str)} {cont : Str → List UInt8} : ∀ (es : List Elem),
    (∀ e ∈ es, ∃ h, e.get (fileHref v) = some h ∧ Gives digest v sum w path h (cont h) ∧
      ((dget? mf h).map Prod.snd = none ∨ (dget? mf h).map Prod.snd = some (sum (cont h))) ∧
      e.get (fileSize v) = some (natStr (cont h).length)) →
    ∃ fs, checkFiles digest w (checksumAlgo v) path mf (es.map (fun e => (e.get (fileHref v), e.get (fileSize v)))) =
        .ok (fs, []) ∧ dkeys fs = es.map (hrefOf v) ∧ ∀ x ∈ fs, x.2.content w = .ok (cont x.1)
  | [], _ => ⟨[], rfl, rfl, by simp⟩
  | e :: t, hes => by
    obtain ⟨h, h1, h2, h3, h4⟩ := hes e (by simp)
    obtain ⟨fs, f1, f2, f3⟩ := checkFiles_right t (fun x hx => hes x (by simp [hx]))
    obtain ⟨r, r1, r2⟩ := h2.checked _ (some (natStr (cont h).length)) h3 (Or.inr rfl)
    refine ⟨(h, r) :: fs, ?_, ?_, ?_⟩
    · simp only [List.map_cons, h1, h4]
      unfold checkFiles
      simp only [r1, f1, List.map_nil, List.nil_append]
    · show h :: dkeys fs = _
      rw [f2]
      simp [hrefOf, h1]
    · intro x hx
      rcases List.mem_cons.1 hx with rfl | hx
      · exact r2
      · exact f3 x hx

/-- a package that is as described is opened without complaint -/
theorem openFiles_right (hl : ∀ s, l.dec (l.enc s) = some s) {v : Ver} {digest : Str → List UInt8 → Except Err Str}
    {sum : List UInt8 → Str} (hhex : ∀ b, LowerHex (sum b)) {w : Fs} {input descriptor path : Str} {refs : Elem}
    {cont : Str → List UInt8} {xml : List UInt8}
    (hpath : inputPath w input descriptor = path) (hbase : FileName (pathBase descriptor))
    (hes : ∀ e ∈ fileElems v refs, ∃ h, e.get (fileHref v) = some h ∧ FileName h ∧ h ≠ pathBase descriptor ∧
      Gives digest v sum w path h (cont h) ∧ e.get (fileSize v) = some (natStr (cont h).length))
    (hnd : ((fileElems v refs).map (hrefOf v)).Nodup)
    (hd : Gives digest v sum w path (pathBase descriptor) xml)
    (hm : Gives digest v sum w path (pathRoot (pathBase descriptor) ++ ".mf".toList)
      (manifestOf l v sum cont (fileElems v refs) (pathBase descriptor) xml)) :
    ∃ fs, openFiles l digest w v input descriptor refs = .ok (fs, []) ∧ dkeys fs = (fileElems v refs).map (hrefOf v) ∧
      ∀ x ∈ fs, x.2.content w = .ok (cont x.1) := by
  have hhr : ∀ e ∈ fileElems v refs, e.get (fileHref v) = some (hrefOf v e) := by
    intro e he
    obtain ⟨h, h1, -⟩ := hes e he
    unfold hrefOf; rw [h1]; rfl
  have hmap : (fileElems v refs).map (fun e => e.get (fileHref v)) = ((fileElems v refs).map (hrefOf v)).map some := by
    rw [List.map_map]
    exact List.map_congr_left (fun e he => hhr e he)
  have hdesc : describedFiles v refs = (fileElems v refs).map (fun e => (e.get (fileHref v), e.get (fileSize v))) := by
    have := describedFiles_eq (v := v) (fileElems v refs) [] (by
      rw [hmap]; exact hnd.map (fun a b h => by cases h; rfl)) (by simp [dkeys])
    rw [List.nil_append] at this
    exact this
  -- the lines of the manifest
  let lines := (pathBase descriptor, sum xml) ::
    (fileElems v refs).map (fun e => (hrefOf v e, sum (cont (hrefOf v e))))
  have hlines : ∀ f ∈ lines, FileName f.1 ∧ LowerHex f.2 := by
    intro f hf
    rcases List.mem_cons.1 hf with rfl | hf
    · exact ⟨hbase, hhex _⟩
    · obtain ⟨e, he, rfl⟩ := List.mem_map.1 hf
      obtain ⟨h, h1, h2, -⟩ := hes e he
      have : hrefOf v e = h := by unfold hrefOf; rw [h1]; rfl
      exact ⟨by simp only [this]; exact h2, hhex _⟩
  have hkeys : lines.map Prod.fst = pathBase descriptor :: (fileElems v refs).map (hrefOf v) := by
    simp [lines]
  have hlnd : (lines.map Prod.fst).Nodup := by
    rw [hkeys, List.nodup_cons]
    refine ⟨?_, hnd⟩
    intro hmem
    obtain ⟨e, he, heq⟩ := List.mem_map.1 hmem
    obtain ⟨h, h1, -, h3, -⟩ := hes e he
    have : hrefOf v e = h := by unfold hrefOf; rw [h1]; rfl
    exact h3 (this.symm.trans heq)
  have hparse := C24_manifest_roundtrip (checksumAlgo v) lines (alnum_algo v) hlines hlnd
  have hmk : dkeys (lines.map (fun f => (f.1, upper (checksumAlgo v), f.2))) =
      pathBase descriptor :: (fileElems v refs).map (hrefOf v) := by
    rw [← hkeys]; simp [dkeys]
  have hget : ∀ f ∈ lines, (dget? (lines.map (fun f => (f.1, upper (checksumAlgo v), f.2))) f.1).map Prod.snd = some f.2 := by
    intro f hf
    rw [dget?_of_mem (v := (upper (checksumAlgo v), f.2)) (by rw [hmk, ← hkeys]; exact hlnd)
      (List.mem_map.2 ⟨f, hf, rfl⟩)]
    rfl
  -- the steps
  obtain ⟨rm, m1, m2⟩ := hm.plain
  have hread : readManifest l digest w path (pathRoot (pathBase descriptor) ++ ".mf".toList) =
      .ok (some (manifestText (checksumAlgo v) lines)) := by
    unfold readManifest
    rw [m1]
    simp only [m2]
    rw [show manifestOf l v sum cont (fileElems v refs) (pathBase descriptor) xml =
      l.enc (manifestText (checksumAlgo v) lines) from rfl, hl]
  obtain ⟨rd, d1, -⟩ := hd.checked (some (sum xml)) none (Or.inr rfl) (Or.inl rfl)
  obtain ⟨fs, f1, f2, f3⟩ := checkFiles_right (v := v) (digest := digest) (sum := sum) (w := w) (path := path)
    (mf := lines.map (fun f => (f.1, upper (checksumAlgo v), f.2))) (cont := cont) (fileElems v refs) (by
      intro e he
      obtain ⟨h, h1, h2, h3, h4, h5⟩ := hes e he
      refine ⟨h, h1, h4, Or.inr ?_, h5⟩
      have : hrefOf v e = h := by unfold hrefOf; rw [h1]; rfl
      have hf : (h, sum (cont h)) ∈ lines := by
        refine List.mem_cons_of_mem _ (List.mem_map.2 ⟨e, he, ?_⟩)
        rw [this]
      exact hget _ hf)
  have hcmp : compareLists (pathBase descriptor) (dkeys (describedFiles v refs))
      (dkeys (lines.map (fun f => (f.1, upper (checksumAlgo v), f.2)))) = [] := by
    have hk : dkeys (describedFiles v refs) = ((fileElems v refs).map (hrefOf v)).map some := by
      rw [hdesc, ← hmap]; simp [dkeys]
    rw [hmk, hk]
    unfold compareLists
    rw [if_neg (by simp)]
    have e1 : (pathBase descriptor :: (fileElems v refs).map (hrefOf v)).filter (fun f =>
        decide (f ≠ pathBase descriptor) && decide (some f ∉ ((fileElems v refs).map (hrefOf v)).map some)) = [] := by
      rw [List.filter_eq_nil_iff]
      intro f hf
      rcases List.mem_cons.1 hf with rfl | hf
      · simp
      · simp only [Bool.and_eq_true, decide_eq_true_eq, not_and, not_not]
        intro _
        exact List.mem_map.2 ⟨f, hf, rfl⟩
    have e2 : (((fileElems v refs).map (hrefOf v)).map some).filter (fun f =>
        decide (f ∉ (pathBase descriptor :: (fileElems v refs).map (hrefOf v)).map some)) = [] := by
      rw [List.filter_eq_nil_iff]
      intro f hf
      simp only [decide_eq_true_eq, not_not]
      rw [List.map_cons]
      exact List.mem_cons_of_mem _ hf
    rw [e1, e2, if_pos (by simp)]
    rfl
  refine ⟨fs, ?_, f2, f3⟩
  unfold openFiles
  simp only [bind, Except.bind, hpath, hread, Option.map_some, Option.getD_some, hparse,
    badLines_text hlines, hcmp]
  rw [hget (pathBase descriptor, sum xml) (by simp [lines]), d1]
  simp only [hdesc, f1]
  rfl

end Cot
