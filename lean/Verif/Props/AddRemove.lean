import Verif.Props.PackageFiles
import Verif.Props.PackageRemove
import Verif.Props.PackageDisk
import Verif.Props.PackageDiskCases
/-
C116: remove-file undoes add-file and add-disk.
-/
namespace Cot

/-- Nothing in the package has to do with a file of this identifier. -/
structure Unknown (env : Env) (p : Pkg) (fid : Str) : Prop where
  file : ∀ o ∈ p.refs.children, ¬ FileWith env.ver (fileId env.ver) fid o
  disk : ∀ d ∈ p.diskList, ¬ DiskWith env.ver (diskFileRef env.ver) fid d
  diskId : ∀ d ∈ p.diskList, ¬ DiskWith env.ver (diskId env.ver) fid d
  dev : ∀ k it, dget? p.hw k = some it → ¬ UsesFile env.ver it fid ∧ ¬ UsesDisk env.ver it fid

theorem conflict_one {α : Type} [DecidableEq α] (x : α) : checkForConflict [some x, none] = .ok (some x) :=
  ((C17_check_for_conflict _).1 x).2 ⟨by simp, by simp⟩

theorem ddel_append_self {κ ν : Type} [DecidableEq κ] {d : List (κ × ν)} {k : κ} {x : ν} (h : k ∉ dkeys d) :
    ddel (d ++ [(k, x)]) k = d := by
  induction d with
  | nil => simp [ddel]
  | cons a r ih =>
    obtain ⟨ak, av⟩ := a
    simp only [dkeys, List.map_cons, List.mem_cons, not_or] at h
    rw [List.cons_append, ddel, if_neg (Ne.symm h.1), ih h.2]

/-- **C116 (files).** A file that add-file added without replacing another one can be removed again, by its name, and then the
package is as it was. -/
theorem C116_file {c : Ctx} {ask ask' : Prompt → Bool} {p p' : Pkg} {path : Str} {fid : Option Str} (wf : HwWF c.env p.hw)
    (hno : ∀ old, ask (.replaceFile old path) = false) (hu : Unknown c.env p (fid.getD (pathBase path)))
    (hf : pathBase path ∉ dkeys p.files) (h : addFileCmd c ask p path fid = .ok p')
    (hask : ask' (.removeFile (some (pathBase path)) (some (fid.getD (pathBase path)))) = true) :
    p' ≠ p ∧ removeFileCmd c.env ask' p' (some (pathBase path)) none = .ok p := by
  obtain ⟨b0, e0, id0, -, -, -, -, -, -, hc66⟩ := C66_add_file wf h
  unfold addFileCmd at h
  simp only at h
  obtain ⟨r1, hr1, h⟩ := bind_ok_inv h
  obtain ⟨f, hf1, h⟩ := bind_ok_inv h
  obtain ⟨id, hid, h⟩ := bind_ok_inv h
  obtain ⟨_, hask1, h⟩ := bind_ok_inv h
  obtain ⟨⟨n, p2⟩, hadd, h⟩ := bind_ok_inv h
  simp only [Except.ok.injEq] at h
  subst h
  cases f with
  | some i =>
    exfalso
    have := orDie_ok hask1
    rw [hno] at this; cases this
  | none =>
  have hid : id = fid.getD (pathBase path) := by
    cases fid with
    | some s => cases hid; rfl
    | none => cases hid; rfl
  rw [← hid] at hu hask
  obtain ⟨b, e, r, -, he, -, hd, hh, ⟨cs', hc⟩, -, hnone⟩ := addFile_inv hadd
  obtain ⟨q1, q2, q3, -⟩ := hnone rfl
  have hn := q3 rfl
  rw [hn, List.take_length, List.drop_length] at q1
  have hname : ∀ o ∈ p.refs.children, ¬ FileWith c.env.ver (fileHref c.env.ver) (pathBase path) o := by
    rcases hc66 with ⟨-, hx, -⟩ | ⟨i, old, -, -, -, -, -, hx⟩
    · exact hx
    · rw [hno] at hx; cases hx
  have hlen : p2.refs.children[p.refs.children.length]? = some e := by rw [q1]; simp
  have honly : findPos p2.refs.children (fileTag c.env.ver) (fileHref c.env.ver) (some (pathBase path)) =
      .ok (some p.refs.children.length) := by
    refine findPos_some.2 ⟨⟨e, hlen, he.isFile, he.href⟩, ?_⟩
    intro j o hj ho
    rw [q1] at hj
    by_cases hjl : j < p.refs.children.length
    · rw [List.getElem?_append_left hjl] at hj
      exact absurd ho (hname o (List.mem_of_getElem? hj))
    · rw [List.getElem?_append_right (by omega)] at hj
      have := (List.getElem?_eq_some_iff.1 hj).1
      simp at this
      omega
  have hdl : p2.diskList = p.diskList := by unfold Pkg.diskList; rw [hd]
  have hfd : findDiskFromFileId c.env.ver p2 (some id) = .ok none := by
    unfold findDiskFromFileId
    cases hds : p2.disks with
    | none => rfl
    | some d =>
      refine findPos_none.2 (fun o ho hx => hu.disk o ?_ hx)
      rw [← hdl]; unfold Pkg.diskList; rw [hds]; exact ho
  have hdev : devicesOf c.env p2 (some p.refs.children.length) none = .ok ⟨some p.refs.children.length, none, none, none⟩ := by
    have a1 : findItemFromFile c.env p2 (some p.refs.children.length) = .ok none := by
      unfold findItemFromFile
      simp only
      rw [attrOf_eq hlen, he.id]
      refine itemFromRef_absent (fun k it hk _ => ?_)
      rw [hh] at hk
      exact (hu.dev k it hk).1
    unfold devicesOf
    simp only [bind, Except.bind, a1, findItemFromDisk]
    rfl
  have hsearch : searchFromFilename c.env p2 (some (pathBase path)) = .ok ⟨some p.refs.children.length, none, none, none⟩ := by
    unfold searchFromFilename
    rw [honly]
    simp only
    rw [attrOf_eq hlen, he.id, hfd]
    exact hdev
  have snone : searchFromFileId c.env p2 none = .ok ⟨none, none, none, none⟩ := rfl
  have m2 : matchOrDie (some (pathBase path)) (some (pathBase path)) = .ok () := by unfold matchOrDie; simp
  have m3 : orDie ask' (.removeFile (some (pathBase path)) (some id)) = .ok () := by unfold orDie; rw [if_pos hask]
  have hk : pathBase path ∈ dkeys p2.files := by rw [q2, dset_append hf]; simp [dkeys]
  have hrem : removeFile c.env p2 p.refs.children.length none none = .ok p := by
    unfold removeFile
    simp only [bind, Except.bind, attrOf_eq hlen, he.href, hk, if_true]
    have r1 : p2.refs.setChildren (p2.refs.children.eraseIdx p.refs.children.length) = p.refs := by
      rw [q1, List.eraseIdx_append_of_length_le (by simp)]
      rw [hc]
      cases hp : p.refs
      simp [Elem.setChildren, Elem.children]
    have r2 : ddel p2.files (pathBase path) = p.files := by rw [q2, dset_append hf, ddel_append_self hf]
    rw [r1, r2, hd, hh]
  refine ⟨?_, ?_⟩
  · intro heq
    have := congrArg (fun x : Pkg => x.refs.children.length) heq
    simp [q1] at this
  · unfold removeFileCmd
    have cn : ∀ {α : Type} [DecidableEq α], checkForConflict [(none : Option α), none] = .ok none := by
      intro α _; exact (C17_check_for_conflict _).2.1.2 (by simp)
    simp only [bind, Except.bind, hsearch, snone, conflict_one, cn, attrOf_eq hlen, he.href, he.id, m2, m3]
    exact hrem

theorem eraseIdx_added {a b : List Elem} {e : Elem} {P : Elem → Prop} {i : Nat} (h : OnlyAt (a ++ e :: b) P i) (he : P e) :
    (a ++ e :: b).eraseIdx i = a ++ b := by
  have : a.length = i := h.2 a.length e (by simp) he
  subst this
  rw [List.eraseIdx_append_of_length_le (by simp)]
  simp

theorem only_filter {cs : List Elem} {P : Elem → Prop} {Q : Elem → Bool} {i : Nat} (h : OnlyAt cs P i) (hQ : ∀ e, P e → Q e = true)
    {a b : List Elem} {e : Elem} (hc : cs.filter Q = a ++ e :: b) (he : P e) : (cs.eraseIdx i).filter Q = a ++ b := by
  obtain ⟨⟨x, hx, hPx⟩, huniq⟩ := h
  obtain ⟨hi, hxi⟩ := List.getElem?_eq_some_iff.1 hx
  have hsplit : cs = cs.take i ++ x :: cs.drop (i + 1) := by
    rw [← hxi]; simp
  have hcount : ∀ y ∈ cs.take i ++ cs.drop (i + 1), ¬ P y := by
    intro y hy hPy
    rcases List.mem_append.1 hy with hy | hy
    · obtain ⟨n, hn, rfl⟩ := List.mem_iff_getElem.1 hy
      have hn' : n < i := by simp at hn; omega
      have := huniq n _ (by rw [List.getElem_take, List.getElem?_eq_getElem]) hPy
      omega
    · obtain ⟨n, hn, rfl⟩ := List.mem_iff_getElem.1 hy
      have hn' : i + 1 + n < cs.length := by simp at hn; omega
      have := huniq (i + 1 + n) _ (by rw [List.getElem_drop, List.getElem?_eq_getElem hn']) hPy
      omega
  rw [List.eraseIdx_eq_take_drop_succ]
  have hfull : cs.filter Q = (cs.take i).filter Q ++ x :: (cs.drop (i + 1)).filter Q := by
    conv_lhs => rw [hsplit]
    rw [List.filter_append, List.filter_cons, if_pos (hQ x hPx)]
  rw [List.filter_append]
  rw [hfull] at hc
  -- the only element with the property is at the same place in both
  have hL : ∀ y ∈ (cs.take i).filter Q, ¬ P y := fun y hy => hcount y (List.mem_append_left _ (List.mem_of_mem_filter hy))
  have hR : ∀ y ∈ (cs.drop (i + 1)).filter Q, ¬ P y := fun y hy => hcount y (List.mem_append_right _ (List.mem_of_mem_filter hy))
  generalize (cs.take i).filter Q = l at hc hL
  generalize (cs.drop (i + 1)).filter Q = r at hc hR
  clear hfull hcount hsplit
  induction l generalizing a with
  | nil =>
    cases a with
    | nil => simp at hc; simp [hc.2]
    | cons a0 a1 =>
      exfalso
      simp only [List.nil_append, List.cons_append, List.cons.injEq] at hc
      exact hR e (by rw [hc.2]; simp) he
  | cons l0 l1 ih =>
    cases a with
    | nil =>
      exfalso
      simp only [List.nil_append, List.cons_append, List.cons.injEq] at hc
      exact hL l0 List.mem_cons_self (by rw [hc.1]; exact he)
    | cons a0 a1 =>
      simp only [List.cons_append, List.cons.injEq] at hc
      have := ih (fun y hy => hL y (List.mem_cons_of_mem _ hy)) hc.2
      rw [List.cons_append, this, hc.1, List.cons_append]

/-- **C116 (disks).** If add-disk adds a hard disk under a new identifier, without replacing a file or filling a drive that is
there, and remove-file then removes the file by its name, then the File and Disk entries and the devices are as before, except
that a controller which was added for the disk stays, and that a controller keeps the sub-type that was asked for. -/
theorem C116_disk_partial {c : Ctx} {plat : Str → Str} {ask ask' : Prompt → Bool} {p p' p'' : Pkg} {q : DiskReq} {k fid : Str}
    (wf : HwWF c.env p.hw) (ht : Tidy c.env p.hw) (hq : Sensible q) (hplat : ∃ code, ControllerCode (plat q.drive) code)
    (hd : q.drive = "harddisk".toList) (hfid : q.fid = some fid) (hu : Unknown c.env p fid) (hno : ¬ Agreed ask q)
    (h : addDiskCmd c plat ask p q = .ok (k, p'))
    (h2 : removeFileCmd c.env ask' p' (some (pathBase q.path)) none = .ok p'') :
    p''.refs.children = p.refs.children ∧ diskEntries c.env.ver p'' = diskEntries c.env.ver p ∧
    ∃ ctrl, k ≠ ctrl ∧ (∀ k', k' ≠ ctrl → dget? p''.hw k' = dget? p.hw k') ∧
      (ctrl ∉ dkeys p.hw → ∃ t, ask (.addController t) = true) ∧
      ∀ ci0, dget? p.hw ctrl = some ci0 → ∃ ci, dget? p''.hw ctrl = some ci ∧ (q.subtype = none → ci = ci0) ∧
        ∀ m, m ≠ resourceSubType → ci.tab m = ci0.tab m := by
  obtain ⟨b, e, fid', r3, ctrl, ci, it, ct, code, -, f1, f2, f3, -, cc, -, -, g1, g2, g3, -, g4, g5, g6, g7, g8, -, d1, -, -, k1, -, c1,
    c2, -, -, -, k2⟩ := addDiskCmd_core wf ht hq hplat h
  have hfe := f2 fid hfid
  subst hfe
  have hk : k ∉ dkeys p.hw := fun hk => hno (k1 hk)
  -- the file
  obtain ⟨n, r1, r2, r3'⟩ : ∃ n, p'.refs.children = p.refs.children.take n ++ e :: p.refs.children.drop n ∧
      (∀ o ∈ p.refs.children, ¬ FileWith c.env.ver (fileHref c.env.ver) (pathBase q.path) o) ∧
      ∀ o ∈ p.refs.children, ¬ FileWith c.env.ver (fileId c.env.ver) fid' o := by
    rcases f3 with hx | ⟨i, old, -, -, -, hx, -⟩
    · exact hx
    · exact absurd (Or.inl ⟨_, hx⟩) hno
  obtain ⟨d, did, s1, s2, s3⟩ := d1 hd
  obtain ⟨rfl, da, db, s4, s5⟩ : did = fid' ∧ Added (diskEntries c.env.ver p) (diskEntries c.env.ver p') d := by
    rcases s3 with hx | ⟨old, -, -, hx⟩
    · exact hx
    · exact absurd hx hno
  obtain ⟨i, old, id, name, o1, o2, o3, o4, o5, -, -, -, o6, -, -, o7, w2, o8⟩ := C68_remove_file g6 h2
  have hne : name = pathBase q.path := o5 _ rfl
  subst hne
  have hmem : ∀ o, o ∈ p'.refs.children → o = e ∨ o ∈ p.refs.children := by
    intro o ho
    rw [r1] at ho
    rcases List.mem_append.1 ho with ho | ho
    · exact Or.inr (List.mem_of_mem_take ho)
    · rcases List.mem_cons.1 ho with ho | ho
      · exact Or.inl ho
      · exact Or.inr (List.mem_of_mem_drop ho)
  have hold : old = e := by
    rcases hmem old (List.mem_of_getElem? o1) with hx | hx
    · exact hx
    · exact absurd ⟨o2, o4⟩ (r2 old hx)
  subst hold
  have hid : id = did := by rw [f1.id] at o3; exact (Option.some.inj o3).symm
  subst hid
  have hrefs : p''.refs.children = p.refs.children := by
    rw [o6, setChildren_children]
    have hon : OnlyAt (p.refs.children.take n ++ old :: p.refs.children.drop n)
        (FileWith c.env.ver (fileHref c.env.ver) (pathBase q.path)) i := by
      rw [← r1]
      refine ⟨⟨old, o1, o2, o4⟩, ?_⟩
      intro j o hj ho
      have heq : o = old := by
        rcases hmem o (List.mem_of_getElem? hj) with hx | hx
        · exact hx
        · exact absurd ho (r2 o hx)
      subst heq
      -- both places are the one of the new entry
      have hplace : ∀ m, p'.refs.children[m]? = some o → m = (p.refs.children.take n).length := by
        intro m hm
        rw [r1] at hm
        rcases Nat.lt_trichotomy m (p.refs.children.take n).length with hl | hl | hl
        · rw [List.getElem?_append_left hl] at hm
          exact absurd ⟨o2, o4⟩ (r2 o (List.mem_of_mem_take (List.mem_of_getElem? hm)))
        · exact hl
        · rw [List.getElem?_append_right (by omega)] at hm
          obtain ⟨m', hm'⟩ : ∃ m', m - (p.refs.children.take n).length = m' + 1 := ⟨m - (p.refs.children.take n).length - 1, by omega⟩
          rw [hm', List.getElem?_cons_succ] at hm
          exact absurd ⟨o2, o4⟩ (r2 o (List.mem_of_mem_drop (List.mem_of_getElem? hm)))
      rw [hplace j hj, hplace i o1]
    rw [r1, eraseIdx_added hon ⟨o2, o4⟩, List.take_append_drop]
  -- the disk
  have hdd : d ∈ p'.diskList := by
    have : d ∈ diskEntries c.env.ver p' := by rw [s5]; simp
    exact List.mem_of_mem_filter this
  have hdisks : diskEntries c.env.ver p'' = diskEntries c.env.ver p := by
    rcases o7 with ⟨-, hx⟩ | ⟨j, ds, j1, j2, j3⟩
    · exact absurd ⟨s1.isDisk, s1.ref⟩ (hx d hdd)
    · have e1 : p'.diskList = ds.children := by unfold Pkg.diskList; rw [j2]
      have e2 : p''.diskList = ds.children.eraseIdx j := by unfold Pkg.diskList; rw [j3]; exact setChildren_children _ _
      unfold diskEntries at s4 s5 ⊢
      rw [e2, ← e1, s4]
      exact only_filter j1 (fun x hx => by simpa using hx.1) s5 ⟨s1.isDisk, s1.ref⟩
  refine ⟨hrefs, hdisks, ctrl, g4, ?_⟩
  -- the drive
  have hdep : DependsOn c.env.ver p' id it := Or.inr ⟨d, hdd, ⟨s1.isDisk, s1.ref⟩, id, s1.id, Or.inl s2⟩
  have hdisku : ∀ x ∈ p'.diskList, DiskWith c.env.ver (diskFileRef c.env.ver) id x → x = d := by
    intro x hx hw
    have hxe : x ∈ diskEntries c.env.ver p' := List.mem_filter.2 ⟨hx, by simpa using hw.1⟩
    rw [s5] at hxe
    have hb : ∀ y, y ∈ da ++ db → ¬ DiskWith c.env.ver (diskFileRef c.env.ver) id y := by
      intro y hy
      rw [← s4] at hy
      exact hu.disk y (List.mem_of_mem_filter hy)
    rcases List.mem_append.1 hxe with hxe | hxe
    · exact absurd hw (hb x (List.mem_append_left _ hxe))
    · rcases List.mem_cons.1 hxe with hxe | hxe
      · exact hxe
      · exact absurd hw (hb x (List.mem_append_right _ hxe))
  have hrel : Released p'.hw p''.hw k := by
    rcases o8 with ⟨-, hx⟩ | ⟨kk, itk, a1, a2, a3, a4, -⟩
    · exact absurd hdep (hx k it g3 (k2 hk))
    · by_cases hkk : kk = k
      · rw [← hkk]; exact a4
      · exfalso
        by_cases hkc : kk = ctrl
        · subst hkc
          rw [g1] at a1; cases a1
          obtain ⟨-, x, hx, hty⟩ := a4
          rw [g1] at hx; cases hx
          have hcl : ∀ t, OfType ci t → t = code := by
            rintro t ⟨S, hS⟩
            obtain ⟨S', hS'⟩ := g2
            rw [hS] at hS'
            simp only [List.cons.injEq, Prod.mk.injEq, Val.str.injEq] at hS'
            exact hS'.1.1
          have hcode : code = "5".toList ∨ code = "6".toList ∨ code = "20".toList := by
            rcases cc with ⟨-, h⟩ | ⟨-, h⟩ | ⟨-, h⟩ <;> simp [h]
          rcases hty with ⟨h15, -⟩ | ⟨h17, -⟩
          · rw [← hcl _ h15] at hcode; revert hcode; decide
          · rw [← hcl _ h17] at hcode; revert hcode; decide
        · rw [g7 kk hkk hkc] at a1
          obtain ⟨u1, u2⟩ := hu.dev kk itk a1
          rcases a3 with a3 | ⟨x, x1, x2, xd, x3, x4⟩
          · exact u1 a3
          · rw [hdisku x x1 x2, s1.id] at x3
            cases x3
            exact u2 x4
  obtain ⟨l1, x, hx, hty⟩ := hrel
  rw [g3] at hx; cases hx
  have hgone : dget? p''.hw k = none := by
    rcases hty with ⟨h15, -⟩ | ⟨-, hx⟩
    · exfalso
      obtain ⟨dc, q1, S, hS⟩ := g5
      obtain ⟨S', hS'⟩ := h15
      rw [hS] at hS'
      simp only [List.cons.injEq, Prod.mk.injEq, Val.str.injEq] at hS'
      rcases q1 with ⟨-, q2⟩ | ⟨q2, -⟩
      · rw [q2] at hS'; exact absurd hS'.1.1 (by decide)
      · rw [hd] at q2; exact absurd q2 (by decide)
    · exact hx
  refine ⟨?_, ?_, ?_⟩
  · intro k' hk'
    by_cases hkk : k' = k
    · subst hkk
      rw [hgone]
      exact (dget?_eq_none.2 hk).symm
    · rw [l1 k' hkk, g7 k' hkk hk']
  · intro hc; exact ⟨_, c1 hc⟩
  · intro ci0 h0
    refine ⟨ci, by rw [l1 ctrl (Ne.symm g4)]; exact g1, ?_, g8 ci0 h0⟩
    intro hs
    rcases c2 ci0 h0 with hx | ⟨s, hx, -⟩
    · exact hx
    · rw [hs] at hx; cases hx

/-! ### Cases -/

/-- a user who agrees to new controllers and removals only -/
def exAskNew : Prompt → Bool
  | .addController _ => true
  | .removeFile _ _ => true
  | _ => false

theorem exUnknown (fid : Str) (h : fid = "new.iso".toList ∨ fid = "n1".toList) : Unknown exEnv exPkg fid := by
  have hm : ∀ kv ∈ exPkg.hw, ∀ e ∈ kv.2.tab hostResource, ∀ t ∈ ["new.iso".toList, "n1".toList],
      e.1 ≠ .str (hostFileRef .v1 ++ t) ∧ e.1 ≠ .str ("/file/".toList ++ t) ∧ e.1 ≠ .str (hostDiskRef .v1 ++ t) ∧
      e.1 ≠ .str ("/disk/".toList ++ t) := by decide +kernel
  have hmem : fid ∈ ["new.iso".toList, "n1".toList] := by rcases h with rfl | rfl <;> simp
  refine ⟨?_, ?_, ?_, ?_⟩
  · rcases h with rfl | rfl <;> exact findPos_none.1 rfl
  · rcases h with rfl | rfl <;> exact findPos_none.1 rfl
  · rcases h with rfl | rfl <;> exact findPos_none.1 rfl
  · intro k it hk
    have key := fun e he => hm (k, it) (dget?_mem hk) e he fid hmem
    refine ⟨?_, ?_⟩
    · rintro (⟨S, hS⟩ | ⟨S, hS⟩)
      · exact (key _ (by rw [hS]; exact List.mem_singleton.2 rfl)).1 rfl
      · exact (key _ (by rw [hS]; exact List.mem_singleton.2 rfl)).2.1 rfl
    · rintro (⟨S, hS⟩ | ⟨S, hS⟩)
      · exact (key _ (by rw [hS]; exact List.mem_singleton.2 rfl)).2.2.1 rfl
      · exact (key _ (by rw [hS]; exact List.mem_singleton.2 rfl)).2.2.2 rfl

/-- a file is added and removed -/
example : ∃ p', addFileCmd exCtx exAskNew exPkg "new.iso".toList none = .ok p' ∧
    removeFileCmd exEnv exAskNew p' (some "new.iso".toList) none = .ok exPkg :=
  ⟨_, rfl, (C116_file (c := exCtx) (p := exPkg) (ask := exAskNew) (path := "new.iso".toList) (fid := none) exDiskHw_wf (fun _ => rfl)
    (exUnknown _ (Or.inl rfl)) (by decide +kernel) rfl rfl).2⟩

/-- a disk is added and removed: entries and devices are as before, but for the new controller -/
example : ∃ k p' p'', addDiskCmd exCtx exPlat exAskNew exPkg (exReq "new.iso".toList "harddisk".toList (some "n1".toList) none none) =
      .ok (k, p') ∧ removeFileCmd exEnv exAskNew p' (some "new.iso".toList) none = .ok p'' ∧
    p''.refs.children = exPkg.refs.children := by
  refine ⟨_, _, _, rfl, rfl, ?_⟩
  refine (C116_disk_partial (c := exCtx) (plat := exPlat) (ask := exAskNew) (ask' := exAskNew) (p := exPkg)
    (q := exReq "new.iso".toList "harddisk".toList (some "n1".toList) none none) (fid := "n1".toList) exDiskHw_wf exDiskHw_tidy
    (exReq_sensible ⟨_, Or.inl ⟨rfl, rfl⟩⟩ (fun _ h => by cases h) (fun _ h => by cases h)) (exPlat_ok _) rfl rfl
    (exUnknown _ (Or.inr rfl)) ?_ rfl rfl).1
  rintro (⟨old, h⟩ | h) <;> cases h

/-- **C116 (limits).** The controller that was made for a disk stays when the disk is removed. -/
theorem C116_controller_fails : ∃ k p' p'',
    addDiskCmd exCtx exPlat exAskNew exPkg (exReq "new.iso".toList "harddisk".toList (some "n1".toList) none none) = .ok (k, p') ∧
    removeFileCmd exEnv exAskNew p' (some "new.iso".toList) none = .ok p'' ∧
    dkeys p''.hw = dkeys exPkg.hw ++ ["1".toList] :=
  ⟨_, _, _, rfl, rfl, by decide +kernel⟩

/-- **C116 (limits).** A CD-ROM drive that was made for an image stays, empty, when the image is removed. -/
theorem C116_cdrom_fails : ∃ k p' p'' it,
    addDiskCmd exCtx exPlat exAskNew exPkg (exReq "new.iso".toList "cdrom".toList (some "n1".toList) none none) = .ok (k, p') ∧
    removeFileCmd exEnv exAskNew p' (some "new.iso".toList) none = .ok p'' ∧
    k ∉ dkeys exPkg.hw ∧ dget? p''.hw k = some it ∧ OfType it "15".toList ∧ it.tab hostResource = [] :=
  ⟨_, _, _, _, rfl, rfl, by decide +kernel, rfl, ⟨_, rfl⟩, rfl⟩

end Cot
