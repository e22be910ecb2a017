import Verif.Spec.Refresh
import Verif.Props.PackageFiles
import Verif.Props.FileRef
import Verif.Lemmas.PackageDisk
/-
Inversion of `_refresh_file_references()`.
-/
namespace Cot

theorem dget?_cons {κ ν : Type} [DecidableEq κ] (k : κ) (v : ν) (d : List (κ × ν)) (x : κ) :
    dget? ((k, v) :: d) x = if k = x then some v else dget? d x := rfl

theorem leads_of_exists {fs : Fs} {r r1 : FRef} {b : List UInt8} (h : r.exists_ fs = (.ok true, r1))
    (hb : r1.content fs = .ok b) : Leads fs r b := by
  obtain ⟨-, h2, h3⟩ := exists_content h
  cases ht : r.inTar with
  | false =>
    left
    refine ⟨ht, ?_⟩
    rw [h3 ht] at hb
    unfold FRef.content at hb
    rw [ht] at hb
    simp only [Bool.false_eq_true, if_false] at hb
    cases hf : fs.file (pathJoin r.container r.filename) with
    | none => rw [hf] at hb; cases hb
    | some x => rw [hf] at hb; cases hb; rfl
  | true =>
    right
    refine ⟨ht, ?_⟩
    have hmem : ∀ {ms : List (Str × List UInt8)} {n : Str} {x}, getMember ms n = some x → (n, x) ∈ ms := by
      intro ms n x hx
      unfold getMember at hx
      cases hf : ms.reverse.find? (fun m => decide (m.1 = n)) with
      | none => rw [hf] at hx; cases hx
      | some m =>
        rw [hf] at hx
        simp only [Option.map_some, Option.some.injEq] at hx
        have h1 := List.find?_some hf
        have h2 := List.mem_of_find?_eq_some hf
        simp only [decide_eq_true_eq] at h1
        rw [← h1, ← hx]
        exact List.mem_reverse.1 h2
    unfold FRef.exists_ at h
    rw [if_pos ht] at h
    cases hw : fs.tar r.container with
    | none => rw [hw] at h; cases h
    | some ms =>
      rw [hw] at h
      simp only at h
      cases hm : getMember ms r.filename with
      | some x =>
        rw [hm] at h
        simp only [Prod.mk.injEq, true_and] at h
        subst h
        unfold FRef.content at hb
        rw [if_pos ht, hw] at hb
        simp only [hm, Except.ok.injEq] at hb
        subst hb
        exact ⟨ms, r.filename, rfl, hmem hm, Or.inl rfl⟩
      | none =>
        rw [hm] at h
        simp only at h
        cases hf : ms.find? (fun m => decide (normpath m.1 = r.filename)) with
        | none => rw [hf] at h; cases h
        | some m =>
          rw [hf] at h
          simp only [Prod.mk.injEq, true_and] at h
          subst h
          unfold FRef.content at hb
          simp only [ht, if_true, hw] at hb
          cases hg : getMember ms m.1 with
          | none => rw [hg] at hb; cases hb
          | some x =>
            rw [hg] at hb
            cases hb
            have h1 := List.find?_some hf
            simp only [decide_eq_true_eq] at h1
            exact ⟨ms, m.1, rfl, hmem hg, Or.inr h1⟩

theorem exists_of_leads {fs : Fs} {r : FRef} {b : List UInt8} (h : Leads fs r b) :
    ∃ r1, r.exists_ fs = (.ok true, r1) := by
  unfold FRef.exists_
  rcases h with ⟨h1, h2⟩ | ⟨h1, ms, n, h2, h3, h4⟩
  · rw [if_neg (by simp [h1]), h2]; exact ⟨_, rfl⟩
  · rw [if_pos h1, h2]
    simp only
    cases hm : getMember ms r.filename with
    | some x => exact ⟨_, rfl⟩
    | none =>
      simp only
      cases hf : ms.find? (fun m => decide (normpath m.1 = r.filename)) with
      | some m => exact ⟨_, rfl⟩
      | none =>
        exfalso
        rcases h4 with rfl | h4
        · unfold getMember at hm
          simp only [Option.map_eq_none_iff, List.find?_eq_none, List.mem_reverse, decide_eq_true_eq] at hm
          exact hm _ h3 rfl
        · simp only [List.find?_eq_none, decide_eq_true_eq] at hf
          exact hf _ h3 h4

/-- a refreshed reference reports the size of what is there now -/
theorem refresh_size {digest : Str → List UInt8 → Except Err Str} {fs : Fs} {r r2 : FRef} {ok : Bool} {b : List UInt8}
    (hb : r.content fs = .ok b) (h : r.refresh digest fs = (.ok ok, r2)) :
    (r2.readSize fs).1 = .ok b.length ∧ r2.inTar = r.inTar ∧ r2.container = r.container ∧ r2.filename = r.filename := by
  have hsz : ∀ {r r' : FRef} {n}, r.readSize fs = (.ok n, r') →
      r'.inTar = r.inTar ∧ r'.container = r.container ∧ r'.filename = r.filename ∧ r'.force = r.force := by
    intro r r' n h
    unfold FRef.readSize at h
    split at h
    · cases h; exact ⟨rfl, rfl, rfl, rfl⟩
    · split at h
      · cases h
      · cases h; exact ⟨rfl, rfl, rfl, rfl⟩
  have hsm : ∀ {r r' : FRef} {n}, r.readSum digest fs = (.ok n, r') →
      r'.inTar = r.inTar ∧ r'.container = r.container ∧ r'.filename = r.filename ∧ r'.force = r.force := by
    intro r r' n h
    unfold FRef.readSum at h
    split at h
    · cases h; exact ⟨rfl, rfl, rfl, rfl⟩
    · split at h
      · cases h; exact ⟨rfl, rfl, rfl, rfl⟩
      · split at h
        · cases h
        · split at h
          · cases h
          · cases h; exact ⟨rfl, rfl, rfl, rfl⟩
  unfold FRef.refresh at h
  cases h1 : r.readSize fs with
  | mk x ra =>
    rw [h1] at h
    cases x with
    | error e => cases h
    | ok n =>
      simp only at h
      cases h2 : ra.readSum digest fs with
      | mk y rb =>
        rw [h2] at h
        cases y with
        | error e => cases h
        | ok cs =>
          simp only at h
          obtain ⟨a1, a2, a3, -⟩ := hsz h1
          obtain ⟨b1, b2, b3, -⟩ := hsm h2
          unfold FRef.recheck at h
          have hbc : ({ rb with force := true } : FRef).content fs = .ok b := by
            rw [← hb]; exact content_congr (b1.trans a1) (b2.trans a2) (b3.trans a3) fs
          rw [exists_of_content hbc] at h
          simp only at h
          cases h3 : ({ rb with force := true } : FRef).readSize fs with
          | mk z rc =>
            rw [h3] at h
            cases z with
            | error e => cases h
            | ok n' =>
              simp only at h
              cases h4 : rc.readSum digest fs with
              | mk w rd =>
                rw [h4] at h
                cases w with
                | error e => cases h
                | ok c' =>
                  simp only [Prod.mk.injEq] at h
                  obtain ⟨-, rfl⟩ := h
                  obtain ⟨c1, c2, c3, c4⟩ := hsz h3
                  obtain ⟨d1, d2, d3, d4⟩ := hsm h4
                  simp only at c1 c2 c3 c4
                  have hforce : rd.force = true := d4.trans c4
                  have hc : rd.content fs = .ok b := by
                    rw [← hbc]
                    exact content_congr (d1.trans c1) (d2.trans c2) (d3.trans c3) fs
                  refine ⟨by rw [readSize_fresh hc (Or.inr hforce)], ?_, ?_, ?_⟩
                  · rw [d1, c1, b1, a1]
                  · rw [d2, c2, b2, a2]
                  · rw [d3, c3, b3, a3]

/-- the references that are kept -/
theorem refreshRefs_inv {c : Ctx} : ∀ {files files' : List (Str × FRef)}, (dkeys files).Nodup →
    refreshRefs c files = .ok files' →
    (dkeys files').Nodup ∧ (∀ h, h ∈ dkeys files' ↔ Present c.fs files h) ∧ (∀ h, h ∈ dkeys files' → h ∈ dkeys files) ∧
    ∀ h r', dget? files' h = some r' → ∃ r b, dget? files h = some r ∧ Leads c.fs r b ∧
      (r'.readSize c.fs).1 = .ok b.length ∧ r'.inTar = r.inTar ∧ r'.container = r.container ∧
      (r.inTar = false → r'.filename = r.filename)
  | [], files', _, h => by
    cases h
    refine ⟨List.nodup_nil, fun h => ⟨fun h => (nomatch h), ?_⟩, fun h hh => (nomatch hh), fun h r' hh => (nomatch hh)⟩
    rintro ⟨r, b, hr, -⟩; cases hr
  | (n, r) :: t, files', hnd, h => by
    have hnd' : n ∉ dkeys t ∧ (dkeys t).Nodup := List.nodup_cons.1 hnd
    unfold refreshRefs at h
    cases hex : r.exists_ c.fs with
    | mk x r1 =>
      rw [hex] at h
      cases x with
      | error e => cases h
      | ok ex =>
        cases ex with
        | false =>
          simp only at h
          obtain ⟨g1, g2, g3, g4⟩ := refreshRefs_inv hnd'.2 h
          have hstep : ∀ m, m ∈ dkeys files' → m ≠ n := by
            rintro m hm rfl; exact hnd'.1 (g3 _ hm)
          refine ⟨g1, ?_, fun m hm => List.mem_cons_of_mem _ (g3 m hm), ?_⟩
          · intro m
            constructor
            · intro hm
              obtain ⟨r', b, q1, q2⟩ := (g2 m).1 hm
              exact ⟨r', b, by rw [dget?_cons, if_neg (Ne.symm (hstep m hm))]; exact q1, q2⟩
            · rintro ⟨r', b, q1, q2⟩
              rw [dget?_cons] at q1
              split at q1
              · cases q1
                obtain ⟨r2, hr2⟩ := exists_of_leads q2
                rw [hex] at hr2; cases hr2
              · exact (g2 m).2 ⟨r', b, q1, q2⟩
          · intro m r' hm
            obtain ⟨r0, b, q1, q2⟩ := g4 m r' hm
            exact ⟨r0, b, by rw [dget?_cons, if_neg (Ne.symm (hstep m (mem_dkeys_of_dget? hm)))]; exact q1, q2⟩
        | true =>
          simp only at h
          cases hrf : r1.refresh c.digest c.fs with
          | mk y r2 =>
            rw [hrf] at h
            cases y with
            | error e => cases h
            | ok ok =>
              simp only at h
              cases hrest : refreshRefs c t with
              | error e => rw [hrest] at h; cases h
              | ok l =>
                rw [hrest] at h
                cases h
                obtain ⟨g1, g2, g3, g4⟩ := refreshRefs_inv hnd'.2 hrest
                obtain ⟨⟨b, hb⟩, hr1, hr1'⟩ := exists_content hex
                have hl := leads_of_exists hex hb
                obtain ⟨s1, s2, s3, s4⟩ := refresh_size hb hrf
                refine ⟨List.nodup_cons.2 ⟨fun hm => hnd'.1 (g3 _ hm), g1⟩, ?_, ?_, ?_⟩
                · intro m
                  by_cases hmn : m = n
                  · subst hmn
                    exact ⟨fun _ => ⟨r, b, by rw [dget?_cons, if_pos rfl], hl⟩, fun _ => List.mem_cons_self⟩
                  · have : m ∈ dkeys ((n, r2) :: l) ↔ m ∈ dkeys l := by simp [dkeys, hmn]
                    rw [this, g2 m]
                    unfold Present
                    constructor
                    · rintro ⟨r', b', q1, q2⟩
                      exact ⟨r', b', by rw [dget?_cons, if_neg (Ne.symm hmn)]; exact q1, q2⟩
                    · rintro ⟨r', b', q1, q2⟩
                      rw [dget?_cons, if_neg (Ne.symm hmn)] at q1
                      exact ⟨r', b', q1, q2⟩
                · intro m hm
                  rcases List.mem_cons.1 hm with rfl | hm
                  · exact List.mem_cons_self
                  · exact List.mem_cons_of_mem _ (g3 m hm)
                · intro m r' hm
                  rw [dget?_cons] at hm
                  split at hm
                  · rename_i hmn
                    cases hm
                    subst hmn
                    refine ⟨r, b, by rw [dget?_cons, if_pos rfl], hl, s1, ?_, ?_, ?_⟩
                    · rw [s2, hr1]
                    · rw [s3, hr1]
                    · intro ht; rw [s4, hr1' ht]
                  · rename_i hmn
                    obtain ⟨r0, b', q1, q2⟩ := g4 m r' hm
                    exact ⟨r0, b', by rw [dget?_cons, if_neg hmn]; exact q1, q2⟩

theorem diskList_of {p : Pkg} {d : Elem} (h : p.disks = some d) : p.diskList = d.children := by
  unfold Pkg.diskList; rw [h]

theorem diskNames_cap (v : Ver) : diskFileRef v ≠ diskCapacity v ∧ diskFileRef v ≠ diskCapUnits v ∧
    diskId v ≠ diskCapacity v ∧ diskId v ≠ diskCapUnits v := by cases v <;> decide +kernel

theorem modify_set {α : Type} {l : List α} {i : Nat} {e : α} (h : l[i]? = some e) (f : α → α) :
    l.modify i f = l.set i (f e) := by
  apply List.ext_getElem?
  intro j
  rw [List.getElem?_modify, List.getElem?_set]
  obtain ⟨hi, he⟩ := List.getElem?_eq_some_iff.1 h
  by_cases hij : i = j
  · subst hij; simp [hi, he]
  · simp [hij]

theorem refreshOne_inv {c : Ctx} {capOf : Str → Except Err Nat} {h : Str} {r : FRef} {p p1 : Pkg}
    (hr : refreshOne c capOf h r p = .ok p1) :
    ∃ i e n, p.refs.children[i]? = some e ∧ FileWith c.env.ver (fileHref c.env.ver) h e ∧
      (∀ j o, p.refs.children[j]? = some o → FileWith c.env.ver (fileHref c.env.ver) h o → j = i) ∧
      (r.readSize c.fs).1 = .ok n ∧
      p1.refs = p.refs.setChildren (p.refs.children.set i (e.set (fileSize c.env.ver) (natStr n))) ∧
      p1.hw = p.hw ∧ p1.files = p.files ∧
      ((p1.disks = p.disks ∧ ∀ fid d, e.get (fileId c.env.ver) = some fid → d ∈ p.diskList →
          DiskWith c.env.ver (diskFileRef c.env.ver) fid d → r.inTar = false →
          ∃ cap : Nat, capOf (pathJoin r.container r.filename) = .ok cap ∧ capacityOf c.env.ver d = .ok (cap : Int)) ∨
        ∃ fid j d d' cap ds, p.disks = some ds ∧ e.get (fileId c.env.ver) = some fid ∧
          ds.children[j]? = some d ∧ DiskWith c.env.ver (diskFileRef c.env.ver) fid d ∧
          (∀ j' o, ds.children[j']? = some o → DiskWith c.env.ver (diskFileRef c.env.ver) fid o → j' = j) ∧
          capOf (pathJoin r.container r.filename) = .ok cap ∧ setCapacity c.env.ver c.py d cap = .ok d' ∧
          p1.disks = some (ds.setChildren (ds.children.set j d')) ∧ r.inTar = false) := by
  unfold refreshOne at hr
  simp only at hr
  obtain ⟨i, hi, hr⟩ := bind_ok_inv hr
  cases i with
  | none => cases hr
  | some i =>
    simp only at hr
    obtain ⟨n, hn, hr⟩ := bind_ok_inv hr
    obtain ⟨⟨e, he, ht, hh⟩, huniq⟩ := findPos_some.1 hi
    obtain ⟨-, f1, -⟩ := fileNames_ne c.env.ver
    rw [modify_set he] at hr
    have hat : attrOf (p.refs.children.set i (e.set (fileSize c.env.ver) (natStr n))) i (fileId c.env.ver) =
        e.get (fileId c.env.ver) := by
      rw [attrOf_eq (e := e.set (fileSize c.env.ver) (natStr n))
        (by rw [List.getElem?_set_self (List.getElem?_eq_some_iff.1 he).1])]
      rw [set_get, if_neg (Ne.symm f1)]
    obtain ⟨d, hd, hr⟩ := bind_ok_inv hr
    rw [hat] at hd
    refine ⟨i, e, n, he, ⟨ht, hh⟩, fun j o h1 h2 => huniq j o h1 h2, hn, ?_⟩
    unfold findDiskFromFileId at hd
    simp only at hd
    have same : ∀ {q : Pkg}, (.ok { p with refs := p.refs.setChildren (p.refs.children.set i (e.set (fileSize c.env.ver) (natStr n))) } : Except Err Pkg) = .ok q →
        (∀ fid d, e.get (fileId c.env.ver) = some fid → d ∈ p.diskList →
          DiskWith c.env.ver (diskFileRef c.env.ver) fid d → r.inTar = false →
          ∃ cap : Nat, capOf (pathJoin r.container r.filename) = .ok cap ∧ capacityOf c.env.ver d = .ok (cap : Int)) →
        q.refs = p.refs.setChildren (p.refs.children.set i (e.set (fileSize c.env.ver) (natStr n))) ∧ q.hw = p.hw ∧
          q.files = p.files ∧ (q.disks = p.disks ∧ ∀ fid d, e.get (fileId c.env.ver) = some fid → d ∈ p.diskList →
          DiskWith c.env.ver (diskFileRef c.env.ver) fid d → r.inTar = false →
          ∃ cap : Nat, capOf (pathJoin r.container r.filename) = .ok cap ∧ capacityOf c.env.ver d = .ok (cap : Int)) := by
      intro q hq hz; cases hq; exact ⟨rfl, rfl, rfl, rfl, hz⟩
    cases hfid : e.get (fileId c.env.ver) with
    | none =>
      rw [hfid] at hd
      cases hd
      simp only at hr
      obtain ⟨q1, q2, q3, q4⟩ := same hr (fun fid d h1 => by rw [hfid] at h1; cases h1)
      exact ⟨q1, q2, q3, Or.inl ⟨q4.1, fun fid d h1 => by cases h1⟩⟩
    | some fid =>
      rw [hfid] at hd
      cases hds : p.disks with
      | none =>
        rw [hds] at hd
        cases hd
        simp only at hr
        obtain ⟨q1, q2, q3, q4, -⟩ := same hr (fun fid d _ h2 => by unfold Pkg.diskList at h2; rw [hds] at h2; cases h2)
        exact ⟨q1, q2, q3, Or.inl ⟨q4.trans hds, fun fid d _ h2 => by unfold Pkg.diskList at h2; rw [hds] at h2; cases h2⟩⟩
      | some ds =>
        rw [hds] at hd
        simp only at hd
        have hdl : p.diskList = ds.children := diskList_of hds
        cases d with
        | none =>
          simp only at hr
          have hno := findPos_none.1 hd
          have hz : ∀ fid' d, e.get (fileId c.env.ver) = some fid' → d ∈ p.diskList →
              DiskWith c.env.ver (diskFileRef c.env.ver) fid' d → r.inTar = false →
              ∃ cap : Nat, capOf (pathJoin r.container r.filename) = .ok cap ∧ capacityOf c.env.ver d = .ok (cap : Int) := by
            intro fid' d h1 h2 h3
            rw [hfid] at h1; cases h1
            rw [hdl] at h2
            exact absurd h3 (hno d h2)
          obtain ⟨q1, q2, q3, q4, -⟩ := same hr hz
          exact ⟨q1, q2, q3, Or.inl ⟨q4.trans hds, fun fid' d h1 => hz fid' d (hfid.trans h1)⟩⟩
        | some j =>
          obtain ⟨⟨d, hdj, hdt, hdr⟩, hdu⟩ := findPos_some.1 hd
          simp only [hds] at hr
          cases htar : r.inTar with
          | true =>
            rw [htar] at hr
            simp only [if_true] at hr
            cases hr
            exact ⟨rfl, rfl, rfl, Or.inl ⟨rfl, fun _ _ _ _ _ h => (nomatch h)⟩⟩
          | false =>
            rw [htar] at hr
            simp only [Bool.false_eq_true, if_false, hdj] at hr
            obtain ⟨cap, hcap, hr⟩ := bind_ok_inv hr
            obtain ⟨rep, hrep, hr⟩ := bind_ok_inv hr
            by_cases heq : rep = (cap : Int)
            · rw [if_pos heq] at hr
              cases hr
              refine ⟨rfl, rfl, rfl, Or.inl ⟨rfl, ?_⟩⟩
              intro fid' d' h1 h2 h3 _
              cases h1
              rw [hdl] at h2
              obtain ⟨j', hj'⟩ := List.mem_iff_getElem?.1 h2
              have := hdu j' d' hj' h3
              subst this
              rw [hdj] at hj'; cases hj'
              exact ⟨cap, hcap, by rw [hrep, heq]⟩
            · rw [if_neg heq] at hr
              obtain ⟨d', hd', hr⟩ := bind_ok_inv hr
              cases hr
              exact ⟨rfl, rfl, rfl, Or.inr ⟨fid, j, d, d', cap, ds, rfl, rfl, hdj, ⟨hdt, hdr⟩,
                fun j' o h1 h2 => hdu j' o h1 h2, hcap, hd', rfl, rfl⟩⟩

/-- what the loop does to one File entry -/
structure SizeRel (c : Ctx) (t : List (Str × FRef)) (e e' : Elem) : Prop where
  tag : e'.tag = e.tag
  other : ∀ key, key ≠ fileSize c.env.ver → e'.get key = e.get key
  size : ∀ h r, dget? t h = some r → FileWith c.env.ver (fileHref c.env.ver) h e →
    ∃ n, (r.readSize c.fs).1 = .ok n ∧ e'.get (fileSize c.env.ver) = some (natStr n)
  same : (∀ h, FileWith c.env.ver (fileHref c.env.ver) h e → h ∉ dkeys t) → e' = e

/-- what the loop does to one Disk entry -/
structure CapRel (c : Ctx) (capOf : Str → Except Err Nat) (cs : List Elem) (t : List (Str × FRef)) (d d' : Elem) : Prop where
  tag : d'.tag = d.tag
  other : ∀ key, key ≠ diskCapacity c.env.ver → key ≠ diskCapUnits c.env.ver → d'.get key = d.get key
  cap : ∀ h r e fid, dget? t h = some r → r.inTar = false → e ∈ cs → FileWith c.env.ver (fileHref c.env.ver) h e →
    e.get (fileId c.env.ver) = some fid → DiskWith c.env.ver (diskFileRef c.env.ver) fid d →
    ∃ cap : Nat, capOf (pathJoin r.container r.filename) = .ok cap ∧ capacityOf c.env.ver d' = .ok (cap : Int)
  same : (∀ h r e fid, dget? t h = some r → r.inTar = false → e ∈ cs → FileWith c.env.ver (fileHref c.env.ver) h e →
    e.get (fileId c.env.ver) = some fid → ¬ DiskWith c.env.ver (diskFileRef c.env.ver) fid d) → d' = d

theorem SizeRel.refl (c : Ctx) (e : Elem) : SizeRel c [] e e :=
  ⟨rfl, fun _ _ => rfl, fun _ _ h => (nomatch h), fun _ => rfl⟩

theorem forall₂_refl {α : Type} {R : α → α → Prop} (h : ∀ a, R a a) : ∀ l : List α, List.Forall₂ R l l
  | [] => .nil
  | a :: l => .cons (h a) (forall₂_refl h l)

theorem forall₂_of_getElem? {α : Type} {R : α → α → Prop} : ∀ {l l' : List α}, l.length = l'.length →
    (∀ (i : Nat) (a b : α), l[i]? = some a → l'[i]? = some b → R a b) → List.Forall₂ R l l'
  | [], [], _, _ => .nil
  | a :: l, b :: l', hl, h =>
    .cons (h 0 a b rfl rfl) (forall₂_of_getElem? (by simpa using hl) (fun i x y hx hy => h (i + 1) x y hx hy))

theorem forall₂_getElem? {α : Type} {R : α → α → Prop} : ∀ {l l' : List α}, List.Forall₂ R l l' → ∀ (i : Nat) (a b : α),
    l[i]? = some a → l'[i]? = some b → R a b
  | _, _, .cons h _, 0, a, b, ha, hb => by cases ha; cases hb; exact h
  | _, _, .cons _ t, i + 1, a, b, ha, hb => forall₂_getElem? t i a b ha hb

theorem refreshEach_inv {c : Ctx} {capOf : Str → Except Err Nat} (hu : c.env.ver ≠ .v0)
    (hcap : ∀ s n, capOf s = .ok n → 0 < n ∧ n ≤ 2 ^ 63) :
    ∀ {t : List (Str × FRef)} {p p' : Pkg}, (dkeys t).Nodup →
      Distinct p.refs.children (fileTag c.env.ver) (fileId c.env.ver) → refreshEach c capOf t p = .ok p' →
      p'.hw = p.hw ∧ p'.files = p.files ∧ (∃ cs, p'.refs = p.refs.setChildren cs) ∧
      List.Forall₂ (SizeRel c t) p.refs.children p'.refs.children ∧
      List.Forall₂ (CapRel c capOf p.refs.children t) p.diskList p'.diskList ∧
      (p.disks = none ↔ p'.disks = none) ∧
      ∀ h ∈ dkeys t, ∃ i, OnlyAt p.refs.children (FileWith c.env.ver (fileHref c.env.ver) h) i
  | [], p, p', _, _, h => by
    cases h
    refine ⟨rfl, rfl, ⟨p.refs.children, by cases p.refs; rfl⟩, forall₂_refl (SizeRel.refl c) _, ?_, Iff.rfl, fun h hh => (nomatch hh)⟩
    exact forall₂_refl (fun d => ⟨rfl, fun _ _ _ => rfl, fun _ _ _ _ h => (nomatch h), fun _ => rfl⟩) _
  | (n, r) :: t, p, p', hnd, hdist, h => by
    have hnd' : n ∉ dkeys t ∧ (dkeys t).Nodup := List.nodup_cons.1 hnd
    unfold refreshEach at h
    cases h1 : refreshOne c capOf n r p with
    | error e => rw [h1] at h; cases h
    | ok p1 =>
      rw [h1] at h
      simp only at h
      obtain ⟨i, e, sz, he, hfw, huq, hsz, hrefs, hhw, hfiles, hdisk⟩ := refreshOne_inv h1
      obtain ⟨n1, n2, n3⟩ := fileNames_ne c.env.ver
      have hilt := (List.getElem?_eq_some_iff.1 he).1
      have hcs : p1.refs.children = p.refs.children.set i (e.set (fileSize c.env.ver) (natStr sz)) := by
        rw [hrefs, setChildren_children]
      -- the step on the entries
      have hget : ∀ (m : Nat) (o o1 : Elem), p.refs.children[m]? = some o → p1.refs.children[m]? = some o1 →
          (m = i ∧ o = e ∧ o1 = e.set (fileSize c.env.ver) (natStr sz)) ∨ (m ≠ i ∧ o1 = o) := by
        intro m o o1 ho ho1
        rw [hcs, List.getElem?_set] at ho1
        by_cases him : i = m
        · subst him
          rw [if_pos rfl, if_pos hilt] at ho1
          rw [he] at ho; cases ho; cases ho1
          exact Or.inl ⟨rfl, rfl, rfl⟩
        · rw [if_neg him, ho] at ho1; cases ho1
          exact Or.inr ⟨Ne.symm him, rfl⟩
      have hlen : p1.refs.children.length = p.refs.children.length := by rw [hcs, List.length_set]
      have hattr : ∀ (m : Nat) (o o1 : Elem), p.refs.children[m]? = some o → p1.refs.children[m]? = some o1 →
          o1.tag = o.tag ∧ ∀ key, key ≠ fileSize c.env.ver → o1.get key = o.get key := by
        intro m o o1 ho ho1
        rcases hget m o o1 ho ho1 with ⟨-, rfl, rfl⟩ | ⟨-, rfl⟩
        · exact ⟨set_tag _ _ _, fun key hk => by rw [set_get, if_neg (Ne.symm hk)]⟩
        · exact ⟨rfl, fun _ _ => rfl⟩
      have hdist1 : Distinct p1.refs.children (fileTag c.env.ver) (fileId c.env.ver) := by
        intro a b x y s hx hy tx ty gx gy
        have ha : a < p.refs.children.length := by rw [← hlen]; exact (List.getElem?_eq_some_iff.1 hx).1
        have hb : b < p.refs.children.length := by rw [← hlen]; exact (List.getElem?_eq_some_iff.1 hy).1
        obtain ⟨t1, g1⟩ := hattr a _ _ (List.getElem?_eq_getElem ha) hx
        obtain ⟨t2, g2⟩ := hattr b _ _ (List.getElem?_eq_getElem hb) hy
        exact hdist a b _ _ s (List.getElem?_eq_getElem ha) (List.getElem?_eq_getElem hb) (t1.symm.trans tx) (t2.symm.trans ty)
          ((g1 _ n2).symm.trans gx) ((g2 _ n2).symm.trans gy)
      obtain ⟨i1, i2, ⟨cs', i3⟩, i4, i5, i6, i7⟩ := refreshEach_inv hu hcap hnd'.2 hdist1 h
      have hlen' := i4.length_eq
      have hfwit : ∀ (m : Nat) (o o1 : Elem) (x : Str), p.refs.children[m]? = some o → p1.refs.children[m]? = some o1 →
          (FileWith c.env.ver (fileHref c.env.ver) x o1 ↔ FileWith c.env.ver (fileHref c.env.ver) x o) := by
        intro m o o1 x ho ho1
        obtain ⟨t1, g1⟩ := hattr m o o1 ho ho1
        unfold FileWith
        rw [t1, g1 _ n3]
      refine ⟨by rw [i1, hhw], by rw [i2, hfiles], ⟨cs', by rw [i3, hrefs]; cases p.refs; rfl⟩, ?_, ?_, ?_, ?_⟩
      · refine forall₂_of_getElem? (by rw [← hlen', hlen]) ?_
        intro m o o' ho ho'
        have hm : m < p1.refs.children.length := by rw [hlen]; exact (List.getElem?_eq_some_iff.1 ho).1
        have ho1 := List.getElem?_eq_getElem hm
        have R := forall₂_getElem? i4 m _ _ ho1 ho'
        obtain ⟨t1, g1⟩ := hattr m o _ ho ho1
        refine ⟨R.tag.trans t1, fun key hk => (R.other key hk).trans (g1 key hk), ?_, ?_⟩
        · intro x rx hx hfx
          rw [dget?_cons] at hx
          by_cases hnx : n = x
          · rw [if_pos hnx] at hx
            cases hx; subst hnx
            have him := huq m o ho hfx
            rcases hget m o _ ho ho1 with ⟨-, -, q⟩ | ⟨q, -⟩
            · refine ⟨sz, hsz, ?_⟩
              have hsame := R.same (by
                intro y hy hyt
                have hy' := (hfwit m o _ y ho ho1).1 hy
                have : y = n := Option.some.inj (hy'.2.symm.trans hfx.2)
                exact hnd'.1 (this ▸ hyt))
              rw [hsame, q, set_get, if_pos rfl]
            · exact absurd him q
          · rw [if_neg hnx] at hx
            exact R.size x rx hx ((hfwit m o _ x ho ho1).2 hfx)
        · intro hno
          rcases hget m o _ ho ho1 with ⟨-, hoe, -⟩ | ⟨-, q⟩
          · subst hoe
            exact absurd List.mem_cons_self (hno n hfw)
          · rw [← q]
            refine R.same (fun y hy hyt => ?_)
            rw [q] at hy
            exact hno y hy (List.mem_cons_of_mem _ hyt)
      · -- the disks
        have hmem1 : ∀ o1 ∈ p1.refs.children, ∃ (m : Nat) (o : Elem), p.refs.children[m]? = some o ∧ p1.refs.children[m]? = some o1 := by
          intro o1 ho1
          obtain ⟨m, hm⟩ := List.mem_iff_getElem?.1 ho1
          have : m < p.refs.children.length := by rw [← hlen]; exact (List.getElem?_eq_some_iff.1 hm).1
          exact ⟨m, _, List.getElem?_eq_getElem this, hm⟩
        have hmem0 : ∀ o ∈ p.refs.children, ∃ (m : Nat) (o1 : Elem), p.refs.children[m]? = some o ∧ p1.refs.children[m]? = some o1 := by
          intro o ho
          obtain ⟨m, hm⟩ := List.mem_iff_getElem?.1 ho
          have : m < p1.refs.children.length := by rw [hlen]; exact (List.getElem?_eq_some_iff.1 hm).1
          exact ⟨m, _, hm, List.getElem?_eq_getElem this⟩
        obtain ⟨c1, c2, c3, -⟩ := diskNames_cap c.env.ver
        -- the step on the disks
        have step : p1.diskList.length = p.diskList.length ∧ ∀ (m : Nat) (d d1 : Elem), p.diskList[m]? = some d →
            p1.diskList[m]? = some d1 → d1.tag = d.tag ∧
            (∀ key, key ≠ diskCapacity c.env.ver → key ≠ diskCapUnits c.env.ver → d1.get key = d.get key) ∧
            (∀ fid, r.inTar = false → e.get (fileId c.env.ver) = some fid → DiskWith c.env.ver (diskFileRef c.env.ver) fid d →
              ∃ cap : Nat, capOf (pathJoin r.container r.filename) = .ok cap ∧ capacityOf c.env.ver d1 = .ok (cap : Int)) ∧
            ((r.inTar = false → ∀ fid, e.get (fileId c.env.ver) = some fid → ¬ DiskWith c.env.ver (diskFileRef c.env.ver) fid d) → d1 = d) := by
          rcases hdisk with ⟨hd0, hd1⟩ | ⟨fid, j, d0, d0', cap, ds, k1, k2, k3, k4, k5, k6, k7, k8, k9⟩
          · have hdl : p1.diskList = p.diskList := by unfold Pkg.diskList; rw [hd0]
            refine ⟨by rw [hdl], ?_⟩
            intro m d d1 hm hm1
            rw [hdl, hm] at hm1; cases hm1
            exact ⟨rfl, fun _ _ _ => rfl, fun fid hr hf hd => hd1 fid d hf (List.mem_of_getElem? hm) hd hr, fun _ => rfl⟩
          · have hdl : p.diskList = ds.children := diskList_of k1
            have hdl1 : p1.diskList = ds.children.set j d0' := by rw [diskList_of k8, setChildren_children]
            obtain ⟨s1, s2, s3⟩ := setCapacity_reads (hcap _ _ k6).1 (hcap _ _ k6).2 (fun hv => absurd hv hu) k7
            refine ⟨by rw [hdl1, hdl, List.length_set], ?_⟩
            intro m d d1 hm hm1
            rw [hdl] at hm
            rw [hdl1, List.getElem?_set] at hm1
            by_cases hjm : j = m
            · subst hjm
              rw [if_pos rfl, if_pos (List.getElem?_eq_some_iff.1 k3).1] at hm1
              rw [k3] at hm; cases hm; cases hm1
              exact ⟨s2, s3, fun fid' _ _ _ => ⟨cap, k6, s1⟩, fun hno => absurd k4 (hno k9 fid k2)⟩
            · rw [if_neg hjm, hm] at hm1; cases hm1
              refine ⟨rfl, fun _ _ _ => rfl, ?_, fun _ => rfl⟩
              intro fid' _ hf hd
              rw [k2] at hf; cases hf
              exact absurd (k5 m d hm hd).symm hjm
        refine forall₂_of_getElem? (by rw [← i5.length_eq, step.1]) ?_
        intro m d d' hd hd'
        have hm : m < p1.diskList.length := by rw [step.1]; exact (List.getElem?_eq_some_iff.1 hd).1
        have hd1 := List.getElem?_eq_getElem hm
        have R := forall₂_getElem? i5 m _ _ hd1 hd'
        obtain ⟨s1, s2, s3, s4⟩ := step.2 m d _ hd hd1
        have hdw : ∀ fid, DiskWith c.env.ver (diskFileRef c.env.ver) fid p1.diskList[m] ↔
            DiskWith c.env.ver (diskFileRef c.env.ver) fid d := by
          intro fid; unfold DiskWith; rw [s1, s2 _ c1 c2]
        refine ⟨R.tag.trans s1, fun key k1 k2 => (R.other key k1 k2).trans (s2 key k1 k2), ?_, ?_⟩
        · intro x rx o fid hx hrx ho hfx hid hdx
          rw [dget?_cons] at hx
          obtain ⟨mo, o1, g1, g2⟩ := hmem0 o ho
          obtain ⟨q1, q2⟩ := hattr mo o o1 g1 g2
          by_cases hnx : n = x
          · rw [if_pos hnx] at hx
            cases hx; subst hnx
            have him := huq mo o g1 hfx
            subst him
            rw [he] at g1; cases g1
            obtain ⟨cap, w1, w2⟩ := s3 fid hrx hid hdx
            refine ⟨cap, w1, ?_⟩
            rw [R.same ?_, w2]
            intro y ry oy fidy hy hry hoy hfy hidy hdy
            obtain ⟨my, o0, z1, z2⟩ := hmem1 oy hoy
            obtain ⟨z3, z4⟩ := hattr my o0 oy z1 z2
            rw [hdw] at hdy
            have hfid : fidy = fid := Option.some.inj (hdy.2.symm.trans hdx.2)
            subst hfid
            have hfy0 := (hfwit my o0 oy y z1 z2).1 hfy
            have := hdist my mo o0 e fidy z1 he hfy0.1 hfw.1 ((z4 _ n2).symm.trans hidy) hid
            subst this
            rw [he] at z1; cases z1
            have hyn : y = n := Option.some.inj (hfy0.2.symm.trans hfx.2)
            exact hnd'.1 (hyn ▸ List.mem_map.2 ⟨_, dget?_mem hy, rfl⟩)
          · rw [if_neg hnx] at hx
            exact R.cap x rx o1 fid hx hrx (List.mem_of_getElem? g2) ((hfwit mo o o1 x g1 g2).2 hfx)
              ((q2 _ n2).trans hid) ((hdw fid).2 hdx)
        · intro hno
          have h1 : p1.diskList[m] = d := s4 (fun hr fid hf => hno n r e fid (by rw [dget?_cons, if_pos rfl]) hr (List.mem_of_getElem? he) hfw hf)
          rw [← h1]
          refine R.same ?_
          intro y ry oy fidy hy hry hoy hfy hidy
          rw [h1]
          obtain ⟨my, o0, z1, z2⟩ := hmem1 oy hoy
          obtain ⟨z3, z4⟩ := hattr my o0 oy z1 z2
          have hny : n ≠ y := fun q => hnd'.1 (q ▸ List.mem_map.2 ⟨_, dget?_mem hy, rfl⟩)
          exact hno y ry o0 fidy (by rw [dget?_cons, if_neg hny]; exact hy) hry (List.mem_of_getElem? z1) ((hfwit my o0 oy y z1 z2).1 hfy)
            ((z4 _ n2).symm.trans hidy)
      · rw [← i6]
        rcases hdisk with ⟨hd0, -⟩ | ⟨fid, j, d0, d0', cap, ds, k1, k2, k3, k4, k5, k6, k7, k8, k9⟩
        · rw [hd0]
        · rw [k1, k8]; simp
      · intro x hx
        rcases List.mem_cons.1 hx with rfl | hx
        · exact ⟨i, ⟨e, he, hfw⟩, fun m o h1 h2 => huq m o h1 h2⟩
        · obtain ⟨m, ⟨o1, ho1, hf1⟩, hun⟩ := i7 x hx
          have hm : m < p.refs.children.length := by rw [← hlen]; exact (List.getElem?_eq_some_iff.1 ho1).1
          refine ⟨m, ⟨_, List.getElem?_eq_getElem hm, (hfwit m _ _ x (List.getElem?_eq_getElem hm) ho1).1 hf1⟩, ?_⟩
          intro m' o' ho' hf'
          have hm' : m' < p1.refs.children.length := by rw [hlen]; exact (List.getElem?_eq_some_iff.1 ho').1
          exact hun m' _ (List.getElem?_eq_getElem hm') ((hfwit m' o' _ x ho' (List.getElem?_eq_getElem hm')).2 hf')

end Cot
