import Verif.Props.PackageSearch
import Verif.Lemmas.SetAll
/-
C68: removing a file from a package.
-/
namespace Cot

theorem matchOrDie_ok {α : Type} [DecidableEq α] {a b : α} {u : Unit} (h : matchOrDie a b = .ok u) : a = b := by
  unfold matchOrDie at h
  by_cases hab : a = b
  · exact hab
  · rw [if_pos hab] at h; cases h

theorem orDie_ok {ask : Prompt → Bool} {q : Prompt} {u : Unit} (h : orDie ask q = .ok u) : ask q = true := by
  unfold orDie at h
  by_cases ha : ask q = true
  · exact ha
  · rw [if_neg ha] at h; cases h

theorem devicesOf_id {env : Env} {p : Pkg} {i : Nat} {d : Option Nat} {r : Found}
    (h : devicesOf env p (some i) d = .ok r) : ∃ s, attrOf p.refs.children i (fileId env.ver) = some s := by
  unfold devicesOf at h
  obtain ⟨k1, h1, -⟩ := bind_ok_inv h
  unfold findItemFromFile at h1
  simp only at h1
  cases ha : attrOf p.refs.children i (fileId env.ver) with
  | none => rw [ha] at h1; cases h1
  | some s => exact ⟨s, rfl⟩

theorem byName_id {env : Env} {p : Pkg} {name : Option Str} {i : Nat} {r : Found} (hi : r.file = some i)
    (h : searchFromFilename env p name = .ok r) : ∃ s, attrOf p.refs.children i (fileId env.ver) = some s := by
  unfold searchFromFilename at h
  split at h
  · cases h
  · cases h; cases hi
  · split at h
    · cases h
    · rename_i i' _ _ _ _
      have : r.file = some i' := by
        unfold devicesOf at h
        obtain ⟨k1, h1, h⟩ := bind_ok_inv h
        obtain ⟨k2, h2, h⟩ := bind_ok_inv h
        obtain ⟨k3, h3, h⟩ := bind_ok_inv h
        obtain ⟨c, h4, h⟩ := bind_ok_inv h
        cases k3 <;> cases c <;> cases h <;> rfl
      rw [hi] at this; cases this
      exact devicesOf_id h

/-- within a search result, using the File or the Disk found is using the file -/
theorem refers_iff {env : Env} {p : Pkg} {r : Found} {i : Nat} {e : Elem} {fid : Str} (hl : Linked env p r)
    (hi : r.file = some i) (he : p.refs.children[i]? = some e) (hid : e.get (fileId env.ver) = some fid) (it : Item) :
    RefersTo env.ver p r it ↔ DependsOn env.ver p fid it := by
  constructor
  · rintro (⟨i', e', fid', hi', he', hid', hu⟩ | ⟨j, d, did, hj, hd, hdid, hu⟩)
    · rw [hi] at hi'; cases hi'
      rw [he] at he'; cases he'
      rw [hid] at hid'; cases hid'
      exact Or.inl hu
    · obtain ⟨e', fid', he', hid', ho⟩ := hl.disk i j hi hj
      rw [he] at he'; cases he'
      rw [hid] at hid'; cases hid'
      obtain ⟨⟨d', hd', hw⟩, -⟩ := ho
      rw [hd] at hd'; cases hd'
      exact Or.inr ⟨d, List.mem_of_getElem? hd, hw, did, hdid, hu⟩
  · rintro (hu | ⟨d, hd, hw, did, hdid, hu⟩)
    · exact Or.inl ⟨i, e, fid, hi, he, hid, hu⟩
    · cases hj : r.disk with
      | none => exact absurd hw (hl.noDisk i e fid hi hj he hid d hd)
      | some j =>
        obtain ⟨e', fid', he', hid', ho⟩ := hl.disk i j hi hj
        rw [he] at he'; cases he'
        rw [hid] at hid'; cases hid'
        obtain ⟨n, hn⟩ := List.mem_iff_getElem?.1 hd
        have := ho.2 n d hn hw
        subst this
        exact Or.inr ⟨n, d, did, hj, hn, hdid, hu⟩

/-- the drive part of `remove_file` -/
theorem release_drive {env : Env} {hw hw' : Hw} {k : Str} {it : Item} (wf : HwWF env hw) (hk : dget? hw k = some it)
    (hd : InDefault env it)
    (h : (do
        let t ← it.getValue env resourceType none
        if t = some (.str "15".toList) then do
          let it' ← it.setProperty env hostResource (.str []) ∅ true
          .ok (dset hw k it')
        else if t = some (.str "17".toList) then deleteItem env hw k
        else .error .valueUnsupported : Except Err Hw) = .ok hw') : HwWF env hw' ∧ Released hw hw' k := by
  obtain ⟨t, ht, h⟩ := bind_ok_inv h
  rw [getValue_plain (plain_rt env)] at ht
  simp only [Except.ok.injEq] at ht
  subst ht
  have hkm : k ∈ dkeys hw := mem_dkeys_of_dget? hk
  by_cases h15 : it.getRaw resourceType none = some (.str "15".toList)
  · rw [if_pos h15] at h
    obtain ⟨it', hs, h⟩ := bind_ok_inv h
    simp only [Except.ok.injEq] at h
    subst h
    obtain ⟨w', g1, g2, -⟩ := setProperty_all (wf.get hk).1 (plain_hr env) (by decide +kernel) hs
    have hii : instanceId env.ver ≠ hostResource := by cases env.ver <;> decide +kernel
    refine ⟨wf.replace hkm w' ?_, ?_, it, hk, Or.inl ⟨getRaw_none_eq.1 h15, it', ?_, g2 rfl, g1⟩⟩
    · rw [g1 _ hii]
      exact wf.ident k it (dget?_mem hk)
    · intro k' hk'; rw [dget?_dset, if_neg (Ne.symm hk')]
    · rw [dget?_dset, if_pos rfl]
  · rw [if_neg h15] at h
    by_cases h17 : it.getRaw resourceType none = some (.str "17".toList)
    · rw [if_pos h17] at h
      unfold deleteItem at h
      obtain ⟨S, hS⟩ := default_id wf hk hd
      have hid : it.getRaw (instanceId env.ver) none = some (.str k) := getRaw_none_eq.2 ⟨S, hS⟩
      simp only [hk, hid] at h
      simp only [hkm, if_true, Except.ok.injEq] at h
      subst h
      refine ⟨⟨nodup_ddel wf.keys, fun a b hm => wf.items a b (mem_ddel hm), fun a b hm => wf.ident a b (mem_ddel hm)⟩,
        ?_, it, hk, Or.inr ⟨getRaw_none_eq.1 h17, ?_⟩⟩
      · intro k' hk'; rw [dget?_ddel, if_neg (Ne.symm hk')]
      · rw [dget?_ddel, if_pos rfl]
    · rw [if_neg h17] at h; cases h

/-- **C68.** A successful `remove-file` removes one File entry: the one with the name and the identifier given, after
asking.  The Disk on it, if there is one, is removed as well, and the drive that uses the file is released: a hard disk
is deleted, a CD-ROM drive is emptied.  Every other entry and device is as before. -/
theorem C68_remove_file {env : Env} {ask : Prompt → Bool} {p p' : Pkg} {path fid : Option Str} (wf : HwWF env p.hw)
    (h : removeFileCmd env ask p path fid = .ok p') :
    ∃ i old id name, p.refs.children[i]? = some old ∧ old.tag = fileTag env.ver ∧
      old.get (fileId env.ver) = some id ∧ old.get (fileHref env.ver) = some name ∧
      (∀ s, path = some s → name = s) ∧ (∀ s, fid = some s → id = s) ∧ (path ≠ none ∨ fid ≠ none) ∧
      ask (.removeFile (some name) (some id)) = true ∧
      p'.refs = p.refs.setChildren (p.refs.children.eraseIdx i) ∧
      name ∈ dkeys p.files ∧ p'.files = ddel p.files name ∧
      ((p'.disks = p.disks ∧ ∀ d ∈ p.diskList, ¬ DiskWith env.ver (diskFileRef env.ver) id d) ∨
        ∃ j ds, OnlyAt p.diskList (DiskWith env.ver (diskFileRef env.ver) id) j ∧ p.disks = some ds ∧
          p'.disks = some (ds.setChildren (ds.children.eraseIdx j))) ∧
      HwWF env p'.hw ∧
      ((p'.hw = p.hw ∧ ∀ k it, dget? p.hw k = some it → InDefault env it → ¬ DependsOn env.ver p id it) ∨
        ∃ k it, dget? p.hw k = some it ∧ InDefault env it ∧ DependsOn env.ver p id it ∧ Released p.hw p'.hw k ∧
          (OneStyle env.ver p.hw → ∀ k' it', dget? p.hw k' = some it' → InDefault env it' →
            DependsOn env.ver p id it' → k' = k)) := by
  unfold removeFileCmd at h
  simp only at h
  obtain ⟨r1, h1, h⟩ := bind_ok_inv h
  obtain ⟨r2, h2, h⟩ := bind_ok_inv h
  obtain ⟨f, hf, h⟩ := bind_ok_inv h
  obtain ⟨d, hd, h⟩ := bind_ok_inv h
  obtain ⟨k, hk, h⟩ := bind_ok_inv h
  cases f with
  | none => cases h
  | some i =>
    simp only at h
    obtain ⟨_, hm1, h⟩ := bind_ok_inv h
    obtain ⟨_, hm2, h⟩ := bind_ok_inv h
    obtain ⟨_, hask, h⟩ := bind_ok_inv h
    have hask := orDie_ok hask
    have hm1 : ∀ s, fid = some s → attrOf p.refs.children i (fileId env.ver) = some s := by
      rintro s rfl; exact (matchOrDie_ok hm1).symm
    have hm2 : ∀ s, path = some s → attrOf p.refs.children i (fileHref env.ver) = some s := by
      rintro s rfl; exact (matchOrDie_ok hm2).symm
    unfold removeFile at h
    obtain ⟨files, hfiles, h⟩ := bind_ok_inv h
    simp only at h
    obtain ⟨hw, hhw, h⟩ := bind_ok_inv h
    simp only [Except.ok.injEq] at h
    -- the name
    cases hname : attrOf p.refs.children i (fileHref env.ver) with
    | none => rw [hname] at hfiles; cases hfiles
    | some name =>
      rw [hname] at hfiles hm2
      simp only at hfiles
      have hin : name ∈ dkeys p.files := by
        by_contra hc
        rw [if_neg hc] at hfiles; cases hfiles
      rw [if_pos hin] at hfiles
      simp only [Except.ok.injEq] at hfiles
      subst hfiles
      obtain ⟨old, hold, hhref⟩ := attrOf_some hname
      -- the searches: either one is about this File, or it found nothing
      have e1 : r1 = ⟨none, none, none, none⟩ ∨
          (r1.file = some i ∧ Linked env p r1 ∧ old.tag = fileTag env.ver ∧ path ≠ none) := by
        cases path with
        | some s =>
          obtain ⟨l, a, b⟩ := C69_by_name wf h1
          cases hr : r1.file with
          | none => exact Or.inl (b hr).1
          | some i' =>
            have : i' = i := by
              have := (((C17_check_for_conflict [r1.file, r2.file]).1 i).1 hf).2 i' (by simp [hr])
              exact this
            subst this
            exact Or.inr ⟨rfl, l, ((a _ hr).unique hold).1, by simp⟩
        | none =>
          unfold searchFromFilename at h1
          cases hp : findPos p.refs.children (fileTag env.ver) (fileHref env.ver) none with
          | error e => rw [hp] at h1; cases h1
          | ok o =>
            rw [hp] at h1
            cases o with
            | none => cases h1; exact Or.inl rfl
            | some i' =>
              exfalso
              simp only at h1
              split at h1
              · cases h1
              · obtain ⟨g1, -⟩ := devicesOf_inv wf h1
                have : i' = i := (((C17_check_for_conflict [r1.file, r2.file]).1 i).1 hf).2 i' (by simp [g1])
                subst this
                obtain ⟨⟨e, he, -, hg⟩, -⟩ := findPos_some.1 hp
                rw [hold] at he; cases he
                rw [hhref] at hg; cases hg
      have e2 : r2 = ⟨none, none, none, none⟩ ∨
          (r2.file = some i ∧ Linked env p r2 ∧ old.tag = fileTag env.ver ∧ fid ≠ none) := by
        cases fid with
        | some s =>
          obtain ⟨l, a, b⟩ := C69_by_id wf h2
          cases hr : r2.file with
          | none => exact Or.inl (b hr).1
          | some i' =>
            have : i' = i := (((C17_check_for_conflict [r1.file, r2.file]).1 i).1 hf).2 i' (by simp [hr])
            subst this
            exact Or.inr ⟨rfl, l, ((a _ hr).unique hold).1, by simp⟩
        | none => cases h2; exact Or.inl rfl
      have hsome : r1.file = some i ∨ r2.file = some i := by
        have := (((C17_check_for_conflict [r1.file, r2.file]).1 i).1 hf).1
        simp at this
        rcases this with h | h
        · exact Or.inl h.symm
        · exact Or.inr h.symm
      have hgiven : path ≠ none ∨ fid ≠ none := by
        rcases hsome with hs | hs
        · rcases e1 with rfl | ⟨-, -, -, h⟩
          · cases hs
          · exact Or.inl h
        · rcases e2 with rfl | ⟨-, -, -, h⟩
          · cases hs
          · exact Or.inr h
      have htag : old.tag = fileTag env.ver := by
        rcases hsome with hs | hs
        · rcases e1 with rfl | ⟨-, -, h, -⟩
          · cases hs
          · exact h
        · rcases e2 with rfl | ⟨-, -, h, -⟩
          · cases hs
          · exact h
      have hident : ∃ id, old.get (fileId env.ver) = some id := by
        rcases hsome with hs | hs
        · obtain ⟨s, hs⟩ := byName_id hs h1
          exact ⟨s, by rw [← attrOf_eq hold]; exact hs⟩
        · rcases e2 with rfl | ⟨-, -, -, hne⟩
          · cases hs
          · cases fid with
            | none => exact absurd rfl hne
            | some s => exact ⟨s, by rw [← attrOf_eq hold]; exact hm1 s rfl⟩
      obtain ⟨id, hident⟩ := hident
      have hid' : attrOf p.refs.children i (fileId env.ver) = some id := by rw [attrOf_eq hold]; exact hident
      rw [hid'] at hm1 hask
      -- disk and drive of the two searches together
      have hdisk : (d = none ∧ ∀ x ∈ p.diskList, ¬ DiskWith env.ver (diskFileRef env.ver) id x) ∨
          ∃ j, d = some j ∧ OnlyAt p.diskList (DiskWith env.ver (diskFileRef env.ver) id) j := by
        cases d with
        | none =>
          refine Or.inl ⟨rfl, ?_⟩
          have hn := (C17_check_for_conflict [r1.disk, r2.disk]).2.1.1 hd
          rcases hsome with hs | hs
          · rcases e1 with rfl | ⟨-, l, -, -⟩
            · cases hs
            · refine l.noDisk i old id hs ?_ hold hident
              cases hx : r1.disk with
              | none => rfl
              | some j => exact absurd (by simp [hx]) (hn j)
          · rcases e2 with rfl | ⟨-, l, -, -⟩
            · cases hs
            · refine l.noDisk i old id hs ?_ hold hident
              cases hx : r2.disk with
              | none => rfl
              | some j => exact absurd (by simp [hx]) (hn j)
        | some j =>
          refine Or.inr ⟨j, rfl, ?_⟩
          have hm := (((C17_check_for_conflict [r1.disk, r2.disk]).1 j).1 hd).1
          simp at hm
          rcases hm with hm | hm
          · rcases e1 with rfl | ⟨hs, l, -, -⟩
            · cases hm
            · obtain ⟨e, fid', he, hg, ho⟩ := l.disk i j hs hm.symm
              rw [hold] at he; cases he
              rw [hident] at hg; cases hg
              exact ho
          · rcases e2 with rfl | ⟨hs, l, -, -⟩
            · cases hm
            · obtain ⟨e, fid', he, hg, ho⟩ := l.disk i j hs hm.symm
              rw [hold] at he; cases he
              rw [hident] at hg; cases hg
              exact ho
      have hdrive : (k = none ∧ ∀ k it, dget? p.hw k = some it → InDefault env it → ¬ DependsOn env.ver p id it) ∨
          ∃ k' it, k = some k' ∧ dget? p.hw k' = some it ∧ InDefault env it ∧ DependsOn env.ver p id it ∧
            (OneStyle env.ver p.hw → ∀ k2 it2, dget? p.hw k2 = some it2 → InDefault env it2 →
              DependsOn env.ver p id it2 → k2 = k') := by
        cases k with
        | none =>
          refine Or.inl ⟨rfl, ?_⟩
          have hn := (C17_check_for_conflict [r1.dev, r2.dev]).2.1.1 hk
          intro k' it' g1 g2 g3
          rcases hsome with hs | hs
          · rcases e1 with rfl | ⟨-, l, -, -⟩
            · cases hs
            · refine (l.noDev ?_).2 k' it' g1 g2 ((refers_iff l hs hold hident it').2 g3)
              cases hx : r1.dev with
              | none => rfl
              | some j => exact absurd (by simp [hx]) (hn j)
          · rcases e2 with rfl | ⟨-, l, -, -⟩
            · cases hs
            · refine (l.noDev ?_).2 k' it' g1 g2 ((refers_iff l hs hold hident it').2 g3)
              cases hx : r2.dev with
              | none => rfl
              | some j => exact absurd (by simp [hx]) (hn j)
        | some k' =>
          have hm := (((C17_check_for_conflict [r1.dev, r2.dev]).1 k').1 hk).1
          simp at hm
          rcases hm with hm | hm
          · rcases e1 with rfl | ⟨hs, l, -, hgp⟩
            · cases hm
            · obtain ⟨it, c, ci, g1, g2, g3, -⟩ := l.dev k' hm.symm
              refine Or.inr ⟨k', it, rfl, g1, g2, (refers_iff l hs hold hident it).1 g3, ?_⟩
              intro hst k2 it2 x1 x2 x3
              have hsr : ∃ name, searchFromFilename env p (some name) = .ok r1 := by
                cases path with
                | some s => exact ⟨s, h1⟩
                | none => exact absurd rfl hgp
              have := C69_only_device hst (Or.inl hsr) x1 x2 ((refers_iff l hs hold hident it2).2 x3)
              rw [← hm] at this; cases this; rfl
          · rcases e2 with rfl | ⟨hs, l, -, hgp⟩
            · cases hm
            · obtain ⟨it, c, ci, g1, g2, g3, -⟩ := l.dev k' hm.symm
              refine Or.inr ⟨k', it, rfl, g1, g2, (refers_iff l hs hold hident it).1 g3, ?_⟩
              intro hst k2 it2 x1 x2 x3
              have hsr : ∃ fid, searchFromFileId env p (some fid) = .ok r2 := by
                cases fid with
                | some s => exact ⟨s, h2⟩
                | none => exact absurd rfl hgp
              have := C69_only_device hst (Or.inr hsr) x1 x2 ((refers_iff l hs hold hident it2).2 x3)
              rw [← hm] at this; cases this; rfl
      subst h
      refine ⟨i, old, id, name, hold, htag, hident, hhref, ?_, ?_, hgiven, ?_, rfl, hin, rfl, ?_, ?_⟩
      · intro s hs; have := hm2 s hs; simpa using this
      · intro s hs; have := hm1 s hs; simpa using this
      · cases path with
        | none =>
          cases fid with
          | none => simpa [hname] using hask
          | some s =>
            have := hm1 s rfl
            simp only [Option.some.injEq] at this
            subst this
            simpa [hname] using hask
        | some t =>
          have ht := hm2 t rfl
          simp only [Option.some.injEq] at ht
          subst ht
          cases fid with
          | none => simpa using hask
          | some s =>
            have := hm1 s rfl
            simp only [Option.some.injEq] at this
            subst this
            simpa using hask
      · rcases hdisk with ⟨rfl, hno⟩ | ⟨j, rfl, ho⟩
        · exact Or.inl ⟨rfl, hno⟩
        · right
          cases hds : p.disks with
          | none =>
            obtain ⟨⟨e, he, -⟩, -⟩ := ho
            unfold Pkg.diskList at he
            rw [hds] at he; simp at he
          | some ds => exact ⟨j, ds, ho, rfl, rfl⟩
      · rcases hdrive with ⟨rfl, hno⟩ | ⟨k', it, rfl, g1, g2, g3, g4⟩
        · simp only [Except.ok.injEq] at hhw
          subst hhw
          exact ⟨wf, Or.inl ⟨rfl, hno⟩⟩
        · simp only [g1] at hhw
          obtain ⟨w', hrel⟩ := release_drive wf g1 g2 hhw
          exact ⟨w', Or.inr ⟨k', it, g1, g2, g3, hrel, g4⟩⟩

theorem removed_eraseIdx {cs : List Elem} {i : Nat} {e : Elem} (h : cs[i]? = some e) : Removed cs (cs.eraseIdx i) e := by
  obtain ⟨hlt, rfl⟩ := List.getElem?_eq_some_iff.1 h
  refine ⟨cs.take i, cs.drop (i + 1), ?_, List.eraseIdx_eq_take_drop_succ ..⟩
  rw [← List.drop_eq_getElem_cons hlt, List.take_append_drop]

theorem eraseIdx_unless {cs : List Elem} {P : Elem → Prop} {i : Nat} (h : ∀ j e, cs[j]? = some e → P e → j = i) :
    ∀ e ∈ cs.eraseIdx i, ¬ P e := by
  intro e he hp
  obtain ⟨j, hj⟩ := List.mem_iff_getElem?.1 he
  rw [List.getElem?_eraseIdx] at hj
  split at hj
  · have := h j e hj hp; omega
  · have := h (j + 1) e hj hp; omega

/-- **C68**, nothing is left pointing at the file: if File identifiers are distinct, all devices that use a file belong
to the default configuration, and references are written in one style, then after `remove-file` no File has the
identifier of the removed one, no Disk is on it, and no device uses it or its Disk. -/
theorem C68_no_dangling_partial {env : Env} {ask : Prompt → Bool} {p p' : Pkg} {path fid : Option Str}
    (wf : HwWF env p.hw) (hst : OneStyle env.ver p.hw)
    (hdist : Distinct p.refs.children (fileTag env.ver) (fileId env.ver))
    (hdef : ∀ id k it, dget? p.hw k = some it → DependsOn env.ver p id it → InDefault env it)
    (h : removeFileCmd env ask p path fid = .ok p') :
    ∃ old id, Removed p.refs.children p'.refs.children old ∧ FileWith env.ver (fileId env.ver) id old ∧
      (∀ e ∈ p'.refs.children, ¬ FileWith env.ver (fileId env.ver) id e) ∧
      (∀ d ∈ p'.diskList, ¬ DiskWith env.ver (diskFileRef env.ver) id d) ∧
      ∀ k it, dget? p'.hw k = some it → ¬ DependsOn env.ver p id it := by
  obtain ⟨i, old, id, name, h1, h2, h3, -, -, -, -, -, h4, -, -, h5, -, h6⟩ := C68_remove_file wf h
  refine ⟨old, id, ?_, ⟨h2, h3⟩, ?_, ?_, ?_⟩
  · rw [h4, setChildren_children]; exact removed_eraseIdx h1
  · rw [h4, setChildren_children]
    exact eraseIdx_unless (fun j e hj hp => hdist j i e old id hj h1 hp.1 h2 hp.2 h3)
  · rcases h5 with ⟨h5, hno⟩ | ⟨j, ds, ho, hds, h5⟩
    · unfold Pkg.diskList at hno ⊢
      rw [h5]; exact hno
    · unfold Pkg.diskList at ho ⊢
      rw [hds] at ho
      rw [h5]
      simp only [setChildren_children]
      exact eraseIdx_unless ho.2
  · rcases h6 with ⟨h6, hno⟩ | ⟨k, it, g1, g2, g3, ⟨r1, it0, r2, r3⟩, hu⟩
    · intro k it hk hdep
      rw [h6] at hk
      exact hno k it hk (hdef id k it hk hdep) hdep
    · intro k' it' hk' hdep
      by_cases hkk : k' = k
      · subst hkk
        rcases r3 with ⟨-, it2, e1, e2, -⟩ | ⟨-, e1⟩
        · rw [e1] at hk'; cases hk'
          have hnm : ∀ t, ¬ Mapped it' t := by rintro t ⟨S, hS⟩; rw [e2] at hS; cases hS
          rcases hdep with (hd | hd) | ⟨d, -, -, did, -, hd | hd⟩ <;> exact hnm _ hd
        · rw [e1] at hk'; cases hk'
      · rw [r1 k' hkk] at hk'
        exact hkk (hu hst k' it' hk' (hdef id k' it' hk' hdep) hdep)

/-- **C68**, the command works: a hard disk that is set up consistently can be removed, by the name of its file, by the
identifier, or by both. -/
theorem C68_succeeds {env : Env} {ask : Prompt → Bool} {p : Pkg} {name fid did : Str} {i j : Nat} {k c : Str} {it : Item}
    {path id : Option Str} (wf : HwWF env p.hw) (h : DiskSetUp env p name fid did i j k c) (hk : dget? p.hw k = some it)
    (htype : OfType it "17".toList) (hfile : name ∈ dkeys p.files)
    (hpath : path = some name ∨ path = none ∧ ∀ e ∈ p.refs.children, e.tag = fileTag env.ver → e.get (fileHref env.ver) ≠ none)
    (hid : id = some fid ∨ id = none) (hgiven : path ≠ none ∨ id ≠ none)
    (hask : ask (.removeFile (some name) (some fid)) = true) :
    ∃ p', removeFileCmd env ask p path id = .ok p' := by
  obtain ⟨s1, s2⟩ := C69_found_partial wf h
  obtain ⟨e, he, -, hfid⟩ := h.fileIdent.1
  obtain ⟨e', he', -, hname⟩ := h.fileName.1
  rw [he] at he'; cases he'
  obtain ⟨it', g1, g2, -, -⟩ := h.device
  rw [hk] at g1; cases g1
  have a1 : attrOf p.refs.children i (fileId env.ver) = some fid := by rw [attrOf_eq he]; exact hfid
  have a2 : attrOf p.refs.children i (fileHref env.ver) = some name := by rw [attrOf_eq he]; exact hname
  obtain ⟨S, hS⟩ := default_id wf hk g2
  have hdel : deleteItem env p.hw k = .ok (ddel p.hw k) := by
    unfold deleteItem
    have hid : it.getRaw (instanceId env.ver) none = some (.str k) := getRaw_none_eq.2 ⟨S, hS⟩
    simp [hk, hid, mem_dkeys_of_dget? hk]
  have hrt : it.getRaw resourceType none = some (.str "17".toList) := getRaw_none_eq.2 htype
  have hrem : ∃ p', removeFile env p i (some j) (some k) = .ok p' := by
    unfold removeFile
    simp only [bind, Except.bind, a2, hfile, if_true, hk, getValue_plain (plain_rt env), hrt, hdel]
    rw [if_neg (by decide +kernel)]
    exact ⟨_, rfl⟩
  obtain ⟨p', hp'⟩ := hrem
  refine ⟨p', ?_⟩
  have m1 : matchOrDie (some fid) (some fid) = .ok () := by unfold matchOrDie; simp
  have m2 : matchOrDie (some name) (some name) = .ok () := by unfold matchOrDie; simp
  have m3 : orDie ask (.removeFile (some name) (some fid)) = .ok () := by unfold orDie; rw [if_pos hask]
  have conf : ∀ {α : Type} [DecidableEq α] (x : α), checkForConflict [some x, some x] = .ok (some x) ∧
      checkForConflict [some x, none] = .ok (some x) ∧ checkForConflict [none, some x] = .ok (some x) := by
    intro α _ x
    exact ⟨((C17_check_for_conflict _).1 x).2 ⟨by simp, by simp⟩, ((C17_check_for_conflict _).1 x).2 ⟨by simp, by simp⟩,
      ((C17_check_for_conflict _).1 x).2 ⟨by simp, by simp⟩⟩
  have snone : searchFromFileId env p none = .ok ⟨none, none, none, none⟩ := rfl
  rcases hpath with rfl | ⟨rfl, hh⟩
  · rcases hid with rfl | rfl
    · unfold removeFileCmd
      simp only [bind, Except.bind, s1, s2, (conf i).1, (conf j).1, (conf k).1, a1, a2, m1, m2, m3]
      exact hp'
    · unfold removeFileCmd
      simp only [bind, Except.bind, s1, snone, (conf i).2.1, (conf j).2.1, (conf k).2.1, a1, a2, m2, m3]
      exact hp'
  · rcases hid with rfl | rfl
    · have s3 : searchFromFilename env p none = .ok ⟨none, none, none, none⟩ := by
        unfold searchFromFilename
        rw [findPos_none.2 (fun e he hc => hh e he hc.1 hc.2)]
      unfold removeFileCmd
      simp only [bind, Except.bind, s3, s2, (conf i).2.2, (conf j).2.2, (conf k).2.2, a1, a2, m1, m3]
      exact hp'
    · exact absurd hgiven (by simp)

/-! ### Cases -/

/-- the hard disk goes away with its Disk and File, on request by name, by identifier, or by both -/
example : (removeFileCmd exEnv (fun _ => true) exPkg (some "d.vmdk".toList) none).map
    (fun p => (p.refs.children.length, p.diskList.length, dkeys p.hw, dkeys p.files)) =
    .ok (1, 1, ["5".toList, "8".toList], ["c.iso".toList]) := rfl
example : ∃ p', removeFileCmd exEnv (fun _ => true) exPkg (some "d.vmdk".toList) (some "vmdk".toList) = .ok p' :=
  C68_succeeds exDiskHw_wf exPkg_setUp rfl ⟨_, rfl⟩ (by decide +kernel) (Or.inl rfl) (Or.inl rfl) (Or.inl (by simp)) rfl
/-- the CD-ROM drive stays, and is empty -/
example : (removeFileCmd exEnv (fun _ => true) exPkg none (some "iso".toList)).map
    (fun p => (p.refs.children, dkeys p.hw, (dget? p.hw "8".toList).map (fun it => it.tab hostResource))) =
    .ok ([exFileE "vmdk".toList "d.vmdk".toList "10".toList], ["5".toList, "8".toList, "9".toList], some []) := rfl
/-- name and identifier of different files, no such file, no consent -/
example : removeFileCmd exEnv (fun _ => true) exPkg (some "c.iso".toList) (some "vmdk".toList) = .error .valueMismatch := rfl
example : removeFileCmd exEnv (fun _ => true) exPkg (some "x.iso".toList) none = .error .invalidInput := rfl
example : removeFileCmd exEnv (fun _ => false) exPkg (some "c.iso".toList) none = .error .systemExit := rfl

theorem exDiskHw_style : OneStyle .v1 exDiskHw := by
  right
  have key : ∀ k it, dget? exDiskHw k = some it → ∀ e ∈ it.tab hostResource, ∀ s,
      e.1 ≠ .str ("/file/".toList ++ s) ∧ e.1 ≠ .str ("/disk/".toList ++ s) := by
    refine forall_items ?_
    have : ∀ kv ∈ exDiskHw, ∀ e ∈ kv.2.tab hostResource, ∃ t, e.1 = .str ('o' :: t) := by
      have h2 : ∀ kv ∈ exDiskHw, ∀ e ∈ kv.2.tab hostResource, (match e.1 with
        | .str (c :: _) => decide (c = 'o')
        | _ => false) = true := by decide +kernel
      intro kv hkv e he
      have := h2 kv hkv e he
      split at this
      · rename_i c t heq
        simp only [decide_eq_true_eq] at this
        subst this
        exact ⟨t, heq⟩
      · cases this
    intro kv hkv e he s
    obtain ⟨t, ht⟩ := this kv hkv e he
    rw [ht]
    constructor <;> · intro h; simp at h
  intro k it s hk
  constructor
  · rintro ⟨S, hS⟩; exact (key k it hk _ (by rw [hS]; exact List.mem_singleton.2 rfl) s).1 rfl
  · rintro ⟨S, hS⟩; exact (key k it hk _ (by rw [hS]; exact List.mem_singleton.2 rfl) s).2 rfl

/-- the hypotheses of `C68_no_dangling_partial` are met -/
example {p' : Pkg} (h : removeFileCmd exEnv (fun _ => true) exPkg (some "d.vmdk".toList) none = .ok p') :
    ∃ old id, Removed exPkg.refs.children p'.refs.children old ∧ FileWith .v1 (fileId .v1) id old ∧
      (∀ e ∈ p'.refs.children, ¬ FileWith .v1 (fileId .v1) id e) ∧
      (∀ d ∈ p'.diskList, ¬ DiskWith .v1 (diskFileRef .v1) id d) ∧
      ∀ k it, dget? p'.hw k = some it → ¬ DependsOn .v1 exPkg id it :=
  C68_no_dangling_partial (env := exEnv) exDiskHw_wf exDiskHw_style (by
    intro i j e f s hi hj te tf ge gf
    match i, j, hi, hj with
    | 0, 0, _, _ => rfl
    | 1, 1, _, _ => rfl
    | 0, 1, hi, hj => cases hi; cases hj; cases ge; exact absurd gf (by decide +kernel)
    | 1, 0, hi, hj => cases hi; cases hj; cases ge; exact absurd gf (by decide +kernel)
    | n + 2, _, hi, _ => cases hi
    | _, n + 2, _, hj => cases hj) (by
    intro id k it hk _
    have : ∀ kv ∈ exDiskHw, kv.2.hasProfile exEnv none = true := by decide +kernel
    exact this (k, it) (dget?_mem hk)) h

/-- **C68 fails** for a device that exists only under a profile: the Disk is removed, but the hard disk that uses it is
left in the package, pointing at nothing. -/
theorem C68_profile_only_fails : ∃ p' k it,
    removeFileCmd exEnv (fun _ => true) { exPkg with hw := exProfHw } (some "d.vmdk".toList) none = .ok p' ∧
    DependsOn .v1 { exPkg with hw := exProfHw } "vmdk".toList it ∧ dget? p'.hw k = some it ∧
    UsesDisk .v1 it "vmdisk1".toList ∧ ∀ d ∈ p'.diskList, ¬ DiskWith .v1 (diskId .v1) "vmdisk1".toList d := by
  refine ⟨_, "9".toList, _, rfl, ?_, rfl, Or.inl ⟨_, rfl⟩, ?_⟩
  · exact Or.inr ⟨exDiskE "vmdisk1".toList "vmdk".toList "1000".toList, List.mem_of_getElem? (i := 1) rfl, ⟨rfl, rfl⟩, _, rfl,
      Or.inl ⟨_, rfl⟩⟩
  · exact findPos_none.1 rfl

/-- a package of version 1 with two hard disks on the same Disk, one of them referring to it in the style of version 0.9 -/
def exMixed : Pkg :=
  { exPkg with hw := exDiskHw ++ [("7".toList, simpleItem [("InstanceID".toList, "7".toList), ("ResourceType".toList, "17".toList),
      ("Parent".toList, "5".toList), ("AddressOnParent".toList, "1".toList),
      ("HostResource".toList, "/disk/vmdisk1".toList)])] }

/-- **C68 fails** for mixed styles: the second device is left in the package, pointing at nothing. -/
theorem C68_mixed_style_fails : ∃ p' k it,
    removeFileCmd exEnv (fun _ => true) exMixed (some "d.vmdk".toList) none = .ok p' ∧
    DependsOn .v1 exMixed "vmdk".toList it ∧ InDefault exEnv it ∧ dget? p'.hw k = some it ∧
    UsesDisk .v1 it "vmdisk1".toList ∧ ∀ d ∈ p'.diskList, ¬ DiskWith .v1 (diskId .v1) "vmdisk1".toList d := by
  refine ⟨_, "7".toList, _, rfl, ?_, ?_, rfl, Or.inr ⟨_, rfl⟩, ?_⟩
  · exact Or.inr ⟨exDiskE "vmdisk1".toList "vmdk".toList "1000".toList, List.mem_of_getElem? (i := 1) rfl, ⟨rfl, rfl⟩, _, rfl,
      Or.inr ⟨_, rfl⟩⟩
  · rfl
  · exact findPos_none.1 rfl

/-- **C68 fails** for a file that was missing when the package was opened: it cannot be removed. -/
theorem C68_missing_fails :
    removeFileCmd exEnv (fun _ => true) { exPkg with files := [] } (some "c.iso".toList) none = .error .keyError := rfl

end Cot
