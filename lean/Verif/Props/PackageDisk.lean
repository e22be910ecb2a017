import Verif.Lemmas.PackageDisk
import Verif.Props.PackageRemove
/-
C67: adding a disk to a package.
-/
namespace Cot

/-! ### What the searches return exists -/

structure Sound (env : Env) (p : Pkg) (r : Found) : Prop where
  file : ∀ i, r.file = some i → ∃ e, p.refs.children[i]? = some e ∧ e.tag = fileTag env.ver
  disk : ∀ j, r.disk = some j → ∃ d, p.diskList[j]? = some d ∧ d.tag = diskTag env.ver
  ctrl : ∀ c, r.ctrl = some c → ∃ ci, dget? p.hw c = some ci
  dev : ∀ k, r.dev = some k → ∃ it c, dget? p.hw k = some it ∧ InDefault env it ∧ r.ctrl = some c

theorem Sound.of_linked {env : Env} {p : Pkg} {r : Found} (hl : Linked env p r)
    (hf : ∀ i, r.file = some i → ∃ e, p.refs.children[i]? = some e ∧ e.tag = fileTag env.ver)
    (hn : r.file = none → r = ⟨none, none, none, none⟩) : Sound env p r := by
  refine ⟨hf, ?_, ?_, ?_⟩
  · intro j hj
    cases hi : r.file with
    | none => rw [hn hi] at hj; cases hj
    | some i =>
      obtain ⟨e, fid, he, hid, ⟨d, h1, h2⟩, ho⟩ := hl.disk i j hi hj
      exact ⟨d, h1, h2.1⟩
  · intro c hc
    cases hk : r.dev with
    | none => rw [(hl.noDev hk).1] at hc; cases hc
    | some k =>
      obtain ⟨_, c', ci, -, -, -, h1, h2, -⟩ := hl.dev k hk
      rw [hc] at h1; cases h1
      exact ⟨ci, h2⟩
  · intro k hk
    obtain ⟨it, c, -, h1, h2, -, h3, -⟩ := hl.dev k hk
    exact ⟨it, c, h1, h2, h3⟩

theorem byName_sound {env : Env} {p : Pkg} {name : Str} {r : Found} (wf : HwWF env p.hw)
    (h : searchFromFilename env p (some name) = .ok r) : Sound env p r := by
  obtain ⟨h1, h2, h3⟩ := C69_by_name wf h
  refine Sound.of_linked h1 ?_ (fun hn => (h3 hn).1)
  intro i hi
  obtain ⟨⟨e, g1, g2⟩, -⟩ := h2 i hi
  exact ⟨e, g1, g2.1⟩

theorem byId_sound {env : Env} {p : Pkg} {fid : Str} {r : Found} (wf : HwWF env p.hw)
    (h : searchFromFileId env p (some fid) = .ok r) : Sound env p r := by
  obtain ⟨h1, h2, h3⟩ := C69_by_id wf h
  refine Sound.of_linked h1 ?_ (fun hn => (h3 hn).1)
  intro i hi
  obtain ⟨⟨e, g1, g2⟩, -⟩ := h2 i hi
  exact ⟨e, g1, g2.1⟩

theorem findPos_tag {cs : List Elem} {tag key : Str} {val : Option Str} {i : Nat}
    (h : findPos cs tag key val = .ok (some i)) : ∃ e, cs[i]? = some e ∧ e.tag = tag := by
  obtain ⟨⟨e, h1, h2⟩, -⟩ := findPos_some.1 h
  exact ⟨e, h1, h2.1⟩

theorem diskList_some {p : Pkg} {d : Elem} (h : p.disks = some d) : p.diskList = d.children := by
  unfold Pkg.diskList; rw [h]

theorem fromResource_sound {v : Ver} {p : Pkg} {s : Str} {fd : Option Nat × Option Nat}
    (h : fromResource v p s = .ok fd) :
    (∀ i, fd.1 = some i → ∃ e, p.refs.children[i]? = some e ∧ e.tag = fileTag v) ∧
    ∀ j, fd.2 = some j → ∃ d, p.diskList[j]? = some d ∧ d.tag = diskTag v := by
  unfold fromResource at h
  cases hp : p.disks with
  | none =>
    have hl : p.diskList = [] := by unfold Pkg.diskList; rw [hp]
    simp only [hp] at h
    by_cases h1 : isDiskRef v s = true
    · rw [if_pos h1] at h; cases h; exact ⟨by simp, by simp⟩
    · rw [if_neg h1] at h
      by_cases h2 : isFileRef v s = true
      · rw [if_pos h2] at h
        cases hf : findPos p.refs.children (fileTag v) (fileId v) (some (pathBase s)) with
        | error e => rw [hf] at h; cases h
        | ok f =>
          rw [hf] at h; cases h
          exact ⟨fun i hi => findPos_tag (by rw [hf]; exact congrArg _ hi), by simp⟩
      · rw [if_neg h2] at h; cases h; exact ⟨by simp, by simp⟩
  | some d =>
    have hl := diskList_some hp
    simp only [hp] at h
    by_cases h1 : isDiskRef v s = true
    · rw [if_pos h1] at h
      cases hd : findPos d.children (diskTag v) (diskId v) (some (pathBase s)) with
      | error e => rw [hd] at h; cases h
      | ok o =>
        rw [hd] at h
        cases o with
        | none => cases h; exact ⟨by simp, by simp⟩
        | some j =>
          simp only at h
          cases hf : findPos p.refs.children (fileTag v) (fileId v) (attrOf p.diskList j (diskFileRef v)) with
          | error e => rw [hf] at h; cases h
          | ok f =>
            rw [hf] at h; cases h
            refine ⟨fun i hi => findPos_tag (by rw [hf]; exact congrArg _ hi), ?_⟩
            intro j' hj'
            cases hj'
            rw [hl]; exact findPos_tag hd
    · rw [if_neg h1] at h
      by_cases h2 : isFileRef v s = true
      · rw [if_pos h2] at h
        cases hf : findPos p.refs.children (fileTag v) (fileId v) (some (pathBase s)) with
        | error e => rw [hf] at h; cases h
        | ok f =>
          rw [hf] at h
          simp only at h
          cases hd : findPos d.children (diskTag v) (diskFileRef v) (some (pathBase s)) with
          | error e => rw [hd] at h; cases h
          | ok o =>
            rw [hd] at h; cases h
            refine ⟨fun i hi => findPos_tag (by rw [hf]; exact congrArg _ hi), ?_⟩
            intro j' hj'
            rw [hl]; exact findPos_tag (by rw [hd]; exact congrArg _ hj')
      · rw [if_neg h2] at h; cases h; exact ⟨by simp, by simp⟩

theorem sound_nothing (env : Env) (p : Pkg) : Sound env p ⟨none, none, none, none⟩ :=
  ⟨by simp, by simp, by simp, by simp⟩

theorem byAddress_sound {env : Env} {p : Pkg} {controller addr : Option Str} {r : Found}
    (h : searchFromController env p controller addr = .ok r) : Sound env p r := by
  unfold searchFromController at h
  match controller, addr, h with
  | none, _, h => cases h; exact sound_nothing env p
  | some _, none, h => cases h; exact sound_nothing env p
  | some c, some a, h =>
    simp only at h
    match hs : splitOnChar ':' a, h with
    | [], h => cases h
    | [_], h => cases h
    | ca :: da :: _, h =>
      simp only at h
      obtain ⟨o, ho, h⟩ := bind_ok_inv h
      have plainA : ∀ kv ∈ [(address, some (Val.str ca))], Plain env kv.1 := by
        intro kv hkv; simp at hkv; subst hkv; exact plain_address env
      cases o with
      | none => cases h; exact sound_nothing env p
      | some k =>
        simp only at h
        obtain ⟨⟨ci, hci, -⟩, -⟩ := findItem_some plainA ho
        obtain ⟨inst, -, h⟩ := bind_ok_inv h
        obtain ⟨dev, hdev, h⟩ := bind_ok_inv h
        cases dev with
        | none =>
          cases h
          exact ⟨by simp, by simp, fun c hc => by cases hc; exact ⟨ci, hci⟩, by simp⟩
        | some d =>
          simp only at h
          have plainB : ∀ kv ∈ [(parentName, inst), (addressOnParent, some (Val.str da))], Plain env kv.1 := by
            intro kv hkv
            simp at hkv
            rcases hkv with rfl | rfl
            · exact plain_parent env
            · exact plain_aop env
          obtain ⟨⟨it, hit, hsought⟩, -⟩ := findItem_some plainB hdev
          have hdef : InDefault env it := hsought.2.1
          obtain ⟨hr, -, h⟩ := bind_ok_inv h
          cases hr with
          | none =>
            cases h
            exact ⟨by simp, by simp, fun c hc => by cases hc; exact ⟨ci, hci⟩,
              fun x hx => by cases hx; exact ⟨it, k, hit, hdef, rfl⟩⟩
          | some v =>
            simp only at h
            obtain ⟨s, -, h⟩ := bind_ok_inv h
            obtain ⟨fd, hfd, h⟩ := bind_ok_inv h
            cases h
            obtain ⟨g1, g2⟩ := fromResource_sound hfd
            exact ⟨g1, g2, fun c hc => by cases hc; exact ⟨ci, hci⟩,
              fun x hx => by cases hx; exact ⟨it, k, hit, hdef, rfl⟩⟩

theorem fromResource_noFile {v : Ver} {p : Pkg} {s : Str} {j : Nat} {g : Str}
    (h : fromResource v p s = .ok (none, some j)) (hg : attrOf p.diskList j (diskFileRef v) = some g) :
    ∀ e ∈ p.refs.children, ¬ FileWith v (fileId v) g e := by
  unfold fromResource at h
  cases hp : p.disks with
  | none => unfold attrOf Pkg.diskList at hg; rw [hp] at hg; cases hg
  | some d =>
    have hl := diskList_some hp
    simp only [hp] at h
    by_cases h1 : isDiskRef v s = true
    · rw [if_pos h1] at h
      cases hd : findPos d.children (diskTag v) (diskId v) (some (pathBase s)) with
      | error e => rw [hd] at h; cases h
      | ok o =>
        rw [hd] at h
        cases o with
        | none => cases h
        | some j' =>
          simp only at h
          cases hf : findPos p.refs.children (fileTag v) (fileId v) (attrOf p.diskList j' (diskFileRef v)) with
          | error e => rw [hf] at h; cases h
          | ok f =>
            rw [hf] at h; cases h
            rw [hg] at hf
            exact findPos_none.1 hf
    · rw [if_neg h1] at h
      by_cases h2 : isFileRef v s = true
      · rw [if_pos h2] at h
        cases hf : findPos p.refs.children (fileTag v) (fileId v) (some (pathBase s)) with
        | error e => rw [hf] at h; cases h
        | ok f =>
          rw [hf] at h
          simp only at h
          cases hd : findPos d.children (diskTag v) (diskFileRef v) (some (pathBase s)) with
          | error e => rw [hd] at h; cases h
          | ok o =>
            rw [hd] at h; cases h
            obtain ⟨⟨x, e1, -, e2⟩, -⟩ := findPos_some.1 hd
            rw [hl, attrOf_eq e1, e2] at hg
            cases hg
            exact findPos_none.1 hf
      · rw [if_neg h2] at h; cases h

theorem byAddress_noFile {env : Env} {p : Pkg} {controller addr : Option Str} {r : Found} {j : Nat} {g : Str}
    (h : searchFromController env p controller addr = .ok r) (hn : r.file = none) (hj : r.disk = some j)
    (hg : attrOf p.diskList j (diskFileRef env.ver) = some g) :
    ∀ e ∈ p.refs.children, ¬ FileWith env.ver (fileId env.ver) g e := by
  unfold searchFromController at h
  match controller, addr, h with
  | none, _, h => cases h; cases hj
  | some _, none, h => cases h; cases hj
  | some c, some a, h =>
    simp only at h
    match hs : splitOnChar ':' a, h with
    | [], h => cases h
    | [_], h => cases h
    | ca :: da :: _, h =>
      simp only at h
      obtain ⟨o, -, h⟩ := bind_ok_inv h
      cases o with
      | none => cases h; cases hj
      | some k =>
        simp only at h
        obtain ⟨inst, -, h⟩ := bind_ok_inv h
        obtain ⟨dev, -, h⟩ := bind_ok_inv h
        cases dev with
        | none => cases h; cases hj
        | some d =>
          simp only at h
          obtain ⟨hr, -, h⟩ := bind_ok_inv h
          cases hr with
          | none => cases h; cases hj
          | some v =>
            simp only at h
            obtain ⟨s, -, h⟩ := bind_ok_inv h
            obtain ⟨⟨f, d'⟩, hfd, h⟩ := bind_ok_inv h
            cases h
            simp only at hn hj
            subst hn hj
            exact fromResource_noFile hfd hg

theorem conflict_none {α : Type} [DecidableEq α] {a b c : Option α} (h : checkForConflict [a, b, c] = .ok none) :
    a = none ∧ b = none ∧ c = none := by
  have hn := (C17_check_for_conflict [a, b, c]).2.1.1 h
  refine ⟨?_, ?_, ?_⟩
  · cases a with
    | none => rfl
    | some x => exact absurd (by simp) (hn x)
  · cases b with
    | none => rfl
    | some x => exact absurd (by simp) (hn x)
  · cases c with
    | none => rfl
    | some x => exact absurd (by simp) (hn x)

theorem conflict_some {α : Type} [DecidableEq α] {a b c : Option α} {x : α} (h : checkForConflict [a, b, c] = .ok (some x)) :
    (a = some x ∨ b = some x ∨ c = some x) ∧ (∀ y, a = some y → y = x) ∧ (∀ y, b = some y → y = x) ∧
      ∀ y, c = some y → y = x := by
  obtain ⟨h1, h2⟩ := ((C17_check_for_conflict [a, b, c]).1 x).1 h
  refine ⟨?_, ?_, ?_, ?_⟩
  · simp only [List.mem_cons, List.not_mem_nil, or_false] at h1
    rcases h1 with h | h | h
    · exact Or.inl h.symm
    · exact Or.inr (Or.inl h.symm)
    · exact Or.inr (Or.inr h.symm)
  · rintro y rfl; exact h2 y (by simp)
  · rintro y rfl; exact h2 y (by simp)
  · rintro y rfl; exact h2 y (by simp)

/-- what `search_for_elements` finds exists; if it finds no device, the controller is the one at the address -/
theorem searchForElements_inv {env : Env} {p : Pkg} {name : Str} {fid controller addr : Option Str} {r : Found}
    (wf : HwWF env p.hw) (h : searchForElements env p name fid controller addr = .ok r) :
    Sound env p r ∧ (∃ r3, searchFromController env p controller addr = .ok r3 ∧
      (r.dev = none → r3.dev = none ∧ r.ctrl = r3.ctrl)) ∧
      (∀ i e, p.refs.children[i]? = some e → FileWith env.ver (fileHref env.ver) name e → r.file = some i) ∧
      (∀ i e, p.refs.children[i]? = some e → FileWith env.ver (fileId env.ver) (fid.getD name) e → r.file = some i) ∧
      (r.file = none → ∀ j f, r.disk = some j → attrOf p.diskList j (diskFileRef env.ver) = some f →
        ∀ e ∈ p.refs.children, ¬ FileWith env.ver (fileId env.ver) f e) := by
  unfold searchForElements at h
  obtain ⟨r1, h1, h⟩ := bind_ok_inv h
  obtain ⟨r2, h2, h⟩ := bind_ok_inv h
  obtain ⟨r3, h3, h⟩ := bind_ok_inv h
  obtain ⟨f, hf, h⟩ := bind_ok_inv h
  obtain ⟨d, hd, h⟩ := bind_ok_inv h
  obtain ⟨cc, hc, h⟩ := bind_ok_inv h
  obtain ⟨k, hk, h⟩ := bind_ok_inv h
  cases h
  have s1 := byName_sound wf h1
  have l1 := (C69_by_name wf h1).1
  have h2 : searchFromFileId env p (some (fid.getD name)) = .ok r2 := by
    cases fid with
    | none => exact h2
    | some s => exact h2
  have s2 := byId_sound wf h2
  obtain ⟨l2, l2f, l2n⟩ := C69_by_id wf h2
  obtain ⟨-, l1f, l1n⟩ := C69_by_name wf h1
  have s3 := byAddress_sound h3
  have hfx : ∀ i, (r1.file = some i ∨ r2.file = some i) → f = some i := by
    intro i hi
    cases f with
    | none =>
      obtain ⟨a, b, -⟩ := conflict_none hf
      rw [a, b] at hi; simp at hi
    | some x =>
      rcases hi with hi | hi
      · rw [(conflict_some hf).2.1 i hi]
      · rw [(conflict_some hf).2.2.1 i hi]
  refine ⟨⟨?_, ?_, ?_, ?_⟩, ⟨r3, h3, ?_⟩, ?_, ?_, ?_⟩
  rotate_left 5
  · intro i e hi he
    cases h : r1.file with
    | none => exact absurd he ((l1n h).2 e (List.mem_of_getElem? hi))
    | some x =>
      have := (l1f x h).2 i e hi he
      subst this
      exact hfx i (Or.inl h)
  · intro i e hi he
    cases h : r2.file with
    | none => exact absurd he ((l2n h).2.1 e (List.mem_of_getElem? hi))
    | some x =>
      have := (l2f x h).2 i e hi he
      subst this
      exact hfx i (Or.inr h)
  · rintro rfl j g rfl hg
    obtain ⟨a, b, cfn⟩ := conflict_none hf
    rcases (conflict_some hd).1 with h | h | h
    · rw [(l1n a).1] at h; cases h
    · rw [(l2n b).1] at h; cases h
    · exact byAddress_noFile h3 cfn h hg
  · rintro i rfl
    rcases (conflict_some hf).1 with h | h | h
    · exact s1.file i h
    · exact s2.file i h
    · exact s3.file i h
  · rintro i rfl
    rcases (conflict_some hd).1 with h | h | h
    · exact s1.disk i h
    · exact s2.disk i h
    · exact s3.disk i h
  · rintro i rfl
    rcases (conflict_some hc).1 with h | h | h
    · exact s1.ctrl i h
    · exact s2.ctrl i h
    · exact s3.ctrl i h
  · rintro i rfl
    have hcn : ∀ x, (r1.ctrl = some x ∨ r2.ctrl = some x ∨ r3.ctrl = some x) → ∃ y, cc = some y := by
      rintro x hx
      cases cc with
      | some y => exact ⟨y, rfl⟩
      | none =>
        obtain ⟨a, b, c⟩ := conflict_none hc
        rw [a, b, c] at hx; simp at hx
    rcases (conflict_some hk).1 with h | h | h
    · obtain ⟨it, x, g1, g2, g3⟩ := s1.dev i h
      obtain ⟨y, hy⟩ := hcn x (Or.inl g3)
      exact ⟨it, y, g1, g2, hy⟩
    · obtain ⟨it, x, g1, g2, g3⟩ := s2.dev i h
      obtain ⟨y, hy⟩ := hcn x (Or.inr (Or.inl g3))
      exact ⟨it, y, g1, g2, hy⟩
    · obtain ⟨it, x, g1, g2, g3⟩ := s3.dev i h
      obtain ⟨y, hy⟩ := hcn x (Or.inr (Or.inr g3))
      exact ⟨it, y, g1, g2, hy⟩
  · rintro rfl
    obtain ⟨a, b, c⟩ := conflict_none hk
    refine ⟨c, ?_⟩
    have e1 := (l1.noDev a).1
    have e2 := (l2.noDev b).1
    show cc = r3.ctrl
    cases cc with
    | none => exact (conflict_none hc).2.2.symm
    | some x =>
      rcases (conflict_some hc).1 with h | h | h
      · rw [e1] at h; cases h
      · rw [e2] at h; cases h
      · exact h.symm

/-! ### Types -/

theorem resourceCode_ctrl {t code : Str} (h : ControllerCode t code) : resourceCode t = .ok code := by
  rcases h with ⟨rfl, rfl⟩ | ⟨rfl, rfl⟩ | ⟨rfl, rfl⟩ <;> rfl

theorem resourceCode_drive {t code : Str} (h : DriveCode t code) : resourceCode t = .ok code := by
  rcases h with ⟨rfl, rfl⟩ | ⟨rfl, rfl⟩ <;> rfl

theorem hardwareType_sata {env : Env} {it : Item} (h : it.hardwareType env = "sata".toList) : OfType it "20".toList := by
  unfold OfType; rw [← getRaw_none_eq]
  unfold Item.hardwareType at h
  cases hr : it.getRaw resourceType none with
  | none => rw [hr] at h; simp only at h; exact absurd h (by decide +kernel)
  | some v =>
    rw [hr] at h
    simp only at h
    cases hf : resMap.find? (fun kv => Val.str kv.2 = v) with
    | none =>
      rw [hf] at h
      simp only at h
      have : "unknown (".toList ++ env.valStr v ++ ")".toList ≠ "sata".toList := by
        intro hh
        have : some 'u' = some 's' := congrArg List.head? hh
        exact absurd this (by decide)
      exact absurd h this
    | some kv =>
      rw [hf] at h
      simp only at h
      have h1 := List.find?_some hf
      have h2 := List.mem_of_find?_eq_some hf
      simp only [decide_eq_true_eq] at h1
      have : ∀ kv ∈ resMap, kv.1 = "sata".toList → kv.2 = "20".toList := by decide +kernel
      rw [← h1, this kv h2 h]

theorem hardwareType_ctrl {env : Env} {it : Item} {t code : Str} (hc : ControllerCode t code)
    (h : it.hardwareType env = t) : OfType it code := by
  rcases hc with ⟨rfl, rfl⟩ | ⟨rfl, rfl⟩ | ⟨rfl, rfl⟩
  · exact hardwareType_ide.1 h
  · exact hardwareType_scsi.1 h
  · exact hardwareType_sata h

theorem hardwareType_drive {env : Env} {it : Item} {t code : Str} (hc : DriveCode t code)
    (h : it.hardwareType env = t) : OfType it code := by
  unfold OfType; rw [← getRaw_none_eq]
  unfold Item.hardwareType at h
  have hu : t.head? = some 'h' ∨ t.head? = some 'c' := by rcases hc with ⟨rfl, -⟩ | ⟨rfl, -⟩ <;> simp
  cases hr : it.getRaw resourceType none with
  | none =>
    rw [hr] at h; simp only at h
    rw [← h] at hu
    exact absurd hu (by decide +kernel)
  | some v =>
    rw [hr] at h
    simp only at h
    cases hf : resMap.find? (fun kv => Val.str kv.2 = v) with
    | none =>
      rw [hf] at h
      simp only at h
      rw [← h] at hu
      rcases hu with hu | hu
      · have : some 'u' = some 'h' := hu
        exact absurd this (by decide)
      · have : some 'u' = some 'c' := hu
        exact absurd this (by decide)
    | some kv =>
      rw [hf] at h
      simp only at h
      have h1 := List.find?_some hf
      have h2 := List.mem_of_find?_eq_some hf
      simp only [decide_eq_true_eq] at h1
      have h3 : ∀ kv ∈ resMap, (kv.1 = "harddisk".toList → kv.2 = "17".toList) ∧ (kv.1 = "cdrom".toList → kv.2 = "15".toList) := by
        decide +kernel
      rcases hc with ⟨rfl, rfl⟩ | ⟨rfl, rfl⟩
      · rw [← h1, (h3 kv h2).1 h]
      · rw [← h1, (h3 kv h2).2 h]

/-! ### The choice of the controller -/

theorem iid_value {env : Env} {hw : Hw} {k : Str} {it : Item} (wf : HwWF env hw) (hk : dget? hw k = some it)
    (hid : it.tab (instanceId env.ver) ≠ []) : it.getValue env (instanceId env.ver) none = .ok (some (.str k)) := by
  rw [getValue_plain (plain_iid env)]
  obtain ⟨wc, S, hS⟩ := wf.get hk
  have : it.getRaw (instanceId env.ver) none = some (.str k) := by
    rw [getRaw_none_eq]
    unfold tagTab at hS
    by_cases hSe : S = ∅
    · rw [if_pos hSe] at hS; exact absurd hS hid
    · rw [if_neg hSe] at hS; exact ⟨S, hS⟩
  rw [this]

theorem openLoop_inv {env : Env} {hw : Hw} {ct : Str} (wf : HwWF env hw) (ht : Tidy env hw) :
    ∀ {ids : List Str} {id s : Str}, openLoop env hw ct ids = .ok (some (id, s)) →
    ∃ c x n, dget? hw id = some c ∧ s = x ++ ':' :: natStr n ∧ ':' ∉ x ∧ FirstFree (Occupied hw id) n
  | [], id, s, h => by cases h
  | i :: r, id, s, h => by
    unfold openLoop at h
    cases hc : dget? hw i with
    | none => rw [hc] at h; cases h
    | some c =>
      rw [hc] at h
      simp only [iid_value wf hc (ht.ident i c hc), getValue_plain (plain_address env)] at h
      obtain ⟨n, hn1, hn2⟩ := freeOnController_spec env hw i
      simp only [hn1] at h
      by_cases hfull : (ct = "scsi".toList ∧ n > 7) ∨ (ct = "ide".toList ∧ n > 1)
      · rw [if_pos hfull] at h
        exact openLoop_inv wf ht h
      · rw [if_neg hfull] at h
        simp only [Except.ok.injEq, Option.some.injEq, Prod.mk.injEq] at h
        obtain ⟨rfl, rfl⟩ := h
        refine ⟨c, _, n, hc, rfl, ?_, hn2⟩
        cases ha : c.getRaw address none with
        | none => simp only; decide
        | some v =>
          obtain ⟨S, hS⟩ := getRaw_none_eq.1 ha
          cases v with
          | tup l =>
            have h1 := ((wf.get hc).1.typed address (.tup l) S (by rw [hS]; simp)).1 rfl
            exact absurd h1 (by decide +kernel)
          | str ca =>
            exact ht.plainAddress i c ca S hc hS

/-- what `add_disk_worker` settles on -/
theorem settle_inv {env : Env} {plat : Str → Str} {p : Pkg} {q : DiskReq} {r : Found} {s : Str × Option Str × Option Str}
    (wf : HwWF env p.hw) (ht : Tidy env p.hw) (hq : Sensible q) (hplat : ∃ code, ControllerCode (plat q.drive) code)
    (h : settleController env plat p q r = .ok s) :
    (∃ code, ControllerCode s.1 code) ∧ (∀ t, q.controller = some t → s.1 = t) ∧
    (q.controller = none → r.ctrl = none → s.1 = plat q.drive) ∧
    ((r.ctrl = none ∧ q.address = none ∧ s.2 = (none, none)) ∨
      (r.ctrl = none ∧ q.address = none ∧ ∃ k c x n, s.2 = (some k, some (x ++ ':' :: natStr n)) ∧ dget? p.hw k = some c ∧
        ':' ∉ x ∧ FirstFree (Occupied p.hw k) n) ∨
      ((r.ctrl ≠ none ∨ q.address ≠ none) ∧ s.2 = (r.ctrl, q.address))) := by
  unfold settleController at h
  obtain ⟨ct, hct, h⟩ := bind_ok_inv h
  have hcode : (∃ code, ControllerCode ct code) ∧ (∀ t, q.controller = some t → ct = t) ∧
      (q.controller = none → r.ctrl = none → ct = plat q.drive) := by
    cases hc : q.controller with
    | some t =>
      rw [hc] at hct
      cases hct
      exact ⟨hq.controller _ hc, fun t h => by cases h; rfl, by simp⟩
    | none =>
      rw [hc] at hct
      simp only at hct
      unfold guessController at hct
      cases hr : r.ctrl with
      | none =>
        rw [hr] at hct
        cases hct
        exact ⟨hplat, by simp, fun _ _ => rfl⟩
      | some k =>
        rw [hr] at hct
        simp only at hct
        refine ⟨?_, by simp, by simp⟩
        cases hk : dget? p.hw k with
        | none => rw [hk] at hct; cases hct
        | some it =>
          rw [hk] at hct
          simp only at hct
          split at hct
          · rename_i hm
            cases hct
            simp only [List.mem_cons, List.not_mem_nil, or_false] at hm
            rcases hm with h | h | h
            · exact ⟨_, Or.inl ⟨h, rfl⟩⟩
            · exact ⟨_, Or.inr (Or.inr ⟨h, rfl⟩)⟩
            · exact ⟨_, Or.inr (Or.inl ⟨h, rfl⟩)⟩
          · cases hct
  obtain ⟨g1, g2, g3⟩ := hcode
  cases hr : r.ctrl with
  | some k =>
    rw [hr] at h g3
    cases h
    exact ⟨g1, g2, g3, Or.inr (Or.inr ⟨Or.inl (by simp), rfl⟩)⟩
  | none =>
    rw [hr] at h g3
    cases ha : q.address with
    | some a =>
      rw [ha] at h
      cases h
      exact ⟨g1, g2, g3, Or.inr (Or.inr ⟨Or.inr (by simp), rfl⟩)⟩
    | none =>
      rw [ha] at h
      simp only at h
      obtain ⟨o, ho, h⟩ := bind_ok_inv h
      cases o with
      | none =>
        cases h
        exact ⟨g1, g2, g3, Or.inl ⟨rfl, rfl, rfl⟩⟩
      | some ka =>
        obtain ⟨k, a⟩ := ka
        cases h
        unfold findOpenController at ho
        cases hi : findAllItems env p.hw (some ct) [] [] with
        | error e => rw [hi] at ho; cases ho
        | ok ids =>
          rw [hi] at ho
          obtain ⟨c, x, n, e1, rfl, e3, e4⟩ := openLoop_inv wf ht ho
          exact ⟨g1, g2, g3, Or.inr (Or.inl ⟨rfl, rfl, k, c, x, n, rfl, e1, e3, e4⟩)⟩

theorem validate_inv {env : Env} {p : Pkg} {r : Found} {fid : Option Str} {ct : Str} {u : Unit} (wf : HwWF env p.hw)
    (ht : Tidy env p.hw) (h : validateElements env p r fid ct = .ok u) :
    (∀ i j, r.file = some i → r.disk = some j →
      attrOf p.refs.children i (fileId env.ver) = attrOf p.diskList j (diskFileRef env.ver)) ∧
    (∀ c ci, r.ctrl = some c → dget? p.hw c = some ci → ci.hardwareType env = ct) ∧
    (∀ k it c ci, r.dev = some k → dget? p.hw k = some it → r.ctrl = some c → dget? p.hw c = some ci → ChildOf it c) := by
  unfold validateElements at h
  simp only at h
  obtain ⟨_, hx, h⟩ := bind_ok_inv h
  obtain ⟨_, -, h⟩ := bind_ok_inv h
  obtain ⟨_, hs, h⟩ := bind_ok_inv h
  refine ⟨?_, ?_, ?_⟩
  · intro i j hi hj
    rw [hi, hj] at hx
    simp only at hx
    obtain ⟨_, -, hx⟩ := bind_ok_inv hx
    exact matchOrDie_ok hx
  · intro c ci hc hci
    rw [hc] at h
    simp only [hci] at h
    exact matchOrDie_ok h
  · intro k it c ci hk hit hc hci
    unfold checkSanity at hs
    rw [hk, hc] at hs
    simp only at hs
    obtain ⟨_, hm, -⟩ := bind_ok_inv hs
    obtain ⟨a, ha, hm⟩ := bind_ok_inv hm
    obtain ⟨b, hb, hm⟩ := bind_ok_inv hm
    unfold valueAt at ha hb
    rw [hit] at ha
    rw [hci] at hb
    simp only at ha hb
    rw [iid_value wf hci (ht.ident c ci hci)] at hb
    rw [getValue_plain (plain_parent env)] at ha
    cases ha; cases hb
    have := matchOrDie_ok hm
    exact getRaw_none_eq.1 this

/-! ### The whole command -/

/-- what has been asked and agreed to when the confirmation succeeds -/
theorem confirm_inv {env : Env} {ask : Prompt → Bool} {p : Pkg} {r : Found} {path drive ct : Str} {subtype : Option Str}
    {u : Unit} (h : confirmElements env ask p r path drive ct subtype = .ok u) :
    (∀ i, r.file = some i → ask (.replaceFile (attrOf p.refs.children i (fileHref env.ver)) path) = true) ∧
    (r.file = none → r.disk ≠ none ∨ r.dev ≠ none → ask (.fillDrive drive) = true) ∧
    (∀ k it, r.dev = some k → dget? p.hw k = some it →
      it.hardwareType env = drive ∨ ask (.changeType (it.hardwareType env) drive) = true) ∧
    (r.ctrl = none → ask (.addController (upper ct)) = true) ∧
    (∀ k s ci w S, r.ctrl = some k → subtype = some s → dget? p.hw k = some ci → ci.tab resourceSubType = [(w, S)] →
      w = .str s ∨ ask (.changeSubtype ct w s) = true) := by
  unfold confirmElements at h
  simp only at h
  obtain ⟨_, h1, h⟩ := bind_ok_inv h
  obtain ⟨_, h2, h⟩ := bind_ok_inv h
  refine ⟨?_, ?_, ?_, ?_, ?_⟩
  · intro i hi
    rw [hi] at h1
    exact orDie_ok h1
  · intro hf hd
    rw [hf] at h1
    simp only at h1
    rw [if_pos (by rcases hd with hd | hd <;> simp [Option.isSome_iff_ne_none, hd])] at h1
    exact orDie_ok h1
  · intro k it hk hit
    rw [hk] at h2
    simp only [hit] at h2
    by_cases hty : it.hardwareType env = drive
    · exact Or.inl hty
    · rw [if_pos hty] at h2
      exact Or.inr (orDie_ok h2)
  · intro hc
    rw [hc] at h
    exact orDie_ok h
  · intro k s ci w S hk hs hci hw
    rw [hk, hs] at h
    simp only at h
    obtain ⟨cur, h3, h⟩ := bind_ok_inv h
    unfold valueAt at h3
    rw [hci] at h3
    simp only at h3
    rw [getValue_plain (by unfold Plain; cases env.ver <;> decide +kernel)] at h3
    have : ci.getRaw resourceSubType none = some w := (getRaw_none_eq ..).2 ⟨S, hw⟩
    rw [this] at h3
    cases h3
    simp only at h
    by_cases hws : w = .str s
    · exact Or.inl hws
    · rw [if_neg hws] at h
      exact Or.inr (orDie_ok h)

theorem replaced_set {cs : List Elem} {i : Nat} {old e : Elem} (h : cs[i]? = some old) : Replaced cs (cs.set i e) old e := by
  obtain ⟨hlt, rfl⟩ := List.getElem?_eq_some_iff.1 h
  refine ⟨cs.take i, cs.drop (i + 1), ?_, ?_⟩
  · simp
  · rw [List.set_eq_take_append_cons_drop, if_pos hlt]

theorem added_insert (cs : List Elem) (n : Nat) (e : Elem) : Added cs (cs.take n ++ e :: cs.drop n) e :=
  ⟨cs.take n, cs.drop n, (List.take_append_drop n cs).symm, rfl⟩

theorem filter_set {cs : List Elem} {i : Nat} {old e : Elem} {P : Elem → Bool} (h : cs[i]? = some old) (ho : P old = true)
    (he : P e = true) : Replaced (cs.filter P) ((cs.set i e).filter P) old e := by
  obtain ⟨a, b, h1, h2⟩ := replaced_set (e := e) h
  refine ⟨a.filter P, b.filter P, ?_, ?_⟩
  · rw [h1]; simp [List.filter_append, ho]
  · rw [h2]; simp [List.filter_append, he]

theorem filter_erase {cs : List Elem} {i : Nat} {old : Elem} {P : Elem → Bool} (h : cs[i]? = some old) (ho : P old = true) :
    Removed (cs.filter P) ((cs.eraseIdx i).filter P) old := by
  obtain ⟨hlt, rfl⟩ := List.getElem?_eq_some_iff.1 h
  refine ⟨(cs.take i).filter P, (cs.drop (i + 1)).filter P, ?_, ?_⟩
  · conv_lhs => rw [← List.take_append_drop i cs]
    rw [List.filter_append, List.drop_eq_getElem_cons hlt, List.filter_cons, if_pos ho]
  · rw [List.eraseIdx_eq_take_drop_succ, List.filter_append]

/-- the sub-type of a new controller -/
theorem addController_subtype {env : Env} {hw hw' : Hw} {ct id : Str} {sub : Option InVal} {addr : Option Str}
    (wf : HwWF env hw) (haddr : ∀ a, addr = some a → Digits a)
    (h : addControllerDevice env hw ct sub addr none = .ok (id, hw')) :
    ∃ ci, dget? hw' id = some ci ∧ (sub = none → ci.tab resourceSubType = []) ∧
      ∀ l, sub = some (.list l) → l ≠ [] → ∃ S, ci.tab resourceSubType = [(.tup l, S)] := by
  unfold addControllerDevice at h
  simp only at h
  cases h1 : newController env hw ct addr with
  | error e => rw [h1] at h; cases h
  | ok r =>
    obtain ⟨id1, hw1⟩ := r
    rw [h1] at h
    simp only at h
    obtain ⟨-, -, -, w, -⟩ := C36_new_controller wf haddr h1
    obtain ⟨it, g1, -, -, g2⟩ := newController_tabs h1
    cases sub with
    | none =>
      cases h
      exact ⟨it, g1, fun _ => g2, fun l h => nomatch h⟩
    | some x =>
      simp only [g1] at h
      cases hs : it.setProperty env resourceSubType x ∅ true with
      | error e => rw [hs] at h; cases h
      | ok it2 =>
        rw [hs] at h
        simp only [Except.ok.injEq, Prod.mk.injEq] at h
        obtain ⟨rfl, rfl⟩ := h
        refine ⟨it2, by rw [dget?_dset, if_pos rfl], fun h => (nomatch h), ?_⟩
        rintro l hl hne
        cases hl
        exact ⟨_, setProperty_words (w.get g1).1 (by simp [normValue]) hne hs⟩

/-- the facts behind C67 -/
theorem addDiskCmd_core {c : Ctx} {plat : Str → Str} {ask : Prompt → Bool} {p p' : Pkg} {q : DiskReq} {k : Str}
    (wf : HwWF c.env p.hw) (ht : Tidy c.env p.hw) (hq : Sensible q)
    (hplat : ∃ code, ControllerCode (plat q.drive) code) (h : addDiskCmd c plat ask p q = .ok (k, p')) :
    ∃ b e fid r3 ctrl ci it ct code, c.fs.file (absName c.fs q.path) = some b ∧
      FileSays c.env.ver e fid (pathBase q.path) b.length ∧ (∀ s, q.fid = some s → fid = s) ∧
      ((∃ n, p'.refs.children = p.refs.children.take n ++ e :: p.refs.children.drop n ∧
          (∀ o ∈ p.refs.children, ¬ FileWith c.env.ver (fileHref c.env.ver) (pathBase q.path) o) ∧
          ∀ o ∈ p.refs.children, ¬ FileWith c.env.ver (fileId c.env.ver) fid o) ∨
        ∃ i old, p.refs.children[i]? = some old ∧ old.tag = fileTag c.env.ver ∧
          p'.refs.children = p.refs.children.set i e ∧
          ask (.replaceFile (old.get (fileHref c.env.ver)) q.path) = true ∧
          (∀ j o, p.refs.children[j]? = some o → FileWith c.env.ver (fileHref c.env.ver) (pathBase q.path) o → j = i) ∧
          (Distinct p.refs.children (fileTag c.env.ver) (fileId c.env.ver) →
            ∀ j o, p.refs.children[j]? = some o → FileWith c.env.ver (fileId c.env.ver) fid o → j = i) ∧
          (q.fid = none → ∀ s, old.get (fileId c.env.ver) = some s → fid = s)) ∧
      searchFromController c.env p q.controller q.address = .ok r3 ∧
      ControllerCode ct code ∧ (∀ s, q.controller = some s → ct = s) ∧
      (k ∉ dkeys p.hw → q.controller = none → ct = plat q.drive) ∧
      dget? p'.hw ctrl = some ci ∧ OfType ci code ∧ dget? p'.hw k = some it ∧ ChildOf it ctrl ∧ k ≠ ctrl ∧
      (∃ dcode, DriveCode q.drive dcode ∧ OfType it dcode) ∧ HwWF c.env p'.hw ∧
      (∀ k', k' ≠ k → k' ≠ ctrl → dget? p'.hw k' = dget? p.hw k') ∧
      (∀ ci0, dget? p.hw ctrl = some ci0 → ∀ m, m ≠ resourceSubType → ci.tab m = ci0.tab m) ∧
      (∀ it0, dget? p.hw k = some it0 → ∀ m, ¬ DiskProp c.env.ver m → it.tab m = it0.tab m) ∧
      (q.drive = "harddisk".toList → ∃ d did, DiskSays c.env.ver d did fid q.cap ∧
        Mapped it (hostDiskRef c.env.ver ++ did) ∧
        ((did = fid ∧ Added (diskEntries c.env.ver p) (diskEntries c.env.ver p') d) ∨
          ∃ old, old.get (diskId c.env.ver) = some did ∧
            Replaced (diskEntries c.env.ver p) (diskEntries c.env.ver p') old d ∧ Agreed ask q)) ∧
      (q.drive ≠ "harddisk".toList → Mapped it (hostFileRef c.env.ver ++ fid) ∧
        (diskEntries c.env.ver p' = diskEntries c.env.ver p ∨
          ∃ old, Removed (diskEntries c.env.ver p) (diskEntries c.env.ver p') old ∧ Agreed ask q)) ∧
      (k ∉ dkeys p.hw → r3.dev = none ∧ ∃ x S, it.tab addressOnParent = [(.str x, S)] ∧
        ((q.address = none ∧ ∃ n, x = natStr n ∧ FirstFree (Occupied p.hw ctrl) n ∧
            (ctrl ∉ dkeys p.hw → ∃ m, HasAddress ci m ∧ FirstFree (CtrlAddress p.hw code) m)) ∨
          ∃ a, q.address = some (a ++ ':' :: x) ∧ Digits a ∧ Digits x ∧
            ((r3.ctrl = some ctrl ∧ ctrl ∈ dkeys p.hw) ∨
              (r3.ctrl = none ∧ ctrl ∉ dkeys p.hw ∧ ∃ T, ci.tab address = [(.str a, T)])))) ∧
      (k ∈ dkeys p.hw → Agreed ask q) ∧
      (∀ it0, dget? p.hw k = some it0 → it0.hardwareType c.env = q.drive ∨
        ask (.changeType (it0.hardwareType c.env) q.drive) = true) ∧
      (ctrl ∉ dkeys p.hw → ask (.addController (upper ct)) = true) ∧
      (∀ ci0, dget? p.hw ctrl = some ci0 → ci = ci0 ∨ ∃ s, q.subtype = some s ∧
        ∀ w S, ci0.tab resourceSubType = [(w, S)] → w = .str s ∨ ask (.changeSubtype ct w s) = true) ∧
      (∀ s, q.subtype = some s → s ≠ [] → HasSubtype ci s) ∧
      (∃ r : Found, validateElements c.env p r q.fid ct = .ok () ∧
        (r.file = none → ∃ n, p'.refs.children = p.refs.children.take n ++ e :: p.refs.children.drop n) ∧
        (∀ i, r.file = some i → ∃ old, p.refs.children[i]? = some old ∧ p'.refs.children = p.refs.children.set i e) ∧
        (r.disk = none → diskEntries c.env.ver p' = diskEntries c.env.ver p ∨
          ∃ d, Added (diskEntries c.env.ver p) (diskEntries c.env.ver p') d) ∧
        (∀ j, r.disk = some j → ∃ old, p.diskList[j]? = some old ∧
          (Removed (diskEntries c.env.ver p) (diskEntries c.env.ver p') old ∨
            ∃ d, Replaced (diskEntries c.env.ver p) (diskEntries c.env.ver p') old d)) ∧
        (k ∈ dkeys p.hw → r.dev = some k)) ∧
      (ctrl ∉ dkeys p.hw → q.subtype = none → ∃ sub, commonSubtype c.env p.hw ct = .ok sub ∧
        (sub = none → ci.tab resourceSubType = []) ∧
        ∀ l, sub = some (.tup l) → l ≠ [] → ∃ S, ci.tab resourceSubType = [(.tup l, S)]) ∧
      (k ∉ dkeys p.hw → InDefault c.env it) := by
  unfold addDiskCmd at h
  obtain ⟨r, hr, h⟩ := bind_ok_inv h
  obtain ⟨s, hs, h⟩ := bind_ok_inv h
  simp only at h
  obtain ⟨_, hv, h⟩ := bind_ok_inv h
  obtain ⟨_, hcf, h⟩ := bind_ok_inv h
  obtain ⟨cf1, cf2, cf3, cf4, cf5⟩ := confirm_inv hcf
  simp only at cf1 cf2 cf3 cf4 cf5
  have hagr : r.disk ≠ none ∨ r.dev ≠ none → Agreed ask q := by
    intro hd
    cases hfl : r.file with
    | none => exact Or.inr (cf2 hfl hd)
    | some i => exact Or.inl ⟨_, cf1 i hfl⟩
  obtain ⟨hsound, ⟨r3, hr3, hnodev⟩, hbyname, hbyid, hdang⟩ := searchForElements_inv wf hr
  obtain ⟨⟨code, hcode⟩, hct, hpl, hsettle⟩ := settle_inv wf ht hq hplat hs
  obtain ⟨vfd, vt, vp⟩ := validate_inv wf ht hv
  simp only at vfd vt vp
  -- a device that was found has a controller
  have hdevc : ∀ k0, r.dev = some k0 → s.2 = (r.ctrl, q.address) := by
    intro k0 hk0
    obtain ⟨_, cc, -, -, hcc⟩ := hsound.dev k0 hk0
    rcases hsettle with ⟨h1, -⟩ | ⟨h1, -⟩ | ⟨-, h1⟩
    · rw [hcc] at h1; cases h1
    · rw [hcc] at h1; cases h1
    · exact h1
  have hctrl : ∀ cc, s.2.1 = some cc → ∃ ci, dget? p.hw cc = some ci := by
    intro cc hcc
    rcases hsettle with ⟨-, -, h1⟩ | ⟨-, -, k', c', x, n, h1, h2, -⟩ | ⟨-, h1⟩
    · rw [h1] at hcc; cases hcc
    · rw [h1] at hcc; cases hcc; exact ⟨c', h2⟩
    · rw [h1] at hcc; exact hsound.ctrl cc hcc
  unfold applyDisk at h
  simp only at h
  obtain ⟨f, hf, h⟩ := bind_ok_inv h
  obtain ⟨d, hd, h⟩ := bind_ok_inv h
  obtain ⟨parts, hparts, h⟩ := bind_ok_inv h
  obtain ⟨sub, hsub, h⟩ := bind_ok_inv h
  obtain ⟨kc, hkc, h⟩ := bind_ok_inv h
  obtain ⟨fi, fp⟩ := f
  obtain ⟨di, dp⟩ := d
  obtain ⟨ctrl, hwc⟩ := kc
  simp only at hd hkc h
  generalize hfid : pickFileId c.env.ver p { r with ctrl := s.2.1 } q.fid (pathBase q.path) = fid at hf hd
  obtain ⟨b, e, rf, hb, he, -, fd, fh, -, fsome, fnone⟩ := addFile_inv hf
  obtain ⟨d1, d2, d3, dhd, dcd⟩ := addDisk_inv hq.positive hq.bounded hd
  have hhw : dp.hw = p.hw := by rw [d3, fh]
  have hfl : fp.diskList = p.diskList := by unfold Pkg.diskList; rw [fd]
  rw [hhw] at hkc
  -- the parts of the address
  have hparts' : (s.2.2 = none ∧ parts = (none, none)) ∨
      (∃ x n, s.2.2 = some (x ++ ':' :: natStr n) ∧ ':' ∉ x ∧ parts = (some x, some (natStr n)) ∧
        r.ctrl = none ∧ q.address = none ∧ ∃ kk, s.2.1 = some kk ∧ FirstFree (Occupied p.hw kk) n) ∨
      (∃ a x, q.address = some (a ++ ':' :: x) ∧ Digits a ∧ Digits x ∧ parts = (some a, some x) ∧ s.2.1 = r.ctrl) := by
    rcases hsettle with ⟨-, h2, h1⟩ | ⟨g1, g2, k', c', x, n, h1, -, h3, h4⟩ | ⟨-, h1⟩
    · left
      rw [h1] at hparts ⊢
      cases hparts
      exact ⟨rfl, rfl⟩
    · right; left
      rw [h1] at hparts ⊢
      unfold addressParts at hparts
      simp only [splitOnChar_pair h3 (digits_no_colon (digits_natStr n))] at hparts
      cases hparts
      exact ⟨x, n, rfl, h3, rfl, g1, g2, k', rfl, h4⟩
    · cases ha : q.address with
      | none =>
        left
        rw [h1, ha] at hparts
        cases hparts
        rw [h1, ha]
        exact ⟨rfl, rfl⟩
      | some ad =>
        right; right
        obtain ⟨⟨a, x, g1, g2, rfl⟩, -⟩ := hq.address ad ha
        rw [h1, ha] at hparts
        unfold addressParts at hparts
        simp only [splitOnChar_pair (digits_no_colon g1) (digits_no_colon g2)] at hparts
        cases hparts
        exact ⟨a, x, rfl, g1, g2, rfl, by rw [h1]⟩
  have hp1 : ∀ a, parts.1 = some a → s.2.1 = none → Digits a := by
    intro a ha hn
    rcases hparts' with ⟨-, h1⟩ | ⟨x, n, -, -, h1, -, -, kk, hkk, -⟩ | ⟨a', x, -, h2, -, h1, -⟩
    · rw [h1] at ha; cases ha
    · rw [hkk] at hn; cases hn
    · rw [h1] at ha; cases ha; exact h2
  have hp2 : ∀ a, parts.2 = some a → a ≠ [] := by
    intro a ha
    rcases hparts' with ⟨-, h1⟩ | ⟨x, n, -, -, h1, -⟩ | ⟨a', x, -, -, h3, h1, -⟩
    · rw [h1] at ha; cases ha
    · rw [h1] at ha; cases ha; exact natStr_ne_nil n
    · rw [h1] at ha; cases ha; exact h3.1
  obtain ⟨wc, oc, ci, gci, hst, hci⟩ := addController_inv wf hp1 hctrl hkc
  have hne : ∀ v : Ver, resourceType ≠ resourceSubType ∧ address ≠ resourceSubType ∧ parentName ≠ resourceSubType ∧
      instanceId v ≠ resourceSubType ∧ addressOnParent ≠ resourceSubType := by intro v; cases v <;> decide +kernel
  obtain ⟨e1, e2, e3, e4, e5⟩ := hne c.env.ver
  have hid : ci.tab (instanceId c.env.ver) ≠ [] := by
    rcases hci with ⟨-, ci0, g1, g2, -⟩ | ⟨-, -, g1, -⟩
    · rw [g2 _ e4]; exact ht.ident _ _ g1
    · exact g1
  obtain ⟨p1, p2, p3, wp, op, res, it, dcode, hres, hit, hdc, hty, hmap, hcase⟩ :=
    addDiskDevice_inv (p := { dp with hw := hwc }) wc gci hid hp2 h
  simp only at p1 p2 p3 op hcase
  -- the type of the controller
  have hcty : OfType ci code := by
    rcases hci with ⟨g1, ci0, g2, g3, -⟩ | ⟨-, -, -, -, code', a, g1, g2, -⟩
    · have h1 := hardwareType_ctrl hcode (vt ctrl ci0 g1 g2)
      unfold OfType at h1 ⊢
      rw [g3 _ e1]; exact h1
    · rw [resourceCode_ctrl hcode] at g1; cases g1; exact g2
  -- occupied places are the same
  have hocc : ∀ n, Occupied hwc ctrl n ↔ Occupied p.hw ctrl n := by
    intro n
    constructor
    · rintro ⟨id, x, h1, h2, h3⟩
      by_cases hidc : id = ctrl
      · subst hidc
        rw [gci] at h1; cases h1
        rcases hci with ⟨-, ci0, g2, g3, -⟩ | ⟨-, -, -, g1, -⟩
        · unfold ChildOf at h2; rw [g3 _ e3] at h2
          exact absurd h2 (ht.noSelf _ _ g2)
        · obtain ⟨S, hS⟩ := h2; rw [g1] at hS; cases hS
      · rw [oc id hidc] at h1; exact ⟨id, x, h1, h2, h3⟩
    · rintro ⟨id, x, h1, h2, h3⟩
      by_cases hidc : id = ctrl
      · subst hidc; exact absurd h2 (ht.noSelf _ _ h1)
      · exact ⟨id, x, by rw [oc id hidc]; exact h1, h2, h3⟩
  -- the device is not the controller, and is attached to it
  have hdr : ∀ v, ¬ DiskProp v parentName := by intro v; unfold DiskProp; cases v <;> decide +kernel
  have hkctrl : k ≠ ctrl ∧ ChildOf it ctrl := by
    rcases hcase with ⟨hk, it0, h1, h2⟩ | ⟨hk, h1, h2, -⟩
    · obtain ⟨itp, cc, g1, g2, g3⟩ := hsound.dev k hk
      have hs2 := hdevc k hk
      have hcc : s.2.1 = some cc := by rw [hs2]; exact g3
      have hctrlcc : ctrl = cc := by
        rcases hci with ⟨q1, -⟩ | ⟨q1, -⟩
        · rw [hcc] at q1; cases q1; rfl
        · rw [hcc] at q1; cases q1
      obtain ⟨ci0, hci0⟩ := hctrl cc hcc
      have hch := vp k itp cc ci0 hk g1 hcc hci0
      have hkne : k ≠ ctrl := by
        rintro rfl
        exact ht.noSelf k itp g1 (hctrlcc ▸ hch)
      refine ⟨hkne, ?_⟩
      rw [oc k hkne, g1] at h1; cases h1
      unfold ChildOf
      rw [h2 _ (hdr _), hctrlcc]
      exact hch
    · exact ⟨by rintro rfl; exact h1 (mem_dkeys_of_dget? gci), h2⟩
  obtain ⟨hkne, hchild⟩ := hkctrl
  have hgci' : dget? p'.hw ctrl = some ci := by rw [op ctrl (Ne.symm hkne)]; exact gci
  have hnew : k ∉ dkeys p.hw → r.dev = none := by
    intro hk
    cases hdv : r.dev with
    | none => rfl
    | some k0 =>
      rcases hcase with ⟨hk', -⟩ | ⟨hk', -⟩
      · obtain ⟨itp, cc, g1, -⟩ := hsound.dev k hk'
        exact absurd (mem_dkeys_of_dget? g1) hk
      · rw [hdv] at hk'; cases hk'
  have hrefs : p'.refs = fp.refs := by rw [p1, d1]
  have hdl : p'.diskList = dp.diskList := by unfold Pkg.diskList; rw [p3]
  refine ⟨b, e, fid, r3, ctrl, ci, it, s.1, code, hb, he, ?_, ?_, hr3, hcode, hct, ?_, hgci', hcty, hit, hchild, hkne, ?_, wp,
    ?_, ?_, ?_, ?_, ?_, ?_, ?_, ?_, ?_, ?_, ?_, ?_, ?_, ?_⟩
  · rintro t hqt
    rw [← hfid]
    unfold pickFileId
    rw [hqt]
  · rw [hrefs]
    cases hfile : r.file with
    | none =>
      left
      obtain ⟨g1, -⟩ := fnone hfile
      refine ⟨_, g1, ?_, ?_⟩
      · intro o ho hw
        obtain ⟨i, hi⟩ := List.mem_iff_getElem?.1 ho
        have := hbyname i o hi hw
        rw [hfile] at this; cases this
      · have hnid : ∀ o ∈ p.refs.children, ¬ FileWith c.env.ver (fileId c.env.ver) (q.fid.getD (pathBase q.path)) o := by
          intro o ho hw
          obtain ⟨i, hi⟩ := List.mem_iff_getElem?.1 ho
          have := hbyid i o hi hw
          rw [hfile] at this; cases this
        rw [← hfid]
        unfold pickFileId
        simp only [hfile]
        cases hqf : q.fid with
        | some t => rw [hqf] at hnid; exact hnid
        | none =>
          rw [hqf] at hnid
          cases hdk : r.disk with
          | none => exact hnid
          | some j =>
            simp only
            cases hat : attrOf p.diskList j (diskFileRef c.env.ver) with
            | none => exact hnid
            | some g => exact hdang hfile j g hdk hat
    | some i =>
      right
      obtain ⟨-, g1, -⟩ := fsome i hfile
      obtain ⟨old, g2, g3⟩ := hsound.file i hfile
      refine ⟨i, old, g2, g3, g1, by rw [← attrOf_eq g2]; exact cf1 i hfile, ?_, ?_, ?_⟩
      · intro j o hj hw
        have := hbyname j o hj hw
        rw [hfile] at this; cases this; rfl
      · intro hdist j o hj hw
        rw [← hfid] at hw
        unfold pickFileId at hw
        simp only [hfile] at hw
        have hby : FileWith c.env.ver (fileId c.env.ver) (q.fid.getD (pathBase q.path)) o → j = i := by
          intro hw
          have := hbyid j o hj hw
          rw [hfile] at this; cases this; rfl
        cases hqf : q.fid with
        | some t => rw [hqf] at hw hby; exact hby hw
        | none =>
          rw [hqf] at hw hby
          simp only at hw
          cases hat : attrOf p.refs.children i (fileId c.env.ver) with
          | some t =>
            rw [hat] at hw
            rw [attrOf_eq g2] at hat
            exact hdist j i o old t hj g2 hw.1 g3 hw.2 hat
          | none =>
            -- the File has no identifier: the one recorded is the Disk's reference or the name
            rw [hat] at hw
            simp only at hw
            cases hdk : r.disk with
            | none => rw [hdk] at hw; exact hby hw
            | some jd =>
              rw [hdk] at hw
              simp only at hw
              cases hat2 : attrOf p.diskList jd (diskFileRef c.env.ver) with
              | none => rw [hat2] at hw; exact hby hw
              | some g =>
                exfalso
                have := vfd i jd hfile hdk
                rw [hat, hat2] at this; cases this
      · intro hqf t hold
        rw [← hfid]
        unfold pickFileId
        simp only [hqf, hfile, attrOf_eq g2, hold]
  · intro hk hqc
    have hdv := hnew hk
    have hrc : r.ctrl = r3.ctrl := (hnodev hdv).2
    refine hpl hqc ?_
    rw [hrc]
    rw [hqc] at hr3
    unfold searchFromController at hr3
    cases hr3; rfl
  · obtain ⟨dc, hdc'⟩ := hq.drive
    refine ⟨dc, hdc', ?_⟩
    rw [resourceCode_drive hdc'] at hdc; cases hdc; exact hty
  · intro k' h1 h2
    rw [op k' h1]; exact oc k' h2
  · intro ci0 h1
    rcases hci with ⟨-, ci1, g1, g2, -⟩ | ⟨-, g1, -⟩
    · rw [h1] at g1; cases g1; exact g2
    · exact absurd (mem_dkeys_of_dget? h1) g1
  · intro it0 h1
    rcases hcase with ⟨-, it1, g1, g2⟩ | ⟨-, g1, -⟩
    · rw [oc k hkne, h1] at g1; cases g1; exact g2
    · exfalso
      obtain ⟨x, hx⟩ : ∃ x, dget? hwc k = some x := ⟨it0, by rw [oc k hkne]; exact h1⟩
      exact g1 (mem_dkeys_of_dget? hx)
  · intro hhd
    obtain ⟨j, de, did, hj, hsays, hat, hch⟩ := dhd hhd
    refine ⟨de, did, hsays, ?_, ?_⟩
    · rcases hres with ⟨-, j', s', h1, h2, rfl⟩ | ⟨h1, -⟩
      · rw [hj] at h1; cases h1
        have h2' : attrOf dp.diskList j (diskId c.env.ver) = some s' := h2
        rw [attrOf_eq hat, hsays.id] at h2'
        cases h2'
        exact hmap
      · exact absurd hhd h1
    · unfold diskEntries
      rw [hdl]
      rcases hch with ⟨old, h1, h2, h3, h4⟩ | ⟨h1, rfl, pre, h2, h3⟩
      · right
        obtain ⟨old', g1, g2⟩ := hsound.disk j h1
        rw [hfl] at h2 h4
        rw [h2] at g1; cases g1
        refine ⟨old, h3, ?_, hagr (Or.inl (by rw [h1]; simp))⟩
        rw [h4]
        exact filter_set h2 (by simpa using g2) (by simpa using hsays.isDisk)
      · left
        refine ⟨rfl, p.diskList.filter (fun e => e.tag == diskTag c.env.ver), [], by simp, ?_⟩
        have hpre : pre.filter (fun e => e.tag == diskTag c.env.ver) = [] :=
          List.filter_eq_nil_iff.2 (fun x hx => by simpa using h3 x hx)
        rw [h2, hfl, List.filter_append, List.filter_append, hpre]
        simp [hsays.isDisk]
  · intro hhd
    constructor
    · rcases hres with ⟨h1, -⟩ | ⟨-, s', h2, rfl⟩
      · exact absurd h1 hhd
      · have h2' : attrOf fp.refs.children fi (fileId c.env.ver) = some s' := by rw [← d1]; exact h2
        have hat : fp.refs.children[fi]? = some e := by
          cases hfile : r.file with
          | none =>
            obtain ⟨g1, -, g3, g4⟩ := fnone hfile
            have hle : fi ≤ p.refs.children.length := by
              cases hdk : r.disk with
              | none => rw [g3 hdk]
              | some j =>
                have := g4 j hdk
                unfold filePlace at this
                split at this
                · cases this
                · cases this; exact List.length_filter_le _ _
                · cases this
                  exact le_trans (List.length_filter_le _ _) (by rw [List.length_take]; exact min_le_right _ _)
            rw [g1, List.getElem?_append_right (by rw [List.length_take]; exact min_le_left _ _)]
            rw [List.length_take, min_eq_left hle]; simp
          | some i =>
            obtain ⟨rfl, g1, -⟩ := fsome i hfile
            obtain ⟨old, g2, -⟩ := hsound.file _ hfile
            rw [g1, List.getElem?_set_self (List.getElem?_eq_some_iff.1 g2).1]
        rw [attrOf_eq hat, he.id] at h2'
        cases h2'
        exact hmap
    · unfold diskEntries
      rw [hdl]
      rcases dcd hhd with ⟨h1, -⟩ | ⟨j, h1, h2⟩
      · left; rw [h1, hfl]
      · obtain ⟨old, g1, g2⟩ := hsound.disk j h1
        right
        refine ⟨old, ?_, hagr (Or.inl (by rw [h1]; simp))⟩
        rw [hfl] at h2
        have hrem := filter_erase (P := fun e => e.tag == diskTag c.env.ver) g1 (by simpa using g2)
        rcases h2 with h2 | ⟨h2, h3⟩
        · rw [h2]; exact hrem
        · rw [h2]
          have hpre : (p.diskList.eraseIdx j).filter (fun e => e.tag == diskTag c.env.ver) = [] :=
            List.filter_eq_nil_iff.2 (fun x hx => by simpa using h3 x hx)
          rw [hpre] at hrem
          exact hrem
  · intro hk
    have hdv := hnew hk
    obtain ⟨hr3d, hrc⟩ := hnodev hdv
    refine ⟨hr3d, ?_⟩
    rcases hcase with ⟨hk', -⟩ | ⟨-, -, -, x, S, htab, hx, -⟩
    · rw [hdv] at hk'; cases hk'
    · refine ⟨x, S, htab, ?_⟩
      rcases hparts' with ⟨h2, h1⟩ | ⟨x', n, -, -, h1, -, h2, kk, h3, h4⟩ | ⟨a, x', h2, h3, h4, h1, h5⟩
      · left
        rw [h1] at hx
        rcases hx with hx | ⟨-, n, rfl, hn⟩
        · cases hx
        · have hqa : q.address = none := by
            rcases hsettle with ⟨-, h, -⟩ | ⟨-, h, -⟩ | ⟨-, h⟩
            · exact h
            · exact h
            · rw [h] at h2; exact h2
          refine ⟨hqa, n, rfl, hn.congr hocc, ?_⟩
          intro hcn
          rcases hci with ⟨-, ci0, g1, -⟩ | ⟨-, -, -, -, code', a, g1, g2, g3, -, g4⟩
          · exact absurd (mem_dkeys_of_dget? g1) hcn
          · rw [h1] at g4
            rcases g4 with g4 | ⟨-, m, rfl, g5⟩
            · cases g4
            · rw [resourceCode_ctrl hcode] at g1; cases g1
              exact ⟨m, g3, g5⟩
      · left
        rw [h1] at hx
        rcases hx with hx | ⟨hx, -⟩
        · cases hx
          have hctrlkk : ctrl = kk := by
            rcases hci with ⟨q1, -⟩ | ⟨q1, -⟩
            · rw [h3] at q1; cases q1; rfl
            · rw [h3] at q1; cases q1
          subst hctrlkk
          refine ⟨h2, n, rfl, h4, ?_⟩
          intro hcn
          obtain ⟨ci0, g⟩ := hctrl ctrl h3
          exact absurd (mem_dkeys_of_dget? g) hcn
        · cases hx
      · right
        rw [h1] at hx
        rcases hx with hx | ⟨hx, -⟩
        · cases hx
          refine ⟨a, h2, h3, h4, ?_⟩
          rcases hci with ⟨g1, ci0, g2, -⟩ | ⟨g1, g2, -, -, code', a', g3, g4, g5, -, g6⟩
          · left
            rw [h5, hrc] at g1
            exact ⟨g1, mem_dkeys_of_dget? g2⟩
          · right
            rw [h5, hrc] at g1
            rw [h1] at g6
            rcases g6 with g6 | ⟨g6, -⟩
            · cases g6; exact ⟨g1, g2, g5⟩
            · cases g6
        · cases hx
  · intro hk
    rcases hcase with ⟨hk', -⟩ | ⟨-, h1, -⟩
    · exact hagr (Or.inr (by rw [hk']; simp))
    · exfalso
      obtain ⟨it0, hit0⟩ : ∃ x, dget? p.hw k = some x := by
        cases hx : dget? p.hw k with
        | none => exact absurd hk (dget?_eq_none.1 hx)
        | some x => exact ⟨x, rfl⟩
      obtain ⟨x, hx⟩ : ∃ x, dget? hwc k = some x := ⟨it0, by rw [oc k hkne]; exact hit0⟩
      exact h1 (mem_dkeys_of_dget? hx)
  · intro it0 hit0
    rcases hcase with ⟨hk', -⟩ | ⟨-, h1, -⟩
    · exact cf3 k it0 hk' hit0
    · exfalso
      obtain ⟨x, hx⟩ : ∃ x, dget? hwc k = some x := ⟨it0, by rw [oc k hkne]; exact hit0⟩
      exact h1 (mem_dkeys_of_dget? hx)
  · intro hcn
    rcases hci with ⟨-, ci0, g2, -⟩ | ⟨g1, -⟩
    · exact absurd (mem_dkeys_of_dget? g2) hcn
    · exact cf4 g1
  · intro ci0 hci0
    rcases hci with ⟨g1, ci1, g2, -, g3⟩ | ⟨-, g1, -⟩
    · rw [hci0] at g2; cases g2
      cases hqs : q.subtype with
      | none =>
        left
        unfold subtypeArg at hsub
        rw [hqs, g1] at hsub
        cases hsub
        exact g3 rfl
      | some t =>
        right
        exact ⟨t, rfl, fun w S hw => cf5 ctrl t ci0 w S g1 hqs hci0 hw⟩
    · exact absurd (mem_dkeys_of_dget? hci0) g1
  · intro t hqs hne
    unfold subtypeArg at hsub
    rw [hqs] at hsub
    cases hsub
    exact hst t rfl hne
  · refine ⟨{ r with ctrl := s.2.1 }, hv, ?_, ?_, ?_, ?_, ?_⟩
    · intro hfile
      rw [hrefs]
      exact ⟨_, (fnone hfile).1⟩
    · intro i hfile
      rw [hrefs]
      obtain ⟨old, g2, -⟩ := hsound.file i hfile
      exact ⟨old, g2, (fsome i hfile).2.1⟩
    · intro hdk
      unfold diskEntries
      rw [hdl]
      by_cases hhd : q.drive = "harddisk".toList
      · right
        obtain ⟨j, de, did, hj, hsays, hat, hch⟩ := dhd hhd
        rcases hch with ⟨old, h1, -⟩ | ⟨h1, rfl, pre, h2, h3⟩
        · rw [hdk] at h1; cases h1
        · refine ⟨de, p.diskList.filter (fun e => e.tag == diskTag c.env.ver), [], by simp, ?_⟩
          have hpre : pre.filter (fun e => e.tag == diskTag c.env.ver) = [] :=
            List.filter_eq_nil_iff.2 (fun x hx => by simpa using h3 x hx)
          rw [h2, hfl, List.filter_append, List.filter_append, hpre]
          simp [hsays.isDisk]
      · left
        rcases dcd hhd with ⟨h1, -⟩ | ⟨j, h1, -⟩
        · rw [h1, hfl]
        · rw [hdk] at h1; cases h1
    · intro j hdk
      unfold diskEntries
      rw [hdl]
      obtain ⟨old, g1, g2⟩ := hsound.disk j hdk
      refine ⟨old, g1, ?_⟩
      by_cases hhd : q.drive = "harddisk".toList
      · right
        obtain ⟨j', de, did, hj, hsays, hat, hch⟩ := dhd hhd
        rcases hch with ⟨old', h1, h2, h3, h4⟩ | ⟨h1, -⟩
        · rw [hdk] at h1; cases h1
          refine ⟨de, ?_⟩
          rw [hfl] at h4
          rw [h4]
          exact filter_set g1 (by simpa using g2) (by simpa using hsays.isDisk)
        · rw [hdk] at h1; cases h1
      · left
        have hrem := filter_erase (P := fun e => e.tag == diskTag c.env.ver) g1 (by simpa using g2)
        rcases dcd hhd with ⟨-, h1 | h1⟩ | ⟨j', h1, h2⟩
        · rw [hdk] at h1; cases h1
        · rw [fd] at h1
          unfold Pkg.diskList at g1
          rw [h1] at g1; cases g1
        · rw [hdk] at h1; cases h1
          rw [hfl] at h2
          rcases h2 with h2 | ⟨h2, h3⟩
          · rw [h2]; exact hrem
          · rw [h2]
            have hpre : (p.diskList.eraseIdx j).filter (fun e => e.tag == diskTag c.env.ver) = [] :=
              List.filter_eq_nil_iff.2 (fun x hx => by simpa using h3 x hx)
            rw [hpre] at hrem
            exact hrem
    · intro hk
      rcases hcase with ⟨hk', -⟩ | ⟨-, h1, -⟩
      · exact hk'
      · exfalso
        obtain ⟨it0, hit0⟩ := dget?_of_mem_dkeys hk
        obtain ⟨x, hx⟩ : ∃ x, dget? hwc k = some x := ⟨it0, by rw [oc k hkne]; exact hit0⟩
        exact h1 (mem_dkeys_of_dget? hx)
  · intro hcn hqs
    rcases hci with ⟨-, ci0, g1, -⟩ | ⟨hnone, -⟩
    · exact absurd (mem_dkeys_of_dget? g1) hcn
    · rw [hnone] at hkc hsub
      obtain ⟨ci', g1, g2, g3⟩ := addController_subtype wf (fun a ha => hp1 a ha hnone) hkc
      rw [gci] at g1; cases g1
      unfold subtypeArg at hsub
      rw [hqs, hhw] at hsub
      simp only at hsub
      cases hcs : commonSubtype c.env p.hw s.1 with
      | error e => rw [hcs] at hsub; cases hsub
      | ok sb =>
        rw [hcs] at hsub
        simp only [Except.ok.injEq] at hsub
        refine ⟨sb, rfl, ?_, ?_⟩
        · rintro rfl; exact g2 hsub.symm
        · rintro l rfl hne; exact g3 l hsub.symm hne
  · intro hk
    rcases hcase with ⟨hk', it0, h1, -⟩ | ⟨-, -, -, a, S, -, -, -, h1⟩
    · exfalso
      rw [oc k hkne] at h1
      exact hk (mem_dkeys_of_dget? h1)
    · exact h1

/-- **C67.** A successful `add-disk` leaves the package with a File entry for the image (identifier, name and size), a
drive of the requested type that refers to it, attached to a controller of the requested type.  For a hard disk there is
also a Disk entry with the capacity of the image, which refers to the File and to which the drive refers; for a CD-ROM
drive, which needs none, no Disk entry is left behind.  Apart from one File entry and one Disk entry, which are added or
replaced, the entries are as before. -/
theorem C67_add_disk {c : Ctx} {plat : Str → Str} {ask : Prompt → Bool} {p p' : Pkg} {q : DiskReq} {k : Str}
    (wf : HwWF c.env p.hw) (ht : Tidy c.env p.hw) (hq : Sensible q)
    (hplat : ∃ code, ControllerCode (plat q.drive) code) (h : addDiskCmd c plat ask p q = .ok (k, p')) :
    ∃ bytes e fid it ctrl ci, c.fs.file (absName c.fs q.path) = some bytes ∧
      -- the File
      FileSays c.env.ver e fid (pathBase q.path) bytes.length ∧ (∀ s, q.fid = some s → fid = s) ∧
      (Added p.refs.children p'.refs.children e ∨
        ∃ old, old.tag = fileTag c.env.ver ∧ Replaced p.refs.children p'.refs.children old e) ∧
      -- the drive and its controller
      dget? p'.hw k = some it ∧ (∃ code, DriveCode q.drive code ∧ OfType it code) ∧ ChildOf it ctrl ∧
      dget? p'.hw ctrl = some ci ∧
      (∃ t code, ControllerCode t code ∧ OfType ci code ∧ (∀ s, q.controller = some s → t = s) ∧
        (k ∉ dkeys p.hw → q.controller = none → t = plat q.drive)) ∧
      (∀ s, q.subtype = some s → s ≠ [] → HasSubtype ci s) ∧
      -- a hard disk
      (q.drive = "harddisk".toList → ∃ d did, DiskSays c.env.ver d did fid q.cap ∧
        Mapped it (hostDiskRef c.env.ver ++ did) ∧
        ((did = fid ∧ Added (diskEntries c.env.ver p) (diskEntries c.env.ver p') d) ∨
          ∃ old, old.get (diskId c.env.ver) = some did ∧
            Replaced (diskEntries c.env.ver p) (diskEntries c.env.ver p') old d)) ∧
      -- a CD-ROM
      (q.drive ≠ "harddisk".toList → Mapped it (hostFileRef c.env.ver ++ fid) ∧
        (diskEntries c.env.ver p' = diskEntries c.env.ver p ∨
          ∃ old, Removed (diskEntries c.env.ver p) (diskEntries c.env.ver p') old)) := by
  obtain ⟨b, e, fid, r3, ctrl, ci, it, ct, code, h1, h2, h3, h4, -, h5, h6, h7, h8, h9, h10, h11, -, h12, -, -, -, -, h13,
    h14, -, -, -, -, -, h15, -⟩ := addDiskCmd_core wf ht hq hplat h
  refine ⟨b, e, fid, it, ctrl, ci, h1, h2, h3, ?_, h10, h12, h11, h8, ⟨ct, code, h5, h9, h6, h7⟩, h15, ?_, ?_⟩
  · rcases h4 with ⟨n, g, -⟩ | ⟨i, old, g1, g2, g3, -⟩
    · left; rw [g]; exact added_insert _ _ _
    · right; rw [g3]; exact ⟨old, g2, replaced_set g1⟩
  · intro hd
    obtain ⟨d, did, g1, g2, g3⟩ := h13 hd
    refine ⟨d, did, g1, g2, ?_⟩
    rcases g3 with g3 | ⟨old, g3, g4, -⟩
    · exact Or.inl g3
    · exact Or.inr ⟨old, g3, g4⟩
  · intro hd
    obtain ⟨g1, g2⟩ := h14 hd
    refine ⟨g1, ?_⟩
    rcases g2 with g2 | ⟨old, g2, -⟩
    · exact Or.inl g2
    · exact Or.inr ⟨old, g2⟩

/-- **C67**, the rest of the hardware: no other device is touched; of a controller that was already there at most the
sub-type changes, and of a drive that was already there only its type, its medium, its name and its description. -/
theorem C67_others {c : Ctx} {plat : Str → Str} {ask : Prompt → Bool} {p p' : Pkg} {q : DiskReq} {k : Str}
    (wf : HwWF c.env p.hw) (ht : Tidy c.env p.hw) (hq : Sensible q)
    (hplat : ∃ code, ControllerCode (plat q.drive) code) (h : addDiskCmd c plat ask p q = .ok (k, p')) :
    HwWF c.env p'.hw ∧ ∃ ctrl ci it, dget? p'.hw ctrl = some ci ∧ dget? p'.hw k = some it ∧ ChildOf it ctrl ∧ k ≠ ctrl ∧
      (∀ k', k' ≠ k → k' ≠ ctrl → dget? p'.hw k' = dget? p.hw k') ∧
      (∀ ci0, dget? p.hw ctrl = some ci0 → ∀ m, m ≠ resourceSubType → ci.tab m = ci0.tab m) ∧
      (∀ it0, dget? p.hw k = some it0 → ∀ m, m ≠ resourceType → m ≠ hostResource → m ≠ elementName c.env.ver →
        m ≠ itemDescription → it.tab m = it0.tab m) := by
  obtain ⟨b, e, fid, r3, ctrl, ci, it, ct, code, -, -, -, -, -, -, -, -, h8, -, h10, h11, hne, -, hw, ho, hc, hd, -⟩ :=
    addDiskCmd_core wf ht hq hplat h
  refine ⟨hw, ctrl, ci, it, h8, h10, h11, hne, ho, hc, ?_⟩
  intro it0 h0 m m1 m2 m3 m4
  refine hd it0 h0 m ?_
  rintro (h | h | h | h)
  · exact m1 h
  · exact m2 h
  · exact m3 h
  · exact m4 h

/-- **C67**, the place of a new drive.  Without an address it gets the first free unit of its controller (and a new
controller the first free controller address); with an address it gets exactly that unit of the controller with that
address, and no device was there. -/
theorem C67_place {c : Ctx} {plat : Str → Str} {ask : Prompt → Bool} {p p' : Pkg} {q : DiskReq} {k : Str}
    (wf : HwWF c.env p.hw) (ht : Tidy c.env p.hw) (hq : Sensible q)
    (hplat : ∃ code, ControllerCode (plat q.drive) code) (h : addDiskCmd c plat ask p q = .ok (k, p'))
    (hnew : k ∉ dkeys p.hw) :
    ∃ ctrl ci it code, dget? p'.hw ctrl = some ci ∧ dget? p'.hw k = some it ∧ ChildOf it ctrl ∧ OfType ci code ∧
      (q.address = none → ∃ n, AtAddress it n ∧ FirstFree (Occupied p.hw ctrl) n ∧
        (ctrl ∉ dkeys p.hw → ∃ m, HasAddress ci m ∧ FirstFree (CtrlAddress p.hw code) m)) ∧
      (∀ a b, q.address = some (a ++ ':' :: b) → Digits a → Digits b →
        (∃ S, ci.tab address = [(.str a, S)]) ∧ (∃ S, it.tab addressOnParent = [(.str b, S)]) ∧
        (∀ k' it', dget? p.hw k' = some it' → InDefault c.env it' → ChildOf it' ctrl → ctrl ∈ dkeys p.hw →
          ¬ ∃ S, it'.tab addressOnParent = [(.str b, S)]) ∧
        (ctrl ∉ dkeys p.hw → ∀ c' ci', dget? p.hw c' = some ci' → InDefault c.env ci' → OfType ci' code →
          ¬ ∃ S, ci'.tab address = [(.str a, S)])) := by
  obtain ⟨_, e, fid, r3, ctrl, ci, it, ct, code, -, -, -, -, hr3, hcode, hct, -, h8, h9, h10, h11, hne, -, -, ho, hc, -, -,
    -, hp, -⟩ := addDiskCmd_core wf ht hq hplat h
  obtain ⟨hdev, x, S, htab, hx⟩ := hp hnew
  refine ⟨ctrl, ci, it, code, h8, h10, h11, h9, ?_, ?_⟩
  · intro hqa
    rcases hx with ⟨-, n, rfl, hn, hm⟩ | ⟨a, ha, -⟩
    · exact ⟨n, ⟨S, htab⟩, hn, hm⟩
    · rw [hqa] at ha; cases ha
  · intro a b hqa da db
    rcases hx with ⟨hn, -⟩ | ⟨a', ha', da', dx, hcase⟩
    · rw [hqa] at hn; cases hn
    · have hsp := congrArg (splitOnChar ':') (Option.some.inj (hqa.symm.trans ha'))
      rw [splitOnChar_pair (digits_no_colon da) (digits_no_colon db),
        splitOnChar_pair (digits_no_colon da') (digits_no_colon dx)] at hsp
      simp only [List.cons.injEq, and_true] at hsp
      obtain ⟨rfl, rfl⟩ := hsp
      obtain ⟨-, hqc⟩ := hq.address _ hqa
      obtain ⟨t, hqt⟩ := Option.ne_none_iff_exists'.1 hqc
      have := hct t hqt
      subst this
      rw [hqt, hqa] at hr3
      obtain ⟨g1, -, g3, g4⟩ := C69_by_address wf (resourceCode_ne (resourceCode_ctrl hcode)).1 (digits_no_colon da)
        (digits_no_colon db) hr3
      refine ⟨?_, ⟨S, htab⟩, ?_, ?_⟩
      · rcases hcase with ⟨hcc, hmem⟩ | ⟨-, -, hT⟩
        · obtain ⟨_, ci0, -, q1, -, -, q2, -⟩ := g1 ctrl hcc
          rw [hc ci0 q1 _ (by decide +kernel)]
          exact q2
        · exact hT
      · intro k' it' hk' hd' hch hmem
        rcases hcase with ⟨hcc, -⟩ | ⟨-, hnm, -⟩
        · exact (g4 ctrl hcc hdev).2.2 k' it' hk' hd' hch
        · exact absurd hmem hnm
      · intro hnm
        rcases hcase with ⟨-, hmem⟩ | ⟨hcc, -, -⟩
        · exact absurd hmem hnm
        · exact (g3 hcc).2 code (resourceCode_ctrl hcode)

/-! ### Names and identifiers stay distinct -/

theorem distinct_iff {cs : List Elem} {tag key : Str} : Distinct cs tag key ↔
    cs.Pairwise (fun x y => ¬ (x.tag = tag ∧ y.tag = tag ∧ ∃ s, x.get key = some s ∧ y.get key = some s)) := by
  rw [List.pairwise_iff_getElem]
  constructor
  · rintro h i j hi hj hij ⟨h1, h2, s, h3, h4⟩
    have := h i j _ _ s (List.getElem?_eq_getElem hi) (List.getElem?_eq_getElem hj) h1 h2 h3 h4
    omega
  · intro h i j x y s hx hy tx ty gx gy
    obtain ⟨hi, rfl⟩ := List.getElem?_eq_some_iff.1 hx
    obtain ⟨hj, rfl⟩ := List.getElem?_eq_some_iff.1 hy
    rcases Nat.lt_trichotomy i j with hlt | heq | hlt
    · exact absurd ⟨tx, ty, s, gx, gy⟩ (h i j hi hj hlt)
    · exact heq
    · exact absurd ⟨ty, tx, s, gy, gx⟩ (h j i hj hi hlt)

theorem Distinct.insert {cs : List Elem} {tag key s : Str} {e : Elem} (n : Nat) (h : Distinct cs tag key)
    (he : e.get key = some s) (hn : ∀ o ∈ cs, ¬ (o.tag = tag ∧ o.get key = some s)) :
    Distinct (cs.take n ++ e :: cs.drop n) tag key := by
  rw [distinct_iff] at h ⊢
  rw [← List.take_append_drop n cs, List.pairwise_append] at h
  obtain ⟨h1, h2, h3⟩ := h
  rw [List.pairwise_append, List.pairwise_cons]
  refine ⟨h1, ⟨?_, h2⟩, ?_⟩
  · rintro y hy ⟨-, ty, t, g1, g2⟩
    rw [he] at g1; cases g1
    exact hn y (List.mem_of_mem_drop hy) ⟨ty, g2⟩
  · intro x hx y hy
    rcases List.mem_cons.1 hy with rfl | hy
    · rintro ⟨tx, -, t, g1, g2⟩
      rw [he] at g2; cases g2
      exact hn x (List.mem_of_mem_take hx) ⟨tx, g1⟩
    · exact h3 x hx y hy

/-- **C67**, names and identifiers: no two Files share a name, or an identifier, after `add-disk` if none did before. -/
theorem C67_distinct {c : Ctx} {plat : Str → Str} {ask : Prompt → Bool} {p p' : Pkg} {q : DiskReq} {k : Str}
    (wf : HwWF c.env p.hw) (ht : Tidy c.env p.hw) (hq : Sensible q)
    (hplat : ∃ code, ControllerCode (plat q.drive) code) (h : addDiskCmd c plat ask p q = .ok (k, p')) :
    (Distinct p.refs.children (fileTag c.env.ver) (fileHref c.env.ver) →
      Distinct p'.refs.children (fileTag c.env.ver) (fileHref c.env.ver)) ∧
    (Distinct p.refs.children (fileTag c.env.ver) (fileId c.env.ver) →
      Distinct p'.refs.children (fileTag c.env.ver) (fileId c.env.ver)) := by
  obtain ⟨_, e, fid, -, -, -, -, -, -, -, he, -, hcase, -⟩ := addDiskCmd_core wf ht hq hplat h
  rcases hcase with ⟨n, g1, g2, g3⟩ | ⟨i, old, g1, g2, g3, -, g4, g5, -⟩
  · rw [g1]
    exact ⟨fun hd => hd.insert n he.href g2, fun hd => hd.insert n he.id g3⟩
  · rw [g3]
    exact ⟨fun hd => hd.set he.href (fun j o hj t g => g4 j o hj ⟨t, g⟩),
      fun hd => hd.set he.id (fun j o hj t g => g5 hd j o hj ⟨t, g⟩)⟩

end Cot
