import Verif.Props.PackageDiskCases
/-
C67 and C71, continued: what `cot add-disk` may replace, and the sub-type of a new controller.
-/
namespace Cot

/-- The File entry `o` made way for `e`, or there was none and `e` was added. -/
def FilesWithout (cs cs' : List Elem) (e : Elem) (lost : Option Elem) : Prop :=
  (lost = none ∧ Added cs cs' e) ∨ ∃ o, lost = some o ∧ Replaced cs cs' o e

/-- The Disk entry `o` was replaced or removed, or no entry was lost. -/
def DisksWithout (cs cs' : List Elem) (lost : Option Elem) : Prop :=
  (lost = none ∧ (cs' = cs ∨ ∃ d, Added cs cs' d)) ∨ ∃ o, lost = some o ∧ (Removed cs cs' o ∨ ∃ d, Replaced cs cs' o d)

theorem validate_more {env : Env} {p : Pkg} {r : Found} {fid : Option Str} {ct : Str} {u : Unit}
    (h : validateElements env p r fid ct = .ok u) :
    (∀ i s, r.file = some i → fid = some s → attrOf p.refs.children i (fileId env.ver) = some s) ∧
    (∀ j s, r.disk = some j → fid = some s → attrOf p.diskList j (diskFileRef env.ver) = some s) ∧
    (∀ i j, r.file = some i → r.disk = some j →
      attrOf p.refs.children i (fileId env.ver) = attrOf p.diskList j (diskFileRef env.ver)) ∧
    (∀ k it h S, r.dev = some k → dget? p.hw k = some it → it.tab hostResource = [(.str h, S)] →
      (isDiskRef env.ver h = true ∧ ∃ j, r.disk = some j ∧ attrOf p.diskList j (diskId env.ver) = some (pathBase h)) ∨
      (isFileRef env.ver h = true ∧ ∃ i, r.file = some i ∧ attrOf p.refs.children i (fileId env.ver) = some (pathBase h))) := by
  unfold validateElements at h
  simp only at h
  obtain ⟨_, hx, h⟩ := bind_ok_inv h
  obtain ⟨_, hy, h⟩ := bind_ok_inv h
  obtain ⟨_, hs, h⟩ := bind_ok_inv h
  refine ⟨?_, ?_, ?_, ?_⟩
  · intro i s hi hf
    rw [hi, hf] at hx
    simp only at hx
    obtain ⟨_, hx, -⟩ := bind_ok_inv hx
    exact matchOrDie_ok hx
  · intro j s hj hf
    rw [hj, hf] at hy
    exact matchOrDie_ok hy
  · intro i j hi hj
    rw [hi, hj] at hx
    simp only at hx
    obtain ⟨_, -, hx⟩ := bind_ok_inv hx
    exact matchOrDie_ok hx
  · intro k it h' S hk hit htab
    unfold checkSanity at hs
    rw [hk] at hs
    simp only at hs
    obtain ⟨_, -, hs⟩ := bind_ok_inv hs
    obtain ⟨o, ho, hs⟩ := bind_ok_inv hs
    unfold valueAt at ho
    rw [hit] at ho
    simp only at ho
    rw [getValue_plain (plain_hr env), (getRaw_none_eq ..).2 ⟨S, htab⟩] at ho
    cases ho
    simp only [asStr, bind, Except.bind] at hs
    cases hdr : isDiskRef env.ver h' with
    | true =>
      cases hd : r.disk with
      | some j =>
        rw [hdr, hd] at hs
        exact Or.inl ⟨rfl, j, rfl, (matchOrDie_ok hs).symm⟩
      | none =>
        rw [hdr, hd] at hs
        cases hfr : isFileRef env.ver h' with
        | false => rw [hfr] at hs; cases hs
        | true =>
          cases hf : r.file with
          | none => rw [hfr, hf] at hs; cases hs
          | some i =>
            rw [hfr, hf] at hs
            exact Or.inr ⟨rfl, i, rfl, (matchOrDie_ok hs).symm⟩
    | false =>
      cases hfr : isFileRef env.ver h' with
      | false => rw [hdr, hfr] at hs; cases hs
      | true =>
        cases hf : r.file with
        | none => rw [hdr, hfr, hf] at hs; cases hs
        | some i =>
          rw [hdr, hfr, hf] at hs
          exact Or.inr ⟨rfl, i, rfl, (matchOrDie_ok hs).symm⟩

/-- **C67, what is replaced.** `add-disk` gives up at most one File and one Disk entry, and they belong together: the Disk
is the one on that File.  If the user names a file identifier, it is the identifier of both.  And a drive that was already
there is used only if it was empty or if its medium is the very Disk or File that is given up. -/
theorem C67_coherent {c : Ctx} {plat : Str → Str} {ask : Prompt → Bool} {p p' : Pkg} {q : DiskReq} {k : Str}
    (wf : HwWF c.env p.hw) (ht : Tidy c.env p.hw) (hq : Sensible q)
    (hplat : ∃ code, ControllerCode (plat q.drive) code) (h : addDiskCmd c plat ask p q = .ok (k, p')) :
    ∃ e lostFile lostDisk, FilesWithout p.refs.children p'.refs.children e lostFile ∧
      DisksWithout (diskEntries c.env.ver p) (diskEntries c.env.ver p') lostDisk ∧
      (∀ f d, lostFile = some f → lostDisk = some d → f.get (fileId c.env.ver) = d.get (diskFileRef c.env.ver)) ∧
      (∀ s, q.fid = some s → (∀ f, lostFile = some f → f.get (fileId c.env.ver) = some s) ∧
        ∀ d, lostDisk = some d → d.get (diskFileRef c.env.ver) = some s) ∧
      (∀ it h S, dget? p.hw k = some it → it.tab hostResource = [(.str h, S)] →
        (isDiskRef c.env.ver h = true ∧ ∃ d, lostDisk = some d ∧ d.get (diskId c.env.ver) = some (pathBase h)) ∨
        (isFileRef c.env.ver h = true ∧ ∃ f, lostFile = some f ∧ f.get (fileId c.env.ver) = some (pathBase h))) := by
  obtain ⟨b, e, fid, r3, ctrl, ci, it, ct, code, -, -, -, -, -, -, -, -, -, -, -, -, -, -, -, -, -, -, -, -, -, -, -, -, -, -,
    ⟨r, hv, f1, f2, d1, d2, hdev⟩, -⟩ := addDiskCmd_core wf ht hq hplat h
  obtain ⟨v1, v2, v3, v4⟩ := validate_more hv
  refine ⟨e, r.file.bind (fun i => p.refs.children[i]?), r.disk.bind (fun j => p.diskList[j]?), ?_, ?_, ?_, ?_, ?_⟩
  · cases hf : r.file with
    | none =>
      obtain ⟨n, hn⟩ := f1 hf
      left
      refine ⟨rfl, ?_⟩
      rw [hn]
      exact added_insert _ _ _
    | some i =>
      obtain ⟨old, h1, h2⟩ := f2 i hf
      right
      refine ⟨old, h1, ?_⟩
      rw [h2]
      exact replaced_set h1
  · cases hd : r.disk with
    | none => exact Or.inl ⟨rfl, d1 hd⟩
    | some j =>
      obtain ⟨old, h1, h2⟩ := d2 j hd
      exact Or.inr ⟨old, h1, h2⟩
  · intro f d hf hd
    obtain ⟨i, hi, hf⟩ := Option.bind_eq_some_iff.1 hf
    obtain ⟨j, hj, hd⟩ := Option.bind_eq_some_iff.1 hd
    have := v3 i j hi hj
    rwa [attrOf_eq hf, attrOf_eq hd] at this
  · intro s hs
    constructor
    · intro f hf
      obtain ⟨i, hi, hf⟩ := Option.bind_eq_some_iff.1 hf
      have := v1 i s hi hs
      rwa [attrOf_eq hf] at this
    · intro d hd
      obtain ⟨j, hj, hd⟩ := Option.bind_eq_some_iff.1 hd
      have := v2 j s hj hs
      rwa [attrOf_eq hd] at this
  · intro it0 h' S hit htab
    rcases v4 k it0 h' S (hdev (mem_dkeys_of_dget? hit)) hit htab with ⟨g1, j, g2, g3⟩ | ⟨g1, i, g2, g3⟩
    · obtain ⟨old, h1, -⟩ := d2 j g2
      exact Or.inl ⟨g1, old, by rw [g2]; exact h1, by rw [← attrOf_eq h1]; exact g3⟩
    · obtain ⟨old, h1, -⟩ := f2 i g2
      exact Or.inr ⟨g1, old, by rw [g2]; exact h1, by rw [← attrOf_eq h1]; exact g3⟩

/-! ### The sub-type of a new controller -/

theorem plain_sub (env : Env) : Plain env resourceSubType := by unfold Plain; cases env.ver <;> decide +kernel

/-- the value that `get_common_subtype` looks at -/
theorem subtype_value {env : Env} {hw : Hw} {k : Str} {it : Item} (hk : dget? hw k = some it) :
    valueAt env hw k resourceSubType = .ok (it.getRaw resourceSubType none) := by
  unfold valueAt
  rw [hk]
  exact getValue_plain (plain_sub env) none

theorem subtypeLoop_inv {env : Env} {hw : Hw} : ∀ {ks : List Str} {sub o : Option Val},
    subtypeLoop env hw ks sub = .ok o →
    (∀ v, (sub = some v ∨ sub = none ∧ ∃ k ∈ ks, ∃ it, dget? hw k = some it ∧ it.getRaw resourceSubType none = some v) →
      (∀ k ∈ ks, ∀ it, dget? hw k = some it → it.getRaw resourceSubType none = some v) → o = some v) ∧
    (∀ v, sub = some v → (∃ k ∈ ks, ∃ it w, dget? hw k = some it ∧ it.getRaw resourceSubType none = some w ∧ w ≠ v) → o = none) ∧
    (∀ k ∈ ks, ∀ k' ∈ ks, ∀ it it' w w', dget? hw k = some it → dget? hw k' = some it' →
      it.getRaw resourceSubType none = some w → it'.getRaw resourceSubType none = some w' → w ≠ w' → o = none) ∧
    (∀ v, o = some v → sub = some v ∨ ∃ k ∈ ks, ∃ it, dget? hw k = some it ∧ it.getRaw resourceSubType none = some v)
  | [], sub, o, h => by
    cases h
    refine ⟨?_, ?_, ?_, ?_⟩
    · rintro v (h | ⟨-, k, hk, -⟩) -
      · exact h
      · cases hk
    · rintro v - ⟨k, hk, -⟩; cases hk
    · rintro k hk; cases hk
    · intro v hv; exact Or.inl hv
  | k :: r, sub, o, h => by
    rw [subtypeLoop] at h
    cases hk : dget? hw k with
    | none =>
      unfold valueAt at h
      rw [hk] at h
      cases h
    | some it =>
      rw [subtype_value hk] at h
      simp only at h
      cases sub with
      | none =>
        simp only at h
        obtain ⟨i1, i2, i3, i4⟩ := subtypeLoop_inv h
        refine ⟨?_, ?_, ?_, ?_⟩
        · rintro v - hall
          have := hall k List.mem_cons_self it hk
          exact i1 v (Or.inl this) (fun k' hk' => hall k' (List.mem_cons_of_mem _ hk'))
        · rintro v hv; cases hv
        · intro k1 h1 k2 h2 it1 it2 w1 w2 g1 g2 e1 e2 hne
          rcases List.mem_cons.1 h1 with rfl | h1'
          · rw [hk] at g1; cases g1
            rcases List.mem_cons.1 h2 with rfl | h2
            · rw [hk] at g2; cases g2
              rw [e1] at e2; cases e2; exact absurd rfl hne
            · exact i2 w1 e1 ⟨k2, h2, it2, w2, g2, e2, Ne.symm hne⟩
          · rcases List.mem_cons.1 h2 with rfl | h2
            · rw [hk] at g2; cases g2
              exact i2 w2 e2 ⟨k1, h1', it1, w1, g1, e1, hne⟩
            · exact i3 k1 h1' k2 h2 it1 it2 w1 w2 g1 g2 e1 e2 hne
        · intro v hv
          rcases i4 v hv with h | ⟨k', h1, h2⟩
          · exact Or.inr ⟨k, List.mem_cons_self, it, hk, h⟩
          · exact Or.inr ⟨k', List.mem_cons_of_mem _ h1, h2⟩
      | some x =>
        simp only at h
        by_cases hx : some x ≠ it.getRaw resourceSubType none
        · rw [if_pos hx] at h
          cases h
          refine ⟨?_, fun _ _ _ => rfl, fun _ _ _ _ _ _ _ _ _ _ _ _ _ => rfl, fun v hv => nomatch hv⟩
          rintro v (h | ⟨h, -⟩) hall
          · cases h
            exact absurd (hall k List.mem_cons_self it hk).symm hx
          · cases h
        · rw [if_neg hx] at h
          have hx : it.getRaw resourceSubType none = some x := (not_not.1 hx).symm
          obtain ⟨i1, i2, i3, i4⟩ := subtypeLoop_inv h
          refine ⟨?_, ?_, ?_, ?_⟩
          · rintro v (h | ⟨h, -⟩) hall
            · exact i1 v (Or.inl h) (fun k' hk' => hall k' (List.mem_cons_of_mem _ hk'))
            · cases h
          · rintro v hv ⟨k', h1, it', w, g1, g2, hne⟩
            rcases List.mem_cons.1 h1 with rfl | h1
            · rw [hk] at g1; cases g1
              rw [hx] at g2; cases g2
              cases hv
              exact absurd rfl hne
            · exact i2 v hv ⟨k', h1, it', w, g1, g2, hne⟩
          · intro k1 h1 k2 h2 it1 it2 w1 w2 g1 g2 e1 e2 hne
            rcases List.mem_cons.1 h1 with rfl | h1'
            · rw [hk] at g1; cases g1
              rw [hx] at e1; cases e1
              rcases List.mem_cons.1 h2 with rfl | h2
              · rw [hk] at g2; cases g2
                rw [hx] at e2; cases e2; exact absurd rfl hne
              · exact i2 _ rfl ⟨k2, h2, it2, w2, g2, e2, Ne.symm hne⟩
            · rcases List.mem_cons.1 h2 with rfl | h2
              · rw [hk] at g2; cases g2
                rw [hx] at e2; cases e2
                exact i2 _ rfl ⟨k1, h1', it1, w1, g1, e1, hne⟩
              · exact i3 k1 h1' k2 h2 it1 it2 w1 w2 g1 g2 e1 e2 hne
          · intro v hv
            rcases i4 v hv with h | ⟨k', h1, h2⟩
            · exact Or.inl h
            · exact Or.inr ⟨k', List.mem_cons_of_mem _ h1, h2⟩

/-- The sub-type of a device, if it has just one. -/
def SubtypeIs (it : Item) (ws : List Str) : Prop := ∃ S, it.tab resourceSubType = [(.tup ws, S)]

/-- **C67, sub-type.** When no sub-type is requested, a new controller gets the sub-type that all existing controllers of
its type have, none if two of them differ, and none if there is none to copy. -/
theorem C67_subtype_partial {c : Ctx} {plat : Str → Str} {ask : Prompt → Bool} {p p' : Pkg} {q : DiskReq} {k : Str}
    (wf : HwWF c.env p.hw) (ht : Tidy c.env p.hw) (hq : Sensible q)
    (hplat : ∃ code, ControllerCode (plat q.drive) code) (h : addDiskCmd c plat ask p q = .ok (k, p'))
    (hs : q.subtype = none) :
    ∃ ctrl ci it code, dget? p'.hw ctrl = some ci ∧ dget? p'.hw k = some it ∧ ChildOf it ctrl ∧ OfType ci code ∧
      (ctrl ∉ dkeys p.hw →
        (∀ ws, ws ≠ [] → (∃ id c0, dget? p.hw id = some c0 ∧ OfType c0 code) →
          (∀ id c0, dget? p.hw id = some c0 → OfType c0 code → SubtypeIs c0 ws) → SubtypeIs ci ws) ∧
        (∀ id id' c0 c1 ws ws', dget? p.hw id = some c0 → dget? p.hw id' = some c1 → OfType c0 code → OfType c1 code →
          SubtypeIs c0 ws → SubtypeIs c1 ws' → ws ≠ ws' → ci.tab resourceSubType = []) ∧
        ((∀ id c0, dget? p.hw id = some c0 → OfType c0 code → c0.tab resourceSubType = []) → ci.tab resourceSubType = [])) := by
  obtain ⟨b, e, fid, r3, ctrl, ci, it, ct, code, -, -, -, -, -, hcode, -, -, h8, h9, h10, h11, -, -, -, -, -, -, -, -, -, -, -, -,
    -, -, -, hsub, -⟩ := addDiskCmd_core wf ht hq hplat h
  refine ⟨ctrl, ci, it, code, h8, h10, h11, h9, ?_⟩
  intro hcn
  obtain ⟨sub, h1, h2, h3⟩ := hsub hcn hs
  unfold commonSubtype at h1
  have hrc := resourceCode_ctrl hcode
  cases hfa : findAllItems c.env p.hw (some ct) [] [] with
  | error e => rw [hfa] at h1; cases h1
  | ok ids =>
    rw [hfa] at h1
    simp only at h1
    obtain ⟨-, -, hids⟩ := findAllItems_spec wf.keys (resourceCode_ne hrc).1 hfa
    have hmem : ∀ id c0, dget? p.hw id = some c0 → OfType c0 code → id ∈ ids := by
      intro id c0 hid hty
      rcases hids with ⟨h0, -⟩ | ⟨code', g1, g2⟩
      · rw [h0] at hid; cases hid
      · rw [hrc] at g1; cases g1
        exact (g2 id).2 ⟨c0, hid, hty⟩
    have hback : ∀ id ∈ ids, ∃ c0, dget? p.hw id = some c0 ∧ OfType c0 code := by
      intro id hid
      rcases hids with ⟨-, h0⟩ | ⟨code', g1, g2⟩
      · rw [h0] at hid; cases hid
      · rw [hrc] at g1; cases g1
        exact (g2 id).1 hid
    obtain ⟨i1, -, i3, i4⟩ := subtypeLoop_inv h1
    refine ⟨?_, ?_, ?_⟩
    · rintro ws hne ⟨id, c0, hid, hty⟩ hall
      refine h3 ws ?_ hne
      refine i1 (.tup ws) (Or.inr ⟨rfl, id, hmem id c0 hid hty, c0, hid, (getRaw_none_eq ..).2 (hall id c0 hid hty)⟩) ?_
      intro k' hk' it' hit'
      obtain ⟨c1, g1, g2⟩ := hback k' hk'
      rw [hit'] at g1; cases g1
      exact (getRaw_none_eq ..).2 (hall k' _ hit' g2)
    · intro id id' c0 c1 ws ws' g1 g2 t1 t2 s1 s2 hne
      refine h2 (i3 id (hmem id c0 g1 t1) id' (hmem id' c1 g2 t2) c0 c1 _ _ g1 g2 ((getRaw_none_eq ..).2 s1)
        ((getRaw_none_eq ..).2 s2) ?_)
      intro h; cases h; exact hne rfl
    · intro hall
      cases hsb : sub with
      | none => exact h2 hsb
      | some v =>
        exfalso
        rcases i4 v hsb with h | ⟨k', hk', it', g1, g2⟩
        · cases h
        · obtain ⟨c0, q1, q2⟩ := hback k' hk'
          rw [g1] at q1; cases q1
          obtain ⟨S, hS⟩ := (getRaw_none_eq ..).1 g2
          rw [hall k' it' g1 q2] at hS
          cases hS

/-! ### Cases -/

/-- replacing the image of the hard disk: one File and one Disk are given up, which belong together -/
example : ∃ k p', ∃ lostFile lostDisk : Option Elem, addDiskCmd exCtx exPlat (fun _ => true) exPkg
      (exReq "d.vmdk".toList "harddisk".toList (some "vmdk".toList) none none) = .ok (k, p') ∧ k ∈ dkeys exPkg.hw ∧
    DisksWithout (diskEntries .v1 exPkg) (diskEntries .v1 p') lostDisk ∧
    (∀ f, lostFile = some f → f.get (fileId .v1) = some "vmdk".toList) := by
  have hq : Sensible (exReq "d.vmdk".toList "harddisk".toList (some "vmdk".toList) none none) :=
    exReq_sensible ⟨_, Or.inl ⟨rfl, rfl⟩⟩ (fun _ h => by cases h) (fun _ h => by cases h)
  obtain ⟨k, p', h, hk⟩ : ∃ k p', addDiskCmd exCtx exPlat (fun _ => true) exPkg
      (exReq "d.vmdk".toList "harddisk".toList (some "vmdk".toList) none none) = .ok (k, p') ∧ k ∈ dkeys exPkg.hw :=
    ⟨_, _, rfl, by decide +kernel⟩
  obtain ⟨e, lf, ld, -, h2, -, h4, -⟩ :=
    C67_coherent (c := exCtx) (p := exPkg) exDiskHw_wf exDiskHw_tidy hq (exPlat_ok _) h
  exact ⟨k, p', lf, ld, h, hk, h2, (h4 _ rfl).1⟩

/-- another identifier than that of the File with this name is refused -/
example : addDiskCmd exCtx exPlat (fun _ => true) exPkg
    (exReq "d.vmdk".toList "harddisk".toList (some "other".toList) none none) = .error .valueMismatch := rfl

/-- the example hardware after the sub-type of the controller was set -/
def exCommonHw : Hw := match addControllerDevice exEnv exDiskHw "ide".toList (some (.str "PIIX4".toList)) none (some "5".toList) with
  | .ok r => r.2
  | .error _ => []

def exCommonPkg : Pkg := { exPkg with hw := exCommonHw }

theorem exCommonHw_wf : HwWF exEnv exCommonHw := by
  have h : addControllerDevice exEnv exDiskHw "ide".toList (some (.str "PIIX4".toList)) none (some "5".toList) =
      .ok ("5".toList, exCommonHw) := rfl
  exact (addController_inv exDiskHw_wf (fun _ h => by cases h) (fun _ h => by cases h; exact ⟨_, rfl⟩) h).1

theorem exCommonHw_tidy : Tidy exEnv exCommonHw where
  ident := forall_items (by decide +kernel)
  noSelf := by
    have h : ∀ kv ∈ exCommonHw, ∀ e ∈ kv.2.tab parentName, e.1 ≠ .str kv.1 := by decide +kernel
    rintro k it hk ⟨S, hS⟩
    exact h (k, it) (dget?_mem hk) _ (by rw [hS]; exact List.mem_singleton.2 rfl) rfl
  plainAddress := by
    have h : ∀ kv ∈ exCommonHw, ∀ e ∈ kv.2.tab address, (match e.1 with
      | .str s => decide (':' ∉ s)
      | _ => true) = true := by decide +kernel
    intro k it ca S hk hS
    have := h (k, it) (dget?_mem hk) _ (by rw [hS]; exact List.mem_singleton.2 rfl)
    simpa using this

example {k : Str} {p' : Pkg} (h : addDiskCmd exCtx exPlat (fun _ => true) exCommonPkg exNew = .ok (k, p')) :=
  C67_subtype_partial (c := exCtx) (p := exCommonPkg) exCommonHw_wf exCommonHw_tidy exNew_sensible (exPlat_ok _) h rfl

/-- the new controller gets the sub-type of the one that is there -/
example : (addDiskCmd exCtx exPlat (fun _ => true) exCommonPkg exNew).map (fun r =>
      (dget? r.2.hw "1".toList).map (fun it => it.tab resourceSubType)) =
    .ok (some [(.tup ["PIIX4".toList], {none})]) := rfl

/-- two controllers, the first without sub-type -/
def exSubOrder (a b : Str) : Hw :=
  [(a, { props := [(instanceId .v1, [(.str a, {none})]), (resourceType, [(.str "5".toList, {none})])], ns := [], modified := false }),
   (b, { props := [(instanceId .v1, [(.str b, {none})]), (resourceType, [(.str "5".toList, {none})]),
      (resourceSubType, [(.tup ["PIIX4".toList], {none})])], ns := [], modified := false })]

/-- **C67 fails** for the common sub-type if one controller has none: depending on the order of the identifiers, the
sub-type of the other one is taken for the common sub-type or not. -/
theorem C67_subtype_order_fails :
    commonSubtype exEnv (exSubOrder "1".toList "2".toList) "ide".toList = .ok (some (.tup ["PIIX4".toList])) ∧
    commonSubtype exEnv (exSubOrder "2".toList "1".toList) "ide".toList = .ok none := ⟨rfl, rfl⟩

end Cot
