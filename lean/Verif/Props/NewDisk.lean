import Verif.Spec.NewDisk
import Verif.Lemmas.Re
import Verif.Lemmas.Re2
import Verif.Lemmas.EnvProps
import Verif.Props.Disks
/-
C108: making new disk images, and reading the sub-format of VMDK files.
-/
namespace Cot

theorem runOps_ok {w : ConvWorld} : ∀ {ops h h' : List DiskOp}, runOps w h ops = (.ok (), h') →
    h' = ops.reverse ++ h ∧ ∀ a op b, ops = a ++ op :: b → w.fails (a.reverse ++ h) op = none
  | [], h, h', e => by
    cases e
    exact ⟨rfl, fun a op b h => by simp at h⟩
  | op :: r, h, h', e => by
    unfold runOps ConvWorld.run at e
    cases hf : w.fails h op with
    | some x => rw [hf] at e; cases e
    | none =>
      rw [hf] at e
      obtain ⟨i1, i2⟩ := runOps_ok e
      refine ⟨by rw [i1]; simp, fun a o b hab => ?_⟩
      cases a with
      | nil =>
        cases hab
        exact hf
      | cons y a =>
        cases hab
        have := i2 a o b rfl
        simpa using this

theorem runOps_error {w : ConvWorld} : ∀ {ops h h' : List DiskOp} {e : Err}, runOps w h ops = (.error e, h') →
    ∃ a op b, ops = a ++ op :: b ∧ h' = op :: (a.reverse ++ h) ∧ w.fails (a.reverse ++ h) op = some e
  | [], h, h', e, x => by cases x
  | op :: r, h, h', e, x => by
    unfold runOps ConvWorld.run at x
    cases hf : w.fails h op with
    | some y =>
      rw [hf] at x
      cases x
      exact ⟨[], op, r, rfl, rfl, hf⟩
    | none =>
      rw [hf] at x
      obtain ⟨a, o, b, h1, h2, h3⟩ := runOps_error x
      exact ⟨op :: a, o, b, by rw [h1]; rfl, by rw [h2]; simp, by simpa using h3⟩

theorem isEmptyish (k : NewDisk) : (match k.capacity with
      | some (ch :: cs) => ch :: cs
      | _ => x) = if k.capacity.getD [] = [] then x else k.capacity.getD [] := by
  rcases k.capacity with _ | (_ | ⟨ch, cs⟩) <;> simp

/-- the commands that the code runs are the ones of the specification -/
theorem createOps_makes {w : ConvWorld} {version : Except Err Unit} {py : PyVer} {h : List DiskOp} {f : DiskFmt} {path : Str}
    {k : NewDisk} {ops : List DiskOp} (hops : createOps w version py h f path k = .ok ops) :
    Makeable k f ∧ ∃ maker, (f = .iso → w.select h [("mkisofs".toList, none), ("genisoimage".toList, none),
        ("xorriso".toList, none)] = .ok maker) ∧
      Makes (fun n => natStr (rawCapacityMB py n) ++ "M".toList) maker path k f ops := by
  have hq : ∀ (f : DiskFmt) (sub : Option Str) (fs : List (Str × Nat)), qemuCreate f path fs k.capacity sub = .ok ops →
      fs = [] ∧ ∃ c, k.capacity = some c ∧ ops = [blankImage f.name path c (match sub with
        | none => []
        | some s => subOption s)] := by
    intro f sub fs hh
    unfold qemuCreate at hh
    by_cases hf : fs ≠ []
    · rw [if_pos hf] at hh; cases hh
    · rw [if_neg hf] at hh
      cases hc : k.capacity with
      | none => rw [hc] at hh; cases hh
      | some c =>
        rw [hc] at hh
        refine ⟨not_not.1 hf, c, rfl, ?_⟩
        cases sub <;> (cases hh; rfl)
  cases f with
  | qcow2 =>
    obtain ⟨h1, c, h2, rfl⟩ := hq _ _ _ hops
    refine ⟨⟨h1, by rw [h2]; simp⟩, [], nofun, ?_⟩
    have := Makes.blank (room := fun n => natStr (rawCapacityMB py n) ++ "M".toList) (maker := []) (path := path) (Or.inl rfl) h1 h2
    rcases hk : k.subformat with _ | (_ | s) <;> (rw [hk] at this; exact this)
  | vmdk =>
    have hops' : qemuCreate .vmdk path k.fileList k.capacity (k.subformat.getD (some "streamOptimized".toList)) = .ok ops := by
      change vmdkCreate version path k = .ok ops at hops
      unfold vmdkCreate at hops
      dsimp only at hops
      split at hops
      · split at hops
        · cases hops
        · exact hops
      · exact hops
    obtain ⟨h1, c, h2, rfl⟩ := hq _ _ _ hops'
    refine ⟨⟨h1, by rw [h2]; simp⟩, [], nofun, ?_⟩
    have := Makes.vmdk (room := fun n => natStr (rawCapacityMB py n) ++ "M".toList) (maker := []) (path := path) h1 h2
    rcases hk : k.subformat with _ | (_ | s) <;> (rw [hk] at this; exact this)
  | raw =>
    change rawCreateFile py path k = .ok ops at hops
    unfold rawCreateFile at hops
    by_cases hf : k.fileList = []
    · rw [if_pos hf] at hops
      obtain ⟨-, c, h2, rfl⟩ := hq _ _ _ hops
      refine ⟨Or.inr (by rw [h2]; simp), [], nofun, ?_⟩
      have := Makes.blank (room := fun n => natStr (rawCapacityMB py n) ++ "M".toList) (maker := []) (path := path) (Or.inr rfl) hf h2
      rcases hk : k.subformat with _ | (_ | s) <;> (rw [hk] at this; exact this)
    · rw [if_neg hf] at hops
      unfold rawCreate at hops
      rw [if_neg hf] at hops
      cases hops
      refine ⟨Or.inl hf, [], nofun, ?_⟩
      refine Makes.raw hf ?_
      exact isEmptyish k
  | iso =>
    change isoCreateFile w h path k = .ok ops at hops
    unfold isoCreateFile at hops
    dsimp only at hops
    by_cases hf : k.fileList.map Prod.fst = []
    · rw [if_pos hf] at hops
      cases hops
    · rw [if_neg hf] at hops
      have hf' : k.fileList ≠ [] := by simpa using hf
      cases hs : w.select h [("mkisofs".toList, none), ("genisoimage".toList, none), ("xorriso".toList, none)] with
      | error e => rw [hs] at hops; cases hops
      | ok maker =>
        rw [hs] at hops
        unfold isoCreate at hops
        dsimp only at hops
        rw [if_neg hf] at hops
        refine ⟨hf', maker, fun _ => rfl, ?_⟩
        have hm := Makes.iso (room := fun n => natStr (rawCapacityMB py n) ++ "M".toList) (maker := maker) (path := path) hf'
        have hsub : ((k.subformat.getD (some "rockridge".toList)).getD [] = "rockridge".toList) ↔
            (k.subformat = none ∨ k.subformat = some (some "rockridge".toList)) := by
          rcases k.subformat with _ | (_ | s)
          · simp
          · simp
          · simp
        cases hops
        by_cases hx : maker = "xorriso".toList
        · rw [if_pos hx] at hm ⊢
          by_cases hr : k.subformat = none ∨ k.subformat = some (some "rockridge".toList)
          · rw [if_pos hr] at hm
            rw [if_pos (hsub.2 hr)]
            simpa using hm
          · rw [if_neg hr] at hm
            rw [if_neg (fun hh => hr (hsub.1 hh))]
            simpa using hm
        · rw [if_neg hx] at hm ⊢
          by_cases hr : k.subformat = none ∨ k.subformat = some (some "rockridge".toList)
          · rw [if_pos hr] at hm
            rw [if_pos (hsub.2 hr)]
            simpa using hm
          · rw [if_neg hr] at hm
            rw [if_neg (fun hh => hr (hsub.1 hh))]
            simpa using hm

theorem classForFormat_iff {s : Str} {f : DiskFmt} : classForFormat s = some f ↔ f.name = s := by
  constructor
  · intro h
    have := List.find?_some h
    simpa using this
  · rintro rfl
    cases f <;> rfl

/-- **C108 (made).** If an image is returned then it is of the format asked for and lies at the path, where there was nothing
before and there is a file now; and what was run is exactly the commands that make such an image, none of which failed. -/
theorem C108_made {w : ConvWorld} {version : Except Err Unit} {py : PyVer} {h h' : List DiskOp} {path format : Str}
    {k : NewDisk} {img : Image} (hm : forNewFile w version py h path format k = (.ok img, h')) :
    img.path = path ∧ img.fmt.name = format ∧ path ≠ [] ∧ w.pathExists h path = false ∧ w.pathExists h' path = true ∧
    Makeable k img.fmt ∧
    ∃ ops maker, Makes (fun n => natStr (rawCapacityMB py n) ++ "M".toList) maker path k img.fmt ops ∧
      (img.fmt = .iso → w.select h [("mkisofs".toList, none), ("genisoimage".toList, none), ("xorriso".toList, none)] = .ok maker) ∧
      h' = ops.reverse ++ h ∧ ∀ a op b, ops = a ++ op :: b → w.fails (a.reverse ++ h) op = none := by
  unfold forNewFile at hm
  cases hc : classForFormat format with
  | none => rw [hc] at hm; cases hm
  | some f =>
    rw [hc] at hm
    dsimp only at hm
    by_cases hp : path = []
    · rw [if_pos hp] at hm; cases hm
    rw [if_neg hp] at hm
    by_cases hx : w.pathExists h path = true
    · rw [if_pos hx] at hm; cases hm
    rw [if_neg hx] at hm
    split at hm
    · cases hm
    cases ho : createOps w version py h f path k with
    | error e => rw [ho] at hm; cases hm
    | ok ops =>
      rw [ho] at hm
      dsimp only at hm
      rcases hr : runOps w h ops with ⟨r, h2⟩
      rw [hr] at hm
      cases r with
      | error e => cases hm
      | ok u =>
        cases u
        dsimp only at hm
        have e2 := congrArg Prod.snd hm
        have e1 := congrArg Prod.fst hm
        dsimp only at e1 e2
        subst e2
        unfold ConvWorld.open at e1
        rw [if_neg hp] at e1
        by_cases hx2 : w.pathExists h2 path = false
        · rw [if_pos hx2] at e1; cases e1
        rw [if_neg hx2] at e1
        cases e1
        obtain ⟨g1, g2⟩ := runOps_ok hr
        obtain ⟨m1, maker, m2, m3⟩ := createOps_makes ho
        exact ⟨rfl, classForFormat_iff.1 hc, hp, by simpa using hx, by simpa using hx2, m1, ops, maker, m3, m2, g1, g2⟩

/-- **C108 (refused).** Nothing is run for an unknown format, without a path, where a file is already, for a request that
the format cannot satisfy, or if the request is neither for a capacity nor for files; these are the errors told. -/
theorem C108_refused (w : ConvWorld) (version : Except Err Unit) (py : PyVer) (h : List DiskOp) (path format : Str)
    (k : NewDisk) :
    ((∀ f : DiskFmt, f.name ≠ format) → forNewFile w version py h path format k = (.error .notImplementedError, h)) ∧
    (∀ f : DiskFmt, f.name = format →
      (path = [] → forNewFile w version py h path format k = (.error .valueError, h)) ∧
      (path ≠ [] → w.pathExists h path = true → forNewFile w version py h path format k = (.error .runtimeError, h)) ∧
      (path ≠ [] → w.pathExists h path = false → k.capacity = none → k.files = none →
        forNewFile w version py h path format k = (.error .runtimeError, h)) ∧
      (¬ Makeable k f → ∃ e, forNewFile w version py h path format k = (.error e, h))) := by
  constructor
  · intro hn
    unfold forNewFile
    cases hc : classForFormat format with
    | none => rfl
    | some f => exact absurd (classForFormat_iff.1 hc) (hn f)
  · intro f hf
    have hc := classForFormat_iff.2 hf
    unfold forNewFile
    rw [hc]
    dsimp only
    refine ⟨fun hp => by rw [if_pos hp], fun hp hx => by rw [if_neg hp, if_pos hx], fun hp hx h1 h2 => ?_, fun hk => ?_⟩
    · rw [if_neg hp, if_neg (by rw [hx]; decide), if_pos ⟨h1, h2⟩]
    · by_cases hp : path = []
      · rw [if_pos hp]; exact ⟨_, rfl⟩
      rw [if_neg hp]
      by_cases hx : w.pathExists h path = true
      · rw [if_pos hx]; exact ⟨_, rfl⟩
      rw [if_neg hx]
      split
      · exact ⟨_, rfl⟩
      cases ho : createOps w version py h f path k with
      | error e => exact ⟨e, rfl⟩
      | ok ops => exact absurd (createOps_makes ho).1 hk

/-- **C108 (succeeds).** A request that the format can satisfy, for a path where there is nothing, is carried out if the
programs needed are there, none of the commands fails, and they leave a file at the path. -/
theorem C108_succeeds {w : ConvWorld} {py : PyVer} {h : List DiskOp} {path : Str} {f : DiskFmt}
    {k : NewDisk} (hp : path ≠ []) (hx : w.pathExists h path = false) (hk : Makeable k f)
    {maker : Str} (hs : w.select h [("mkisofs".toList, none), ("genisoimage".toList, none), ("xorriso".toList, none)] = .ok maker)
    (hrun : ∀ h op, w.fails h op = none) (hmade : ∀ g, g ≠ h → w.pathExists g path = true) :
    ∃ img h', forNewFile w (.ok ()) py h path f.name k = (.ok img, h') := by
  have hops : ∃ op ops, createOps w (.ok ()) py h f path k = .ok (op :: ops) := by
    cases f with
    | iso =>
      have hf : k.fileList.map Prod.fst ≠ [] := fun hh => hk (List.map_eq_nil_iff.1 hh)
      change ∃ op ops, isoCreateFile w h path k = .ok (op :: ops)
      unfold isoCreateFile isoCreate
      dsimp only
      rw [if_neg hf, hs]
      dsimp only
      rw [if_neg hf]
      exact ⟨_, [], rfl⟩
    | raw =>
      change ∃ op ops, rawCreateFile py path k = .ok (op :: ops)
      unfold rawCreateFile
      by_cases hf : k.fileList = []
      · rw [if_pos hf]
        rcases hk with hk | hk
        · exact absurd hf hk
        · obtain ⟨c, hc⟩ := Option.ne_none_iff_exists'.1 hk
          unfold qemuCreate
          rw [hc]
          exact ⟨_, [], rfl⟩
      · rw [if_neg hf]
        unfold rawCreate
        rw [if_neg hf]
        exact ⟨_, _, rfl⟩
    | vmdk =>
      obtain ⟨c, hc⟩ := Option.ne_none_iff_exists'.1 hk.2
      change ∃ op ops, vmdkCreate (.ok ()) path k = .ok (op :: ops)
      unfold vmdkCreate
      dsimp only
      rw [ite_self]
      unfold qemuCreate
      rw [if_neg (not_not.2 hk.1), hc]
      exact ⟨_, [], rfl⟩
    | qcow2 =>
      obtain ⟨c, hc⟩ := Option.ne_none_iff_exists'.1 hk.2
      change ∃ op ops, qemuCreate .qcow2 path k.fileList k.capacity (k.subformat.getD none) = .ok (op :: ops)
      unfold qemuCreate
      rw [if_neg (not_not.2 hk.1), hc]
      exact ⟨_, [], rfl⟩
  obtain ⟨op, ops, hops⟩ := hops
  have hrunall : ∀ ops h, runOps w h ops = (.ok (), ops.reverse ++ h) := by
    intro ops
    induction ops with
    | nil => intro h; rfl
    | cons o r ih =>
      intro h
      unfold runOps ConvWorld.run
      rw [hrun]
      dsimp only
      rw [ih]
      simp
  unfold forNewFile
  rw [classForFormat_iff.2 rfl]
  dsimp only
  rw [if_neg hp, if_neg (by rw [hx]; decide)]
  rw [if_neg, hops]
  · dsimp only
    rw [hrunall]
    dsimp only
    unfold ConvWorld.open
    rw [if_neg hp, if_neg]
    · exact ⟨_, _, rfl⟩
    · rw [hmade _ (by
        intro hh
        have := congrArg List.length hh
        simp at this
        omega)]
      decide
  · rintro ⟨h1, h2⟩
    cases f <;> simp [Makeable, NewDisk.fileList, h1, h2] at hk

/-- **C108 (failed).** If it fails then nothing was run, or the last command run is the one that failed, or all went well
but the commands left no file. -/
theorem C108_failed_partial {w : ConvWorld} {version : Except Err Unit} {py : PyVer} {h h' : List DiskOp} {path format : Str}
    {k : NewDisk} {e : Err} (hm : forNewFile w version py h path format k = (.error e, h')) :
    h' = h ∨ (∃ g op, h' = op :: g ∧ w.fails g op = some e) ∨ (w.pathExists h' path = false ∧ e = .helperError) := by
  unfold forNewFile at hm
  cases hc : classForFormat format with
  | none => rw [hc] at hm; cases hm; exact Or.inl rfl
  | some f =>
    rw [hc] at hm
    dsimp only at hm
    by_cases hp : path = []
    · rw [if_pos hp] at hm; cases hm; exact Or.inl rfl
    rw [if_neg hp] at hm
    split at hm
    · cases hm; exact Or.inl rfl
    split at hm
    · cases hm; exact Or.inl rfl
    cases ho : createOps w version py h f path k with
    | error e => rw [ho] at hm; cases hm; exact Or.inl rfl
    | ok ops =>
      rw [ho] at hm
      dsimp only at hm
      rcases hr : runOps w h ops with ⟨r, h2⟩
      rw [hr] at hm
      cases r with
      | error e =>
        cases hm
        obtain ⟨a, op, b, h1, h3, h4⟩ := runOps_error hr
        exact Or.inr (Or.inl ⟨_, _, h3, h4⟩)
      | ok u =>
        dsimp only at hm
        have e2 := congrArg Prod.snd hm
        have e1 := congrArg Prod.fst hm
        dsimp only at e1 e2
        subst e2
        unfold ConvWorld.open at e1
        rw [if_neg hp] at e1
        split at e1
        · rename_i hx
          cases e1
          exact Or.inr (Or.inr ⟨hx, rfl⟩)
        · cases e1

/-- a world in which the third command fails, and an image exists as soon as something was run -/
def exMakeWorld : ConvWorld where
  fails := fun h _ => if h.length = 2 then some .helperError else none
  select := fun _ _ => .ok "genisoimage".toList
  pathExists := fun h _ => h ≠ []

example : forNewFile exMakeWorld (.ok ()) .py3 [] "/t/config.img".toList "raw".toList
      { files := some [("/home/u/a.txt".toList, 20)] } = (.ok ⟨"/t/config.img".toList, .raw, .ok none⟩,
    [.call "fatdisk".toList ["/t/config.img".toList, "fileadd".toList, "/home/u/a.txt".toList, "a.txt".toList],
      .call "fatdisk".toList ["/t/config.img".toList, "format".toList, "size".toList, "8M".toList, "fat32".toList]]) := by
  rfl

example : forNewFile exMakeWorld (.ok ()) .py3 [] "/t/d.vmdk".toList "vmdk".toList
      { capacity := some "10G".toList } = (.ok ⟨"/t/d.vmdk".toList, .vmdk, .ok none⟩,
    [.call "qemu-img".toList (["create", "-f", "vmdk", "-o", "subformat=streamOptimized", "/t/d.vmdk", "10G"].map
      String.toList)]) := by rfl

/-- **C108 fails** in that an attempt which failed halfway leaves an unfinished image behind; because of it every further
attempt is refused, even one that would succeed. -/
theorem C108_leftover_fails : ∃ h', forNewFile exMakeWorld (.ok ()) .py3 [] "/t/config.img".toList "raw".toList
      { files := some [("a".toList, 1), ("b".toList, 1)] } = (.error .helperError, h') ∧
    exMakeWorld.pathExists h' "/t/config.img".toList = true ∧
    forNewFile exMakeWorld (.ok ()) .py3 h' "/t/config.img".toList "raw".toList { files := some [("a".toList, 1)] } =
      (.error .runtimeError, h') :=
  ⟨_, rfl, by decide, rfl⟩

/-! ### The sub-format -/

theorem createType_match {s rest : Str} (h1 : '"' ∉ s) (h2 : '\n' ∉ s)
    (hr : ∀ a b, rest = a ++ '"' :: b → '\n' ∈ a) :
    reMatch createTypeRe ("createType=\"".toList ++ s ++ '"' :: rest) = some [(1, s)] := by
  apply reMatch_eq_of
  · refine ⟨rest, ?_⟩
    unfold createTypeRe
    rw [seq_lit]
    refine ⟨s ++ '"' :: rest, by simp, ?_⟩
    unfold Re.dot
    rw [seq_grp_star]
    refine ⟨s, '"' :: rest, [], rfl, ?_, mem_run_lit.2 ⟨rfl, rfl⟩, rfl⟩
    intro c hc
    have : c ≠ '\n' := fun hh => h2 (hh ▸ hc)
    simpa using this
  · intro x m' hx
    unfold createTypeRe at hx
    rw [seq_lit] at hx
    obtain ⟨t, e1, hx⟩ := hx
    rw [List.append_assoc] at e1
    have e1 := (List.append_cancel_left e1)
    unfold Re.dot at hx
    rw [seq_grp_star] at hx
    obtain ⟨w, t', m2, e2, hw, hl, rfl⟩ := hx
    obtain ⟨e3, e4⟩ := mem_run_lit.1 hl
    dsimp only at e3 e4
    subst e4
    rw [e3, ← e1] at e2
    have e2 : s ++ '"' :: rest = w ++ '"' :: x := e2
    -- both w and s end before a quote; w has no newline
    have hws : w = s := by
      rcases List.append_eq_append_iff.1 e2 with ⟨a, ha, hb⟩ | ⟨a, ha, hb⟩
      · cases a with
        | nil => simpa using ha
        | cons c a =>
          exfalso
          cases hb
          have hn := hr a x rfl
          have : '\n' ∈ w := by rw [ha]; simp [hn]
          have := hw _ this
          simp at this
      · cases a with
        | nil => simpa using ha.symm
        | cons c a =>
          exfalso
          cases hb
          exact h1 (by rw [ha]; simp)
    rw [hws]

theorem vmdkHeader_text (bytes : List Nat) : headerText bytes = vmdkHeader bytes := by
  unfold headerText vmdkHeader
  induction bytes.take 1000 with
  | nil => rfl
  | cons b r ih => by_cases h : b < 128 <;> simp [h, ih]

/-- **C108 (sub-format).** If the first 1000 bytes of the file state the type once, as `createType="s"` with no further
quotation mark in that line, then the sub-format is `s`; if they do not state it, that is an error. -/
theorem C108_subformat_partial (bytes : List Nat) :
    (∀ pre s rest, headerText bytes = pre ++ "createType=\"".toList ++ s ++ '"' :: rest → '"' ∉ s → '\n' ∉ s →
      (∀ a b, rest = a ++ '"' :: b → '\n' ∈ a) →
      (∀ pre' t, headerText bytes = pre' ++ "createType=\"".toList ++ t → pre.length ≤ pre'.length) →
      vmdkSubformat bytes = .ok s) ∧
    ((∀ pre t, headerText bytes ≠ pre ++ "createType=\"".toList ++ t) → vmdkSubformat bytes = .error .runtimeError) := by
  rw [vmdkHeader_text]
  have hstart : ∀ t m, reMatch createTypeRe t = some m → ∃ u, t = "createType=\"".toList ++ u := by
    intro t m h
    obtain ⟨x, hx⟩ := reMatch_some_mem h
    unfold createTypeRe at hx
    rw [seq_lit] at hx
    obtain ⟨u, hu, -⟩ := hx
    exact ⟨u, hu⟩
  constructor
  · intro pre s rest e h1 h2 hr hmin
    unfold vmdkSubformat
    have : reSearch createTypeRe (vmdkHeader bytes) = some [(1, s)] := by
      have e' : vmdkHeader bytes = pre ++ ("createType=\"".toList ++ s ++ '"' :: rest) := by rw [e]; simp
      rw [e']
      apply reSearch_eq (createType_match h1 h2 hr)
      intro pre' t' e'' hl
      cases hm : reMatch createTypeRe t' with
      | none => rfl
      | some m =>
        obtain ⟨u, rfl⟩ := hstart _ _ hm
        have := hmin pre' u (by rw [e', e'']; simp)
        omega
    rw [this]
    rfl
  · intro h
    unfold vmdkSubformat
    cases hs : reSearch createTypeRe (vmdkHeader bytes) with
    | none => rfl
    | some m =>
      obtain ⟨pre, t, e, h1, -⟩ := reSearch_some hs
      obtain ⟨u, rfl⟩ := hstart _ _ h1
      exact absurd (by rw [e]; simp) (h pre u)

/-- bytes of a text -/
def exBytes (s : String) : List Nat := s.toList.map Char.toNat

example : vmdkSubformat ([75, 68, 77, 86, 255, 0] ++ exBytes "\nversion=1\ncreateType=\"streamOptimized\"\n# x \"y\"\n") =
    .ok "streamOptimized".toList := by decide +kernel

/-- **C108 fails** for the sub-format when another quoted text follows in the same line: all of it is taken. -/
theorem C108_greedy_fails : vmdkSubformat (exBytes "createType=\"sparse\" # \"x\"\n") = .ok "sparse\" # \"x".toList := by
  decide +kernel

end Cot
