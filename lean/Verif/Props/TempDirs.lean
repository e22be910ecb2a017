import Verif.Spec.TempDirs
import Mathlib.Data.List.Basic
/-
C110: temporary directories do not pile up.
-/
namespace Cot

theorem destroyDir_dirs {rm : Bool} {d : Nat} {s : TmpSt} : ∀ x, x ∈ (destroyDir rm d s).2.dirs ↔ x ∈ s.dirs ∧ (rm = true → x ≠ d) := by
  intro x
  unfold destroyDir
  split
  · cases rm <;> simp
  · rename_i h
    constructor
    · intro hx
      exact ⟨hx, fun _ hh => h (hh ▸ hx)⟩
    · exact fun hx => hx.1

theorem destroyDir_rest {rm : Bool} {d : Nat} {s : TmpSt} : (destroyDir rm d s).2.next = s.next ∧
    (destroyDir rm d s).2.vm = s.vm ∧ (destroyDir rm d s).2.atexit = s.atexit ∧ (rm = true → (destroyDir rm d s).1 = true) := by
  unfold destroyDir
  split <;> cases rm <;> simp

/-- What holds after every history: directories are numbered below `next`; VMs have different directories, which are
registered and were made in this process. -/
structure TmpInv (s0 s : TmpSt) : Prop where
  le : s0.next ≤ s.next
  below : ∀ d ∈ s.dirs, d < s.next
  others : ∀ d ∈ s0.dirs, d ∈ s.dirs
  vmNew : ∀ c d, s.vm c = some d → s0.next ≤ d ∧ d < s.next ∧ d ∈ s.atexit
  inj : ∀ c c' d, s.vm c = some d → s.vm c' = some d → c = c'
  reg : ∀ d ∈ s.atexit, s0.next ≤ d ∧ d < s.next
  startBelow : ∀ d ∈ s0.dirs, d < s0.next
  kept : ∀ d ∈ s.dirs, d < s0.next → d ∈ s0.dirs

theorem TmpInv.start {s : TmpSt} (h : TmpStart s) : TmpInv s s :=
  ⟨Nat.le_refl _, h.1, fun _ h => h, fun c d hc => by simp [h.2.1 c] at hc, fun c c' d hc => by simp [h.2.1 c] at hc,
    fun d hd => by simp [h.2.2] at hd, h.1, fun _ h _ => h⟩

theorem TmpInv.destroyDir {s0 s : TmpSt} (h : TmpInv s0 s) {rm : Bool} {d : Nat} (hd : s0.next ≤ d) :
    TmpInv s0 (destroyDir rm d s).2 := by
  obtain ⟨e1, e2, e3, -⟩ := destroyDir_rest (rm := rm) (d := d) (s := s)
  refine ⟨by rw [e1]; exact h.le, ?_, ?_, ?_, ?_, ?_, h.startBelow, ?_⟩
  · intro x hx
    rw [e1]
    exact h.below x ((destroyDir_dirs x).1 hx).1
  · intro x hx
    exact (destroyDir_dirs x).2 ⟨h.others x hx, fun _ hh => by have := h.startBelow x hx; omega⟩
  · intro c x hc
    rw [e2] at hc
    rw [e1, e3]
    exact h.vmNew c x hc
  · intro c c' x h1 h2
    rw [e2] at h1 h2
    exact h.inj c c' x h1 h2
  · intro x hx
    rw [e3] at hx
    rw [e1]
    exact h.reg x hx
  · intro x hx
    exact h.kept x ((destroyDir_dirs x).1 hx).1

theorem TmpInv.makeDir {s0 s : TmpSt} (h : TmpInv s0 s) : TmpInv s0 (makeDir s) := by
  refine ⟨?_, ?_, ?_, ?_, h.inj, ?_, h.startBelow, ?_⟩
  · exact Nat.le_trans h.le (Nat.le_succ _)
  · intro d hd
    rcases List.mem_cons.1 hd with rfl | hd
    · exact Nat.lt_succ_self _
    · exact Nat.lt_succ_of_lt (h.below d hd)
  · intro d hd
    exact List.mem_cons_of_mem _ (h.others d hd)
  · intro c d hc
    obtain ⟨a, b, e⟩ := h.vmNew c d hc
    exact ⟨a, Nat.lt_succ_of_lt b, e⟩
  · intro d hd
    obtain ⟨a, b⟩ := h.reg d hd
    exact ⟨a, Nat.lt_succ_of_lt b⟩
  · intro d hd hlt
    rcases List.mem_cons.1 hd with rfl | hd
    · have := h.le; omega
    · exact h.kept d hd hlt

theorem TmpInv.register {s0 s : TmpSt} (h : TmpInv s0 s) {d : Nat} (h1 : s0.next ≤ d) (h2 : d < s.next) :
    TmpInv s0 (registerDir d s) := by
  refine ⟨h.le, h.below, h.others, ?_, h.inj, ?_, h.startBelow, h.kept⟩
  · intro c x hc
    obtain ⟨a, b, e⟩ := h.vmNew c x hc
    exact ⟨a, b, List.mem_cons_of_mem _ e⟩
  · intro x hx
    rcases List.mem_cons.1 hx with rfl | hx
    · exact ⟨h1, h2⟩
    · exact h.reg x hx

theorem TmpInv.clearVm {s0 s : TmpSt} (h : TmpInv s0 s) (c : Nat) : TmpInv s0 (setVm c none s) := by
  refine ⟨h.le, h.below, h.others, ?_, ?_, h.reg, h.startBelow, h.kept⟩
  · intro i d hi
    simp only [setVm] at hi
    split at hi
    · cases hi
    · exact h.vmNew i d hi
  · intro i j d hi hj
    simp only [setVm] at hi hj
    split at hi
    · cases hi
    · split at hj
      · cases hj
      · exact h.inj i j d hi hj

theorem TmpInv.destroyVm {s0 s : TmpSt} (h : TmpInv s0 s) {c : Nat} {rm : Bool} : TmpInv s0 (destroyVm c rm s).2 := by
  unfold Cot.destroyVm
  cases hv : s.vm c with
  | none => exact h
  | some d =>
    have hi := h.destroyDir (rm := rm) (h.vmNew c d hv).1
    dsimp only
    rcases hd : Cot.destroyDir rm d s with ⟨b, s'⟩
    rw [hd] at hi
    cases b with
    | false => exact hi
    | true => exact hi.clearVm c

theorem loadTmp_vm {e : LoadEnd} {rm : Bool} {s : TmpSt} : (loadTmp e rm s).2.vm = s.vm := by
  unfold loadTmp
  split <;> first | rfl | (rw [destroyDir_rest.2.1]; rfl)

theorem TmpInv.load {s0 s : TmpSt} (h : TmpInv s0 s) {e : LoadEnd} {rm : Bool} : TmpInv s0 (loadTmp e rm s).2 ∧
    ∀ d, (loadTmp e rm s).1 = some d → d = s.next ∧ d < (loadTmp e rm s).2.next ∧ d ∈ (loadTmp e rm s).2.atexit := by
  have hm := h.makeDir
  have hr := hm.register h.le (Nat.lt_succ_self _)
  unfold loadTmp
  split
  · exact ⟨h, fun d hd => by cases hd⟩
  · exact ⟨h, fun d hd => by cases hd⟩
  · exact ⟨hm.destroyDir h.le, fun d hd => by cases hd⟩
  · exact ⟨hm, fun d hd => by cases hd⟩
  · exact ⟨hr.destroyDir h.le, fun d hd => by cases hd⟩
  · exact ⟨hr, fun d hd => by cases hd⟩
  · refine ⟨hr, fun d hd => ?_⟩
    cases hd
    exact ⟨rfl, Nat.lt_succ_self _, List.mem_cons_self⟩

theorem TmpInv.step {s0 s : TmpSt} (h : TmpInv s0 s) (op : TmpOp) : TmpInv s0 (tmpStep s op) := by
  cases op with
  | missing c => exact h
  | close c rm => exact h.destroyVm
  | destroy c rm => exact h.destroyVm
  | look e rm =>
    obtain ⟨h1, h2⟩ := h.load (e := e) (rm := rm)
    unfold tmpStep
    dsimp only
    rcases hl : loadTmp e rm s with ⟨_ | d, s'⟩
    · rw [hl] at h1; exact h1
    · rw [hl] at h1 h2
      obtain ⟨rfl, -⟩ := h2 d rfl
      exact h1.destroyDir h.le
  | open_ c e rm rm' =>
    unfold tmpStep
    dsimp only
    have hd := h.destroyVm (c := c) (rm := rm)
    rcases hv : Cot.destroyVm c rm s with ⟨_ | _, s1⟩
    · rw [hv] at hd; exact hd
    · rw [hv] at hd
      dsimp only at hd ⊢
      obtain ⟨h1, h2⟩ := hd.load (e := e) (rm := rm')
      have h3 := loadTmp_vm (e := e) (rm := rm') (s := s1)
      rcases hl : loadTmp e rm' s1 with ⟨_ | d, s2⟩
      · rw [hl] at h1; exact h1
      · rw [hl] at h1 h2 h3
        dsimp only at h3
        obtain ⟨rfl, e2, e3⟩ := h2 d rfl
        dsimp only at h1 e2 e3 ⊢
        refine ⟨h1.le, h1.below, h1.others, ?_, ?_, h1.reg, h1.startBelow, h1.kept⟩
        · intro i x hi
          simp only [setVm] at hi
          split at hi
          · cases hi
            exact ⟨hd.le, e2, e3⟩
          · exact h1.vmNew i x hi
        · intro i j x hi hj
          simp only [setVm] at hi hj
          have hlt : ∀ k y, s2.vm k = some y → y < s1.next := by
            intro k y hk
            rw [h3] at hk
            exact (hd.vmNew k y hk).2.1
          split at hi
          · rename_i hic
            cases hi
            split at hj
            · rename_i hjc; rw [hic, hjc]
            · have := hlt j _ hj; omega
          · split at hj
            · cases hj
              have := hlt i _ hi; omega
            · exact h1.inj i j x hi hj

theorem tmpInv_history {s0 : TmpSt} (h0 : TmpStart s0) (ops : List TmpOp) : TmpInv s0 (ops.foldl tmpStep s0) := by
  have : ∀ (ops : List TmpOp) (s : TmpSt), TmpInv s0 s → TmpInv s0 (ops.foldl tmpStep s) := by
    intro ops
    induction ops with
    | nil => exact fun s h => h
    | cons o r ih => exact fun s h => ih _ (h.step o)
  exact this ops s0 (TmpInv.start h0)

/-- the directories are those of others and those of VMs -/
def OnlyVms (s0 s : TmpSt) : Prop := ∀ d, d ∈ s.dirs ↔ d ∈ s0.dirs ∨ ∃ c, s.vm c = some d

theorem OnlyVms.destroyVm {s0 s : TmpSt} (hi : TmpInv s0 s) (h : OnlyVms s0 s) (c : Nat) :
    OnlyVms s0 (destroyVm c true s).2 ∧ (destroyVm c true s).1 = true ∧ (destroyVm c true s).2.vm c = none := by
  unfold Cot.destroyVm
  cases hv : s.vm c with
  | none => exact ⟨h, rfl, hv⟩
  | some d =>
    obtain ⟨e1, e2, e3, e4⟩ := destroyDir_rest (rm := true) (d := d) (s := s)
    have e4 := e4 rfl
    have hx := destroyDir_dirs (rm := true) (d := d) (s := s)
    dsimp only
    rcases hd : Cot.destroyDir true d s with ⟨b, s'⟩
    rw [hd] at e2 e4 hx
    dsimp only at e2 e4 hx
    subst e4
    refine ⟨fun x => ?_, rfl, by simp [setVm]⟩
    show x ∈ s'.dirs ↔ _
    rw [hx x, h x]
    simp only [setVm, e2]
    constructor
    · rintro ⟨h1 | ⟨i, hi'⟩, h2⟩
      · exact Or.inl h1
      · refine Or.inr ⟨i, ?_⟩
        rw [if_neg]
        · exact hi'
        · rintro rfl
          rw [hv] at hi'
          exact h2 trivial (Option.some.inj hi').symm
    · rintro (h1 | ⟨i, hi'⟩)
      · refine ⟨Or.inl h1, fun _ hxd => ?_⟩
        have := hi.startBelow x h1
        have := (hi.vmNew c d hv).1
        omega
      · split at hi'
        · cases hi'
        · rename_i hic
          refine ⟨Or.inr ⟨i, hi'⟩, fun _ hxd => ?_⟩
          subst hxd
          exact hic (hi.inj i c x hi' hv)

/-- a load that is not disturbed leaves a directory only if it succeeds -/
theorem loadTmp_clean {s0 s : TmpSt} (hi : TmpInv s0 s) {e : LoadEnd} (h1 : e ≠ .interrupted .beforeRegister)
    (h2 : e ≠ .interrupted .later) :
    ∀ x, x ∈ (loadTmp e true s).2.dirs ↔ x ∈ s.dirs ∨ (loadTmp e true s).1 = some x := by
  intro x
  unfold loadTmp
  have hn : x ∈ s.dirs → x ≠ s.next := fun hx hh => by have := hi.below x hx; omega
  split
  · simp
  · simp
  · rw [destroyDir_dirs]
    simp only [makeDir, List.mem_cons, reduceCtorEq, or_false, forall_const]
    constructor
    · rintro ⟨h | h, h'⟩
      · exact absurd h h'
      · exact h
    · exact fun h => ⟨Or.inr h, hn h⟩
  · exact absurd rfl h1
  · rw [destroyDir_dirs]
    simp only [makeDir, registerDir, List.mem_cons, reduceCtorEq, or_false, forall_const]
    constructor
    · rintro ⟨h | h, h'⟩
      · exact absurd h h'
      · exact h
    · exact fun h => ⟨Or.inr h, hn h⟩
  · exact absurd rfl h2
  · simp only [makeDir, registerDir, List.mem_cons, Option.some.injEq]
    constructor
    · rintro (h | h)
      · exact Or.inr h.symm
      · exact Or.inl h
    · rintro (h | h)
      · exact Or.inr h
      · exact Or.inl h.symm

theorem OnlyVms.step {s0 s : TmpSt} (hi : TmpInv s0 s) (h : OnlyVms s0 s) {op : TmpOp} (hu : Undisturbed op) :
    OnlyVms s0 (tmpStep s op) := by
  cases op with
  | missing c => exact h
  | close c rm => obtain rfl : rm = true := hu; exact (h.destroyVm hi c).1
  | destroy c rm => obtain rfl : rm = true := hu; exact (h.destroyVm hi c).1
  | look e rm =>
    obtain ⟨rfl, u1, u2⟩ := hu
    have hc := loadTmp_clean hi u1 u2
    have hv := loadTmp_vm (e := e) (rm := true) (s := s)
    have hl2 := (hi.load (e := e) (rm := true)).2
    unfold tmpStep
    dsimp only
    rcases hl : loadTmp e true s with ⟨_ | d, s'⟩
    · rw [hl] at hc hv
      dsimp only at hc hv ⊢
      intro x
      rw [hc x, hv]
      simp only [reduceCtorEq, or_false]
      exact h x
    · rw [hl] at hc hv hl2
      obtain ⟨rfl, -⟩ := hl2 d rfl
      dsimp only at hc hv ⊢
      intro x
      rw [destroyDir_dirs, hc x, destroyDir_rest.2.1, hv, h x]
      simp only [Option.some.injEq, forall_const]
      constructor
      · rintro ⟨h1 | h1, h2⟩
        · exact h1
        · exact absurd h1.symm h2
      · intro h1
        refine ⟨Or.inl h1, ?_⟩
        have := hi.below x ((h x).2 h1)
        omega
  | open_ c e rm rm' =>
    obtain ⟨rfl, rfl, u1, u2⟩ := hu
    obtain ⟨d1, d2, d3⟩ := h.destroyVm hi c
    have hd := hi.destroyVm (c := c) (rm := true)
    unfold tmpStep
    dsimp only
    rcases hv : Cot.destroyVm c true s with ⟨b, s1⟩
    rw [hv] at d1 d2 d3 hd
    dsimp only at d1 d2 d3 hd
    subst d2
    dsimp only
    have hc := loadTmp_clean hd u1 u2
    have hv2 := loadTmp_vm (e := e) (rm := true) (s := s1)
    rcases hl : loadTmp e true s1 with ⟨_ | d, s2⟩
    · rw [hl] at hc hv2
      dsimp only at hc hv2 ⊢
      intro x
      rw [hc x, hv2]
      simp only [reduceCtorEq, or_false]
      exact d1 x
    · rw [hl] at hc hv2
      dsimp only at hc hv2 ⊢
      intro x
      show x ∈ s2.dirs ↔ _
      rw [hc x, d1 x]
      simp only [setVm, hv2, Option.some.injEq]
      constructor
      · rintro ((h1 | ⟨i, hi'⟩) | h1)
        · exact Or.inl h1
        · refine Or.inr ⟨i, ?_⟩
          rw [if_neg]
          · exact hi'
          · rintro rfl
            rw [d3] at hi'
            cases hi'
        · exact Or.inr ⟨c, by rw [if_pos rfl, h1]⟩
      · rintro (h1 | ⟨i, hi'⟩)
        · exact Or.inl (Or.inl h1)
        · split at hi'
          · exact Or.inr (Option.some.inj hi')
          · exact Or.inl (Or.inr ⟨i, hi'⟩)

/-- **C110.** Whatever packages are opened, replaced, closed or only looked at, and however often and wherever loading fails:
as long as nothing is disturbed, the temporary directories that exist are, besides those of others, exactly those of the
packages that are open, one for each. -/
theorem C110_open_partial {s0 : TmpSt} (h0 : TmpStart s0) (ops : List TmpOp) (hu : ∀ op ∈ ops, Undisturbed op) :
    let s := ops.foldl tmpStep s0
    (∀ d, d ∈ s.dirs ↔ d ∈ s0.dirs ∨ ∃ c, s.vm c = some d) ∧
    (∀ c c' d, s.vm c = some d → s.vm c' = some d → c = c') ∧
    ((∀ c, s.vm c = none) → ∀ d, d ∈ s.dirs ↔ d ∈ s0.dirs) := by
  have key : ∀ (ops : List TmpOp) (s : TmpSt), (∀ op ∈ ops, Undisturbed op) → TmpInv s0 s → OnlyVms s0 s →
      OnlyVms s0 (ops.foldl tmpStep s) := by
    intro ops
    induction ops with
    | nil => exact fun s _ _ h => h
    | cons o r ih =>
      intro s hu hi h
      exact ih _ (fun op hop => hu op (by simp [hop])) (hi.step o) (h.step hi (hu o (by simp)))
  have hs : OnlyVms s0 s0 := by
    intro d
    constructor
    · exact Or.inl
    · rintro (h | ⟨c, hc⟩)
      · exact h
      · rw [h0.2.1 c] at hc; cases hc
  have h1 := key ops s0 hu (TmpInv.start h0) hs
  refine ⟨h1, (tmpInv_history h0 ops).inj, fun hn d => ?_⟩
  rw [h1 d]
  constructor
  · rintro (h | ⟨c, hc⟩)
    · exact h
    · rw [hn c] at hc; cases hc
  · exact Or.inl

/-- **C110 (replaced).** Opening another package with a command, closing it, or `destroy` removes the directory that the
command had. -/
theorem C110_replaced {s0 : TmpSt} (h0 : TmpStart s0) (ops : List TmpOp) {c d : Nat}
    (hv : (ops.foldl tmpStep s0).vm c = some d) {op : TmpOp} (hu : Undisturbed op)
    (hop : op = .destroy c true ∨ op = .close c true ∨ ∃ e, op = .open_ c e true true) :
    d ∉ (tmpStep (ops.foldl tmpStep s0) op).dirs := by
  have hi := tmpInv_history h0 ops
  generalize ops.foldl tmpStep s0 = S at hv hi ⊢
  have hd : d ∉ (destroyVm c true S).2.dirs ∧
      (destroyVm c true S).1 = true ∧ d < (destroyVm c true S).2.next := by
    unfold destroyVm
    rw [hv]
    dsimp only
    obtain ⟨e1, e2, e3, e4⟩ := destroyDir_rest (rm := true) (d := d) (s := S)
    have hx := destroyDir_dirs (rm := true) (d := d) (s := S) d
    rcases hd : destroyDir true d S with ⟨b, s'⟩
    rw [hd] at e1 e4 hx
    cases e4 rfl
    refine ⟨fun hh => (hx.1 hh).2 rfl rfl, rfl, ?_⟩
    show d < s'.next
    rw [e1]
    exact (hi.vmNew c d hv).2.1
  rcases hop with rfl | rfl | ⟨e, rfl⟩
  · exact hd.1
  · exact hd.1
  · obtain ⟨-, -, u1, u2⟩ := hu
    have hdi := hi.destroyVm (c := c) (rm := true)
    unfold tmpStep
    dsimp only
    rcases hv1 : destroyVm c true S with ⟨b, s1⟩
    rw [hv1] at hd hdi
    dsimp only at hd hdi
    cases hd.2.1
    dsimp only
    have hc := loadTmp_clean hdi u1 u2 d
    have hl2 := (hdi.load (e := e) (rm := true)).2
    rcases hl : loadTmp e true s1 with ⟨_ | x, s2⟩
    · rw [hl] at hc
      dsimp only at hc ⊢
      rw [hc]
      simp [hd.1]
    · rw [hl] at hc hl2
      dsimp only at hc ⊢
      show d ∉ s2.dirs
      rw [hc]
      obtain ⟨rfl, -⟩ := hl2 x rfl
      rintro (hh | hh)
      · exact hd.1 hh
      · have := Option.some.inj hh
        have := hd.2.2
        omega

theorem tmpExit_dirs (rm : Nat → Bool) (s : TmpSt) : ∀ d, d ∈ (tmpExit rm s).dirs ↔ d ∈ s.dirs ∧ (d ∈ s.atexit → rm d = false) := by
  have : ∀ (l : List Nat) (s : TmpSt) (d : Nat), d ∈ (l.foldl (fun s d => (destroyDir (rm d) d s).2) s).dirs ↔
      d ∈ s.dirs ∧ (d ∈ l → rm d = false) := by
    intro l
    induction l with
    | nil => intro s d; simp
    | cons a l ih =>
      intro s d
      rw [List.foldl_cons, ih, destroyDir_dirs]
      simp only [List.mem_cons]
      constructor
      · rintro ⟨⟨h1, h2⟩, h3⟩
        refine ⟨h1, ?_⟩
        rintro (rfl | h)
        · cases hr : rm d with
          | false => rfl
          | true => exact absurd rfl (h2 hr)
        · exact h3 h
      · rintro ⟨h1, h2⟩
        refine ⟨⟨h1, fun hr hda => ?_⟩, fun h => h2 (Or.inr h)⟩
        have := h2 (Or.inl hda)
        rw [hda, hr] at this
        cases this
  exact this s.atexit s

/-- **C110 (exit).** When the process ends, also after interruptions and failed removals on the way, every temporary directory
is removed that can be removed then -- if none was lost in the moment between making and registering it.  Directories of
others are never removed. -/
theorem C110_exit_partial {s0 : TmpSt} (h0 : TmpStart s0) (ops : List TmpOp) (rm : Nat → Bool) :
    (∀ d ∈ s0.dirs, d ∈ (tmpExit rm (ops.foldl tmpStep s0)).dirs) ∧
    ((∀ op ∈ ops, Registered op) → ∀ d ∈ (tmpExit rm (ops.foldl tmpStep s0)).dirs, d ∈ s0.dirs ∨ rm d = false) := by
  have hi := tmpInv_history h0 ops
  constructor
  · intro d hd
    rw [tmpExit_dirs]
    refine ⟨hi.others d hd, fun ha => ?_⟩
    have := (hi.reg d ha).1
    have := h0.1 d hd
    omega
  · intro hr
    -- every directory of this process is registered
    have hreg : ∀ (ops : List TmpOp) (s : TmpSt), (∀ op ∈ ops, Registered op) →
        (∀ d ∈ s.dirs, d ∈ s0.dirs ∨ d ∈ s.atexit) → ∀ d ∈ (ops.foldl tmpStep s).dirs, d ∈ s0.dirs ∨ d ∈ (ops.foldl tmpStep s).atexit := by
      have hdd : ∀ (s : TmpSt) (b : Bool) (d : Nat), (∀ d ∈ s.dirs, d ∈ s0.dirs ∨ d ∈ s.atexit) →
          ∀ x ∈ (destroyDir b d s).2.dirs, x ∈ s0.dirs ∨ x ∈ (destroyDir b d s).2.atexit := by
        intro s b d h x hx
        rw [destroyDir_rest.2.2.1]
        exact h x ((destroyDir_dirs x).1 hx).1
      have hdv : ∀ (s : TmpSt) (b : Bool) (c : Nat), (∀ d ∈ s.dirs, d ∈ s0.dirs ∨ d ∈ s.atexit) →
          ∀ x ∈ (destroyVm c b s).2.dirs, x ∈ s0.dirs ∨ x ∈ (destroyVm c b s).2.atexit := by
        intro s b c h
        unfold destroyVm
        cases hv : s.vm c with
        | none => exact h
        | some d =>
          have := hdd s b d h
          dsimp only
          rcases hd : destroyDir b d s with ⟨_ | _, s'⟩
          · rw [hd] at this; exact this
          · rw [hd] at this; exact this
      have hld : ∀ (s : TmpSt) (e : LoadEnd) (b : Bool), e ≠ .interrupted .beforeRegister →
          (e = .failed .beforeRegister → b = true) → (∀ d ∈ s.dirs, d ∈ s0.dirs ∨ d ∈ s.atexit) →
          ∀ x ∈ (loadTmp e b s).2.dirs, x ∈ s0.dirs ∨ x ∈ (loadTmp e b s).2.atexit := by
        intro s e b h1 h2 h
        have hmr : ∀ x ∈ (registerDir s.next (makeDir s)).dirs, x ∈ s0.dirs ∨ x ∈ (registerDir s.next (makeDir s)).atexit := by
          intro x hx
          rcases List.mem_cons.1 hx with rfl | hx
          · exact Or.inr List.mem_cons_self
          · rcases h x hx with h | h
            · exact Or.inl h
            · exact Or.inr (List.mem_cons_of_mem _ h)
        unfold loadTmp
        split
        · exact h
        · exact h
        · obtain rfl := h2 rfl
          intro x hx
          obtain ⟨hx1, hx2⟩ := (destroyDir_dirs x).1 hx
          rw [destroyDir_rest.2.2.1]
          rcases List.mem_cons.1 hx1 with rfl | hx1
          · exact absurd rfl (hx2 rfl)
          · exact h x hx1
        · exact absurd rfl h1
        · exact hdd _ _ _ hmr
        · exact hmr
        · exact hmr
      have hst : ∀ (s : TmpSt) (op : TmpOp), Registered op → (∀ d ∈ s.dirs, d ∈ s0.dirs ∨ d ∈ s.atexit) →
          ∀ d ∈ (tmpStep s op).dirs, d ∈ s0.dirs ∨ d ∈ (tmpStep s op).atexit := by
        intro s op hop h
        cases op with
        | missing c => exact h
        | close c b => exact hdv s b c h
        | destroy c b => exact hdv s b c h
        | look e b =>
          have := hld s e b hop.1 hop.2 h
          unfold tmpStep
          dsimp only
          rcases hl : loadTmp e b s with ⟨_ | d, s'⟩
          · rw [hl] at this; exact this
          · rw [hl] at this; exact hdd s' b d this
        | open_ c e b b' =>
          have h1 := hdv s b c h
          unfold tmpStep
          dsimp only
          rcases hv : destroyVm c b s with ⟨_ | _, s1⟩
          · rw [hv] at h1; exact h1
          · rw [hv] at h1
            have := hld s1 e b' hop.1 hop.2 h1
            dsimp only
            rcases hl : loadTmp e b' s1 with ⟨_ | d, s2⟩
            · rw [hl] at this; exact this
            · rw [hl] at this; exact this
      intro ops
      induction ops with
      | nil => exact fun s _ h => h
      | cons o r ih =>
        intro s hr h
        exact ih _ (fun op hop => hr op (by simp [hop])) (hst s o (hr o (by simp)) h)
    intro d hd
    rw [tmpExit_dirs] at hd
    rcases hreg ops s0 hr (fun x hx => Or.inl hx) d hd.1 with h | h
    · exact Or.inl h
    · exact Or.inr (hd.2 h)

/-- non-vacuity: two commands, a package replaced by one that cannot be loaded, one looked at -/
def exTmp : TmpSt := { next := 7, dirs := [3, 5], vm := fun _ => none, atexit := [] }

example : TmpStart exTmp ∧
    let ops : List TmpOp := [.open_ 0 .loaded true true, .open_ 1 .loaded true true, .look .loaded true,
      .open_ 0 (.failed .later) true true, .open_ 1 .loaded true true]
    (∀ op ∈ ops, Undisturbed op) ∧ (ops.foldl tmpStep exTmp).dirs = [11, 3, 5] ∧
    (ops.foldl tmpStep exTmp).vm 0 = none ∧ (ops.foldl tmpStep exTmp).vm 1 = some 11 := by
  refine ⟨⟨by decide, fun _ => rfl, rfl⟩, ?_, by decide, by decide, by decide⟩
  intro op hop
  simp only [List.mem_cons, List.not_mem_nil, or_false] at hop
  rcases hop with rfl | rfl | rfl | rfl | rfl <;> simp [Undisturbed]

/-- **C110 fails** if the user interrupts the program in the moment between making the directory and registering it: the
directory is never removed. -/
theorem C110_interrupted_fails : (tmpExit (fun _ => true)
    (([.open_ 0 (.interrupted .beforeRegister) true true, .destroy 0 true] : List TmpOp).foldl tmpStep exTmp)).dirs = [7, 3, 5] := by
  decide

end Cot
