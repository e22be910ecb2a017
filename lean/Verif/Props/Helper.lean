import Verif.Spec.Helper
/-
C40: helper selection.
-/
namespace Cot

variable {W V : Type} (sys : HelperSys W V)

theorem enough_true {w : W} {n : Str} {o : Option Str} {m : Option V} (hm : sys.minVersion o = .ok m)
    (hf : sys.found w n = true) (he : sys.enough w n m = .ok true) : Usable sys w (n, o) := by
  refine ⟨hf, ?_⟩
  cases o with
  | none => exact Or.inl rfl
  | some s =>
    right
    unfold HelperSys.minVersion at hm
    cases hp : sys.parse s with
    | error e => simp [hp] at hm
    | ok x =>
      simp only [hp, Except.ok.injEq] at hm
      subst hm
      unfold HelperSys.enough at he
      cases hv : sys.version w n with
      | error e => simp [hv] at he
      | ok v =>
        simp only [hv, Except.ok.injEq] at he
        exact ⟨s, x, v, rfl, hp, rfl, he⟩

theorem enough_false {w : W} {n : Str} {o : Option Str} {m : Option V} (hm : sys.minVersion o = .ok m)
    (he : sys.enough w n m = .ok false) : ¬ Usable sys w (n, o) := by
  rintro ⟨-, h⟩
  cases o with
  | none =>
    cases hm
    cases he
  | some s =>
    rcases h with h | ⟨s', m', v, h1, h2, h3, h4⟩
    · cases h
    · simp only at h1 h3; cases h1
      simp only [HelperSys.minVersion, h2, Except.ok.injEq] at hm
      subst hm
      simp only [HelperSys.enough, h3, h4, Except.ok.injEq] at he
      cases he

theorem firstInstalled_spec (w : W) : ∀ (choices : List (Str × Option Str)),
    (∀ n, sys.firstInstalled w choices = .ok (some n) →
      ∃ pre o post, choices = pre ++ (n, o) :: post ∧ Usable sys w (n, o) ∧ ∀ c ∈ pre, ¬ Usable sys w c) ∧
    (sys.firstInstalled w choices = .ok none → ∀ c ∈ choices, ¬ Usable sys w c) ∧
    (WellFormed sys choices → VersionsReadable sys w choices → ∃ r, sys.firstInstalled w choices = .ok r)
  | [] => ⟨by simp [HelperSys.firstInstalled], by simp, fun _ _ => ⟨_, rfl⟩⟩
  | (n, o) :: r => by
    obtain ⟨ih1, ih2, ih3⟩ := firstInstalled_spec w r
    have hrest : ∀ (hno : ¬ Usable sys w (n, o)),
        (∀ n', sys.firstInstalled w r = .ok (some n') →
          ∃ pre o' post, (n, o) :: r = pre ++ (n', o') :: post ∧ Usable sys w (n', o') ∧ ∀ c ∈ pre, ¬ Usable sys w c) ∧
        (sys.firstInstalled w r = .ok none → ∀ c ∈ (n, o) :: r, ¬ Usable sys w c) := by
      intro hno
      constructor
      · intro n' h
        obtain ⟨pre, o', post, h1, h2, h3⟩ := ih1 n' h
        refine ⟨(n, o) :: pre, o', post, by rw [h1]; rfl, h2, ?_⟩
        intro c hc
        rcases List.mem_cons.1 hc with rfl | hc
        · exact hno
        · exact h3 c hc
      · intro h c hc
        rcases List.mem_cons.1 hc with rfl | hc
        · exact hno
        · exact ih2 h c hc
    have hwf : WellFormed sys ((n, o) :: r) → WellFormed sys r := fun h a s hm => h a s (by simp [hm])
    have hvr : VersionsReadable sys w ((n, o) :: r) → VersionsReadable sys w r := fun h a s hm => h a s (by simp [hm])
    unfold HelperSys.firstInstalled
    cases hm : sys.minVersion o with
    | error e =>
      refine ⟨by simp, by simp, ?_⟩
      intro hw
      exfalso
      cases o with
      | none => cases hm
      | some s =>
        obtain ⟨m, hp⟩ := hw n s (by simp)
        simp only [HelperSys.minVersion, hp] at hm
        cases hm
    | ok m =>
      simp only
      by_cases hf : sys.found w n = true
      · rw [if_pos hf]
        cases he : sys.enough w n m with
        | error e =>
          refine ⟨by simp, by simp, ?_⟩
          intro _ hv
          exfalso
          obtain ⟨v, hv⟩ := hv n o (by simp) hf
          cases m with
          | none => cases he
          | some x => simp only [HelperSys.enough, hv] at he; cases he
        | ok b =>
          cases b with
          | true =>
            refine ⟨?_, by simp, fun _ _ => ⟨_, rfl⟩⟩
            intro n' h
            simp only [Except.ok.injEq, Option.some.injEq] at h
            subst h
            exact ⟨[], o, r, rfl, enough_true sys hm hf he, by simp⟩
          | false =>
            obtain ⟨h1, h2⟩ := hrest (enough_false sys hm he)
            exact ⟨h1, h2, fun hw hv => ih3 (hwf hw) (hvr hv)⟩
      · rw [if_neg hf]
        obtain ⟨h1, h2⟩ := hrest (fun h => hf h.1)
        exact ⟨h1, h2, fun hw hv => ih3 (hwf hw) (hvr hv)⟩

theorem install_found {w w' : W} {n : Str} (h : sys.install w n = (.ok (), w')) : sys.found w' n = true := by
  unfold HelperSys.install at h
  split at h
  · rename_i hf; cases h; exact hf
  · split at h
    · cases h
    · split at h
      · cases h
      · split at h
        · rename_i hf; cases h; exact hf
        · cases h

theorem firstInstallable_sound : ∀ (choices : List (Str × Option Str)) (w w' : W) (n : Str),
    sys.firstInstallable choices w = (.ok (some n), w') → ∃ o, (n, o) ∈ choices ∧ Usable sys w' (n, o)
  | [], _, _, _ => by simp [HelperSys.firstInstallable]
  | (k, o) :: r, w, w', n => by
    intro h
    unfold HelperSys.firstInstallable at h
    cases hm : sys.minVersion o with
    | error e => simp [hm] at h
    | ok m =>
      rw [hm] at h
      simp only at h
      have hrec : ∀ u, sys.firstInstallable r u = (.ok (some n), w') → ∃ o', (n, o') ∈ (k, o) :: r ∧ Usable sys w' (n, o') := by
        intro u hu
        obtain ⟨o', h1, h2⟩ := firstInstallable_sound r u w' n hu
        exact ⟨o', by simp [h1], h2⟩
      by_cases hi : sys.installable w k = true
      · rw [if_pos hi] at h
        cases hin : sys.install w k with
        | mk res u =>
          rw [hin] at h
          cases res with
          | error e => simp at h
          | ok x =>
            simp only at h
            cases he : sys.enough u k m with
            | error e => simp [he] at h
            | ok b =>
              rw [he] at h
              cases b with
              | true =>
                simp only [Prod.mk.injEq, Except.ok.injEq, Option.some.injEq] at h
                obtain ⟨rfl, rfl⟩ := h
                exact ⟨o, by simp, enough_true sys hm (install_found sys hin) he⟩
              | false => exact hrec u h
      · rw [if_neg hi] at h
        exact hrec w h

/-- **C40 (sound).** Whatever `helper_select` returns is one of the choices, is installed afterwards and is at
least as new as that choice requires; and if some choice was usable from the start, then the first such
choice is returned and nothing is installed. -/
theorem C40_sound {w w' : W} {choices : List (Str × Option Str)} {n : Str}
    (h : sys.select w choices = (.ok n, w')) :
    (∃ o, (n, o) ∈ choices ∧ Usable sys w' (n, o)) ∧
    ((∃ c ∈ choices, Usable sys w c) → w' = w ∧
      ∃ pre o post, choices = pre ++ (n, o) :: post ∧ Usable sys w (n, o) ∧ ∀ c ∈ pre, ¬ Usable sys w c) := by
  obtain ⟨h1, h2, -⟩ := firstInstalled_spec sys w choices
  unfold HelperSys.select at h
  cases hf : sys.firstInstalled w choices with
  | error e => simp [hf] at h
  | ok r =>
    cases r with
    | some k =>
      simp only [hf, Prod.mk.injEq, Except.ok.injEq] at h
      obtain ⟨rfl, rfl⟩ := h
      obtain ⟨pre, o, post, e, hu, hp⟩ := h1 k hf
      exact ⟨⟨o, by rw [e]; simp, hu⟩, fun _ => ⟨rfl, pre, o, post, e, hu, hp⟩⟩
    | none =>
      rw [hf] at h
      simp only at h
      have hno := h2 hf
      refine ⟨?_, fun ⟨c, hc, hu⟩ => absurd hu (hno c hc)⟩
      cases hi : sys.firstInstallable choices w with
      | mk res u =>
        rw [hi] at h
        cases res with
        | error e => simp at h
        | ok r =>
          cases r with
          | none => simp at h
          | some k =>
            simp only [Prod.mk.injEq, Except.ok.injEq] at h
            obtain ⟨rfl, rfl⟩ := h
            exact firstInstallable_sound sys choices w u k hi

/-- **C40 (prefers installed).** If a choice is usable, the requirements can be parsed and the installed
programs report their versions, then `helper_select` returns the first usable choice and installs nothing. -/
theorem C40_installed {w : W} {choices : List (Str × Option Str)} (hw : WellFormed sys choices)
    (hv : VersionsReadable sys w choices) {pre post : List (Str × Option Str)} {c : Str × Option Str}
    (hc : choices = pre ++ c :: post) (hu : Usable sys w c) (hpre : ∀ d ∈ pre, ¬ Usable sys w d) :
    sys.select w choices = (.ok c.1, w) := by
  obtain ⟨h1, h2, h3⟩ := firstInstalled_spec sys w choices
  obtain ⟨r, hr⟩ := h3 hw hv
  have hmem : c ∈ choices := by rw [hc]; simp
  cases r with
  | none => exact absurd hu (h2 hr c hmem)
  | some n =>
    obtain ⟨pre', o, post', e, hu', hp'⟩ := h1 n hr
    unfold HelperSys.select
    rw [hr]
    simp only [Prod.mk.injEq, Except.ok.injEq, and_true]
    -- the first usable choice is unique
    rw [hc] at e
    have : ∀ (pre pre' : List (Str × Option Str)) {post post'} {c d : Str × Option Str}, pre ++ c :: post = pre' ++ d :: post' →
        Usable sys w c → Usable sys w d → (∀ x ∈ pre, ¬ Usable sys w x) → (∀ x ∈ pre', ¬ Usable sys w x) → c = d := by
      intro pre
      induction pre with
      | nil =>
        intro pre' post post' c d e hc hd h h'
        cases pre' with
        | nil => exact (List.cons.inj e).1
        | cons x xs =>
          have := (List.cons.inj e).1
          exact absurd hc (by rw [this]; exact h' x (by simp))
      | cons x xs ih =>
        intro pre' post post' c d e hc hd h h'
        cases pre' with
        | nil =>
          have := (List.cons.inj e).1
          exact absurd hd (by rw [← this]; exact h x (by simp))
        | cons y ys =>
          exact ih ys (List.cons.inj e).2 hc hd (fun z hz => h z (by simp [hz])) (fun z hz => h' z (by simp [hz]))
    rw [this pre pre' e hu hu' hpre hp']

theorem firstInstallable_none {w : W} : ∀ {choices : List (Str × Option Str)}, WellFormed sys choices →
    (∀ c ∈ choices, sys.installable w c.1 = false) → sys.firstInstallable choices w = (.ok none, w)
  | [], _, _ => rfl
  | (k, o) :: r, hw, hno => by
    unfold HelperSys.firstInstallable
    have hm : ∃ m, sys.minVersion o = .ok m := by
      cases o with
      | none => exact ⟨_, rfl⟩
      | some s =>
        obtain ⟨m, hp⟩ := hw k s (by simp)
        exact ⟨some m, by simp only [HelperSys.minVersion, hp]⟩
    obtain ⟨m, hm⟩ := hm
    rw [hm]
    simp only
    rw [if_neg (by rw [hno (k, o) (by simp)]; simp)]
    exact firstInstallable_none (fun a s h => hw a s (by simp [h])) (fun c hc => hno c (by simp [hc]))

/-- **C40 (nothing available).** If no choice is usable and none can be installed, HelperNotFoundError is
raised and the machine is left as it was. -/
theorem C40_not_found_partial {w : W} {choices : List (Str × Option Str)} (hw : WellFormed sys choices)
    (hv : VersionsReadable sys w choices) (hno : ∀ c ∈ choices, ¬ Usable sys w c)
    (hni : ∀ c ∈ choices, sys.installable w c.1 = false) :
    sys.select w choices = (.error .helperNotFound, w) := by
  obtain ⟨h1, h2, h3⟩ := firstInstalled_spec sys w choices
  obtain ⟨r, hr⟩ := h3 hw hv
  unfold HelperSys.select
  rw [hr]
  cases r with
  | some n =>
    obtain ⟨pre, o, post, e, hu, -⟩ := h1 n hr
    exact absurd hu (hno (n, o) (by rw [e]; simp))
  | none => simp only [firstInstallable_none sys hw hni]

theorem firstInstallable_skip {w : W} {rest : List (Str × Option Str)} : ∀ {pre : List (Str × Option Str)},
    WellFormed sys pre → (∀ c ∈ pre, sys.installable w c.1 = false) →
    sys.firstInstallable (pre ++ rest) w = sys.firstInstallable rest w
  | [], _, _ => rfl
  | (k, o) :: r, hw, hno => by
    have hm : ∃ m, sys.minVersion o = .ok m := by
      cases o with
      | none => exact ⟨_, rfl⟩
      | some s =>
        obtain ⟨m, hp⟩ := hw k s (by simp)
        exact ⟨some m, by simp only [HelperSys.minVersion, hp]⟩
    obtain ⟨m, hm⟩ := hm
    rw [List.cons_append, HelperSys.firstInstallable, hm]
    simp only
    rw [if_neg (by rw [hno (k, o) (by simp)]; simp)]
    exact firstInstallable_skip (fun a s h => hw a s (by simp [h])) (fun c hc => hno c (by simp [hc]))

/-- **C40 (installs).** If no choice is usable, the first choice that can be installed is installed, and it is
returned if it is then usable. -/
theorem C40_installs {w w' : W} {choices pre post : List (Str × Option Str)} {c : Str × Option Str}
    (hw : WellFormed sys choices) (hv : VersionsReadable sys w choices) (hno : ∀ d ∈ choices, ¬ Usable sys w d)
    (hc : choices = pre ++ c :: post) (hpre : ∀ d ∈ pre, sys.installable w d.1 = false)
    (hnew : sys.found w c.1 = false) (hi : sys.installable w c.1 = true)
    (hrun : sys.runInstall w c.1 = (.ok (), w')) (hu : Usable sys w' c) :
    sys.select w choices = (.ok c.1, w') := by
  obtain ⟨h1, h2, h3⟩ := firstInstalled_spec sys w choices
  obtain ⟨r, hr⟩ := h3 hw hv
  obtain ⟨n, o⟩ := c
  unfold HelperSys.select
  rw [hr]
  cases r with
  | some k =>
    obtain ⟨pre', o', post', e, hu', -⟩ := h1 k hr
    exact absurd hu' (hno (k, o') (by rw [e]; simp))
  | none =>
    simp only
    have hinst : sys.install w n = (.ok (), w') := by
      have hf : ¬ sys.found w n = true := by simp only at hnew; rw [hnew]; simp
      have hni : ¬ sys.installable w n = false := by simp only at hi; rw [hi]; simp
      simp only at hrun
      rw [HelperSys.install, if_neg hf, if_neg hni, hrun]
      simp only
      rw [if_pos hu.1]
    have hstep : sys.firstInstallable ((n, o) :: post) w = (.ok (some n), w') := by
      rw [HelperSys.firstInstallable]
      obtain ⟨-, hu | ⟨s, m, v, e1, e2, e3, e4⟩⟩ := hu
      · simp only at hu; subst hu
        simp only [HelperSys.minVersion, HelperSys.enough]
        rw [if_pos hi, hinst]
      · simp only at e1; subst e1
        simp only at e3
        simp only [HelperSys.minVersion, e2]
        rw [if_pos hi, hinst]
        simp only [HelperSys.enough, e3, e4]
    rw [hc, firstInstallable_skip sys (fun a s h => hw a s (by rw [hc]; simp [h])) hpre, hstep]

/-- A machine on which installing "a" fails and installing "b" works. -/
def exSys : HelperSys (List Str) Nat where
  found := fun w n => decide (n ∈ w)
  version := fun _ n => if n = "old".toList then .ok 1 else .ok 2
  installable := fun _ n => decide (n ≠ "x".toList)
  runInstall := fun w n => if n = "a".toList then (.error .helperError, w) else (.ok (), n :: w)
  unsure := fun _ _ => .runtimeError
  parse := fun s => .ok s.length
  ge := fun v w => decide (w ≤ v)

/-- The full statement of C40 fails: if installing the first installable choice fails, the error is raised
although a later choice could have been installed. -/
theorem C40_install_error_fails :
    exSys.select [] [("a".toList, none), ("b".toList, none)] = (.error .helperError, []) ∧
    exSys.select [] [("b".toList, none)] = (.ok "b".toList, ["b".toList]) := ⟨rfl, rfl⟩

/-- non-vacuity: "old" is installed but version 1; "new" is installed with version 2, so it is selected for
"at least 2"; when only "old" is there, "b" is installed; when nothing fits, HelperNotFoundError -/
example :
    exSys.select ["old".toList, "new".toList] [("old".toList, some "vv".toList), ("new".toList, some "vv".toList)] =
      (.ok "new".toList, ["old".toList, "new".toList]) ∧
    exSys.select ["old".toList] [("old".toList, some "vv".toList), ("b".toList, some "vv".toList)] =
      (.ok "b".toList, ["b".toList, "old".toList]) ∧
    exSys.select ["old".toList] [("x".toList, some "vv".toList)] = (.error .helperNotFound, ["old".toList]) ∧
    WellFormed exSys [("old".toList, some "vv".toList)] ∧
    VersionsReadable exSys ["old".toList] [("old".toList, some "vv".toList)] ∧
    Usable exSys ["new".toList] ("new".toList, some "vv".toList) :=
  ⟨rfl, rfl, rfl, fun _ s _ => ⟨s.length, rfl⟩, fun n _ _ _ => by
    by_cases h : n = "old".toList
    · exact ⟨1, if_pos h⟩
    · exact ⟨2, if_neg h⟩, rfl, Or.inr ⟨_, 2, 2, rfl, rfl, rfl, rfl⟩⟩

end Cot
