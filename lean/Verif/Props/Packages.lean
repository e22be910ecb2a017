import Verif.Props.Calls
/-
C97: installing packages with apt-get, port, yum and brew.
-/
namespace Cot

variable {W : Type}

/-- what `check_call` adds to the record, if success is required -/
theorem checkCall_added {ex : Exec W} {retry : Bool} {cmd : List Str} {s s' : PSt W} {r : Except Err Unit} (hc : cmd ≠ [])
    (h : checkCall ex true retry cmd s = (r, s')) :
    (∃ x, s'.log = s.log ++ [(cmd, x)] ∧ (r = .ok () ↔ ∃ out, x = .exit 0 out)) ∨
    (∃ x y, retry = true ∧ s'.log = s.log ++ [(cmd, x)] ++ [("sudo".toList :: cmd, y)] ∧ (¬ ∃ out, x = .exit 0 out) ∧
      (r = .ok () ↔ ∃ out, y = .exit 0 out)) := by
  have hf : ∀ {c x r}, CmdOutcome true c x r → (r = .ok () ↔ ∃ out, x = .exit 0 out) := by
    rintro c x r (⟨hf, rfl⟩ | ⟨hf, e, rfl, -⟩)
    · refine ⟨fun _ => ?_, fun _ => rfl⟩
      cases x with
      | osError n => cases hf
      | exit k out => rcases hf with rfl | hf
                      · exact ⟨out, rfl⟩
                      · cases hf
    · constructor
      · intro h; cases h
      · rintro ⟨out, rfl⟩
        exact absurd (Or.inl rfl) hf
  have key := C95_call (ex := ex) (require := true) (retry := retry) (s := s) hc
  rw [h] at key
  by_cases hd : retry = true ∧ Denied true (ex s.w cmd).1
  · right
    obtain ⟨h1, h2⟩ := key.1 hd
    simp only at h1 h2
    refine ⟨(ex s.w cmd).1, _, hd.1, by rw [h1, List.append_assoc]; rfl, ?_, hf h2⟩
    rintro ⟨out, ho⟩
    have := hd.2
    rw [ho] at this
    exact this.2 rfl
  · left
    obtain ⟨h1, h2⟩ := key.2 hd
    simp only at h1 h2
    exact ⟨_, by rw [h1], hf h2⟩

theorem helperCall_found {ex : Exec W} {ui : HelperUi W} {name : Str} {require retry : Bool} {args : List Str} {s : PSt W}
    (hf : ui.found s.w name = true) : helperCall ex ui name require retry args s = checkCall ex require retry (name :: args) s := by
  unfold helperCall helperReady
  rw [if_pos hf]

theorem properOrder_snoc {log : List (List Str × ProcRes)} {e : List Str × ProcRes} (h : ProperOrder log)
    (h1 : (∃ p, RunAs (installCmd p) e.1) → ∃ u ∈ log, ListsUpdated u) (h2 : RunAs updateCmd e.1 → ∀ u ∈ log, ¬ ListsUpdated u) :
    ProperOrder (log ++ [e]) := by
  intro A x B hx
  rcases List.eq_nil_or_concat B with rfl | ⟨B', b, rfl⟩
  · obtain ⟨hA, hx⟩ := List.append_inj' hx rfl
    cases hx
    subst hA
    exact ⟨h1, h2⟩
  · have hx' : log ++ [e] = (A ++ x :: B') ++ [b] := by rw [hx]; simp
    obtain ⟨hl, -⟩ := List.append_inj' hx' rfl
    exact h A x B' hl

/-- the record is in order, and the flag says whether an update has succeeded -/
def AptOk (u : Bool) (log : List (List Str × ProcRes)) : Prop :=
  ProperOrder log ∧ (u = true ↔ ∃ e ∈ log, ListsUpdated e)

theorem aptOk_other {u : Bool} {log : List (List Str × ProcRes)} {e : List Str × ProcRes} (h : AptOk u log)
    (h1 : ¬ ∃ p, RunAs (installCmd p) e.1) (h2 : ¬ RunAs updateCmd e.1) : AptOk u (log ++ [e]) := by
  refine ⟨properOrder_snoc h.1 (fun x => absurd x h1) (fun x => absurd x h2), h.2.trans ?_⟩
  constructor
  · rintro ⟨x, hx, hu⟩; exact ⟨x, List.mem_append_left _ hx, hu⟩
  · rintro ⟨x, hx, hu⟩
    rcases List.mem_append.1 hx with hx | hx
    · exact ⟨x, hx, hu⟩
    · rw [List.mem_singleton] at hx
      subst hx
      exact absurd hu.1 h2

theorem aptOk_install {log : List (List Str × ProcRes)} {e : List Str × ProcRes} (h : AptOk true log)
    (h2 : ¬ RunAs updateCmd e.1) : AptOk true (log ++ [e]) := by
  refine ⟨properOrder_snoc h.1 (fun _ => h.2.1 rfl) (fun x => absurd x h2), ?_⟩
  obtain ⟨x, hx, hu⟩ := h.2.1 rfl
  exact ⟨fun _ => ⟨x, List.mem_append_left _ hx, hu⟩, fun _ => rfl⟩

theorem not_update_install (p : Str) : ¬ RunAs updateCmd (installCmd p) ∧ ¬ RunAs updateCmd ("sudo".toList :: installCmd p) := by
  unfold RunAs updateCmd installCmd
  constructor <;> · rintro (h | h) <;> · simp at h

theorem not_install_update (p : Str) : ¬ RunAs (installCmd p) updateCmd ∧ ¬ RunAs (installCmd p) ("sudo".toList :: updateCmd) := by
  unfold RunAs updateCmd installCmd
  constructor <;> · rintro (h | h) <;> · simp at h

theorem not_query (p q : Str) : ¬ RunAs updateCmd (queryCmd p) ∧ ¬ RunAs (installCmd q) (queryCmd p) := by
  unfold RunAs updateCmd installCmd queryCmd
  constructor <;> · rintro (h | h) <;> · simp at h

/-- the three kinds of command for a package -/
def AptCmd (p : Str) (c : List Str) : Prop := c = queryCmd p ∨ RunAs updateCmd c ∨ RunAs (installCmd p) c

theorem aptInstall_inv {ex : Exec W} {ui : HelperUi W} {p : Str} {u u' : Bool} {s s' : PSt W} {r : Except Err Unit}
    (hf : ∀ w, ui.found w "dpkg".toList = true ∧ ui.found w "apt-get".toList = true) (hok : AptOk u s.log)
    (h : aptInstall ex ui p u s = (r, u', s')) :
    AptOk u' s'.log ∧ ∃ es, s'.log = s.log ++ es ∧ ∀ e ∈ es, AptCmd p e.1 := by
  unfold aptInstall at h
  rw [C96_uncached (hf _).1 rfl rfl] at h
  have hq : (["dpkg".toList, "-s".toList, p] : List Str) = queryCmd p := rfl
  have hlog : ∃ x, (checkOutput ex false false (dpkg :: ["-s".toList, p]) s).2.log = s.log ++ [(queryCmd p, x)] := by
    have := (C95_output_partial (ex := ex) (require := false) (retry := false) (cmd := dpkg :: ["-s".toList, p]) (s := s) (by simp)).2
      (by simp)
    rw [this.1]
    exact ⟨_, rfl⟩
  generalize checkOutput ex false false (dpkg :: ["-s".toList, p]) s = q at h hlog
  obtain ⟨qr, s1⟩ := q
  obtain ⟨x, hlog⟩ := hlog
  simp only at h hlog
  have ok1 : AptOk u s1.log := by
    rw [hlog]
    exact aptOk_other hok (by rintro ⟨q, hq⟩; exact (not_query p q).2 hq) (not_query p p).1
  have base : ∃ es, s1.log = s.log ++ es ∧ ∀ e ∈ es, AptCmd p e.1 :=
    ⟨_, hlog, by intro e he; rw [List.mem_singleton] at he; subst he; exact Or.inl rfl⟩
  cases qr with
  | error e => cases h; exact ⟨ok1, base⟩
  | ok out =>
    simp only at h
    split at h
    · cases h; exact ⟨ok1, base⟩
    · -- the update
      have upd : ∀ {r2 u2 s2}, aptUpdate ex ui u s1 = (r2, u2, s2) → AptOk u2 s2.log ∧ (r2 = .ok () → u2 = true) ∧
          ∃ es, s2.log = s1.log ++ es ∧ ∀ e ∈ es, AptCmd p e.1 := by
        intro r2 u2 s2 hu
        unfold aptUpdate at hu
        cases u with
        | true =>
          rw [if_pos rfl] at hu
          cases hu
          exact ⟨ok1, fun _ => rfl, [], by simp, by simp⟩
        | false =>
          rw [if_neg (by simp), helperCall_found (name := aptGet) (hf _).2] at hu
          have hnone : ∀ e ∈ s1.log, ¬ ListsUpdated e := by
            intro e he hue
            exact absurd (ok1.2.2 ⟨e, he, hue⟩) (by simp)
          have hcmd : (aptGet :: ["-q".toList, "update".toList] : List Str) = updateCmd := rfl
          rw [hcmd] at hu
          split at hu
          · rename_i e s3 hx
            cases hu
            have hadd := checkCall_added (by unfold updateCmd; simp) hx
            rcases hadd with ⟨x1, hl, hr⟩ | ⟨x1, y1, -, hl, hr1, hr2⟩
            · refine ⟨?_, (fun h => by cases h), _, hl, ?_⟩
              · rw [hl]
                refine ⟨properOrder_snoc ok1.1 (by rintro ⟨q, hq⟩; exact absurd hq (not_install_update q).1) (fun _ => hnone), ?_⟩
                constructor
                · intro h; cases h
                · rintro ⟨e', he', hue⟩
                  rcases List.mem_append.1 he' with he' | he'
                  · exact absurd hue (hnone _ he')
                  · rw [List.mem_singleton] at he'
                    subst he'
                    have := hr.2 hue.2
                    cases this
              · intro e he; rw [List.mem_singleton] at he; subst he; exact Or.inr (Or.inl (Or.inl rfl))
            · have hn2 : ∀ e' ∈ s1.log ++ [(updateCmd, x1)], ¬ ListsUpdated e' := by
                intro e' he' hue
                rcases List.mem_append.1 he' with he' | he'
                · exact hnone _ he' hue
                · rw [List.mem_singleton] at he'
                  subst he'
                  exact hr1 hue.2
              refine ⟨?_, (fun h => by cases h), [(updateCmd, x1), ("sudo".toList :: updateCmd, y1)], by rw [hl]; simp, ?_⟩
              · rw [hl]
                refine ⟨properOrder_snoc (properOrder_snoc ok1.1 (by rintro ⟨q, hq⟩; exact absurd hq (not_install_update q).1)
                  (fun _ => hnone)) (by rintro ⟨q, hq⟩; exact absurd hq (not_install_update q).2) (fun _ => hn2), ?_⟩
                constructor
                · intro h; cases h
                · rintro ⟨e', he', hue⟩
                  rcases List.mem_append.1 he' with he' | he'
                  · exact absurd hue (hn2 _ he')
                  · rw [List.mem_singleton] at he'
                    subst he'
                    have := hr2.2 hue.2
                    cases this
              · intro e he
                simp only [List.mem_cons, List.not_mem_nil, or_false] at he
                rcases he with rfl | rfl
                · exact Or.inr (Or.inl (Or.inl rfl))
                · exact Or.inr (Or.inl (Or.inr rfl))
          · rename_i s3 hx
            cases hu
            have hadd := checkCall_added (by unfold updateCmd; simp) hx
            rcases hadd with ⟨x1, hl, hr⟩ | ⟨x1, y1, -, hl, hr1, hr2⟩
            · refine ⟨?_, fun _ => rfl, _, hl, ?_⟩
              · rw [hl]
                refine ⟨properOrder_snoc ok1.1 (by rintro ⟨q, hq⟩; exact absurd hq (not_install_update q).1) (fun _ => hnone), ?_⟩
                exact ⟨fun _ => ⟨(updateCmd, x1), by simp, Or.inl rfl, hr.1 rfl⟩, fun _ => rfl⟩
              · intro e he; rw [List.mem_singleton] at he; subst he; exact Or.inr (Or.inl (Or.inl rfl))
            · have hn2 : ∀ e' ∈ s1.log ++ [(updateCmd, x1)], ¬ ListsUpdated e' := by
                intro e' he' hue
                rcases List.mem_append.1 he' with he' | he'
                · exact hnone _ he' hue
                · rw [List.mem_singleton] at he'
                  subst he'
                  exact hr1 hue.2
              refine ⟨?_, fun _ => rfl, [(updateCmd, x1), ("sudo".toList :: updateCmd, y1)], by rw [hl]; simp, ?_⟩
              · rw [hl]
                refine ⟨properOrder_snoc (properOrder_snoc ok1.1 (by rintro ⟨q, hq⟩; exact absurd hq (not_install_update q).1)
                  (fun _ => hnone)) (by rintro ⟨q, hq⟩; exact absurd hq (not_install_update q).2) (fun _ => hn2), ?_⟩
                exact ⟨fun _ => ⟨("sudo".toList :: updateCmd, y1), by simp, Or.inr rfl, hr2.1 rfl⟩, fun _ => rfl⟩
              · intro e he
                simp only [List.mem_cons, List.not_mem_nil, or_false] at he
                rcases he with rfl | rfl
                · exact Or.inr (Or.inl (Or.inl rfl))
                · exact Or.inr (Or.inl (Or.inr rfl))
      generalize haU : aptUpdate ex ui u s1 = q2 at h
      obtain ⟨r2, u2, s2⟩ := q2
      obtain ⟨ok2, hu2, es2, hl2, hes2⟩ := upd haU
      obtain ⟨es1, hl1, hes1⟩ := base
      have base2 : ∃ es, s2.log = s.log ++ es ∧ ∀ e ∈ es, AptCmd p e.1 :=
        ⟨es1 ++ es2, by rw [hl2, hl1]; simp, by
          intro e he
          rcases List.mem_append.1 he with he | he
          · exact hes1 e he
          · exact hes2 e he⟩
      cases r2 with
      | error e => cases h; exact ⟨ok2, base2⟩
      | ok _ =>
        have := hu2 rfl
        subst this
        simp only at h
        rw [helperCall_found (name := aptGet) (hf _).2] at h
        have hcmd : (aptGet :: ["-q".toList, "install".toList, p] : List Str) = installCmd p := rfl
        rw [hcmd] at h
        obtain ⟨es, hl, hes⟩ := base2
        have fin : ∀ {r3 : Except Err Unit} {s3 : PSt W}, checkCall ex true true (installCmd p) s2 = (r3, s3) →
            AptOk true s3.log ∧ ∃ es, s3.log = s.log ++ es ∧ ∀ e ∈ es, AptCmd p e.1 := by
          intro r3 s3 hx
          rcases checkCall_added (by unfold installCmd; simp) hx with ⟨x1, hl3, -⟩ | ⟨x1, y1, -, hl3, -, -⟩
          · refine ⟨by rw [hl3]; exact aptOk_install ok2 (not_update_install p).1, es ++ [(installCmd p, x1)],
              by rw [hl3, hl]; simp, ?_⟩
            intro e he
            rcases List.mem_append.1 he with he | he
            · exact hes e he
            · rw [List.mem_singleton] at he; subst he; exact Or.inr (Or.inr (Or.inl rfl))
          · refine ⟨by rw [hl3]; exact aptOk_install (aptOk_install ok2 (not_update_install p).1) (not_update_install p).2,
              es ++ [(installCmd p, x1), ("sudo".toList :: installCmd p, y1)], by rw [hl3, hl]; simp, ?_⟩
            intro e he
            rcases List.mem_append.1 he with he | he
            · exact hes e he
            · simp only [List.mem_cons, List.not_mem_nil, or_false] at he
              rcases he with rfl | rfl
              · exact Or.inr (Or.inr (Or.inl rfl))
              · exact Or.inr (Or.inr (Or.inr rfl))
        split at h
        · rename_i hx; cases h; exact fin hx
        · rename_i hx; cases h; exact fin hx

/-- **C97 (order).** However many packages are installed with apt-get, and whatever fails: nothing is installed before the
package lists have been updated successfully, they are not updated again after that, and no other commands are run than the
queries, updates and installations. -/
theorem C97_order {ex : Exec W} {ui : HelperUi W} {ps : List Str} {w : W} {rs : List (Except Err Unit)} {u' : Bool} {s' : PSt W}
    (hf : ∀ w, ui.found w "dpkg".toList = true ∧ ui.found w "apt-get".toList = true)
    (h : AptRun ex ui ps false ⟨w, []⟩ rs u' s') :
    ProperOrder s'.log ∧ ∀ e ∈ s'.log, RunAs updateCmd e.1 ∨ ∃ p ∈ ps, e.1 = queryCmd p ∨ RunAs (installCmd p) e.1 := by
  have gen : ∀ {ps u s rs u' s'}, AptRun ex ui ps u s rs u' s' → AptOk u s.log → AptOk u' s'.log ∧
      ∃ es, s'.log = s.log ++ es ∧ ∀ e ∈ es, RunAs updateCmd e.1 ∨ ∃ p ∈ ps, e.1 = queryCmd p ∨ RunAs (installCmd p) e.1 := by
    intro ps u s rs u' s' h
    induction h with
    | done u s => exact fun hok => ⟨hok, [], by simp, by simp⟩
    | install h1 _ ih =>
      intro hok
      obtain ⟨ok1, es1, hl1, he1⟩ := aptInstall_inv hf hok h1
      obtain ⟨ok2, es2, hl2, he2⟩ := ih ok1
      refine ⟨ok2, es1 ++ es2, by rw [hl2, hl1]; simp, ?_⟩
      intro e he
      rcases List.mem_append.1 he with he | he
      · rcases he1 e he with h | h | h
        · exact Or.inr ⟨_, by simp, Or.inl h⟩
        · exact Or.inl h
        · exact Or.inr ⟨_, by simp, Or.inr h⟩
      · rcases he2 e he with h | ⟨p, hp, h⟩
        · exact Or.inl h
        · exact Or.inr ⟨p, by simp [hp], h⟩
  obtain ⟨h1, es, hl, he⟩ := gen h ⟨by intro A e B hx; simp at hx, by simp⟩
  refine ⟨h1.1, ?_⟩
  rw [hl]
  simpa using he

theorem hasSub_iff (sub : Str) : ∀ s : Str, hasSub sub s = true ↔ sub <:+: s
  | [] => by
    unfold hasSub
    simp [List.infix_nil]
  | c :: t => by
    unfold hasSub
    rw [Bool.or_eq_true, hasSub_iff sub t, List.isPrefixOf_iff_prefix, List.infix_cons_iff]

/-- **C97 (success).** If the installation of a package succeeds, dpkg said that it is installed, and nothing else was run;
or the last command was its installation, and ended with status 0. -/
theorem C97_success {ex : Exec W} {ui : HelperUi W} {p : Str} {u u' : Bool} {s s' : PSt W}
    (hf : ∀ w, ui.found w "dpkg".toList = true ∧ ui.found w "apt-get".toList = true)
    (h : aptInstall ex ui p u s = (.ok (), u', s')) :
    (∃ x t, s'.log = s.log ++ [(queryCmd p, x)] ∧ Wrote x t ∧ "install ok installed".toList <:+: t) ∨
    (∃ x t c out, (queryCmd p, x) ∈ s'.log ∧ Wrote x t ∧ ¬ "install ok installed".toList <:+: t ∧ RunAs (installCmd p) c ∧
      s'.log.getLast? = some (c, .exit 0 out)) := by
  unfold aptInstall at h
  rw [C96_uncached (hf _).1 rfl rfl] at h
  have hlog := (C95_output_partial (ex := ex) (require := false) (retry := false) (cmd := dpkg :: ["-s".toList, p]) (s := s) (by simp)).2
      (by simp)
  generalize checkOutput ex false false (dpkg :: ["-s".toList, p]) s = q at h hlog
  obtain ⟨qr, s1⟩ := q
  cases qr with
  | error e => cases h
  | ok out =>
    simp only at h hlog
    obtain ⟨hl1, hw⟩ := hlog
    have hwr : Wrote (ex s.w (dpkg :: ["-s".toList, p])).1 out := by
      rcases hw with ⟨-, t, ht, hw⟩ | ⟨-, e, he, -⟩
      · cases ht; exact hw
      · cases he
    have hq : (dpkg :: ["-s".toList, p] : List Str) = queryCmd p := rfl
    split at h
    · rename_i hs
      cases h
      exact Or.inl ⟨_, out, by rw [hl1, hq], by rw [← hq]; exact hwr, (hasSub_iff _ _).1 hs⟩
    · rename_i hs
      right
      have hlog2 : ∀ {r2 u2 s2}, aptUpdate ex ui u s1 = (r2, u2, s2) → s1.log <+: s2.log := by
        intro r2 u2 s2 hu
        unfold aptUpdate at hu
        split at hu
        · cases hu; exact List.prefix_refl _
        · rw [helperCall_found (name := aptGet) (hf _).2] at hu
          split at hu
          · rename_i hx
            cases hu
            rcases checkCall_added (by simp) hx with ⟨x1, hl3, -⟩ | ⟨x1, y1, -, hl3, -, -⟩
            · rw [hl3]; exact List.prefix_append _ _
            · rw [hl3, List.append_assoc]; exact List.prefix_append _ _
          · rename_i hx
            cases hu
            rcases checkCall_added (by simp) hx with ⟨x1, hl3, -⟩ | ⟨x1, y1, -, hl3, -, -⟩
            · rw [hl3]; exact List.prefix_append _ _
            · rw [hl3, List.append_assoc]; exact List.prefix_append _ _
      generalize haU : aptUpdate ex ui u s1 = q2 at h
      obtain ⟨r2, u2, s2⟩ := q2
      have hp := hlog2 haU
      cases r2 with
      | error e => cases h
      | ok _ =>
        simp only at h
        rw [helperCall_found (name := aptGet) (hf _).2] at h
        split at h
        · cases h
        · rename_i hx
          cases h
          have hmem : ∀ {l : List (List Str × ProcRes)}, s2.log <+: l →
              (queryCmd p, (ex s.w (queryCmd p)).1) ∈ l := fun hl => hl.subset (hp.subset (by rw [hl1, hq]; exact List.mem_append_right _ (List.mem_singleton.2 rfl)))
          have hnot : ¬ "install ok installed".toList <:+: out := fun hi => hs ((hasSub_iff _ _).2 hi)
          rcases checkCall_added (by simp) hx with ⟨x1, hl3, hr⟩ | ⟨x1, y1, -, hl3, -, hr⟩
          · obtain ⟨o, rfl⟩ := hr.1 rfl
            refine ⟨_, out, _, o, hmem ?_, by rw [← hq]; exact hwr, hnot, Or.inl rfl, by rw [hl3]; simp; rfl⟩
            rw [hl3]; exact List.prefix_append _ _
          · obtain ⟨o, rfl⟩ := hr.1 rfl
            refine ⟨_, out, _, o, hmem ?_, by rw [← hq]; exact hwr, hnot, Or.inr rfl, by rw [hl3]; simp; rfl⟩
            rw [hl3, List.append_assoc]; exact List.prefix_append _ _

/-- **C97 (other package managers).** Success of port, yum or brew means that the last command was the installation of that
package and ended with status 0; brew is never run with sudo. -/
theorem C97_others {ex : Exec W} {ui : HelperUi W} {s s' : PSt W} (hf : ∀ w n, ui.found w n = true) :
    (∀ p u u', portInstall ex ui p u s = (.ok (), u', s') → ∃ c out, RunAs ["port".toList, "install".toList, p] c ∧
      s'.log.getLast? = some (c, .exit 0 out)) ∧
    (∀ p, yumInstall ex ui p s = (.ok (), s') → ∃ c out, RunAs ["yum".toList, "--quiet".toList, "install".toList, p] c ∧
      s'.log.getLast? = some (c, .exit 0 out)) ∧
    (∀ p, brewInstall ex ui p s = (.ok (), s') → ∃ out, s'.log = s.log ++ [("brew".toList :: "install".toList :: p, .exit 0 out)]) := by
  have fin : ∀ {cmd : List Str} {retry : Bool} {s : PSt W}, cmd ≠ [] → checkCall ex true retry cmd s = (.ok (), s') →
      ∃ c out, RunAs cmd c ∧ s'.log.getLast? = some (c, .exit 0 out) := by
    intro cmd retry s hc hx
    rcases checkCall_added hc hx with ⟨x1, hl3, hr⟩ | ⟨x1, y1, -, hl3, -, hr⟩
    · obtain ⟨o, rfl⟩ := hr.1 rfl
      exact ⟨_, o, Or.inl rfl, by rw [hl3]; simp⟩
    · obtain ⟨o, rfl⟩ := hr.1 rfl
      exact ⟨_, o, Or.inr rfl, by rw [hl3]; simp⟩
  refine ⟨?_, ?_, ?_⟩
  · intro p u u' h
    unfold portInstall at h
    split at h
    · cases h
    · rw [helperCall_found (hf _ _)] at h
      split at h
      · cases h
      · rename_i hx
        cases h
        exact fin (by simp) hx
  · intro p h
    unfold yumInstall at h
    rw [helperCall_found (hf _ _)] at h
    exact fin (by simp) h
  · intro p h
    unfold brewInstall at h
    rw [helperCall_found (hf _ _)] at h
    rcases checkCall_added (by simp) h with ⟨x1, hl3, hr⟩ | ⟨x1, y1, hn, -⟩
    · obtain ⟨o, rfl⟩ := hr.1 rfl
      exact ⟨o, hl3⟩
    · cases hn

/-! ### Example -/

/-- a machine where only root may use apt-get and where `make` is installed -/
def exApt : Exec Unit := fun _ cmd =>
  if cmd = queryCmd "make".toList then (.exit 0 "Status: install ok installed".toList, ())
  else if cmd.head? = some "dpkg".toList then (.exit 1 "not installed".toList, ())
  else if cmd.head? = some "sudo".toList then (.exit 0 [], ())
  else (.exit 100 "are you root?".toList, ())
def exAptUi : HelperUi Unit := ⟨fun _ _ => true, none, fun _ s => (.ok (), s)⟩

example : ∃ rs u s', AptRun exApt exAptUi ["make".toList, "gcc".toList, "xorriso".toList] false ⟨(), []⟩ rs u s' ∧
    rs = [.ok (), .ok (), .ok ()] ∧ s'.log.map Prod.fst = [queryCmd "make".toList, queryCmd "gcc".toList, updateCmd,
      "sudo".toList :: updateCmd, installCmd "gcc".toList, "sudo".toList :: installCmd "gcc".toList,
      queryCmd "xorriso".toList, installCmd "xorriso".toList, "sudo".toList :: installCmd "xorriso".toList] :=
  ⟨_, _, _, .install rfl (.install rfl (.install rfl (.done _ _))), rfl, rfl⟩

end Cot
