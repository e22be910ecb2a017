import Verif.Model.Session
import Verif.Spec.Session
import Verif.Props.CommandProps
/-
C131: where a package is written, in several runs of one CLI object.
-/
namespace Cot

variable {Q : Type} {f : EhFiles} {abspath : Str → Str} {setters : List (Str × Setter Q)}

theorem session_output {s s' : PkgCmd Q} {v : ArgVal ArgAtom} (h : sessionSetattr f abspath setters s "output".toList v = .ok s') :
    ∃ x : Str, v = .one (.text x) ∧ s'.output = if x = [] then none else some (abspath x) := by
  unfold sessionSetattr at h
  rw [if_pos rfl] at h
  split at h
  · cases h
    exact ⟨[], rfl, rfl⟩
  · rename_i c r
    refine ⟨c :: r, rfl, ?_⟩
    split at h
    · rename_i ho
      cases h
      rw [ho]
      rfl
    · split at h
      · cases h
      · cases h
        rfl
  · cases h

theorem session_keeps_output {s s' : PkgCmd Q} {b : Str} {v : ArgVal ArgAtom} (hb : b ≠ "output".toList)
    (h : sessionSetattr f abspath setters s b v = .ok s') : s'.output = s.output := by
  unfold sessionSetattr at h
  rw [if_neg hb] at h
  exact pkg_keeps_output hb h

theorem session_package {s s' : PkgCmd Q} {v : ArgVal ArgAtom} (h : sessionSetattr f abspath setters s "package".toList v = .ok s') :
    ∃ p : Str, v = .one (.text p) ∧ s'.package = some p := by
  unfold sessionSetattr at h
  rw [if_neg (by decide)] at h
  obtain ⟨p, e1, -, rfl⟩ := pkgSetattr_package h
  exact ⟨p, e1, rfl⟩

theorem session_keeps_package {s s' : PkgCmd Q} {b : Str} {v : ArgVal ArgAtom} (hb : b ≠ "package".toList)
    (h : sessionSetattr f abspath setters s b v = .ok s') : s'.package = s.package := by
  by_cases ho : b = "output".toList
  · subst ho
    unfold sessionSetattr at h
    rw [if_pos rfl] at h
    split at h
    · cases h
      rfl
    · split at h
      · cases h
        rfl
      · split at h
        · cases h
        · cases h
          rfl
    · cases h
  · unfold sessionSetattr at h
    rw [if_neg ho] at h
    exact pkg_keeps_package hb h

/-- the commands that change a package name it last and have `--output` -/
theorem session_pages : ∀ c ∈ cotCommands, c.title ≠ "deploy".toList → c.title ≠ "help".toList →
    c.title ≠ "info".toList → c.title ≠ "install-helpers".toList → ∀ m ∈ commandPages, m.names = c.title :: c.aliases →
    m.words.getLast? = some "PACKAGE".toList ∧ m.words.length = c.parser.pos.length ∧
    (⟨["-o".toList, "--output".toList], .value .text, "output".toList⟩ : DocOption) ∈ m.options ∧
    ∀ x ∈ c.parser.opts, (∃ g ∈ ["-o".toList, "--output".toList], g ∈ x.flags) ↔ "--output".toList ∈ x.flags := by
  decide +kernel

/-- **C131 (any history).** Whatever was run before on the CLI object: a command that changes a package works on the package its command line
names; it writes it to what `--output` says, and otherwise to where the object last wrote, or over the package if it never did. -/
theorem C131_where_partial {c : SubCommand} (hc : PlainCommand c) (hi : c.title ≠ "install-helpers".toList) {name : Str}
    (hn : name = c.title ∨ name ∈ c.aliases) {g l : List Str} {gus us : List ArgUse} {ws : List Str} {p : Str}
    (hg : CmdLine mainParser g gus []) (hl : CmdLine c.parser l us ws) (hw : ws.getLast? = some p) (hp : ∀ u ∈ gus ++ us, ¬ OnlyPrints u.opt)
    (ha : ClearFor mainParser l) {st st' : PkgCmd Q} {p' o : Str} {r : Q}
    (h : sessionRun f abspath setters (g ++ name :: l) st = (.ok (p', o, r), st')) :
    p' = p ∧ st'.output = some o ∧ (lastGiven "--output" us ≠ none ∨ st.output = none → o = Target abspath us p) ∧
    (∀ x, lastGiven "--output" us = none → st.output = some x → o = x) := by
  have hP := optsOkB_sound (cot_tables c hc.1).1
  have hus : ∀ u ∈ us, u.opt ∈ c.parser.opts := fun u hu => (uses_ok (fun o ho => (hP.opts o ho).norest) hl u hu).1
  by_cases hok : NoConflict gus ∧ RightLine c.parser us ws
  · obtain ⟨m, hm, hnm, ns, d, h1, h2, h3, h4⟩ := C121_reaches_partial hc hn hg hl hp ha hok.1 hok.2
    obtain ⟨w1, w2, w3, w4⟩ := session_pages c hc.1 hc.2.1 hc.2.2.1 hc.2.2.2 hi m hm hnm
    unfold sessionRun at h
    rw [h1] at h
    dsimp only at h
    rw [h2] at h
    dsimp only at h
    cases hs : setAttributes (sessionSetattr f abspath setters) d st with
    | mk x s =>
      rw [hs] at h
      obtain ⟨done, rest, e1, e2, e3⟩ := C103_set hs
      rcases e3 with ⟨rfl, rfl⟩ | ⟨e, a, v, rest', rfl, -, -⟩
      swap
      · cases h
      rw [List.append_nil] at e1
      subst e1
      dsimp only at h
      have hpk : Assigned d (lower "PACKAGE".toList) (.one (.text p)) := by
        have hlen : m.words.length = ws.length := by rw [w2, hok.2.1]
        rw [List.getLast?_eq_getElem?] at w1 hw
        exact h4 _ _ _ w1 (by rw [hlen]; exact hw)
      have k1 := assigned_any (F := fun s : PkgCmd Q => s.package) (a := "package".toList)
        (R := fun v x => ∃ p : Str, v = .one (.text p) ∧ x = some p) (fun s s' b v hb hs => session_keeps_package hb hs)
        (fun s s' v hs => session_package hs) e2 hpk
      obtain ⟨v, f1, f2⟩ := h3 _ w3 (by decide)
      rw [withFlag_of hus (fl := "--output") w4] at f1
      have k2 := assigned_any (F := fun s : PkgCmd Q => s.output) (a := "output".toList)
        (R := fun v y => ∃ x : Str, v = .one (.text x) ∧ y = if x = [] then none else some (abspath x))
        (fun s s' b v hb hs => session_keeps_output hb hs) (fun s s' v hs => session_output hs) e2 f2
      rcases k1 with ⟨k1, -⟩ | ⟨-, p1, k3, k4⟩
      · cases k1
      cases k3
      have k4 : s.package = some p := k4
      rw [k4] at h
      dsimp only at h
      have hout : (lastGiven "--output" us = none ∧ s.output = st.output) ∨
          ∃ x, lastGiven "--output" us = some x ∧ s.output = if x = [] then none else some (abspath x) := by
        unfold lastGiven
        rcases f1 with ⟨g1, rfl⟩ | ⟨x, a, g1, g2, rfl⟩
        · rcases k2 with ⟨-, k2⟩ | ⟨k2, -⟩
          · exact .inl ⟨by rw [g1]; rfl, k2⟩
          · exact k2.elim
        · obtain rfl : a = .text x := g2
          rcases k2 with ⟨k2, -⟩ | ⟨-, y, k5, k6⟩
          · cases k2
          · cases k5
            exact .inr ⟨x, by rw [g1]; rfl, k6⟩
      have hT : ∀ {y : Str}, lastGiven "--output" us = some y → Target abspath us p = if y = [] then abspath p else abspath y := by
        intro y hy
        unfold Target
        rw [hy]
        cases y <;> rfl
      cases hso : s.output with
      | some o' =>
        rw [hso] at h hout
        dsimp only at h
        cases h
        refine ⟨rfl, hso, ?_, ?_⟩
        · intro hcase
          rcases hout with ⟨q1, q2⟩ | ⟨x, q1, q2⟩
          · rcases hcase with hcase | hcase
            · exact absurd q1 hcase
            · rw [hcase] at q2
              cases q2
          · rw [hT q1]
            by_cases hx : x = []
            · rw [if_pos hx] at q2
              cases q2
            · rw [if_neg hx] at q2 ⊢
              exact Option.some.inj q2
        · intro x q3 q4
          rcases hout with ⟨q1, q2⟩ | ⟨x, q1, q2⟩
          · rw [q4] at q2
            exact Option.some.inj q2
          · rw [q1] at q3
            cases q3
      | none =>
        rw [hso] at h hout
        dsimp only at h
        cases hag : f.agrees (abspath p) with
        | error e =>
          rw [hag] at h
          cases h
        | ok z =>
          rw [hag] at h
          cases h
          refine ⟨rfl, rfl, ?_, ?_⟩
          · intro _
            rcases hout with ⟨q1, q2⟩ | ⟨x, q1, q2⟩
            · unfold Target
              rw [q1]
            · rw [hT q1]
              by_cases hx : x = []
              · rw [if_pos hx]
              · rw [if_neg hx] at q2
                cases q2
          · intro x q3 q4
            rcases hout with ⟨q1, q2⟩ | ⟨x, q1, q2⟩
            · rw [q4] at q2
              cases q2
            · rw [q1] at q3
              cases q3
  · have := (C120_means_partial hc hn hg hl hp ha).2 hok
    unfold sessionRun at h
    rw [this] at h
    cases h

theorem session_inv {α S : Type} {set : S → Str → ArgVal α → Except Err S} {I : S → Prop} (hI : ∀ s s' a v, I s → set s a v = .ok s' → I s')
    {s s' : S} {l : List (Str × ArgVal α)} (h : Sets set s l s') (h0 : I s) : I s' := by
  induction h with
  | nil => exact h0
  | cons h1 _ ih => exact ih (hI _ _ _ _ h0 h1)

/-- **C131 (questions).** On every command line and after every history: what a run works on could be opened, in this run or an earlier one, and
where it writes the user has agreed to in this run, unless that is where the object wrote before. -/
theorem C131_asked {argv : List Str} {st st' : PkgCmd Q} {p o : Str} {r : Q}
    (h : sessionRun f abspath setters argv st = (.ok (p, o, r), st')) :
    (st.output = some o ∨ f.agrees o = .ok ()) ∧ (st.package = some p ∨ f.opens p = .ok ()) ∧ st'.output = some o ∧ st'.package = some p := by
  unfold sessionRun at h
  split at h
  · cases h
  split at h
  · cases h
  cases hs : setAttributes (sessionSetattr f abspath setters) _ st with
  | mk x s =>
    rw [hs] at h
    obtain ⟨done, rest, e1, e2, e3⟩ := C103_set hs
    rcases e3 with ⟨rfl, rfl⟩ | ⟨e, a, v, rest', rfl, -, -⟩
    swap
    · cases h
    dsimp only at h
    have inv : (∀ o, s.output = some o → st.output = some o ∨ f.agrees o = .ok ()) ∧
        (∀ p, s.package = some p → st.package = some p ∨ f.opens p = .ok ()) := by
      refine session_inv (I := fun s => (∀ o, s.output = some o → st.output = some o ∨ f.agrees o = .ok ()) ∧
        (∀ p, s.package = some p → st.package = some p ∨ f.opens p = .ok ())) ?_ e2 ⟨fun _ h => .inl h, fun _ h => .inl h⟩
      rintro s s' a v ⟨i1, i2⟩ hset
      by_cases ho : a = "output".toList
      · subst ho
        refine ⟨?_, fun p hp => i2 p (by rw [← hp]; exact (session_keeps_package (by decide) hset).symm)⟩
        unfold sessionSetattr at hset
        rw [if_pos rfl] at hset
        split at hset
        · cases hset
          intro o ho
          cases ho
        · split at hset
          · cases hset
            exact i1
          · split at hset
            · cases hset
            · rename_i hag
              cases hset
              intro o ho
              cases ho
              exact .inr hag
        · cases hset
      · refine ⟨fun o ho' => i1 o (by rw [← ho']; exact (session_keeps_output ho hset).symm), ?_⟩
        by_cases hp : a = "package".toList
        · subst hp
          unfold sessionSetattr at hset
          rw [if_neg (by decide)] at hset
          obtain ⟨p, -, h1, rfl⟩ := pkgSetattr_package hset
          intro p' hp'
          cases hp'
          exact .inr h1
        · exact fun p hp' => i2 p (by rw [← hp']; exact (session_keeps_package hp hset).symm)
    obtain ⟨i1, i2⟩ := inv
    cases hsp : s.package with
    | none =>
      rw [hsp] at h
      cases h
    | some p1 =>
      rw [hsp] at h
      dsimp only at h
      cases hso : s.output with
      | some o1 =>
        rw [hso] at h
        cases h
        exact ⟨i1 _ hso, i2 _ hsp, hso, hsp⟩
      | none =>
        rw [hso] at h
        dsimp only at h
        cases hag : f.agrees (abspath p1) with
        | error e =>
          rw [hag] at h
          cases h
        | ok z =>
          rw [hag] at h
          cases h
          exact ⟨.inr hag, i2 _ hsp, rfl, rfl⟩

/-- **C131.** In a new process the package is written where the manual says. -/
theorem C131_first_partial {c : SubCommand} (hc : PlainCommand c) (hi : c.title ≠ "install-helpers".toList) {name : Str}
    (hn : name = c.title ∨ name ∈ c.aliases) {g l : List Str} {gus us : List ArgUse} {ws : List Str} {p : Str}
    (hg : CmdLine mainParser g gus []) (hl : CmdLine c.parser l us ws) (hw : ws.getLast? = some p) (hp : ∀ u ∈ gus ++ us, ¬ OnlyPrints u.opt)
    (ha : ClearFor mainParser l) {q r : Q} {st' : PkgCmd Q} {p' o : Str}
    (h : sessionRun f abspath setters (g ++ name :: l) { req := q } = (.ok (p', o, r), st')) : p' = p ∧ o = Target abspath us p := by
  obtain ⟨h1, -, h2, -⟩ := C131_where_partial hc hi hn hg hl hw hp ha h
  exact ⟨h1, h2 (.inr rfl)⟩

/-- `cot edit-product a.ovf -o b.ovf` on a new object -/
example {p' o : Str} {q r : ProductReq} {st' : PkgCmd ProductReq}
    (h : sessionRun f abspath productSetters ([] ++ "edit-product".toList :: ("a.ovf".toList :: ("-o".toList :: (["b.ovf".toList] ++ [])))) { req := q } =
      (.ok (p', o, r), st')) : p' = "a.ovf".toList ∧ o = abspath "b.ovf".toList :=
  C131_first_partial (c := ⟨"edit-product".toList, ["set-product".toList, "set-version".toList], editProductParser⟩)
    (by unfold PlainCommand; exact ⟨by decide +kernel, by decide +kernel, by decide +kernel, by decide +kernel⟩) (by decide +kernel) (.inl rfl) .done
    (.word (by decide) (.use (s := "-o".toList) (o := outputOpt) (vals := ["b.ovf".toList]) (by decide +kernel) (by decide) (by rfl)
      (by simp [TakesMore, outputOpt, textOpt]) .done)) rfl (by simp [OnlyPrints, outputOpt, textOpt])
    (clear_of_isOk main_top.opts.flags (by decide +kernel)) h

/-- and it does come to an end -/
example : ∃ r st', sessionRun ⟨fun _ => .ok (), fun _ => .ok ()⟩ (fun s => '/' :: s) productSetters
    (["edit-product", "a.ovf", "-o", "b.ovf"].map String.toList) ({ req := {} } : PkgCmd ProductReq) =
      (.ok ("a.ovf".toList, "/b.ovf".toList, r), st') := ⟨_, _, rfl⟩

/-- **C131 (false).** After one run, a run of the same command without `--output` writes over what the first one has written, whatever package
it was asked to change. -/
theorem C131_again_fails {c : SubCommand} (hc : PlainCommand c) (hi : c.title ≠ "install-helpers".toList) {name name' : Str}
    (hn : name = c.title ∨ name ∈ c.aliases) (hn' : name' = c.title ∨ name' ∈ c.aliases) {g l g' l' : List Str} {gus us gus' us' : List ArgUse}
    {ws ws' : List Str} {p p' : Str} (hg : CmdLine mainParser g gus []) (hl : CmdLine c.parser l us ws) (hw : ws.getLast? = some p)
    (hp : ∀ u ∈ gus ++ us, ¬ OnlyPrints u.opt) (ha : ClearFor mainParser l) (hg' : CmdLine mainParser g' gus' [])
    (hl' : CmdLine c.parser l' us' ws') (hw' : ws'.getLast? = some p') (hp' : ∀ u ∈ gus' ++ us', ¬ OnlyPrints u.opt)
    (ha' : ClearFor mainParser l') (hno : lastGiven "--output" us' = none) {st st1 st2 : PkgCmd Q} {f' : EhFiles} {x1 o1 x2 o2 : Str} {r1 r2 : Q}
    (h1 : sessionRun f abspath setters (g ++ name :: l) st = (.ok (x1, o1, r1), st1))
    (h2 : sessionRun f' abspath setters (g' ++ name' :: l') st1 = (.ok (x2, o2, r2), st2)) : x2 = p' ∧ o2 = o1 := by
  obtain ⟨-, e1, -, -⟩ := C131_where_partial hc hi hn hg hl hw hp ha h1
  obtain ⟨e2, -, -, e3⟩ := C131_where_partial hc hi hn' hg' hl' hw' hp' ha' h2
  exact ⟨e2, e3 _ hno e1⟩

/-- **C131 (false).** `cot edit-product a.ovf -v 1` and then, on the same object, `cot edit-product b.ovf -V 2`: b.ovf, with version 1 that was
not asked for, is written over a.ovf, and nobody is asked. -/
theorem C131_overwrites_fails :
    let run1 := sessionRun ⟨fun _ => .ok (), fun _ => .ok ()⟩ (fun s => '/' :: s) productSetters
      (["edit-product", "a.ovf", "-v", "1"].map String.toList) ({ req := {} } : PkgCmd ProductReq)
    sessionRun ⟨fun _ => .ok (), fun _ => .error .systemExit⟩ (fun s => '/' :: s) productSetters
      (["edit-product", "b.ovf", "-V", "2"].map String.toList) run1.2 =
      (.ok ("b.ovf".toList, "/a.ovf".toList, { version := some "1".toList, fullVersion := some "2".toList }),
        { package := some "b.ovf".toList, output := some "/a.ovf".toList, req := { version := some "1".toList, fullVersion := some "2".toList } }) := by
  rfl

end Cot
