import Verif.Props.ManPages
import Verif.Props.Helper
/-
C98: the command install-helpers.
-/
namespace Cot

variable {W V : Type}

theorem installHelper_verify {sys : InstallSys W V} {w : W} {n : Str} :
    (sys.installHelper true w n).2 = w ∧ ((∀ e, sys.version w n ≠ .error e) → ∃ msg, ToolSays sys w n msg ∧
      sys.installHelper true w n = (.ok (true, msg), w)) := by
  unfold InstallSys.installHelper ToolSays
  cases hf : sys.found w n with
  | false => exact ⟨rfl, fun _ => ⟨_, Or.inl ⟨rfl, rfl⟩, rfl⟩⟩
  | true =>
    cases hv : sys.version w n with
    | error e => exact ⟨by simp, fun h => absurd rfl (h e)⟩
    | ok v => exact ⟨by simp, fun _ => ⟨_, Or.inr ⟨rfl, v, rfl, rfl⟩, by simp⟩⟩

theorem installAll_verify {sys : InstallSys W V} : ∀ (l : List Str) (ok : Bool) (res : List (Str × Str)) (w : W),
    (sys.installAll true l ok res w).2 = w
  | [], _, _, _ => rfl
  | n :: r, ok, res, w => by
    rw [InstallSys.installAll]
    have h := (installHelper_verify (sys := sys) (w := w) (n := n)).1
    generalize sys.installHelper true w n = q at h
    obtain ⟨x, w'⟩ := q
    simp only at h
    subst h
    cases x with
    | error e => rfl
    | ok y => exact installAll_verify r _ _ _

theorem installOne_verify {sys : InstallSys W V} : ∀ (l : List Str) (res : List (Str × Str)) (w : W),
    (sys.installOne true l res w).2 = w
  | [], _, _ => rfl
  | n :: r, res, w => by
    rw [InstallSys.installOne]
    have h := (installHelper_verify (sys := sys) (w := w) (n := n)).1
    generalize sys.installHelper true w n = q at h
    obtain ⟨x, w'⟩ := q
    simp only at h
    subst h
    cases x with
    | error e => rfl
    | ok y =>
      obtain ⟨b, m⟩ := y
      cases b with
      | true => rfl
      | false => exact installOne_verify r _ _

/-- **C98 (verification changes nothing).** With --verify-only the machine is left as it is. -/
theorem C98_verify (sys : InstallSys W V) (fs : ManFs W) (m : ManSource) (fill : Str → Str) (ignore : Bool) (w : W) :
    (installHelpersRun sys fs m fill true ignore w).w = w := by
  unfold installHelpersRun
  have h1 := installAll_verify (sys := sys) neededTools true [] w
  generalize sys.installAll true neededTools true [] w = q at h1
  obtain ⟨x, w'⟩ := q
  simp only at h1
  subst h1
  cases x with
  | error e => rfl
  | ok y =>
    obtain ⟨ok1, res⟩ := y
    simp only
    have h2 := installOne_verify (sys := sys) isoTools res w'
    generalize sys.installOne true isoTools res w' = q at h2
    obtain ⟨x, w2⟩ := q
    simp only at h2
    subst h2
    cases x with
    | error e => rfl
    | ok y =>
      obtain ⟨ok2, res2⟩ := y
      simp only
      unfold manpagesHelper
      cases m.pages with
      | none => rfl
      | some l => rfl

/-- **C98 (verification report).** With --verify-only, if every installed program tells its version, the command succeeds and
reports on the pages and on five programs: whether they are found, and where. -/
theorem C98_verify_report {sys : InstallSys W V} {fs : ManFs W} {m : ManSource} {fill : Str → Str} {ignore : Bool} {w : W}
    {pages : List Str} (hp : m.pages = some pages) (hv : ∀ n e, sys.version w n ≠ .error e) :
    ∃ a b c d e, ToolSays sys w "fatdisk".toList a ∧ ToolSays sys w "mkisofs".toList b ∧ ToolSays sys w "ovftool".toList c ∧
      ToolSays sys w "qemu-img".toList d ∧ ToolSays sys w "vmdktool".toList e ∧
      (installHelpersRun sys fs m fill true ignore w).result = .ok () ∧
      (installHelpersRun sys fs m fill true ignore w).printed = ["Results:".toList, "-------------".toList,
        fill ("COT manpages: ".toList ++ (verifyManpages fs m.docs (guessManpath m.prog) w pages).2),
        fill ("fatdisk:      ".toList ++ a), fill ("mkisofs:      ".toList ++ b), fill ("ovftool:      ".toList ++ c),
        fill ("qemu-img:     ".toList ++ d), fill ("vmdktool:     ".toList ++ e), []] := by
  obtain ⟨a, ha, ea⟩ := (installHelper_verify (sys := sys) (w := w) (n := "fatdisk".toList)).2 (hv _)
  obtain ⟨b, hb, eb⟩ := (installHelper_verify (sys := sys) (w := w) (n := "mkisofs".toList)).2 (hv _)
  obtain ⟨c, hc, ec⟩ := (installHelper_verify (sys := sys) (w := w) (n := "ovftool".toList)).2 (hv _)
  obtain ⟨d, hd, ed⟩ := (installHelper_verify (sys := sys) (w := w) (n := "qemu-img".toList)).2 (hv _)
  obtain ⟨e, he, ee⟩ := (installHelper_verify (sys := sys) (w := w) (n := "vmdktool".toList)).2 (hv _)
  have hman : ∀ l, (verifyManpages fs m.docs (guessManpath m.prog) w l).1 = true := by
    intro l
    induction l with
    | nil => rfl
    | cons x r ih =>
      rw [verifyManpages]
      split
      · rfl
      · split
        · split
          · exact ih
          · rfl
        · rfl
  have hm := hman pages
  generalize hvm : verifyManpages fs m.docs (guessManpath m.prog) w pages = vm at hm
  obtain ⟨b1, txt⟩ := vm
  simp only at hm
  subst hm
  have hall : sys.installAll true neededTools true [] w = (.ok (true, [("fatdisk".toList, a), ("ovftool".toList, c),
      ("qemu-img".toList, d), ("vmdktool".toList, e)]), w) := by
    unfold neededTools
    simp only [InstallSys.installAll, ea, ec, ed, ee]
    rfl
  have hone : ∀ res, sys.installOne true isoTools res w = (.ok (true, dset res "mkisofs".toList b), w) := by
    intro res
    unfold isoTools
    simp only [InstallSys.installOne, eb]
  have hmp : manpagesHelper fs sys.text m true w = (.ok (true, txt), w) := by
    unfold manpagesHelper
    rw [hp]
    simp only [if_true, hvm]
  refine ⟨a, b, c, d, e, ha, hb, hc, hd, he, ?_, ?_⟩
  · unfold installHelpersRun
    simp only [hall, hone, hmp]
    rfl
  · unfold installHelpersRun
    simp only [hall, hone, hmp]
    rfl

theorem notTells {s : Str} {c : Char} (hc : s.head? = some c) (h1 : c ≠ 'I') (h2 : c ≠ 'U') : ¬ TellsFailure s := by
  rintro (⟨x, rfl⟩ | ⟨x, rfl⟩)
  · exact h1 (Option.some.inj hc).symm
  · exact h2 (Option.some.inj hc).symm

theorem installHelper_tells {sys : InstallSys W V} {verify : Bool} {w w' : W} {n msg : Str} {rc : Bool}
    (h : sys.installHelper verify w n = (.ok (rc, msg), w')) : rc = false ↔ TellsFailure msg := by
  unfold InstallSys.installHelper at h
  split at h
  · split at h
    · cases h
    · cases h
      exact ⟨(fun h => by cases h), fun h => absurd h (notTells rfl (by decide) (by decide))⟩
  · split at h
    · cases h
      exact ⟨(fun h => by cases h), fun h => absurd h (notTells rfl (by decide) (by decide))⟩
    · split at h
      · rename_i hi
        cases h
        refine ⟨(fun h => by cases h), fun h => absurd h ?_⟩
        unfold InstallSys.tryInstall at hi
        split at hi
        · cases hi
        · split at hi
          · cases hi
          · cases hi
            exact notTells rfl (by decide) (by decide)
      · split at h
        · cases h
          exact ⟨fun _ => Or.inl (List.prefix_append _ _), fun _ => rfl⟩
        · cases h

theorem manpages_tells {fs : ManFs W} {text : Err → Str} {m : ManSource} {verify : Bool} {w w' : W} {msg : Str} {rc : Bool}
    (h : manpagesHelper fs text m verify w = (.ok (rc, msg), w')) : rc = false ↔ TellsFailure msg := by
  unfold manpagesHelper at h
  split at h
  · cases h
    exact ⟨fun _ => Or.inr (List.prefix_append _ _), fun _ => rfl⟩
  · split at h
    · rename_i pages _ _
      injection h with h1 h2
      injection h1 with h1
      have : ∀ l, (verifyManpages fs m.docs (guessManpath m.prog) w l).1 = true ∧
          ¬ TellsFailure (verifyManpages fs m.docs (guessManpath m.prog) w l).2 := by
        intro l
        induction l with
        | nil => exact ⟨rfl, notTells rfl (by decide) (by decide)⟩
        | cons x r ih =>
          rw [verifyManpages]
          split
          · exact ⟨rfl, notTells rfl (by decide) (by decide)⟩
          · split
            · split
              · exact ih
              · exact ⟨rfl, notTells rfl (by decide) (by decide)⟩
            · exact ⟨rfl, notTells rfl (by decide) (by decide)⟩
      have := this pages
      rw [h1] at this
      obtain ⟨h3, h4⟩ := this
      simp only at h3 h4
      subst h3
      exact ⟨(fun h => by cases h), fun h => absurd h h4⟩
    · unfold installManpages at h
      split at h
      · split at h
        · cases h
          exact ⟨fun _ => Or.inl (List.prefix_append _ _), fun _ => rfl⟩
        · cases h
      · cases h
        refine ⟨(fun h => by cases h), fun h => absurd h ?_⟩
        split
        · split
          · exact notTells rfl (by decide) (by decide)
          · exact notTells rfl (by decide) (by decide)
        · exact notTells rfl (by decide) (by decide)

/-- the steps of the four programs -/
theorem installAll_four {sys : InstallSys W V} {verify : Bool} {w w' : W} {ok : Bool} {res : List (Str × Str)}
    (h : sys.installAll verify neededTools true [] w = (.ok (ok, res), w')) :
    ∃ r1 r2 r3 r4 m1 m2 m3 m4 w1 w2 w3,
      sys.installHelper verify w "fatdisk".toList = (.ok (r1, m1), w1) ∧
      sys.installHelper verify w1 "ovftool".toList = (.ok (r2, m2), w2) ∧
      sys.installHelper verify w2 "qemu-img".toList = (.ok (r3, m3), w3) ∧
      sys.installHelper verify w3 "vmdktool".toList = (.ok (r4, m4), w') ∧
      ok = (r1 && r2 && r3 && r4) ∧
      res = [("fatdisk".toList, m1), ("ovftool".toList, m2), ("qemu-img".toList, m3), ("vmdktool".toList, m4)] := by
  unfold neededTools at h
  rw [InstallSys.installAll] at h
  generalize h1 : sys.installHelper verify w "fatdisk".toList = q at h
  obtain ⟨x, w1⟩ := q
  cases x with
  | error e => cases h
  | ok y =>
    obtain ⟨r1, m1⟩ := y
    simp only at h
    rw [InstallSys.installAll] at h
    generalize h2 : sys.installHelper verify w1 "ovftool".toList = q at h
    obtain ⟨x, w2⟩ := q
    cases x with
    | error e => cases h
    | ok y =>
      obtain ⟨r2, m2⟩ := y
      simp only at h
      rw [InstallSys.installAll] at h
      generalize h3 : sys.installHelper verify w2 "qemu-img".toList = q at h
      obtain ⟨x, w3⟩ := q
      cases x with
      | error e => cases h
      | ok y =>
        obtain ⟨r3, m3⟩ := y
        simp only at h
        rw [InstallSys.installAll] at h
        generalize h4 : sys.installHelper verify w3 "vmdktool".toList = q at h
        obtain ⟨x, w4⟩ := q
        cases x with
        | error e => cases h
        | ok y =>
          obtain ⟨r4, m4⟩ := y
          simp only at h
          rw [InstallSys.installAll] at h
          cases h
          exact ⟨r1, r2, r3, r4, m1, m2, m3, m4, w1, w2, w3, rfl, h2, h3, h4, by simp, rfl⟩

/-- the steps of the three programs of which one is needed -/
theorem installOne_three {sys : InstallSys W V} {verify : Bool} {w w' : W} {ok : Bool} {res res' : List (Str × Str)}
    (h : sys.installOne verify isoTools res w = (.ok (ok, res'), w')) :
    ∃ r1 m1 w1, sys.installHelper verify w "mkisofs".toList = (.ok (r1, m1), w1) ∧
      ((r1 = true ∧ ok = true ∧ w' = w1 ∧ res' = dset res "mkisofs".toList m1) ∨
       (r1 = false ∧ ∃ r2 m2 w2, sys.installHelper verify w1 "genisoimage".toList = (.ok (r2, m2), w2) ∧
        ((r2 = true ∧ ok = true ∧ w' = w2 ∧ res' = dset (dset res "mkisofs".toList m1) "genisoimage".toList m2) ∨
         (r2 = false ∧ ∃ r3 m3, sys.installHelper verify w2 "xorriso".toList = (.ok (r3, m3), w') ∧ ok = r3 ∧
          res' = dset (dset (dset res "mkisofs".toList m1) "genisoimage".toList m2) "xorriso".toList m3)))) := by
  unfold isoTools at h
  rw [InstallSys.installOne] at h
  generalize h1 : sys.installHelper verify w "mkisofs".toList = q at h
  obtain ⟨x, w1⟩ := q
  cases x with
  | error e => cases h
  | ok y =>
    obtain ⟨r1, m1⟩ := y
    refine ⟨r1, m1, w1, rfl, ?_⟩
    cases r1 with
    | true => cases h; exact Or.inl ⟨rfl, rfl, rfl, rfl⟩
    | false =>
      refine Or.inr ⟨rfl, ?_⟩
      simp only at h
      rw [InstallSys.installOne] at h
      generalize h2 : sys.installHelper verify w1 "genisoimage".toList = q at h
      obtain ⟨x, w2⟩ := q
      cases x with
      | error e => cases h
      | ok y =>
        obtain ⟨r2, m2⟩ := y
        refine ⟨r2, m2, w2, rfl, ?_⟩
        cases r2 with
        | true => cases h; exact Or.inl ⟨rfl, rfl, rfl, rfl⟩
        | false =>
          refine Or.inr ⟨rfl, ?_⟩
          simp only at h
          rw [InstallSys.installOne] at h
          generalize h3 : sys.installHelper verify w2 "xorriso".toList = q at h
          obtain ⟨x, w3⟩ := q
          cases x with
          | error e => cases h
          | ok y =>
            obtain ⟨r3, m3⟩ := y
            cases r3 with
            | true => cases h; exact ⟨true, m3, rfl, rfl, rfl⟩
            | false =>
              simp only at h
              rw [InstallSys.installOne] at h
              cases h
              exact ⟨false, m3, rfl, rfl, rfl⟩

/-- **C98 (report and exit status).** When the command gets to its report, it reports on the pages, on the four programs that are
needed, and on those of the three programs for ISO images that were tried, in the order of the names.  It ends with an error
exactly if --ignore-errors was not given and the report tells of a failure with the pages or a needed program, or with all
three. -/
theorem C98_status_partial {sys : InstallSys W V} {fs : ManFs W} {m : ManSource} {fill : Str → Str} {verify ignore : Bool} {w : W}
    (h : (installHelpersRun sys fs m fill verify ignore w).printed ≠ []) :
    ∃ entries : List (Str × Str),
      (installHelpersRun sys fs m fill verify ignore w).printed =
        ["Results:".toList, "-------------".toList] ++ entries.map (fun x => fill (helperLine x)) ++ [[]] ∧
      (entries.map Prod.fst).Pairwise (fun a b => strLe a b = true ∧ a ≠ b) ∧
      (∀ n ∈ ["fatdisk".toList, "ovftool".toList, "qemu-img".toList, "vmdktool".toList, "mkisofs".toList, "COT manpages".toList],
        n ∈ entries.map Prod.fst) ∧
      (∀ n ∈ entries.map Prod.fst, n ∈ ["fatdisk".toList, "ovftool".toList, "qemu-img".toList, "vmdktool".toList,
        "mkisofs".toList, "genisoimage".toList, "xorriso".toList, "COT manpages".toList]) ∧
      ((installHelpersRun sys fs m fill verify ignore w).result = .ok () ∨
        (installHelpersRun sys fs m fill verify ignore w).result = .error .ioError) ∧
      ((installHelpersRun sys fs m fill verify ignore w).result = .error .ioError ↔ ignore = false ∧
        ((∃ n msg, (n, msg) ∈ entries ∧ n ∈ ["fatdisk".toList, "ovftool".toList, "qemu-img".toList, "vmdktool".toList,
            "COT manpages".toList] ∧ TellsFailure msg) ∨
         (∀ n ∈ ["mkisofs".toList, "genisoimage".toList, "xorriso".toList], ∃ msg, (n, msg) ∈ entries ∧ TellsFailure msg))) := by
  unfold installHelpersRun at h ⊢
  generalize hA : sys.installAll verify neededTools true [] w = q at h
  obtain ⟨x, wa⟩ := q
  cases x with
  | error e => exact absurd rfl h
  | ok y =>
  obtain ⟨ok1, res⟩ := y
  simp only at h ⊢
  generalize hB : sys.installOne verify isoTools res wa = q at h
  obtain ⟨x, wb⟩ := q
  cases x with
  | error e => exact absurd rfl h
  | ok y =>
  obtain ⟨ok2, res2⟩ := y
  simp only at h ⊢
  generalize hC : manpagesHelper fs sys.text m verify wb = q at h
  obtain ⟨x, wc⟩ := q
  cases x with
  | error e => exact absurd rfl h
  | ok y =>
  obtain ⟨ok3, mm⟩ := y
  simp only
  clear h
  obtain ⟨r1, r2, r3, r4, m1, m2, m3, m4, w1, w2, w3, e1, e2, e3, e4, rfl, rfl⟩ := installAll_four hA
  have t1 := installHelper_tells e1
  have t2 := installHelper_tells e2
  have t3 := installHelper_tells e3
  have t4 := installHelper_tells e4
  have t5 := manpages_tells hC
  have orr : ∀ b : Bool, ((if b = false ∧ ignore = false then (.error .ioError : Except Err Unit) else .ok ()) = .ok () ∨
      (if b = false ∧ ignore = false then (.error .ioError : Except Err Unit) else .ok ()) = .error .ioError) ∧
      ((if b = false ∧ ignore = false then (.error .ioError : Except Err Unit) else .ok ()) = .error .ioError ↔
        ignore = false ∧ b = false) := by
    intro b
    cases b <;> cases ignore <;> simp
  obtain ⟨s1, f1, v1, g1, cs⟩ := installOne_three hB
  have u1 := installHelper_tells g1
  rcases cs with ⟨rfl, rfl, -, rfl⟩ | ⟨rfl, s2, f2, v2, g2, cs⟩
  · have nf : ¬ TellsFailure f1 := fun h => by have := u1.2 h; cases this
    refine ⟨[("COT manpages".toList, mm), ("fatdisk".toList, m1), ("mkisofs".toList, f1), ("ovftool".toList, m2),
      ("qemu-img".toList, m3), ("vmdktool".toList, m4)], rfl, by simp only [List.map]; decide, by simp only [List.map]; decide,
        by simp only [List.map]; decide,
      (orr _).1, (orr _).2.trans (and_congr_right fun _ => ?_)⟩
    simp only [Bool.and_true, Bool.and_eq_false_iff, t1, t2, t3, t4, t5]
    constructor
    · rintro ((((h | h) | h) | h) | h)
      · exact Or.inl ⟨"fatdisk".toList, m1, by simp, by decide, h⟩
      · exact Or.inl ⟨"ovftool".toList, m2, by simp, by decide, h⟩
      · exact Or.inl ⟨"qemu-img".toList, m3, by simp, by decide, h⟩
      · exact Or.inl ⟨"vmdktool".toList, m4, by simp, by decide, h⟩
      · exact Or.inl ⟨"COT manpages".toList, mm, by simp, by decide, h⟩
    · rintro (⟨n, msg, hm, hn, ht⟩ | hall)
      · simp only [List.mem_cons, Prod.mk.injEq, List.not_mem_nil, or_false] at hm
        rcases hm with ⟨rfl, rfl⟩ | ⟨rfl, rfl⟩ | ⟨rfl, rfl⟩ | ⟨rfl, rfl⟩ | ⟨rfl, rfl⟩ | ⟨rfl, rfl⟩
        · exact Or.inr ht
        · exact Or.inl (Or.inl (Or.inl (Or.inl ht)))
        · exact absurd ht nf
        · exact Or.inl (Or.inl (Or.inl (Or.inr ht)))
        · exact Or.inl (Or.inl (Or.inr ht))
        · exact Or.inl (Or.inr ht)
      · obtain ⟨msg, hm, ht⟩ := hall "genisoimage".toList (by decide)
        exact absurd (List.mem_map_of_mem (f := Prod.fst) hm) (by simp only [List.map]; decide)
  · have uf1 := u1.1 rfl
    have u2 := installHelper_tells g2
    rcases cs with ⟨rfl, rfl, -, rfl⟩ | ⟨rfl, s3, f3, g3, rfl, rfl⟩
    · have nf : ¬ TellsFailure f2 := fun h => by have := u2.2 h; cases this
      refine ⟨[("COT manpages".toList, mm), ("fatdisk".toList, m1), ("genisoimage".toList, f2), ("mkisofs".toList, f1),
        ("ovftool".toList, m2), ("qemu-img".toList, m3), ("vmdktool".toList, m4)], rfl, by simp only [List.map]; decide, by simp only [List.map]; decide,
        by simp only [List.map]; decide,
        (orr _).1, (orr _).2.trans (and_congr_right fun _ => ?_)⟩
      simp only [Bool.and_true, Bool.and_eq_false_iff, t1, t2, t3, t4, t5]
      constructor
      · rintro ((((h | h) | h) | h) | h)
        · exact Or.inl ⟨"fatdisk".toList, m1, by simp, by decide, h⟩
        · exact Or.inl ⟨"ovftool".toList, m2, by simp, by decide, h⟩
        · exact Or.inl ⟨"qemu-img".toList, m3, by simp, by decide, h⟩
        · exact Or.inl ⟨"vmdktool".toList, m4, by simp, by decide, h⟩
        · exact Or.inl ⟨"COT manpages".toList, mm, by simp, by decide, h⟩
      · rintro (⟨n, msg, hm, hn, ht⟩ | hall)
        · simp only [List.mem_cons, Prod.mk.injEq, List.not_mem_nil, or_false] at hm
          rcases hm with ⟨rfl, rfl⟩ | ⟨rfl, rfl⟩ | ⟨rfl, rfl⟩ | ⟨rfl, rfl⟩ | ⟨rfl, rfl⟩ | ⟨rfl, rfl⟩ | ⟨rfl, rfl⟩
          · exact Or.inr ht
          · exact Or.inl (Or.inl (Or.inl (Or.inl ht)))
          · exact absurd ht nf
          · exact absurd hn (by decide)
          · exact Or.inl (Or.inl (Or.inl (Or.inr ht)))
          · exact Or.inl (Or.inl (Or.inr ht))
          · exact Or.inl (Or.inr ht)
        · obtain ⟨msg, hm, ht⟩ := hall "xorriso".toList (by decide)
          exact absurd (List.mem_map_of_mem (f := Prod.fst) hm) (by simp only [List.map]; decide)
    · have uf2 := u2.1 rfl
      have u3 := installHelper_tells g3
      refine ⟨[("COT manpages".toList, mm), ("fatdisk".toList, m1), ("genisoimage".toList, f2), ("mkisofs".toList, f1),
        ("ovftool".toList, m2), ("qemu-img".toList, m3), ("vmdktool".toList, m4), ("xorriso".toList, f3)], rfl, by simp only [List.map]; decide, by simp only [List.map]; decide,
        by simp only [List.map]; decide,
        (orr _).1, (orr _).2.trans (and_congr_right fun _ => ?_)⟩
      simp only [Bool.and_eq_false_iff, t1, t2, t3, t4, t5, u3]
      constructor
      · rintro (((((h | h) | h) | h) | h) | h)
        · exact Or.inl ⟨"fatdisk".toList, m1, by simp, by decide, h⟩
        · exact Or.inl ⟨"ovftool".toList, m2, by simp, by decide, h⟩
        · exact Or.inl ⟨"qemu-img".toList, m3, by simp, by decide, h⟩
        · exact Or.inl ⟨"vmdktool".toList, m4, by simp, by decide, h⟩
        · refine Or.inr fun n hn => ?_
          simp only [List.mem_cons, List.not_mem_nil, or_false] at hn
          rcases hn with rfl | rfl | rfl
          · exact ⟨f1, by simp, uf1⟩
          · exact ⟨f2, by simp, uf2⟩
          · exact ⟨f3, by simp, h⟩
        · exact Or.inl ⟨"COT manpages".toList, mm, by simp, by decide, h⟩
      · rintro (⟨n, msg, hm, hn, ht⟩ | hall)
        · simp only [List.mem_cons, Prod.mk.injEq, List.not_mem_nil, or_false] at hm
          rcases hm with ⟨rfl, rfl⟩ | ⟨rfl, rfl⟩ | ⟨rfl, rfl⟩ | ⟨rfl, rfl⟩ | ⟨rfl, rfl⟩ | ⟨rfl, rfl⟩ | ⟨rfl, rfl⟩ | ⟨rfl, rfl⟩
          · exact Or.inr ht
          · exact Or.inl (Or.inl (Or.inl (Or.inl (Or.inl ht))))
          · exact absurd hn (by decide)
          · exact absurd hn (by decide)
          · exact Or.inl (Or.inl (Or.inl (Or.inl (Or.inr ht))))
          · exact Or.inl (Or.inl (Or.inl (Or.inr ht)))
          · exact Or.inl (Or.inl (Or.inr ht))
          · exact absurd hn (by decide)
        · obtain ⟨msg, hm, ht⟩ := hall "xorriso".toList (by decide)
          simp only [List.mem_cons, Prod.mk.injEq, List.not_mem_nil, or_false] at hm
          have : msg = f3 := by
            rcases hm with h | h | h | h | h | h | h | h
            all_goals first
              | exact h.2
              | exact absurd h.1 (by decide)
          exact Or.inl (Or.inr (this ▸ ht))

theorem installHelper_found {sys : InstallSys W V} {w w' : W} {n msg : Str}
    (h : sys.installHelper false w n = (.ok (true, msg), w')) : sys.found w' n = true := by
  unfold InstallSys.installHelper at h
  split at h
  · rename_i hf
    split at h
    · cases h
    · cases h; exact hf
  · rw [if_neg (by simp)] at h
    split at h
    · rename_i hi
      cases h
      unfold InstallSys.tryInstall at hi
      split at hi
      · cases hi
      · rename_i hin
        split at hi
        · cases hi
        · cases hi; exact install_found _ hin
    · split at h <;> cases h

theorem installHelper_keeps {sys : InstallSys W V} {fs : ManFs W} (hk : NothingLost sys fs) {v : Bool} {w w' : W} {n k : Str}
    {r : Except Err (Bool × Str)} (h : sys.installHelper v w n = (r, w')) (hf : sys.found w k = true) :
    sys.found w' k = true := by
  have inst : ∀ {r2 w2}, sys.install w n = (r2, w2) → sys.found w2 k = true := by
    intro r2 w2 hi
    unfold HelperSys.install at hi
    split at hi
    · cases hi; exact hf
    · split at hi
      · cases hi; exact hf
      · have := hk.1 w n k hf
        split at hi
        · rename_i hr; cases hi; rw [hr] at this; exact this
        · rename_i hr
          rw [hr] at this
          split at hi
          · cases hi; exact this
          · cases hi; exact this
  unfold InstallSys.installHelper at h
  split at h
  · split at h <;> cases h <;> exact hf
  · split at h
    · cases h; exact hf
    · have tr : ∀ {r2 w2}, sys.tryInstall w n = (r2, w2) → sys.found w2 k = true := by
        intro r2 w2 hi
        unfold InstallSys.tryInstall at hi
        split at hi
        · rename_i hin; cases hi; exact inst hin
        · rename_i hin
          split at hi <;> cases hi <;> exact inst hin
      split at h
      · rename_i hi; cases h; exact tr hi
      · rename_i hi
        split at h <;> cases h <;> exact tr hi

theorem call_keeps {sys : InstallSys W V} {fs : ManFs W} (hk : NothingLost sys fs) {w w' : W} {cmd : List Str} {k : Str}
    {r : Except Err Unit} (hc : cmd ≠ []) (h : fs.call w cmd = (r, w')) (hf : sys.found w k = true) : sys.found w' k = true := by
  unfold ManFs.call at h
  have key := (C95_call (ex := fs.exec) (require := true) (retry := false) (s := ⟨w, []⟩) hc).2 (by simp)
  generalize checkCall fs.exec true false cmd ⟨w, []⟩ = q at key h
  obtain ⟨x, t⟩ := q
  simp only at key h
  cases h
  rw [key.1]
  exact hk.2.2.2 _ _ _ hf

theorem mkdir_keeps {sys : InstallSys W V} {fs : ManFs W} (hk : NothingLost sys fs) {w w' : W} {d k : Str}
    {r : Except Err Unit} (h : fs.mkdir w d = (r, w')) (hf : sys.found w k = true) : sys.found w' k = true := by
  unfold ManFs.mkdir at h
  split at h
  · cases h; exact hf
  · split at h
    · cases h; exact hf
    · have := hk.2.1 w d k hf
      split at h
      · rename_i hm; cases h; rw [hm] at this; exact this
      · rename_i hm
        rw [hm] at this
        split at h <;> rename_i hc <;> cases h <;> exact call_keeps hk (by simp) hc this

theorem copyFile_keeps {sys : InstallSys W V} {fs : ManFs W} (hk : NothingLost sys fs) {w w' : W} {s d k : Str}
    {r : Except Err Unit} (h : fs.copyFile w s d = (r, w')) (hf : sys.found w k = true) : sys.found w' k = true := by
  unfold ManFs.copyFile at h
  have := hk.2.2.1 w s d k hf
  split at h
  · rename_i hm; cases h; rw [hm] at this; exact this
  · rename_i hm
    rw [hm] at this
    split at h <;> rename_i hc <;> cases h <;> exact call_keeps hk (by simp) hc this

theorem installPages_keeps {sys : InstallSys W V} {fs : ManFs W} (hk : NothingLost sys fs) {docs manDir k : Str} :
    ∀ {pages : List Str} {a b : Bool} {w w' : W} {r}, installPages fs docs manDir pages a b w = (r, w') →
      sys.found w k = true → sys.found w' k = true := by
  intro pages
  induction pages with
  | nil => intro a b w w' r h hf; cases h; exact hf
  | cons p l ih =>
    intro a b w w' r h hf
    rw [installPages] at h
    have one : ∀ {r1 w1}, installManpage fs (pathJoin docs p) manDir w = (r1, w1) → sys.found w1 k = true := by
      intro r1 w1 hi
      unfold installManpage at hi
      simp only at hi
      split at hi
      · rename_i hm; cases hi; exact mkdir_keeps hk hm hf
      · rename_i hm
        have := mkdir_keeps hk hm hf
        split at hi
        · cases hi; exact this
        · split at hi
          · rename_i hc; cases hi; exact copyFile_keeps hk hc this
          · rename_i hc; cases hi; exact copyFile_keeps hk hc this
    split at h
    · rename_i hi; cases h; exact one hi
    · rename_i hi; exact ih h (one hi)

theorem manpages_keeps {sys : InstallSys W V} {fs : ManFs W} (hk : NothingLost sys fs) {text : Err → Str} {m : ManSource}
    {v : Bool} {w w' : W} {k : Str} {r} (h : manpagesHelper fs text m v w = (r, w')) (hf : sys.found w k = true) :
    sys.found w' k = true := by
  unfold manpagesHelper at h
  split at h
  · cases h; exact hf
  · split at h
    · cases h; exact hf
    · unfold installManpages at h
      split at h
      · rename_i hi
        split at h <;> cases h <;> exact installPages_keeps hk hi hf
      · rename_i hi; cases h; exact installPages_keeps hk hi hf

/-- **C98 (success).** If the command succeeds without --ignore-errors and --verify-only, then afterwards the four programs are
installed, and one of the three programs for ISO images is. -/
theorem C98_success {sys : InstallSys W V} {fs : ManFs W} (hk : NothingLost sys fs) {m : ManSource} {fill : Str → Str} {w : W}
    (h : (installHelpersRun sys fs m fill false false w).result = .ok ()) :
    (∀ n ∈ ["fatdisk".toList, "ovftool".toList, "qemu-img".toList, "vmdktool".toList],
      sys.found (installHelpersRun sys fs m fill false false w).w n = true) ∧
    (∃ n ∈ ["mkisofs".toList, "genisoimage".toList, "xorriso".toList],
      sys.found (installHelpersRun sys fs m fill false false w).w n = true) := by
  unfold installHelpersRun at h ⊢
  generalize hA : sys.installAll false neededTools true [] w = q at h
  obtain ⟨x, wa⟩ := q
  cases x with
  | error e => cases h
  | ok y =>
  obtain ⟨ok1, res⟩ := y
  simp only at h ⊢
  generalize hB : sys.installOne false isoTools res wa = q at h
  obtain ⟨x, wb⟩ := q
  cases x with
  | error e => cases h
  | ok y =>
  obtain ⟨ok2, res2⟩ := y
  simp only at h ⊢
  generalize hC : manpagesHelper fs sys.text m false wb = q at h
  obtain ⟨x, wc⟩ := q
  cases x with
  | error e => cases h
  | ok y =>
  obtain ⟨ok3, mm⟩ := y
  simp only at h ⊢
  have hok : (ok1 && ok2 && ok3) = true := by
    cases hh : (ok1 && ok2 && ok3) with
    | true => rfl
    | false => simp [hh] at h
  simp only [Bool.and_eq_true] at hok
  obtain ⟨⟨rfl, rfl⟩, rfl⟩ := hok
  obtain ⟨r1, r2, r3, r4, m1, m2, m3, m4, w1, w2, w3, e1, e2, e3, e4, hr, -⟩ := installAll_four hA
  have hr := hr.symm
  simp only [Bool.and_eq_true] at hr
  obtain ⟨⟨⟨rfl, rfl⟩, rfl⟩, rfl⟩ := hr
  have keepB : ∀ k, sys.found wa k = true → sys.found wb k = true := by
    intro k hf
    obtain ⟨s1, f1, v1, g1, cs⟩ := installOne_three hB
    have k1 := installHelper_keeps hk g1 hf
    rcases cs with ⟨-, -, rfl, -⟩ | ⟨-, s2, f2, v2, g2, cs⟩
    · exact k1
    · have k2 := installHelper_keeps hk g2 k1
      rcases cs with ⟨-, -, rfl, -⟩ | ⟨-, s3, f3, g3, -, -⟩
      · exact k2
      · exact installHelper_keeps hk g3 k2
  have fin : ∀ k, sys.found wa k = true → sys.found wc k = true := fun k hf => manpages_keeps hk hC (keepB k hf)
  constructor
  · intro n hn
    simp only [List.mem_cons, List.not_mem_nil, or_false] at hn
    rcases hn with rfl | rfl | rfl | rfl
    · exact fin _ (installHelper_keeps hk e4 (installHelper_keeps hk e3 (installHelper_keeps hk e2 (installHelper_found e1))))
    · exact fin _ (installHelper_keeps hk e4 (installHelper_keeps hk e3 (installHelper_found e2)))
    · exact fin _ (installHelper_keeps hk e4 (installHelper_found e3))
    · exact fin _ (installHelper_found e4)
  · obtain ⟨s1, f1, v1, g1, cs⟩ := installOne_three hB
    rcases cs with ⟨rfl, -, rfl, -⟩ | ⟨-, s2, f2, v2, g2, cs⟩
    · exact ⟨_, by simp, manpages_keeps hk hC (installHelper_found g1)⟩
    · rcases cs with ⟨rfl, -, rfl, -⟩ | ⟨-, s3, f3, g3, hs, -⟩
      · exact ⟨_, by simp, manpages_keeps hk hC (installHelper_found g2)⟩
      · subst hs
        exact ⟨_, by simp, manpages_keeps hk hC (installHelper_found g3)⟩

/-- **C98 (nothing to do).** If everything is there, the command changes nothing and succeeds. -/
theorem C98_idle {sys : InstallSys W V} {fs : ManFs W} {m : ManSource} {fill : Str → Str} {verify ignore : Bool} {w : W}
    {pages : List Str} (hp : m.pages = some pages) (hne : pages ≠ []) (hplain : ∀ p ∈ pages, '/' ∉ p)
    (hpl : ∀ p ∈ pages, fs.isDir w (sectionDir (guessManpath m.prog) p) = true ∧ InPlace fs m.docs (guessManpath m.prog) w p)
    (hf : ∀ n ∈ ["fatdisk".toList, "ovftool".toList, "qemu-img".toList, "vmdktool".toList, "mkisofs".toList],
      sys.found w n = true ∧ ∃ v, sys.version w n = .ok v) :
    (installHelpersRun sys fs m fill verify ignore w).result = .ok () ∧ (installHelpersRun sys fs m fill verify ignore w).w = w := by
  have one : ∀ n ∈ ["fatdisk".toList, "ovftool".toList, "qemu-img".toList, "vmdktool".toList, "mkisofs".toList],
      ∃ msg, sys.installHelper verify w n = (.ok (true, msg), w) := by
    intro n hn
    obtain ⟨h1, v, h2⟩ := hf n hn
    unfold InstallSys.installHelper
    rw [if_pos h1, h2]
    exact ⟨_, rfl⟩
  obtain ⟨a, ea⟩ := one "fatdisk".toList (by simp)
  obtain ⟨b, eb⟩ := one "ovftool".toList (by simp)
  obtain ⟨c, ec⟩ := one "qemu-img".toList (by simp)
  obtain ⟨d, ed⟩ := one "vmdktool".toList (by simp)
  obtain ⟨e, ee⟩ := one "mkisofs".toList (by simp)
  have hmp : manpagesHelper fs sys.text m verify w = (.ok (true, "already installed, no updates needed".toList), w) := by
    unfold manpagesHelper
    rw [hp]
    cases verify with
    | true =>
      simp only [if_true]
      rw [(C99_verify _ _ _ _ _).2 (fun p hp => (hpl p hp).2)]
    | false =>
      simp only [Bool.false_eq_true, if_false]
      exact C99_again hne hplain hpl
  unfold installHelpersRun neededTools isoTools
  simp only [InstallSys.installAll, InstallSys.installOne, ea, eb, ec, ed, ee, hmp]
  exact ⟨rfl, trivial⟩

/-! ### Examples and failures -/

/-- a machine with programs and files -/
structure ExBox where
  progs : List Str
  m : ExMachine

/-- programs in `can` can be installed; for others the reason is `why` -/
def exBoxSys (can : List Str) (why : Err) : InstallSys ExBox Nat where
  found w n := w.progs.contains n
  version _ _ := .ok 1
  installable _ n := can.contains n
  runInstall w n := (.ok (), { w with progs := n :: w.progs })
  unsure _ _ := why
  parse _ := .ok 1
  ge a b := b ≤ a
  path _ n := "/usr/bin/".toList ++ n
  showV _ := "1.0".toList
  text _ := "no luck".toList

def exBoxFs : ManFs ExBox where
  pathExists w := exManFs.pathExists w.m
  isDir w := exManFs.isDir w.m
  sig w := exManFs.sig w.m
  content w := exManFs.content w.m
  makedirs w d := ((exManFs.makedirs w.m d).1, { w with m := (exManFs.makedirs w.m d).2 })
  copy w s d := ((exManFs.copy w.m s d).1, { w with m := (exManFs.copy w.m s d).2 })
  exec w c := ((exManFs.exec w.m c).1, { w with m := (exManFs.exec w.m c).2 })

def exBoxPages : ManSource := ⟨some exManPages, "/cot/man".toList, "/usr/bin/cot".toList⟩

theorem exNothingLost (can : List Str) (why : Err) : NothingLost (exBoxSys can why) exBoxFs := by
  refine ⟨fun w n n' h => ?_, fun _ _ _ h => h, fun _ _ _ _ h => h, fun _ _ _ h => h⟩
  simp only [exBoxSys, List.contains_cons] at h ⊢
  rw [h, Bool.or_true]

example : (installHelpersRun (exBoxSys ["fatdisk".toList, "qemu-img".toList, "vmdktool".toList, "ovftool".toList, "xorriso".toList]
      .notImplementedError) exBoxFs exBoxPages id false false ⟨["fatdisk".toList], exManWorld⟩).printed =
    ["Results:", "-------------", "COT manpages: successfully updated in /usr/man",
     "fatdisk:      version 1.0, present at /usr/bin/fatdisk", "genisoimage:  INSTALLATION FAILED: no luck",
     "mkisofs:      INSTALLATION FAILED: no luck", "ovftool:      successfully installed to /usr/bin/ovftool, version 1.0",
     "qemu-img:     successfully installed to /usr/bin/qemu-img, version 1.0",
     "vmdktool:     successfully installed to /usr/bin/vmdktool, version 1.0",
     "xorriso:      successfully installed to /usr/bin/xorriso, version 1.0", ""].map String.toList := by rfl

example : (installHelpersRun (exBoxSys ["fatdisk".toList, "qemu-img".toList, "vmdktool".toList, "ovftool".toList, "xorriso".toList]
      .notImplementedError) exBoxFs exBoxPages id false false ⟨["fatdisk".toList], exManWorld⟩).result = .ok () := by rfl

/-- ovftool cannot be installed -/
example : (installHelpersRun (exBoxSys ["fatdisk".toList, "qemu-img".toList, "vmdktool".toList, "xorriso".toList]
      .notImplementedError) exBoxFs exBoxPages id false false ⟨["fatdisk".toList], exManWorld⟩).result = .error .ioError := by rfl
example : (installHelpersRun (exBoxSys ["fatdisk".toList, "qemu-img".toList, "vmdktool".toList, "xorriso".toList]
      .notImplementedError) exBoxFs exBoxPages id false true ⟨["fatdisk".toList], exManWorld⟩).result = .ok () := by rfl

/-- everything is there -/
example : ∃ w, (installHelpersRun (exBoxSys [] .notImplementedError) exBoxFs exBoxPages id false false w).w = w := by
  refine ⟨⟨["fatdisk".toList, "qemu-img".toList, "vmdktool".toList, "ovftool".toList, "mkisofs".toList],
    (installManpages exManFs (fun _ => []) "/cot/man".toList "/usr/man".toList exManPages exManWorld).2⟩, ?_⟩
  refine (C98_idle (pages := exManPages) rfl (by decide) (by decide) ?_ ?_).2
  · intro p hp
    exact (C99_install exFileLaws (text := fun _ => []) exPagesFit (w' := (installManpages exManFs (fun _ => [])
      "/cot/man".toList "/usr/man".toList exManPages exManWorld).2) (msg := "successfully updated in /usr/man".toList) rfl).1 p hp
  · intro n hn
    exact ⟨by revert n; decide, 1, rfl⟩

/-- **C98 (limits).** The command does not always get to its report, not even with --ignore-errors: a program that cannot be
installed because there is no package manager is a RuntimeError, which ends the command. -/
theorem C98_abort_fails : ∃ w : ExBox,
    (installHelpersRun (exBoxSys [] .runtimeError) exBoxFs exBoxPages id false true w).printed = [] ∧
    (installHelpersRun (exBoxSys [] .runtimeError) exBoxFs exBoxPages id false true w).result = .error .runtimeError :=
  ⟨⟨[], exManWorld⟩, rfl, rfl⟩

/-- **C98 (limits).** One program for ISO images is enough, but if it is genisoimage, --verify-only only reports that mkisofs is not
found, and without --verify-only mkisofs gets installed. -/
theorem C98_iso_fails : ∃ w : ExBox, (exBoxSys ["mkisofs".toList] .notImplementedError).found w "genisoimage".toList = true ∧
    (installHelpersRun (exBoxSys ["mkisofs".toList] .notImplementedError) exBoxFs exBoxPages id true false w).printed =
      ["Results:", "-------------", "COT manpages: DIRECTORY NOT FOUND: /usr/man/man1", "fatdisk:      NOT FOUND",
       "mkisofs:      NOT FOUND", "ovftool:      NOT FOUND", "qemu-img:     NOT FOUND", "vmdktool:     NOT FOUND", ""].map
        String.toList ∧
    "mkisofs".toList ∈ (installHelpersRun (exBoxSys ["mkisofs".toList] .notImplementedError) exBoxFs exBoxPages id false false w).w.progs :=
  ⟨⟨["genisoimage".toList], exManWorld⟩, by rfl, by rfl, by decide +kernel⟩

/-! ### Expected trouble does not stop the command -/

theorem call_trouble {fs : ManFs W} {w w' : W} {cmd : List Str} {e : Err} (hc : cmd ≠ []) (h : fs.call w cmd = (.error e, w')) :
    e = .ioError ∨ e = .helperError ∨ e = .helperNotFound := by
  unfold ManFs.call at h
  have key : ∀ s', checkCall fs.exec true false cmd ⟨w, []⟩ = (.error e, s') → e = .ioError ∨ e = .helperError ∨ e = .helperNotFound := by
    intro s' h
    unfold checkCall at h
    rw [if_neg hc, if_neg (by simp)] at h
    unfold callStep at h
    generalize fs.exec.run ⟨w, []⟩ cmd = q at h
    obtain ⟨r, s⟩ := q
    cases r with
    | osError n =>
      dsimp only at h
      rw [if_neg (by simp)] at h
      split at h
      · cases h; simp
      · split at h <;> (cases h; simp)
    | exit c out =>
      dsimp only at h
      split at h
      · cases h
      · cases h; simp
  generalize hq : checkCall fs.exec true false cmd ⟨w, []⟩ = q at h
  obtain ⟨r, s⟩ := q
  cases h
  exact key _ hq

theorem mkdir_trouble {fs : ManFs W} {w w' : W} {dir : Str} {e : Err} (hd : fs.pathExists w dir = true → fs.isDir w dir = true)
    (h : fs.mkdir w dir = (.error e, w')) : e = .ioError ∨ e = .helperError ∨ e = .helperNotFound := by
  unfold ManFs.mkdir at h
  by_cases h1 : fs.isDir w dir = true
  · simp [h1] at h
  · by_cases h2 : fs.pathExists w dir = true
    · exact absurd (hd h2) h1
    · rw [if_neg h1, if_neg h2] at h
      generalize fs.makedirs w dir = q at h
      obtain ⟨b, w1⟩ := q
      cases b with
      | true => cases h
      | false =>
        simp only at h
        generalize hq : fs.call w1 _ = q at h
        obtain ⟨r, w2⟩ := q
        cases r with
        | ok u => cases h
        | error e2 =>
          have := call_trouble (by simp) hq
          rcases this with rfl | rfl | rfl <;> (cases h; simp)

theorem copy_trouble {fs : ManFs W} {w w' : W} {a b : Str} {e : Err}
    (h : fs.copyFile w a b = (.error e, w')) : e = .ioError ∨ e = .helperError ∨ e = .helperNotFound := by
  unfold ManFs.copyFile at h
  generalize fs.copy w a b = q at h
  obtain ⟨c, w1⟩ := q
  cases c with
  | true => cases h
  | false =>
    simp only at h
    generalize hq : fs.call w1 _ = q at h
    obtain ⟨r, w2⟩ := q
    cases r with
    | ok u => cases h
    | error e2 =>
      have := call_trouble (by simp) hq
      rcases this with rfl | rfl | rfl <;> (cases h; simp)

theorem pages_trouble {fs : ManFs W} {docs dir : Str} 
    (hd : ∀ w page, fs.pathExists w (manDest dir page) = true → fs.isDir w (manDest dir page) = true) :
    ∀ (pages : List Str) (a b : Bool) (w w' : W) (e : Err), installPages fs docs dir pages a b w = (.error e, w') →
      e = .ioError ∨ e = .helperError ∨ e = .helperNotFound := by
  intro pages
  induction pages with
  | nil => intro a b w w' e h; cases h
  | cons p r ih =>
    intro a b w w' e h
    unfold installPages at h
    generalize hq : installManpage fs (pathJoin docs p) dir w = q at h
    obtain ⟨x, w1⟩ := q
    cases x with
    | ok y => exact ih _ _ _ _ _ h
    | error e1 =>
      cases h
      unfold installManpage at hq
      dsimp only at hq
      generalize hm : fs.mkdir w _ = q at hq
      obtain ⟨x, w2⟩ := q
      cases x with
      | error e2 => cases hq; exact mkdir_trouble (hd _ _) hm
      | ok u =>
        dsimp only at hq
        split at hq
        · cases hq
        · generalize hc : fs.copyFile w2 _ _ = q at hq
          obtain ⟨x, w3⟩ := q
          cases x with
          | error e2 => cases hq; exact copy_trouble hc
          | ok u => cases hq

/-- The ways in which an installation is expected to fail. -/
def OnlyExpectedTrouble (sys : InstallSys W V) : Prop :=
  (∀ w n, sys.found w n = true → ∃ v, sys.version w n = .ok v) ∧
  (∀ w n, match sys.install w n with
    | (.error e, _) => e = .notImplementedError ∨ e = .helperError ∨ e = .helperNotFound
    | (.ok _, w') => match sys.version w' n with
      | .ok _ => True
      | .error e => e = .helperError ∨ e = .helperNotFound)

theorem installHelper_reports {sys : InstallSys W V} (ht : OnlyExpectedTrouble sys) (verify : Bool) (w : W) (n : Str) :
    ∃ r w', sys.installHelper verify w n = (.ok r, w') := by
  unfold InstallSys.installHelper
  by_cases hf : sys.found w n = true
  · obtain ⟨v, hv⟩ := ht.1 w n hf
    rw [if_pos hf, hv]
    exact ⟨_, _, rfl⟩
  · rw [if_neg hf]
    cases verify with
    | true => exact ⟨_, _, rfl⟩
    | false =>
      rw [if_neg (by simp)]
      have h2 := ht.2 w n
      unfold InstallSys.tryInstall
      generalize sys.install w n = q at h2
      obtain ⟨r, w'⟩ := q
      cases r with
      | error e =>
        dsimp only at h2 ⊢
        rcases h2 with rfl | rfl | rfl <;> exact ⟨_, _, rfl⟩
      | ok u =>
        dsimp only at h2 ⊢
        generalize sys.version w' n = q at h2
        cases q with
        | ok v => exact ⟨_, _, rfl⟩
        | error e =>
          dsimp only at h2 ⊢
          rcases h2 with rfl | rfl <;> exact ⟨_, _, rfl⟩

theorem installAll_reports {sys : InstallSys W V} (ht : OnlyExpectedTrouble sys) (verify : Bool) :
    ∀ (ns : List Str) ok res w, ∃ r w', sys.installAll verify ns ok res w = (.ok r, w') := by
  intro ns
  induction ns with
  | nil => intro ok res w; exact ⟨_, _, rfl⟩
  | cons n r ih =>
    intro ok res w
    obtain ⟨⟨rc, msg⟩, w', h⟩ := installHelper_reports ht verify w n
    unfold InstallSys.installAll
    rw [h]
    exact ih _ _ _

theorem installOne_reports {sys : InstallSys W V} (ht : OnlyExpectedTrouble sys) (verify : Bool) :
    ∀ (ns : List Str) res w, ∃ r w', sys.installOne verify ns res w = (.ok r, w') := by
  intro ns
  induction ns with
  | nil => intro res w; exact ⟨_, _, rfl⟩
  | cons n r ih =>
    intro res w
    obtain ⟨⟨rc, msg⟩, w', h⟩ := installHelper_reports ht verify w n
    unfold InstallSys.installOne
    rw [h]
    cases rc with
    | true => exact ⟨_, _, rfl⟩
    | false => exact ih _ _

/-- **C98 (expected trouble).** If programs fail to install only as expected (no support, the attempt fails, a program for the attempt
is missing) and no file is where a directory for manual pages should be, the command gets to its report, however the copying of
the pages fails. -/
theorem C98_gets_to_report {sys : InstallSys W V} (ht : OnlyExpectedTrouble sys) {fs : ManFs W} {m : ManSource}
    (hd : ∀ w page, fs.pathExists w (manDest (guessManpath m.prog) page) = true → fs.isDir w (manDest (guessManpath m.prog) page) = true)
    (fill : Str → Str) (verify ignore : Bool) (w : W) :
    (installHelpersRun sys fs m fill verify ignore w).printed ≠ [] := by
  unfold installHelpersRun
  obtain ⟨⟨ok1, res1⟩, w1, h1⟩ := installAll_reports ht verify neededTools true [] w
  obtain ⟨⟨ok2, res2⟩, w2, h2⟩ := installOne_reports ht verify isoTools res1 w1
  rw [h1]
  dsimp only
  rw [h2]
  dsimp only
  have h3 : ∃ r w', manpagesHelper fs sys.text m verify w2 = (.ok r, w') := by
    unfold manpagesHelper
    cases m.pages with
    | none => exact ⟨_, _, rfl⟩
    | some pages =>
      dsimp only
      cases verify with
      | true => exact ⟨_, _, rfl⟩
      | false =>
        rw [if_neg (by simp)]
        unfold installManpages
        generalize hq : installPages fs m.docs (guessManpath m.prog) pages false false w2 = q
        obtain ⟨r, w3⟩ := q
        cases r with
        | ok y => exact ⟨_, _, rfl⟩
        | error e =>
          rcases pages_trouble hd _ _ _ _ _ _ hq with rfl | rfl | rfl <;> exact ⟨_, _, rfl⟩
  obtain ⟨⟨ok3, msg⟩, w3, h3⟩ := h3
  rw [h3]
  simp

/-- a machine on which nothing can be installed, and on which no file can be copied -/
example : ∃ (sys : InstallSys ExBox Nat) (fs : ManFs ExBox), OnlyExpectedTrouble sys ∧
    (∀ w page, fs.pathExists w (manDest (guessManpath exBoxPages.prog) page) = true →
      fs.isDir w (manDest (guessManpath exBoxPages.prog) page) = true) ∧
    ∃ w, (installHelpersRun sys fs exBoxPages id false false w).result = .error .ioError := by
  refine ⟨exBoxSys [] .notImplementedError, { exBoxFs with
      pathExists := fun _ _ => false, makedirs := fun w _ => (false, w), exec := fun w _ => (.osError 2, w) }, ⟨?_, ?_⟩, ?_, ⟨["fatdisk".toList], exManWorld⟩, rfl⟩
  · intro w n _; exact ⟨_, rfl⟩
  · intro w n
    unfold HelperSys.install
    by_cases hf : (exBoxSys [] Err.notImplementedError).found w n = true
    · rw [if_pos hf]; trivial
    · rw [if_neg hf]; exact Or.inl rfl
  · intro w page h; cases h

end Cot
