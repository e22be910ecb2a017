import Verif.Spec.SourceInstall
import Verif.Props.Helper
import Verif.Lemmas.Dict
/-
C111: how helper programs are installed.
-/
namespace Cot

theorem C111_packages (pm name : Str) (words : List Str) : (pm, words) ∈ providers name ↔ IsPackage pm name words := by
  constructor
  · intro h
    unfold providers at h
    cases hd : dget? providerTable name with
    | none => rw [hd] at h; cases h
    | some l =>
      rw [hd] at h
      have hm := dget?_mem hd
      have key : ∀ r ∈ providerTable, ∀ q ∈ r.2, ∃ row ∈ packagesOf, ∃ p ∈ row.2,
          row.1.toList = q.1 ∧ p.1.toList = r.1 ∧ p.2.map String.toList = q.2 := by decide +kernel
      exact key _ hm _ h
  · rintro ⟨row, hrow, p, hp, rfl, rfl, rfl⟩
    have key : ∀ row ∈ packagesOf, ∀ p ∈ row.2, (row.1.toList, p.2.map String.toList) ∈ providers p.1.toList := by
      decide +kernel
    exact key row hrow p hp

theorem InstWorld.run_eq (w : InstWorld) (h : List InstOp) (op : InstOp) :
    (w.fails h op = none ∧ w.run h op = (.ok (), h ++ [op])) ∨
    (∃ e, w.fails h op = some e ∧ w.run h op = (.error e, h ++ [op])) := by
  unfold InstWorld.run
  cases hf : w.fails h op with
  | none => exact Or.inl ⟨rfl, rfl⟩
  | some e => exact Or.inr ⟨e, rfl, rfl⟩

theorem StopsAtFailure.nil (w : InstWorld) (h : List InstOp) (r : Except Err Unit) : StopsAtFailure w h [] r := by
  intro pre op post he
  simp at he

theorem StopsAtFailure.append {w : InstWorld} {h a b : List InstOp} {r : Except Err Unit} (ha : StopsAtFailure w h a (.ok ()))
    (hb : StopsAtFailure w (h ++ a) b r) : StopsAtFailure w h (a ++ b) r := by
  intro pre op post he hne hf
  rcases List.append_eq_append_iff.1 he with ⟨c, rfl, hc⟩ | ⟨c, hc1, hc2⟩
  · rw [← List.append_assoc] at hf
    exact hb c op post hc hne hf
  · cases c with
    | nil =>
      simp only [List.append_nil, List.nil_append] at hc1 hc2
      subst hc1
      refine hb [] op post hc2.symm hne ?_
      simpa using hf
    | cons x c =>
      simp only [List.cons_append, List.cons.injEq] at hc2
      obtain ⟨rfl, -⟩ := hc2
      exact absurd rfl (ha pre op c hc1 hne hf).2

theorem StopsAtFailure.one {w : InstWorld} {h : List InstOp} {op : InstOp} : StopsAtFailure w h [op] (w.run h op).1 := by
  intro pre x post he hne hf
  cases pre with
  | nil =>
    simp only [List.nil_append, List.cons.injEq] at he
    obtain ⟨rfl, rfl⟩ := he
    refine ⟨Or.inl rfl, ?_⟩
    rcases w.run_eq h op with ⟨h1, -⟩ | ⟨e, -, h2⟩
    · simp [h1] at hf
    · rw [h2]; simp
  | cons y pre => simp at he

/-- after something failed nothing is done at all -/
def StopsDead (w : InstWorld) (h ops : List InstOp) (r : Except Err Unit) : Prop :=
  ∀ pre op post, ops = pre ++ op :: post → w.fails (h ++ pre) op ≠ none → post = [] ∧ r ≠ .ok ()

theorem runAll_spec (w : InstWorld) : ∀ (l h : List InstOp), ∃ n, (w.runAll h l).2 = h ++ l.take n ∧ (l ≠ [] → 1 ≤ n) ∧
    ((w.runAll h l).1 = .ok () → l.take n = l) ∧ StopsDead w h (l.take n) (w.runAll h l).1 ∧
    (∀ e, (w.runAll h l).1 = .error e → ∃ h' op, w.fails h' op = some e)
  | [], h => ⟨0, by simp [InstWorld.runAll], by simp, by simp, by intro pre op post he; simp at he, by simp [InstWorld.runAll]⟩
  | op :: r, h => by
    unfold InstWorld.runAll
    rcases w.run_eq h op with ⟨h1, h2⟩ | ⟨e, h1, h2⟩
    · rw [h2]
      dsimp only
      obtain ⟨n, e1, -, e2, e3, e4⟩ := runAll_spec w r (h ++ [op])
      refine ⟨n + 1, by simp [e1], by simp, fun hok => by simp [e2 hok], ?_, e4⟩
      intro pre x post he hf
      cases pre with
      | nil =>
        simp only [List.take_succ_cons, List.nil_append, List.cons.injEq] at he
        obtain ⟨rfl, -⟩ := he
        simp [h1] at hf
      | cons y pre =>
        simp only [List.take_succ_cons, List.cons_append, List.cons.injEq] at he
        obtain ⟨rfl, he⟩ := he
        refine e3 pre x post he ?_
        simpa using hf
    · rw [h2]
      refine ⟨1, by simp, by simp, by simp, ?_, fun e' he' => ⟨h, op, by cases he'; exact h1⟩⟩
      intro pre x post he hf
      cases pre with
      | nil =>
        simp only [List.take_succ_cons, List.take_zero, List.nil_append, List.cons.injEq] at he
        exact ⟨he.2.symm, by simp⟩
      | cons y pre => simp at he

theorem TidiedUp.noTemp {w : InstWorld} {h ops : List InstOp} (hn : InstOp.tempDir ∉ ops) : TidiedUp w h ops := by
  intro pre post he
  exact absurd (by rw [he]; simp) hn

theorem TidiedUp.append {w : InstWorld} {h a b : List InstOp} (ha : InstOp.tempDir ∉ a) (hb : TidiedUp w (h ++ a) b) : TidiedUp w h (a ++ b) := by
  intro pre post he
  rcases List.append_eq_append_iff.1 he with ⟨c, rfl, hc⟩ | ⟨c, hc1, hc2⟩
  · rw [← List.append_assoc]
    exact hb c post hc
  · cases c with
    | nil =>
      simp only [List.append_nil, List.nil_append] at hc1 hc2
      subst hc1
      simpa using hb [] post hc2.symm
    | cons x c =>
      simp only [List.cons_append, List.cons.injEq] at hc2
      obtain ⟨rfl, -⟩ := hc2
      exact absurd (by rw [hc1]; simp) ha

/-- the outcome of the block of a download -/
theorem withTgz_spec (w : InstWorld) (h : List InstOp) (url : Str) (block : Str → List InstOp)
    (hb : InstOp.tempDir ∉ block (w.tmp h)) :
    ∃ ops, (w.withTgz h url block).2 = h ++ ops ∧ StopsAtFailure w h ops (w.withTgz h url block).1 ∧ TidiedUp w h ops ∧
      ((w.withTgz h url block).1 = .ok () →
        ops = [.tempDir] ++ (.download url :: .extract :: block (w.tmp h)) ++ [.removeTemp]) ∧
      (∀ e, (w.withTgz h url block).1 = .error e → ∃ h' op, w.fails h' op = some e) := by
  unfold InstWorld.withTgz
  rcases w.run_eq h .tempDir with ⟨h1, h2⟩ | ⟨e, h1, h2⟩
  · rw [h2]
    dsimp only
    obtain ⟨n, e1, e0, e2, e3, e4⟩ := runAll_spec w (.download url :: .extract :: block (w.tmp h)) (h ++ [.tempDir])
    have hb' : InstOp.tempDir ∉ (InstOp.download url :: .extract :: block (w.tmp h)) := by simp [hb]
    generalize (InstOp.download url :: .extract :: block (w.tmp h)) = l at *
    have hnt : InstOp.tempDir ∉ l.take n ++ [.removeTemp] := by
      simp only [List.mem_append, List.mem_singleton, reduceCtorEq, or_false]
      exact fun hm => hb' (List.mem_of_mem_take hm)
    refine ⟨[.tempDir] ++ l.take n ++ [.removeTemp], by rw [e1]; simp, ?_, ?_, fun hok => by rw [e2 hok], e4⟩
    · rw [List.append_assoc]
      refine StopsAtFailure.append ?_ ?_
      · have := StopsAtFailure.one (w := w) (h := h) (op := .tempDir)
        rw [h2] at this
        exact this
      · intro pre op post he hne hf
        rcases List.append_eq_append_iff.1 he with ⟨c, rfl, hc⟩ | ⟨c, hc1, hc2⟩
        · cases c with
          | nil => simp only [List.nil_append, List.cons.injEq] at hc; exact absurd hc.1.symm hne
          | cons x c => simp at hc
        · cases c with
          | nil =>
            simp only [List.nil_append, List.cons.injEq] at hc2
            exact absurd hc2.1 hne
          | cons x c =>
            simp only [List.cons_append, List.cons.injEq] at hc2
            obtain ⟨rfl, rfl⟩ := hc2
            obtain ⟨rfl, hr⟩ := e3 pre op c hc1 hf
            exact ⟨Or.inr rfl, hr⟩
    · intro pre post he
      cases pre with
      | nil =>
        simp only [List.cons_append, List.nil_append, List.cons.injEq, true_and] at he
        exact Or.inl ⟨by simpa using h1, by rw [← he]; simp⟩
      | cons x pre =>
        simp only [List.cons_append, List.nil_append, List.cons.injEq] at he
        exact absurd (by rw [he.2]; simp) hnt
  · rw [h2]
    refine ⟨[.tempDir], rfl, ?_, ?_, by simp, fun e' he' => ⟨h, .tempDir, by cases he'; exact h1⟩⟩
    · have := StopsAtFailure.one (w := w) (h := h) (op := .tempDir)
      rw [h2] at this
      exact this
    · intro pre post he
      cases pre with
      | nil =>
        simp only [List.nil_append, List.cons.injEq, true_and] at he
        exact Or.inr ⟨by simp [h1], he.symm⟩
      | cons x pre => simp at he

/-- `_install` by a package manager -/
theorem installBase_spec (w : InstWorld) (h : List InstOp) (name : Str) :
    (∃ pm words, IsPackage pm name words ∧ w.found h pm = true ∧ w.installBase h name = w.run h (.package pm words)) ∨
    (w.ableBase h name = false ∧ w.installBase h name = (.error (w.unsure h name), h)) := by
  unfold InstWorld.installBase InstWorld.ableBase
  cases hf : (providers name).find? (fun p => w.found h p.1) with
  | some q =>
    obtain ⟨pm, words⟩ := q
    exact Or.inl ⟨pm, words, (C111_packages _ _ _).1 (List.mem_of_find?_eq_some hf), by simpa using List.find?_some hf, rfl⟩
  | none =>
    refine Or.inr ⟨?_, rfl⟩
    rw [List.any_eq_false]
    intro x hx
    exact List.find?_eq_none.1 hf x hx

/-- what can be said of a piece of an installation -/
structure Piece (w : InstWorld) (h : List InstOp) (r : Except Err Unit) (h' ops : List InstOp) : Prop where
  hist : h' = h ++ ops
  stops : StopsAtFailure w h ops r
  noTemp : InstOp.tempDir ∉ ops

theorem Piece.run (w : InstWorld) (h : List InstOp) (op : InstOp) (hop : op ≠ .tempDir) :
    Piece w h (w.run h op).1 (w.run h op).2 [op] := by
  refine ⟨?_, StopsAtFailure.one, by simpa using hop.symm⟩
  rcases w.run_eq h op with ⟨-, h2⟩ | ⟨e, -, h2⟩ <;> rw [h2]

/-- `install()` of a program that needs a package manager only -/
theorem baseInstall_spec (w : InstWorld) (h : List InstOp) (name : Str) :
    ∃ ops, Piece w h (w.baseSys.install h name).1 (w.baseSys.install h name).2 ops ∧
      ((w.baseSys.install h name).1 = .ok () → HaveOne w h [name] ops ∧ w.found (h ++ ops) name = true) ∧
      (∀ e, (w.baseSys.install h name).1 = .error e → e = .helperNotFound ∨ (∃ h' op, w.fails h' op = some e) ∨
        (ops = [] ∧ w.found h name = false ∧ w.ableBase h name = false ∧ e = w.unsure h name)) := by
  unfold HelperSys.install
  simp only [InstWorld.baseSys]
  by_cases hf : w.found h name = true
  · simp only [hf, if_true]
    exact ⟨[], ⟨by simp, StopsAtFailure.nil _ _ _, by simp⟩, fun _ => ⟨Or.inl ⟨rfl, name, by simp, hf⟩, by simpa using hf⟩,
      fun e he => by cases he⟩
  · have hf' : w.found h name = false := by simpa using hf
    simp only [hf', Bool.false_eq_true, if_false]
    rcases installBase_spec w h name with ⟨pm, words, p1, p2, p3⟩ | ⟨p1, p2⟩
    · have hable : w.ableBase h name = true := by
        unfold InstWorld.ableBase
        rw [List.any_eq_true]
        exact ⟨(pm, words), (C111_packages _ _ _).2 p1, p2⟩
      simp only [hable, Bool.true_eq_false, if_false, p3]
      have hpi := Piece.run w h (.package pm words) (by simp)
      refine ⟨[.package pm words], ?_⟩
      have hone : HaveOne w h [name] [.package pm words] :=
        Or.inr ⟨by simpa using hf', pm, words, name, rfl, by simp, p1, p2⟩
      rcases w.run_eq h (.package pm words) with ⟨h1, h2⟩ | ⟨e, h1, h2⟩
      · rw [h2] at hpi ⊢
        dsimp only at hpi ⊢
        by_cases hg : w.found (h ++ [.package pm words]) name = true
        · simp only [hg, if_true]
          exact ⟨hpi, fun _ => ⟨hone, trivial⟩, fun e he => by cases he⟩
        · simp only [hg]
          refine ⟨⟨rfl, ?_, hpi.noTemp⟩, by simp, fun e he => by cases he; exact Or.inl rfl⟩
          intro pre op post he hne hff
          exact absurd rfl (hpi.stops pre op post he hne hff).2
      · rw [h2] at hpi ⊢
        exact ⟨hpi, by simp, fun e' he' => by cases he'; exact Or.inr (Or.inl ⟨_, _, h1⟩)⟩
    · simp only [p1, if_true]
      exact ⟨[], ⟨by simp, StopsAtFailure.nil _ _ _, by simp⟩, by simp,
        fun e he => by cases he; exact Or.inr (Or.inr ⟨rfl, trivial, trivial, rfl⟩)⟩

/-- one of three programs of which only the second can be installed -/
theorem select3_spec (w : InstWorld) (h : List InstOp) {cc gc cp : Str} (hc : ∀ h, w.ableBase h cc = false)
    (hg : ∀ h, w.ableBase h cp = false) :
    let s := w.baseSys.select h [(cc, none), (gc, none), (cp, none)]
    ∃ ops r, (r = .ok () ↔ ∃ n, s.1 = .ok n) ∧ (∀ e, r = .error e ↔ s.1 = .error e) ∧ Piece w h r s.2 ops ∧
      (r = .ok () → HaveOne w h [cc, gc, cp] ops) ∧
      (∀ e, r = .error e → e = .helperNotFound ∨ ∃ h' op, w.fails h' op = some e) := by
  obtain ⟨ops, p1, p2, p3⟩ := baseInstall_spec w h gc
  dsimp only
  unfold HelperSys.select
  by_cases h1 : w.found h cc = true
  · have e1 : w.baseSys.firstInstalled h [(cc, none), (gc, none), (cp, none)] = .ok (some cc) := by
      simp [HelperSys.firstInstalled, HelperSys.minVersion, HelperSys.enough, InstWorld.baseSys, h1]
    rw [e1]
    refine ⟨[], .ok (), by simp, by simp, ⟨by simp, StopsAtFailure.nil _ _ _, by simp⟩, fun _ => Or.inl ⟨rfl, _, by simp, h1⟩, by simp⟩
  · by_cases h2 : w.found h gc = true
    · have e1 : w.baseSys.firstInstalled h [(cc, none), (gc, none), (cp, none)] = .ok (some gc) := by
        simp [HelperSys.firstInstalled, HelperSys.minVersion, HelperSys.enough, InstWorld.baseSys, h1, h2]
      rw [e1]
      refine ⟨[], .ok (), by simp, by simp, ⟨by simp, StopsAtFailure.nil _ _ _, by simp⟩, fun _ => Or.inl ⟨rfl, _, by simp, h2⟩, by simp⟩
    · by_cases h3 : w.found h cp = true
      · have e1 : w.baseSys.firstInstalled h [(cc, none), (gc, none), (cp, none)] = .ok (some cp) := by
          simp [HelperSys.firstInstalled, HelperSys.minVersion, HelperSys.enough, InstWorld.baseSys, h1, h2, h3]
        rw [e1]
        refine ⟨[], .ok (), by simp, by simp, ⟨by simp, StopsAtFailure.nil _ _ _, by simp⟩, fun _ => Or.inl ⟨rfl, _, by simp, h3⟩, by simp⟩
      · have e1 : w.baseSys.firstInstalled h [(cc, none), (gc, none), (cp, none)] = .ok none := by
          simp [HelperSys.firstInstalled, HelperSys.minVersion, InstWorld.baseSys, h1, h2, h3]
        rw [e1]
        dsimp only
        by_cases ha : w.ableBase h gc = true
        · have e2 : w.baseSys.firstInstallable [(cc, none), (gc, none), (cp, none)] h =
              (match w.baseSys.install h gc with
                | (.error e, w') => (.error e, w')
                | (.ok _, w') => (.ok (some gc), w')) := by
            unfold HelperSys.firstInstallable
            have : w.baseSys.installable h cc = false := hc h
            simp only [HelperSys.minVersion, this, Bool.false_eq_true, if_false]
            unfold HelperSys.firstInstallable
            have : w.baseSys.installable h gc = true := ha
            simp only [HelperSys.minVersion, this, if_true, HelperSys.enough]
            rcases w.baseSys.install h gc with ⟨_ | _, _⟩ <;> rfl
          rw [e2]
          rcases hi : w.baseSys.install h gc with ⟨r, h'⟩
          rw [hi] at p1 p2 p3
          dsimp only at p1 p2 p3
          refine ⟨ops, r, ?_, ?_, ?_, ?_, ?_⟩
          · cases r <;> simp
          · intro e; cases r <;> simp
          · cases r <;> exact p1
          · intro hr
            rcases (p2 hr).1 with ⟨q1, n, hn, q2⟩ | ⟨q1, pm, words, n, r1, r2, r3, r4⟩
            · simp only [List.mem_singleton] at hn; subst hn; exact absurd q2 h2
            · refine Or.inr ⟨?_, pm, words, n, r1, by simp at r2; simp [r2], r3, r4⟩
              intro n hn
              simp only [List.mem_cons, List.not_mem_nil, or_false] at hn
              rcases hn with rfl | rfl | rfl <;> simp_all
          · intro e he
            rcases p3 e he with q | q | ⟨-, -, q, -⟩
            · exact Or.inl q
            · exact Or.inr q
            · rw [ha] at q; cases q
        · have ha' : w.ableBase h gc = false := by simpa using ha
          have e2 : w.baseSys.firstInstallable [(cc, none), (gc, none), (cp, none)] h = (.ok none, h) := by
            have i1 : w.baseSys.installable h cc = false := hc h
            have i2 : w.baseSys.installable h gc = false := ha'
            have i3 : w.baseSys.installable h cp = false := hg h
            simp [HelperSys.firstInstallable, HelperSys.minVersion, i1, i2, i3]
          rw [e2]
          exact ⟨[], .error .helperNotFound, by simp, by simp [eq_comm], ⟨by simp, StopsAtFailure.nil _ _ _, by simp⟩, by simp,
            fun e he => Or.inl (by cases he; rfl)⟩

/-- a compiler -/
theorem compiler_spec (w : InstWorld) (h : List InstOp) :
    let s := w.baseSys.select h [("clang".toList, none), ("gcc".toList, none), ("g++".toList, none)]
    ∃ ops r, (r = .ok () ↔ ∃ n, s.1 = .ok n) ∧ (∀ e, r = .error e ↔ s.1 = .error e) ∧ Piece w h r s.2 ops ∧
      (r = .ok () → HaveOne w h ["clang".toList, "gcc".toList, "g++".toList] ops) ∧
      (∀ e, r = .error e → e = .helperNotFound ∨ ∃ h' op, w.fails h' op = some e) := by
  have hz : ∀ n, providers n = [] → ∀ h, w.ableBase h n = false := by
    intro n hn h
    simp [InstWorld.ableBase, hn]
  exact select3_spec w h (hz _ (by decide +kernel)) (hz _ (by decide +kernel))

theorem zlib_spec (w : InstWorld) (h : List InstOp) :
    ∃ ops, Piece w h (w.zlib h).1 (w.zlib h).2 ops ∧ ((w.zlib h).1 = .ok () → ZlibPackage w h ops) ∧
      (∀ e, (w.zlib h).1 = .error e → (∃ h' op, w.fails h' op = some e) ∨
        (w.found h "apt-get".toList = false ∧ w.found h "yum".toList = false)) := by
  have hr : ∀ op e, (w.run h op).1 = .error e → ∃ h' op, w.fails h' op = some e := by
    intro op e he
    rcases w.run_eq h op with ⟨-, h2⟩ | ⟨e', h1, h2⟩
    · rw [h2] at he; cases he
    · rw [h2] at he; cases he; exact ⟨_, _, h1⟩
  unfold InstWorld.zlib
  by_cases h1 : w.found h "apt-get".toList = true
  · simp only [h1, if_true]
    exact ⟨_, Piece.run w h _ (by simp), fun _ => Or.inl ⟨h1, rfl⟩, fun e he => Or.inl (hr _ _ he)⟩
  · have h1' : w.found h "apt-get".toList = false := by simpa using h1
    by_cases h2 : w.found h "yum".toList = true
    · simp only [h1', h2, if_true, Bool.false_eq_true, if_false]
      exact ⟨_, Piece.run w h _ (by simp), fun _ => Or.inr ⟨h1', h2, rfl⟩, fun e he => Or.inl (hr _ _ he)⟩
    · have h2' : w.found h "yum".toList = false := by simpa using h2
      simp only [h1', h2', Bool.false_eq_true, if_false]
      exact ⟨[], ⟨by simp, StopsAtFailure.nil _ _ _, by simp⟩, by simp, fun e _ => Or.inr ⟨trivial, trivial⟩⟩

theorem root_below (D P : Str) : ∃ sep rel, pathJoin D (P.dropWhile (fun c => decide (c = '/'))) = D ++ sep ++ rel ∧
    (sep = [] ∨ sep = ['/']) ∧ ∃ slashes, (∀ c ∈ slashes, c = '/') ∧ P = slashes ++ rel ∧ rel.head? ≠ some '/' := by
  have hnh : (P.dropWhile (fun c => decide (c = '/'))).head? ≠ some '/' := by
    intro hh
    have hnn : P.dropWhile (fun c => decide (c = '/')) ≠ [] := by intro h0; rw [h0] at hh; cases hh
    have := List.head_dropWhile_not (fun c => decide (c = '/')) hnn
    rw [List.head?_eq_some_head hnn] at hh
    simp only [Option.some.injEq] at hh
    simp [hh] at this
  have hsl : ∀ c ∈ P.takeWhile (fun c => decide (c = '/')), c = '/' := by
    intro c hc
    have := List.all_eq_true.1 (List.all_takeWhile (p := fun c => decide (c = '/')) (l := P)) c hc
    simpa using this
  unfold pathJoin
  rw [if_neg hnh]
  split
  · exact ⟨[], _, by simp, Or.inl rfl, _, hsl, (List.takeWhile_append_dropWhile).symm, hnh⟩
  · exact ⟨['/'], _, by simp, Or.inr rfl, _, hsl, (List.takeWhile_append_dropWhile).symm, hnh⟩

theorem root_plain (P : Str) : pathJoin [] P = P := by
  unfold pathJoin
  split
  · rfl
  · rw [if_pos (Or.inl rfl)]; rfl

theorem target_root (w : InstWorld) : InstallRoot w w.target := by
  unfold InstWorld.target InstWorld.destdir InstWorld.pfx
  constructor
  · intro h
    rw [h, if_neg (fun hh => hh rfl)]
    exact root_plain _
  · intro d hd hne
    rw [hd]
    dsimp only [Option.getD_some]
    rw [if_pos hne]
    exact root_below d _

theorem fatdisk_block (w : InstWorld) (t : Str) :
    .download "https://github.com/goblinhack/fatdisk/archive/v1.0.0-beta.tar.gz".toList :: .extract :: w.fatdiskBlock t =
      fatdiskSteps w.target t := rfl

theorem vmdktool_block (w : InstWorld) (t : Str) :
    .download "http://people.freebsd.org/~brian/vmdktool/vmdktool-1.4.tar.gz".toList :: .extract :: w.vmdktoolBlock t =
      vmdktoolSteps w w.target t := by
  unfold InstWorld.vmdktoolBlock vmdktoolSteps InstWorld.destdir InstWorld.pfx
  rcases hd : w.env "DESTDIR".toList with _ | _ | ⟨c, d⟩ <;> simp

/-- what an installation from source does -/
structure SourceDone (w : InstWorld) (h : List InstOp) (name : Str) (res : Except Err Unit × List InstOp) (ops : List InstOp) : Prop where
  hist : res.2 = h ++ ops
  stops : StopsAtFailure w h ops res.1
  tidy : TidiedUp w h ops
  full : res.1 = .ok () → FullBuild w h ops name
  err : ∀ e, res.1 = .error e → e = .helperNotFound ∨ (∃ h' op, w.fails h' op = some e) ∨
    (w.found h "make".toList = false ∧ w.ableBase h "make".toList = false) ∨
    (name = "vmdktool".toList ∧ ∃ a, (w.baseSys.install h "make".toList).2 = h ++ a ∧ w.found (h ++ a) "apt-get".toList = false ∧ w.found (h ++ a) "yum".toList = false)

theorem fatdiskSource_spec (w : InstWorld) (h : List InstOp) : ∃ ops, SourceDone w h "fatdisk".toList (w.fatdiskSource h) ops := by
  obtain ⟨a, p1, p2, p3⟩ := baseInstall_spec w h "make".toList
  have hme : ∀ e, (w.baseSys.install h "make".toList).1 = .error e → e = .helperNotFound ∨ (∃ h' op, w.fails h' op = some e) ∨
    (w.found h "make".toList = false ∧ w.ableBase h "make".toList = false) := by
    intro e he
    rcases p3 e he with q | q | q
    · exact Or.inl q
    · exact Or.inr (Or.inl q)
    · exact Or.inr (Or.inr ⟨q.2.1, q.2.2.1⟩)
  unfold InstWorld.fatdiskSource
  rcases hi : w.baseSys.install h "make".toList with ⟨r, h1⟩
  rw [hi] at p1 p2 hme
  dsimp only at p1 p2 hme
  cases r with
  | error e =>
    refine ⟨a, p1.hist, p1.stops, TidiedUp.noTemp p1.noTemp, by simp, ?_⟩
    intro e' he'
    rcases hme e' he' with q | q | q
    · exact Or.inl q
    · exact Or.inr (Or.inl q)
    · exact Or.inr (Or.inr (Or.inl q))
  | ok u =>
    obtain rfl := p1.hist
    dsimp only
    obtain ⟨b, r, c1, c2, c3, c4, c5⟩ := compiler_spec w (h ++ a)
    rcases hs : w.baseSys.select (h ++ a) [("clang".toList, none), ("gcc".toList, none), ("g++".toList, none)] with ⟨r', h2⟩
    rw [hs] at c1 c2 c3
    dsimp only at c1 c2 c3
    cases r' with
    | error e =>
      obtain rfl := (c2 e).2 rfl
      refine ⟨a ++ b, by rw [← List.append_assoc]; exact c3.hist, p1.stops.append c3.stops,
        TidiedUp.noTemp (by simp [p1.noTemp, c3.noTemp]), by simp, ?_⟩
      intro e' he'
      cases he'
      rcases c5 e rfl with q | q
      · exact Or.inl q
      · exact Or.inr (Or.inl q)
    | ok n =>
      obtain rfl := c1.2 ⟨n, rfl⟩
      obtain rfl := c3.hist
      dsimp only
      obtain ⟨ops, t1, t2, t3, t4, t5⟩ := withTgz_spec w (h ++ a ++ b)
        "https://github.com/goblinhack/fatdisk/archive/v1.0.0-beta.tar.gz".toList w.fatdiskBlock (by intro hm; simp only [InstWorld.fatdiskBlock, List.mem_cons, List.not_mem_nil, reduceCtorEq, or_self] at hm)
      rw [fatdisk_block] at t4
      refine ⟨a ++ b ++ ops, by rw [t1]; simp, ?_, ?_, ?_, fun e he => Or.inr (Or.inl (t5 e he))⟩
      · refine StopsAtFailure.append (p1.stops.append c3.stops) ?_
        rw [← List.append_assoc]; exact t2
      · refine TidiedUp.append (by simp [p1.noTemp, c3.noTemp]) ?_
        rw [← List.append_assoc]; exact t3
      · intro hok
        refine ⟨w.target, target_root w, a, b, (p2 rfl).1, Or.inl ⟨rfl, c4 rfl, ?_⟩⟩
        rw [t4 hok]
        simp

theorem vmdktoolSource_spec (w : InstWorld) (h : List InstOp) : ∃ ops, SourceDone w h "vmdktool".toList (w.vmdktoolSource h) ops := by
  obtain ⟨a, p1, p2, p3⟩ := baseInstall_spec w h "make".toList
  have hme : ∀ e, (w.baseSys.install h "make".toList).1 = .error e → e = .helperNotFound ∨ (∃ h' op, w.fails h' op = some e) ∨
    (w.found h "make".toList = false ∧ w.ableBase h "make".toList = false) := by
    intro e he
    rcases p3 e he with q | q | q
    · exact Or.inl q
    · exact Or.inr (Or.inl q)
    · exact Or.inr (Or.inr ⟨q.2.1, q.2.2.1⟩)
  have hhist := p1.hist
  unfold InstWorld.vmdktoolSource
  rcases hi : w.baseSys.install h "make".toList with ⟨r, h1⟩
  rw [hi] at p1 p2 hme
  dsimp only at p1 p2 hme
  cases r with
  | error e =>
    refine ⟨a, p1.hist, p1.stops, TidiedUp.noTemp p1.noTemp, by simp, ?_⟩
    intro e' he'
    rcases hme e' he' with q | q | q
    · exact Or.inl q
    · exact Or.inr (Or.inl q)
    · exact Or.inr (Or.inr (Or.inl q))
  | ok u =>
    obtain rfl := p1.hist
    dsimp only
    obtain ⟨b, c3, c4, c5⟩ := zlib_spec w (h ++ a)
    rcases hs : w.zlib (h ++ a) with ⟨r', h2⟩
    rw [hs] at c3 c4 c5
    dsimp only at c3 c4 c5
    cases r' with
    | error e =>
      refine ⟨a ++ b, by rw [← List.append_assoc]; exact c3.hist, p1.stops.append c3.stops,
        TidiedUp.noTemp (by simp [p1.noTemp, c3.noTemp]), by simp, ?_⟩
      intro e' he'
      cases he'
      rcases c5 e rfl with q | q
      · exact Or.inr (Or.inl q)
      · exact Or.inr (Or.inr (Or.inr ⟨rfl, a, hhist, q⟩))
    | ok n =>
      obtain rfl := c3.hist
      dsimp only
      obtain ⟨ops, t1, t2, t3, t4, t5⟩ := withTgz_spec w (h ++ a ++ b)
        "http://people.freebsd.org/~brian/vmdktool/vmdktool-1.4.tar.gz".toList w.vmdktoolBlock (by intro hm; simp only [InstWorld.vmdktoolBlock, List.mem_cons, List.not_mem_nil, reduceCtorEq, or_self] at hm)
      rw [vmdktool_block] at t4
      refine ⟨a ++ b ++ ops, by rw [t1]; simp, ?_, ?_, ?_, fun e he => Or.inr (Or.inl (t5 e he))⟩
      · refine StopsAtFailure.append (p1.stops.append c3.stops) ?_
        rw [← List.append_assoc]; exact t2
      · refine TidiedUp.append (by simp [p1.noTemp, c3.noTemp]) ?_
        rw [← List.append_assoc]; exact t3
      · intro hok
        refine ⟨w.target, target_root w, a, b, (p2 rfl).1, Or.inr ⟨rfl, c4 rfl, ?_⟩⟩
        rw [t4 hok]
        simp

/-- the outcome of `_install()` -/
theorem runInstall_spec (w : InstWorld) (hown : OwnErrors w) (h : List InstOp) (name : Str) :
    (∃ pm words, IsPackage pm name words ∧ w.found h pm = true ∧ w.runInstall h name = w.run h (.package pm words)) ∨
    ((∀ pm words, IsPackage pm name words → w.found h pm = false) ∧
      ((w.runInstall h name = (.error (w.unsure h name), h) ∧ (w.system ≠ "Linux".toList ∨ (name ≠ "fatdisk".toList ∧ name ≠ "vmdktool".toList)) ∧
          w.ableBase h name = false) ∨
       (w.system = "Linux".toList ∧ (name = "fatdisk".toList ∨ name = "vmdktool".toList) ∧
          ∃ ops, SourceDone w h name (w.runInstall h name) ops))) := by
  have hor : ∀ source pm words, w.orSource source (w.run h (.package pm words)) = w.run h (.package pm words) := by
    intro source pm words
    rcases w.run_eq h (.package pm words) with ⟨-, h2⟩ | ⟨e, h1, h2⟩
    · rw [h2]; rfl
    · rw [h2]
      have := (hown h (.package pm words)).1
      rw [h1] at this
      cases e <;> first | rfl | exact absurd rfl this
  rcases installBase_spec w h name with ⟨pm, words, p1, p2, p3⟩ | ⟨p1, p2⟩
  · refine Or.inl ⟨pm, words, p1, p2, ?_⟩
    unfold InstWorld.runInstall
    rw [p3]
    simp only [hor]
    split <;> (try split) <;> rfl
  · refine Or.inr ⟨?_, ?_⟩
    · intro pm words hpk
      unfold InstWorld.ableBase at p1
      rw [List.any_eq_false] at p1
      simpa using p1 _ ((C111_packages _ _ _).2 hpk)
    · unfold InstWorld.runInstall
      rw [p2]
      have hun : name = "fatdisk".toList ∨ name = "vmdktool".toList → w.system = "Linux".toList → w.unsure h name = .notImplementedError := by
        rintro (rfl | rfl) hl
        · have a1 : provides "fatdisk".toList "apt-get".toList = false := by decide +kernel
          have a2 : provides "fatdisk".toList "yum".toList = false := by decide +kernel
          unfold InstWorld.unsure
          rw [if_neg (by decide), hl, if_neg (by decide), if_neg]
          rintro ⟨-, h1, -⟩
          rw [a1, a2] at h1
          simp only [Bool.false_eq_true, or_self] at h1
        · have a1 : provides "vmdktool".toList "apt-get".toList = false := by decide +kernel
          have a2 : provides "vmdktool".toList "yum".toList = false := by decide +kernel
          unfold InstWorld.unsure
          rw [if_neg (by decide), hl, if_neg (by decide), if_neg]
          rintro ⟨-, h1, -⟩
          rw [a1, a2] at h1
          simp only [Bool.false_eq_true, or_self] at h1
      have hnl : ∀ source, w.system ≠ "Linux".toList → w.orSource source (.error (w.unsure h name), h) = (.error (w.unsure h name), h) := by
        intro source hl
        unfold InstWorld.orSource
        split
        · rename_i heq
          rw [if_pos hl]
          simp only [Prod.mk.injEq] at heq
          rw [heq.1, heq.2]
        · rfl
      by_cases hf : name = "fatdisk".toList
      · simp only [hf, if_true]
        by_cases hl : w.system = "Linux".toList
        · right
          refine ⟨hl, Or.inl trivial, ?_⟩
          have hu := hun (Or.inl hf) hl
          rw [hf] at hu
          rw [hu]
          simp only [InstWorld.orSource, hl, ne_eq, not_true_eq_false, if_false]
          exact fatdiskSource_spec w h
        · left
          have := hnl w.fatdiskSource hl
          rw [hf] at this p1
          exact ⟨this, Or.inl hl, p1⟩
      · by_cases hv : name = "vmdktool".toList
        · have hne : ¬ ("vmdktool".toList = "fatdisk".toList) := by decide
          subst hv
          rw [if_neg hne, if_pos rfl]
          by_cases hl : w.system = "Linux".toList
          · right
            refine ⟨hl, Or.inr rfl, ?_⟩
            rw [hun (Or.inr rfl) hl]
            simp only [InstWorld.orSource, hl, ne_eq, not_true_eq_false, if_false]
            exact vmdktoolSource_spec w h
          · left
            exact ⟨hnl w.vmdktoolSource hl, Or.inl hl, p1⟩
        · rw [if_neg hf, if_neg hv]
          exact Or.inl ⟨rfl, Or.inr ⟨hf, hv⟩, p1⟩

theorem install_eq (w : InstWorld) (h : List InstOp) (name : Str) : w.install h name =
    if w.found h name then (.ok (), h) else if w.installable h name = false then (.error (w.unsure h name), h)
    else match w.runInstall h name with
      | (.error e, h') => (.error e, h')
      | (.ok _, h') => if w.found h' name then (.ok (), h') else (.error .helperNotFound, h') := by
  rcases hr : w.runInstall h name with ⟨r, h'⟩
  have hr' : w.sys.runInstall h name = (r, h') := hr
  unfold InstWorld.install HelperSys.install
  rw [hr']
  cases r <;> rfl

/-- **C111 (nothing to do, or nothing that can be done).** -/
theorem C111_idle (w : InstWorld) (h : List InstOp) (name : Str) :
    (w.found h name = true → w.install h name = (.ok (), h)) ∧
    (w.found h name = false → w.installable h name = false → ∃ e, w.install h name = (.error e, h) ∧
      (e = .notImplementedError ∨ e = .runtimeError)) := by
  constructor
  · intro hf
    simp [InstWorld.install, HelperSys.install, InstWorld.sys, hf]
  · intro hf hi
    refine ⟨w.unsure h name, by simp [InstWorld.install, HelperSys.install, InstWorld.sys, hf, hi], ?_⟩
    unfold InstWorld.unsure
    split
    · exact Or.inl rfl
    · split
      · split
        · exact Or.inr rfl
        · exact Or.inl rfl
      · split
        · exact Or.inr rfl
        · exact Or.inl rfl

/-- **C111 (success).** If the installation of a program that was missing succeeds, then the program is there, and what was
done is: one package with the program was installed, by a package manager that was there; or, on Linux, if none of the
package managers that have it was there, it was built from source, with all the steps of that. -/
theorem C111_done {w : InstWorld} (hown : OwnErrors w) {h h' : List InstOp} {name : Str} (hf : w.found h name = false)
    (hok : w.install h name = (.ok (), h')) : w.found h' name = true ∧ ∃ ops, h' = h ++ ops ∧
      (OnePackage w h [name] ops ∨
       (w.system = "Linux".toList ∧ (∀ pm words, IsPackage pm name words → w.found h pm = false) ∧ FullBuild w h ops name)) := by
  have hfound : w.found h' name = true := install_found w.sys hok
  refine ⟨hfound, ?_⟩
  rw [install_eq, hf, if_neg Bool.false_ne_true] at hok
  by_cases hi : w.installable h name = false
  · rw [if_pos hi] at hok; cases hok
  · rw [if_neg hi] at hok
    rcases hr : w.runInstall h name with ⟨r, h1⟩
    rw [hr] at hok
    cases r with
    | error e => cases hok
    | ok u =>
      dsimp only at hok
      split at hok
      · simp only [Prod.mk.injEq, true_and] at hok
        subst hok
        rcases runInstall_spec w hown h name with ⟨pm, words, p1, p2, p3⟩ | ⟨q, ⟨q1, -⟩ | ⟨q1, q2, ops, q3⟩⟩
        · refine ⟨[.package pm words], ?_, Or.inl ⟨pm, words, name, rfl, by simp, p1, p2⟩⟩
          have := (Piece.run w h (.package pm words) (by simp)).hist
          rw [← p3, hr] at this
          exact this
        · rw [hr] at q1; cases q1
        · rw [hr] at q3
          exact ⟨ops, q3.hist, Or.inr ⟨q1, q, q3.full rfl⟩⟩
      · cases hok

/-- **C111 (any end).** However the installation ends: after a failure nothing more is done, except that the temporary
directory is removed; and every temporary directory is removed. -/
theorem C111_tidy {w : InstWorld} (hown : OwnErrors w) (h : List InstOp) (name : Str) :
    ∃ ops, (w.install h name).2 = h ++ ops ∧ StopsAtFailure w h ops (w.install h name).1 ∧ TidiedUp w h ops := by
  by_cases hf : w.found h name = true
  · rw [(C111_idle w h name).1 hf]
    exact ⟨[], by simp, StopsAtFailure.nil _ _ _, TidiedUp.noTemp (by simp)⟩
  · have hf' : w.found h name = false := by simpa using hf
    by_cases hi : w.installable h name = true
    · have hrun : ∃ ops, (w.runInstall h name).2 = h ++ ops ∧ StopsAtFailure w h ops (w.runInstall h name).1 ∧ TidiedUp w h ops := by
        rcases runInstall_spec w hown h name with ⟨pm, words, p1, p2, p3⟩ | ⟨q, ⟨q1, -⟩ | ⟨q1, q2, ops, q3⟩⟩
        · have := Piece.run w h (.package pm words) (by simp)
          rw [p3]
          exact ⟨_, this.hist, this.stops, TidiedUp.noTemp this.noTemp⟩
        · rw [q1]
          exact ⟨[], by simp, StopsAtFailure.nil _ _ _, TidiedUp.noTemp (by simp)⟩
        · exact ⟨ops, q3.hist, q3.stops, q3.tidy⟩
      obtain ⟨ops, r1, r2, r3⟩ := hrun
      refine ⟨ops, ?_, ?_, r3⟩
      all_goals
        rw [install_eq, hf', if_neg Bool.false_ne_true, hi, if_neg (by decide)]
        rcases hr : w.runInstall h name with ⟨r, h1⟩
        rw [hr] at r1 r2
        cases r with
        | error e => first | exact r1 | exact r2
        | ok u =>
          dsimp only at r1 r2 ⊢
          split <;> first
            | exact r1
            | exact r2
            | (intro pre op post he hne hff
               exact absurd rfl (r2 pre op post he hne hff).2)
    · obtain ⟨e, he, -⟩ := (C111_idle w h name).2 hf' (by simpa using hi)
      rw [he]
      exact ⟨[], by simp, StopsAtFailure.nil _ _ _, TidiedUp.noTemp (by simp)⟩

theorem lasting_append {w : InstWorld} (hl : Lasting w) {n : Str} : ∀ (ops h : List InstOp), w.found h n = true → w.found (h ++ ops) n = true
  | [], h, hf => by simpa using hf
  | o :: r, h, hf => by
    have := lasting_append hl r (h ++ [o]) (hl h o n hf)
    simpa using this

/-- **C111 (able).** On Linux, and for the programs that need only a package manager on every system: if COT reports that it
can install a program, then trying does not end with COT not knowing how to. -/
theorem C111_able_partial {w : InstWorld} (hown : OwnErrors w) (hlast : Lasting w) {h : List InstOp} {name : Str}
    (hsys : w.system = "Linux".toList ∨ (name ≠ "fatdisk".toList ∧ name ≠ "vmdktool".toList))
    (hi : w.installable h name = true) :
    (w.install h name).1 ≠ .error .notImplementedError ∧ (w.install h name).1 ≠ .error .runtimeError := by
  by_cases hf : w.found h name = true
  · rw [(C111_idle w h name).1 hf]; simp
  · have hf' : w.found h name = false := by simpa using hf
    have hrun : ∀ e, (w.runInstall h name).1 = .error e → e = .helperNotFound ∨ ∃ h' op, w.fails h' op = some e := by
      intro e he
      rcases runInstall_spec w hown h name with ⟨pm, words, p1, p2, p3⟩ | ⟨q, ⟨q1, q2, q3⟩ | ⟨q1, q2, ops, q3⟩⟩
      · rw [p3] at he
        rcases w.run_eq h (.package pm words) with ⟨-, h2⟩ | ⟨e', h1, h2⟩
        · rw [h2] at he; cases he
        · rw [h2] at he; cases he; exact Or.inr ⟨_, _, h1⟩
      · exfalso
        have hne : name ≠ "fatdisk".toList ∧ name ≠ "vmdktool".toList := by
          rcases hsys with hs | hs
          · rcases q2 with q2 | q2
            · exact absurd hs q2
            · exact q2
          · exact hs
        unfold InstWorld.installable at hi
        rw [if_neg hne.1, if_neg hne.2] at hi
        split at hi
        · cases hi
        · rw [q3] at hi; cases hi
      · rcases q3.err e he with r | r | ⟨r1, r2⟩ | ⟨r0, a, r3, r1, r2⟩
        · exact Or.inl r
        · exact Or.inr r
        · exfalso
          have hmk : w.found h "apt-get".toList = false ∧ w.found h "yum".toList = false := by
            unfold InstWorld.ableBase at r2
            rw [List.any_eq_false] at r2
            have m1 : ("apt-get".toList, ["make".toList]) ∈ providers "make".toList := by decide +kernel
            have m2 : ("yum".toList, ["make".toList]) ∈ providers "make".toList := by decide +kernel
            exact ⟨by simpa using r2 _ m1, by simpa using r2 _ m2⟩
          have hb : w.found h "brew".toList = false := by
            rcases q2 with rfl | rfl
            · exact q _ ["glennmatthews/fatdisk/fatdisk".toList, "--devel".toList] ((C111_packages _ _ _).1 (by decide +kernel))
            · exact q _ ["vmdktool".toList] ((C111_packages _ _ _).1 (by decide +kernel))
          have hp : w.found h "port".toList = false := by
            rcases q2 with rfl | rfl
            · exact q _ ["fatdisk".toList] ((C111_packages _ _ _).1 (by decide +kernel))
            · exact q _ ["vmdktool".toList] ((C111_packages _ _ _).1 (by decide +kernel))
          unfold InstWorld.installable at hi
          rcases q2 with rfl | rfl
          · rw [if_neg (by decide), if_pos rfl, hb, hp, r1, r2] at hi
            simp only [Bool.or_self, Bool.and_false, Bool.false_and, Bool.false_eq_true] at hi
          · rw [if_neg (by decide), if_neg (by decide), if_pos rfl, hb, hp, hmk.1, hmk.2] at hi
            simp only [Bool.or_self, Bool.false_eq_true] at hi
        · exfalso
          subst r0
          have hb : w.found h "brew".toList = false :=
            q _ ["vmdktool".toList] ((C111_packages _ _ _).1 (by decide +kernel))
          have hp : w.found h "port".toList = false :=
            q _ ["vmdktool".toList] ((C111_packages _ _ _).1 (by decide +kernel))
          have ha : w.found h "apt-get".toList = false := by
            by_contra hc
            have := lasting_append hlast a h (by simpa using hc : w.found h "apt-get".toList = true)
            rw [r1] at this; cases this
          have hy : w.found h "yum".toList = false := by
            by_contra hc
            have := lasting_append hlast a h (by simpa using hc : w.found h "yum".toList = true)
            rw [r2] at this; cases this
          unfold InstWorld.installable at hi
          rw [if_neg (by decide), if_neg (by decide), if_pos rfl, hb, hp, ha, hy] at hi
          simp only [Bool.or_self, Bool.false_eq_true] at hi
    have key : ∀ e, (w.install h name).1 = .error e → e = .helperNotFound ∨ ∃ h' op, w.fails h' op = some e := by
      intro e he
      rw [install_eq, hf', if_neg Bool.false_ne_true, hi, if_neg (by decide)] at he
      rcases hr : w.runInstall h name with ⟨r, h1⟩
      rw [hr] at he hrun
      cases r with
      | error e' => exact hrun e he
      | ok u =>
        dsimp only at he
        split at he
        · cases he
        · cases he; exact Or.inl rfl
    constructor
    · intro he
      rcases key _ he with q | ⟨h', op, q⟩
      · cases q
      · exact (hown h' op).1 q
    · intro he
      rcases key _ he with q | ⟨h', op, q⟩
      · cases q
      · exact (hown h' op).2 q

/-! ### Cases -/

/-- a Linux machine with apt-get, make and gcc; building adds the program -/
def exInst (system : String) (there : List String) : InstWorld where
  found := fun h n => there.any (fun s => s.toList = n) || (n = "fatdisk".toList && h.any (fun o => match o with
    | .copy .. => true
    | _ => false))
  fails := fun _ _ => none
  tmp := fun _ => "/tmp/cot_helper1".toList
  system := system.toList
  env := fun v => if v = "DESTDIR".toList then some "/stage".toList else none

theorem exInst_own (sys : String) (l : List String) : OwnErrors (exInst sys l) :=
  fun _ _ => ⟨fun hh => (by cases hh), fun hh => (by cases hh)⟩

theorem exInst_lasting (sys : String) (l : List String) : Lasting (exInst sys l) := by
  intro h op n hf
  unfold exInst at hf ⊢
  rw [Bool.or_eq_true, Bool.and_eq_true] at hf
  rw [Bool.or_eq_true, Bool.and_eq_true, List.any_append]
  rcases hf with hf | ⟨h1, h2⟩
  · exact Or.inl hf
  · exact Or.inr ⟨h1, by rw [h2]; rfl⟩

example : OwnErrors (exInst "Linux" ["make", "gcc"]) ∧ Lasting (exInst "Linux" ["make", "gcc"]) ∧
    (exInst "Linux" ["make", "gcc"]).installable [] "fatdisk".toList = true ∧
    (exInst "Linux" ["make", "gcc"]).found [] "fatdisk".toList = false ∧
    (exInst "Linux" ["make", "gcc"]).install [] "fatdisk".toList = (.ok (), [.tempDir,
      .download "https://github.com/goblinhack/fatdisk/archive/v1.0.0-beta.tar.gz".toList, .extract,
      .call ["./RUNME".toList] "/tmp/cot_helper1/fatdisk-1.0.0-beta".toList false, .mkdir "/stage/usr/local/bin".toList,
      .copy "/tmp/cot_helper1/fatdisk-1.0.0-beta/fatdisk".toList "/stage/usr/local/bin".toList, .removeTemp]) :=
  ⟨exInst_own _ _, exInst_lasting _ _, by decide +kernel, by decide +kernel, by decide +kernel⟩

/-- **C111 fails** on macOS: with apt-get as the only package manager COT reports that it can install vmdktool, and then does not
know how to. -/
theorem C111_able_fails : (exInst "Darwin" ["apt-get"]).installable [] "vmdktool".toList = true ∧
    (exInst "Darwin" ["apt-get"]).install [] "vmdktool".toList = (.error .runtimeError, []) := by
  constructor <;> decide +kernel

end Cot
