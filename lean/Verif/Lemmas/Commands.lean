import Verif.Spec.Commands
import Verif.Props.EhCommand
/-
The attributes of a command that edits a package after the command line has been handed over.
-/
namespace Cot

variable {f : EhFiles} {Q β : Type} {setters : List (Str × Setter Q)}

theorem pkgSetattr_package {s s' : PkgCmd Q} {v : ArgVal ArgAtom} (h : pkgSetattr f setters s "package".toList v = .ok s') :
    ∃ p, v = .one (.text p) ∧ f.opens p = .ok () ∧ s' = { s with package := some p } := by
  unfold pkgSetattr at h
  rw [if_pos rfl] at h
  split at h
  · split at h
    · cases h
    · rename_i hu
      cases h
      exact ⟨_, rfl, hu, rfl⟩
  · cases h

theorem pkgSetattr_output {s s' : PkgCmd Q} {v : ArgVal ArgAtom} (h : pkgSetattr f setters s "output".toList v = .ok s') :
    ∃ p, v = .one (.text p) ∧ f.agrees p = .ok () ∧ s' = { s with output := some p } := by
  unfold pkgSetattr at h
  rw [if_neg (by decide), if_pos rfl] at h
  split at h
  · split at h
    · cases h
    · rename_i hu
      cases h
      exact ⟨_, rfl, hu, rfl⟩
  · cases h

theorem pkgSetattr_other {s s' : PkgCmd Q} {a : Str} {v : ArgVal ArgAtom} (h1 : a ≠ "package".toList) (h2 : a ≠ "output".toList)
    (h : pkgSetattr f setters s a v = .ok s') :
    (dget? setters a = none ∧ s' = s) ∨ ∃ g q, dget? setters a = some g ∧ g s.req v = .ok q ∧ s' = { s with req := q } := by
  unfold pkgSetattr at h
  rw [if_neg h1, if_neg h2] at h
  cases hg : dget? setters a with
  | none =>
    rw [hg] at h
    cases h
    exact .inl ⟨rfl, rfl⟩
  | some g =>
    rw [hg] at h
    dsimp only at h
    cases hq : g s.req v with
    | error e => rw [hq] at h; cases h
    | ok q =>
      rw [hq] at h
      cases h
      exact .inr ⟨g, q, rfl, hq, rfl⟩

/-- what an attribute is after all assignments, for any setter -/
theorem assigned_any {S : Type} {set : S → Str → ArgVal ArgAtom → Except Err S} {F : S → β} {a : Str} {R : ArgVal ArgAtom → β → Prop}
    (hk : ∀ s s' b v, b ≠ a → set s b v = .ok s' → F s' = F s) (hr : ∀ s s' v, set s a v = .ok s' → R v (F s'))
    {d : List (Str × ArgVal ArgAtom)} {s s' : S} (h : Sets set s (Assignments d) s') {v : ArgVal ArgAtom} (hv : Assigned d a v) :
    (v = .absent ∧ F s' = F s) ∨ (Given v ∧ R v (F s')) := by
  by_cases hg : Given v
  · exact .inr ⟨hg, sets_last hk hr h (fun x hx => ((hv x).1 hx).1) ((hv v).2 ⟨rfl, hg⟩)⟩
  · refine .inl ⟨?_, sets_keep hk h (fun x hx => hg ((hv x).1 hx).2)⟩
    cases v with
    | absent => rfl
    | one x => exact absurd trivial hg
    | list l => exact absurd trivial hg

theorem pkg_keeps_package {s s' : PkgCmd Q} {b : Str} {v : ArgVal ArgAtom} (hb : b ≠ "package".toList)
    (h : pkgSetattr f setters s b v = .ok s') : s'.package = s.package := by
  by_cases hb2 : b = "output".toList
  · subst hb2
    obtain ⟨p, -, -, rfl⟩ := pkgSetattr_output h
    rfl
  · rcases pkgSetattr_other hb hb2 h with ⟨-, rfl⟩ | ⟨g, q, -, -, rfl⟩ <;> rfl

theorem pkg_keeps_output {s s' : PkgCmd Q} {b : Str} {v : ArgVal ArgAtom} (hb : b ≠ "output".toList)
    (h : pkgSetattr f setters s b v = .ok s') : s'.output = s.output := by
  by_cases hb2 : b = "package".toList
  · subst hb2
    obtain ⟨p, -, -, rfl⟩ := pkgSetattr_package h
    rfl
  · rcases pkgSetattr_other hb2 hb h with ⟨-, rfl⟩ | ⟨g, q, -, -, rfl⟩ <;> rfl

/-- an attribute of the subclass that only its own setter changes -/
theorem pkg_attr {F : Q → β} {a : Str} {R : ArgVal ArgAtom → β → Prop} {g : Setter Q} (h1 : a ≠ "package".toList) (h2 : a ≠ "output".toList)
    (hg : dget? setters a = some g) (hk : ∀ b g', (b, g') ∈ setters → b ≠ a → ∀ q v q', g' q v = .ok q' → F q' = F q)
    (hr : ∀ q v q', g q v = .ok q' → R v (F q')) {d : List (Str × ArgVal ArgAtom)} {s s' : PkgCmd Q}
    (h : Sets (pkgSetattr f setters) s (Assignments d) s') {v : ArgVal ArgAtom} (hv : Assigned d a v) :
    (v = .absent ∧ F s'.req = F s.req) ∨ (Given v ∧ R v (F s'.req)) := by
  refine assigned_any (F := fun s => F s.req) (a := a) ?_ ?_ h hv
  · intro s s' b v hb hs
    by_cases hb1 : b = "package".toList
    · subst hb1
      obtain ⟨p, -, -, rfl⟩ := pkgSetattr_package hs
      rfl
    by_cases hb2 : b = "output".toList
    · subst hb2
      obtain ⟨p, -, -, rfl⟩ := pkgSetattr_output hs
      rfl
    rcases pkgSetattr_other hb1 hb2 hs with ⟨-, rfl⟩ | ⟨g', q, e1, e2, rfl⟩
    · rfl
    · exact hk b g' (dget?_mem e1) hb _ _ _ e2
  · intro s s' v hs
    rcases pkgSetattr_other h1 h2 hs with ⟨e1, rfl⟩ | ⟨g', q, e1, e2, rfl⟩
    · rw [hg] at e1; cases e1
    · rw [hg] at e1
      cases e1
      exact hr _ _ _ e2

/-! ### The setters -/

theorem storeText_ok {F : Q → Str → Q} {q q' : Q} {v : ArgVal ArgAtom} (h : storeText F q v = .ok q') :
    ∃ s, v = .one (.text s) ∧ q' = F q s := by
  unfold storeText at h
  split at h
  · cases h; exact ⟨_, rfl, rfl⟩
  · cases h

theorem storeTextVia_ok {G : Str → Except Err β} {F : Q → β → Q} {q q' : Q} {v : ArgVal ArgAtom} (h : storeTextVia G F q v = .ok q') :
    ∃ s x, v = .one (.text s) ∧ G s = .ok x ∧ q' = F q x := by
  unfold storeTextVia at h
  split at h
  · split at h
    · cases h
    · rename_i hx
      cases h
      exact ⟨_, _, rfl, hx, rfl⟩
  · cases h

theorem storeListVia_ok {G : List Str → Except Err β} {F : Q → β → Q} {q q' : Q} {v : ArgVal ArgAtom} (h : storeListVia G F q v = .ok q') :
    ∃ (ts : List Str) (x : β), v = .list (ts.map (fun t => .one (.text t))) ∧ G ts = .ok x ∧ q' = F q x := by
  unfold storeListVia at h
  split at h
  · split at h
    · cases h
    · rename_i ht
      split at h
      · cases h
      · rename_i hx
        cases h
        exact ⟨_, _, by rw [argTexts_ok.1 ht], hx, rfl⟩
  · cases h

theorem storeTruth_ok {F : Q → Bool → Q} {q q' : Q} {v : ArgVal ArgAtom} (h : storeTruth F q v = .ok q') :
    ∃ b, v = .one (.truth b) ∧ q' = F q b := by
  unfold storeTruth at h
  split at h
  · cases h; exact ⟨_, rfl, rfl⟩
  · cases h

/-! ### From the options to the attributes -/

/-- one flag of the option tells it -/
theorem withFlag_of {P : ArgParser} {us : List ArgUse} (hus : ∀ u ∈ us, u.opt ∈ P.opts) {d : DocOption} {fl : String}
    (hd : ∀ o ∈ P.opts, (∃ g ∈ d.flags, g ∈ o.flags) ↔ fl.toList ∈ o.flags) : givenWith d us = withFlag fl us := by
  unfold givenWith withFlag
  congr 1
  apply List.filter_congr
  intro u hu
  rw [decide_eq_decide]
  exact hd u.opt (hus u hu)

/-- a text option: the attribute holds what the text of the last use gives, and nothing without a use -/
theorem reached_text {given : List (List Str)} {v : ArgVal ArgAtom} (hv : Reaches (.value .text) given v) {x : Option β} {R : Str → β → Prop}
    (h : (v = .absent ∧ x = none) ∨ (Given v ∧ ∃ s y, v = .one (.text s) ∧ R s y ∧ x = some y)) :
    (given.getLast?.bind List.head? = none ∧ x = none) ∨
      ∃ s y, given.getLast?.bind List.head? = some s ∧ given.getLast? = some [s] ∧ R s y ∧ x = some y := by
  rcases hv with ⟨h1, rfl⟩ | ⟨s, a, h1, h2, rfl⟩
  · rcases h with ⟨-, h⟩ | ⟨h, -⟩
    · exact .inl ⟨by rw [h1]; rfl, h⟩
    · exact h.elim
  · obtain rfl : a = .text s := h2
    rcases h with ⟨h, -⟩ | ⟨-, s', y, h3, h4, h5⟩
    · cases h
    · cases h3
      exact .inr ⟨s, y, by rw [h1]; rfl, h1, h4, h5⟩

/-- a list option: the attribute holds what all texts give, and its default without a use -/
theorem reached_list {given : List (List Str)} {v : ArgVal ArgAtom} (hv : Reaches (.values .text) given v) {x x0 : β}
    {R : List Str → β → Prop} (h0 : R [] x0)
    (h : (v = .absent ∧ x = x0) ∨ (Given v ∧ ∃ ts : List Str, v = .list (ts.map (fun t => .one (.text t))) ∧ R ts x)) :
    R given.flatten x := by
  rcases hv with ⟨h1, rfl⟩ | ⟨h1, as, h2, rfl⟩
  · rcases h with ⟨-, h⟩ | ⟨h, -⟩
    · rw [h1, h]; exact h0
    · exact h.elim
  · rcases h with ⟨h, -⟩ | ⟨-, ts, h3, h4⟩
    · cases h
    · rw [list_one_inj h3] at h2
      rw [forall₂_same h2]
      exact h4

/-- What is known when a command line has been handed over to the command object. -/
structure Handed (f : EhFiles) (setters : List (Str × Setter Q)) (q : Q) (P : ArgParser) (m : ManPage) (us : List ArgUse) (ws : List Str)
    (cmd : PkgCmd Q) (d : List (Str × ArgVal ArgAtom)) : Prop where
  words : ws.length = P.pos.length
  known : ∀ u ∈ us, u.opt ∈ P.opts
  opts : ∀ o ∈ m.options, o.takes ≠ .prints → ∃ v, Reaches o.takes (givenWith o us) v ∧ Assigned d o.sets v
  pos : ∀ (i : Nat) (a w : Str), m.words[i]? = some a → ws[i]? = some w → Assigned d (lower a) (.one (.text w))
  sets : Sets (pkgSetattr f setters) { req := q } (Assignments d) cmd

theorem handed {sc : SubCommand} (hc : PlainCommand sc) {m : ManPage} (hm : ∀ m' ∈ commandPages, m'.names = sc.title :: sc.aliases → m' = m)
    {name : Str} (hn : name = sc.title ∨ name ∈ sc.aliases) {g l : List Str} {gus us : List ArgUse} {ws : List Str}
    (hg : CmdLine mainParser g gus []) (hl : CmdLine sc.parser l us ws) (hp : ∀ u ∈ gus ++ us, ¬ OnlyPrints u.opt) (ha : ClearFor mainParser l)
    {q : Q} {cmd : PkgCmd Q} (h : pkgCommand f setters q (g ++ name :: l) = .ok cmd) :
    ∃ d, Handed f setters q sc.parser m us ws cmd d := by
  have hP := optsOkB_sound (cot_tables sc hc.1).1
  have hus : ∀ u ∈ us, u.opt ∈ sc.parser.opts := fun u hu => (uses_ok (fun o ho => (hP.opts o ho).norest) hl u hu).1
  by_cases hok : NoConflict gus ∧ RightLine sc.parser us ws
  · obtain ⟨m', hm', hn', ns, d, h1, h2, h3, h4⟩ := C121_reaches_partial hc hn hg hl hp ha hok.1 hok.2
    obtain rfl := hm m' hm' hn'
    unfold pkgCommand at h
    rw [h1] at h
    dsimp only at h
    rw [h2] at h
    dsimp only at h
    cases hs : setAttributes (pkgSetattr f setters) d { req := q } with
    | mk r st =>
      rw [hs] at h
      obtain ⟨done, rest, e1, e2, e3⟩ := C103_set hs
      rcases e3 with ⟨rfl, rfl⟩ | ⟨e, a, v, rest', rfl, -, -⟩
      · rw [List.append_nil] at e1
        subst e1
        cases h
        exact ⟨d, hok.2.1, hus, h3, h4, e2⟩
      · cases h
  · have := (C120_means_partial hc hn hg hl hp ha).2 hok
    unfold pkgCommand at h
    rw [this] at h
    cases h

/-- a right command line is handed over unless a setter refuses a value -/
theorem handed_some {sc : SubCommand} (hc : PlainCommand sc) {m : ManPage} (hm : ∀ m' ∈ commandPages, m'.names = sc.title :: sc.aliases → m' = m)
    {name : Str} (hn : name = sc.title ∨ name ∈ sc.aliases) {g l : List Str} {gus us : List ArgUse} {ws : List Str}
    (hg : CmdLine mainParser g gus []) (hl : CmdLine sc.parser l us ws) (hp : ∀ u ∈ gus ++ us, ¬ OnlyPrints u.opt) (ha : ClearFor mainParser l)
    (hnc : NoConflict gus) (hr : RightLine sc.parser us ws) (q : Q)
    (all : ∀ d : List (Str × ArgVal ArgAtom),
      (∀ o ∈ m.options, o.takes ≠ .prints → ∃ v, Reaches o.takes (givenWith o us) v ∧ Assigned d o.sets v) →
      (∀ (i : Nat) (a w : Str), m.words[i]? = some a → ws[i]? = some w → Assigned d (lower a) (.one (.text w))) →
      ∀ a v, (a, v) ∈ Assignments d → ∀ s, ∃ s', pkgSetattr f setters s a v = .ok s') :
    ∃ cmd, pkgCommand f setters q (g ++ name :: l) = .ok cmd := by
  obtain ⟨m', hm', hn', ns, d, h1, h2, h3, h4⟩ := C121_reaches_partial hc hn hg hl hp ha hnc hr
  obtain rfl := hm m' hm' hn'
  unfold pkgCommand
  rw [h1]
  dsimp only
  rw [h2]
  dsimp only
  cases hs : setAttributes (pkgSetattr f setters) d { req := q } with
  | mk r st =>
    obtain ⟨done, rest, e1, e2, e3⟩ := C103_set hs
    rcases e3 with ⟨rfl, rfl⟩ | ⟨e, a, v, rest', rfl, e4, e5⟩
    · exact ⟨st, rfl⟩
    · exact absurd e5 (sets_all (all d h3 h4) _ done rest st e a v rest' e1 e2 e4)

/-- the same, attribute by attribute -/
theorem handed_runs {sc : SubCommand} (hc : PlainCommand sc) {m : ManPage} (hm : ∀ m' ∈ commandPages, m'.names = sc.title :: sc.aliases → m' = m)
    {name : Str} (hn : name = sc.title ∨ name ∈ sc.aliases) {g l : List Str} {gus us : List ArgUse} {ws : List Str}
    (hg : CmdLine mainParser g gus []) (hl : CmdLine sc.parser l us ws) (hp : ∀ u ∈ gus ++ us, ¬ OnlyPrints u.opt) (ha : ClearFor mainParser l)
    (hnc : NoConflict gus) (hr : RightLine sc.parser us ws) (q : Q) {i : Nat} {p : Str} (hi : m.words[i]? = some "PACKAGE".toList)
    (hw : ws[i]? = some p) (hopen : f.opens p = .ok ()) (ho : ⟨["-o".toList, "--output".toList], .value .text, "output".toList⟩ ∈ m.options)
    (hfl : ∀ x ∈ sc.parser.opts, (∃ g ∈ ["-o".toList, "--output".toList], g ∈ x.flags) ↔ "--output".toList ∈ x.flags)
    (hagree : ∀ x, lastGiven "--output" us = some x → f.agrees x = .ok ())
    (hset : ∀ b g', (b, g') ∈ setters →
      (∃ o ∈ m.options, o.takes ≠ .prints ∧ o.sets = b ∧ ∀ v, Reaches o.takes (givenWith o us) v → Given v → ∀ q, ∃ q', g' q v = .ok q') ∨
      (∃ (i : Nat) (a w : Str), m.words[i]? = some a ∧ ws[i]? = some w ∧ lower a = b ∧ ∀ q, ∃ q', g' q (.one (.text w)) = .ok q')) :
    ∃ cmd, pkgCommand f setters q (g ++ name :: l) = .ok cmd := by
  have hP := optsOkB_sound (cot_tables sc hc.1).1
  have hus : ∀ u ∈ us, u.opt ∈ sc.parser.opts := fun u hu => (uses_ok (fun o ho => (hP.opts o ho).norest) hl u hu).1
  refine handed_some hc hm hn hg hl hp ha hnc hr q ?_
  intro d h3 h4 a v hv s
  unfold pkgSetattr
  split
  · rename_i h1
    subst h1
    obtain ⟨rfl, -⟩ := (h4 i "PACKAGE".toList p hi hw v).1 hv
    dsimp only
    rw [hopen]
    exact ⟨_, rfl⟩
  · split
    · rename_i h1
      subst h1
      obtain ⟨w, e1, e2⟩ := h3 _ ho (by decide)
      obtain ⟨rfl, hgv⟩ := (e2 v).1 hv
      rcases e1 with ⟨-, rfl⟩ | ⟨x, y, e3, rfl, rfl⟩
      · exact hgv.elim
      · rw [withFlag_of hus (fl := "--output") hfl] at e3
        dsimp only
        rw [hagree x (by unfold lastGiven; rw [e3]; rfl)]
        exact ⟨_, rfl⟩
    · cases hgt : dget? setters a with
      | none => exact ⟨_, rfl⟩
      | some gt =>
        dsimp only
        rcases hset a gt (dget?_mem hgt) with ⟨o, o1, o2, rfl, o4⟩ | ⟨j, b, w, o1, o2, rfl, o4⟩
        · obtain ⟨w, e1, e2⟩ := h3 o o1 o2
          obtain ⟨rfl, hgv⟩ := (e2 v).1 hv
          obtain ⟨q', hq'⟩ := o4 v e1 hgv s.req
          rw [hq']
          exact ⟨_, rfl⟩
        · obtain ⟨rfl, -⟩ := (h4 j b w o1 o2 v).1 hv
          obtain ⟨q', hq'⟩ := o4 s.req
          rw [hq']
          exact ⟨_, rfl⟩

/-- a text option never hinders an attribute that is stored as it is -/
theorem storeText_runs {us : List ArgUse} {m : ManPage} {flags : List Str} {b : Str} (F : Q → Str → Q)
    (ho : ⟨flags, .value .text, b⟩ ∈ m.options) :
    ∃ o ∈ m.options, o.takes ≠ .prints ∧ o.sets = b ∧ ∀ v, Reaches o.takes (givenWith o us) v → Given v → ∀ q, ∃ q', storeText F q v = .ok q' := by
  refine ⟨_, ho, by simp, rfl, ?_⟩
  rintro v (⟨-, rfl⟩ | ⟨x, y, e3, rfl, rfl⟩) hgv q
  · exact hgv.elim
  · exact ⟨_, rfl⟩

theorem storeTextVia_runs {us : List ArgUse} {m : ManPage} {flags : List Str} {b : Str} {G : Str → Except Err β} (F : Q → β → Q)
    (ho : ⟨flags, .value .text, b⟩ ∈ m.options)
    (hG : ∀ x, (givenWith ⟨flags, .value .text, b⟩ us).getLast? = some [x] → ∃ y, G x = .ok y) :
    ∃ o ∈ m.options, o.takes ≠ .prints ∧ o.sets = b ∧
      ∀ v, Reaches o.takes (givenWith o us) v → Given v → ∀ q, ∃ q', storeTextVia G F q v = .ok q' := by
  refine ⟨_, ho, by simp, rfl, ?_⟩
  rintro v (⟨-, rfl⟩ | ⟨x, y, e3, rfl, rfl⟩) hgv q
  · exact hgv.elim
  · obtain ⟨y, hy⟩ := hG x e3
    unfold storeTextVia
    dsimp only
    rw [hy]
    exact ⟨_, rfl⟩

theorem storeListVia_runs {us : List ArgUse} {m : ManPage} {flags : List Str} {b : Str} {G : List Str → Except Err β} (F : Q → β → Q)
    (ho : ⟨flags, .values .text, b⟩ ∈ m.options) (hG : ∃ y, G (givenWith ⟨flags, .values .text, b⟩ us).flatten = .ok y) :
    ∃ o ∈ m.options, o.takes ≠ .prints ∧ o.sets = b ∧
      ∀ v, Reaches o.takes (givenWith o us) v → Given v → ∀ q, ∃ q', storeListVia G F q v = .ok q' := by
  refine ⟨_, ho, by simp, rfl, ?_⟩
  intro v hv hgv q
  obtain ⟨ts, rfl, hf⟩ := reaches_texts (k := .text) (fun s a h => ⟨s, h⟩) hv hgv
  rw [forall₂_same hf] at hG
  obtain ⟨y, hy⟩ := hG
  unfold storeListVia
  dsimp only
  rw [argTexts_ok.2 rfl]
  dsimp only
  rw [hy]
  exact ⟨_, rfl⟩

variable {q : Q} {P : ArgParser} {m : ManPage} {us : List ArgUse} {ws : List Str} {cmd : PkgCmd Q} {d : List (Str × ArgVal ArgAtom)}

/-- what an option does to its attribute -/
theorem Handed.option (h : Handed f setters q P m us ws cmd d) {o : DocOption} {fl : String} (ho : o ∈ m.options) (hn : o.takes ≠ .prints)
    (hfl : ∀ x ∈ P.opts, (∃ g ∈ o.flags, g ∈ x.flags) ↔ fl.toList ∈ x.flags) {F : Q → β} {R : ArgVal ArgAtom → β → Prop} {g : Setter Q}
    (h1 : o.sets ≠ "package".toList) (h2 : o.sets ≠ "output".toList) (hg : dget? setters o.sets = some g)
    (hk : ∀ b g', (b, g') ∈ setters → b ≠ o.sets → ∀ q v q', g' q v = .ok q' → F q' = F q)
    (hr : ∀ q v q', g q v = .ok q' → R v (F q')) :
    ∃ v, Reaches o.takes (withFlag fl us) v ∧ ((v = .absent ∧ F cmd.req = F q) ∨ (Given v ∧ R v (F cmd.req))) := by
  obtain ⟨v, e1, e2⟩ := h.opts o ho hn
  rw [withFlag_of h.known hfl] at e1
  exact ⟨v, e1, pkg_attr h1 h2 hg hk hr h.sets e2⟩

/-- where the package comes from and where it goes -/
theorem Handed.places (h : Handed f setters q P m us ws cmd d) {i : Nat} {p : Str} (hi : m.words[i]? = some "PACKAGE".toList)
    (hw : ws[i]? = some p) (ho : ⟨["-o".toList, "--output".toList], .value .text, "output".toList⟩ ∈ m.options)
    (hfl : ∀ x ∈ P.opts, (∃ g ∈ ["-o".toList, "--output".toList], g ∈ x.flags) ↔ "--output".toList ∈ x.flags) : PkgPlaces f us p cmd := by
  have k1 := assigned_any (F := fun s : PkgCmd Q => s.package) (a := "package".toList)
    (R := fun v x => ∃ p : Str, v = .one (.text p) ∧ x = some p ∧ f.opens p = .ok ()) (fun s s' b v hb hs => pkg_keeps_package hb hs)
    (by
      intro s s' v hs
      obtain ⟨p, e1, e2, rfl⟩ := pkgSetattr_package hs
      exact ⟨p, e1, rfl, e2⟩) h.sets (h.pos i "PACKAGE".toList p hi hw)
  obtain ⟨v, e1, e2⟩ := h.opts _ ho (by decide)
  rw [withFlag_of h.known (fl := "--output") hfl] at e1
  have k2 := assigned_any (F := fun s : PkgCmd Q => s.output) (a := "output".toList)
    (R := fun v x => ∃ p y : Str, v = .one (.text p) ∧ (p = y ∧ f.agrees p = .ok ()) ∧ x = some y) (fun s s' b v hb hs => pkg_keeps_output hb hs)
    (by
      intro s s' v hs
      obtain ⟨p, e1, e2, rfl⟩ := pkgSetattr_output hs
      exact ⟨p, p, e1, ⟨rfl, e2⟩, rfl⟩) h.sets e2
  rcases k1 with ⟨k1, -⟩ | ⟨-, p', k3, k4, k5⟩
  · cases k1
  cases k3
  rcases reached_text (R := fun p y => p = y ∧ f.agrees p = .ok ()) e1 k2 with ⟨e3, e4⟩ | ⟨s, y, e3, -, ⟨rfl, e5⟩, e6⟩
  · exact ⟨k4, k5, by unfold lastGiven; rw [e3, e4], by intro x hx; rw [e4] at hx; cases hx⟩
  · refine ⟨k4, k5, by unfold lastGiven; rw [e3, e6], fun x hx => ?_⟩
    rw [e6] at hx
    cases hx
    exact e5

end Cot
