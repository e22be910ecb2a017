import Verif.Model.HelpCommand
import Verif.Spec.HelpCommand
import Verif.Props.CommandProps
/-
C130: `cot help` prints the help of the command that is named.
-/
namespace Cot

theorem lookup_iff {n : Str} {P : ArgParser} : dget? subparserLookup n = some P ↔ HelpFor n P := by
  constructor
  · intro h
    have all : ∀ kv ∈ subparserLookup, HelpFor kv.1 kv.2 := by decide +kernel
    exact all _ (dget?_mem h)
  · have h1 : ∀ c ∈ cotCommands, ∀ m ∈ c.title :: c.aliases, dget? subparserLookup m = some c.parser := by decide +kernel
    have h2 : ∀ h ∈ cotHypervisors, ∀ k ∈ h.title :: h.aliases, dget? subparserLookup ("deploy-".toList ++ k) = some h.parser := by
      decide +kernel
    rintro (⟨c, hc, hn, rfl⟩ | ⟨h, hh, k, hk, rfl, rfl⟩)
    · exact h1 c hc n hn
    · exact h2 h hh k hk

theorem lookup_keys {n : Str} : n ∈ dkeys subparserLookup ↔ ∃ P, HelpFor n P := by
  constructor
  · intro h
    obtain ⟨P, hP⟩ := dget?_of_mem_dkeys h
    exact ⟨P, lookup_iff.1 hP⟩
  · rintro ⟨P, hP⟩
    exact List.mem_map.2 ⟨_, dget?_mem (lookup_iff.2 hP), rfl⟩

theorem helpRun_for {n : Str} {P : ArgParser} (h : HelpFor n P) : helpRun (some n) = .ok P := by
  cases n with
  | nil =>
    have : dget? subparserLookup [] = none := by decide +kernel
    rw [lookup_iff.2 h] at this
    cases this
  | cons a r =>
    unfold helpRun
    dsimp only
    rw [lookup_iff.2 h]

/-- the namespace of `help` -/
theorem help_known {g ws : List Str} {gus : List ArgUse} (hg : CmdLine mainParser g gus []) (hws : ∀ w ∈ ws, Word w)
    (hp : ∀ u ∈ gus, ¬ OnlyPrints u.opt) (hnc : NoConflict gus) (hlen : ws.length ≤ 1) :
    ∃ ns, cotParse (g ++ "help".toList :: ws) = .ok ns ∧ Known mainNames helpParser ns := by
  set c : SubCommand := ⟨"help".toList, [], helpParser⟩ with hcd
  have hm : c ∈ cotCommands := by decide +kernel
  have hc : ClearFor mainParser ws := by
    rintro a s b rfl - ⟨-, p, hst, ⟨t, ht⟩, -⟩
    have hs := hws s (by simp)
    rcases hst.2 with rfl | ⟨v, rfl⟩ <;> rcases hs with hs | hs <;> simp [← ht] at hs
  obtain ⟨g1, -⟩ := cotParse_top hg hp hm (name := "help".toList) (.inl rfl) hc
  obtain ⟨st, h1, h2, h3⟩ := help_parse hws
  have hcmd : parseCommand c ws = .ok (setInstance (some "help".toList) st.ns, ws.drop 1) := by
    unfold parseCommand
    rw [if_neg (by decide +kernel)]
    unfold parseLeaf
    rw [h1]
    dsimp only
    rw [h2]
    rfl
  obtain ⟨ns, hns, hcp⟩ := g1 hnc
  rw [hcmd, List.drop_eq_nil_of_le hlen] at hcp
  have hnd : (dkeys (setInstance (some "help".toList) st.ns)).Nodup := by
    apply nodup_dset
    rw [h3]
    exact List.nodup_singleton _
  refine ⟨_, hcp, known_merged hns hnd (fun _ h => h) ?_⟩
  intro k v hv
  by_cases hki : k = "instance".toList
  · subst hki
    exact .inl (List.mem_append_right _ List.mem_cons_self)
  · rw [setInstance_get (Ne.symm hki), h3] at hv
    simp only [dget?] at hv
    split at hv
    · rename_i he
      exact .inr (List.mem_map.2 ⟨_, List.mem_append_left _ List.mem_cons_self, he⟩)
    · cases hv

theorem helpSetattr_other {q q' : Option Str} {b : Str} {v : ArgVal ArgAtom} (hb : b ≠ "subcommand".toList)
    (h : helpSetattr q b v = .ok q') : q' = q := by
  unfold helpSetattr at h
  rw [if_neg hb] at h
  cases h
  rfl

/-- **C130.** `cot … help [command]`, for every such command line and whatever was run before in the process.  With a name: the help of the
command with that name is printed, or of the hypervisor; a text that names none is refused, and nothing is printed.  With more than one word:
a usage error. -/
theorem C130_help_partial {g ws : List Str} {gus : List ArgUse} (hg : CmdLine mainParser g gus []) (hws : ∀ w ∈ ws, Word w)
    (hp : ∀ u ∈ gus, ¬ OnlyPrints u.opt) (q : Option Str) :
    (NoConflict gus → ∀ n, ws = [n] →
      (∀ P, HelpFor n P → helpMain q (g ++ "help".toList :: ws) = (.ok P, some n)) ∧
      ((¬ ∃ P, HelpFor n P) → helpMain q (g ++ "help".toList :: ws) = (.error .invalidInput, q))) ∧
    (NoConflict gus → ws = [] → helpMain q (g ++ "help".toList :: ws) = (helpRun q, q)) ∧
    (¬ (NoConflict gus ∧ ws.length ≤ 1) → helpMain q (g ++ "help".toList :: ws) = (.error .systemExit, q)) := by
  obtain ⟨k1, k2⟩ := C120_help_partial hg hws hp
  have main : NoConflict gus → ws.length ≤ 1 → ∀ v, (∀ ns, cotParse (g ++ "help".toList :: ws) = .ok ns →
      dget? ns "SUBCOMMAND".toList = some v) → cleanArg v = v → ∃ d, Assigned d "subcommand".toList v ∧
      helpMain q (g ++ "help".toList :: ws) = match setAttributes helpSetattr d q with
        | (.error e, q') => (.error e, q')
        | (.ok _, q') => (helpRun q', q') := by
    intro hnc hlen v hv hcl
    obtain ⟨ns, h1, hk⟩ := help_known hg hws hp hnc hlen
    have al := assigned_key hk (key := "SUBCOMMAND".toList) (by decide +kernel) (by decide +kernel) (hv ns h1)
    have l1 : lower "SUBCOMMAND".toList = "subcommand".toList := by decide +kernel
    rw [l1, hcl] at al
    refine ⟨_, al, ?_⟩
    unfold helpMain
    rw [h1]
    dsimp only
    rw [argsToDict_ok hk.own]
    rfl
  refine ⟨?_, ?_, ?_⟩
  · rintro hnc n rfl
    obtain ⟨d, al, hd⟩ := main hnc (by simp) (.one (.text n)) (by
      intro ns h
      obtain ⟨ns', h', -, h2, -⟩ := k1 ⟨hnc, by simp⟩
      rw [h] at h'
      cases h'
      exact h2 n rfl) rfl
    rw [hd]
    cases hs : setAttributes helpSetattr d q with
    | mk r st =>
      obtain ⟨done, rest, e1, e2, e3⟩ := C103_set hs
      constructor
      · intro P hP
        have hok : setHelpSubcommand n = .ok n := by
          unfold setHelpSubcommand
          rw [if_pos (lookup_keys.2 ⟨P, hP⟩)]
        rcases e3 with ⟨rfl, rfl⟩ | ⟨e, a, x, rest', rfl, e4, e5⟩
        · rw [List.append_nil] at e1
          subst e1
          dsimp only
          have kp := assigned_any (F := fun s : Option Str => s) (a := "subcommand".toList)
            (R := fun v x => ∃ t, v = .one (.text t) ∧ x = some t) (fun s s' b v hb hs => helpSetattr_other hb hs) (by
              intro s s' v hs
              unfold helpSetattr at hs
              rw [if_pos rfl] at hs
              obtain ⟨t, x, e, hx, rfl⟩ := storeTextVia_ok hs
              unfold setHelpSubcommand at hx
              split at hx
              · cases hx
                exact ⟨_, e, rfl⟩
              · cases hx) e2 al
          rcases kp with ⟨kp, -⟩ | ⟨-, t, kp, rfl⟩
          · cases kp
          · cases kp
            rw [helpRun_for hP]
        · refine absurd e5 (sets_all (l := Assignments d) ?_ _ done rest st e a x rest' e1 e2 e4)
          intro a v hv s
          unfold helpSetattr
          split
          · rename_i h
            subst h
            obtain ⟨rfl, -⟩ := (al v).1 hv
            unfold storeTextVia
            dsimp only
            rw [hok]
            exact ⟨_, rfl⟩
          · exact ⟨_, rfl⟩
      · intro hno
        have hbad : setHelpSubcommand n = .error .invalidInput := by
          unfold setHelpSubcommand
          rw [if_neg (fun h => hno (lookup_keys.1 h))]
        have none : ∀ s s', helpSetattr s "subcommand".toList (.one (.text n)) ≠ .ok s' := by
          intro s s' h
          unfold helpSetattr at h
          rw [if_pos rfl] at h
          unfold storeTextVia at h
          dsimp only at h
          rw [hbad] at h
          cases h
        have keep : ∀ (l : List (Str × ArgVal ArgAtom)) (s s' : Option Str), (∀ x ∈ l, x ∈ Assignments d) → Sets helpSetattr s l s' →
            s' = s ∧ ∀ x ∈ l, x.1 ≠ "subcommand".toList := by
          intro l s s' hl h
          induction h with
          | nil => exact ⟨rfl, by simp⟩
          | cons h1 _ ih =>
            rename_i a v _ _
            have ha : a ≠ "subcommand".toList := by
              rintro rfl
              obtain ⟨rfl, -⟩ := (al v).1 (hl _ List.mem_cons_self)
              exact none _ _ h1
            obtain ⟨i1, i2⟩ := ih (fun x hx => hl x (List.mem_cons_of_mem _ hx))
            refine ⟨i1.trans (helpSetattr_other ha h1), ?_⟩
            intro x hx
            rcases List.mem_cons.1 hx with rfl | hx
            · exact ha
            · exact i2 x hx
        obtain ⟨s1, s2⟩ := keep done q st (fun x hx => by rw [← e1]; exact List.mem_append_left _ hx) e2
        subst s1
        rcases e3 with ⟨rfl, rfl⟩ | ⟨e, a, x, rest', rfl, e4, e5⟩
        · rw [List.append_nil] at e1
          subst e1
          exact absurd rfl (s2 _ ((al _).2 ⟨rfl, trivial⟩))
        · dsimp only
          unfold helpSetattr at e5
          split at e5
          · rename_i h
            subst h
            obtain ⟨rfl, -⟩ := (al x).1 (by rw [← e1, e4]; simp)
            unfold storeTextVia at e5
            dsimp only at e5
            rw [hbad] at e5
            cases e5
            rfl
          · cases e5
  · rintro hnc rfl
    obtain ⟨d, al, hd⟩ := main hnc (by simp) .absent (by
      intro ns h
      obtain ⟨ns', h', -, -, h2, -⟩ := k1 ⟨hnc, by simp⟩
      rw [h] at h'
      cases h'
      exact h2 rfl) rfl
    rw [hd]
    have noSub : ∀ v, ("subcommand".toList, v) ∉ Assignments d := by
      intro v hv
      obtain ⟨rfl, h⟩ := (al v).1 hv
      exact h
    cases hs : setAttributes helpSetattr d q with
    | mk r st =>
      obtain ⟨done, rest, e1, e2, e3⟩ := C103_set hs
      rcases e3 with ⟨rfl, rfl⟩ | ⟨e, a, x, rest', rfl, e4, e5⟩
      · rw [List.append_nil] at e1
        subst e1
        dsimp only
        have kp := assigned_any (F := fun s : Option Str => s) (a := "subcommand".toList) (R := fun _ _ => True)
          (fun s s' b v hb hs => helpSetattr_other hb hs) (fun _ _ _ _ => trivial) e2 al
        rcases kp with ⟨-, rfl⟩ | ⟨h, -⟩
        · rfl
        · exact h.elim
      · unfold helpSetattr at e5
        split at e5
        · rename_i h
          subst h
          exact absurd (by rw [← e1, e4]; simp) (noSub x)
        · cases e5
  · intro hno
    unfold helpMain
    rw [k2 hno]

/-- **C130 (a new process).** In a new process `cot … help` alone prints the help of the program. -/
theorem C130_alone_partial {g : List Str} {gus : List ArgUse} (hg : CmdLine mainParser g gus []) (hp : ∀ u ∈ gus, ¬ OnlyPrints u.opt)
    (hnc : NoConflict gus) : helpMain none (g ++ ["help".toList]) = (.ok mainParser, none) :=
  (C130_help_partial hg (ws := []) (by simp) hp none).2.1 hnc rfl

/-- **C130 (every command has its help).** Whatever name the command line takes for a command, `help` with that name prints the help of the
parser that is used for that command. -/
theorem C130_every {name : Str} {c : SubCommand} (h : subCommand cotCommands name = some c) (q : Option Str) :
    helpMain q ["help".toList, name] = (.ok c.parser, some name) := by
  have hc := List.mem_of_find?_eq_some h
  have hn : name ∈ c.title :: c.aliases := by
    have := List.find?_some h
    simpa [List.mem_cons] using this
  have words : ∀ c ∈ cotCommands, ∀ n ∈ c.title :: c.aliases, n.head? ≠ some '-' := by decide +kernel
  exact ((C130_help_partial .done (ws := [name]) (fun w hw => by rw [List.mem_singleton.1 hw]; exact .inr (words c hc name hn)) (by simp) q).1 (by simp [NoConflict]) name rfl).1 c.parser
    (.inl ⟨c, hc, hn, rfl⟩)

/-- **C130 fails** for a second run of the same CLI object: after `help info`, `help` alone prints the help of `info` once more, not that of
the program, as the attribute is not set back. -/
theorem C130_again_fails : ∃ q P, helpMain none ["help".toList, "info".toList] = (.ok P, q) ∧ P ≠ mainParser ∧
    helpMain q ["help".toList] = (.ok P, q) := by
  refine ⟨some "info".toList, infoParser, C130_every (c := ⟨"info".toList, ["describe".toList], infoParser⟩) (by decide +kernel) none,
    by decide +kernel, ?_⟩
  have := (C130_help_partial .done (ws := []) (by simp) (by simp) (some "info".toList)).2.1 (by simp [NoConflict]) rfl
  have e : helpRun (some "info".toList) = .ok infoParser := helpRun_for (by decide +kernel)
  rw [e] at this
  exact this

/-! ### Examples -/

/-- `cot -f help deploy-vcenter` after another run -/
example : helpMain (some "info".toList) (["-f".toList] ++ "help".toList :: ["deploy-vcenter".toList]) =
    (.ok esxiParser, some "deploy-vcenter".toList) :=
  ((C130_help_partial exGlobal (ws := ["deploy-vcenter".toList]) (by decide) (by simp [OnlyPrints, exForce, flagOpt]) _).1
    (by simp [NoConflict]) _ rfl).1 _ (by decide +kernel)

/-- the name of a hypervisor without prefix is refused -/
example : helpMain none ([] ++ "help".toList :: ["esxi".toList]) = (.error .invalidInput, none) := by
  refine ((C130_help_partial .done (ws := ["esxi".toList]) (by decide) (by simp) _).1 (by simp [NoConflict]) _ rfl).2 ?_
  rw [← lookup_keys]
  decide +kernel

example : helpMain none ([] ++ "help".toList :: ["info".toList, "deploy".toList]) = (.error .systemExit, none) :=
  (C130_help_partial .done (ws := ["info".toList, "deploy".toList]) (by decide) (by simp) _).2.2 (by simp)

end Cot
