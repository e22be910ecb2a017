import Verif.Spec.InfoCommand
import Verif.Props.InfoReport
import Verif.Props.CommandProps
/-
C128: `cot info` tells about the packages that its command line names, in the way that it asks for.
-/
namespace Cot

def infoBrief : ArgOpt :=
  { flags := ["-b".toList, "--brief".toList], dest := "verbosity".toList, num := .zero, act := .setConst "brief".toList, group := 1 }

def infoVerbose : ArgOpt :=
  { flags := ["-v".toList, "--verbose".toList], dest := "verbosity".toList, num := .zero, act := .setConst "verbose".toList, group := 1 }

/-- the namespace of `info` -/
theorem info_known {name : Str} (hn : name = "info".toList ∨ name = "describe".toList) {g a b ws : List Str} {gus ua ub : List ArgUse}
    (hg : CmdLine mainParser g gus []) (ha : CmdLine infoParser a ua []) (hb : CmdLine infoParser b ub []) (hws : ∀ w ∈ ws, Word w)
    (hne : ws ≠ []) (hp : ∀ u ∈ gus ++ (ua ++ ub), ¬ OnlyPrints u.opt) (hc : ClearFor mainParser (a ++ ws ++ b)) (hnc : NoConflict gus)
    (hr : NoConflict (ua ++ ub)) : ∃ ns, cotParse (g ++ name :: (a ++ ws ++ b)) = .ok ns ∧ Known mainNames infoParser ns := by
  set c : SubCommand := ⟨"info".toList, ["describe".toList], infoParser⟩ with hcd
  have hm : c ∈ cotCommands := by decide +kernel
  obtain ⟨t1, t2, -, -⟩ := cot_tables c hm
  obtain ⟨g1, -⟩ := cotParse_top hg (fun u hu => hp u (List.mem_append_left _ hu)) hm (name := name) (by simpa [hcd] using hn) hc
  obtain ⟨k1, -⟩ := argParse_block (P := infoParser) (p := { flags := [], dest := "PACKAGE_LIST".toList, num := .plus })
    (optsOkB_sound t1) (by decide +kernel) rfl rfl ha hb hws hne (fun u hu => hp u (List.mem_append_right _ hu))
  have hcmd : parseCommand c (a ++ ws ++ b) = parseLeaf "info".toList infoParser (a ++ ws ++ b) := by
    unfold parseCommand
    rw [if_neg (by decide +kernel)]
  obtain ⟨ns, hns, hcp⟩ := g1 hnc
  obtain ⟨st, hst, s1, s2, s3⟩ := k1 hr
  have hleaf : parseLeaf "info".toList infoParser (a ++ ws ++ b) = .ok (setInstance (some "info".toList) st.ns, []) := by
    unfold parseLeaf
    rw [hst]
    dsimp only
    rw [s1]
    rfl
  rw [hcmd, hleaf] at hcp
  refine ⟨_, hcp, known_merged hns (nodup_dset s2.nodup) (fun _ h => h) ?_⟩
  intro k v hv
  by_cases hki : k = "instance".toList
  · subst hki
    exact .inl (List.mem_append_right _ List.mem_cons_self)
  · by_contra hcon
    rw [not_or] at hcon
    rw [setInstance_get (Ne.symm hki), s2.other k (fun o ho he => hcon.2 (List.mem_map.2 ⟨o, ho, he⟩))] at hv
    cases hv

/-- an accepted line asks for one verbosity -/
theorem asks_of_last {us : List ArgUse} (hus : ∀ u ∈ us, u.opt ∈ infoParser.opts) (hp : ∀ u ∈ us, ¬ OnlyPrints u.opt) (hr : NoConflict us) :
    (usesFor "verbosity".toList us = [] → AsksVerbosity us .normal) ∧
    ∀ u s, (usesFor "verbosity".toList us).getLast? = some u → u.opt.act = .setConst s →
      (s = "brief".toList ∧ AsksVerbosity us .brief) ∨ (s = "verbose".toList ∧ AsksVerbosity us .verbose) := by
  have two : ∀ u ∈ us, u.opt = infoBrief ∨ u.opt = infoVerbose := by
    intro u hu
    have h := hus u hu
    have e : infoParser.opts = [helpOpt, infoBrief, infoVerbose] := rfl
    rw [e] at h
    simp only [List.mem_cons, List.not_mem_nil, or_false] at h
    rcases h with h | h | h
    · exact absurd (by rw [h]; exact .inl rfl) (hp u hu)
    · exact .inl h
    · exact .inr h
  have flag : ∀ f : String, withFlag f us ≠ [] ↔ ∃ u ∈ us, f.toList ∈ u.opt.flags := by
    intro f
    unfold withFlag
    rw [Ne, List.map_eq_nil_iff, List.filter_eq_nil_iff]
    push Not
    simp
  have hb : withFlag "--brief" us ≠ [] ↔ ∃ u ∈ us, u.opt = infoBrief := by
    rw [flag]
    constructor
    · rintro ⟨u, hu, hf⟩
      rcases two u hu with h | h
      · exact ⟨u, hu, h⟩
      · rw [h] at hf
        exact absurd hf (by decide)
    · rintro ⟨u, hu, h⟩
      exact ⟨u, hu, by rw [h]; decide⟩
  have hv : withFlag "--verbose" us ≠ [] ↔ ∃ u ∈ us, u.opt = infoVerbose := by
    rw [flag]
    constructor
    · rintro ⟨u, hu, hf⟩
      rcases two u hu with h | h
      · rw [h] at hf
        exact absurd hf (by decide)
      · exact ⟨u, hu, h⟩
    · rintro ⟨u, hu, h⟩
      exact ⟨u, hu, by rw [h]; decide⟩
  have same : ∀ u ∈ us, ∀ u' ∈ us, u.opt.flags = u'.opt.flags := by
    intro u hu u' hu'
    have grp : ∀ x ∈ us, x.opt.group = 1 := by
      intro x hx
      rcases two x hx with h | h <;> rw [h] <;> rfl
    have hr' : us.Pairwise (fun u w => u.opt.flags = w.opt.flags) := by
      refine hr.imp_of_mem ?_
      intro x y hx hy hxy
      exact hxy (by rw [grp x hx]; decide) (by rw [grp x hx, grp y hy])
    have : Std.Symm (fun u w : ArgUse => u.opt.flags = w.opt.flags) := ⟨fun _ _ h => h.symm⟩
    by_cases he : u = u'
    · rw [he]
    · exact hr'.forall hu hu' he
  have notboth : ¬ ((∃ u ∈ us, u.opt = infoBrief) ∧ ∃ u ∈ us, u.opt = infoVerbose) := by
    rintro ⟨⟨u, hu, h⟩, u', hu', h'⟩
    have := same u hu u' hu'
    rw [h, h'] at this
    exact absurd this (by decide)
  constructor
  · intro hno
    have none : ∀ u ∈ us, False := by
      intro u hu
      have := List.filter_eq_nil_iff.1 hno u hu
      rcases two u hu with h | h <;> rw [h] at this <;> exact this (by decide)
    unfold AsksVerbosity
    rw [hb, hv]
    exact ⟨⟨nofun, fun ⟨u, hu, _⟩ => (none u hu).elim⟩, ⟨nofun, fun ⟨u, hu, _⟩ => (none u hu).elim⟩⟩
  · intro u s hl hact
    have hu : u ∈ us := List.mem_of_mem_filter (List.mem_of_getLast? hl)
    unfold AsksVerbosity
    rw [hb, hv]
    rcases two u hu with h | h
    · left
      rw [h] at hact
      cases hact
      exact ⟨rfl, ⟨fun _ => ⟨u, hu, h⟩, fun _ => rfl⟩, ⟨nofun, fun h' => absurd ⟨⟨u, hu, h⟩, h'⟩ notboth⟩⟩
    · right
      rw [h] at hact
      cases hact
      exact ⟨rfl, ⟨nofun, fun h' => absurd ⟨h', ⟨u, hu, h⟩⟩ notboth⟩, ⟨fun _ => ⟨u, hu, h⟩, fun _ => rfl⟩⟩

/-- **C128.** `cot … info [options] PACKAGE… [options]`, for every such command line, all packages and every terminal: with both `--brief` and
`--verbose` it is a usage error, and nothing is printed; otherwise it does what `cot info` does (C94) with exactly the packages named, in
their order, and with the verbosity asked for. -/
theorem C128_info_partial {exist : Str → Bool} {load : Str → Except Err InfoVM} {w : InfoWorld} {name : Str}
    (hn : name = "info".toList ∨ name = "describe".toList) {g a b ws : List Str} {gus ua ub : List ArgUse}
    (hg : CmdLine mainParser g gus []) (ha : CmdLine infoParser a ua []) (hb : CmdLine infoParser b ub []) (hws : ∀ w ∈ ws, Word w)
    (hne : ws ≠ []) (hp : ∀ u ∈ gus ++ (ua ++ ub), ¬ OnlyPrints u.opt) (hc : ClearFor mainParser (a ++ ws ++ b)) :
    (NoConflict gus ∧ NoConflict (ua ++ ub) → ∃ vb, AsksVerbosity (ua ++ ub) vb ∧
      infoMain exist load w (g ++ name :: (a ++ ws ++ b)) = infoRun exist load w vb ws) ∧
    (¬ (NoConflict gus ∧ NoConflict (ua ++ ub)) → infoMain exist load w (g ++ name :: (a ++ ws ++ b)) = ([], some .systemExit)) := by
  obtain ⟨k1, k2⟩ := C120_info_partial hn hg ha hb hws hne hp hc
  constructor
  · rintro ⟨hnc, hr⟩
    obtain ⟨ns, h1, h2, -, h3, -⟩ := k1 ⟨hnc, hr⟩
    obtain ⟨ns', h1', hk⟩ := info_known hn hg ha hb hws hne hp hc hnc hr
    rw [h1] at h1'
    cases h1'
    have hus : ∀ u ∈ ua ++ ub, u.opt ∈ infoParser.opts := by
      intro u hu
      rcases List.mem_append.1 hu with hu | hu
      · exact (uses_ok (by decide +kernel) ha u hu).1
      · exact (uses_ok (by decide +kernel) hb u hu).1
    obtain ⟨q1, q2⟩ := asks_of_last hus (fun u hu => hp u (List.mem_append_right _ hu)) hr
    obtain ⟨v, v1, v2⟩ := h2.opts infoBrief (by decide +kernel) (by unfold OnlyPrints; decide)
    have hd := argsToDict_ok hk.own
    have al : Assigned ((ns.filter (fun kv => decide (kv.1 ∉ ownNames))).map (fun kv => (kv.1, cleanArg kv.2))) "package_list".toList
        (.list (ws.map (fun w => .one (.text w)))) := by
      have key := assigned_key hk (key := "PACKAGE_LIST".toList) (by decide +kernel) (by decide +kernel) h3
      have l1 : lower "PACKAGE_LIST".toList = "package_list".toList := by decide +kernel
      rw [l1] at key
      have l2 : cleanArg (.list (ws.map (fun w => ArgElem.one (ArgAtom.text w)))) = .list (ws.map (fun w => .one (.text w))) := by
        cases ws with
        | nil => exact absurd rfl hne
        | cons x r => rfl
      rw [l2] at key
      exact key
    have av := assigned_opt hk (by decide +kernel) (o := infoBrief) (by decide +kernel) (by decide) v1
    generalize (ns.filter (fun kv => decide (kv.1 ∉ ownNames))).map (fun kv => (kv.1, cleanArg kv.2)) = d at hd al av
    have keepP : ∀ (s s' : InfoCmd) (b : Str) (v : ArgVal ArgAtom), b ≠ "package_list".toList → infoSetattr exist s b v = .ok s' →
        s'.packages = s.packages := by
      intro s s' b v hb hs
      unfold infoSetattr at hs
      rw [if_neg hb] at hs
      split at hs
      · obtain ⟨t, x, -, -, rfl⟩ := storeTextVia_ok hs
        rfl
      · cases hs
        rfl
    have keepV : ∀ (s s' : InfoCmd) (b : Str) (v : ArgVal ArgAtom), b ≠ "verbosity".toList → infoSetattr exist s b v = .ok s' →
        s'.verbosity = s.verbosity := by
      intro s s' b v hb hs
      unfold infoSetattr at hs
      split at hs
      · obtain ⟨t, x, -, -, rfl⟩ := storeListVia_ok hs
        rfl
      · cases hs
        rfl
    have hverb : ∃ vb, AsksVerbosity (ua ++ ub) vb ∧ ((cleanArg v = .absent ∧ vb = .normal) ∨
        ∃ t, cleanArg v = .one (.text t) ∧ setInfoVerbosity t = .ok vb) := by
      rcases v2 with ⟨e1, rfl⟩ | ⟨u, s, e1, e2, rfl⟩
      · exact ⟨.normal, q1 e1, .inl ⟨rfl, rfl⟩⟩
      · rcases q2 u s e1 e2 with ⟨rfl, e3⟩ | ⟨rfl, e3⟩
        · exact ⟨.brief, e3, .inr ⟨_, rfl, rfl⟩⟩
        · exact ⟨.verbose, e3, .inr ⟨_, rfl, rfl⟩⟩
    obtain ⟨vb, w1, w2⟩ := hverb
    refine ⟨vb, w1, ?_⟩
    have ev : ∀ e, ws.all exist = true → ∀ a v s, (a, v) ∈ Assignments d → infoSetattr exist s a v ≠ .error e := by
      intro e hall a x s hx he
      unfold infoSetattr at he
      split at he
      · rename_i hs
        subst hs
        obtain ⟨rfl, -⟩ := (al x).1 hx
        unfold storeListVia at he
        dsimp only at he
        rw [argTexts_ok.2 rfl] at he
        dsimp only at he
        unfold setPackageList at he
        rw [if_neg (by rw [hall]; decide)] at he
        cases he
      · split at he
        · rename_i hs
          subst hs
          obtain ⟨rfl, hgv⟩ := (av x).1 hx
          rcases w2 with ⟨w2, -⟩ | ⟨t, w2, w3⟩
          · rw [w2] at hgv
            exact hgv
          · rw [w2] at he
            unfold storeTextVia at he
            dsimp only at he
            rw [w3] at he
            cases he
        · cases he
    unfold infoMain
    rw [h1]
    dsimp only
    rw [hd]
    dsimp only
    cases hs : setAttributes (infoSetattr exist) d {} with
    | mk r st =>
      obtain ⟨done, rest, e1, e2, e3⟩ := C103_set hs
      rcases e3 with ⟨rfl, rfl⟩ | ⟨e, a, x, rest', rfl, e4, e5⟩
      · rw [List.append_nil] at e1
        subst e1
        dsimp only
        have kp := assigned_any (F := fun s : InfoCmd => s.packages) (a := "package_list".toList)
          (R := fun v x => v = .list (x.map (fun t => .one (.text t)))) keepP (by
            intro s s' v hs
            unfold infoSetattr at hs
            rw [if_pos rfl] at hs
            obtain ⟨t, x, e, hx, rfl⟩ := storeListVia_ok hs
            unfold setPackageList at hx
            split at hx
            · cases hx
            · cases hx
              exact e) e2 al
        have kv := assigned_any (F := fun s : InfoCmd => s.verbosity) (a := "verbosity".toList)
          (R := fun v x => ∃ t, v = .one (.text t) ∧ setInfoVerbosity t = .ok x) keepV (by
            intro s s' v hs
            unfold infoSetattr at hs
            rw [if_neg (by decide), if_pos rfl] at hs
            obtain ⟨t, x, e, hx, rfl⟩ := storeTextVia_ok hs
            exact ⟨t, e, hx⟩) e2 av
        have hpk : st.packages = ws := by
          rcases kp with ⟨kp, -⟩ | ⟨-, kp⟩
          · cases kp
          · injection kp with kp
            exact ((List.map_injective_iff.2 (fun x y h => by injection h with h; injection h)) kp).symm
        have hvb : st.verbosity = vb := by
          rcases kv with ⟨kv, kv'⟩ | ⟨kg, t, kv, kv'⟩
          · rcases w2 with ⟨-, rfl⟩ | ⟨t, w2, -⟩
            · exact kv'
            · rw [w2] at kv
              cases kv
          · rcases w2 with ⟨w2, -⟩ | ⟨t', w2, w3⟩
            · rw [w2] at kv
              cases kv
            · rw [w2] at kv
              cases kv
              rw [w3] at kv'
              cases kv'
              rfl
        rw [hpk, hvb]
      · dsimp only
        have hall : ws.all exist = false := by
          cases hx : ws.all exist with
          | false => rfl
          | true => exact absurd e5 (ev e hx a x st (by rw [← e1, e4]; simp))
        have he : e = .invalidInput := by
          unfold infoSetattr at e5
          have hm : (a, x) ∈ Assignments d := by rw [← e1, e4]; simp
          split at e5
          · rename_i hs
            subst hs
            obtain ⟨rfl, -⟩ := (al x).1 hm
            unfold storeListVia at e5
            dsimp only at e5
            rw [argTexts_ok.2 rfl] at e5
            dsimp only at e5
            unfold setPackageList at e5
            rw [if_pos hall] at e5
            cases e5
            rfl
          · split at e5
            · rename_i hs
              subst hs
              obtain ⟨rfl, hgv⟩ := (av x).1 hm
              rcases w2 with ⟨w2, -⟩ | ⟨t, w2, w3⟩
              · rw [w2] at hgv
                exact hgv.elim
              · rw [w2] at e5
                unfold storeTextVia at e5
                dsimp only at e5
                rw [w3] at e5
                cases e5
            · cases e5
        unfold infoRun
        rw [if_pos hall, he]
  · intro hno
    unfold infoMain
    rw [k2 hno]

/-- **C128, what is printed.** With packages that exist, all of them are told in the order of the command line, with the verbosity it asks
for and an empty line between any two, up to the first that fails otherwise than by not being a virtual machine description. -/
theorem C128_told_partial {exist : Str → Bool} {load : Str → Except Err InfoVM} {w : InfoWorld} {name : Str}
    (hn : name = "info".toList ∨ name = "describe".toList) {g a b ws : List Str} {gus ua ub : List ArgUse}
    (hg : CmdLine mainParser g gus []) (ha : CmdLine infoParser a ua []) (hb : CmdLine infoParser b ub []) (hws : ∀ w ∈ ws, Word w)
    (hne : ws ≠ []) (hp : ∀ u ∈ gus ++ (ua ++ ub), ¬ OnlyPrints u.opt) (hc : ClearFor mainParser (a ++ ws ++ b)) (hnc : NoConflict gus)
    (hr : NoConflict (ua ++ ub)) (hex : ∀ p ∈ ws, exist p = true) : ∃ vb, AsksVerbosity (ua ++ ub) vb ∧
    ((∃ outs, infoMain exist load w (g ++ name :: (a ++ ws ++ b)) = (blankBetween outs, none) ∧ List.Forall₂ (ToldOf load w vb) ws outs) ∨
     (∃ pre p post outs e, ws = pre ++ p :: post ∧ List.Forall₂ (ToldOf load w vb) pre outs ∧
      infoText load w vb p = .error e ∧ e ≠ .vmInitError ∧
      infoMain exist load w (g ++ name :: (a ++ ws ++ b)) = (blankBetween outs ++ (if pre = [] then [] else [.line []]), some e))) := by
  obtain ⟨vb, h1, h2⟩ := (C128_info_partial (exist := exist) (load := load) (w := w) hn hg ha hb hws hne hp hc).1 ⟨hnc, hr⟩
  refine ⟨vb, h1, ?_⟩
  rw [h2]
  exact C94_packages hex hne

/-! ### Examples -/

theorem infoBrief_line : CmdLine infoParser ["-b".toList] [⟨infoBrief, []⟩] [] :=
  .flag (s := "-b".toList) (by decide +kernel) (by simp) (by rfl) (by simp [TakesMore, infoBrief]) .done rfl

theorem infoVerbose_line : CmdLine infoParser ["--verb".toList] [⟨infoVerbose, []⟩] [] :=
  .flag (s := "--verb".toList) (by decide +kernel) (by simp) (by rfl) (by simp [TakesMore, infoVerbose]) .done rfl

/-- `cot describe a.ova b.ova --verb` is verbose about a.ova and b.ova -/
example (exist : Str → Bool) (load : Str → Except Err InfoVM) (w : InfoWorld) :
    infoMain exist load w ([] ++ "describe".toList :: ([] ++ ["a.ova".toList, "b.ova".toList] ++ ["--verb".toList])) =
      infoRun exist load w .verbose ["a.ova".toList, "b.ova".toList] := by
  obtain ⟨vb, h1, h2⟩ := (C128_info_partial (exist := exist) (load := load) (w := w) (.inr rfl) .done .done infoVerbose_line
    (ws := ["a.ova".toList, "b.ova".toList]) (by decide) (by simp) (by simp [OnlyPrints, infoVerbose])
    (clear_of_isOk main_top.opts.flags (by decide +kernel))).1 ⟨by simp [NoConflict], by simp [NoConflict]⟩
  rw [h1.2.2 (by decide +kernel)] at h2
  exact h2

/-- `cot info -b a.ova --verb` is refused -/
example (exist : Str → Bool) (load : Str → Except Err InfoVM) (w : InfoWorld) :
    infoMain exist load w ([] ++ "info".toList :: (["-b".toList] ++ ["a.ova".toList] ++ ["--verb".toList])) = ([], some .systemExit) := by
  refine (C128_info_partial (.inl rfl) .done infoBrief_line infoVerbose_line (ws := ["a.ova".toList]) (by decide) (by simp)
    (by simp [OnlyPrints, infoBrief, infoVerbose]) (clear_of_isOk main_top.opts.flags (by decide +kernel))).2 ?_
  rintro ⟨-, h⟩
  simp [NoConflict, infoBrief, infoVerbose] at h

/-- three packages, of which the second is no virtual machine description: the other two are told -/
example : (infoMain (fun _ => true) exLoad exInfoWorld ([] ++ "info".toList :: (["-b".toList] ++ ["a.ovf".toList, "b.vmx".toList, "c.ovf".toList] ++ []))) =
    infoRun (fun _ => true) exLoad exInfoWorld .brief ["a.ovf".toList, "b.vmx".toList, "c.ovf".toList] ∧
    (infoRun (fun _ => true) exLoad exInfoWorld .brief ["a.ovf".toList, "b.vmx".toList, "c.ovf".toList]).1.length = 5 :=
  ⟨rfl, by decide +kernel⟩

end Cot
