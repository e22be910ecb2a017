import Verif.Props.CommandFiles
import Verif.Props.EhCommand
import Verif.Props.InjectConfigCases
/-
C125: command lines that meet the hypotheses of the theorems.
-/
namespace Cot

theorem ok_of_isOk {ε α : Type} {x : Except ε α} (h : x.isOk = true) : ∃ a, x = .ok a := by
  cases x with
  | error e => cases h
  | ok a => exact ⟨a, rfl⟩

/-- none of the options only prints something -/
theorem noPrints {us : List ArgUse} (h : ∀ o ∈ us.map ArgUse.opt, o.act ≠ .help ∧ o.act ≠ .version) : ∀ u ∈ us, ¬ OnlyPrints u.opt := by
  intro u hu
  have := h _ (List.mem_map_of_mem hu)
  rintro (h' | h')
  · exact this.1 h'
  · exact this.2 h'

/-- a use of an option with one text -/
theorem CmdLine.text1 {P : ArgParser} {s v : Str} {flags : List Str} {dest : Str} {l : List Str} {us : List ArgUse} {ws : List Str}
    (hs : NamesOpt P s (textOpt flags dest)) (hv : Word v) (h : CmdLine P l us ws) :
    CmdLine P (s :: v :: l) (⟨textOpt flags dest, [v]⟩ :: us) ws :=
  .flag (vals := [v]) hs (by simpa using hv) (by rfl) (by simp [TakesMore, textOpt]) h rfl

/-! ### edit-product -/

def exProductUses : List ArgUse :=
  [⟨textOpt ["-n".toList, "--vendor".toList] "vendor".toList, ["X".toList]⟩, ⟨textOpt ["-n".toList, "--vendor".toList] "vendor".toList, ["Cisco".toList]⟩,
   ⟨textOpt ["-v".toList, "--version".toList] "version".toList, ["2".toList]⟩, ⟨outputOpt, ["b.ovf".toList]⟩]

theorem exProductLine_ok : CmdLine editProductParser
    ["a.ovf".toList, "--vendor".toList, "X".toList, "-n".toList, "Cisco".toList, "-v".toList, "2".toList, "-o".toList, "b.ovf".toList]
    exProductUses ["a.ovf".toList] :=
  .word (by decide) (.text1 (by decide +kernel) (by decide) (.text1 (by decide +kernel) (by decide) (.text1 (by decide +kernel) (by decide)
    (.text1 (by decide +kernel) (by decide) .done))))

/-- `cot -f edit-product a.ovf --vendor X -n Cisco -v 2 -o b.ovf`: the last vendor counts -/
example : ∃ cmd vs', productMain exEhFiles .v1 (["-f".toList] ++ "edit-product".toList ::
      ["a.ovf".toList, "--vendor".toList, "X".toList, "-n".toList, "Cisco".toList, "-v".toList, "2".toList, "-o".toList, "b.ovf".toList]) exProdVs =
      .ok (cmd, vs') ∧ cmd.package = some "a.ovf".toList ∧ cmd.output = some "b.ovf".toList ∧
    getField .v1 vs' .vendor = .ok (some "Cisco".toList) ∧ getField .v1 vs' .version = .ok (some "2".toList) ∧
    getProductClass .v1 vs' = .ok (some "com.cisco.iosv".toList) := by
  have hp : ∀ u ∈ [(⟨exForce, []⟩ : ArgUse)] ++ exProductUses, ¬ OnlyPrints u.opt := noPrints (by decide +kernel)
  have ha := clear_of_isOk (P := mainParser) (l := ["a.ovf".toList, "--vendor".toList, "X".toList, "-n".toList, "Cisco".toList, "-v".toList,
    "2".toList, "-o".toList, "b.ovf".toList]) main_top.opts.flags (by decide +kernel)
  obtain ⟨⟨cmd, vs'⟩, h⟩ := C125_product_runs_partial (f := exEhFiles) (v := .v1) (by decide) (name := "edit-product".toList) (.inl rfl) exGlobal
    exProductLine_ok hp ha (by unfold NoConflict; simp [exForce, flagOpt]) (by
      refine ⟨rfl, ?_, ?_⟩
      · intro u hu s hs
        have hs' : s ∈ u.texts := hs
        unfold exProductUses at hu
        simp only [List.mem_cons, List.not_mem_nil, or_false] at hu
        rcases hu with rfl | rfl | rfl | rfl <;> exact ⟨.text s, rfl, by rintro cs ⟨⟩⟩
      · unfold NoConflict
        simp [exProductUses, outputOpt, textOpt]) (fun _ _ => rfl) (fun _ _ => rfl) exProdVs_wf
    (.inr ⟨.version, "2".toList, by decide +kernel, by decide⟩)
  obtain ⟨⟨p, hw, pl⟩, hf, hc, -⟩ := C125_product_partial (by decide) (.inl rfl) exGlobal exProductLine_ok hp ha exProdVs_wf h
  cases hw
  refine ⟨cmd, vs', h, pl.package, ?_, ?_, ?_, ?_⟩
  · rw [pl.output]; decide +kernel
  · rw [hf .vendor, show lastGiven (productFlag .vendor) exProductUses = some "Cisco".toList by decide +kernel]
  · rw [hf .version, show lastGiven (productFlag .version) exProductUses = some "2".toList by decide +kernel]
  · rw [hc, show lastGiven "--product-class" exProductUses = none by decide +kernel]
    rfl

/-! ### edit-properties -/

def exPropUses : List ArgUse :=
  [⟨listOpt ["-p".toList, "--properties".toList] "properties".toList, ["login=xyz".toList, "ssh=yes+boolean".toList]⟩,
   ⟨listOpt ["-l".toList, "--labels".toList] "labels".toList, ["Login".toList, "SSH".toList]⟩,
   ⟨listOpt ["-t".toList, "--transports".toList] "transports".toList, ["iso".toList]⟩]

/-- `a.ovf -p login=xyz ssh=yes+boolean -l Login SSH -t iso` -/
def exPropLine : List Str := ["a.ovf".toList, "-p".toList, "login=xyz".toList, "ssh=yes+boolean".toList, "-l".toList, "Login".toList, "SSH".toList,
  "-t".toList, "iso".toList]

theorem exPropLine_ok : CmdLine editPropertiesParser exPropLine exPropUses ["a.ovf".toList] := by
  refine .word (by decide) (.flag (s := "-p".toList) (vals := ["login=xyz".toList, "ssh=yes+boolean".toList]) (by decide +kernel) (by decide)
    (by simp [FitsNum, listOpt]) (fun _ => by simp [StartsWithWord, Word]) ?_ rfl)
  refine .flag (s := "-l".toList) (vals := ["Login".toList, "SSH".toList]) (by decide +kernel) (by decide) (by simp [FitsNum, listOpt])
    (fun _ => by simp [StartsWithWord, Word]) ?_ rfl
  exact .flag (s := "-t".toList) (vals := ["iso".toList]) (by decide +kernel) (by decide) (by simp [FitsNum, listOpt])
    (fun _ => by simp [StartsWithWord]) .done rfl

theorem exPropRuns : ∃ r, propsMain exEhFiles (fun _ => none) .v1 (fun _ => true) false [] (["-f".toList] ++ "set-properties".toList :: exPropLine) exVs
    (some exHws) = some (.ok r) := by
  have : (match propsMain exEhFiles (fun _ => none) .v1 (fun _ => true) false [] (["-f".toList] ++ "set-properties".toList :: exPropLine) exVs
    (some exHws) with
    | some x => x.isOk
    | none => false) = true := by decide +kernel
  split at this
  · rename_i x hx
    obtain ⟨r, rfl⟩ := ok_of_isOk this
    exact ⟨r, hx⟩
  · cases this

/-- the property "login" has the value of the command line afterwards -/
example : ∃ cmd vs' hws' p, propsMain exEhFiles (fun _ => none) .v1 (fun _ => true) false [] (["-f".toList] ++ "set-properties".toList :: exPropLine)
    exVs (some exHws) = some (.ok (cmd, vs', hws')) ∧ cmd.package = some "a.ovf".toList ∧ PropIs .v1 vs' "login".toList p ∧
      TextIs p (ovfTag .v1 "Label".toList) (some "Login".toList) := by
  obtain ⟨⟨cmd, vs', hws'⟩, h⟩ := exPropRuns
  have hp : ∀ u ∈ [(⟨exForce, []⟩ : ArgUse)] ++ exPropUses, ¬ OnlyPrints u.opt := noPrints (by decide +kernel)
  have ha := clear_of_isOk (P := mainParser) (l := exPropLine) main_top.opts.flags (by decide +kernel)
  have hn : "set-properties".toList = propsCmd.title ∨ "set-properties".toList ∈ propsCmd.aliases := .inr (by decide +kernel)
  obtain ⟨⟨p, hw, pl⟩, -⟩ := C125_properties_partial hn exGlobal exPropLine_ok hp ha h
  cases hw
  obtain ⟨p, h1, -, -, h2, -⟩ := C125_value_partial (by decide) hn exGlobal exPropLine_ok hp ha exVs_wf' h (by decide +kernel)
    (before := []) (after := ["ssh=yes+boolean".toList]) (s := "login=xyz".toList) (k := "login".toList) (x := "xyz".toList) (t := none) (by decide +kernel)
    ((C33_unambiguous (by decide +kernel) _ _ _).1 (by decide +kernel)) (by
      intro s' hs x t hx
      rw [List.mem_singleton] at hs
      subst hs
      have h1 := (C33_unambiguous (by decide +kernel) _ _ _).2 hx
      rw [show parseProperty "ssh=yes+boolean".toList = .ok ("ssh".toList, some "yes".toList, some "boolean".toList) by decide +kernel] at h1
      have h2 : "ssh".toList = "login".toList := congrArg Prod.fst (Except.ok.inj h1)
      exact absurd h2 (by decide))
  exact ⟨cmd, vs', hws', p, h, pl.package, h1, h2 "Login".toList (by decide +kernel)⟩

/-! ### add-file -/

def exAddFileUses : List ArgUse := [⟨textOpt ["-f".toList, "--file-id".toList] "file_id".toList, ["iso".toList]⟩]

theorem exAddFileLine : CmdLine addFileParser ["new.iso".toList, "-f".toList, "iso".toList, "a.ovf".toList] exAddFileUses
    ["new.iso".toList, "a.ovf".toList] :=
  .word (by decide) (.text1 (by decide +kernel) (by decide) (.word (by decide) .done))

/-- `cot add-file new.iso -f iso a.ovf`, for a package that has a file with the identifier "iso" -/
example : ∃ cmd p' e, addFileMain exEhFiles (fun s => decide (s = "new.iso".toList)) exCtx (fun _ => true)
      ([] ++ "add-file".toList :: ["new.iso".toList, "-f".toList, "iso".toList, "a.ovf".toList]) exPkg = .ok (cmd, p') ∧
    cmd.package = some "a.ovf".toList ∧ e ∈ p'.refs.children ∧ FileSays .v1 e "iso".toList "new.iso".toList 3 := by
  obtain ⟨⟨cmd, p'⟩, h⟩ := ok_of_isOk (x := addFileMain exEhFiles (fun s => decide (s = "new.iso".toList)) exCtx (fun _ => true)
      ([] ++ "add-file".toList :: ["new.iso".toList, "-f".toList, "iso".toList, "a.ovf".toList]) exPkg) (by decide +kernel)
  obtain ⟨file, pkg, hw, pl, -, -, b, e, id, h1, h2, h3, h4, -⟩ := C125_add_file_partial .done exAddFileLine (noPrints (by decide +kernel))
    (clear_of_isOk main_top.opts.flags (by decide +kernel)) exDiskHw_wf h
  cases hw
  cases h4 "iso".toList (by decide +kernel)
  have : b = [1, 2, 3] := Option.some.inj (h1.symm.trans (by decide +kernel))
  subst this
  exact ⟨cmd, p', e, h, pl.package, h2, h3⟩

/-! ### remove-file -/

def exRemoveUses : List ArgUse := [⟨textOpt ["-f".toList, "--file-path".toList] "file_path".toList, ["c.iso".toList]⟩]

theorem exRemoveLine : CmdLine removeFileParser ["a.ovf".toList, "--file-path".toList, "c.iso".toList] exRemoveUses ["a.ovf".toList] :=
  .word (by decide) (.text1 (by decide +kernel) (by decide) .done)

/-- `cot delete-file a.ovf --file-path c.iso` -/
example : ∃ cmd p', removeFileMain exEhFiles exEnv (fun _ => true)
      ([] ++ "delete-file".toList :: ["a.ovf".toList, "--file-path".toList, "c.iso".toList]) exPkg = .ok (cmd, p') ∧
    cmd.package = some "a.ovf".toList ∧ p'.files = ddel exPkg.files "c.iso".toList := by
  obtain ⟨⟨cmd, p'⟩, h⟩ := ok_of_isOk (x := removeFileMain exEhFiles exEnv (fun _ => true)
      ([] ++ "delete-file".toList :: ["a.ovf".toList, "--file-path".toList, "c.iso".toList]) exPkg) (by decide +kernel)
  obtain ⟨⟨pkg, hw, pl⟩, -, -, i, old, id, path, -, -, -, h1, -, -, -, h2⟩ := C125_remove_file_partial (.inr (by decide +kernel)) .done exRemoveLine
    (noPrints (by decide +kernel)) (clear_of_isOk main_top.opts.flags (by decide +kernel)) exDiskHw_wf h
  cases hw
  cases h1 "c.iso".toList (by decide +kernel)
  exact ⟨cmd, p', h, pl.package, h2⟩

/-! ### inject-config -/

def exInjectUses : List ArgUse :=
  [⟨textOpt ["-c".toList, "--config-file".toList] "config_file".toList, ["my.cfg".toList]⟩,
   ⟨listOpt ["-e".toList, "--extra-files".toList] "extra_files".toList, ["x/y.txt".toList]⟩]

def exInjectLine : List Str := ["a.ovf".toList, "-c".toList, "my.cfg".toList, "-e".toList, "x/y.txt".toList]

theorem exInjectLine_ok : CmdLine injectConfigParser exInjectLine exInjectUses ["a.ovf".toList] :=
  .word (by decide) (.text1 (by decide +kernel) (by decide) (.flag (s := "-e".toList) (vals := ["x/y.txt".toList]) (by decide +kernel) (by decide)
    (by simp [FitsNum, listOpt]) (fun _ => by simp [StartsWithWord]) .done rfl))

/-- `cot inject-config a.ovf -c my.cfg -e x/y.txt` -/
example : ∃ cmd p' ops k, injectMain exEhFiles (fun _ => true) exCtx exIcWorld .csr exPlat (fun _ => true) (fun _ => true)
      ([] ++ "inject-config".toList :: exInjectLine) exIcPkg = (.ok (cmd, p'), ops) ∧ cmd.package = some "a.ovf".toList ∧
    exInject .csr exIcPkg = (.ok (k, p'), ops) := by
  have : (injectMain exEhFiles (fun _ => true) exCtx exIcWorld .csr exPlat (fun _ => true) (fun _ => true)
      ([] ++ "inject-config".toList :: exInjectLine) exIcPkg).1.isOk = true := by decide +kernel
  obtain ⟨⟨cmd, p'⟩, h⟩ := ok_of_isOk this
  obtain ⟨q, rfl, ⟨pkg, hw, pl⟩, ⟨k, hk⟩, -⟩ := C125_inject_partial (ops := (injectMain exEhFiles (fun _ => true) exCtx exIcWorld .csr exPlat
    (fun _ => true) (fun _ => true) ([] ++ "inject-config".toList :: exInjectLine) exIcPkg).2) (.inl rfl) .done exInjectLine_ok
    (noPrints (by decide +kernel)) (clear_of_isOk main_top.opts.flags (by decide +kernel)) (Prod.ext h rfl)
  cases hw
  exact ⟨cmd, p', _, k, Prod.ext h rfl, pl.package, hk⟩

end Cot
