import Verif.Spec.DeployCommand
import Verif.Props.DeployRun
import Verif.Props.CommandProps
import Verif.Props.CommandRuns
/-
C127: what the command line asks `cot deploy ... esxi` for is what is done.
-/
namespace Cot

variable {f : EhFiles} {shlex : Str → Except Err (List Str)} {profiles : List Str}

/-! ### The attributes -/

/-- each setter changes its own attribute only -/
theorem deploySetters_keep {b : Str} {g : Setter DeployCmd} (hm : (b, g) ∈ deploySetters shlex profiles) {q q' : DeployCmd} {v : ArgVal ArgAtom}
    (h : g q v = .ok q') : (b ≠ "hypervisor".toList → q'.hypervisor = q.hypervisor) ∧ (b ≠ "configuration".toList → q'.configuration = q.configuration) ∧
    (b ≠ "username".toList → q'.username = q.username) ∧ (b ≠ "password".toList → q'.password = q.password) ∧
    (b ≠ "power_on".toList → q'.powerOn = q.powerOn) ∧ (b ≠ "vm_name".toList → q'.vmName = q.vmName) ∧
    (b ≠ "network_map".toList → q'.networkMap = q.networkMap) ∧ (b ≠ "serial_connection".toList → q'.serial = q.serial) ∧
    (b ≠ "datastore".toList → q'.datastore = q.datastore) ∧ (b ≠ "ovftool_args".toList → q'.ovftoolArgs = q.ovftoolArgs) ∧
    (b ≠ "locator".toList → q'.locator = q.locator) := by
  unfold deploySetters at hm
  simp only [List.mem_cons, List.not_mem_nil, or_false, Prod.mk.injEq] at hm
  rcases hm with ⟨rfl, rfl⟩ | ⟨rfl, rfl⟩ | ⟨rfl, rfl⟩ | ⟨rfl, rfl⟩ | ⟨rfl, rfl⟩ | ⟨rfl, rfl⟩ | ⟨rfl, rfl⟩ | ⟨rfl, rfl⟩ | ⟨rfl, rfl⟩ |
    ⟨rfl, rfl⟩ | ⟨rfl, rfl⟩
  · obtain ⟨s, x, -, -, rfl⟩ := storeTextVia_ok h
    exact ⟨fun hne => absurd rfl hne, fun _ => rfl, fun _ => rfl, fun _ => rfl, fun _ => rfl, fun _ => rfl, fun _ => rfl, fun _ => rfl,
      fun _ => rfl, fun _ => rfl, fun _ => rfl⟩
  · obtain ⟨s, x, -, -, rfl⟩ := storeTextVia_ok h
    exact ⟨fun _ => rfl, fun hne => absurd rfl hne, fun _ => rfl, fun _ => rfl, fun _ => rfl, fun _ => rfl, fun _ => rfl, fun _ => rfl,
      fun _ => rfl, fun _ => rfl, fun _ => rfl⟩
  · obtain ⟨s, -, rfl⟩ := storeText_ok h
    exact ⟨fun _ => rfl, fun _ => rfl, fun hne => absurd rfl hne, fun _ => rfl, fun _ => rfl, fun _ => rfl, fun _ => rfl, fun _ => rfl,
      fun _ => rfl, fun _ => rfl, fun _ => rfl⟩
  · obtain ⟨s, -, rfl⟩ := storeText_ok h
    exact ⟨fun _ => rfl, fun _ => rfl, fun _ => rfl, fun hne => absurd rfl hne, fun _ => rfl, fun _ => rfl, fun _ => rfl, fun _ => rfl,
      fun _ => rfl, fun _ => rfl, fun _ => rfl⟩
  · obtain ⟨s, -, rfl⟩ := storeTruth_ok h
    exact ⟨fun _ => rfl, fun _ => rfl, fun _ => rfl, fun _ => rfl, fun hne => absurd rfl hne, fun _ => rfl, fun _ => rfl, fun _ => rfl,
      fun _ => rfl, fun _ => rfl, fun _ => rfl⟩
  · obtain ⟨s, -, rfl⟩ := storeText_ok h
    exact ⟨fun _ => rfl, fun _ => rfl, fun _ => rfl, fun _ => rfl, fun _ => rfl, fun hne => absurd rfl hne, fun _ => rfl, fun _ => rfl,
      fun _ => rfl, fun _ => rfl, fun _ => rfl⟩
  · obtain ⟨s, x, -, -, rfl⟩ := storeListVia_ok h
    exact ⟨fun _ => rfl, fun _ => rfl, fun _ => rfl, fun _ => rfl, fun _ => rfl, fun _ => rfl, fun hne => absurd rfl hne, fun _ => rfl,
      fun _ => rfl, fun _ => rfl, fun _ => rfl⟩
  · obtain ⟨s, x, -, -, rfl⟩ := storeListVia_ok h
    exact ⟨fun _ => rfl, fun _ => rfl, fun _ => rfl, fun _ => rfl, fun _ => rfl, fun _ => rfl, fun _ => rfl, fun hne => absurd rfl hne,
      fun _ => rfl, fun _ => rfl, fun _ => rfl⟩
  · obtain ⟨s, -, rfl⟩ := storeText_ok h
    exact ⟨fun _ => rfl, fun _ => rfl, fun _ => rfl, fun _ => rfl, fun _ => rfl, fun _ => rfl, fun _ => rfl, fun _ => rfl,
      fun hne => absurd rfl hne, fun _ => rfl, fun _ => rfl⟩
  · obtain ⟨s, x, -, -, rfl⟩ := storeTextVia_ok h
    exact ⟨fun _ => rfl, fun _ => rfl, fun _ => rfl, fun _ => rfl, fun _ => rfl, fun _ => rfl, fun _ => rfl, fun _ => rfl,
      fun _ => rfl, fun hne => absurd rfl hne, fun _ => rfl⟩
  · obtain ⟨s, -, rfl⟩ := storeText_ok h
    exact ⟨fun _ => rfl, fun _ => rfl, fun _ => rfl, fun _ => rfl, fun _ => rfl, fun _ => rfl, fun _ => rfl, fun _ => rfl,
      fun _ => rfl, fun _ => rfl, fun hne => absurd rfl hne⟩

/-- the command line is handed over to the command object -/
theorem handed_deploy {setters : List (Str × Setter Q)} {h : Str} (hh : h ∈ ["esxi".toList, "vcenter".toList, "vmware".toList, "vsphere".toList])
    {g l : List Str} {gus us : List ArgUse} {ws : List Str} {pkg : Str} (hg : CmdLine mainParser g gus []) (hw : Word pkg)
    (hl : CmdLine esxiParser l us ws) (hp : ∀ u ∈ gus ++ us, ¬ OnlyPrints u.opt) (hc : ClearFor mainParser (pkg :: h :: l))
    {q : Q} {cmd : PkgCmd Q} (hr : pkgCommand f setters q (g ++ "deploy".toList :: pkg :: h :: l) = .ok cmd) :
    ∃ d, Handed f setters q esxiParser esxiPage us ws cmd d ∧ Assigned d "package".toList (.one (.text pkg)) ∧
      Assigned d "hypervisor".toList (.one (.text h)) := by
  have hP := optsOkB_sound esxi_tables.1
  have hus : ∀ u ∈ us, u.opt ∈ esxiParser.opts := fun u hu => (uses_ok (fun o ho => (hP.opts o ho).norest) hl u hu).1
  by_cases hok : NoConflict gus ∧ RightLine esxiParser us ws
  · obtain ⟨ns, d, h1, h2, h3, h4, h5, h6⟩ := C121_deploy_partial hh hg hw hl hp hc hok.1 hok.2
    unfold pkgCommand at hr
    rw [h1] at hr
    dsimp only at hr
    rw [h2] at hr
    dsimp only at hr
    cases hs : setAttributes (pkgSetattr f setters) d { req := q } with
    | mk r st =>
      rw [hs] at hr
      obtain ⟨done, rest, e1, e2, e3⟩ := C103_set hs
      rcases e3 with ⟨rfl, rfl⟩ | ⟨e, a, v, rest', rfl, -, -⟩
      · rw [List.append_nil] at e1
        subst e1
        cases hr
        refine ⟨d, ⟨hok.2.1, hus, h3, ?_, e2⟩, h5, h6⟩
        intro i a w hi hw'
        cases i with
        | zero =>
          cases hi
          exact h4 w hw'
        | succ n => cases hi
      · cases hr
  · have := (C120_deploy_partial hh hg hw hl hp hc).2 hok
    unfold pkgCommand at hr
    rw [this] at hr
    cases hr

/-- **C127 (the request).** If the command line of `cot … deploy PACKAGE esxi LOCATOR …` is accepted, then the command object has what the
options say, and the package was opened. -/
theorem C127_request_partial {h : Str} (hh : h ∈ ["esxi".toList, "vcenter".toList, "vmware".toList, "vsphere".toList]) {g l : List Str}
    {gus us : List ArgUse} {ws : List Str} {pkg : Str} (hg : CmdLine mainParser g gus []) (hw : Word pkg) (hl : CmdLine esxiParser l us ws)
    (hp : ∀ u ∈ gus ++ us, ¬ OnlyPrints u.opt) (hc : ClearFor mainParser (pkg :: h :: l)) {cmd : PkgCmd DeployCmd}
    (hr : pkgCommand f (deploySetters shlex profiles) newDeployCmd (g ++ "deploy".toList :: pkg :: h :: l) = .ok cmd) :
    ∃ locator, ws = [locator] ∧ h = "esxi".toList ∧ cmd.package = some pkg ∧ f.opens pkg = .ok () ∧
      DeployAsks shlex profiles us locator cmd.req := by
  obtain ⟨d, hd, a1, a2⟩ := handed_deploy hh hg hw hl hp hc hr
  have hlen : ws.length = 1 := hd.words
  obtain ⟨locator, rfl⟩ : ∃ a, ws = [a] := by
    match ws, hlen with
    | [a], _ => exact ⟨a, rfl⟩
  have kp := assigned_any (F := fun s : PkgCmd DeployCmd => s.package) (a := "package".toList)
    (R := fun v x => ∃ p : Str, v = .one (.text p) ∧ x = some p ∧ f.opens p = .ok ()) (fun s s' b v hb hs => pkg_keeps_package hb hs)
    (by
      intro s s' v hs
      obtain ⟨p, e1, e2, rfl⟩ := pkgSetattr_package hs
      exact ⟨p, e1, rfl, e2⟩) hd.sets a1
  have kh := pkg_attr (F := fun q : DeployCmd => q.hypervisor) (a := "hypervisor".toList)
    (R := fun v x => ∃ s : Str, v = .one (.text s) ∧ s = "esxi".toList ∧ x = some s)
    (by decide) (by decide) rfl (fun b g hb hne q v q' hq => (deploySetters_keep hb hq).1 hne) (by
      intro q v q' hq
      obtain ⟨s, x, e, hx, rfl⟩ := storeTextVia_ok hq
      unfold setHypervisor at hx
      split at hx
      · cases hx
      · rename_i hs
        cases hx
        exact ⟨s, e, not_not.1 hs, rfl⟩) hd.sets a2
  have kl := pkg_attr (F := fun q : DeployCmd => q.locator) (a := "locator".toList)
    (R := fun v x => ∃ s : Str, v = .one (.text s) ∧ x = some s)
    (by decide) (by decide) rfl (fun b g hb hne q v q' hq => (deploySetters_keep hb hq).2.2.2.2.2.2.2.2.2.2 hne) (by
      intro q v q' hq
      obtain ⟨s, e, rfl⟩ := storeText_ok hq
      exact ⟨s, e, rfl⟩) hd.sets (hd.pos 0 "LOCATOR".toList locator rfl rfl)
  rcases kp with ⟨kp, -⟩ | ⟨-, p', kp1, kp2, kp3⟩
  · cases kp
  cases kp1
  rcases kh with ⟨kh, -⟩ | ⟨-, h', kh1, kh2, kh3⟩
  · cases kh
  cases kh1
  rcases kl with ⟨kl, -⟩ | ⟨-, l', kl1, kl2⟩
  · cases kl
  cases kl1
  have kc := hd.option (o := ⟨["-c".toList, "--configuration".toList], .value .text, "configuration".toList⟩) (fl := "--configuration")
    (F := fun q : DeployCmd => q.configuration) (R := fun v x => ∃ s y : Str, v = .one (.text s) ∧ (s = y ∧ s ∈ profiles) ∧ x = some y)
    (by decide +kernel) (by decide) (by decide +kernel) (by decide) (by decide) rfl
    (fun b g hb hne q v q' hq => (deploySetters_keep hb hq).2.1 hne) (by
      intro q v q' hq
      obtain ⟨s, x, e, hx, rfl⟩ := storeTextVia_ok hq
      unfold setConfiguration at hx
      split at hx
      · cases hx
      · rename_i hs
        cases hx
        exact ⟨s, s, e, ⟨rfl, not_not.1 hs⟩, rfl⟩)
  have ko := hd.option (o := ⟨["-o".toList, "--ovftool-args".toList], .value .text, "ovftool_args".toList⟩) (fl := "--ovftool-args")
    (F := fun q : DeployCmd => q.ovftoolArgs) (R := fun v x => ∃ s : Str, v = .one (.text s) ∧ shlex s = .ok x)
    (by decide +kernel) (by decide) (by decide +kernel) (by decide) (by decide) rfl
    (fun b g hb hne q v q' hq => (deploySetters_keep hb hq).2.2.2.2.2.2.2.2.2.1 hne) (by
      intro q v q' hq
      obtain ⟨s, x, e, hx, rfl⟩ := storeTextVia_ok hq
      exact ⟨s, e, hx⟩)
  have kw := hd.option (o := ⟨["-P".toList, "--power-on".toList], .flag, "power_on".toList⟩) (fl := "--power-on")
    (F := fun q : DeployCmd => q.powerOn) (R := fun v x => v = .one (.truth x))
    (by decide +kernel) (by decide) (by decide +kernel) (by decide) (by decide) rfl
    (fun b g hb hne q v q' hq => (deploySetters_keep hb hq).2.2.2.2.1 hne) (by
      intro q v q' hq
      obtain ⟨s, e, rfl⟩ := storeTruth_ok hq
      exact e)
  have kn := hd.option (o := ⟨["-N".toList, "--network-map".toList], .values .text, "network_map".toList⟩) (fl := "--network-map")
    (F := fun q : DeployCmd => q.networkMap.getD []) (R := fun v x => ∃ ts : List Str, v = .list (ts.map (fun t => .one (.text t))) ∧ setNetworkMap ts = .ok x)
    (by decide +kernel) (by decide) (by decide +kernel) (by decide) (by decide) rfl
    (fun b g hb hne q v q' hq => by rw [(deploySetters_keep hb hq).2.2.2.2.2.2.1 hne]) (by
      intro q v q' hq
      obtain ⟨s, x, e, hx, rfl⟩ := storeListVia_ok hq
      exact ⟨s, e, hx⟩)
  have ks := hd.list (flags := ["-S".toList, "--serial-connection".toList]) (a := "serial_connection".toList) "--serial-connection"
    (by decide +kernel) (by decide +kernel) (fun q => q.serial) (fun q l => { q with serial := l }) (fun l => esxiSerialConnections (l.map some))
    (by decide) (by decide) rfl (fun b g hb hne q v q' hq => (deploySetters_keep hb hq).2.2.2.2.2.2.2.1 hne) (fun _ _ => rfl) rfl
  obtain ⟨vc, c1, c2⟩ := kc
  obtain ⟨vo, o1, o2⟩ := ko
  obtain ⟨vw, w1, w2⟩ := kw
  obtain ⟨vn, n1, n2⟩ := kn
  have hconf : cmd.req.configuration = lastGiven "--configuration" us ∧ ∀ p, lastGiven "--configuration" us = some p → p ∈ profiles := by
    unfold lastGiven
    rcases reached_text (R := fun s y => s = y ∧ s ∈ profiles) c1 c2 with ⟨e3, e4⟩ | ⟨s, y, e3, -, ⟨rfl, e5⟩, e6⟩
    · rw [e3, e4]; exact ⟨rfl, by intro p hp; cases hp⟩
    · rw [e3, e6]; exact ⟨rfl, by intro p hp; cases hp; exact e5⟩
  have hnm : setNetworkMap (allGiven "--network-map" us) = .ok (cmd.req.networkMap.getD []) :=
    reached_list (R := fun ts x => setNetworkMap ts = .ok x) (x0 := []) n1 rfl n2
  rw [C51_network_map] at hnm
  have hfour : (allGiven "--serial-connection" us).length ≤ 4 := by
    unfold esxiSerialConnections at ks
    split at ks
    · cases ks
    · rename_i hle; rw [List.length_map] at hle; omega
  refine ⟨locator, rfl, kh2, kp2, kp3, ?_⟩
  refine { hypervisor := by rw [kh3, kh2], locator := kl2, username := ?_, password := ?_, vmName := ?_, datastore := ?_,
           configuration := hconf.1, declared := hconf.2, powerOn := ?_, networkMap := hnm.1, pairs := hnm.2, four := hfour, serial := ?_,
           ovftoolArgs := ?_ }
  · exact hd.text (flags := ["-u".toList, "--username".toList]) (a := "username".toList) "--username" (by decide +kernel) (by decide +kernel)
      (fun q => q.username) (fun q s => { q with username := some s }) (by decide) (by decide) rfl
      (fun b g hb hne q v q' hq => (deploySetters_keep hb hq).2.2.1 hne) (fun _ _ => rfl) rfl
  · exact hd.text (flags := ["-p".toList, "--password".toList]) (a := "password".toList) "--password" (by decide +kernel) (by decide +kernel)
      (fun q => q.password) (fun q s => { q with password := some s }) (by decide) (by decide) rfl
      (fun b g hb hne q v q' hq => (deploySetters_keep hb hq).2.2.2.1 hne) (fun _ _ => rfl) rfl
  · exact hd.text (flags := ["-n".toList, "--vm-name".toList]) (a := "vm_name".toList) "--vm-name" (by decide +kernel) (by decide +kernel)
      (fun q => q.vmName) (fun q s => { q with vmName := some s }) (by decide) (by decide) rfl
      (fun b g hb hne q v q' hq => (deploySetters_keep hb hq).2.2.2.2.2.1 hne) (fun _ _ => rfl) rfl
  · exact hd.text (flags := ["-d".toList, "--datastore".toList]) (a := "datastore".toList) "--datastore" (by decide +kernel) (by decide +kernel)
      (fun q => q.datastore) (fun q s => { q with datastore := some s }) (by decide) (by decide) rfl
      (fun b g hb hne q v q' hq => (deploySetters_keep hb hq).2.2.2.2.2.2.2.2.1 hne) (fun _ _ => rfl) rfl
  · have w1 : vw = .one (.truth (decide (withFlag "--power-on" us ≠ []))) := w1
    rcases w2 with ⟨w2, -⟩ | ⟨-, w2⟩
    · rw [w1] at w2; cases w2
    · rw [w1] at w2
      have : decide (withFlag "--power-on" us ≠ []) = cmd.req.powerOn := by
        injection w2 with w2
        injection w2
      rw [← this, decide_eq_true_iff]
  · unfold esxiSerialConnections at ks
    split at ks
    · cases ks
    · obtain ⟨rs, r1, r2⟩ := (C50_list _ _).1 ks
      refine ⟨rs, ?_, r2⟩
      rw [List.map_map] at r1
      have r1' : List.Forall₂ Eq (List.map (fromCli ∘ some) (allGiven "--serial-connection" us)) (rs.map .ok) := by
        rw [List.forall₂_eq_eq_eq]; exact r1
      rw [List.forall₂_map_left_iff, List.forall₂_map_right_iff] at r1'
      exact r1'
  · unfold lastGiven
    rcases o1 with ⟨e1, rfl⟩ | ⟨s, a, e1, rfl, rfl⟩
    · rcases o2 with ⟨-, o2⟩ | ⟨o2, -⟩
      · exact .inl ⟨by rw [e1]; rfl, o2⟩
      · exact o2.elim
    · rcases o2 with ⟨o2, -⟩ | ⟨-, s', o2, o3⟩
      · cases o2
      · cases o2
        exact .inr ⟨s, by rw [e1]; rfl, o3⟩

/-- **C127 (what is done).** `cot … deploy PACKAGE HYPERVISOR LOCATOR …`, for every command line, package, ovftool, server and answers, when
ovftool is installed.  Either nothing is deployed: the result is an error, ovftool has at most been asked for its version, and the server has
not been contacted.  Or the hypervisor is `esxi` and ovftool is called once to deploy, with the arguments that the options of the command line
say, after the profile has been chosen and everything that needs consent has got it; and if that succeeds, the serial ports are set on the
server that the locator names, to the connections that the command line says (or, without any, those of the package). -/
theorem C127_deploys_partial {d : DeployWorld W} {vm : DeployVm} {s s' : DeploySt W} {r : Except Err Unit} {h : Str}
    (hh : h ∈ ["esxi".toList, "vcenter".toList, "vmware".toList, "vsphere".toList]) {g l : List Str} {gus us : List ArgUse} {ws : List Str}
    {pkg : Str} (hg : CmdLine mainParser g gus []) (hw : Word pkg) (hl : CmdLine esxiParser l us ws) (hp : ∀ u ∈ gus ++ us, ¬ OnlyPrints u.opt)
    (hc : ClearFor mainParser (pkg :: h :: l)) (wf : HwWF vm.env vm.hw) (hf : ∀ w, d.ui.found w "ovftool".toList = true)
    (hr : deployMain f shlex d vm (g ++ "deploy".toList :: pkg :: h :: l) s = (r, s')) :
    ((∃ e, r = .error e) ∧ OnlyAsked s.ps.log s'.ps.log ∧ s'.evs = s.evs ∧ s'.verify = s.verify) ∨
    (h = "esxi".toList ∧ f.opens pkg = .ok () ∧ ∃ locator user pw extra p given cs inject log1 inp1 inp2 inp3 x, ws = [locator] ∧
      user = (lastGiven "--username" us).getD d.getuser ∧
      (lastGiven "--password" us = some pw ∨ lastGiven "--password" us = none ∧ d.force = false ∧ d.getpass = some pw) ∧
      ((lastGiven "--ovftool-args" us = none ∧ extra = []) ∨ ∃ t, lastGiven "--ovftool-args" us = some t ∧ shlex t = .ok extra) ∧
      (∀ y, lastGiven "--configuration" us = some y → y ∈ vm.env.configProfiles) ∧
      ChosenProfile d.force vm.env.configProfiles (lastGiven "--configuration" us) s.inp p inp1 ∧
      (∃ rs : List (Option SerialConn), (allGiven "--serial-connection" us).Forall₂ (fun t c => fromCli (some t) = .ok c) rs ∧
        given = rs.flatMap Option.toList) ∧
      UsedConnections vm.env vm.hw p given cs ∧
      ((cs.length ≤ countOf vm.env vm.hw "21".toList p ∧ inp2 = inp1) ∨
        (countOf vm.env vm.hw "21".toList p < cs.length ∧ Agrees d.force inp1 inp2)) ∧
      InjectDecision vm.hasProps locator (decide (withFlag "--power-on" us ≠ [])) d.force s.ps.log log1 inp2 inp3 inject ∧
      s'.ps.log = log1 ++ [(CallFor us pkg locator user pw extra p inject, x)] ∧
      (((¬ ∃ out, x = .exit 0 out) ∧ (∃ e, r = .error e) ∧ s'.evs = s.evs ∧ s'.verify = s.verify) ∨
       ((∃ out, x = .exit 0 out) ∧ cs = [] ∧ r = .ok () ∧ s'.evs = s.evs ∧ s'.verify = s.verify) ∨
       ((∃ out, x = .exit 0 out) ∧ cs ≠ [] ∧ ∃ s1 : DeploySt W, s1.evs = s.evs ∧ s1.verify = s.verify ∧ s1.inp = inp3 ∧
          s1.ps.log = s'.ps.log ∧
          fixupPorts d.vs d.force (locator.takeWhile (· != '/')) user pw ((lastGiven "--vm-name" us).getD (pathRoot (pathBase pkg))) cs s1 =
            (r, s')))) := by
  unfold deployMain at hr
  cases hcmd : pkgCommand f (deploySetters shlex vm.env.configProfiles) newDeployCmd (g ++ "deploy".toList :: pkg :: h :: l) with
  | error e =>
    rw [hcmd] at hr
    cases hr
    exact .inl ⟨⟨_, rfl⟩, .inl rfl, rfl, rfl⟩
  | ok cmd =>
    rw [hcmd] at hr
    dsimp only at hr
    obtain ⟨locator, rfl, rfl, hpk, hop, q⟩ := C127_request_partial hh hg hw hl hp hc hcmd
    rcases C101_deploy_partial wf hf hr with hno | ⟨locator', package, pw, p, cs, inject, log1, inp1, inp2, inp3, x, e1, e2, -, e4, e5, e6, e7, e8, e9, e10⟩
    · exact .inl hno
    · right
      dsimp only at e1 e2 e4 e5 e6 e8 e9 e10
      rw [q.locator] at e1
      cases e1
      rw [hpk] at e2
      cases e2
      have hpow : cmd.req.powerOn = decide (withFlag "--power-on" us ≠ []) := by
        have := q.powerOn
        cases hb : cmd.req.powerOn with
        | true => exact (decide_eq_true (this.1 hb)).symm
        | false => exact (decide_eq_false (fun hn => by rw [this.2 hn] at hb; cases hb)).symm
      rw [q.password] at e4
      rw [q.configuration] at e5
      rw [hpow] at e8
      rw [q.username, q.vmName] at e10
      refine ⟨rfl, hop, locator, _, pw, cmd.req.ovftoolArgs, p, cmd.req.serial, cs, inject, log1, inp1, inp2, inp3, x, rfl, rfl, e4,
        q.ovftoolArgs, q.declared, e5, q.serial, e6, e7, e8, ?_, e10⟩
      rw [e9]
      unfold ToolArgs CallFor
      dsimp only
      rw [q.networkMap, q.vmName, q.datastore, q.username, hpow]
      congr 8
      by_cases hb : withFlag "--power-on" us ≠ [] <;> simp [hb]

/-- **C127 (finding).** The other names of the hypervisor that the command offers are never accepted: `cot deploy PACKAGE vcenter …` (or
`vmware`, or `vsphere`) always ends with an error, having done nothing at all. -/
theorem C127_alias_fails {d : DeployWorld W} {vm : DeployVm} {s : DeploySt W} {h : Str}
    (hh : h ∈ ["vcenter".toList, "vmware".toList, "vsphere".toList]) {g l : List Str} {gus us : List ArgUse} {ws : List Str}
    {pkg : Str} (hg : CmdLine mainParser g gus []) (hw : Word pkg) (hl : CmdLine esxiParser l us ws) (hp : ∀ u ∈ gus ++ us, ¬ OnlyPrints u.opt)
    (hc : ClearFor mainParser (pkg :: h :: l)) :
    h ∈ esxiPage.names ∧ ∃ e, deployMain f shlex d vm (g ++ "deploy".toList :: pkg :: h :: l) s = (.error e, s) := by
  refine ⟨List.mem_cons_of_mem _ hh, ?_⟩
  unfold deployMain
  cases hcmd : pkgCommand f (deploySetters shlex vm.env.configProfiles) newDeployCmd (g ++ "deploy".toList :: pkg :: h :: l) with
  | error e => exact ⟨e, rfl⟩
  | ok cmd =>
    obtain ⟨-, -, rfl, -⟩ := C127_request_partial (List.mem_cons_of_mem _ hh) hg hw hl hp hc hcmd
    exact absurd hh (by decide)

/-- **C127 (it is carried out).** A right command line for `esxi` gets as far as the deployment: when the package can be opened, a profile
that is named is declared, each network is `NAME=TARGET`, there are at most four serial connections, each of which can be read, and the text for
ovftool can be split. -/
theorem C127_runs {g l : List Str} {gus us : List ArgUse} {ws : List Str} {pkg : Str} (hg : CmdLine mainParser g gus []) (hw : Word pkg)
    (hl : CmdLine esxiParser l us ws) (hp : ∀ u ∈ gus ++ us, ¬ OnlyPrints u.opt) (hc : ClearFor mainParser (pkg :: "esxi".toList :: l))
    (hnc : NoConflict gus) (hr : RightLine esxiParser us ws) (hopen : f.opens pkg = .ok ())
    (hprof : ∀ p, lastGiven "--configuration" us = some p → p ∈ profiles)
    (hpairs : ∀ s ∈ allGiven "--network-map" us, ∃ n t, s = n ++ '=' :: t ∧ n ≠ [] ∧ '=' ∉ n ∧ t ≠ [])
    (hfour : (allGiven "--serial-connection" us).length ≤ 4) (hread : ∀ s ∈ allGiven "--serial-connection" us, ∃ c, fromCli (some s) = .ok c)
    (hsplit : ∀ s, lastGiven "--ovftool-args" us = some s → ∃ x, shlex s = .ok x) :
    ∃ cmd, pkgCommand f (deploySetters shlex profiles) newDeployCmd (g ++ "deploy".toList :: pkg :: "esxi".toList :: l) = .ok cmd := by
  have hP := optsOkB_sound esxi_tables.1
  have hus : ∀ u ∈ us, u.opt ∈ esxiParser.opts := fun u hu => (uses_ok (fun o ho => (hP.opts o ho).norest) hl u hu).1
  obtain ⟨ns, d, h1, h2, h3, h4, h5, h6⟩ := C121_deploy_partial List.mem_cons_self hg hw hl hp hc hnc hr
  obtain ⟨locator, rfl⟩ : ∃ a, ws = [a] := by
    match ws, (show ws.length = 1 from hr.1) with
    | [a], _ => exact ⟨a, rfl⟩
  have hno : ∀ v, ("output".toList, v) ∉ Assignments d := by
    obtain ⟨ns', hns', hk⟩ := esxi_known List.mem_cons_self hg hw hl hp hc hnc hr
    rw [h1] at hns'
    cases hns'
    have hd' := argsToDict_ok hk.own
    rw [h2] at hd'
    cases hd'
    have tab : ∀ k ∈ ("PACKAGE".toList :: "HYPERVISOR".toList :: mainNames) ++ topNames ++ (esxiParser.pos ++ esxiParser.opts).map ArgOpt.dest,
        lower k ≠ "output".toList ∧ k ≠ "output".toList := by decide +kernel
    intro v hv
    unfold Assignments at hv
    simp only [List.mem_append, List.mem_map, List.mem_filter, decide_eq_true_eq, Prod.exists, Prod.mk.injEq] at hv
    rcases hv with ⟨k, y, ⟨⟨k', y', ⟨h0, -⟩, rfl, -⟩, -, -⟩, h3, -⟩ | ⟨⟨k, y, ⟨h1, -⟩, h2, -⟩, -, -, -⟩
    · exact (tab k' (hk.names k' y' (dget?_of_mem hk.nodup h0))).1 h3
    · exact (tab k (hk.names k y (dget?_of_mem hk.nodup h1))).2 h2
  have all : ∀ a v, (a, v) ∈ Assignments d → ∀ s, ∃ s', pkgSetattr f (deploySetters shlex profiles) s a v = .ok s' := by
    intro a v hv s
    unfold pkgSetattr
    split
    · rename_i h1
      subst h1
      obtain ⟨rfl, -⟩ := (h5 v).1 hv
      dsimp only
      rw [hopen]
      exact ⟨_, rfl⟩
    · split
      · rename_i h1
        subst h1
        exact absurd hv (hno v)
      · cases hgt : dget? (deploySetters shlex profiles) a with
        | none => exact ⟨_, rfl⟩
        | some gt =>
          dsimp only
          have hset : (∃ o ∈ esxiPage.options, o.takes ≠ .prints ∧ o.sets = a ∧
              ∀ v, Reaches o.takes (givenWith o us) v → Given v → ∀ q, ∃ q', gt q v = .ok q') ∨
              (∃ w, Assigned d a (.one (.text w)) ∧ ∀ q, ∃ q', gt q (.one (.text w)) = .ok q') := by
            have hm := dget?_mem hgt
            unfold deploySetters at hm
            simp only [List.mem_cons, List.not_mem_nil, or_false, Prod.mk.injEq] at hm
            rcases hm with ⟨rfl, rfl⟩ | ⟨rfl, rfl⟩ | ⟨rfl, rfl⟩ | ⟨rfl, rfl⟩ | ⟨rfl, rfl⟩ | ⟨rfl, rfl⟩ | ⟨rfl, rfl⟩ | ⟨rfl, rfl⟩ | ⟨rfl, rfl⟩ |
              ⟨rfl, rfl⟩ | ⟨rfl, rfl⟩
            · exact .inr ⟨_, h6, fun q => ⟨_, rfl⟩⟩
            · refine .inl (viaText_runs hus (flags := ["-c".toList, "--configuration".toList]) (fl := "--configuration") _ (by decide +kernel)
                (by decide +kernel) (fun x hx => ⟨x, ?_⟩))
              unfold setConfiguration
              rw [if_neg (not_not.2 (hprof x hx))]
            · exact .inl (storeText_runs (flags := ["-u".toList, "--username".toList]) _ (by decide +kernel))
            · exact .inl (storeText_runs (flags := ["-p".toList, "--password".toList]) _ (by decide +kernel))
            · refine .inl ⟨⟨["-P".toList, "--power-on".toList], .flag, "power_on".toList⟩, by decide +kernel, by simp, rfl, ?_⟩
              intro v hv _ q
              have hv : v = .one (.truth _) := hv
              rw [hv]
              exact ⟨_, rfl⟩
            · exact .inl (storeText_runs (flags := ["-n".toList, "--vm-name".toList]) _ (by decide +kernel))
            · refine .inl (viaList_runs hus (flags := ["-N".toList, "--network-map".toList]) (fl := "--network-map") _ (by decide +kernel)
                (by decide +kernel) ⟨_, (C51_network_map _ _).2 ⟨rfl, hpairs⟩⟩)
            · refine .inl (viaList_runs hus (flags := ["-S".toList, "--serial-connection".toList]) (fl := "--serial-connection") _
                (by decide +kernel) (by decide +kernel) ?_)
              unfold esxiSerialConnections
              rw [if_neg (by rw [List.length_map]; omega)]
              have : ∀ L : List Str, (∀ s ∈ L, ∃ c, fromCli (some s) = .ok c) → ∃ rs : List (Option SerialConn), (L.map some).map fromCli = rs.map Except.ok := by
                intro L
                induction L with
                | nil => exact fun _ => ⟨[], rfl⟩
                | cons x t ih =>
                  intro hL
                  obtain ⟨c, hc⟩ := hL x List.mem_cons_self
                  obtain ⟨rs, hrs⟩ := ih (fun y hy => hL y (List.mem_cons_of_mem _ hy))
                  exact ⟨c :: rs, by rw [List.map_cons, List.map_cons, hc, hrs, List.map_cons]⟩
              obtain ⟨rs, hrs⟩ := this _ hread
              exact ⟨_, (C50_list _ _).2 ⟨rs, hrs, rfl⟩⟩
            · exact .inl (storeText_runs (flags := ["-d".toList, "--datastore".toList]) _ (by decide +kernel))
            · exact .inl (viaText_runs hus (flags := ["-o".toList, "--ovftool-args".toList]) (fl := "--ovftool-args") _ (by decide +kernel)
                (by decide +kernel) hsplit)
            · exact .inr ⟨_, h4 locator rfl, fun q => ⟨_, rfl⟩⟩
          rcases hset with ⟨o, o1, o2, rfl, o4⟩ | ⟨w, o1, o4⟩
          · obtain ⟨w, e1, e2⟩ := h3 o o1 o2
            obtain ⟨rfl, hgv⟩ := (e2 v).1 hv
            obtain ⟨q', hq'⟩ := o4 v e1 hgv s.req
            rw [hq']
            exact ⟨_, rfl⟩
          · obtain ⟨rfl, -⟩ := (o1 v).1 hv
            obtain ⟨q', hq'⟩ := o4 s.req
            rw [hq']
            exact ⟨_, rfl⟩
  unfold pkgCommand
  rw [h1]
  dsimp only
  rw [h2]
  dsimp only
  cases hs : setAttributes (pkgSetattr f (deploySetters shlex profiles)) d { req := newDeployCmd } with
  | mk r st =>
    obtain ⟨done, rest, e1, e2, e3⟩ := C103_set hs
    rcases e3 with ⟨rfl, rfl⟩ | ⟨e, a, v, rest', rfl, e4, e5⟩
    · exact ⟨st, rfl⟩
    · exact absurd e5 (sets_all all _ done rest st e a v rest' e1 e2 e4)

end Cot
