import Verif.Spec.Ready
import Verif.Props.Ui
import Verif.Props.DeployRun
import Verif.Model.Lifecycle
/-
C109: a command does its work only if it has all it needs.
-/
namespace Cot

theorem truthy_iff {o : Option Str} : truthy o = true ↔ GivenText o := by
  unfold GivenText
  cases o <;> simp [truthy]

theorem given_iff {o : Option Str} : given o = true ↔ GivenText o := by
  unfold GivenText
  cases o <;> simp [given]

theorem complete_iff (a : CmdArgs) : a.complete = true ↔ Complete a := by
  have hne : ∀ o : Option Str, o.isSome = true ↔ o ≠ none := by intro o; cases o <;> simp
  cases a with
  | addDisk image controller address =>
    cases image <;> cases controller <;> cases address <;> simp [CmdArgs.complete, Complete]
  | addFile file => exact hne _
  | removeFile path id => cases path <;> cases id <;> simp [CmdArgs.complete, Complete]
  | deployEsxi l h => cases l <;> cases h <;> simp [CmdArgs.complete, Complete]
  | editHardware q =>
    simp only [CmdArgs.complete, EhReq.ready, Complete, Bool.or_eq_true, Option.isSome_iff_ne_none, or_assoc]
  | editProduct q =>
    simp only [CmdArgs.complete, productReady, Complete, Bool.or_eq_true, truthy_iff, or_assoc]
  | editProperties q =>
    simp only [CmdArgs.complete, propsReady, Complete]
    by_cases h1 : q.labels = [] <;> by_cases h2 : q.descs = [] <;> by_cases h3 : q.props = [] <;>
      by_cases h4 : q.labels.length = q.props.length <;> by_cases h5 : q.descs.length = q.props.length <;>
      simp_all
  | injectConfig q c n =>
    simp only [CmdArgs.complete, IcReq.ready, Complete, Bool.or_eq_true, given_iff, decide_eq_true_eq, or_assoc]
  | info ps => simp [CmdArgs.complete, Complete]
  | installHelpers => simp [CmdArgs.complete, Complete]
  | help => simp [CmdArgs.complete, Complete]

theorem reads_iff (a : CmdArgs) : a.reads = true ↔ NeedsPackage a := by cases a <;> simp [CmdArgs.reads, NeedsPackage]
theorem writes_iff (a : CmdArgs) : a.writes = true ↔ ChangesPackage a := by cases a <;> simp [CmdArgs.writes, ChangesPackage]

theorem workSpace_iff (a : CmdArgs) (size need : Nat) : WorkSpace a size need ↔ need = size + a.extra := by
  cases a with
  | injectConfig q cdrom n =>
    cases cdrom with
    | true =>
      simp only [WorkSpace, CmdArgs.extra, configDiskEstimate, if_true]
      omega
    | false =>
      simp only [WorkSpace, CmdArgs.extra, configDiskEstimate, Bool.false_eq_true, if_false]
      have e : ((8 : Nat) <<< 20) = 8388608 := by decide
      constructor
      · rintro ⟨d, rfl, h1, ⟨k, rfl⟩, h2⟩
        rw [e]
        omega
      · rintro rfl
        refine ⟨_, rfl, ?_, ?_, ?_⟩ <;> rw [e] <;> omega
  | _ => simp [WorkSpace, CmdArgs.extra]

theorem confirm_agrees {force : Bool} {inp rest : List Str} : confirm force inp = some (true, rest) ↔ Agrees force inp rest := by
  rw [← dieUnless_ok]
  unfold dieUnless confirmOrDie
  cases h : confirm force inp with
  | none => simp
  | some q =>
    obtain ⟨b, r⟩ := q
    cases b <;> simp

/-- a first check of a place -/
theorem check_new {w : SpaceWorld} {force : Bool} {cache : DiskCache} {need : Nat} {loc : Str} {inp rest : List Str}
    (hf : ∀ q a, dget? cache (w.place loc) = some (q, a) → q < need) :
    (∃ cache', w.check force cache need loc inp = some (.ok true, cache', rest)) ↔
      RoomOrAgreed force (w.available (w.place loc)) need inp rest := by
  unfold SpaceWorld.check RoomOrAgreed
  obtain ⟨h1, h2⟩ := C39_fresh force cache ⟨w.place loc, need, false, false, w.available (w.place loc)⟩ inp (Or.inr hf)
  dsimp only at h1 h2
  by_cases hle : need ≤ w.available (w.place loc)
  · rw [h1 hle]
    constructor
    · rintro ⟨c, hc⟩
      simp only [Option.some.injEq, Prod.mk.injEq] at hc
      exact Or.inl ⟨hle, hc.2.2.symm⟩
    · rintro (⟨-, rfl⟩ | ⟨h, -⟩)
      · exact ⟨_, rfl⟩
      · omega
  · rw [← confirm_agrees]
    cases hc : confirm force inp with
    | none =>
      constructor
      · rintro ⟨c, hh⟩
        unfold checkDiskSpace at hh
        have hm : cachedAnswer cache ⟨w.place loc, need, false, false, w.available (w.place loc)⟩ = none := by
          unfold cachedAnswer
          dsimp only
          cases hd : dget? cache (w.place loc) with
          | none => rfl
          | some x =>
            obtain ⟨q, a⟩ := x
            have := hf q a hd
            simp only
            rw [if_neg (by rintro ⟨-, h⟩; omega)]
        rw [hm] at hh
        simp [hle, hc] at hh
      · rintro (⟨h, -⟩ | ⟨-, h⟩)
        · exact absurd h hle
        · cases h
    | some x =>
      obtain ⟨b, r⟩ := x
      rw [h2 hle b r hc]
      constructor
      · rintro ⟨c, hh⟩
        simp only [Bool.false_eq_true, false_and, if_false, Option.some.injEq, Prod.mk.injEq, Except.ok.injEq] at hh
        obtain ⟨rfl, -, rfl⟩ := hh
        exact Or.inr ⟨by omega, rfl⟩
      · rintro (⟨h, -⟩ | ⟨-, h⟩)
        · exact absurd h hle
        · cases h
          exact ⟨dset cache (w.place loc) (need, w.available (w.place loc)), by simp⟩

/-- what a first check leaves in the cache -/
theorem check_cache {w : SpaceWorld} {force : Bool} {need : Nat} {loc : Str} {inp rest : List Str} {cache' : DiskCache} {b : Bool}
    (h : w.check force [] need loc inp = some (.ok b, cache', rest)) :
    cache' = [(w.place loc, (need, w.available (w.place loc)))] := by
  unfold SpaceWorld.check checkDiskSpace cachedAnswer at h
  simp only [dget?] at h
  split at h
  · simp only [Option.some.injEq, Prod.mk.injEq] at h
    exact h.2.1.symm
  · rw [if_neg (by decide)] at h
    split at h
    · cases h
    · simp only [Option.some.injEq, Prod.mk.injEq] at h
      exact h.2.1.symm

/-- **C109 (incomplete).** A command that lacks an argument or has nothing to do, or one that needs a package and has none,
is refused: nobody is asked anything and nothing is done. -/
theorem C109_refused {W : Type} (w : SpaceWorld) (force : Bool) (a : CmdArgs) (s : CmdVm) (cache : DiskCache) (inp : List Str)
    (work : W → List Str → Except Err Unit × W) (m : W) (h : ¬ Complete a ∨ (NeedsPackage a ∧ s.package = none)) :
    readyToRun w force a s cache inp = some (.ok false, cache, inp) ∧
    runCommand w force a s cache work m inp = some (.error .invalidInput, m) := by
  have h1 : readyToRun w force a s cache inp = some (.ok false, cache, inp) := by
    unfold readyToRun
    by_cases hc : a.complete = false
    · rw [if_pos hc]
    · rw [if_neg hc]
      have hc' : Complete a := (complete_iff a).1 (by simpa using hc)
      rcases h with h | ⟨hn, hp⟩
      · exact absurd hc' h
      · have hr : a.reads = true := (reads_iff a).2 hn
        unfold writeReady readReady
        rw [hp, hr]
        simp
  refine ⟨h1, ?_⟩
  unfold runCommand
  rw [h1]

/-- **C109 (ready).** A command with its package open goes on only if it is complete and there is room in the working
directory, and for the output, or the user agreed; they are asked about a place only if there is not enough room. -/
theorem C109_sound {w : SpaceWorld} {force : Bool} {a : CmdArgs} {s : CmdVm} {inp rest : List Str} {cache : DiskCache}
    {vm : OpenVm} (hvm : s.vm = some vm) (h : readyToRun w force a s [] inp = some (.ok true, cache, rest)) :
    Complete a ∧ (NeedsPackage a → s.package ≠ none) ∧ ∀ need out, WorkSpace a vm.size need → outputPlace s out →
      ∃ mid, RoomOrAgreed force (w.available (w.place vm.dir)) need inp mid ∧
        (ChangesPackage a → RoomOrAgreed force (w.available (w.place out)) (2 * vm.size) mid rest) ∧
        (¬ ChangesPackage a → rest = mid) := by
  have hcomp : Complete a := by
    by_contra hn
    rw [(C109_refused (W := Unit) w force a s [] inp (fun m _ => (.ok (), m)) () (Or.inl hn)).1] at h
    simp at h
  have hpk : NeedsPackage a → s.package ≠ none := by
    intro hn hp
    rw [(C109_refused (W := Unit) w force a s [] inp (fun m _ => (.ok (), m)) () (Or.inr ⟨hn, hp⟩)).1] at h
    simp at h
  refine ⟨hcomp, hpk, fun need out hneed hout => ?_⟩
  rw [workSpace_iff] at hneed
  subst hneed
  unfold readyToRun at h
  rw [if_neg (by rw [(complete_iff a).2 hcomp]; decide)] at h
  by_cases hw : a.writes = true
  · rw [if_pos hw] at h
    have hcp := (writes_iff a).1 hw
    have hnp : NeedsPackage a := by cases a <;> simp_all [CmdArgs.writes, NeedsPackage]
    have hp := hpk hnp
    have hout' : (if s.output = [] then s.package.getD [] else s.output) = out := by
      unfold outputPlace at hout
      split
      · rename_i ho; rw [if_pos ho] at hout; rw [hout]; rfl
      · rename_i ho; rw [if_neg ho] at hout; exact hout
    unfold writeReady readReady baseReady at h
    rw [if_neg hp, hvm, hout'] at h
    dsimp only at h
    rcases hc1 : w.check force [] (vm.size + a.extra) vm.dir inp with _ | ⟨r, c1, mid⟩
    · rw [hc1] at h; cases h
    rw [hc1] at h
    rcases r with e | b
    · cases h
    cases b with
    | false => cases h
    | true =>
      dsimp only at h
      refine ⟨mid, (check_new (by intro q x hq; cases hq)).1 ⟨_, hc1⟩, fun _ => ?_, fun hh => absurd hcp hh⟩
      have e1 := check_cache hc1
      subst e1
      by_cases hsame : w.place out = w.place vm.dir ∧ 2 * vm.size ≤ vm.size + a.extra
      · unfold SpaceWorld.check checkDiskSpace cachedAnswer at h
        simp only [hsame.1, dget?, if_true, hsame.2, and_self, Option.some.injEq, Prod.mk.injEq, Except.ok.injEq,
          decide_eq_true_eq] at h
        exact Or.inl ⟨by rw [hsame.1]; exact h.1, h.2.2.symm⟩
      · refine (check_new ?_).1 ⟨_, h⟩
        intro q x hq
        simp only [dget?] at hq
        split at hq
        · rename_i hpl
          cases hq
          by_contra hlt
          exact hsame ⟨hpl.symm, by omega⟩
        · cases hq
  · rw [if_neg hw] at h
    have hcp : ¬ ChangesPackage a := fun hh => hw ((writes_iff a).2 hh)
    have hb : baseReady w force a s [] inp = some (.ok true, cache, rest) := by
      by_cases hr : a.reads = true
      · rw [if_pos hr] at h
        unfold readReady at h
        rwa [if_neg (hpk ((reads_iff a).1 hr))] at h
      · rwa [if_neg hr] at h
    unfold baseReady at hb
    rw [hvm] at hb
    exact ⟨rest, (check_new (by intro q x hq; cases hq)).1 ⟨_, hb⟩, fun hh => absurd hh hcp, fun _ => rfl⟩

/-- **C109 (complete).** Conversely, a complete command goes on, with the work that it is there for, if there is room or the
user agrees -- provided that the two questions are about different places, or that there is room. -/
theorem C109_runs_partial {W : Type} {w : SpaceWorld} {force : Bool} {a : CmdArgs} {s : CmdVm} {inp mid rest : List Str}
    {vm : OpenVm} {out : Str} {need : Nat} (work : W → List Str → Except Err Unit × W) (m : W)
    (hvm : s.vm = some vm) (hc : Complete a) (hpk : s.package ≠ none) (hneed : WorkSpace a vm.size need) (hout : outputPlace s out)
    (h1 : RoomOrAgreed force (w.available (w.place vm.dir)) need inp mid)
    (h2 : ChangesPackage a → RoomOrAgreed force (w.available (w.place out)) (2 * vm.size) mid rest)
    (h3 : ¬ ChangesPackage a → rest = mid)
    (hsep : w.place out ≠ w.place vm.dir ∨ need < 2 * vm.size ∨ 2 * vm.size ≤ w.available (w.place out)) :
    runCommand w force a s [] work m inp = some (work m rest) := by
  rw [workSpace_iff] at hneed
  subst hneed
  obtain ⟨c1, hc1⟩ := (check_new (cache := []) (by intro q x hq; cases hq)).2 h1
  have e1 := check_cache hc1
  have hready : ∃ c2, readyToRun w force a s [] inp = some (.ok true, c2, rest) := by
    unfold readyToRun
    rw [if_neg (by rw [(complete_iff a).2 hc]; decide)]
    by_cases hw : a.writes = true
    · rw [if_pos hw]
      have hcp := (writes_iff a).1 hw
      have hout' : (if s.output = [] then s.package.getD [] else s.output) = out := by
        unfold outputPlace at hout
        split
        · rename_i ho; rw [if_pos ho] at hout; rw [hout]; rfl
        · rename_i ho; rw [if_neg ho] at hout; exact hout
      unfold writeReady readReady baseReady
      rw [if_neg hpk, hvm, hout']
      dsimp only
      rw [hc1]
      dsimp only
      subst e1
      by_cases hsame : w.place out = w.place vm.dir ∧ 2 * vm.size ≤ vm.size + a.extra
      · rcases hsep with hh | hh | hh
        · exact absurd hsame.1 hh
        · omega
        · unfold SpaceWorld.check checkDiskSpace cachedAnswer
          rw [hsame.1] at hh
          simp only [hsame.1, dget?, if_true, hsame.2, and_self, hh, decide_true]
          rcases h2 hcp with ⟨-, rfl⟩ | ⟨hlt, -⟩
          · exact ⟨_, rfl⟩
          · rw [hsame.1] at hlt; omega
      · refine (check_new ?_).2 (h2 hcp)
        intro q x hq
        simp only [dget?] at hq
        split at hq
        · rename_i hpl
          cases hq
          by_contra hlt
          exact hsame ⟨hpl.symm, by omega⟩
        · cases hq
    · rw [if_neg hw]
      have hcp : ¬ ChangesPackage a := fun hh => hw ((writes_iff a).2 hh)
      have hb : baseReady w force a s [] inp = some (.ok true, c1, rest) := by
        unfold baseReady
        rw [hvm, h3 hcp]
        exact hc1
      split
      · unfold readReady
        rw [if_neg hpk]
        exact ⟨_, hb⟩
      · exact ⟨_, hb⟩
  obtain ⟨c2, hr⟩ := hready
  unfold runCommand
  rw [hr]

/-- a machine with 10 GB in /home and 1 GB in /tmp -/
def exSpace : SpaceWorld where
  place := fun l => if "/tmp".toList <+: l then "/tmp".toList else "/home".toList
  available := fun d => if d = "/tmp".toList then 1000000000 else 10000000000

def exReadyVm : CmdVm := { package := some "/home/u/vm.ova".toList, output := [], vm := some ⟨"/tmp/cotX".toList, 2000000000⟩ }

/-- non-vacuity: a package of 2 GB; the user is asked about the working directory only, and agrees, or does not -/
example : readyToRun exSpace false (.addFile (some "/home/u/f".toList)) exReadyVm [] ["y".toList, "n".toList] =
      some (.ok true, [("/tmp".toList, (2000000000, 1000000000)), ("/home".toList, (4000000000, 10000000000))], ["n".toList]) ∧
    runCommand exSpace false (.addFile (some "/home/u/f".toList)) exReadyVm [] (fun (_ : Nat) _ => (.ok (), 1)) 0 ["n".toList] =
      some (.error .invalidInput, 0) := by
  constructor <;> rfl

/-- two files, of which only one is a package -/
def exTwoFiles : CmdWorld where
  cwd := "/tmp".toList
  exists_ := fun _ => true
  isFile := fun _ => true
  isDir := fun _ => false
  agrees := fun _ => true
  loads := fun p => decide (p = "/tmp/v.ova".toList)
  typeOk := fun _ => true
  space := true
  ready := true

/-- **C109 fails** in two ways: a user who has agreed to go on is refused without another question if the second place is
the first one and needs less; and after a package that could not be opened replaced a good one, the
command is not refused but ends in an AttributeError. -/
theorem C109_fails :
    (∃ (w : SpaceWorld) (s : CmdVm), readyToRun w false (.injectConfig ⟨some "/tmp/c".toList, none, []⟩ true 5000) s []
      ["y".toList, "y".toList, "y".toList] = some (.ok false, [("/tmp".toList, (6000, 500))], ["y".toList, "y".toList])) ∧
    (∃ (w : SpaceWorld) (s : CmdVm), readyToRun w false (.addFile (some "/tmp/c".toList)) s [] [] =
      some (.error .attributeError, [], []) ∧
      ∃ steps, (cmdSteps cmdNew steps).1.package = s.package ∧ (cmdSteps cmdNew steps).1.vm = none) :=
  ⟨⟨⟨fun _ => "/tmp".toList, fun _ => 500⟩, ⟨some "/tmp/v.ova".toList, [], some ⟨"/tmp/w".toList, 1000⟩⟩, by rfl⟩,
    ⟨⟨fun _ => "/tmp".toList, fun _ => 500⟩, ⟨some "/tmp/v.ova".toList, [], none⟩, by rfl,
      [(.setPackage (some "/tmp/v.ova".toList), exTwoFiles), (.setPackage (some "/tmp/bad.ova".toList), exTwoFiles)], rfl, rfl⟩⟩

end Cot
