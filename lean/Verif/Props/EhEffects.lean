import Verif.Props.EhCommand
import Verif.Spec.EhEffects
/-
C123: what a command line of edit-hardware does to the devices.
-/
namespace Cot

variable {c : EhCtx} {f : EhFiles}

theorem asked_number {k : Int} {given : List (List Str)} {x : Option Int} (h : AskedNumber k given x) : x.isSome = true ↔ given ≠ [] := by
  rcases h with ⟨h1, rfl⟩ | ⟨s, n, h1, -, -, rfl⟩
  · simp [h1]
  · refine ⟨fun _ h => ?_, fun _ => rfl⟩
    rw [h] at h1
    cases h1

theorem asked_list {R : Str → Str → Prop} {given : List (List Str)} {x : Option (List Str)} (h : AskedList R given x) :
    x.isSome = true ↔ given ≠ [] := by
  rcases h with ⟨h1, rfl⟩ | ⟨h1, l, -, rfl⟩
  · simp [h1]
  · simp [h1]

/-- the types of the request are the types that the options name -/
theorem types_named {us : List ArgUse} {q : EhReq} (hq : EhAsks us q) (b : Bool) (code : Str) :
    code ∈ q.types b ↔ TypeNamed us code ∨ (b = true ∧ code = "10".toList) := by
  have n1 := asked_number hq.cpus
  have n2 : q.memory.isSome = true ↔ withFlag "--memory" us ≠ [] := by
    rcases hq.memory with ⟨h1, h2⟩ | ⟨s, m, h1, -, h2⟩
    · simp [h1, h2]
    · rw [h2]
      refine ⟨fun _ h => ?_, fun _ => rfl⟩
      rw [h] at h1
      cases h1
  have n3 := asked_number hq.nics
  have n4 := asked_list hq.nicTypes
  have n5 := asked_list hq.macs
  have n6 := asked_list hq.networks
  have n7 := asked_list hq.nicNames
  have n8 := asked_number hq.serialPorts
  have n9 := asked_list hq.serialConn
  have n10 := asked_list hq.scsi
  have n11 := asked_list hq.ide
  rw [Option.isSome_map] at n3 n8
  rw [ne_eq, List.map_eq_nil_iff] at n10 n11
  unfold EhReq.types TypeNamed UsesFlag
  simp only [List.mem_append, Bool.or_eq_true, List.mem_ite_nil_right, n1, n2, n3, n4, n5, n6, n7, n8, n9, n10, n11,
    List.mem_cons, List.not_mem_nil, or_false, exists_eq_left, exists_eq_or_imp]
  clear n1 n2 n3 n4 n5 n6 n7 n8 n9 n10 n11 hq
  constructor
  · rintro (((((⟨h, k⟩ | ⟨h, k⟩) | ⟨h, k⟩) | ⟨h, k⟩) | ⟨h, k⟩) | ⟨h, k⟩)
    · exact .inl (.inl ⟨k, h⟩)
    · exact .inl (.inr (.inl ⟨k, h⟩))
    · rcases h with h | h
      · refine .inl (.inr (.inr (.inl ⟨k, ?_⟩)))
        rcases h with (((h | h) | h) | h) | h
        · exact .inl h
        · exact .inr (.inl h)
        · exact .inr (.inr (.inl h))
        · exact .inr (.inr (.inr (.inl h)))
        · exact .inr (.inr (.inr (.inr h)))
      · exact .inr ⟨h, k⟩
    · exact .inl (.inr (.inr (.inr (.inl ⟨k, h⟩))))
    · exact .inl (.inr (.inr (.inr (.inr (.inl ⟨k, h⟩)))))
    · exact .inl (.inr (.inr (.inr (.inr (.inr ⟨k, h⟩)))))
  · rintro ((⟨k, h⟩ | ⟨k, h⟩ | ⟨k, h⟩ | ⟨k, h⟩ | ⟨k, h⟩ | ⟨k, h⟩) | ⟨h, k⟩)
    · exact .inl (.inl (.inl (.inl (.inl ⟨h, k⟩))))
    · exact .inl (.inl (.inl (.inl (.inr ⟨h, k⟩))))
    · refine .inl (.inl (.inl (.inr ⟨.inl ?_, k⟩)))
      rcases h with h | h | h | h | h
      · exact .inl (.inl (.inl (.inl h)))
      · exact .inl (.inl (.inl (.inr h)))
      · exact .inl (.inl (.inr h))
      · exact .inl (.inr h)
      · exact .inr h
    · exact .inl (.inl (.inr ⟨h, k⟩))
    · exact .inl (.inr ⟨h, k⟩)
    · exact .inr ⟨h, k⟩
    · exact .inl (.inl (.inl (.inr ⟨.inr h, k⟩)))

/-- there is only one first match -/
theorem firstMatch_unique {T : List (List Str × Str)} {x a b : Str} (h1 : FirstMatch T x a) (h2 : FirstMatch T x b) : a = b := by
  classical
  have key : ∀ r, FirstMatch T x r → ∃ w, T.find? (fun e => decide (StartsCI e.1 x)) = some (w, r) := by
    rintro r ⟨pre, w, post, rfl, k1, k2⟩
    exact ⟨w, List.find?_eq_some_iff_append.2 ⟨by simpa using k1, pre, post, rfl, fun e he => by simpa using k2 e he⟩⟩
  obtain ⟨w, k1⟩ := key a h1
  obtain ⟨w', k2⟩ := key b h2
  rw [k1] at k2
  cases k2
  rfl

/-- a list of sub-types none of which is empty -/
theorem subtypes_asked {T : List (List Str × Str)} {given : List (List Str)} {x : Option (List Str)} {ts : List Str}
    (hq : AskedList (FirstMatch T) (given.map (·.filter (fun t => decide (t ≠ [])))) x) (h1 : given.flatten.Forall₂ (FirstMatch T) ts)
    (h2 : ∀ t ∈ given.flatten, t ≠ []) (hne : ts ≠ []) : x = some ts := by
  have he : given.map (·.filter (fun t => decide (t ≠ []))) = given := by
    conv_rhs => rw [← List.map_id given]
    refine List.map_congr_left (fun l hl => ?_)
    rw [id, List.filter_eq_self]
    intro t ht
    exact decide_eq_true (h2 t (List.mem_flatten.2 ⟨l, hl, ht⟩))
  rw [he] at hq
  rcases hq with ⟨rfl, -⟩ | ⟨-, l, h3, rfl⟩
  · cases h1
    exact absurd rfl hne
  · congr 1
    clear he h2 hne
    generalize given.flatten = us at h1 h3
    induction h3 generalizing ts with
    | nil => cases h1; rfl
    | cons k _ ih =>
      cases h1 with
      | cons k' r => rw [firstMatch_unique k k', ih r]

/-- **C123.** What `cot … edit-hardware …` does to the devices, read off its options: after `--cpus N` every CPU of the profiles that were
named has that number; after `--memory` every memory item has that many megabytes, in megabytes; after `--scsi-subtypes` and
`--ide-subtypes` every such controller has these sub-types; after `--mac-addresses-list` the NICs have the addresses in order, the last one
for all that are left; after `--serial-connectivity` the serial ports have their connections in order.  If no profile was named then this
holds for all of them.  Under a named profile, or with none at all, nothing else happens: other profiles describe the same machine as
before, and devices of types that no option names are the same, but for profiles that were deleted and, if the package declares no
networks, for the NICs. -/
theorem C123_effects_partial {g l : List Str} {gus us : List ArgUse} {ws : List Str} (hg : CmdLine mainParser g gus [])
    (hl : CmdLine editHardwareParser l us ws) (hp : ∀ u ∈ gus ++ us, ¬ OnlyPrints u.opt) (ha : ClearFor mainParser l) {cmd : EhCmd} {s s' : EhSt}
    {env env' : Env} (hst : ∀ q seen, EhAsks us q → EhStart c q env { s with seen := seen })
    (h : ehMain c f (g ++ "edit-hardware".toList :: l) s = .ok (cmd, s')) (he : curEnv c s'.envl = .ok env') :
    ∃ L : Option (List Str), AskedList (fun s t => Padded s t ∧ ∀ c ∈ t, isWs c = false) (withFlag "--profiles" us) L ∧
      (withFlag "--cpus" us ≠ [] → ∃ x n, (withFlag "--cpus" us).getLast? = some [x] ∧ Numeral x n ∧ 1 ≤ n ∧
        (∃ id it, dget? s'.hw id = some it ∧ OfType it "3".toList) ∧
        Everywhere env' "3".toList virtualQuantity (.str (intStr n)) ((L.getD []).map some) s'.hw) ∧
      (withFlag "--memory" us ≠ [] → ∃ x m, (withFlag "--memory" us).getLast? = some [x] ∧ MemoryMeans x m ∧
        (∃ id it, dget? s'.hw id = some it ∧ OfType it "4".toList) ∧
        Everywhere env' "4".toList virtualQuantity (.str (natStr m)) ((L.getD []).map some) s'.hw ∧
        Everywhere env' "4".toList allocationUnits (.str "byte * 2^20".toList) ((L.getD []).map some) s'.hw) ∧
      (∀ ts, ts ≠ [] → (withFlag "--scsi-subtypes" us).flatten.Forall₂ (FirstMatch scsiWords) ts →
        (∀ x ∈ (withFlag "--scsi-subtypes" us).flatten, x ≠ []) →
        Everywhere env' "6".toList resourceSubType (.tup ts) ((L.getD []).map some) s'.hw) ∧
      (∀ ts, ts ≠ [] → (withFlag "--ide-subtypes" us).flatten.Forall₂ (FirstMatch ideWords) ts →
        (∀ x ∈ (withFlag "--ide-subtypes" us).flatten, x ≠ []) →
        Everywhere env' "5".toList resourceSubType (.tup ts) ((L.getD []).map some) s'.hw) ∧
      (withFlag "--mac-addresses-list" us ≠ [] → ∃ ms,
        (withFlag "--mac-addresses-list" us).flatten.Forall₂ (fun s t => Padded s t ∧ IsMac t) ms ∧
        InOrder env' "10".toList address ms (ms.getLast?.getD []) (match L with | none => env'.configProfiles.map some ++ [none] | some P => P.map some) s'.hw) ∧
      (withFlag "--serial-connectivity" us ≠ [] → InOrder env' "21".toList address (withFlag "--serial-connectivity" us).flatten []
        (match L with | none => env'.configProfiles.map some ++ [none] | some P => P.map some) s'.hw) ∧
      (∀ P p, L = some P → P ≠ [] → p ∈ env.configProfiles → p ∈ env'.configProfiles → p ∉ P → SameIn env env' (some p) s.hw s'.hw) ∧
      (withFlag "--delete-all-other-profiles" us = [] → ∀ nets, networks c.env.ver s.envl = .ok nets →
        (∀ id it, dget? s.hw id = some it → (∀ code, TypeNamed us code ∨ (nets = [] ∧ code = "10".toList) → ¬ OfType it code) →
          dget? s'.hw id = some it) ∧
        (∀ id it, dget? s'.hw id = some it → Live c.env.ver it →
          (∀ code, TypeNamed us code ∨ (nets = [] ∧ code = "10".toList) → ¬ OfType it code) → dget? s.hw id = some it)) := by
  obtain ⟨⟨q, seen, hq, hrun⟩, -⟩ := C123_request_partial hg hl hp ha h
  have st := hst q seen hq
  refine ⟨q.profiles, hq.profiles, ?_, ?_, ?_, ?_, ?_, ?_, ?_, ?_⟩
  · intro hne
    rcases hq.cpus with ⟨h0, -⟩ | ⟨x, n, h1, h2, h3, h4⟩
    · exact absurd h0 hne
    · obtain ⟨k1, k2, -⟩ := C79_cpus st hrun he h4
      exact ⟨x, n, h1, h2, h3, k1, k2⟩
  · intro hne
    rcases hq.memory with ⟨h0, -⟩ | ⟨x, m, h1, h2, h4⟩
    · exact absurd h0 hne
    · obtain ⟨k1, k2, k3, -⟩ := C79_memory st hrun he h4
      exact ⟨x, m, h1, h2, k1, k2, k3⟩
  · intro ts hts h1 h2
    have hk := subtypes_asked hq.scsi h1 h2 hts
    exact ((C79_subtypes st hrun he).2.1 ts hk hts).1
  · intro ts hts h1 h2
    have hk := subtypes_asked hq.ide h1 h2 hts
    exact ((C79_subtypes st hrun he).2.2 ts hk hts).1
  · intro hne
    rcases hq.macs with ⟨h0, -⟩ | ⟨-, ms, h1, h2⟩
    · exact absurd h0 hne
    · exact ⟨ms, h1, ((C79_lists_partial st hrun he).1 ms h2).2⟩
  · intro hne
    rcases hq.serialConn with ⟨h0, -⟩ | ⟨-, ms, h1, h2⟩
    · exact absurd h0 hne
    · rw [List.forall₂_eq_eq_eq] at h1
      subst h1
      exact (C79_lists_partial st hrun he).2 _ h2
  · intro P p h1 h2 h3 h4 h5
    exact C77_isolation st hrun he h1 h2 h3 h4 h5
  · intro hd nets hn
    obtain ⟨hw1, k1, -, k2⟩ := C78_devices st hrun he hn
    have hdo : q.deleteOthers = false := by
      cases hb : q.deleteOthers with
      | false => rfl
      | true => exact absurd hd (hq.deleteOthers.1 hb)
    rw [k1 hdo] at k2
    have hty : ∀ code, code ∈ q.types (decide (nets = [])) → TypeNamed us code ∨ (nets = [] ∧ code = "10".toList) := by
      intro code hc
      simpa using (types_named hq _ code).1 hc
    exact ⟨fun id it hi ht => k2.1 id it hi (fun code hc => ht code (hty code hc)),
      fun id it hi hlv ht => k2.2 id it hi hlv (fun code hc => ht code (hty code hc))⟩

/-! ### Example -/

def exEffProfiles : ArgOpt := { listOpt ["-p".toList, "--profiles".toList] "profiles".toList with type := .noSpace }
def exEffCpus : ArgOpt := { flags := ["-c".toList, "--cpus".toList], dest := "cpus".toList, type := .positive }
def exEffMemory : ArgOpt := textOpt ["-m".toList, "--memory".toList] "memory".toList

/-- `a.ovf --cpus 2 --memory 2GB --profiles x` -/
def exEffArgs : List Str := ["a.ovf".toList, "--cpus".toList, "2".toList, "--memory".toList, "2GB".toList, "--profiles".toList, "x".toList]
def exEffUses : List ArgUse := [⟨exEffCpus, ["2".toList]⟩, ⟨exEffMemory, ["2GB".toList]⟩, ⟨exEffProfiles, ["x".toList]⟩]

theorem exEff_line : CmdLine editHardwareParser exEffArgs exEffUses ["a.ovf".toList] := by
  refine .word (by decide) (.flag (s := "--cpus".toList) (vals := ["2".toList]) (by decide +kernel) (by decide) (by rfl)
    (by simp [TakesMore, exEffCpus]) ?_ rfl)
  refine .flag (s := "--memory".toList) (vals := ["2GB".toList]) (by decide +kernel) (by decide) (by rfl)
    (by simp [TakesMore, exEffMemory, textOpt]) ?_ rfl
  exact .flag (s := "--profiles".toList) (vals := ["x".toList]) (by decide +kernel) (by decide) (by simp [FitsNum, exEffProfiles, listOpt])
    (by simp [StartsWithWord]) .done rfl

theorem exEff_prints : ∀ u ∈ [] ++ exEffUses, ¬ OnlyPrints u.opt := by
  have : ∀ o ∈ [exEffCpus, exEffMemory, exEffProfiles], o.act ≠ .help ∧ o.act ≠ .version := by decide +kernel
  intro u hu
  have hm : u.opt ∈ [exEffCpus, exEffMemory, exEffProfiles] := by
    have := List.mem_map_of_mem (f := ArgUse.opt) hu
    simpa [exEffUses] using this
  have := this _ hm
  unfold OnlyPrints
  rintro (h | h)
  · exact this.1 h
  · exact this.2 h

theorem exEff_clear : ClearFor mainParser exEffArgs := clear_of_isOk main_top.opts.flags (by decide +kernel)

theorem exEff_none (fl : String) (h : ∀ o ∈ [exEffCpus, exEffMemory, exEffProfiles], fl.toList ∉ o.flags) : withFlag fl exEffUses = [] := by
  unfold withFlag
  rw [List.map_eq_nil_iff, List.filter_eq_nil_iff]
  intro u hu
  have hm : u.opt ∈ [exEffCpus, exEffMemory, exEffProfiles] := by
    have := List.mem_map_of_mem (f := ArgUse.opt) hu
    simpa [exEffUses] using this
  simpa using h _ hm

theorem exEff_start (q : EhReq) (seen : ValCache) (hq : EhAsks exEffUses q) : EhStart exEhCtx q exEnv { exEhSt with seen := seen } where
  cfg := exEh_start.cfg
  ver := exEh_start.ver
  order := exEh_start.order
  configs := exEh_start.configs
  nodup := exEh_start.nodup
  nets := exEh_start.nets
  wf := exEh_start.wf
  nics := by
    intro h
    rw [← Option.isSome_map (f := Int.ofNat), asked_number hq.nics] at h
    exact absurd (exEff_none "--nics" (by decide +kernel)) h
  serial := by
    intro h
    rw [← Option.isSome_map (f := Int.ofNat), asked_number hq.serialPorts] at h
    exact absurd (exEff_none "--serial-ports" (by decide +kernel)) h

theorem exEff_ok : (match ehMain exEhCtx exEhFiles ([] ++ "edit-hardware".toList :: exEffArgs) exEhSt with
    | .ok r => (match curEnv exEhCtx r.2.envl with | .ok e => decide (e.configProfiles = ["x".toList, "y".toList]) | .error _ => false)
    | .error _ => false) = true := by
  decide +kernel

/-- `cot edit-hardware a.ovf --cpus 2 --memory 2GB --profiles x` on the package of the examples of C76: it runs, every CPU has the quantity 2
in profile x and every memory 2048, profile y is the same machine as before, and the NICs are the same -/
example : ∃ cmd s' env', ehMain exEhCtx exEhFiles ([] ++ "edit-hardware".toList :: exEffArgs) exEhSt = .ok (cmd, s') ∧
    curEnv exEhCtx s'.envl = .ok env' ∧ Everywhere env' "3".toList virtualQuantity (.str "2".toList) [some "x".toList] s'.hw ∧
    Everywhere env' "4".toList virtualQuantity (.str "2048".toList) [some "x".toList] s'.hw ∧
    SameIn exEnv env' (some "y".toList) exHw s'.hw ∧ dget? s'.hw "11".toList = some (exNic "11" {none}) := by
  have hok := exEff_ok
  cases hr : ehMain exEhCtx exEhFiles ([] ++ "edit-hardware".toList :: exEffArgs) exEhSt with
  | error e => rw [hr] at hok; cases hok
  | ok r =>
    obtain ⟨cmd, s'⟩ := r
    rw [hr] at hok
    dsimp only at hok
    cases he : curEnv exEhCtx s'.envl with
    | error e => rw [he] at hok; cases hok
    | ok env' =>
      rw [he] at hok
      have hcfg := of_decide_eq_true hok
      obtain ⟨L, h1, h2, h3, -, -, -, -, h4, h5⟩ := C123_effects_partial .done exEff_line exEff_prints exEff_clear exEff_start hr he
      have hw1 : withFlag "--profiles" exEffUses = [["x".toList]] := by decide +kernel
      have hw2 : withFlag "--cpus" exEffUses = [["2".toList]] := by decide +kernel
      have hw3 : withFlag "--memory" exEffUses = [["2GB".toList]] := by decide +kernel
      rw [hw1] at h1
      rw [hw2] at h2
      rw [hw3] at h3
      have hL : L = some ["x".toList] := by
        rcases h1 with ⟨h, -⟩ | ⟨-, l, h, rfl⟩
        · cases h
        · cases h with
          | cons h h' =>
            cases h'
            rename_i t
            have k1 : argAtom exEffProfiles "x".toList = .ok (.text "x".toList) := by decide +kernel
            have k2 := (argAtom_iff exEffProfiles "x".toList (.text t)).2 ⟨⟨t, rfl, h⟩, by intro cs h; cases h⟩
            rw [k1] at k2
            cases k2
            rfl
      subst hL
      refine ⟨cmd, s', env', rfl, he, ?_, ?_, ?_, ?_⟩
      · obtain ⟨x, n, k1, k2, k0, -, k3⟩ := h2 (by simp)
        simp only [List.getLast?_singleton, Option.some.injEq, List.cons.injEq, and_true] at k1
        subst k1
        have e1 : argAtom exEffCpus "2".toList = .ok (.int 2) := by decide +kernel
        have e2 := (argAtom_iff exEffCpus "2".toList (.int n)).2 ⟨⟨n, rfl, k2, k0⟩, by intro cs h; cases h⟩
        rw [e1] at e2
        cases e2
        exact k3
      · obtain ⟨x, n, k1, k2, -, k3, -⟩ := h3 (by simp)
        simp only [List.getLast?_singleton, Option.some.injEq, List.cons.injEq, and_true] at k1
        subst k1
        rw [← memoryMeans_iff, show parseMemory "2GB".toList = .ok 2048 from by decide +kernel] at k2
        cases k2
        exact k3
      · exact h4 _ _ rfl (by simp) (by decide) (by rw [hcfg]; decide) (by decide)
      · exact (h5 (exEff_none _ (by decide +kernel)) [some "A".toList] (by decide +kernel)).1 _ _ (by decide +kernel) (by
          intro code hc ht
          have hcode : code = "10".toList := by
            obtain ⟨S, hS⟩ := ht
            have : [((Val.str "10".toList), ({none} : PSet))] = [(.str code, S)] := hS
            simp only [List.cons.injEq, Prod.mk.injEq, Val.str.injEq] at this
            exact this.1.1.symm
          subst hcode
          have hno : ∀ fs : List String, (∀ fl ∈ fs, ∀ o ∈ [exEffCpus, exEffMemory, exEffProfiles], fl.toList ∉ o.flags) → ¬ UsesFlag exEffUses fs := by
            rintro fs hf ⟨fl, h1, h2⟩
            exact h2 (exEff_none fl (hf fl h1))
          rcases hc with (⟨h, -⟩ | ⟨h, -⟩ | ⟨-, h⟩ | ⟨h, -⟩ | ⟨h, -⟩ | ⟨h, -⟩) | ⟨h, -⟩
          · exact absurd h (by decide)
          · exact absurd h (by decide)
          · exact hno _ (by decide +kernel) h
          · exact absurd h (by decide)
          · exact absurd h (by decide)
          · exact absurd h (by decide)
          · cases h)

end Cot
