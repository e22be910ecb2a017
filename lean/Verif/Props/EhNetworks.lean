import Verif.Props.EhEffects
import Verif.Props.EditHardwareNetworks
import Verif.Props.EditHardwareNames
/-
C123: what an edit-hardware command line does to profiles, networks, NIC types and system types.
-/
namespace Cot

variable {c : EhCtx} {f : EhFiles}

theorem expand_expanded (names : List Str) (n : Nat) : Expanded names n (expandListWildcard names n) := by
  obtain ⟨h1, h2, h3⟩ := C31_expand names n
  by_cases he : names = []
  · exact Or.inl ⟨Or.inl he, by rw [h1 he, he]⟩
  by_cases hn : n ≤ names.length
  · exact Or.inl ⟨Or.inr hn, h2 hn⟩
  · obtain ⟨rs, first, k1, k2, k3, k4⟩ := h3 names.dropLast (names.getLast he) (List.dropLast_concat_getLast he).symm (by omega)
    exact Or.inr ⟨_, _, rs, first, (List.dropLast_concat_getLast he).symm, by omega, k1, by rw [k1]; exact k2, k3, k4⟩

/-- full names of NIC types stand for themselves -/
theorem nicWords_self {x : Str} (h : ∃ y, FirstMatch nicWords y x) : FirstMatch nicWords x x := by
  obtain ⟨y, pre, ws, post, h, -⟩ := h
  have hm : (ws, x) ∈ nicWords := by rw [h]; simp
  have hall : ∀ e ∈ nicWords, canonNics [e.2] = .ok [e.2] := by decide +kernel
  have := (canonNics_iff [x] [x]).1 (hall _ hm)
  cases this with
  | cons h _ => exact h

theorem canonNics_self {given l : List Str} (h : List.Forall₂ (FirstMatch nicWords) given l) : canonNics l = .ok l := by
  rw [canonNics_iff]
  induction h with
  | nil => exact .nil
  | cons h _ ih => exact .cons (nicWords_self ⟨_, h⟩) ih

/-- **C123 (profiles).** Which profiles `cot … edit-hardware …` leaves, read off its options: without `--delete-all-other-profiles` the old
ones, in their order, and those of `--profiles`; with it, none that was not named stays but those that the user wants to keep.  Profiles are
created with the user's consent, label and description, and the declarations of old ones that stay are untouched.  The system types of
`--virtual-system-type` are those of the hardware section afterwards; without it the section is the same.  All other sections of the descriptor
are the same. -/
theorem C123_profiles_partial {g l : List Str} {gus us : List ArgUse} {ws : List Str} (hg : CmdLine mainParser g gus [])
    (hl : CmdLine editHardwareParser l us ws) (hp : ∀ u ∈ gus ++ us, ¬ OnlyPrints u.opt) (ha : ClearFor mainParser l) {cmd : EhCmd} {s s' : EhSt}
    {env env' : Env} (hst : ∀ q seen, EhAsks us q → EhStart c q env { s with seen := seen })
    (h : ehMain c f (g ++ "edit-hardware".toList :: l) s = .ok (cmd, s')) (he : curEnv c s'.envl = .ok env') :
    (∃ L : Option (List Str), AskedList (fun s t => Padded s t ∧ ∀ c ∈ t, isWs c = false) (withFlag "--profiles" us) L ∧
      (withFlag "--delete-all-other-profiles" us = [] → (∀ p, p ∈ env'.configProfiles ↔ p ∈ env.configProfiles ∨ p ∈ L.getD []) ∧
        env.configProfiles <+: env'.configProfiles) ∧
      (withFlag "--delete-all-other-profiles" us ≠ [] → ∀ p ∈ env'.configProfiles, p ∈ L.getD [] ∨
        (L ≠ none ∧ p ∈ env.configProfiles ∧ c.ask (.deleteProfile p) = false)) ∧
      (∀ p ∈ L.getD [], p ∈ env'.configProfiles)) ∧
    (∀ p ∈ env'.configProfiles, p ∉ env.configProfiles → c.ask (.createProfile p) = true ∧
      ∃ x, DeclaresProfile c.env.ver s'.envl p x ∧ TextIs x (ovfTag c.env.ver "Label".toList) (some (c.input (.profileLabel p))) ∧
        TextIs x (ovfTag c.env.ver "Description".toList) (some (c.input (.profileDesc (c.input (.profileLabel p)))))) ∧
    (∀ p ∈ env'.configProfiles, p ∈ env.configProfiles → ∀ x, DeclaresProfile c.env.ver s.envl p x → DeclaresProfile c.env.ver s'.envl p x) ∧
    (withFlag "--virtual-system-type" us = [] → s'.hws = s.hws) ∧
    (withFlag "--virtual-system-type" us ≠ [] → ∀ hws, s.hws = some hws → (kids hws (ovfTag c.env.ver "System".toList)).length ≤ 1 →
      (∀ x ∈ kids hws (ovfTag c.env.ver "System".toList), (kids x vstTag).length ≤ 1) → ∃ ts hws',
      (withFlag "--virtual-system-type" us).flatten.Forall₂ (fun s t => Padded s t ∧ ∀ c ∈ t, isWs c = false) ts ∧ s'.hws = some hws' ∧
      (ts ≠ [] → ts ≠ [[]] → getSystemTypes c.env.ver (some hws') = some ts) ∧
      SameButKids (ovfTag c.env.ver "System".toList) hws hws') ∧
    otherSections c.env.ver s'.envl = otherSections c.env.ver s.envl := by
  obtain ⟨⟨q, seen, hq, hrun⟩, -⟩ := C123_request_partial hg hl hp ha h
  have st := hst q seen hq
  obtain ⟨env2, e2, -, -, p1, p2⟩ := C76_profiles st hrun
  rw [he] at e2
  cases e2
  obtain ⟨d1, -, -, -, -, d2, d3⟩ := C78_descriptor st hrun
  dsimp only at d1 d2 d3
  refine ⟨⟨q.profiles, hq.profiles, ?_, ?_, ?_⟩, ?_, ?_, ?_, ?_, d1⟩
  · intro hd
    have hdo : ∀ p, ¬ Deleted c q p := fun p hc => hq.deleteOthers.1 hc.1 hd
    refine ⟨fun p => by rw [p1]; exact ⟨fun h => h.1, fun h => ⟨h, hdo p⟩⟩, ?_⟩
    rwa [List.filter_eq_self.2 (fun p _ => decide_eq_true (hdo p))] at p2
  · intro hd p hpp
    obtain ⟨k1, k2⟩ := (p1 p).1 hpp
    by_cases hin : p ∈ q.profiles.getD []
    · exact Or.inl hin
    · have hb : q.deleteOthers = true := hq.deleteOthers.2 hd
      refine Or.inr ⟨fun hn => k2 ⟨hb, hin, Or.inl hn⟩, k1.resolve_right hin, ?_⟩
      cases hask : c.ask (.deleteProfile p) with
      | false => rfl
      | true => exact absurd ⟨hb, hin, Or.inr hask⟩ k2
  · intro p hpp
    exact (p1 p).2 ⟨Or.inr hpp, fun hc => hc.2.1 hpp⟩
  · intro p hpp hn
    exact ⟨(C76_consent st hrun he).1 p hpp hn, (C76_labels st hrun he hpp).2 hn⟩
  · intro p hpp hn
    exact (C76_labels st hrun he hpp).1 hn
  · intro hno
    rcases hq.systemTypes with ⟨-, h0⟩ | ⟨h0, -⟩
    · exact d2 h0
    · exact absurd hno h0
  · intro hne hws hh t1 t2
    rcases hq.systemTypes with ⟨h0, -⟩ | ⟨-, ts, k1, k2⟩
    · exact absurd h0 hne
    · obtain ⟨e, j1, j2⟩ := d3 ts k2
      rw [hh] at j1
      obtain ⟨hws', s1, m1, m2, -, m3, -⟩ := C44_types c.env.ver hws ts t1 t2
      rw [m1] at j1
      cases j1
      refine ⟨ts, _, k1, j2, fun n1 n2 => m2.2 ⟨n1, n2, ?_⟩, m3⟩
      intro x hx hc
      have : ∀ {a b : List Str}, List.Forall₂ (fun s t => Padded s t ∧ ∀ c ∈ t, isWs c = false) a b → x ∈ b → ∀ c ∈ x, isWs c = false := by
        intro a b hab
        induction hab with
        | nil => intro h; cases h
        | cons h _ ih =>
          intro hx
          rcases List.mem_cons.1 hx with rfl | hx
          · exact h.2
          · exact ih hx
      exact absurd (this k1 hx ' ' hc) (by decide)

/-- **C123 (networks).** What `cot … edit-hardware …` does to NIC types and networks, read off its options: after `--nic-types` every NIC of the
profiles that were named has these types by their full names; networks are only added, and with the user's consent; after `--nic-networks` the
NICs are connected in order to these networks, with the last one as a pattern for all that are left, and these networks are declared. -/
theorem C123_networks_partial {g l : List Str} {gus us : List ArgUse} {ws : List Str} (hg : CmdLine mainParser g gus [])
    (hl : CmdLine editHardwareParser l us ws) (hp : ∀ u ∈ gus ++ us, ¬ OnlyPrints u.opt) (ha : ClearFor mainParser l) {cmd : EhCmd} {s s' : EhSt}
    {env env' : Env} (hst : ∀ q seen, EhAsks us q → EhStart c q env { s with seen := seen })
    (h : ehMain c f (g ++ "edit-hardware".toList :: l) s = .ok (cmd, s')) (he : curEnv c s'.envl = .ok env')
    {nets : List (Option Str)} (hn : networks c.env.ver s.envl = .ok nets) :
    ∃ (L : Option (List Str)) (new : List Str),
      AskedList (fun s t => Padded s t ∧ ∀ c ∈ t, isWs c = false) (withFlag "--profiles" us) L ∧
      networks c.env.ver s'.envl = .ok (nets ++ new.map some) ∧ (∀ n ∈ new, some n ∉ nets ∧ c.ask (.createNetwork n) = true) ∧
      (∀ ts, ts ≠ [] → (withFlag "--nic-types" us).flatten.Forall₂ (FirstMatch nicWords) ts →
        (∀ t ∈ ts, NicSupported c.plat t) ∧ Everywhere env' "10".toList resourceSubType (.tup ts) ((L.getD []).map some) s'.hw) ∧
      ((L.getD []).Nodup →
        (withFlag "--nic-networks" us ≠ [] → ∃ names,
          Expanded (withFlag "--nic-networks" us).flatten
            (maxDevices env' "10".toList (if L.getD [] = [] then env'.configProfiles.map some ++ [none] else (L.getD []).map some) s'.hw) names ∧
          (∀ n ∈ names, some n ∈ nets ∨ n ∈ new) ∧
          InOrder env' "10".toList connection names (names.getLast?.getD [])
            (match L with | none => env'.configProfiles.map some ++ [none] | some P => P.map some) s'.hw) ∧
        (withFlag "--nic-networks" us = [] → withFlag "--nics" us = [] → withFlag "--delete-all-other-profiles" us = [] → nets ≠ [] →
          new = [] ∧ ∀ id it, dget? s.hw id = some it → OfType it "10".toList → ∃ it', dget? s'.hw id = some it' ∧ OfType it' "10".toList ∧
            ∀ p, it'.getValue env' connection (some {p}) = it.getValue env' connection (some {p}))) := by
  obtain ⟨⟨q, seen, hq, hrun⟩, -⟩ := C123_request_partial hg hl hp ha h
  have st := hst q seen hq
  obtain ⟨new, n1, n2⟩ := C81_networks st hrun hn
  refine ⟨q.profiles, new, hq.profiles, n1, n2, ?_, ?_⟩
  · intro ts hts ht
    rcases hq.nicTypes with ⟨h0, -⟩ | ⟨-, ts', k1, k2⟩
    · rw [h0] at ht
      cases ht
      exact absurd rfl hts
    · have : ts' = ts := by
        have : ∀ {a b d : List Str}, List.Forall₂ (FirstMatch nicWords) a b → List.Forall₂ (FirstMatch nicWords) a d → b = d := by
          intro a b d hab
          induction hab generalizing d with
          | nil => intro h; cases h; rfl
          | cons k _ ih => intro h; cases h with | cons k' r => rw [firstMatch_unique k k', ih r]
        exact this k1 ht
      subst this
      obtain ⟨l', j1, j2, j3⟩ := (C79_subtypes st hrun he).1 ts' k2 hts
      rw [canonNics_self ht] at j1
      cases j1
      exact ⟨(C37_nic_types c.plat ts').1.1 j2, j3⟩
  · intro hnd
    have hT : allProfilesIfEmpty env' q.profList =
        if q.profiles.getD [] = [] then env'.configProfiles.map some ++ [none] else (q.profiles.getD []).map some := by
      unfold allProfilesIfEmpty EhReq.profList
      by_cases h0 : q.profiles.getD [] = []
      · rw [if_pos h0, if_pos (by rw [h0]; rfl)]
      · rw [if_neg h0, if_neg (by simpa using h0)]
    refine ⟨fun hne => ?_, fun h1 h2 h3 hnn => ?_⟩
    · rcases hq.networks with ⟨h0, -⟩ | ⟨-, ns, k1, k2⟩
      · exact absurd h0 hne
      · rw [List.forall₂_eq_eq_eq] at k1
        subst k1
        obtain ⟨names, j1, j2, j3⟩ := (C81_connections_partial st hrun he hnd hn n1).1 _ k2
        refine ⟨names, ?_, ?_, j3⟩
        · rw [← hT, j1]
          exact expand_expanded _ _
        · intro n hnm
          rcases List.mem_append.1 (j2 n hnm) with h | h
          · exact Or.inl h
          · obtain ⟨m, hm, he⟩ := List.mem_map.1 h
            cases he
            exact Or.inr hm
    · have q1 : q.networks = none := by
        rcases hq.networks with ⟨-, h0⟩ | ⟨h0, -⟩
        · exact h0
        · exact absurd h1 h0
      have q2 : q.nics = none := by
        rw [← Option.not_isSome_iff_eq_none, ← Option.isSome_map (f := Int.ofNat), asked_number hq.nics]
        exact not_not.2 h2
      have q3 : q.deleteOthers = false := by
        cases hb : q.deleteOthers with
        | false => rfl
        | true => exact absurd h3 (hq.deleteOthers.1 hb)
      obtain ⟨j1, j2⟩ := C81_kept st hrun he q3 hnd q1 hn hnn (by
        intro pats hi
        obtain ⟨-, n, -, hq2, -⟩ := hi
        rw [q2] at hq2
        cases hq2)
      rw [j1] at n1
      have := Except.ok.inj n1
      have h0 : new.map some = [] := by simpa using this.symm
      exact ⟨List.map_eq_nil_iff.1 h0, j2 q2⟩

/-- **C123 (NIC names).** After `--nic-names` the NICs have, one after the other, these names, with the last one as a pattern for all that are
left; and after `--nic-networks` with `--network-descriptions` each network of the list has the description at its position.  Names must not look
like placeholders. -/
theorem C123_nic_names_partial {g l : List Str} {gus us : List ArgUse} {ws : List Str} (hg : CmdLine mainParser g gus [])
    (hl : CmdLine editHardwareParser l us ws) (hp : ∀ u ∈ gus ++ us, ¬ OnlyPrints u.opt) (ha : ClearFor mainParser l) {cmd : EhCmd} {s s' : EhSt}
    {env env' : Env} (hst : ∀ q seen, EhAsks us q → EhStart c q env { s with seen := seen })
    (h : ehMain c f (g ++ "edit-hardware".toList :: l) s = .ok (cmd, s')) (he : curEnv c s'.envl = .ok env')
    {nets : List (Option Str)} (hn : networks c.env.ver s.envl = .ok nets) :
    ∃ (L : Option (List Str)), AskedList (fun s t => Padded s t ∧ ∀ c ∈ t, isWs c = false) (withFlag "--profiles" us) L ∧
      ∀ m, m = maxDevices env' "10".toList (if L.getD [] = [] then env'.configProfiles.map some ++ [none] else (L.getD []).map some) s'.hw →
      (L.getD []).Nodup →
        (withFlag "--nic-names" us ≠ [] → LiteralSub env' → ∃ names, Expanded (withFlag "--nic-names" us).flatten m names ∧
          ((∀ x ∈ names, TameText x) →
            (∀ id it, dget? s'.hw id = some it → OfType it "10".toList → NameReady env' it
              (match L with | none => env'.configProfiles.map some ++ [none] | some P => P.map some)) →
            InOrder env' "10".toList (elementName env'.ver) names []
              (match L with | none => env'.configProfiles.map some ++ [none] | some P => P.map some) s'.hw)) ∧
        (withFlag "--nic-networks" us ≠ [] → ∃ names descs, Expanded (withFlag "--nic-networks" us).flatten m names ∧
          Expanded (withFlag "--network-descriptions" us).flatten m descs ∧
          (∀ (i : Nat) n, names[i]? = some n → n ∉ names.drop (i + 1) →
            (∀ x, descs[i]? = some x → x ≠ [] ∨ some n ∈ nets → Described c.env.ver s'.envl n x) ∧
            (some n ∉ nets → (descs[i]?).getD [] = [] → Described c.env.ver s'.envl n (c.input (.networkDesc n)))) ∧
          (∀ n ∉ names, ∀ x, Described c.env.ver s.envl n x → Described c.env.ver s'.envl n x)) := by
  obtain ⟨⟨q, seen, hq, hrun⟩, -⟩ := C123_request_partial hg hl hp ha h
  have st := hst q seen hq
  refine ⟨q.profiles, hq.profiles, ?_⟩
  intro m hm hnd
  have hT : allProfilesIfEmpty env' q.profList =
      if q.profiles.getD [] = [] then env'.configProfiles.map some ++ [none] else (q.profiles.getD []).map some := by
    unfold allProfilesIfEmpty EhReq.profList
    by_cases h0 : q.profiles.getD [] = []
    · rw [if_pos h0, if_pos (by rw [h0]; rfl)]
    · rw [if_neg h0, if_neg (by simpa using h0)]
  rw [← hT] at hm
  refine ⟨fun hne hlit => ?_, fun hne => ?_⟩
  · rcases hq.nicNames with ⟨h0, -⟩ | ⟨-, ns, k1, k2⟩
    · exact absurd h0 hne
    · rw [List.forall₂_eq_eq_eq] at k1
      subst k1
      refine ⟨_, expand_expanded _ m, fun ht hr => ?_⟩
      exact C79_names_partial st hrun he hnd hlit k2 (by rw [hm]) ht hr
  · rcases hq.networks with ⟨h0, -⟩ | ⟨-, ns, k1, k2⟩
    · exact absurd h0 hne
    · rw [List.forall₂_eq_eq_eq] at k1
      subst k1
      have hd : q.descriptions.getD [] = (withFlag "--network-descriptions" us).flatten := by
        rcases hq.descriptions with ⟨h0, h1⟩ | ⟨-, ds, h1, h2⟩
        · rw [h0, h1]; rfl
        · rw [List.forall₂_eq_eq_eq] at h1
          rw [h2, h1]; rfl
      obtain ⟨j1, j2⟩ := (C81_descriptions st hrun he hnd hn hm (descs := expandListWildcard (q.descriptions.getD []) m) rfl).1 _ _ k2 rfl
      refine ⟨_, _, expand_expanded _ m, by rw [← hd]; exact expand_expanded _ m, ?_, j2⟩
      intro i n h1 h2
      obtain ⟨w1, w2, -⟩ := j1 i n h1 h2
      exact ⟨w1, w2⟩

/-! ### Example -/

def exNetTypes : ArgOpt := listOpt ["--nic-types".toList] "nic_types".toList
def exNetNames : ArgOpt := listOpt ["-N".toList, "--nic-networks".toList] "nic_networks".toList

/-- `a.ovf --nic-types e1000 VirtIO --nic-networks B --profiles z` -/
def exNetArgs : List Str := ["a.ovf".toList, "--nic-types".toList, "e1000".toList, "VirtIO".toList, "--nic-networks".toList, "B".toList,
  "--profiles".toList, "z".toList]
def exNetUses : List ArgUse := [⟨exNetTypes, ["e1000".toList, "VirtIO".toList]⟩, ⟨exNetNames, ["B".toList]⟩, ⟨exEffProfiles, ["z".toList]⟩]

theorem exNets_line : CmdLine editHardwareParser exNetArgs exNetUses ["a.ovf".toList] := by
  refine .word (by decide) (.flag (s := "--nic-types".toList) (vals := ["e1000".toList, "VirtIO".toList]) (by decide +kernel) (by decide)
    (by simp [FitsNum, exNetTypes, listOpt]) (by intro _; unfold StartsWithWord; decide +kernel) ?_ rfl)
  refine .flag (s := "--nic-networks".toList) (vals := ["B".toList]) (by decide +kernel) (by decide) (by simp [FitsNum, exNetNames, listOpt])
    (by intro _; unfold StartsWithWord; decide +kernel) ?_ rfl
  exact .flag (s := "--profiles".toList) (vals := ["z".toList]) (by decide +kernel) (by decide) (by simp [FitsNum, exEffProfiles, listOpt])
    (by simp [StartsWithWord]) .done rfl

theorem exNets_opts {u : ArgUse} (hu : u ∈ exNetUses) : u.opt ∈ [exNetTypes, exNetNames, exEffProfiles] := by
  have := List.mem_map_of_mem (f := ArgUse.opt) hu
  simpa [exNetUses] using this

theorem exNets_prints : ∀ u ∈ [] ++ exNetUses, ¬ OnlyPrints u.opt := by
  have h : ∀ o ∈ [exNetTypes, exNetNames, exEffProfiles], o.act ≠ .help ∧ o.act ≠ .version := by decide +kernel
  intro u hu
  have := h _ (exNets_opts hu)
  unfold OnlyPrints
  rintro (h | h)
  · exact this.1 h
  · exact this.2 h

theorem exNets_clear : ClearFor mainParser exNetArgs := clear_of_isOk main_top.opts.flags (by decide +kernel)

theorem exNets_none (fl : String) (h : ∀ o ∈ [exNetTypes, exNetNames, exEffProfiles], fl.toList ∉ o.flags) : withFlag fl exNetUses = [] := by
  unfold withFlag
  rw [List.map_eq_nil_iff, List.filter_eq_nil_iff]
  intro u hu
  simpa using h _ (exNets_opts hu)

theorem exNets_start (q : EhReq) (seen : ValCache) (hq : EhAsks exNetUses q) : EhStart exEhCtx q exEnv { exEhSt with seen := seen } where
  cfg := exEh_start.cfg
  ver := exEh_start.ver
  order := exEh_start.order
  configs := exEh_start.configs
  nodup := exEh_start.nodup
  nets := exEh_start.nets
  wf := exEh_start.wf
  nics := by
    intro h
    rw [← Option.isSome_map (f := Int.ofNat), asked_number hq.nics] at h
    exact absurd (exNets_none "--nics" (by decide +kernel)) h
  serial := by
    intro h
    rw [← Option.isSome_map (f := Int.ofNat), asked_number hq.serialPorts] at h
    exact absurd (exNets_none "--serial-ports" (by decide +kernel)) h

theorem exNets_ok : (match ehMain exEhCtx exEhFiles ([] ++ "edit-hardware".toList :: exNetArgs) exEhSt with
    | .ok r => (match curEnv exEhCtx r.2.envl with | .ok _ => true | .error _ => false)
    | .error _ => false) = true := by
  decide +kernel

/-- `cot edit-hardware a.ovf --nic-types e1000 VirtIO --nic-networks B --profiles z` on the package of the examples of C76: it runs; the
profile z is new and has its label; the NICs have these types in it; the network B is new -/
example : ∃ (cmd : EhCmd) (s' : EhSt) (env' : Env) (new : List Str), ehMain exEhCtx exEhFiles ([] ++ "edit-hardware".toList :: exNetArgs) exEhSt = .ok (cmd, s') ∧
    curEnv exEhCtx s'.envl = .ok env' ∧ (∀ p, p ∈ env'.configProfiles ↔ p = "x".toList ∨ p = "y".toList ∨ p = "z".toList) ∧
    (∃ x, DeclaresProfile .v1 s'.envl "z".toList x ∧ TextIs x (ovfTag .v1 "Label".toList) (some "text".toList)) ∧
    Everywhere env' "10".toList resourceSubType (.tup ["E1000".toList, "virtio".toList]) [some "z".toList] s'.hw ∧
    networks .v1 s'.envl = .ok (some "A".toList :: new.map some) ∧
    (∃ names, (∀ n ∈ names, n = "A".toList ∨ n ∈ new) ∧
      InOrder env' "10".toList connection names (names.getLast?.getD []) [some "z".toList] s'.hw) := by
  have hok := exNets_ok
  cases hr : ehMain exEhCtx exEhFiles ([] ++ "edit-hardware".toList :: exNetArgs) exEhSt with
  | error e => rw [hr] at hok; cases hok
  | ok r =>
    obtain ⟨cmd, s'⟩ := r
    rw [hr] at hok
    dsimp only at hok
    cases he : curEnv exEhCtx s'.envl with
    | error e => rw [he] at hok; cases hok
    | ok env' =>
      have hw1 : withFlag "--profiles" exNetUses = [["z".toList]] := by decide +kernel
      have hw2 : withFlag "--nic-types" exNetUses = [["e1000".toList, "VirtIO".toList]] := by decide +kernel
      have hw3 : withFlag "--nic-networks" exNetUses = [["B".toList]] := by decide +kernel
      have hL : ∀ L, AskedList (fun s t => Padded s t ∧ ∀ c ∈ t, isWs c = false) (withFlag "--profiles" exNetUses) L → L = some ["z".toList] := by
        intro L h1
        rw [hw1] at h1
        rcases h1 with ⟨h, -⟩ | ⟨-, l, h, rfl⟩
        · cases h
        · cases h with
          | cons h h' =>
            cases h'
            rename_i t
            have k1 : argAtom exEffProfiles "z".toList = .ok (.text "z".toList) := by decide +kernel
            have k2 := (argAtom_iff exEffProfiles "z".toList (.text t)).2 ⟨⟨t, rfl, h⟩, by intro cs h; cases h⟩
            rw [k1] at k2
            cases k2
            rfl
      obtain ⟨⟨L, h1, h2, -, -⟩, h3, -⟩ := C123_profiles_partial .done exNets_line exNets_prints exNets_clear exNets_start hr he
      obtain ⟨L', new, g1, g2, -, g3, g4⟩ := C123_networks_partial .done exNets_line exNets_prints exNets_clear exNets_start hr he
        (nets := [some "A".toList]) (by decide +kernel)
      cases hL L h1
      cases hL L' g1
      have hprof := (h2 (exNets_none _ (by decide +kernel))).1
      have hc : exEnv.configProfiles = ["x".toList, "y".toList] := rfl
      have hprof' : ∀ p, p ∈ env'.configProfiles ↔ p = "x".toList ∨ p = "y".toList ∨ p = "z".toList := by
        intro p
        rw [hprof p, hc, Option.getD_some, List.mem_cons, List.mem_singleton, List.mem_singleton, or_assoc]
      obtain ⟨-, x, k1, k2, -⟩ := h3 "z".toList ((hprof' _).2 (Or.inr (Or.inr rfl))) (by rw [hc]; decide)
      rw [hw2] at g3
      have ht : List.Forall₂ (FirstMatch nicWords) [["e1000".toList, "VirtIO".toList]].flatten ["E1000".toList, "virtio".toList] :=
        (canonNics_iff _ _).1 (by decide +kernel)
      obtain ⟨names, -, j2, j3⟩ := (g4 (by decide)).1 (by rw [hw3]; simp)
      refine ⟨cmd, s', env', new, rfl, he, hprof', ⟨x, k1, k2⟩, (g3 _ (by simp) ht).2, g2, names, ?_, j3⟩
      intro n hn
      rcases j2 n hn with h | h
      · exact Or.inl (Option.some.inj (List.mem_singleton.1 h))
      · exact Or.inr h

/-- in the same case: the network B has the description that the user enters, as none was given -/
example : ∃ (cmd : EhCmd) (s' : EhSt), ehMain exEhCtx exEhFiles ([] ++ "edit-hardware".toList :: exNetArgs) exEhSt = .ok (cmd, s') ∧
    Described .v1 s'.envl "B".toList "text".toList := by
  have hok := exNets_ok
  cases hr : ehMain exEhCtx exEhFiles ([] ++ "edit-hardware".toList :: exNetArgs) exEhSt with
  | error e => rw [hr] at hok; cases hok
  | ok r =>
    obtain ⟨cmd, s'⟩ := r
    rw [hr] at hok
    dsimp only at hok
    cases he : curEnv exEhCtx s'.envl with
    | error e => rw [he] at hok; cases hok
    | ok env' =>
      obtain ⟨L, h1, h2⟩ := C123_nic_names_partial .done exNets_line exNets_prints exNets_clear exNets_start hr he
        (nets := [some "A".toList]) (by decide +kernel)
      have hw1 : withFlag "--profiles" exNetUses = [["z".toList]] := by decide +kernel
      have hw3 : withFlag "--nic-networks" exNetUses = [["B".toList]] := by decide +kernel
      have hw4 : withFlag "--network-descriptions" exNetUses = [] := exNets_none _ (by decide +kernel)
      have hL : (L.getD []).Nodup := by
        rw [hw1] at h1
        rcases h1 with ⟨-, rfl⟩ | ⟨-, l, h, rfl⟩
        · exact List.nodup_nil
        · cases h with
          | cons h h' => cases h'; exact List.nodup_singleton _
      obtain ⟨names, descs, k1, k2, k3, -⟩ := (h2 _ rfl hL).2 (by rw [hw3]; simp)
      rw [hw3] at k1
      rw [hw4] at k2
      have hd : descs = [] := by
        rcases k2 with ⟨-, h⟩ | ⟨init, pat, rs, first, h, -⟩
        · exact h
        · exact absurd h (by simp)
      subst hd
      have hsub : ∀ v r, Subst v "B".toList r → r = "B".toList := by
        intro v r h
        change Subst v ['B'] r at h
        cases h with
        | char _ h => cases h; rfl
      have hB : ∃ pre, names = pre ++ ["B".toList] := by
        rcases k1 with ⟨-, rfl⟩ | ⟨init, pat, rs, first, h, hlt, rfl, hlen, -, hs⟩
        · exact ⟨[], rfl⟩
        · have hi : init = [] ∧ pat = "B".toList := by
            cases init with
            | nil => exact ⟨rfl, ((List.cons.inj h).1).symm⟩
            | cons a b => simp at h
          obtain ⟨rfl, rfl⟩ := hi
          rw [List.nil_append] at hlen ⊢
          have hne : rs ≠ [] := by
            rintro rfl
            rw [← hlen] at hlt
            exact absurd hlt (by decide)
          refine ⟨rs.dropLast, ?_⟩
          have hl := hs (rs.length - 1) (rs.getLast hne) (by rw [← List.getLast?_eq_getElem?, List.getLast?_eq_some_getLast hne])
          conv_lhs => rw [← List.dropLast_append_getLast hne]
          rw [hsub _ _ hl]
      obtain ⟨pre, rfl⟩ := hB
      refine ⟨cmd, s', rfl, ?_⟩
      refine (k3 pre.length "B".toList (by simp) (by simp)).2 (by decide) (by simp)

end Cot
