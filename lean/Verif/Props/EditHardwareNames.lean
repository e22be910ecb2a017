import Verif.Props.EditHardwareNetworks
import Verif.Props.EditHardwareFindings
import Verif.Props.RoundTripNames
import Verif.Lemmas.EditNames
/-!
C79: the names of NICs
-/
namespace Cot

variable {c : EhCtx} {q : EhReq} {env env' : Env} {s s' : EhSt}

theorem getRaw_same_under {env : Env} {it : Item} (wf : ItemWF env it) {n : Str} {p p' : Prof}
    (h : ∀ v, Reads (it.tab n) p v ↔ Reads (it.tab n) p' v) : it.getRaw n (some {p}) = it.getRaw n (some {p'}) := by
  apply Option.ext
  intro v
  rw [getRaw_single wf, getRaw_single wf, h]

theorem NameReady.tame {env : Env} {it : Item} {L : List Prof} (h : NameReady env it L) (wf : ItemWF env it) {p : Prof}
    (hp : p ∈ L) : TameUnder env it p := by
  intro k hk v hv
  cases k with
  | en => simp [enOrder] at hk
  | vq =>
    simp only [phVals, Option.map_eq_some_iff] at hv
    obtain ⟨u, h1, rfl⟩ := hv
    exact h.quantity p hp u ((getRaw_single wf _ _ _).1 h1)
  | rst =>
    simp only [phVals, Option.map_eq_some_iff] at hv
    obtain ⟨u, h1, rfl⟩ := hv
    exact h.subtype p hp u ((getRaw_single wf _ _ _).1 h1)
  | conn =>
    simp only [phVals, Option.map_eq_some_iff] at hv
    obtain ⟨u, h1, rfl⟩ := hv
    exact h.conn p hp u ((getRaw_single wf _ _ _).1 h1)

theorem NameReady.uniform {env : Env} {it : Item} {L : List Prof} (h : NameReady env it L) (wf : ItemWF env it) :
    none ∉ L ∨ (∀ p ∈ L, ∀ k ∈ enOrder, phVals env it {p} k = phVals env it {none} k) := by
  by_cases hn : none ∈ L
  · right
    intro p hp k hk
    have e := h.same hn p hp
    cases k with
    | en => simp [enOrder] at hk
    | vq => simp only [phVals]; rw [getRaw_same_under wf (e _ (by simp))]
    | rst => simp only [phVals]; rw [getRaw_same_under wf (e _ (by simp))]
    | conn => simp only [phVals]; rw [getRaw_same_under wf (e _ (by simp))]
  · exact Or.inl hn

theorem NameReady.congr {env : Env} {it it' : Item} {L : List Prof} (h : NameReady env it' L)
    (e : ∀ n ∈ [virtualQuantity, resourceSubType, connection], it'.tab n = it.tab n) : NameReady env it L where
  quantity := by rw [← e _ (by simp)]; exact h.quantity
  subtype := by rw [← e _ (by simp)]; exact h.subtype
  conn := by rw [← e _ (by simp)]; exact h.conn
  same := by
    intro hn p hp n hm
    rw [← e _ hm]
    exact h.same hn p hp n hm

/-- **C79, names.** `--nic-names` gives the names, expanded to the largest number of NICs in a profile, to the NICs one
after the other, in natural order of their instance ids; the new name is what is read in every profile asked for. -/
theorem C79_names_partial (st : EhStart c q env s) (h : editHardware c q s = .ok s') (he : curEnv c s'.envl = .ok env')
    (hnd : (q.profiles.getD []).Nodup) (hl : LiteralSub env') {l names : List Str} (hq : q.nicNames = some l)
    (hnames : names = expandListWildcard l
      (maxDevices env' "10".toList (allProfilesIfEmpty env' q.profList) s'.hw))
    (htame : ∀ x ∈ names, TameText x)
    (hready : ∀ id it, dget? s'.hw id = some it → OfType it "10".toList → NameReady env' it (q.targets env')) :
    InOrder env' "10".toList (elementName env'.ver) names [] (q.targets env') s'.hw := by
  obtain ⟨env2, q', s1, t, r⟩ := editHardware_run st h
  obtain rfl : env2 = env' := by rw [r.cfg] at he; exact (Except.ok.inj he)
  obtain ⟨d0, ex, ns, f1, f2, -⟩ := r.tr.nets
  obtain ⟨w, se, -⟩ := r.tr.all r.ver r.ehr f2
  have n2 : env2.configProfiles.Nodup := by rw [r.prof]; exact (addNew_nodup st.nodup).filter _
  obtain ⟨d, k1, k2⟩ := r.tr.names l hq
  have hmax : maxCount d (allProfilesIfEmpty env2 q.profList) =
      maxDevices env2 "10".toList (allProfilesIfEmpty env2 q.profList) s'.hw := by
    refine maxCount_congr fun p hp => ?_
    rw [itemCounts_countOf (w 6 (by omega)) code_eth (allProfiles_nodup n2 hnd) k1 hp, ← r.tr.last,
      r.tr.counts r.ver w se (a := 6) (b := 11) (by omega) (by omega) (by
        intro i h1 h2; interval_cases i
        · exact Or.inr (vq_ne_step _ (by omega))
        all_goals exact Or.inl (by decide)) p]
  rw [hmax, ← hnames, ← r.ver] at k2
  have e67 := setItemValues_edits (w 6 (by omega)) code_eth k2
  -- later steps leave the NICs alone
  have stay : ∀ id it, dget? (t 7) id = some it → OfType it "10".toList → dget? s'.hw id = some it := by
    have one : ∀ i, i < 11 → "10".toList ∉ stepCodes i → ∀ id it, dget? (t i) id = some it → OfType it "10".toList →
        dget? (t (i+1)) id = some it := by
      intro i hi hc id it hg ht
      exact (se i hi).1 id it hg (fun c hcc hto => hc (ofType_unique ht hto ▸ hcc))
    intro id it hg ht
    rw [← r.tr.last]
    have a8 := one 7 (by omega) (by decide) id it hg ht
    have a9 := one 8 (by omega) (by decide) id it a8 ht
    have a10 := one 9 (by omega) (by decide) id it a9 ht
    exact one 10 (by omega) (by decide) id it a10 ht
  have k := k2
  unfold setItemValues at k
  obtain ⟨ids, hids, k⟩ := bind_ok_inv k
  obtain ⟨i1, i2, i3⟩ := typeIds_mem (w 6 (by omega)) code_eth hids
  obtain ⟨-, -, k5⟩ := setValuesLoop_spec ids _ i1 k
  have kt : KeepsTab env2 "10".toList virtualQuantity (t 7) (t 11) := by
    refine r.tr.keeps r.ver w se (by omega) (Nat.le_refl _) (fun j h1 h2 => Or.inl ?_)
    interval_cases j <;> decide
  refine ⟨ids, i1, i2, ?_, ?_⟩
  · intro id
    rw [i3]
    constructor
    · rintro ⟨it, hi, ht⟩
      obtain ⟨it', g1, -, -, g4⟩ := e67.items id it hi
      have ht' := (ofType_congr (g4 _ (en_rt _).symm) "10".toList).2 ht
      exact ⟨it', stay id it' g1 ht', ht'⟩
    · rintro ⟨it, hi, ht⟩
      rw [← r.tr.last] at hi
      obtain ⟨it7, m1, m2, -⟩ := kt.bwd id it hi ht
      obtain ⟨it', g1, -, -, g4⟩ := e67.back m1
      exact ⟨it', g1, (ofType_congr (g4 _ (en_rt _).symm) "10".toList).1 m2⟩
  · intro i hi
    obtain ⟨it, it', g1, g2, g3⟩ := k5 i hi
    have wfi := ((w 6 (by omega)).get g1).1
    obtain ⟨it0, y1, y2⟩ := (i3 ids[i]).1 (List.getElem_mem hi)
    rw [g1] at y1; cases y1
    obtain ⟨it1, g4, -, -, g7⟩ := e67.items _ it g1
    rw [g2] at g4; cases g4
    have ht' := (ofType_congr (g7 _ (en_rt _).symm) "10".toList).2 y2
    refine ⟨it', stay _ it' g2 ht', ?_⟩
    intro p hp hh hne
    have hv := names_plain env2
    have hrd : NameReady env2 it (q.targets env2) := (hready _ it' (stay _ it' g2 ht') ht').congr (by
      intro n hn
      simp only [List.mem_cons, List.not_mem_nil, or_false] at hn
      rcases hn with rfl | rfl | rfl
      · exact g7 _ hv.1.1
      · exact g7 _ hv.2.1.1
      · exact g7 _ hv.2.2.1.1)
    cases hx : names[i]? with
    | none => rw [hx] at hne; exact absurd rfl hne
    | some x =>
      rw [hx] at hne
      rw [List.getElem?_map, hx] at g3
      simp only [Option.map_some, Option.getD_some] at g3 hne ⊢
      rw [← targets_eq] at hp hrd
      have g3' : setUnder env2 (elementName env2.ver) (.str x) (q.profOpt.getD (env2.configProfiles.map some ++ [none])) it =
        .ok it' := by
        cases hpo : q.profOpt <;> rw [hpo] at g3 <;> exact g3
      exact setUnder_names_value hl (htame x (List.mem_of_getElem? hx)) hne _ wfi (fun p hp => hrd.tame wfi hp) g3'
        (hrd.uniform wfi) hp (by rw [← hasProfile_congr (g7 _ (en_iid _).symm)]; exact hh)

/-! ### An example: `--profiles x --nic-names E1000-{7}` -/

def exEhCtxL : EhCtx := { exEhCtx with env := exEnvL }
def exEhReqN : EhReq := { profiles := some ["x".toList], nicNames := some ["E1000-{7}".toList] }
def exEhStN : EhSt := match editHardware exEhCtxL exEhReqN exEhSt with | .ok s => s | .error _ => exEhSt

theorem exEhN_run : editHardware exEhCtxL exEhReqN exEhSt = .ok exEhStN := rfl

theorem exEhN_start : EhStart exEhCtxL exEhReqN exEnvL exEhSt where
  cfg := rfl
  ver := by decide
  order := exEh_start.order
  configs := exEh_start.configs
  nodup := exEh_start.nodup
  nets := exEh_start.nets
  wf := ⟨exHw_wf.keys, fun k it h => by
    have := exHw_wf.items k it h
    exact ⟨this.names, this.tabs, this.oneId, this.oneType, this.typed⟩, exHw_wf.ident⟩
  nics := fun h => by cases h
  serial := fun h => by cases h

/-- the NIC `id` afterwards: the type is abbreviated in the name -/
def exNicN (id name : String) : Item :=
  { exNic id {none} with
    props := (exNic id {none}).props ++ [("ElementName".toList, [(.str name.toList, {pX})])], modified := true }

theorem exEhN_hw : exEhStN.hw =
    [("1".toList, exItem), ("11".toList, exNicN "11" "_RST_-7"), ("12".toList, exNicN "12" "_RST_-8")] := rfl

theorem exNicN_ready (id name : String) : NameReady exEnvL (exNicN id name) (exEhReqN.targets exEnvL) where
  quantity := by
    intro p _ v h
    have e : (exNicN id name).tab virtualQuantity = [] := rfl
    rw [e] at h
    rcases h with ⟨S, h, -⟩ | ⟨-, S, h, -⟩ <;> cases h
  subtype := by
    intro p _ v h
    have : v = .tup ["E1000".toList] := by
      have e : (exNicN id name).tab resourceSubType = [(.tup ["E1000".toList], {none})] := rfl
      rw [e] at h
      rcases h with ⟨S, h, -⟩ | ⟨-, S, h, -⟩ <;> · simp at h; exact h.1
    subst this
    exact ⟨by decide, by decide, '1', by decide, by decide⟩
  conn := by
    intro p _ v h
    have e : (exNicN id name).tab connection = [] := rfl
    rw [e] at h
    rcases h with ⟨S, h, -⟩ | ⟨-, S, h, -⟩ <;> cases h
  same := by intro h; exact absurd h (by decide)

/-- non-vacuity of `C79_names_partial` -/
example : EhStart exEhCtxL exEhReqN exEnvL exEhSt ∧ editHardware exEhCtxL exEhReqN exEhSt = .ok exEhStN ∧
    curEnv exEhCtxL exEhStN.envl = .ok exEnvL ∧ LiteralSub exEnvL ∧
    (∀ id it, dget? exEhStN.hw id = some it → OfType it "10".toList → NameReady exEnvL it (exEhReqN.targets exEnvL)) ∧
    (∀ x ∈ expandListWildcard ["E1000-{7}".toList]
      (maxDevices exEnvL "10".toList (allProfilesIfEmpty exEnvL exEhReqN.profList) exEhStN.hw), TameText x) ∧
    (dget? exEhStN.hw "12".toList).map (fun it => it.getValue exEnvL (elementName .v1) (some {pX})) =
      some (.ok (some (.str "E1000-8".toList))) := by
  refine ⟨exEhN_start, exEhN_run, rfl, exEnvL_literal, ?_, ?_, rfl⟩
  · intro id it h ht
    rw [exEhN_hw] at h
    have hm := dget?_mem h
    simp only [List.mem_cons, Prod.mk.injEq, List.not_mem_nil, or_false] at hm
    rcases hm with ⟨-, rfl⟩ | ⟨-, rfl⟩ | ⟨-, rfl⟩
    · obtain ⟨S, hS⟩ := ht
      have e : exItem.tab resourceType = [(.str "3".toList, {none})] := rfl
      rw [e] at hS
      simp at hS
    · exact exNicN_ready _ _
    · exact exNicN_ready _ _
  · have e : expandListWildcard ["E1000-{7}".toList]
      (maxDevices exEnvL "10".toList (allProfilesIfEmpty exEnvL exEhReqN.profList) exEhStN.hw) =
        ["E1000-7".toList, "E1000-8".toList] := by decide +kernel
    rw [e]
    intro x hx
    simp only [List.mem_cons, List.not_mem_nil, or_false] at hx
    rcases hx with rfl | rfl
    · exact ⟨by decide, by decide⟩
    · exact ⟨by decide, by decide⟩

/-- **Some NICs may be named "None".**  NIC 11 is there in profile y only and NIC 12 in profile x only, so no profile has more
than one NIC, and `--nic-names Eth{0}` gives one name only, in which even the placeholder is left.  NIC 12 is called
"None". -/
theorem C79_nic_names_fails :
    ∃ s', editHardware exEhCtx { nicNames := some ["Eth{0}".toList] } { exEhSt with hw := exHwNicsXY } = .ok s' ∧
      ((dget? s'.hw "11".toList).bind (fun it => it.getRaw (elementName .v1) (some {pY}))) = some (.str "Eth{0}".toList) ∧
      ((dget? s'.hw "12".toList).bind (fun it => it.getRaw (elementName .v1) (some {pX}))) = some (.str "None".toList) :=
  ⟨_, rfl, by decide +kernel, by decide +kernel⟩

end Cot
