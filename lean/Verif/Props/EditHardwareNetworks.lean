import Verif.Props.EditHardware
import Verif.Props.Wildcard
/-
`edit-hardware`: labels of new profiles, inferred networks, descriptions of networks, and when it is ready to run
(C76 and C81, continued).
-/
namespace Cot

variable {c : EhCtx} {q : EhReq} {env env' : Env} {s s' : EhSt}

/-! ### C76, continued -/

/-- **C76, labels.** A profile that is created gets the label and the description that the user enters for it; the
declaration of a profile that was there, and is not deleted, is not touched. -/
theorem C76_labels (st : EhStart c q env s) (h : editHardware c q s = .ok s') (he : curEnv c s'.envl = .ok env') {p : Str}
    (hp : p ∈ env'.configProfiles) :
    (p ∈ env.configProfiles → ∀ x, DeclaresProfile c.env.ver s.envl p x → DeclaresProfile c.env.ver s'.envl p x) ∧
    (p ∉ env.configProfiles → ∃ x, DeclaresProfile c.env.ver s'.envl p x ∧
      TextIs x (ovfTag c.env.ver "Label".toList) (some (c.input (.profileLabel p))) ∧
      TextIs x (ovfTag c.env.ver "Description".toList) (some (c.input (.profileDesc (c.input (.profileLabel p)))))) := by
  obtain ⟨env2, q', s1, t, r⟩ := editHardware_run st h
  obtain rfl : env2 = env' := by rw [r.cfg] at he; exact (Except.ok.inj he)
  rw [r.prof, List.mem_filter, mem_addNew] at hp
  obtain ⟨hm, hd⟩ := hp
  have hd' : ¬ Deleted c q p := by simpa using hd
  obtain ⟨d, ex, ns, f1, f2, f3, -⟩ := r.tr.nets
  have keep : ∀ x, DeclaresProfile c.env.ver s1.envl p x → DeclaresProfile c.env.ver s'.envl p x := by
    rintro x ⟨u, u1, u2⟩
    exact ⟨u, by rw [f3.rest.kids (deploy_ne_net _)]; exact u1, u2⟩
  refine ⟨fun h1 x hx => keep x (r.declS p hd' (Or.inr h1) x hx), fun h1 => ?_⟩
  obtain ⟨x, x1, x2⟩ := r.declN p (hm.resolve_left h1) h1
  exact ⟨x, keep x x1, x2⟩

/-- **C76, nothing to do.** The command refuses to run, without changing anything, exactly when no option is given. -/
theorem C76_ready (q : EhReq) : q.ready = true ↔ q ≠ {} := by
  obtain ⟨a, b, d, e, f, g, h, i, j, k, l, m, n, o, p⟩ := q
  constructor
  · rintro h1 h2
    rw [h2] at h1
    cases h1
  · intro h1
    by_contra h2
    apply h1
    simp only [EhReq.ready, Bool.not_eq_true, Bool.or_eq_false_iff, Option.isSome_eq_false_iff, Option.isNone_iff_eq_none] at h2
    obtain ⟨⟨⟨⟨⟨⟨⟨⟨⟨⟨⟨⟨⟨⟨rfl, rfl⟩, rfl⟩, rfl⟩, rfl⟩, rfl⟩, rfl⟩, rfl⟩, rfl⟩, rfl⟩, rfl⟩, rfl⟩, rfl⟩, rfl⟩, rfl⟩ := h2
    rfl

theorem C76_refuses (c : EhCtx) (s : EhSt) : editHardware c {} s = .error .invalidInput := rfl

/-- non-vacuity: profile z of the example is new and has its label, x is not touched -/
example : "z".toList ∈ exEhEnv'.configProfiles ∧ "z".toList ∉ exEnv.configProfiles ∧
    exEhCtx.input (.profileLabel "z".toList) = "text".toList ∧ exEhReq.ready = true ∧
    (∃ x, DeclaresProfile .v1 exEhEnvl "x".toList x) :=
  ⟨by decide, by decide, rfl, rfl, _, _, rfl, rfl⟩

/-! ### C81, continued -/

/-- the largest number of NICs before and after -/
theorem EhRun.maxBefore {q' : EhReq} {s1 : EhSt} {h : Nat → Hw} (r : EhRun c q env s s' env' q' s1 h)
    (n1 : env.configProfiles.Nodup) (hnd : (q.profiles.getD []).Nodup) (hdel : q.deleteOthers = false) {d : Prof → Nat}
    (hd : itemCounts env' (h 2) "ethernet".toList q.profList = .ok d) :
    maxCount d (allProfilesIfEmpty env' q.profList) =
      maxDevices env' "10".toList (allProfilesIfEmpty env' q.profList) s.hw := by
  obtain ⟨d0, ex, ns, f1, f2, -⟩ := r.tr.nets
  obtain ⟨w, se, -⟩ := r.tr.all r.ver r.ehr f2
  have n2 : env'.configProfiles.Nodup := by rw [r.prof]; exact (addNew_nodup n1).filter _
  refine maxCount_congr fun p hp => ?_
  rw [itemCounts_countOf (w 2 (by omega)) code_eth (allProfiles_nodup n2 hnd) hd hp,
    r.tr.counts r.ver w se (a := 0) (b := 2) (by omega) (by omega) (by
      intro i h1 h2; left; interval_cases i <;> decide) p, r.tr.first, r.hwSame hdel]

theorem EhRun.maxAfter {q' : EhReq} {s1 : EhSt} {h : Nat → Hw} (r : EhRun c q env s s' env' q' s1 h)
    (n1 : env.configProfiles.Nodup) (hnd : (q.profiles.getD []).Nodup) {d : Prof → Nat}
    (hd : itemCounts env' (h 5) "ethernet".toList q.profList = .ok d) :
    maxCount d (allProfilesIfEmpty env' q.profList) =
      maxDevices env' "10".toList (allProfilesIfEmpty env' q.profList) s'.hw := by
  obtain ⟨d0, ex, ns, f1, f2, -⟩ := r.tr.nets
  obtain ⟨w, se, -⟩ := r.tr.all r.ver r.ehr f2
  have n2 : env'.configProfiles.Nodup := by rw [r.prof]; exact (addNew_nodup n1).filter _
  refine maxCount_congr fun p hp => ?_
  rw [itemCounts_countOf (w 5 (by omega)) code_eth (allProfiles_nodup n2 hnd) hd hp, ← r.tr.last,
    r.tr.counts r.ver w se (a := 5) (b := 11) (by omega) (by omega) (by
      intro i h1 h2; interval_cases i
      · exact Or.inr (vq_ne_step _ (by omega))
      · exact Or.inr (vq_ne_step _ (by omega))
      all_goals exact Or.inl (by decide)) p]

/-- the networks and descriptions that the command works with -/
theorem EhRun.inferred {q' : EhReq} {s1 : EhSt} {h : Nat → Hw} (r : EhRun c q env s s' env' q' s1 h)
    (n1 : env.configProfiles.Nodup) (hnd : (q.profiles.getD []).Nodup) (hdel : q.deleteOthers = false)
    (hq : q.networks = none) {nets : List (Option Str)} (hn : networks c.env.ver s.envl = .ok nets) :
    (∀ pats, q'.networks = some pats ↔
      Infers q (maxDevices env' "10".toList (allProfilesIfEmpty env' q.profList) s.hw) nets pats) := by
  obtain ⟨t, t1, t2, t3⟩ := r.tr.infer
  obtain ⟨d0, ex, ns, f1, f2, f3, -⟩ := r.tr.nets
  have hcur : curEnv c t.envl = .ok env' := by
    rw [t1, ← curEnv_congr (configProfiles_congr (f3.rest.kids (deploy_ne_net _)))]
    exact r.cfg
  obtain ⟨d, hd⟩ : ∃ d, itemCounts env' (h 2) "ethernet".toList q.profList = .ok d := by
    obtain ⟨ids, hids⟩ := findAllItems_ok (env := env') (hw := h 2) code_eth
    unfold itemCounts
    rw [hids]
    exact ⟨_, rfl⟩
  have := (inferNetworks_cases t3 hcur (by rw [t2]; exact hd) (by rw [t1, r.nets]; exact hn) hq).1
  rw [r.maxBefore n1 hnd hdel hd] at this
  exact this

theorem maxCount_const {n : Nat} {L : List Prof} (h : L ≠ []) : maxCount (fun _ => n) L = n := by
  have hf : ∀ (l : List Prof), l.foldl (fun m _ => max m n) n = n := by
    intro l
    induction l with
    | nil => rfl
    | cons a r ih => rw [List.foldl_cons, Nat.max_self]; exact ih
  cases L with
  | nil => exact absurd rfl h
  | cons a r =>
    unfold maxCount
    rw [List.foldl_cons, Nat.max_eq_right (Nat.zero_le _)]
    exact hf r

/-- **C81, inferred networks.** If networks are inferred from the pattern of the old ones, then these come first in the
expanded list, the networks in the list are all declared, and the NICs are connected to them one after the other. -/
theorem C81_inferred (st : EhStart c q env s) (h : editHardware c q s = .ok s') (he : curEnv c s'.envl = .ok env')
    (hdel : q.deleteOthers = false) {nets nets' : List (Option Str)} (hn : networks c.env.ver s.envl = .ok nets)
    (hn' : networks c.env.ver s'.envl = .ok nets') {pats : List Str}
    (hi : Infers q (maxDevices env' "10".toList (allProfilesIfEmpty env' q.profList) s.hw) nets pats) :
    ∃ n names, q.nics = some n ∧ names.length = n ∧ nets <+: names.map some ∧ (∀ x ∈ names, some x ∈ nets') ∧
      InOrder env' "10".toList connection names (names.getLast?.getD []) (q.targets env') s'.hw := by
  obtain ⟨env2, q', s1, t, r⟩ := editHardware_run st h
  obtain rfl : env2 = env' := by rw [r.cfg] at he; exact (Except.ok.inj he)
  obtain ⟨i1, n, names, i2, i3, i4, i5, i6, i7⟩ := id hi
  have hnd := (st.nics (by rw [i2]; rfl)).1
  have hq' := (r.inferred st.nodup hnd hdel i1 hn pats).2 hi
  obtain ⟨d, ex, ns, f1, f2, f3, f4, f5, f6⟩ := r.tr.nets
  obtain ⟨w, se, -⟩ := r.tr.all r.ver r.ehr f2
  rw [r.nets, hn] at f2; cases f2
  have hmax : maxDevices env2 "10".toList (allProfilesIfEmpty env2 q.profList) s'.hw = n := by
    have hc := (C79_counts st h r.cfg).1 n i2
    have hne : allProfilesIfEmpty env2 q.profList ≠ [] := by
      unfold allProfilesIfEmpty
      split
      · simp
      · rename_i hx; exact hx
    unfold maxDevices
    rw [maxCount_congr (g := fun _ => n) hc]
    exact maxCount_const hne
  rw [r.maxAfter st.nodup hnd f1, hmax] at f6
  obtain ⟨M, m1, m2, -⟩ := f3.list nets (by rw [r.nets]; exact hn)
  rw [m1] at hn'; cases hn'
  have hef : effNetworks q' n nets = some pats := by
    unfold effNetworks
    rw [if_neg (by rw [hq']; simp), hq']
  obtain ⟨g1, g2⟩ := f6 pats hef
  obtain ⟨x1, -, x3⟩ := C32_guess_sound i7
  refine ⟨n, expandListWildcard pats n, i2, ?_, ?_, by rw [← g1]; exact m2, ?_⟩
  · have hx := C31_length pats n (by
      rintro rfl
      have := x3 n (by omega)
      rw [show expandListWildcard [] n = [] from rfl] at this
      have := this.length_le
      simp only [List.length_nil] at this; omega)
    rw [hx]; omega
  · rw [i3]
    obtain ⟨z, hz⟩ := x3 n (by omega)
    rw [← hz, List.map_append]
    exact List.prefix_append _ _
  · refine (setNicValues_inOrder (w 5 (by omega)) (conn_plain _) (conn_iid _) conn_rt (by decide +kernel) g2).keep
      (conn_plain _) ?_
    rw [← r.tr.last]
    refine r.tr.keeps r.ver w se (by omega) (Nat.le_refl _) (fun j h1 h2 => ?_)
    interval_cases j
    · exact Or.inr ⟨_, rfl, (conn_plain _).1⟩
    all_goals exact Or.inl (by decide)

/-- **C81, nothing inferred.** If networks are neither given nor inferred, and the package declares a network, then it
declares the same networks afterwards.  If NICs are not added or removed either, then all NICs are there and connected as
before. -/
theorem C81_kept (st : EhStart c q env s) (h : editHardware c q s = .ok s') (he : curEnv c s'.envl = .ok env')
    (hdel : q.deleteOthers = false) (hnd : (q.profiles.getD []).Nodup) (hq : q.networks = none)
    {nets : List (Option Str)} (hn : networks c.env.ver s.envl = .ok nets) (hne : nets ≠ [])
    (hi : ∀ pats, ¬ Infers q (maxDevices env' "10".toList (allProfilesIfEmpty env' q.profList) s.hw) nets pats) :
    networks c.env.ver s'.envl = .ok nets ∧
    (q.nics = none → ∀ id it, dget? s.hw id = some it → OfType it "10".toList →
      ∃ it', dget? s'.hw id = some it' ∧ OfType it' "10".toList ∧
        ∀ p, it'.getValue env' connection (some {p}) = it.getValue env' connection (some {p})) := by
  obtain ⟨env2, q', s1, t, r⟩ := editHardware_run st h
  obtain rfl : env2 = env' := by rw [r.cfg] at he; exact (Except.ok.inj he)
  have hq' : q'.networks = none := by
    cases hx : q'.networks with
    | none => rfl
    | some pats => exact absurd ((r.inferred st.nodup hnd hdel hq hn pats).1 hx) (hi pats)
  obtain ⟨d, ex, ns, f1, f2, f3, f4, f5, f6⟩ := r.tr.nets
  obtain ⟨w, se, -⟩ := r.tr.all r.ver r.ehr f2
  rw [r.nets, hn] at f2; cases f2
  have hef : effNetworks q' (maxCount d (allProfilesIfEmpty env2 q.profList)) nets = none := by
    unfold effNetworks
    rw [if_neg (fun hh => hne hh.2.1), hq']
  obtain ⟨g1, g2, -⟩ := f5 hef
  refine ⟨?_, ?_⟩
  · obtain ⟨M, m1, m2, m3⟩ := f3.list nets (by rw [r.nets]; exact hn)
    have : M = [] := by
      rw [List.eq_nil_iff_forall_not_mem]
      intro x hx
      obtain ⟨a, n, b, rfl⟩ := m3 x hx
      exact a (g2 n b)
    rw [m1, this, List.append_nil]
  · intro hnics id it hit ht
    have k0 : KeepsTab env2 "10".toList connection (t 0) (t 5) := by
      have k1 : KeepsTab env2 "10".toList connection (t 0) (t 2) :=
        r.tr.keeps r.ver w se (by omega) (by omega) (fun j h1 h2 => Or.inl (by interval_cases j <;> decide))
      have k2 : KeepsTab env2 "10".toList connection (t 3) (t 5) :=
        r.tr.keeps r.ver w se (by omega) (by omega) (fun j h1 h2 => by
          interval_cases j
          · exact Or.inr ⟨_, rfl, by decide +kernel⟩
          · exact Or.inr ⟨_, rfl, by decide +kernel⟩)
      rw [r.tr.nicsN hnics] at k2
      exact k1.trans k2
    have k6 : KeepsTab env2 "10".toList connection (t 6) (t 11) := by
      refine r.tr.keeps r.ver w se (by omega) (Nat.le_refl _) (fun j h1 h2 => ?_)
      interval_cases j
      · exact Or.inr ⟨_, rfl, (conn_plain _).1⟩
      all_goals exact Or.inl (by decide)
    rw [g1] at k6
    have k := k0.trans k6
    rw [r.tr.first, r.hwSame hdel, r.tr.last] at k
    obtain ⟨it', x1, x2, -, x4⟩ := k.fwd id it hit ht
    refine ⟨it', x1, x2, fun p => ?_⟩
    exact getValue_tab (conn_plain _) x4 _

/-- **C81, descriptions.** With `--nic-networks`, the network at a position of the (expanded) list (or at the last position, if
it is there more than once) gets the description at the same position of the (expanded) list of descriptions; a new network
without description gets the one that the user enters, an old one keeps its own, and so do all networks that are not in the
list.  With `--network-descriptions` alone the networks that there are get these descriptions one after the other, and those
beyond the end of the list keep theirs. -/
theorem C81_descriptions (st : EhStart c q env s) (h : editHardware c q s = .ok s') (he : curEnv c s'.envl = .ok env')
    (hnd : (q.profiles.getD []).Nodup) {nets : List (Option Str)} (hn : networks c.env.ver s.envl = .ok nets) {m : Nat}
    (hm : m = maxDevices env' "10".toList (allProfilesIfEmpty env' q.profList) s'.hw) {descs : List Str}
    (hd : descs = expandListWildcard (q.descriptions.getD []) m) :
    (∀ l names, q.networks = some l → names = expandListWildcard l m →
      (∀ (i : Nat) n, names[i]? = some n → n ∉ names.drop (i + 1) →
        (∀ x, descs[i]? = some x → x ≠ [] ∨ some n ∈ nets → Described c.env.ver s'.envl n x) ∧
        (some n ∉ nets → (descs[i]?).getD [] = [] → Described c.env.ver s'.envl n (c.input (.networkDesc n))) ∧
        (some n ∈ nets → descs[i]? = none → n ∉ names.take i →
          ∀ x, Described c.env.ver s.envl n x → Described c.env.ver s'.envl n x)) ∧
      (∀ n ∉ names, ∀ x, Described c.env.ver s.envl n x → Described c.env.ver s'.envl n x)) ∧
    (∀ ds, q.networks = none → q.nics = none → nets ≠ [] → q.descriptions = some ds →
      (∀ (i : Nat) n x, nets[i]? = some (some n) → descs[i]? = some x → some n ∉ nets.drop (i + 1) →
        Described c.env.ver s'.envl n x) ∧
      (∀ n, some n ∉ nets.take descs.length → ∀ x, Described c.env.ver s.envl n x → Described c.env.ver s'.envl n x)) := by
  obtain ⟨env2, q', s1, t, r⟩ := editHardware_run st h
  obtain rfl : env2 = env' := by rw [r.cfg] at he; exact (Except.ok.inj he)
  obtain ⟨d, ex, f1, f2, f3⟩ := r.tr.descr
  rw [r.nets, hn] at f2; cases f2
  rw [r.maxAfter st.nodup hnd f1, ← hm] at f3
  have same : ∀ n x, Described c.env.ver s.envl n x → Described c.env.ver s1.envl n x := by
    rintro n x ⟨u, y, u1, u2⟩
    exact ⟨u, y, by rw [r.deploy.kids (net_ne_deploy _)]; exact u1, u2⟩
  obtain ⟨t0, t1, t2, t3⟩ := r.tr.infer
  obtain ⟨_, _, -, i0, i1, -⟩ := inferNetworks_inv t3
  refine ⟨?_, ?_⟩
  · intro l names hl hnames
    have hq' := i1 l hl
    subst hq'
    have hef : effNetworks q' m nets = some l := by
      unfold effNetworks; rw [if_neg (by rw [hl]; simp), hl]
    rw [hef, ← hd] at f3
    simp only at f3
    rw [← hnames] at f3
    refine ⟨?_, fun n hnn x hx => networkLoop_other st.ver _ _ r.netsWF f3 n x hnn (same n x hx)⟩
    intro i n hi hn2
    obtain ⟨k1, k2, k3⟩ := networkLoop_described st.ver _ _ r.netsWF f3 i n hi hn2
    exact ⟨k1, k2, fun a b e x hx => k3 a b e x (same n x hx)⟩
  · intro ds hq hnics hne hds
    have hq' := i0 hnics
    subst hq'
    have hef : effNetworks q' m nets = none := by
      unfold effNetworks; rw [if_neg (fun hh => hne hh.2.1), hq]
    rw [hef] at f3
    have f4 := f3 ds hds
    rw [hds] at hd
    simp only [Option.getD_some] at hd
    rw [← hd] at f4
    obtain ⟨k1, k2⟩ := describeLoop_described st.ver _ r.netsWF f4
    refine ⟨?_, ?_⟩
    · intro i n x hi hx hnot
      refine k2 i n x (by rw [List.getElem?_zip_eq_some]; exact ⟨hi, hx⟩) ?_
      intro hmem
      obtain ⟨⟨a, b⟩, hab, rfl⟩ := List.mem_map.1 hmem
      obtain ⟨j, hj⟩ := List.mem_iff_getElem?.1 hab
      rw [List.getElem?_drop, List.getElem?_zip_eq_some] at hj
      exact hnot (List.mem_iff_getElem?.2 ⟨j, by rw [List.getElem?_drop]; exact hj.1⟩)
    · intro n hnot x hx
      refine k1 n x ?_ (same n x hx)
      intro hmem
      obtain ⟨⟨a, b⟩, hab, rfl⟩ := List.mem_map.1 hmem
      obtain ⟨j, hj⟩ := List.mem_iff_getElem?.1 hab
      rw [List.getElem?_zip_eq_some] at hj
      refine hnot (List.mem_iff_getElem?.2 ⟨j, ?_⟩)
      rw [List.getElem?_take_of_lt (List.getElem?_eq_some_iff.1 hj.2).1]
      exact hj.1

/-! ### An example with networks N0, which is described, and N1 -/

def exN0 : Elem := .mk (ovfTag .v1 "Network".toList) [(ovfTag .v1 "name".toList, "N0".toList)] none none
  [.mk (ovfTag .v1 "Description".toList) [] (some "first".toList) none []]
def exN1 : Elem := .mk (ovfTag .v1 "Network".toList) [(ovfTag .v1 "name".toList, "N1".toList)] none none []
def exNetSec : Elem := .mk (ovfTag .v1 "NetworkSection".toList) [] none none [exN0, exN1]
def exEhSt2 : EhSt := { exEhSt with envl := exEhEnvl.setChildren (exEhEnvl.children.map (fun x =>
  if x.tag = ovfTag .v1 "NetworkSection".toList then exNetSec else x)) }

theorem exEh_start2 {q : EhReq} (h1 : q.nics.isSome = true → (q.profiles.getD []).Nodup ∧ q.profiles.getD [] ≠ [])
    (h2 : q.serialPorts = none) : EhStart exEhCtx q exEnv exEhSt2 where
  cfg := rfl
  ver := by decide
  order := exEh_start.order
  configs := configsWF_congr (a := exEhEnvl) rfl exEh_start.configs
  nodup := exEh_start.nodup
  nets := by
    refine ⟨by decide +kernel, ?_⟩
    have hk : kids exEhSt2.envl (ovfTag .v1 "NetworkSection".toList) = [exNetSec] := rfl
    intro s hs
    change s ∈ kids exEhSt2.envl (ovfTag .v1 "NetworkSection".toList) at hs
    rw [hk, List.mem_singleton] at hs
    subst hs
    refine ⟨fun x => named_le_one (by decide +kernel) x, ?_⟩
    decide +kernel
  wf := exHw_wf
  nics := fun h => ⟨(h1 h).1, exHw_twin, fun h0 => absurd h0 (h1 h).2⟩
  serial := fun h => by rw [h2] at h; cases h

/-- `--profiles x --nics 4`: N2 and N3 are inferred -/
def exEhReqI : EhReq := { profiles := some ["x".toList], nics := some 4 }
def exEhStI : EhSt := match editHardware exEhCtx exEhReqI exEhSt2 with | .ok s => s | .error _ => exEhSt

set_option maxRecDepth 4000 in
theorem exEhI_run : editHardware exEhCtx exEhReqI exEhSt2 = .ok exEhStI := rfl

/-- non-vacuity of `C81_inferred` -/
example : EhStart exEhCtx exEhReqI exEnv exEhSt2 ∧ editHardware exEhCtx exEhReqI exEhSt2 = .ok exEhStI ∧
    curEnv exEhCtx exEhStI.envl = .ok exEnv ∧
    Infers exEhReqI (maxDevices exEnv "10".toList (allProfilesIfEmpty exEnv exEhReqI.profList) exEhSt2.hw)
      [some "N0".toList, some "N1".toList] ["N{0}".toList] ∧
    networks .v1 exEhStI.envl = .ok [some "N0".toList, some "N1".toList, some "N2".toList, some "N3".toList] :=
  ⟨exEh_start2 (fun _ => ⟨by decide, by decide⟩) rfl, exEhI_run, rfl,
    ⟨rfl, 4, ["N0".toList, "N1".toList], rfl, rfl, by decide +kernel, by decide +kernel, by decide +kernel, by decide +kernel⟩,
    rfl⟩

/-- non-vacuity of `C81_kept`: one CPU, and nothing is inferred -/
example : EhStart exEhCtx { cpus := some 1 } exEnv exEhSt2 ∧ (∃ s', editHardware exEhCtx { cpus := some 1 } exEhSt2 = .ok s') ∧
    (∀ m pats, ¬ Infers { cpus := some 1 } m [some "N0".toList, some "N1".toList] pats) :=
  ⟨exEh_start2 (fun h => by cases h) rfl, ⟨_, rfl⟩, fun m pats h => by
    obtain ⟨-, n, names, h1, -⟩ := h; cases h1⟩

/-- non-vacuity of `C81_descriptions`: new descriptions for the two networks; a third one is not needed -/
example : EhStart exEhCtx { descriptions := some ["d{7}".toList] } exEnv exEhSt2 ∧
    (∃ s', editHardware exEhCtx { descriptions := some ["d{7}".toList] } exEhSt2 = .ok s' ∧
      Described .v1 exEhSt2.envl "N0".toList "first".toList ∧ Described .v1 s'.envl "N0".toList "d7".toList ∧
      Described .v1 s'.envl "N1".toList "d8".toList) :=
  ⟨exEh_start2 (fun h => by cases h) rfl, _, rfl,
    ⟨_, _, rfl, rfl, Or.inr ⟨_, rfl, rfl⟩⟩, ⟨_, _, rfl, rfl, Or.inr ⟨_, rfl, rfl⟩⟩, ⟨_, _, rfl, rfl, Or.inr ⟨_, rfl, rfl⟩⟩⟩

end Cot
