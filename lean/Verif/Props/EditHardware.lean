import Verif.Lemmas.EditRun
import Verif.Props.Count
import Mathlib.Data.List.Dedup
import Mathlib.Tactic.IntervalCases
/-
`edit-hardware` as a whole: profiles, isolation of the profiles that are not named, what is left alone, the requested
effects, confirmations and networks (C76 to C81).
-/
namespace Cot

/-! ### An example: a package with profiles x and y, a network A, a CPU and two NICs -/

theorem named_le_one {e : Elem} {t a : Str} (h : ((kids e t).map (fun c => c.get a)).Nodup) (x : Str) :
    (named e t a x).length ≤ 1 := by
  have e1 : named e t a x = (kids e t).filter (fun c => decide (c.get a = some x)) := by
    unfold named kids
    rw [List.filter_filter]
    apply List.filter_congr
    intro z _
    simp [Bool.and_comm]
  rw [e1]
  generalize kids e t = l at h
  induction l with
  | nil => simp
  | cons b r ih =>
    rw [List.map_cons, List.nodup_cons] at h
    by_cases hb : b.get a = some x
    · rw [List.filter_cons_of_pos (by simpa using hb)]
      have : r.filter (fun c => decide (c.get a = some x)) = [] := by
        rw [List.filter_eq_nil_iff]
        intro c hc hcx
        rw [decide_eq_true_eq] at hcx
        exact h.1 (List.mem_map.2 ⟨c, hc, by rw [hcx, hb]⟩)
      rw [this]; simp
    · rw [List.filter_cons_of_neg (by simpa using hb)]
      exact ih h.2

def exEhEnvl : Elem :=
  .mk (ovfTag .v1 "Envelope".toList) [] none none
    [.mk (ovfTag .v1 "References".toList) [] none none [],
     .mk (ovfTag .v1 "NetworkSection".toList) [] none none
      [.mk (ovfTag .v1 "Network".toList) [(ovfTag .v1 "name".toList, "A".toList)] none none []],
     .mk (ovfTag .v1 "DeploymentOptionSection".toList) [] none none
      [.mk (ovfTag .v1 "Configuration".toList) [(ovfTag .v1 "id".toList, "x".toList)] none none [],
       .mk (ovfTag .v1 "Configuration".toList) [(ovfTag .v1 "id".toList, "y".toList)] none none []]]

def exEhSt : EhSt := { envl := exEhEnvl, hws := none, hw := exHw, seen := fun _ => [] }

/-- the user agrees to everything -/
def exEhCtx : EhCtx :=
  { env := exEnv, plat := .generic, ask := fun _ => true, input := fun _ => "text".toList, setOrder := List.dedup }

/-- `--profiles x z --cpus 2 --memory 2048 --nics 3 --nic-types e1000 virtio --nic-networks A N{1} --mac-addresses-list M1 M2
--serial-ports 2 --serial-connectivity S1` -/
def exEhReq : EhReq :=
  { profiles := some ["x".toList, "z".toList], cpus := some 2, memory := some 2048, nics := some 3,
    nicTypes := some ["e1000".toList, "virtio".toList], networks := some ["A".toList, "N{1}".toList],
    macs := some ["M1".toList, "M2".toList], serialPorts := some 2, serialConn := some ["S1".toList] }

/-- the result -/
def exEhSt' : EhSt := match editHardware exEhCtx exEhReq exEhSt with | .ok s => s | .error _ => exEhSt
def exEhEnv' : Env := { exEnv with configProfiles := ["x".toList, "y".toList, "z".toList] }

set_option maxRecDepth 4000 in
theorem exEh_run : editHardware exEhCtx exEhReq exEhSt = .ok exEhSt' := rfl
theorem exEh_cfg : curEnv exEhCtx exEhSt'.envl = .ok exEhEnv' := rfl

theorem exEh_start : EhStart exEhCtx exEhReq exEnv exEhSt where
  cfg := rfl
  ver := by decide
  order := fun l => ⟨List.nodup_dedup l, fun x => List.mem_dedup⟩
  configs := by
    refine ⟨by decide +kernel, ?_⟩
    have hk : kids exEhEnvl (ovfTag .v1 "DeploymentOptionSection".toList) =
      [.mk (ovfTag .v1 "DeploymentOptionSection".toList) [] none none
      [.mk (ovfTag .v1 "Configuration".toList) [(ovfTag .v1 "id".toList, "x".toList)] none none [],
       .mk (ovfTag .v1 "Configuration".toList) [(ovfTag .v1 "id".toList, "y".toList)] none none []]] := rfl
    intro s hs
    change s ∈ kids exEhEnvl (ovfTag .v1 "DeploymentOptionSection".toList) at hs
    rw [hk, List.mem_singleton] at hs
    subst hs
    refine ⟨fun x => named_le_one (by decide +kernel) x, ?_⟩
    decide +kernel
  nodup := by decide +kernel
  nets := by
    refine ⟨by decide +kernel, ?_⟩
    have hk : kids exEhEnvl (ovfTag .v1 "NetworkSection".toList) =
      [.mk (ovfTag .v1 "NetworkSection".toList) [] none none
      [.mk (ovfTag .v1 "Network".toList) [(ovfTag .v1 "name".toList, "A".toList)] none none []]] := rfl
    intro s hs
    change s ∈ kids exEhEnvl (ovfTag .v1 "NetworkSection".toList) at hs
    rw [hk, List.mem_singleton] at hs
    subst hs
    refine ⟨fun x => named_le_one (by decide +kernel) x, ?_⟩
    decide +kernel
  wf := exHw_wf
  nics := fun _ => ⟨by decide +kernel, exHw_twin, by intro h; exact absurd h (by decide +kernel)⟩
  serial := fun _ => ⟨by decide +kernel, by
    intro id it h _
    have hm := dget?_mem h
    simp only [exEhSt, exHw, List.mem_cons, Prod.mk.injEq, List.not_mem_nil, or_false] at hm
    rcases hm with ⟨_, rfl⟩ | ⟨_, rfl⟩ | ⟨_, rfl⟩ <;> exact rfl, by intro h; exact absurd h (by decide +kernel)⟩

/-- `--profiles x --delete-all-other-profiles --cpus 2` -/
def exEhReqD : EhReq := { profiles := some ["x".toList], deleteOthers := true, cpus := some 2 }

theorem exEh_startD : EhStart exEhCtx exEhReqD exEnv exEhSt :=
  { exEh_start with
    nics := by intro h; cases h
    serial := by intro h; cases h }

variable {c : EhCtx} {q : EhReq} {env env' : Env} {s s' : EhSt}

/-! ### C76: the profiles -/

/-- **C76.** After edit-hardware the package lists exactly the profiles that it listed before or that were named, without
those that were deleted, each once; the old ones come first and in their old order.  The hardware is consistent. -/
theorem C76_profiles (st : EhStart c q env s) (h : editHardware c q s = .ok s') :
    ∃ env', curEnv c s'.envl = .ok env' ∧ HwWF env' s'.hw ∧ env'.configProfiles.Nodup ∧
      (∀ p, p ∈ env'.configProfiles ↔
        (p ∈ env.configProfiles ∨ p ∈ q.profiles.getD []) ∧ ¬ Deleted c q p) ∧
      env.configProfiles.filter (fun p => decide (¬ Deleted c q p)) <+: env'.configProfiles := by
  obtain ⟨env', q', s1, t, r⟩ := editHardware_run st h
  obtain ⟨d, ex, ns, f1, f2, -⟩ := r.tr.nets
  obtain ⟨w, -⟩ := r.tr.all r.ver r.ehr f2
  refine ⟨env', r.cfg, ?_, ?_, ?_, ?_⟩
  · rw [← r.tr.last]; exact w 11 (by omega)
  · rw [r.prof]; exact (addNew_nodup st.nodup).filter _
  · intro p
    rw [r.prof, List.mem_filter, mem_addNew]
    simp
  · rw [r.prof]
    obtain ⟨z, hz⟩ := addNew_prefix (L := env.configProfiles) (P := q.profiles.getD [])
    rw [← hz, List.filter_append]
    exact List.prefix_append _ _

/-- **C76, consent.** A profile is created only if the user agreed to it, and deleted only if deletion was requested and the
user agreed, to that profile or to the deletion of all of them. -/
theorem C76_consent (st : EhStart c q env s) (h : editHardware c q s = .ok s') (he : curEnv c s'.envl = .ok env') :
    (∀ p ∈ env'.configProfiles, p ∉ env.configProfiles → c.ask (.createProfile p) = true) ∧
    (∀ p ∈ env.configProfiles, p ∉ env'.configProfiles → q.deleteOthers = true ∧
      (c.ask (.deleteProfile p) = true ∨ q.profiles = none ∧ c.ask .deleteAllProfiles = true)) := by
  obtain ⟨env2, q', s1, t, r⟩ := editHardware_run st h
  obtain rfl : env2 = env' := by rw [r.cfg] at he; exact (Except.ok.inj he)
  have hm : ∀ p, p ∈ env2.configProfiles ↔
      (p ∈ env.configProfiles ∨ p ∈ q.profiles.getD []) ∧ ¬ Deleted c q p := by
    intro p; rw [r.prof, List.mem_filter, mem_addNew]; simp
  refine ⟨?_, ?_⟩
  · intro p hp hn
    rcases ((hm p).1 hp).1 with h1 | h1
    · exact absurd h1 hn
    · exact r.create p h1 hn
  · intro p hp hn
    have hd : Deleted c q p := by
      by_contra hd
      exact hn ((hm p).2 ⟨Or.inl hp, hd⟩)
    obtain ⟨d1, d2, d3⟩ := hd
    refine ⟨d1, ?_⟩
    rcases d3 with d3 | d3
    · exact Or.inr ⟨d3, r.delAll d1 d3⟩
    · exact Or.inl d3

/-- non-vacuity: profile z is created; in the other request y is deleted -/
example : EhStart exEhCtx exEhReq exEnv exEhSt ∧ editHardware exEhCtx exEhReq exEhSt = .ok exEhSt' ∧
    (∃ s', editHardware exEhCtx exEhReqD exEhSt = .ok s' ∧ (curEnv exEhCtx s'.envl).map (·.configProfiles) = .ok ["x".toList]) :=
  ⟨exEh_start, exEh_run, _, rfl, rfl⟩

/-! ### C77: profiles that are not named -/

/-- **C77.** When profiles are named, every other profile that is listed before and afterwards describes the same machine
as before: it has the same items, and every property of every item has the same value under it. -/
theorem C77_isolation (st : EhStart c q env s) (h : editHardware c q s = .ok s') (he : curEnv c s'.envl = .ok env')
    {P : List Str} (hP : q.profiles = some P) (hne : P ≠ []) {p : Str} (h1 : p ∈ env.configProfiles)
    (h2 : p ∈ env'.configProfiles) (h3 : p ∉ P) : SameIn env env' (some p) s.hw s'.hw := by
  obtain ⟨env2, q', s1, t, r⟩ := editHardware_run st h
  obtain rfl : env2 = env' := by rw [r.cfg] at he; exact (Except.ok.inj he)
  have hnd : ¬ Deleted c q p := by
    rw [r.prof, List.mem_filter] at h2
    simpa using h2.2
  obtain ⟨d, ex, ns, f1, f2, -⟩ := r.tr.nets
  obtain ⟨w, -⟩ := r.tr.all r.ver r.ehr f2
  have w' : HwWF env2 s'.hw := by rw [← r.tr.last]; exact w 11 (by omega)
  exact (r.kept p h1 hnd).trans ((r.tr.isolated r.ehr.wf hP hne h2 h3).sameIn h2 r.ehr.wf w')

/-- non-vacuity: profile y is listed before and afterwards, is not named, and still has two NICs and one CPU -/
example : "y".toList ∈ exEnv.configProfiles ∧ "y".toList ∈ exEhEnv'.configProfiles ∧
    "y".toList ∉ ["x".toList, "z".toList] ∧ countOf exEhEnv' exEhSt'.hw "10".toList pY = 2 ∧
    countOf exEhEnv' exEhSt'.hw "10".toList pX = 3 ∧ SameIn exEnv exEhEnv' pY exHw exEhSt'.hw :=
  ⟨by decide, by decide, by decide, by decide +kernel, by decide +kernel,
    C77_isolation exEh_start exEh_run exEh_cfg rfl (by decide) (by decide) (by decide) (by decide)⟩

/-! ### C78: what is left alone -/

/-- **C78.** Apart from the deletion of profiles (which leaves the machines of the other profiles as they are, and does not
happen unless it is requested), only the device types that the request is about are edited: every other item is the same
afterwards, and no item of another type appears. -/
theorem C78_devices (st : EhStart c q env s) (h : editHardware c q s = .ok s') (he : curEnv c s'.envl = .ok env')
    {nets : List (Option Str)} (hn : networks c.env.ver s.envl = .ok nets) :
    ∃ hw1, (q.deleteOthers = false → hw1 = s.hw) ∧
      (∀ p ∈ env.configProfiles, p ∈ env'.configProfiles → SameIn env env' (some p) s.hw hw1) ∧
      SameExcept c.env.ver (q.types (decide (nets = []))) hw1 s'.hw := by
  obtain ⟨env2, q', s1, t, r⟩ := editHardware_run st h
  obtain rfl : env2 = env' := by rw [r.cfg] at he; exact (Except.ok.inj he)
  obtain ⟨-, -, w, -⟩ := r.tr.all r.ver r.ehr (existing := nets) (by rw [r.nets]; exact hn)
  refine ⟨s1.hw, r.hwSame, ?_, by rw [← r.ver]; exact w⟩
  intro p h1 h2
  refine r.kept p h1 ?_
  rw [r.prof, List.mem_filter] at h2
  simpa using h2.2

/-- the part of the descriptor that edit-hardware has nothing to do with: everything but the sections of the profiles and
of the networks (and the hardware itself) -/
def otherSections (v : Ver) (e : Elem) : List Elem :=
  e.children.filter (fun x => x.tag ≠ ovfTag v "DeploymentOptionSection".toList ∧ x.tag ≠ ovfTag v "NetworkSection".toList)

/-- **C78, the descriptor.** The other sections of the descriptor, and the envelope element itself, are unchanged.  The
hardware section element is unchanged unless system types are given, and then it is as `system_types = ...` makes it. -/
theorem C78_descriptor (st : EhStart c q env s) (h : editHardware c q s = .ok s') :
    otherSections c.env.ver s'.envl = otherSections c.env.ver s.envl ∧
    s'.envl.tag = s.envl.tag ∧ s'.envl.attrib = s.envl.attrib ∧ s'.envl.text = s.envl.text ∧ s'.envl.tail = s.envl.tail ∧
    (q.systemTypes = none → s'.hws = s.hws) ∧
    (∀ L, q.systemTypes = some L → ∃ e, setSystemTypes c.env.ver s.hws L = .ok e ∧ s'.hws = some e) := by
  obtain ⟨env2, q', s1, t, r⟩ := editHardware_run st h
  obtain ⟨d, ex, ns, f1, f2, f3, -⟩ := r.tr.nets
  obtain ⟨a1, a2, a3, a4, a5⟩ := r.deploy
  obtain ⟨b1, b2, b3, b4, b5⟩ := f3.rest
  refine ⟨?_, b1.trans a1, b2.trans a2, b3.trans a3, b4.trans a4, r.sys, r.sysS⟩
  have two : ∀ (l : List Elem) (x y : Str), l.filter (fun e => decide (e.tag ≠ x ∧ e.tag ≠ y)) =
      (l.filter (fun e => decide (e.tag ≠ x))).filter (fun e => decide (e.tag ≠ y)) := by
    intro l x y
    rw [List.filter_filter]
    apply List.filter_congr
    intro e _
    simp [Bool.and_comm]
  have two' : ∀ (l : List Elem) (x y : Str), l.filter (fun e => decide (e.tag ≠ x ∧ e.tag ≠ y)) =
      (l.filter (fun e => decide (e.tag ≠ y))).filter (fun e => decide (e.tag ≠ x)) := by
    intro l x y
    rw [List.filter_filter]
    apply List.filter_congr
    intro e _
    simp
  unfold otherSections
  rw [two', b5, ← two', two, a5, ← two]

/-- non-vacuity: the request is about four device types -/
example : networks .v1 exEhEnvl = .ok [some "A".toList] ∧
    exEhReq.types false = ["3".toList, "4".toList, "10".toList, "21".toList] ∧
    (otherSections .v1 exEhEnvl).length = 1 ∧ exEhSt'.envl.children.length = 3 :=
  ⟨rfl, by decide, by decide +kernel, by decide +kernel⟩

/-! ### C79: what was asked for -/

/-- what is needed of a trace for the effects of one step to be seen at the end -/
theorem EhTrace.sets {q q' : EhReq} {env : Env} {s s' : EhSt} {h : Nat → Hw} (t : EhTrace c q q' env s s' h)
    (hve : env.ver = c.env.ver) (wf : ∀ i ≤ 11, HwWF env (h i))
    (se : ∀ i < 11, SameExcept env.ver (stepCodes i) (h i) (h (i+1))) {i : Nat} (hi : i < 11)
    {rt code name : Str} {val : InVal} {v : Val} {cn : Bool} (hc : resourceCode rt = .ok code) (hpl : Plain env name)
    (hd : Denotes name val v) (hv : v.truthy = true) (hid : name ≠ instanceId env.ver) (hrt : name ≠ resourceType)
    (h1 : setValueForAll env (h i) rt name val q.profList cn = .ok (h (i+1)))
    (ka : ∀ j, j < 11 → j ≠ i → code ∉ stepCodes j ∨ ∃ m, stepName env.ver j = some m ∧ name ≠ m) :
    Everywhere env code name v q.profList s'.hw ∧ (q.profList = [] → ReplacedAll env code name v s.hw s'.hw) ∧
    (cn = true → ∃ id it, dget? s'.hw id = some it ∧ OfType it code) := by
  obtain ⟨a, b, d, e⟩ := setValueForAll_everywhere (wf i (by omega)) hc hpl hd hv hid hrt h1
  have k0 : KeepsTab env code name (h 0) (h i) :=
    t.keeps hve wf se (Nat.zero_le _) (by omega) (fun j _ h2 => ka j (by omega) (by omega))
  have k1 : KeepsTab env code name (h (i+1)) (h 11) :=
    t.keeps hve wf se (by omega) (Nat.le_refl _) (fun j h1 h2 => ka j (by omega) (by omega))
  rw [t.first] at k0
  rw [t.last] at k1
  refine ⟨a.keep hpl k1, fun hP => (b hP).keep hpl k0 k1 d, ?_⟩
  intro hcn
  obtain ⟨id, it, g1, g2⟩ := e hcn
  obtain ⟨x, x1, x2, -⟩ := k1.fwd id it g1 g2
  exact ⟨id, x, x1, x2⟩

theorem vq_plain (env : Env) : Plain env virtualQuantity := by
  constructor
  · cases env.ver <;> decide +kernel
  · decide +kernel
theorem au_plain (env : Env) : Plain env allocationUnits := by
  constructor
  · cases env.ver <;> decide +kernel
  · decide +kernel
theorem rst_plain (env : Env) : Plain env resourceSubType := by
  constructor
  · cases env.ver <;> decide +kernel
  · decide +kernel
theorem addr_plain (env : Env) : Plain env address := by
  constructor
  · cases env.ver <;> decide +kernel
  · decide +kernel
theorem conn_plain (env : Env) : Plain env connection := by
  constructor
  · cases env.ver <;> decide +kernel
  · decide +kernel

theorem str_truthy {x : Str} (h : x ≠ []) : (Val.str x).truthy = true := by
  cases x with
  | nil => exact absurd rfl h
  | cons a t => rfl
theorem tup_truthy {x : List Str} (h : x ≠ []) : (Val.tup x).truthy = true := by
  cases x with
  | nil => exact absurd rfl h
  | cons a t => rfl

theorem profList_nil {q : EhReq} (h : q.profiles.getD [] = []) : q.profList = [] := by
  unfold EhReq.profList; rw [h]; rfl

/-- **C79, processors.** After `--cpus n` there is a processor item; every processor item has the quantity `n` in each named
profile.  If no profile is named then `n` is its only quantity, and every profile that had one has it (unless profiles are
deleted). -/
theorem C79_cpus (st : EhStart c q env s) (h : editHardware c q s = .ok s') (he : curEnv c s'.envl = .ok env')
    {n : Int} (hq : q.cpus = some n) :
    (∃ id it, dget? s'.hw id = some it ∧ OfType it "3".toList) ∧
    Everywhere env' "3".toList virtualQuantity (.str (intStr n)) q.profList s'.hw ∧
    (q.profiles.getD [] = [] → q.deleteOthers = false →
      ReplacedAll env' "3".toList virtualQuantity (.str (intStr n)) s.hw s'.hw) := by
  obtain ⟨env2, q', s1, t, r⟩ := editHardware_run st h
  obtain rfl : env2 = env' := by rw [r.cfg] at he; exact (Except.ok.inj he)
  obtain ⟨d, ex, ns, f1, f2, -⟩ := r.tr.nets
  obtain ⟨w, se, -⟩ := r.tr.all r.ver r.ehr f2
  obtain ⟨a, b, e⟩ := r.tr.sets r.ver w se (i := 0) (by omega) code_cpu (vq_plain _)
    (Or.inl ⟨by decide +kernel, _, rfl, rfl⟩) (str_truthy (intStr_ne_nil n)) (vq_iid _) vq_rt (r.tr.cpu n hq)
    (by intro j hj hne; left; interval_cases j <;> first | (exact absurd rfl hne) | decide)
  exact ⟨e rfl, a, fun hP hd => by rw [← r.hwSame hd]; exact b (profList_nil hP)⟩

/-- **C79, memory.** The same for `--memory`, in units of 2^20 bytes. -/
theorem C79_memory (st : EhStart c q env s) (h : editHardware c q s = .ok s') (he : curEnv c s'.envl = .ok env')
    {n : Nat} (hq : q.memory = some n) :
    (∃ id it, dget? s'.hw id = some it ∧ OfType it "4".toList) ∧
    Everywhere env' "4".toList virtualQuantity (.str (natStr n)) q.profList s'.hw ∧
    Everywhere env' "4".toList allocationUnits (.str "byte * 2^20".toList) q.profList s'.hw ∧
    (q.profiles.getD [] = [] → q.deleteOthers = false →
      ReplacedAll env' "4".toList virtualQuantity (.str (natStr n)) s.hw s'.hw ∧
      ReplacedAll env' "4".toList allocationUnits (.str "byte * 2^20".toList) s.hw s'.hw) := by
  obtain ⟨env2, q', s1, t, r⟩ := editHardware_run st h
  obtain rfl : env2 = env' := by rw [r.cfg] at he; exact (Except.ok.inj he)
  obtain ⟨d, ex, ns, f1, f2, -⟩ := r.tr.nets
  obtain ⟨w, se, -⟩ := r.tr.all r.ver r.ehr f2
  obtain ⟨hw1, m1, m2⟩ := r.tr.mem n hq
  obtain ⟨a1, b1, d1, e1⟩ := setValueForAll_everywhere (w 1 (by omega)) code_memory (vq_plain _)
    (Or.inl ⟨by decide +kernel, _, rfl, rfl⟩) (str_truthy (natStr_ne_nil n)) (vq_iid _) vq_rt m1
  have w1 : HwWF env2 hw1 := (setValueForAll_frame (w 1 (by omega)) code_memory (vq_iid _) vq_rt m1).1
  obtain ⟨a2, b2, d2, -⟩ := setValueForAll_everywhere w1 code_memory (au_plain _)
    (Or.inl ⟨by decide +kernel, _, rfl, rfl⟩) (str_truthy (by decide)) (au_iid _) au_rt m2
  have kv : KeepsTab env2 "4".toList virtualQuantity hw1 (t 2) :=
    (setValueForAll_edits w1 code_memory (by simp) m2).1.keeps (au_iid _) au_rt (by decide +kernel)
  have k0 : ∀ nm, KeepsTab env2 "4".toList nm (t 0) (t 1) := fun nm =>
    r.tr.keeps r.ver w se (Nat.zero_le _) (by omega) (fun j h1 h2 => Or.inl (by interval_cases j; decide))
  have k2 : ∀ nm, KeepsTab env2 "4".toList nm (t 2) s'.hw := fun nm => by
    rw [← r.tr.last]
    exact r.tr.keeps r.ver w se (by omega) (Nat.le_refl _) (fun j h1 h2 => Or.inl (by interval_cases j <;> decide))
  rw [r.tr.first] at k0
  refine ⟨?_, a1.keep (vq_plain _) (kv.trans (k2 _)), a2.keep (au_plain _) (k2 _), ?_⟩
  · obtain ⟨id, it, g1, g2⟩ := e1 rfl
    obtain ⟨x, x1, x2, -⟩ := (kv.trans (k2 _)).fwd id it g1 g2
    exact ⟨id, x, x1, x2⟩
  · intro hP hdel
    rw [← r.hwSame hdel]
    refine ⟨(b1 (profList_nil hP)).keep (vq_plain _) (k0 _) (kv.trans (k2 _)) d1, ?_⟩
    by_cases hex : ∃ id it, dget? (t 1) id = some it ∧ OfType it "4".toList
    · have ka : KeepsTab env2 "4".toList allocationUnits (t 1) hw1 :=
        (setValueForAll_edits (w 1 (by omega)) code_memory (fun _ => hex) m1).1.keeps (vq_iid _) vq_rt (by decide +kernel)
      exact (b2 (profList_nil hP)).keep (au_plain _) ((k0 _).trans ka) (k2 _) d2
    · intro id it hi ht
      obtain ⟨x, x1, x2, -⟩ := (k0 virtualQuantity).fwd id it hi ht
      exact absurd ⟨id, x, x1, x2⟩ hex

/-- **C79, sub-types.** After `--nic-types`, `--scsi-subtypes` and `--ide-subtypes` every device of that type has the given
list of sub-types (for NICs, the full names) in each named profile; if no profile is named, it has no other, and every
profile that had a sub-type has this one.  NIC types are accepted by the platform. -/
theorem C79_subtypes (st : EhStart c q env s) (h : editHardware c q s = .ok s') (he : curEnv c s'.envl = .ok env') :
    (∀ l, q.nicTypes = some l → l ≠ [] → ∃ l', canonNics l = .ok l' ∧ validateNicTypes c.plat l' = .ok () ∧
      Everywhere env' "10".toList resourceSubType (.tup l') q.profList s'.hw) ∧
    (∀ l, q.scsi = some l → l ≠ [] → Everywhere env' "6".toList resourceSubType (.tup l) q.profList s'.hw ∧
      (q.profiles.getD [] = [] → q.deleteOthers = false →
        ReplacedAll env' "6".toList resourceSubType (.tup l) s.hw s'.hw)) ∧
    (∀ l, q.ide = some l → l ≠ [] → Everywhere env' "5".toList resourceSubType (.tup l) q.profList s'.hw ∧
      (q.profiles.getD [] = [] → q.deleteOthers = false →
        ReplacedAll env' "5".toList resourceSubType (.tup l) s.hw s'.hw)) := by
  obtain ⟨env2, q', s1, t, r⟩ := editHardware_run st h
  obtain rfl : env2 = env' := by rw [r.cfg] at he; exact (Except.ok.inj he)
  obtain ⟨d, ex, ns, f1, f2, -⟩ := r.tr.nets
  obtain ⟨w, se, -⟩ := r.tr.all r.ver r.ehr f2
  refine ⟨?_, ?_, ?_⟩
  · intro l hl hne
    obtain ⟨l', g1, g2, g3⟩ := r.tr.types l hl
    refine ⟨l', g1, g2, ?_⟩
    have hne' : l' ≠ [] := by
      cases l with
      | nil => exact absurd rfl hne
      | cons a b =>
        unfold canonNics at g1
        split at g1
        · cases g1
        · cases g1
        · split at g1
          · cases g1
          · cases g1; simp
    obtain ⟨a, -⟩ := setValueForAll_everywhere (w 3 (by omega)) code_eth (rst_plain _)
      (Or.inr ⟨rfl, _, rfl, rfl⟩) (tup_truthy hne') (rst_iid _) rst_rt g3
    refine a.keep (rst_plain _) ?_
    rw [← r.tr.last]
    refine r.tr.keeps r.ver w se (by omega) (Nat.le_refl _) (fun j h1 h2 => ?_)
    interval_cases j
    · exact Or.inr ⟨_, rfl, by decide +kernel⟩
    · exact Or.inr ⟨_, rfl, by decide +kernel⟩
    · exact Or.inr ⟨_, rfl, (rst_plain _).1⟩
    all_goals exact Or.inl (by decide)
  · intro l hl hne
    obtain ⟨a, b, -⟩ := r.tr.sets r.ver w se (i := 9) (by omega) code_scsi (rst_plain _)
      (Or.inr ⟨rfl, _, rfl, rfl⟩) (tup_truthy hne) (rst_iid _) rst_rt (r.tr.scsi l hl)
      (by intro j hj hne; left; interval_cases j <;> first | (exact absurd rfl hne) | decide)
    exact ⟨a, fun hP hd => by rw [← r.hwSame hd]; exact b (profList_nil hP)⟩
  · intro l hl hne
    obtain ⟨a, b, -⟩ := r.tr.sets r.ver w se (i := 10) (by omega) code_ide (rst_plain _)
      (Or.inr ⟨rfl, _, rfl, rfl⟩) (tup_truthy hne) (rst_iid _) rst_rt (r.tr.ide l hl)
      (by intro j hj hne; left; interval_cases j <;> first | (exact absurd rfl hne) | decide)
    exact ⟨a, fun hP hd => by rw [← r.hwSame hd]; exact b (profList_nil hP)⟩

/-- the number of devices is not changed by steps that do not add or remove -/
theorem EhTrace.counts {q q' : EhReq} {env : Env} {s s' : EhSt} {h : Nat → Hw} (t : EhTrace c q q' env s s' h)
    (hve : env.ver = c.env.ver) (wf : ∀ i ≤ 11, HwWF env (h i))
    (se : ∀ i < 11, SameExcept env.ver (stepCodes i) (h i) (h (i+1))) {a b : Nat} (hab : a ≤ b) (hb : b ≤ 11) {code : Str}
    (hc : ∀ i, a ≤ i → i < b → code ∉ stepCodes i ∨ ∃ m, stepName env.ver i = some m ∧ virtualQuantity ≠ m) (p : Prof) :
    countOf env (h b) code p = countOf env (h a) code p :=
  (t.keeps hve wf se hab hb hc).count (wf a (by omega)).keys (wf b hb).keys p

theorem vq_ne_step (env : Env) {i : Nat} (hi : i = 3 ∨ i = 4 ∨ i = 5 ∨ i = 6 ∨ i = 8) :
    ∃ m, stepName env.ver i = some m ∧ virtualQuantity ≠ m := by
  rcases hi with rfl | rfl | rfl | rfl | rfl
  · exact ⟨_, rfl, by decide +kernel⟩
  · exact ⟨_, rfl, by decide +kernel⟩
  · exact ⟨_, rfl, by decide +kernel⟩
  · exact ⟨_, rfl, (vq_plain _).1⟩
  · exact ⟨_, rfl, by decide +kernel⟩

/-- **C79, counts.** After `--nics n` every named profile (every profile and the default, if none is named) has exactly `n`
NICs, and after `--serial-ports n` exactly `n` serial ports. -/
theorem C79_counts (st : EhStart c q env s) (h : editHardware c q s = .ok s') (he : curEnv c s'.envl = .ok env') :
    (∀ n, q.nics = some n → ∀ p ∈ allProfilesIfEmpty env' q.profList, countOf env' s'.hw "10".toList p = n) ∧
    (∀ n, q.serialPorts = some n → ∀ p ∈ allProfilesIfEmpty env' q.profList, countOf env' s'.hw "21".toList p = n) := by
  obtain ⟨env2, q', s1, t, r⟩ := editHardware_run st h
  obtain rfl : env2 = env' := by rw [r.cfg] at he; exact (Except.ok.inj he)
  obtain ⟨d, ex, ns, f1, f2, -⟩ := r.tr.nets
  obtain ⟨w, se, -, cn, cs⟩ := r.tr.all r.ver r.ehr f2
  refine ⟨?_, ?_⟩
  · intro n hn p hp
    obtain ⟨-, -, -, k⟩ := setItemCount_frame (w 2 (by omega)) code_eth (cn (by rw [hn]; rfl)) (r.tr.nics n hn).1
    rw [← r.tr.last, r.tr.counts r.ver w se (a := 3) (by omega) (Nat.le_refl _) ?_ p]
    · exact k p hp
    · intro i h1 h2
      interval_cases i
      all_goals first | exact Or.inl (by decide) | exact Or.inr (vq_ne_step _ (by omega))
  · intro n hn p hp
    obtain ⟨-, -, -, k⟩ := setItemCount_frame (w 7 (by omega)) code_serial (cs (by rw [hn]; rfl)) (r.tr.serial n hn).1
    rw [← r.tr.last, r.tr.counts r.ver w se (a := 8) (by omega) (Nat.le_refl _) ?_ p]
    · exact k p hp
    · intro i h1 h2
      interval_cases i
      all_goals first | exact Or.inl (by decide) | exact Or.inr (vq_ne_step _ (by omega))

theorem targets_eq (q : EhReq) (env : Env) : q.profOpt.getD (env.configProfiles.map some ++ [none]) = q.targets env := by
  unfold EhReq.profOpt EhReq.targets
  cases q.profiles <;> rfl

theorem setNicValues_inOrder {env : Env} {hw hw' : Hw} {name : Str} {vs : List Str} {q : EhReq}
    (wf : HwWF env hw) (hpl : Plain env name) (hid : name ≠ instanceId env.ver) (hrt : name ≠ resourceType)
    (hrs : name ≠ resourceSubType) (h : setNicValues env hw name vs q.profOpt = .ok hw') :
    InOrder env "10".toList name vs (vs.getLast?.getD []) (q.targets env) hw' := by
  unfold setNicValues at h
  split at h
  · cases h
  · rename_i x hx
    rw [hx, ← targets_eq]
    exact setItemValues_inOrder wf code_eth hpl hid hrt hrs h

/-- **C79, lists.** `--mac-addresses-list` and `--serial-connectivity` give their values to the NICs (serial ports) one
after the other; the last MAC address is for all NICs that are left, and serial ports that are left get no address. -/
theorem C79_lists_partial (st : EhStart c q env s) (h : editHardware c q s = .ok s') (he : curEnv c s'.envl = .ok env') :
    (∀ l, q.macs = some l → l ≠ [] ∧
      InOrder env' "10".toList address l (l.getLast?.getD []) (q.targets env') s'.hw) ∧
    (∀ l, q.serialConn = some l → InOrder env' "21".toList address l [] (q.targets env') s'.hw) := by
  obtain ⟨env2, q', s1, t, r⟩ := editHardware_run st h
  obtain rfl : env2 = env' := by rw [r.cfg] at he; exact (Except.ok.inj he)
  obtain ⟨d, ex, ns, f1, f2, -⟩ := r.tr.nets
  obtain ⟨w, se, -, cn, cs⟩ := r.tr.all r.ver r.ehr f2
  refine ⟨?_, ?_⟩
  · intro l hl
    have k := r.tr.macs l hl
    refine ⟨?_, ?_⟩
    · rintro rfl
      cases k
    refine (setNicValues_inOrder (w 4 (by omega)) (addr_plain _) (addr_iid _) addr_rt (by decide +kernel) k).keep
      (addr_plain _) ?_
    rw [← r.tr.last]
    refine r.tr.keeps r.ver w se (by omega) (Nat.le_refl _) (fun j h1 h2 => ?_)
    interval_cases j
    · exact Or.inr ⟨_, rfl, by decide +kernel⟩
    · exact Or.inr ⟨_, rfl, (addr_plain _).1⟩
    all_goals exact Or.inl (by decide)
  · intro l hl
    have k := setItemValues_inOrder (w 8 (by omega)) code_serial (addr_plain _) (addr_iid _) addr_rt (by decide +kernel)
      (r.tr.conn l hl).1
    rw [targets_eq] at k
    refine k.keep (addr_plain _) ?_
    rw [← r.tr.last]
    refine r.tr.keeps r.ver w se (by omega) (Nat.le_refl _) (fun j h1 h2 => Or.inl ?_)
    interval_cases j <;> decide

/-- non-vacuity: three NICs and two serial ports in x; the NICs and the CPU of x -/
example : allProfilesIfEmpty exEhEnv' exEhReq.profList = [pX, some "z".toList] ∧
    countOf exEhEnv' exEhSt'.hw "10".toList pX = 3 ∧ countOf exEhEnv' exEhSt'.hw "21".toList (some "z".toList) = 2 ∧
    ((dget? exEhSt'.hw "1".toList).bind (fun it => it.getRaw virtualQuantity (some {pX}))) = some (.str "2".toList) ∧
    ((dget? exEhSt'.hw "1".toList).bind (fun it => it.getRaw virtualQuantity (some {pY}))) = some (.str "1".toList) ∧
    ((dget? exEhSt'.hw "13".toList).bind (fun it => it.getRaw resourceSubType (some {pX}))) =
      some (.tup ["E1000".toList, "virtio".toList]) ∧
    ((dget? exEhSt'.hw "11".toList).bind (fun it => it.getRaw address (some {pX}))) = some (.str "M1".toList) ∧
    ((dget? exEhSt'.hw "12".toList).bind (fun it => it.getRaw address (some {pX}))) = some (.str "M2".toList) ∧
    ((dget? exEhSt'.hw "13".toList).bind (fun it => it.getRaw address (some {pX}))) = some (.str "M2".toList) := by
  refine ⟨rfl, ?_, ?_, ?_, ?_, ?_, ?_, ?_, ?_⟩ <;> decide +kernel

/-! ### C80: consent -/

/-- **C80.** Devices of a profile are removed only with the user's consent: if the profile (one that was listed and is not
deleted, or the default) has more NICs or serial ports than requested, then the user was asked, with both numbers, and
agreed. -/
theorem C80_consent (st : EhStart c q env s) (h : editHardware c q s = .ok s') (he : curEnv c s'.envl = .ok env')
    {x : Prof} (hx : x ∈ allProfilesIfEmpty env' q.profList)
    (hk : x = none ∨ ∃ p ∈ env.configProfiles, x = some p ∧ p ∈ env'.configProfiles) :
    (∀ n, q.nics = some n → n < countOf env s.hw "10".toList x →
      c.ask (.deleteNics x (countOf env s.hw "10".toList x) n) = true) ∧
    (∀ n, q.serialPorts = some n → n < countOf env s.hw "21".toList x →
      c.ask (.deleteSerial x (countOf env s.hw "21".toList x) n) = true) := by
  obtain ⟨env2, q', s1, t, r⟩ := editHardware_run st h
  obtain rfl : env2 = env' := by rw [r.cfg] at he; exact (Except.ok.inj he)
  obtain ⟨d, ex, ns, f1, f2, -⟩ := r.tr.nets
  obtain ⟨w, se, -, cn, cs⟩ := r.tr.all r.ver r.ehr f2
  have hk' : x = none ∨ ∃ p ∈ env.configProfiles, x = some p ∧ ¬ Deleted c q p := by
    rcases hk with hk | ⟨p, h1, h2, h3⟩
    · exact Or.inl hk
    · refine Or.inr ⟨p, h1, h2, ?_⟩
      rw [r.prof, List.mem_filter] at h3
      simpa using h3.2
  have hnd : ∀ {code : Str} {hw : Hw}, Countable env2 code q.profList hw → (allProfilesIfEmpty env2 q.profList).Nodup := by
    intro code hw k
    unfold allProfilesIfEmpty
    split
    · refine List.nodup_append.2 ⟨k.cfgNodup.map (Option.some_injective _), by simp, ?_⟩
      intro a ha b hb
      simp only [List.mem_singleton] at hb
      obtain ⟨y, -, rfl⟩ := List.mem_map.1 ha
      subst hb; simp
    · exact k.nodup
  refine ⟨?_, ?_⟩
  · intro n hn
    have hs : q.nics.isSome = true := by rw [hn]; rfl
    obtain ⟨-, dd, d1, d2⟩ := r.tr.nics n hn
    have := askEach_inv _ d2 x hx
    rw [itemCounts_countOf (w 2 (by omega)) code_eth (hnd (cn hs)) d1 hx,
      r.tr.counts r.ver w se (a := 0) (by omega) (by omega) (by
        intro i h1 h2; left; interval_cases i <;> decide) x, r.tr.first,
      r.counts _ (st.nics hs).2.1 x hk'] at this
    exact this
  · intro n hn
    have hs : q.serialPorts.isSome = true := by rw [hn]; rfl
    obtain ⟨-, dd, d1, d2⟩ := r.tr.serial n hn
    have := askEach_inv _ d2 x hx
    rw [itemCounts_countOf (w 7 (by omega)) code_serial (hnd (cs hs)) d1 hx,
      r.tr.counts r.ver w se (a := 0) (by omega) (by omega) (by
        intro i h1 h2; left; interval_cases i <;> decide) x, r.tr.first,
      r.counts _ (st.serial hs).2.1 x hk'] at this
    exact this

theorem allProfiles_nodup {env : Env} {q : EhReq} (h1 : env.configProfiles.Nodup) (h2 : (q.profiles.getD []).Nodup) :
    (allProfilesIfEmpty env q.profList).Nodup := by
  unfold allProfilesIfEmpty
  split
  · refine List.nodup_append.2 ⟨h1.map (Option.some_injective _), by simp, ?_⟩
    intro a ha b hb
    simp only [List.mem_singleton] at hb
    obtain ⟨y, -, rfl⟩ := List.mem_map.1 ha
    subst hb; simp
  · exact h2.map (Option.some_injective _)

/-- **C80, connectivity.** If fewer serial connections are given than a profile has serial ports in the end, then the user
agreed that the others are unreachable.  System types and network descriptions apply to all profiles, and the user agreed to
that if profiles are named. -/
theorem C80_connectivity (st : EhStart c q env s) (h : editHardware c q s = .ok s') (he : curEnv c s'.envl = .ok env')
    (hnd : (q.profiles.getD []).Nodup) :
    (∀ l, q.serialConn = some l → ∀ x ∈ allProfilesIfEmpty env' q.profList, l.length < countOf env' s'.hw "21".toList x →
      c.ask (.unreachable x (countOf env' s'.hw "21".toList x) l.length) = true) ∧
    (q.profiles.isSome = true → q.systemTypes.isSome = true → c.ask .systemTypesForAll = true) ∧
    (q.profiles.isSome = true → q.descriptions.isSome = true → c.ask .descriptionsForAll = true) := by
  obtain ⟨env2, q', s1, t, r⟩ := editHardware_run st h
  obtain rfl : env2 = env' := by rw [r.cfg] at he; exact (Except.ok.inj he)
  obtain ⟨d, ex, ns, f1, f2, -⟩ := r.tr.nets
  obtain ⟨w, se, -, cn, cs⟩ := r.tr.all r.ver r.ehr f2
  have n2 : env2.configProfiles.Nodup := by rw [r.prof]; exact (addNew_nodup st.nodup).filter _
  refine ⟨?_, r.sysAsk, r.descAsk⟩
  intro l hl x hx
  obtain ⟨-, dd, d1, d2⟩ := r.tr.conn l hl
  have := askEach_inv _ d2 x hx
  rw [itemCounts_countOf (w 8 (by omega)) code_serial (allProfiles_nodup n2 hnd) d1 hx,
    ← r.tr.counts r.ver w se (a := 8) (b := 11) (by omega) (by omega) (by
        intro i h1 h2; interval_cases i
        · exact Or.inr (vq_ne_step _ (by omega))
        all_goals exact Or.inl (by decide)) x, r.tr.last] at this
  exact this

/-- non-vacuity: two NICs become one in x; the user is asked just that, and the command stops if they do not agree -/
example : ∃ s', editHardware { exEhCtx with ask := fun a => decide (a = .deleteNics pX 2 1) }
      { profiles := some ["x".toList], nics := some 1 } exEhSt = .ok s' ∧
    editHardware { exEhCtx with ask := fun _ => false } { profiles := some ["x".toList], nics := some 1 } exEhSt =
      .error .systemExit :=
  ⟨_, rfl, rfl⟩

/-- **C80 (declined).** A user who says no ends the command: no to
applying to all profiles what was asked for some, no to a new profile, no to deleting all profiles. -/
theorem C80_declined (henv : curEnv c s.envl = .ok env) :
    (∀ P, q.profiles = some P →
      (q.systemTypes.isSome = true → c.ask .systemTypesForAll = false → editHardware c q s = .error .systemExit) ∧
      ((q.systemTypes.isSome = true → c.ask .systemTypesForAll = true) →
        (q.descriptions.isSome = true → c.ask .descriptionsForAll = false → editHardware c q s = .error .systemExit) ∧
        ((q.descriptions.isSome = true → c.ask .descriptionsForAll = true) →
          ∀ a p b, P = a ++ p :: b → (∀ x ∈ a, x ∈ env.configProfiles) → p ∉ env.configProfiles →
            c.ask (.createProfile p) = false → editHardware c q s = .error .systemExit))) ∧
    (q.profiles = none → q.deleteOthers = true → c.ask .deleteAllProfiles = false →
      editHardware c q s = .error .systemExit) := by
  have hup : ∀ e, updateProfiles c q s = .error e → q.ready = true → editHardware c q s = .error e := by
    intro e he hr
    unfold editHardware
    rw [if_neg (by rw [hr]; decide), he]
    rfl
  constructor
  · intro P hP
    have hr : q.ready = true := by simp [EhReq.ready, hP]
    refine ⟨fun h1 h2 => hup _ ?_ hr, fun h1 => ⟨fun h2 h3 => hup _ ?_ hr, fun h2 a p b hab ha hp hask => hup _ ?_ hr⟩⟩
    · unfold updateProfiles ehOrDie
      rw [hP]
      simp only [h1, h2, if_true]
      rfl
    · have e1 : (if q.systemTypes.isSome then ehOrDie c .systemTypesForAll else .ok () : Except Err Unit) = .ok () := by
        split
        · rename_i hs; unfold ehOrDie; rw [h1 hs]; rfl
        · rfl
      unfold updateProfiles
      rw [hP]
      simp only [e1]
      unfold ehOrDie
      simp only [h2, h3, if_true]
      rfl
    · have e1 : (if q.systemTypes.isSome then ehOrDie c .systemTypesForAll else .ok () : Except Err Unit) = .ok () := by
        split
        · rename_i hs; unfold ehOrDie; rw [h1 hs]; rfl
        · rfl
      have e2 : (if q.descriptions.isSome then ehOrDie c .descriptionsForAll else .ok () : Except Err Unit) = .ok () := by
        split
        · rename_i hs; unfold ehOrDie; rw [h2 hs]; rfl
        · rfl
      have e3 : createLoop c env.configProfiles P s.envl = .error .systemExit := by
        subst hab
        clear hP
        induction a with
        | nil =>
          simp only [List.nil_append, createLoop]
          rw [if_neg hp]
          unfold ehOrDie
          rw [hask]
          rfl
        | cons x a ih =>
          simp only [List.cons_append, createLoop]
          rw [if_pos (ha x (by simp))]
          exact ih (fun y hy => ha y (by simp [hy]))
      unfold updateProfiles
      rw [hP]
      simp only [e1, e2, henv]
      change ((createLoop c env.configProfiles P s.envl).bind _).bind _ = _
      rw [e3]
      rfl
  · intro hP hd ha
    apply hup
    · unfold updateProfiles deleteOthersStep ehOrDie
      rw [hP]
      simp only [hd, ha, if_true]
      change (curEnv c s.envl).bind _ = _
      rw [henv]
      rfl
    · simp [EhReq.ready, hd]

/-! ### C81: networks -/

theorem maxCount_congr {f g : Prof → Nat} {L : List Prof} (h : ∀ p ∈ L, f p = g p) : maxCount f L = maxCount g L := by
  unfold maxCount
  have : ∀ (l : List Prof) (m : Nat), (∀ p ∈ l, f p = g p) →
      l.foldl (fun m p => max m (f p)) m = l.foldl (fun m p => max m (g p)) m := by
    intro l
    induction l with
    | nil => intros; rfl
    | cons a b ih =>
      intro m hm
      simp only [List.foldl_cons]
      rw [hm a (by simp)]
      exact ih _ (fun p hp => hm p (by simp [hp]))
  exact this L 0 h

/-- **C81.** Networks are only added, after those that there are, and only with the user's consent. -/
theorem C81_networks (st : EhStart c q env s) (h : editHardware c q s = .ok s')
    {nets : List (Option Str)} (hn : networks c.env.ver s.envl = .ok nets) :
    ∃ new : List Str, networks c.env.ver s'.envl = .ok (nets ++ new.map some) ∧
      ∀ n ∈ new, some n ∉ nets ∧ c.ask (.createNetwork n) = true := by
  obtain ⟨env2, q', s1, t, r⟩ := editHardware_run st h
  obtain ⟨d, ex, ns, f1, f2, f3, f4, f5, f6⟩ := r.tr.nets
  rw [r.nets, hn] at f2; cases f2
  obtain ⟨M, m1, m2, m3⟩ := f3.list nets (by rw [r.nets]; exact hn)
  have hM : ∀ (l : List (Option Str)), (∀ x ∈ l, x ∉ nets ∧ ∃ n ∈ ns, x = some n) → ∃ L : List Str, l = L.map some := by
    intro l
    induction l with
    | nil => exact fun _ => ⟨[], rfl⟩
    | cons a b ih =>
      intro hl
      obtain ⟨L, hL⟩ := ih (fun x hx => hl x (by simp [hx]))
      obtain ⟨-, n, -, rfl⟩ := hl a (by simp)
      exact ⟨n :: L, by rw [hL]; rfl⟩
  obtain ⟨L, rfl⟩ := hM M m3
  refine ⟨L, m1, ?_⟩
  intro n hL
  obtain ⟨a, k, k1, k2⟩ := m3 (some n) (List.mem_map.2 ⟨n, hL, rfl⟩)
  cases k2
  exact ⟨a, f4 n k1 a⟩

theorem vmNetwork_subst (v : Str) : reSubst holeRe v "VM Network".toList = "VM Network".toList := rfl

theorem fillLoop_vm : ∀ (n v : Nat) (l : List Str), (∀ x ∈ l, x = "VM Network".toList) →
    ∀ x ∈ fillLoop "VM Network".toList n v l, x = "VM Network".toList
  | 0, _, l, h => h
  | n + 1, v, l, h => fillLoop_vm n (v + 1) _ (by
      intro x hx
      rw [vmNetwork_subst] at hx
      rcases List.mem_append.1 hx with hx | hx
      · exact h x hx
      · simpa using hx)

theorem fillLoop_length (p : Str) : ∀ (n v : Nat) (l : List Str), (fillLoop p n v l).length = l.length + n
  | 0, _, l => rfl
  | n + 1, v, l => by unfold fillLoop; rw [fillLoop_length p n]; simp; omega

theorem expand_vm (m : Nat) : expandListWildcard ["VM Network".toList] m ≠ [] ∧
    ∀ x ∈ expandListWildcard ["VM Network".toList] m, x = "VM Network".toList := by
  unfold expandListWildcard
  rw [if_neg (by simp)]
  split
  · rename_i hm
    simp only [List.dropLast_singleton, List.getLastD_cons, List.getLastD_nil, List.length_nil]
    refine ⟨?_, fillLoop_vm _ _ _ (by simp)⟩
    intro h0
    have := congrArg List.length h0
    rw [fillLoop_length] at this
    simp at this hm
    omega
  · exact ⟨by simp, by simp⟩

/-- **C81, connections.** After `--nic-networks` the NICs are connected, one after the other, to the networks in the
(expanded) list, the last one being for all NICs that are left, and all these networks are declared.  If no networks are
given and the package declares none, then all NICs are connected to "VM Network", which is declared if there is a NIC. -/
theorem C81_connections_partial (st : EhStart c q env s) (h : editHardware c q s = .ok s') (he : curEnv c s'.envl = .ok env')
    (hnd : (q.profiles.getD []).Nodup) {nets nets' : List (Option Str)} (hn : networks c.env.ver s.envl = .ok nets)
    (hn' : networks c.env.ver s'.envl = .ok nets') :
    (∀ l, q.networks = some l → ∃ names,
      names = expandListWildcard l (maxDevices env' "10".toList (allProfilesIfEmpty env' q.profList) s'.hw) ∧
      (∀ n ∈ names, some n ∈ nets') ∧
      InOrder env' "10".toList connection names (names.getLast?.getD []) (q.targets env') s'.hw) ∧
    (q.networks = none → nets = [] → 0 < maxDevices env' "10".toList (allProfilesIfEmpty env' q.profList) s'.hw →
      some "VM Network".toList ∈ nets' ∧
      InOrder env' "10".toList connection [] "VM Network".toList (q.targets env') s'.hw) := by
  obtain ⟨env2, q', s1, t, r⟩ := editHardware_run st h
  obtain rfl : env2 = env' := by rw [r.cfg] at he; exact (Except.ok.inj he)
  obtain ⟨d, ex, ns, f1, f2, f3, f4, f5, f6⟩ := r.tr.nets
  obtain ⟨w, se, -, cn, cs⟩ := r.tr.all r.ver r.ehr f2
  rw [r.nets, hn] at f2; cases f2
  have n2 : env2.configProfiles.Nodup := by rw [r.prof]; exact (addNew_nodup st.nodup).filter _
  have hm : maxCount d (allProfilesIfEmpty env2 q.profList) =
      maxDevices env2 "10".toList (allProfilesIfEmpty env2 q.profList) s'.hw := by
    refine maxCount_congr fun p hp => ?_
    rw [itemCounts_countOf (w 5 (by omega)) code_eth (allProfiles_nodup n2 hnd) f1 hp, ← r.tr.last,
      r.tr.counts r.ver w se (a := 5) (b := 11) (by omega) (by omega) (by
        intro i h1 h2; interval_cases i
        · exact Or.inr (vq_ne_step _ (by omega))
        · exact Or.inr (vq_ne_step _ (by omega))
        all_goals exact Or.inl (by decide)) p]
  rw [hm] at f5 f6
  generalize maxDevices env2 "10".toList (allProfilesIfEmpty env2 q.profList) s'.hw = m at f5 f6
  obtain ⟨M, m1, m2, -⟩ := f3.list nets (by rw [r.nets]; exact hn)
  rw [m1] at hn'; cases hn'
  obtain ⟨t0, t1, t2, t3⟩ := r.tr.infer
  obtain ⟨_, _, -, -, i1, -, i3⟩ := inferNetworks_inv t3
  have kc : KeepsTab env2 "10".toList connection (t 6) s'.hw := by
    rw [← r.tr.last]
    refine r.tr.keeps r.ver w se (by omega) (Nat.le_refl _) (fun j h1 h2 => ?_)
    interval_cases j
    · exact Or.inr ⟨_, rfl, (conn_plain _).1⟩
    all_goals exact Or.inl (by decide)
  have main : ∀ l, effNetworks q' m nets = some l → (∀ n ∈ expandListWildcard l m, some n ∈ nets ++ M) ∧
      InOrder env2 "10".toList connection (expandListWildcard l m) ((expandListWildcard l m).getLast?.getD [])
        (q.targets env2) s'.hw := by
    intro l hl
    obtain ⟨g1, g2⟩ := f6 l hl
    exact ⟨by rw [← g1]; exact m2,
      (setNicValues_inOrder (w 5 (by omega)) (conn_plain _) (conn_iid _) conn_rt (by decide +kernel) g2).keep
      (conn_plain _) kc⟩
  refine ⟨?_, ?_⟩
  · intro l hl
    refine ⟨_, rfl, main l ?_⟩
    rw [i1 l hl]
    unfold effNetworks
    rw [if_neg (by rw [hl]; simp)]
    exact hl
  · intro hq h0 hpos
    have hq' : q' = q := i3 (by rw [t1, r.nets, hn, h0])
    obtain ⟨a, b⟩ := main ["VM Network".toList] (by unfold effNetworks; rw [if_pos ⟨hpos, h0, by rw [hq']; exact hq⟩])
    obtain ⟨e1, e2⟩ := expand_vm m
    generalize expandListWildcard ["VM Network".toList] m = L at a b e1 e2
    refine ⟨?_, ?_⟩
    · obtain ⟨x, hx⟩ := List.exists_mem_of_ne_nil L e1
      have := a x hx
      rwa [e2 x hx] at this
    · have hl : L.getLast?.getD [] = "VM Network".toList := by
        rw [List.getLast?_eq_some_getLast e1]
        exact e2 _ (List.getLast_mem e1)
      have hall : ∀ i : Nat, L[i]?.getD (L.getLast?.getD []) = "VM Network".toList := by
        intro i
        rw [hl]
        cases hi : L[i]? with
        | none => rfl
        | some x => exact e2 x (List.mem_of_getElem? hi)
      obtain ⟨ids, k1, k2, k3, k4⟩ := b
      refine ⟨ids, k1, k2, k3, ?_⟩
      intro i hi
      obtain ⟨it, x1, x2⟩ := k4 i hi
      refine ⟨it, x1, ?_⟩
      intro p hp hpp hne
      have := x2 p hp hpp
      rw [hall i] at this
      exact this hne

/-- non-vacuity: two networks are added, and the three NICs of x are connected -/
example : networks .v1 exEhSt'.envl = .ok [some "A".toList, some "N1".toList, some "N2".toList] ∧
    ((dget? exEhSt'.hw "11".toList).bind (fun it => it.getRaw connection (some {pX}))) = some (.str "A".toList) ∧
    ((dget? exEhSt'.hw "13".toList).bind (fun it => it.getRaw connection (some {pX}))) = some (.str "N2".toList) := by
  refine ⟨rfl, ?_, ?_⟩ <;> decide +kernel

end Cot
