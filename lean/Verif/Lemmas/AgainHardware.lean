import Verif.Lemmas.AgainItems
import Verif.Lemmas.EditDeclares
import Verif.Props.Again
import Verif.Props.EditHardwareNetworks
/-
What a run of edit-hardware leaves, and what a second run does with it.
-/
namespace Cot

/-! ### networks -/

/-- after `create_network` the network has a description, maybe an empty one -/
theorem createNetwork_some {v : Ver} (hv : v ≠ .v0) {env e' : Elem} (h : NetsWF v env) {label : Str} {desc : Option Str}
    (hc : createNetwork v env label desc = .ok e') : ∃ x, Described v e' label x := by
  obtain ⟨env1, s, e1, e2, e3, e4⟩ := ensure_spec (v := v) "Logical networks".toList h.1
  have hinfo : ovfTag v "Network".toList ≠ infoTag v := fun hh => absurd (List.append_cancel_left hh) (by decide)
  have hnew : ∀ info, kids (newSection v (ovfTag v "NetworkSection".toList) [] info) (ovfTag v "Network".toList) = [] :=
    fun info => newSection_kids hinfo
  have hwf : (∀ x, (named s (ovfTag v "Network".toList) (ovfTag v "name".toList) x).length ≤ 1) ∧
      ∀ n ∈ kids s (ovfTag v "Network".toList), (kids n (ovfTag v "Description".toList)).length ≤ 1 := by
    rcases e4 with ⟨a, -⟩ | ⟨-, rfl⟩
    · exact h.2 s (by rw [a]; simp)
    · refine ⟨fun x => ?_, fun n hn => ?_⟩
      · have : named (newSection v (ovfTag v "NetworkSection".toList) [] "Logical networks".toList)
            (ovfTag v "Network".toList) (ovfTag v "name".toList) x = [] := by
          rw [List.eq_nil_iff_forall_not_mem]
          intro c hc
          have := (named_sub.1 hc).1
          rw [hnew] at this
          cases this
        rw [this]; simp
      · rw [hnew] at hn; cases hn
  obtain ⟨s1, n, f1, f2, f3, f4, f5⟩ := ensureNamed_spec (hwf.1 label)
  have hn1 : (kids n (ovfTag v "Description".toList)).length ≤ 1 := by
    rcases f5 with ⟨a, -⟩ | ⟨-, -, a⟩
    · exact hwf.2 n (named_sub.1 (by rw [a]; simp)).1
    · unfold kids; rw [a]; simp
  obtain ⟨n', c, g1, g2, g3, g4, g5, -⟩ := setOptText_spec (x := desc) (o := []) hn1
  have hnt := named_tag (s := s1) (c := n) (by rw [f2]; simp)
  obtain ⟨u1, u2, u3, u4⟩ := named_update f2 (n' := n') (g2.1.trans hnt.1) ((g2.get _).trans hnt.2)
  generalize hs' : updateFirst s1 (ovfTag v "Network".toList) [(ovfTag v "name".toList, label)] (fun _ => n') = s' at u1 u2 u3 u4
  have hst : s.tag = ovfTag v "NetworkSection".toList := kids_tag (by rw [e2]; simp)
  have w := updateFirst_spec e2 (s' := s') (u3.1.trans (f4.1.trans hst))
  have hset : createNetwork v env label desc = .ok (updateFirst env1 (ovfTag v "NetworkSection".toList) [] (fun _ => s')) := by
    unfold createNetwork netSecTag netSecAttrib networkTag networkName networkDesc
    rw [section_tag hv, section_attrib hv, e1]
    simp only
    rw [findChild_kids e2]
    simp only
    rw [f1]
    simp only
    rw [findChild_some.2 (show findAllChildren s1 _ _ = [n] by rw [findAll_named]; exact f2)]
    simp only
    rw [g1]
    simp only
    rw [hs']
  rw [hset] at hc
  cases hc
  exact ⟨c.text.getD [], s', n', w.1, u1, Or.inr ⟨c, g3, rfl⟩⟩

/-- a network that has a description is not changed when none is given -/
theorem createNetwork_again {v : Ver} (hv : v ≠ .v0) {e : Elem} {label x : Str} (h : Described v e label x) :
    createNetwork v e label none = .ok e := by
  obtain ⟨s, n, h1, h2, h3⟩ := h
  rcases h3 with ⟨h3, -⟩ | ⟨c, h3, -⟩
  · cases h3
  have hk : findAllChildren e (ovfTag v "NetworkSection".toList) [] = [s] := by rw [findAll_nil]; exact h1
  have hn : findAllChildren s (ovfTag v "Network".toList) [(ovfTag v "name".toList, label)] = [n] := by
    rw [findAll_named]; exact h2
  obtain ⟨s1, n1, f1, f2, f3, f4, f5⟩ := ensureNamed_spec (s := s) (t := ovfTag v "Network".toList) (a := ovfTag v "name".toList)
    (x := label) (by rw [h2]; simp)
  have hs1 : setOrMakeChild s (ovfTag v "Network".toList) none [(ovfTag v "name".toList, label)] [] = .ok s := by
    have hm := named_tag (s := s) (c := n) (by rw [h2]; simp)
    obtain ⟨pre, post, e1, -, e3, e4, e5⟩ := updateFirst_split (f := id) hn
    rw [setOrMakeChild_of_one e1 e3 (by
      intro e he
      rcases List.mem_append.1 he with h | h
      · exact e4 e h
      · exact e5 e h)]
    have hu : updateElem n none [(ovfTag v "name".toList, label)] = n := by
      unfold updateElem
      exact foldl_set_id _ _ (by simpa using hm.2)
    rw [hu, ← e1]
    cases s; rfl
  have hd : setOrMakeChild n (ovfTag v "Description".toList) none [] [] = .ok n := by
    unfold setOrMakeChild
    rw [findChild_kids h3]
    simp only
    rw [mapFirst_self, setChildren_self]
    intro e _ _
    rfl
  unfold createNetwork netSecTag netSecAttrib networkTag networkName networkDesc
  rw [section_tag hv, section_attrib hv, ensureSection_some hk]
  simp only
  rw [findChild_kids h1]
  simp only
  rw [hs1]
  simp only
  rw [findChild_some.2 hn]
  simp only
  rw [hd]
  simp only
  rw [updateFirst_self hn, updateFirst_self hk]

theorem createNetwork_keepsSome {v : Ver} (hv : v ≠ .v0) {e e' : Elem} (h : NetsWF v e) {n : Str} {d : Option Str}
    (hc : createNetwork v e n d = .ok e') {m : Str} (hm : ∃ x, Described v e m x) : ∃ x, Described v e' m x := by
  by_cases hmn : m = n
  · subst hmn; exact createNetwork_some hv h hc
  · obtain ⟨x, hx⟩ := hm
    exact ⟨x, (createNetwork_described hv h hc).2.2 m x hmn hx⟩

theorem networkLoop_some {c : EhCtx} (hv : c.env.ver ≠ .v0) {existing : List (Option Str)} : ∀ (l descs : List Str)
    {e e' : Elem}, NetsWF c.env.ver e → networkLoop c existing l descs e = .ok e' →
      ∀ m, (m ∈ l ∨ ∃ x, Described c.env.ver e m x) → ∃ x, Described c.env.ver e' m x
  | [], descs, e, e', wf, h => by
    cases h
    intro m hm
    rcases hm with hm | hm
    · cases hm
    · exact hm
  | n :: r, descs, e, e', wf, h => by
    unfold networkLoop at h
    split at h
    · cases h
    · split at h
      · cases h
      · rename_i e1 h1
        have w1 := (createNetwork_added hv wf h1).wf
        intro m hm
        refine networkLoop_some hv r descs.tail w1 h m ?_
        rcases hm with hm | hm
        · rcases List.mem_cons.1 hm with rfl | hm
          · exact Or.inr (createNetwork_some hv wf h1)
          · exact Or.inl hm
        · exact Or.inr (createNetwork_keepsSome hv wf h1 hm)

theorem networkLoop_again {c : EhCtx} (hv : c.env.ver ≠ .v0) {existing : List (Option Str)} {e : Elem} : ∀ (l : List Str),
    (∀ m ∈ l, some m ∈ existing) → (∀ m ∈ l, ∃ x, Described c.env.ver e m x) → networkLoop c existing l [] e = .ok e
  | [], _, _ => rfl
  | n :: r, h1, h2 => by
    unfold networkLoop netDescFor
    rw [if_pos (h1 n List.mem_cons_self)]
    obtain ⟨x, hx⟩ := h2 n List.mem_cons_self
    simp only [List.head?_nil, createNetwork_again hv hx]
    exact networkLoop_again hv r (fun m hm => h1 m (List.mem_cons_of_mem _ hm)) (fun m hm => h2 m (List.mem_cons_of_mem _ hm))

/-! ### system types -/

theorem mapFirst_twice {p : Elem → Bool} {x : Elem} (hx : p x = true) : ∀ (l : List Elem),
    mapFirst p (fun _ => x) (mapFirst p (fun _ => x) l) = mapFirst p (fun _ => x) l
  | [] => rfl
  | e :: r => by
    by_cases he : p e = true
    · simp [mapFirst, he, hx]
    · simp [mapFirst, he, mapFirst_twice hx r]

theorem find_mapFirst {p : Elem → Bool} {x : Elem} (hx : p x = true) : ∀ {l : List Elem} {y : Elem}, l.find? p = some y →
    (mapFirst p (fun _ => x) l).find? p = some x
  | [], y, h => by cases h
  | e :: r, y, h => by
    by_cases he : p e = true
    · simp [mapFirst, he, hx]
    · simp only [List.find?_cons, he] at h
      simp [mapFirst, he, find_mapFirst hx h]

theorem insertChild_find {o : List Str} {k : Nat} {c : Elem} {p : Elem → Bool} (hc : p c = true) : ∀ {l : List Elem},
    l.find? p = none → (insertChild o k c l).find? p = some c
  | [], _ => by simp [insertChild, hc]
  | e :: r, h => by
    rw [List.find?_cons] at h
    have he : p e = false := by
      by_contra hh
      rw [Bool.not_eq_false] at hh
      rw [hh] at h; cases h
    rw [he] at h
    unfold insertChild
    split
    · split
      · simp [hc]
      · simp [he, insertChild_find hc h]
    · simp [hc]

theorem mapFirst_find {p : Elem → Bool} {x : Elem} : ∀ {l : List Elem}, l.find? p = some x → mapFirst p (fun _ => x) l = l
  | [], h => by cases h
  | e :: r, h => by
    by_cases he : p e = true
    · simp only [List.find?_cons, he] at h
      cases h
      simp [mapFirst, he]
    · simp only [List.find?_cons, he] at h
      simp [mapFirst, he, mapFirst_find h]

theorem setSystemTypes_again {v : Ver} {hws : Option Elem} {L : List Str} {e : Elem} (h : setSystemTypes v hws L = .ok e) :
    setSystemTypes v (some e) L = .ok e := by
  -- what the System of the result is
  have key : ∃ s' c, findFirst e (systemTag v) = some s' ∧ kids s' vstTag = [c] ∧ c.text = some (joinWith [' '] L) := by
    unfold setSystemTypes at h
    split at h
    · cases h
    · rename_i h0
      split at h
      · rename_i s hs
        split at h
        · cases h
        · rename_i s' hs'
          cases h
          obtain ⟨g1, c, g2, g3⟩ := setOrMakeChild_after hs'
          have ht : (s'.tag == systemTag v) = true := by
            have := List.find?_some hs
            rw [g1.1]; exact this
          refine ⟨s', c, ?_, g2, g3⟩
          unfold findFirst
          rw [setChildren_children]
          exact find_mapFirst ht hs
      · rename_i hs
        split at h
        · cases h
        · rename_i s' hs'
          cases h
          obtain ⟨g1, c, g2, g3⟩ := setOrMakeChild_after hs'
          have ht : (s'.tag == systemTag v) = true := by
            rw [g1.1]
            have : (newSystem v).tag = systemTag v := rfl
            rw [this]; simp
          refine ⟨s', c, ?_, g2, g3⟩
          unfold findFirst addChild
          split
          · rw [setChildren_children, List.find?_append]
            unfold findFirst at hs
            rw [hs]
            simp only [Option.none_or, List.find?_cons, ht]
          · rw [setChildren_children]
            exact insertChild_find ht hs
  obtain ⟨s', c, k1, k2, k3⟩ := key
  unfold setSystemTypes
  simp only [k1, setOrMakeChild_self k2 k3]
  unfold findFirst at k1
  rw [mapFirst_find k1, setChildren_self]

/-! ### profiles -/

theorem createLoop_known {c : EhCtx} {known : List Str} {e : Elem} : ∀ (P : List Str), (∀ p ∈ P, p ∈ known) →
    createLoop c known P e = .ok e
  | [], _ => rfl
  | p :: r, h => by
    unfold createLoop
    rw [if_pos (h p List.mem_cons_self)]
    exact createLoop_known r (fun x hx => h x (List.mem_cons_of_mem _ hx))

theorem deleteLoop_refused {c : EhCtx} {s : EhSt} : ∀ (l : List Str), (∀ p ∈ l, c.ask (.deleteProfile p) = false) →
    deleteLoop c true l s = .ok s
  | [], _ => rfl
  | p :: r, h => by
    unfold deleteLoop
    rw [if_pos ⟨rfl, h p List.mem_cons_self⟩]
    exact deleteLoop_refused r (fun x hx => h x (List.mem_cons_of_mem _ hx))

/-- where the profiles are as asked for, nothing is created or deleted -/
theorem updateProfiles_again {c : EhCtx} {q : EhReq} {s : EhSt} {env : Env} (ho : OrdersSets c.setOrder)
    (he : curEnv c s.envl = .ok env) (hin : ∀ p ∈ q.profiles.getD [], p ∈ env.configProfiles)
    (hdel : ∀ p ∈ env.configProfiles, ¬ Deleted c q p)
    (a1 : q.deleteOthers = true → q.profiles = none → c.ask .deleteAllProfiles = true)
    (a2 : q.profiles.isSome = true → q.systemTypes.isSome = true → c.ask .systemTypesForAll = true)
    (a3 : q.profiles.isSome = true → q.descriptions.isSome = true → c.ask .descriptionsForAll = true) :
    updateProfiles c q s = .ok s := by
  have die : ∀ {b : Bool} {a : EhAsk}, (b = true → c.ask a = true) →
      (if b then ehOrDie c a else .ok () : Except Err Unit) = .ok () := by
    intro b a hh
    unfold ehOrDie
    cases b with
    | false => rfl
    | true => rw [if_pos rfl, if_pos (hh rfl)]
  have hdo : (if q.deleteOthers then deleteOthersStep c q s else .ok s) = .ok s := by
    split
    · rename_i hd
      unfold deleteOthersStep
      simp only [he, bind, Except.bind]
      cases hp : q.profiles with
      | none =>
        simp only [ehOrDie, if_pos (a1 hd hp)]
        have : env.configProfiles = [] := by
          rw [List.eq_nil_iff_forall_not_mem]
          intro p hpp
          exact hdel p hpp ⟨hd, by simp [hp], Or.inl hp⟩
        rw [this]; rfl
      | some P =>
        refine deleteLoop_refused _ ?_
        intro p hpp
        rw [(ho _).2, List.mem_filter] at hpp
        have := hdel p hpp.1
        by_contra hn
        rw [Bool.not_eq_false] at hn
        exact this ⟨hd, by simpa [hp] using hpp.2, Or.inr hn⟩
    · rfl
  unfold updateProfiles
  cases hp : q.profiles with
  | none =>
    simp only [bind, Except.bind]
    exact hdo
  | some P =>
    simp only [he, die (a2 (by rw [hp]; rfl)), die (a3 (by rw [hp]; rfl)), bind, Except.bind]
    rw [createLoop_known P (fun p hpp => hin p (by rw [hp]; exact hpp))]
    exact hdo

/-! ### values that are checked -/

/-- the check of a value, if there is one, passes and leaves this record -/
def Checked (p : Plat) (k : HwKind) (v : Option Int) (seen seen' : ValCache) : Prop :=
  match v with
  | none => seen' = seen
  | some n => validateHw p k seen n = (.ok (), seen')

theorem vmValidate_checked {c : EhCtx} {k : HwKind} {v : Int} {s s' : EhSt} (h : vmValidate c k v s = .ok s') :
    validateHw c.plat k s.seen v = (.ok (), s'.seen) := by
  unfold vmValidate at h
  split at h
  · cases h
  · rename_i u seen' hv; cases h; exact hv

theorem deleteLoop_seen {c : EhCtx} {named : Bool} : ∀ (todo : List Str) {s s' : EhSt}, deleteLoop c named todo s = .ok s' →
    s'.seen = s.seen
  | [], s, s', h => by cases h; rfl
  | p :: r, s, s', h => by
    unfold deleteLoop at h
    split at h
    · exact deleteLoop_seen r h
    · split at h
      · cases h
      · split at h
        · cases h
        · have := deleteLoop_seen r h
          exact this

theorem updateProfiles_seen {c : EhCtx} {q : EhReq} {s s' : EhSt} (h : updateProfiles c q s = .ok s') : s'.seen = s.seen := by
  unfold updateProfiles at h
  obtain ⟨s1, h1, h⟩ := bind_ok_inv h
  have e1 : s1.seen = s.seen := by
    split at h1
    · cases h1; rfl
    · obtain ⟨_, _, h1⟩ := bind_ok_inv h1
      obtain ⟨_, _, h1⟩ := bind_ok_inv h1
      obtain ⟨_, _, h1⟩ := bind_ok_inv h1
      obtain ⟨_, _, h1⟩ := bind_ok_inv h1
      cases h1; rfl
  rw [← e1]
  split at h
  · unfold deleteOthersStep at h
    obtain ⟨env, _, h⟩ := bind_ok_inv h
    split at h
    · obtain ⟨_, _, h⟩ := bind_ok_inv h
      exact deleteLoop_seen _ h
    · exact deleteLoop_seen _ h
  · cases h; rfl

theorem systemTypesStep_seen {c : EhCtx} {q : EhReq} {s s' : EhSt} (h : systemTypesStep c q s = .ok s') : s'.seen = s.seen := by
  unfold systemTypesStep at h
  split at h
  · cases h; rfl
  · split at h
    · cases h
    · cases h; rfl

theorem editItems_checked {c : EhCtx} {q : EhReq} {s s' : EhSt} (h : editItems c q s = .ok s') : ∃ a b d,
    Checked c.plat .cpus q.cpus s.seen a ∧ Checked c.plat .memory (q.memory.map (fun n => (n : Int))) a b ∧
    Checked c.plat .nicCount (q.nics.map (fun n => (n : Int))) b d := by
  unfold editItems at h
  obtain ⟨s1, h1, h⟩ := bind_ok_inv h
  obtain ⟨s2, h2, h⟩ := bind_ok_inv h
  obtain ⟨q', hq, h⟩ := bind_ok_inv h
  obtain ⟨s3, h3, h⟩ := bind_ok_inv h
  obtain ⟨nets, descs, hq', -⟩ := inferNetworks_inv hq
  have g3 : q'.nics = q.nics := by rw [hq']
  refine ⟨s1.seen, s2.seen, s3.seen, ?_, ?_, ?_⟩
  · unfold cpuStep at h1
    split at h1
    · rename_i hn; cases h1; rw [hn]; rfl
    · rename_i n hn
      obtain ⟨x, hx, h1⟩ := bind_ok_inv h1
      obtain ⟨_, _, h1⟩ := bind_ok_inv h1
      obtain ⟨_, _, h1⟩ := bind_ok_inv h1
      cases h1
      have hh := vmValidate_checked hx
      rw [hn]; exact hh
  · unfold memoryStep at h2
    split at h2
    · rename_i hn; cases h2; rw [hn]; rfl
    · rename_i n hn
      obtain ⟨x, hx, h2⟩ := bind_ok_inv h2
      obtain ⟨_, _, h2⟩ := bind_ok_inv h2
      obtain ⟨_, _, h2⟩ := bind_ok_inv h2
      obtain ⟨_, _, h2⟩ := bind_ok_inv h2
      cases h2
      have hh := vmValidate_checked hx
      rw [hn]; exact hh
  · unfold nicCountStep at h3
    obtain ⟨_, _, h3⟩ := bind_ok_inv h3
    obtain ⟨_, _, h3⟩ := bind_ok_inv h3
    rw [g3] at h3
    split at h3
    · rename_i hn; cases h3; rw [hn]; rfl
    · rename_i n hn
      obtain ⟨_, _, h3⟩ := bind_ok_inv h3
      obtain ⟨x, hx, h3⟩ := bind_ok_inv h3
      obtain ⟨_, _, h3⟩ := bind_ok_inv h3
      cases h3
      have hh := vmValidate_checked hx
      rw [hn]; exact hh

theorem editHardware_checked {c : EhCtx} {q : EhReq} {s s' : EhSt} (h : editHardware c q s = .ok s') : ∃ a b d,
    Checked c.plat .cpus q.cpus s.seen a ∧ Checked c.plat .memory (q.memory.map (fun n => (n : Int))) a b ∧
    Checked c.plat .nicCount (q.nics.map (fun n => (n : Int))) b d := by
  unfold editHardware at h
  split at h
  · cases h
  · obtain ⟨s0, h0, h⟩ := bind_ok_inv h
    obtain ⟨s1, h1, h⟩ := bind_ok_inv h
    have := editItems_checked h
    rw [systemTypesStep_seen h1, updateProfiles_seen h0] at this
    exact this

/-! ### what the first run leaves -/

section
variable {c : EhCtx} {q q' : EhReq} {env : Env} {s s' : EhSt} {h : Nat → Hw}

theorem EhTrace.allSet (t : EhTrace c q q' env s s' h) (hve : env.ver = c.env.ver) (wf : ∀ i ≤ 11, HwWF env (h i))
    (se : ∀ i < 11, SameExcept env.ver (stepCodes i) (h i) (h (i+1))) {rt code name : Str} {val : InVal} {P : List Prof}
    {cn : Bool} (hc : resourceCode rt = .ok code) (hpl : Plain env name) (hid : name ≠ instanceId env.ver)
    (hrt : name ≠ resourceType) {i : Nat} (hi : i < 11) (h1 : setValueForAll env (h i) rt name val P cn = .ok (h (i+1)))
    (ka : ∀ j, i + 1 ≤ j → j < 11 → code ∉ stepCodes j ∨ ∃ m, stepName env.ver j = some m ∧ name ≠ m) :
    AllSet code name (normValue env name val) P.toFinset s'.hw ∧
      (cn = true → ∃ id it, dget? s'.hw id = some it ∧ OfType it code) := by
  obtain ⟨a, b⟩ := setValueForAll_after (wf i (by omega)) hc hpl hid hrt h1
  have k : KeepsTab env code name (h (i+1)) (h 11) := t.keeps hve wf se (by omega) (Nat.le_refl _) ka
  rw [t.last] at k
  refine ⟨a.keep k, ?_⟩
  intro hcn
  obtain ⟨id, it, g1, g2⟩ := b hcn
  obtain ⟨x, x1, x2, -⟩ := k.fwd id it g1 g2
  exact ⟨id, x, x1, x2⟩

theorem EhTrace.inOrderSet (t : EhTrace c q q' env s s' h) (hve : env.ver = c.env.ver) (wf : ∀ i ≤ 11, HwWF env (h i))
    (se : ∀ i < 11, SameExcept env.ver (stepCodes i) (h i) (h (i+1))) (ht : NoTies s'.hw) {rt code name : Str} {vs : List InVal}
    {dflt : InVal} {P : Option (List Prof)} (hc : resourceCode rt = .ok code) (hpl : Plain env name)
    (hid : name ≠ instanceId env.ver) {i : Nat} (hi : i < 11) (h1 : setItemValues env (h i) rt name vs P dflt = .ok (h (i+1)))
    (ka : ∀ j, i + 1 ≤ j → j < 11 → code ∉ stepCodes j ∨ ∃ m, stepName env.ver j = some m ∧ name ≠ m)
    (kb : ∀ j, i ≤ j → j < 11 → code ∉ stepCodes j ∨ ∃ m, stepName env.ver j = some m ∧ virtualQuantity ≠ m) :
    InOrderSet env rt name dflt (P.getD (env.configProfiles.map some ++ [none])) vs s'.hw := by
  obtain ⟨ids, a, b⟩ := setItemValues_after (wf i (by omega)) hc hpl hid h1
  have k : KeepsTab env code name (h (i+1)) (h 11) := t.keeps hve wf se (by omega) (Nat.le_refl _) ka
  have k0 : KeepsTab env code virtualQuantity (h i) (h (i+1)) :=
    t.keeps hve wf se (by omega) (by omega) (fun j h1 h2 => kb j h1 (by omega))
  have k1 : KeepsTab env code virtualQuantity (h i) (h 11) := t.keeps hve wf se (by omega) (Nat.le_refl _) kb
  have f := k1.found (wf i (by omega)) (wf 11 (by omega)) hc (by rw [t.last]; exact ht)
  rw [t.last] at k f
  refine ⟨ids, by rw [f]; exact a, b.keep k ?_⟩
  intro id hidm
  obtain ⟨it, g1, g2⟩ := ((typeIds_mem (wf i (by omega)) hc a).2.2 id).1 hidm
  obtain ⟨x, x1, x2, -⟩ := k0.fwd id it g1 g2
  exact ⟨x, x1, x2⟩

/-! ### the steps of the second run -/

/-- nothing has been changed so far -/
structure Unchanged (env : Env) (s x : EhSt) : Prop where
  envl : x.envl = s.envl
  hws : x.hws = s.hws
  hw : SameHw s.hw x.hw
  wf : HwWF env x.hw

theorem Unchanged.set {s x : EhSt} (u : Unchanged env s x) {hw : Hw} (h1 : SameHw x.hw hw) (h2 : HwWF env hw) :
    Unchanged env s { x with hw := hw } := ⟨u.envl, u.hws, u.hw.trans h1, h2⟩

theorem Unchanged.set2 {s x : EhSt} (u : Unchanged env s x) {hw : Hw} {seen : ValCache} (h1 : SameHw x.hw hw) (h2 : HwWF env hw) :
    Unchanged env s { x with hw := hw, seen := seen } := ⟨u.envl, u.hws, u.hw.trans h1, h2⟩

theorem Unchanged.cfg {s x : EhSt} (u : Unchanged env s x) (h : curEnv c s.envl = .ok env) : curEnv c x.envl = .ok env := by
  rw [u.envl]; exact h

theorem vmValidate_again {k : HwKind} {v : Int} {x : EhSt} {seen : ValCache} (h : validateHw c.plat k x.seen v = (.ok (), seen)) :
    vmValidate c k v x = .ok { x with seen := seen } := by
  unfold vmValidate; rw [h]

theorem cpuStep_again {x : EhSt} {a : ValCache} (u : Unchanged env s' x) (he : curEnv c s'.envl = .ok env)
    (hk : Checked c.plat .cpus q.cpus x.seen a)
    (hd : ∀ n, q.cpus = some n → AllSet "3".toList virtualQuantity (normValue env virtualQuantity (.str (intStr n)))
      q.profList.toFinset s'.hw ∧ ∃ id it, dget? s'.hw id = some it ∧ OfType it "3".toList) :
    ∃ y, cpuStep c q x = .ok y ∧ Unchanged env s' y ∧ y.seen = a := by
  unfold cpuStep
  cases hq : q.cpus with
  | none => rw [hq] at hk; exact ⟨x, rfl, u, hk.symm⟩
  | some n =>
    rw [hq] at hk
    obtain ⟨d1, id, it, d2, d3⟩ := hd n hq
    obtain ⟨y, y1, y2⟩ := u.hw.items id it d2
    obtain ⟨hw', k1, k2, k3⟩ := setValueForAll_done (P := q.profList) (cn := true) u.wf code_cpu (vq_plain _) (vq_iid _) vq_rt
      (fun _ => ⟨id, y, y1, (ofType_congr (y2.2 _) _).2 d3⟩) (d1.same u.hw)
    simp only [vmValidate_again hk, bind, Except.bind, u.cfg he, k1]
    exact ⟨_, rfl, u.set2 k2 k3, rfl⟩

theorem memoryStep_again {x : EhSt} {a : ValCache} (u : Unchanged env s' x) (he : curEnv c s'.envl = .ok env)
    (hk : Checked c.plat .memory (q.memory.map (fun n => (n : Int))) x.seen a)
    (hd : ∀ n, q.memory = some n → AllSet "4".toList virtualQuantity (normValue env virtualQuantity (.str (natStr n)))
      q.profList.toFinset s'.hw ∧ AllSet "4".toList allocationUnits (normValue env allocationUnits (.str "byte * 2^20".toList))
      q.profList.toFinset s'.hw ∧ ∃ id it, dget? s'.hw id = some it ∧ OfType it "4".toList) :
    ∃ y, memoryStep c q x = .ok y ∧ Unchanged env s' y ∧ y.seen = a := by
  unfold memoryStep
  cases hq : q.memory with
  | none => rw [hq] at hk; exact ⟨x, rfl, u, hk.symm⟩
  | some n =>
    rw [hq] at hk
    have hk : validateHw c.plat .memory x.seen n = (.ok (), a) := hk
    obtain ⟨d1, d0, id, it, d2, d3⟩ := hd n hq
    obtain ⟨y, y1, y2⟩ := u.hw.items id it d2
    obtain ⟨hw', k1, k2, k3⟩ := setValueForAll_done (P := q.profList) (cn := true) u.wf code_memory (vq_plain _) (vq_iid _) vq_rt
      (fun _ => ⟨id, y, y1, (ofType_congr (y2.2 _) _).2 d3⟩) (d1.same u.hw)
    obtain ⟨hw2, m1, m2, m3⟩ := setValueForAll_done (P := q.profList) (cn := false) k3 code_memory (au_plain _) (au_iid _) au_rt
      (by simp) (d0.same (u.hw.trans k2))
    simp only [vmValidate_again hk, bind, Except.bind, u.cfg he, k1, m1]
    exact ⟨_, rfl, u.set2 (k2.trans m2) m3, rfl⟩

theorem subtypesStep_again {x : EhSt} {rt code : Str} {types : Option (List Str)} (hc : resourceCode rt = .ok code)
    (u : Unchanged env s' x) (he : curEnv c s'.envl = .ok env)
    (hd : ∀ l, types = some l → AllSet code resourceSubType (normValue env resourceSubType (.list l)) q.profList.toFinset s'.hw) :
    ∃ y, subtypesStep c q rt types x = .ok y ∧ Unchanged env s' y ∧ y.seen = x.seen := by
  unfold subtypesStep
  cases types with
  | none => exact ⟨x, rfl, u, rfl⟩
  | some l =>
    obtain ⟨hw', k1, k2, k3⟩ := setValueForAll_done (P := q.profList) (cn := false) u.wf hc (rst_plain _) (rst_iid _) rst_rt
      (by simp) ((hd l rfl).same u.hw)
    simp only [bind, Except.bind, u.cfg he, k1]
    exact ⟨_, rfl, u.set k2 k3, rfl⟩

theorem nicTypesStep_again {x : EhSt} (u : Unchanged env s' x) (he : curEnv c s'.envl = .ok env)
    (hd : ∀ l, q.nicTypes = some l → ∃ l', canonNics l = .ok l' ∧ validateNicTypes c.plat l' = .ok () ∧
      AllSet "10".toList resourceSubType (normValue env resourceSubType (.list l')) q.profList.toFinset s'.hw) :
    ∃ y, nicTypesStep c q x = .ok y ∧ Unchanged env s' y ∧ y.seen = x.seen := by
  unfold nicTypesStep
  cases hq : q.nicTypes with
  | none => exact ⟨x, rfl, u, rfl⟩
  | some l =>
    obtain ⟨l', d1, d2, d3⟩ := hd l hq
    obtain ⟨hw', k1, k2, k3⟩ := setValueForAll_done (P := q.profList) (cn := false) u.wf code_eth (rst_plain _) (rst_iid _) rst_rt
      (by simp) (d3.same u.hw)
    simp only [bind, Except.bind, u.cfg he, d1, d2, k1]
    exact ⟨_, rfl, u.set k2 k3, rfl⟩

theorem setNicValues_again {hw0 hw : Hw} {name : Str} {vs : List Str} (wf : HwWF env hw) (hs : SameHw hw0 hw)
    (hpl : Plain env name) (hid : name ≠ instanceId env.ver) (hrt : name ≠ resourceType) {P : Option (List Prof)}
    (hd : ∃ x, vs.getLast? = some x ∧
      InOrderSet env "ethernet".toList name (.str x) (P.getD (env.configProfiles.map some ++ [none])) (vs.map InVal.str) hw0) :
    ∃ hw', setNicValues env hw name vs P = .ok hw' ∧ SameHw hw hw' ∧ HwWF env hw' := by
  obtain ⟨x, h1, h2⟩ := hd
  unfold setNicValues
  rw [h1]
  exact setItemValues_done wf hpl hid hrt (h2.same hs)

theorem macsStep_again {x : EhSt} (u : Unchanged env s' x) (he : curEnv c s'.envl = .ok env)
    (hd : ∀ l, q.macs = some l → ∃ x, l.getLast? = some x ∧ InOrderSet env "ethernet".toList address (.str x)
      (q.profOpt.getD (env.configProfiles.map some ++ [none])) (l.map InVal.str) s'.hw) :
    ∃ y, macsStep c q x = .ok y ∧ Unchanged env s' y ∧ y.seen = x.seen := by
  unfold macsStep
  cases hq : q.macs with
  | none => exact ⟨x, rfl, u, rfl⟩
  | some l =>
    obtain ⟨hw', k1, k2, k3⟩ := setNicValues_again (P := q.profOpt) u.wf u.hw (addr_plain _) (addr_iid _) addr_rt (hd l hq)
    simp only [bind, Except.bind, u.cfg he, k1]
    exact ⟨_, rfl, u.set k2 k3, rfl⟩

theorem askEach_same {mk : Prof → Nat → EhAsk} {d : Prof → Nat} {n : Nat} : ∀ (L : List Prof), (∀ p ∈ L, d p ≤ n) →
    askEach c mk d n L = .ok ()
  | [], _ => rfl
  | p :: r, h => by
    unfold askEach
    rw [if_neg (by have := h p List.mem_cons_self; omega)]
    exact askEach_same r (fun x hx => h x (List.mem_cons_of_mem _ hx))

theorem nicCountStep_again {x : EhSt} {a : ValCache} (u : Unchanged env s' x) (he : curEnv c s'.envl = .ok env)
    (hk : Checked c.plat .nicCount (q.nics.map (fun n => (n : Int))) x.seen a) (wf : HwWF env s'.hw)
    (hd : ∀ n, q.nics = some n → (allProfilesIfEmpty env q.profList).Nodup ∧
      ∀ p ∈ allProfilesIfEmpty env q.profList, countOf env s'.hw "10".toList p = n) :
    ∃ y, nicCountStep c q x = .ok y ∧ Unchanged env s' y ∧ y.seen = a := by
  unfold nicCountStep
  obtain ⟨ids, hids⟩ := findAllItems_ok (env := env) (hw := x.hw) code_eth
  obtain ⟨d, hdd⟩ : ∃ d, itemCounts env x.hw "ethernet".toList q.profList = .ok d := by
    unfold itemCounts; rw [hids]; exact ⟨_, rfl⟩
  simp only [bind, Except.bind, u.cfg he, hdd]
  cases hq : q.nics with
  | none => rw [hq] at hk; exact ⟨x, rfl, u, hk.symm⟩
  | some n =>
    rw [hq] at hk
    have hk : validateHw c.plat .nicCount x.seen n = (.ok (), a) := hk
    obtain ⟨d1, d2⟩ := hd n hq
    have hcx : ∀ p ∈ allProfilesIfEmpty env q.profList, d p = n := by
      intro p hp
      have hds := hdd
      rw [itemCounts_same code_eth wf u.hw] at hds
      rw [itemCounts_countOf wf code_eth d1 hds hp]
      exact d2 p hp
    have hc2 : ∀ p ∈ allProfilesIfEmpty env q.profList, countOf env x.hw "10".toList p = n := by
      intro p hp
      rw [← itemCounts_countOf u.wf code_eth d1 hdd hp]
      exact hcx p hp
    simp only [askEach_same (c := c) (mk := fun p k => EhAsk.deleteNics p k n) _ (fun p hp => (hcx p hp).le),
      vmValidate_again hk, setItemCount_done (nicName := c.nicName) u.wf code_eth d1 hc2]
    exact ⟨_, rfl, ⟨u.envl, u.hws, u.hw, u.wf⟩, rfl⟩

theorem serialCountStep_again {x : EhSt} (u : Unchanged env s' x) (he : curEnv c s'.envl = .ok env) (wf : HwWF env s'.hw)
    (hd : ∀ n, q.serialPorts = some n → (allProfilesIfEmpty env q.profList).Nodup ∧
      ∀ p ∈ allProfilesIfEmpty env q.profList, countOf env s'.hw "21".toList p = n) :
    ∃ y, serialCountStep c q x = .ok y ∧ Unchanged env s' y ∧ y.seen = x.seen := by
  unfold serialCountStep
  cases hq : q.serialPorts with
  | none => exact ⟨x, rfl, u, rfl⟩
  | some n =>
    obtain ⟨ids, hids⟩ := findAllItems_ok (env := env) (hw := x.hw) code_serial
    obtain ⟨d, hdd⟩ : ∃ d, itemCounts env x.hw "serial".toList q.profList = .ok d := by
      unfold itemCounts; rw [hids]; exact ⟨_, rfl⟩
    simp only [bind, Except.bind, u.cfg he, hdd]
    obtain ⟨d1, d2⟩ := hd n hq
    have hcx : ∀ p ∈ allProfilesIfEmpty env q.profList, d p = n := by
      intro p hp
      have hds := hdd
      rw [itemCounts_same code_serial wf u.hw] at hds
      rw [itemCounts_countOf wf code_serial d1 hds hp]
      exact d2 p hp
    have hc2 : ∀ p ∈ allProfilesIfEmpty env q.profList, countOf env x.hw "21".toList p = n := by
      intro p hp
      rw [← itemCounts_countOf u.wf code_serial d1 hdd hp]
      exact hcx p hp
    simp only [askEach_same (c := c) (mk := fun p k => EhAsk.deleteSerial p k n) _ (fun p hp => (hcx p hp).le),
      setItemCount_done (nicName := c.nicName) u.wf code_serial d1 hc2]
    exact ⟨_, rfl, ⟨u.envl, u.hws, u.hw, u.wf⟩, rfl⟩

theorem serialConnStep_again {x : EhSt} (u : Unchanged env s' x) (he : curEnv c s'.envl = .ok env) (wf : HwWF env s'.hw)
    (hd : ∀ l, q.serialConn = some l → InOrderSet env "serial".toList address (.str [])
      (q.profOpt.getD (env.configProfiles.map some ++ [none])) (l.map InVal.str) s'.hw ∧
      ∃ d, itemCounts env s'.hw "serial".toList q.profList = .ok d ∧
        askEach c (fun p k => .unreachable p k l.length) d l.length (allProfilesIfEmpty env q.profList) = .ok ()) :
    ∃ y, serialConnStep c q x = .ok y ∧ Unchanged env s' y ∧ y.seen = x.seen := by
  unfold serialConnStep
  cases hq : q.serialConn with
  | none => exact ⟨x, rfl, u, rfl⟩
  | some l =>
    obtain ⟨d1, d, d2, d3⟩ := hd l hq
    obtain ⟨hw', k1, k2, k3⟩ := setItemValues_done (profiles := q.profOpt) u.wf (addr_plain _) (addr_iid _) addr_rt (d1.same u.hw)
    rw [← itemCounts_same code_serial wf u.hw] at d2
    simp only [bind, Except.bind, u.cfg he, d2, d3, k1]
    exact ⟨_, rfl, u.set k2 k3, rfl⟩

/-- as many NICs as before: no network is inferred -/
theorem inferNetworks_again {x : EhSt} (u : Unchanged env s' x) (he : curEnv c s'.envl = .ok env) (wf : HwWF env s'.hw)
    (hd : ∀ n, q.nics = some n → (allProfilesIfEmpty env q.profList).Nodup ∧
      ∀ p ∈ allProfilesIfEmpty env q.profList, countOf env s'.hw "10".toList p = n) :
    inferNetworks c q x = .ok q := by
  unfold inferNetworks
  split
  · rfl
  · rfl
  · rename_i n hq hnw
    obtain ⟨ids, hids⟩ := findAllItems_ok (env := env) (hw := x.hw) code_eth
    obtain ⟨d, hdd⟩ : ∃ d, itemCounts env x.hw "ethernet".toList q.profList = .ok d := by
      unfold itemCounts; rw [hids]; exact ⟨_, rfl⟩
    simp only [bind, Except.bind, u.cfg he, hdd]
    obtain ⟨d1, d2⟩ := hd n hq
    have hm : maxCount d (allProfilesIfEmpty env q.profList) = n := by
      rw [maxCount_congr (g := fun _ => n), maxCount_const (allProfilesIfEmpty_ne _ _)]
      intro p hp
      have hds := hdd
      rw [itemCounts_same code_eth wf u.hw] at hds
      rw [itemCounts_countOf wf code_eth d1 hds hp]
      exact d2 p hp
    rw [if_pos (Or.inl (by omega))]

/-- no network is created, renamed or connected anew -/
theorem networksStep_again (hv : c.env.ver ≠ .v0) {x : EhSt} (u : Unchanged env s' x) (he : curEnv c s'.envl = .ok env)
    (wf : HwWF env s'.hw) (hdn : q.descriptions = none) {d : Prof → Nat} {existing : List (Option Str)}
    (h1 : itemCounts env s'.hw "ethernet".toList q.profList = .ok d) (h2 : networks c.env.ver s'.envl = .ok existing)
    (h3 : q.networks = none → 0 < maxCount d (allProfilesIfEmpty env q.profList) → existing ≠ [])
    (h4 : ∀ l, q.networks = some l →
      (∀ m ∈ expandListWildcard l (maxCount d (allProfilesIfEmpty env q.profList)), some m ∈ existing ∧
        ∃ y, Described c.env.ver s'.envl m y) ∧
      ∃ z, (expandListWildcard l (maxCount d (allProfilesIfEmpty env q.profList))).getLast? = some z ∧
        InOrderSet env "ethernet".toList connection (.str z) (q.profOpt.getD (env.configProfiles.map some ++ [none]))
          ((expandListWildcard l (maxCount d (allProfilesIfEmpty env q.profList))).map InVal.str) s'.hw) :
    ∃ y, networksStep c q x = .ok y ∧ Unchanged env s' y ∧ y.seen = x.seen := by
  unfold networksStep
  rw [← itemCounts_same code_eth wf u.hw] at h1
  have hnx : networks c.env.ver x.envl = .ok existing := by rw [u.envl]; exact h2
  simp only [bind, Except.bind, u.cfg he, h1, hnx]
  cases hq : q.networks with
  | none =>
    have : effNetworks q (maxCount d (allProfilesIfEmpty env q.profList)) existing = none := by
      unfold effNetworks
      rw [if_neg (fun hh => h3 hq hh.1 hh.2.1), hq]
    simp only [this, hdn]
    exact ⟨x, rfl, u, rfl⟩
  | some l =>
    have : effNetworks q (maxCount d (allProfilesIfEmpty env q.profList)) existing = some l := by
      unfold effNetworks
      rw [if_neg (fun hh => by rw [hq] at hh; cases hh.2.2), hq]
    obtain ⟨k1, k2⟩ := h4 l hq
    simp only [this, hdn]
    have hexp : expandListWildcard ((none : Option (List Str)).getD []) (maxCount d (allProfilesIfEmpty env q.profList)) = [] := by
      show expandListWildcard [] _ = []
      unfold expandListWildcard
      rw [if_pos rfl]
    rw [hexp, networkLoop_again hv _ (fun m hm => (k1 m hm).1) (fun m hm => by rw [u.envl]; exact (k1 m hm).2)]
    obtain ⟨hw', m1, m2, m3⟩ := setNicValues_again (P := q.profOpt) u.wf u.hw (conn_plain _) (conn_iid _) conn_rt k2
    simp only [m1]
    exact ⟨_, rfl, u.set m2 m3, rfl⟩

end

end Cot
