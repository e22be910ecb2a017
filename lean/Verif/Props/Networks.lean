import Verif.Props.OvfSections
/-
C45 (unused networks are removed) and C60 (creating a network).
-/
namespace Cot

theorem nicItemTag_eq (v : Ver) : nicItemTag v = ethernetPortItemTag v := by cases v <;> decide +kernel
theorem nicConnTag_eq (v : Ver) : nicConnTag v = epasd v ++ connection := by cases v <;> decide +kernel

theorem mem_connected {v : Ver} {hws : Elem} (h1 : ∀ i ∈ kids hws (nicItemTag v), (kids i (nicConnTag v)).length ≤ 1) {n : Elem} :
    n.get (networkName v) ∈ connectedNetworks v hws ↔ NetworkUsed v hws n := by
  unfold connectedNetworks NetworkUsed
  rw [List.mem_filterMap, findAll_nil, ← nicItemTag_eq]
  constructor
  · rintro ⟨i, hi, h⟩
    rw [findFirst_eq, ← nicConnTag_eq] at h
    cases hk : kids i (nicConnTag v) with
    | nil => rw [hk] at h; cases h
    | cons c r =>
      rw [hk] at h
      exact ⟨i, hi, c, by rw [hk]; simp, Option.some.inj h⟩
  · rintro ⟨i, hi, c, hc, h⟩
    refine ⟨i, hi, ?_⟩
    rw [findFirst_eq, ← nicConnTag_eq]
    have := h1 i hi
    match hk : kids i (nicConnTag v), this, hc with
    | [d], _, hc =>
      rw [List.mem_singleton.1 hc] at h
      change some d.text = _
      rw [h]; rfl

open Classical in
/-- **C45.** When an OVF with a network section is written, exactly the networks some adapter is connected to
remain, in order and unchanged; the section itself goes exactly if no network remains; everything else in the
envelope and in the section stays.  (Each adapter has at most one connection per element: loading refuses
anything else.) -/
theorem C45_refresh {v : Ver} (hv : v ≠ .v0) {env hws s : Elem} (hs : kids env (ovfTag v "NetworkSection".toList) = [s])
    (h1 : ∀ i ∈ kids hws (nicItemTag v), (kids i (nicConnTag v)).length ≤ 1) :
    ∃ env', refreshNetworks v env hws = .ok env' ∧ SameButKids (ovfTag v "NetworkSection".toList) env env' ∧
      ((∀ n ∈ kids s (ovfTag v "Network".toList), ¬ NetworkUsed v hws n) → kids env' (ovfTag v "NetworkSection".toList) = []) ∧
      ((∃ n ∈ kids s (ovfTag v "Network".toList), NetworkUsed v hws n) →
        ∃ s', kids env' (ovfTag v "NetworkSection".toList) = [s'] ∧ SameButKids (ovfTag v "Network".toList) s s' ∧
          kids s' (ovfTag v "Network".toList) = (kids s (ovfTag v "Network".toList)).filter (fun n => NetworkUsed v hws n)) := by
  have hf : findChild env (netSecTag v) (netSecAttrib v) false = .ok (some s) := by
    unfold netSecTag netSecAttrib
    rw [section_tag hv, section_attrib hv]; exact findChild_kids hs
  have hst : s.tag = ovfTag v "NetworkSection".toList := kids_tag (by rw [hs]; simp)
  unfold refreshNetworks
  rw [hf]
  simp only
  generalize hcs : s.children.filter (fun n => !(n.tag == networkTag v) || decide (n.get (networkName v) ∈ connectedNetworks v hws)) = cs
  have hkeep : kids (s.setChildren cs) (ovfTag v "Network".toList) =
      (kids s (ovfTag v "Network".toList)).filter (fun n => NetworkUsed v hws n) := by
    unfold kids
    rw [setChildren_children, ← hcs, List.filter_filter, List.filter_filter]
    congr 1
    funext n
    rw [Bool.eq_iff_iff]
    simp only [Bool.and_eq_true, decide_eq_true_eq, Bool.or_eq_true, Bool.not_eq_true', beq_eq_false_iff_ne, mem_connected h1, networkTag]
    tauto
  have hsame : SameButKids (ovfTag v "Network".toList) s (s.setChildren cs) := by
    refine ⟨setChildren_tag _ _, setChildren_attrib _ _, by cases s; rfl, by cases s; rfl, ?_⟩
    rw [setChildren_children, ← hcs, List.filter_filter]
    congr 1
    funext n
    rw [Bool.eq_iff_iff]
    simp only [Bool.and_eq_true, decide_eq_true_eq, Bool.or_eq_true, Bool.not_eq_true', beq_eq_false_iff_ne, networkTag]
    tauto
  rw [show findAllChildren (s.setChildren cs) (networkTag v) [] = kids (s.setChildren cs) (ovfTag v "Network".toList) from findAll_nil _ _, hkeep]
  by_cases hu : ∃ n ∈ kids s (ovfTag v "Network".toList), NetworkUsed v hws n
  · obtain ⟨n, hn, hnu⟩ := hu
    have hne : ¬ (kids s (ovfTag v "Network".toList)).filter (fun n => NetworkUsed v hws n) = [] := fun he => by
      rw [List.filter_eq_nil_iff] at he
      exact he n hn (by simpa using hnu)
    rw [if_neg hne]
    unfold netSecTag netSecAttrib
    rw [section_tag hv, section_attrib hv]
    have u := updateFirst_spec hs (s' := s.setChildren cs) (hsame.1.trans hst)
    refine ⟨_, rfl, u.2, fun hall => absurd hnu (hall n hn), fun _ => ⟨_, u.1, hsame, hkeep⟩⟩
  · have he : (kids s (ovfTag v "Network".toList)).filter (fun n => NetworkUsed v hws n) = [] := by
      rw [List.filter_eq_nil_iff]
      intro n hn hnu
      exact hu ⟨n, hn, by simpa using hnu⟩
    rw [if_pos he]
    unfold netSecTag netSecAttrib
    rw [section_tag hv, section_attrib hv]
    rw [dropKids_attr]
    have u := dropKids_spec env (ovfTag v "NetworkSection".toList)
    exact ⟨_, rfl, u.2, fun _ => u.1, fun h => absurd h hu⟩

/-- **C45 (no network section).** Then nothing changes. -/
theorem C45_no_section {v : Ver} (hv : v ≠ .v0) {env : Elem} (hws : Elem) (hs : kids env (ovfTag v "NetworkSection".toList) = []) :
    refreshNetworks v env hws = .ok env := by
  unfold refreshNetworks netSecTag netSecAttrib
  rw [section_tag hv, section_attrib hv, findChild_no_kids hs]

/-! ### C60 -/

theorem networks_of {v : Ver} (hv : v ≠ .v0) {env s : Elem} (hs : kids env (ovfTag v "NetworkSection".toList) = [s]) :
    networks v env = .ok ((kids s (ovfTag v "Network".toList)).map (fun n => n.get (ovfTag v "name".toList))) := by
  unfold networks netSecTag netSecAttrib
  rw [section_tag hv, section_attrib hv, findChild_kids hs]
  simp only
  rw [findAll_nil]
  rfl

theorem networks_none {v : Ver} (hv : v ≠ .v0) {env : Elem} (hs : kids env (ovfTag v "NetworkSection".toList) = []) :
    networks v env = .ok [] := by
  unfold networks netSecTag netSecAttrib
  rw [section_tag hv, section_attrib hv, findChild_no_kids hs]

theorem newNet_kids (t a x k : Str) : kids (Elem.new t [(a, x)]) k = [] := rfl

/-- setting an attribute-filtered child without text: found or created -/
theorem ensureNamed_spec {s : Elem} {t a x : Str} (h : (named s t a x).length ≤ 1) :
    ∃ s1 n, setOrMakeChild s t none [(a, x)] [] = .ok s1 ∧ named s1 t a x = [n] ∧
      (∀ y, y ≠ x → named s1 t a y = named s t a y) ∧ SameButKids t s s1 ∧
      (named s t a x = [n] ∧ kids s1 t = kids s t ∨ named s t a x = [] ∧ kids s1 t = kids s t ++ [n] ∧ n.children = []) := by
  match hk : named s t a x, h with
  | [], _ =>
    have hf : findChild s t [(a, x)] false = .ok none := findChild_none.2 (by rw [findAll_named]; exact hk)
    have he : setOrMakeChild s t none [(a, x)] [] = .ok (addChild s (updateElem (Elem.new t) none [(a, x)]) []) := by
      unfold setOrMakeChild; rw [hf]
    rw [addChild_nil] at he
    have ha : (updateElem (Elem.new t) none [(a, x)]).get a = some x := by
      unfold updateElem
      simp only [List.foldl_cons, List.foldl_nil]
      rw [set_get, if_pos rfl]
    obtain ⟨u1, u2, u3, u4⟩ := named_append hk (n := updateElem (Elem.new t) none [(a, x)]) rfl ha
    exact ⟨_, _, he, u1, u2, u3, Or.inr ⟨rfl, u4, rfl⟩⟩
  | [n], _ =>
    have hm := named_tag (s := s) (c := n) (by rw [hk]; simp)
    have hf : findAllChildren s t [(a, x)] = [n] := by rw [findAll_named]; exact hk
    obtain ⟨pre, post, e1, -, e3, e4, e5⟩ := updateFirst_split (f := id) hf
    have he : setOrMakeChild s t none [(a, x)] [] = .ok s := by
      rw [setOrMakeChild_of_one e1 e3 (by
        intro e he
        rcases List.mem_append.1 he with h | h
        · exact e4 e h
        · exact e5 e h)]
      have hu : updateElem n none [(a, x)] = n := by
        unfold updateElem
        exact foldl_set_id _ _ (by simpa using hm.2)
      rw [hu, ← e1]
      cases s; rfl
    exact ⟨s, n, he, hk, fun _ _ => rfl, sameButKids_refl _ _, Or.inl ⟨rfl, rfl⟩⟩

/-- **C60.** Creating a network makes it known once (a new one comes last), with the given description
(without one, the description it had stays); every other network, and everything else in the envelope, stays as it was. -/
theorem C60_create {v : Ver} (hv : v ≠ .v0) {env : Elem} (h : NetsWF v env) (label : Str) (desc : Option Str) :
    ∃ env' s' n', createNetwork v env label desc = .ok env' ∧ NetsWF v env' ∧
      SameButKids (ovfTag v "NetworkSection".toList) env env' ∧
      kids env' (ovfTag v "NetworkSection".toList) = [s'] ∧
      named s' (ovfTag v "Network".toList) (ovfTag v "name".toList) label = [n'] ∧
      (∀ d, desc = some d → TextIs n' (ovfTag v "Description".toList) (some d)) ∧
      (∀ L, networks v env = .ok L → networks v env' = .ok (if some label ∈ L then L else L ++ [some label])) ∧
      (∀ s, kids env (ovfTag v "NetworkSection".toList) = [s] → SameButKids (ovfTag v "Network".toList) s s' ∧
        (∀ x, x ≠ label → named s' (ovfTag v "Network".toList) (ovfTag v "name".toList) x =
          named s (ovfTag v "Network".toList) (ovfTag v "name".toList) x) ∧
        (∀ n, named s (ovfTag v "Network".toList) (ovfTag v "name".toList) label = [n] →
          SameButKids (ovfTag v "Description".toList) n n' ∧
          (desc = none → ∀ d, TextIs n (ovfTag v "Description".toList) (some d) →
            TextIs n' (ovfTag v "Description".toList) (some d)))) := by
  obtain ⟨env1, s, e1, e2, e3, e4⟩ := ensure_spec (v := v) "Logical networks".toList h.1
  have hinfo : ovfTag v "Network".toList ≠ infoTag v := fun hh => absurd (List.append_cancel_left hh) (by decide)
  have hnew : ∀ info, kids (newSection v (ovfTag v "NetworkSection".toList) [] info) (ovfTag v "Network".toList) = [] :=
    fun info => newSection_kids hinfo
  have hwf : (∀ x, (named s (ovfTag v "Network".toList) (ovfTag v "name".toList) x).length ≤ 1) ∧
      ∀ n ∈ kids s (ovfTag v "Network".toList), (kids n (ovfTag v "Description".toList)).length ≤ 1 := by
    rcases e4 with ⟨a, -⟩ | ⟨-, rfl⟩
    · exact h.2 s (by rw [a]; simp)
    · refine ⟨fun x => ?_, fun n hn => ?_⟩
      · have : named (newSection v (ovfTag v "NetworkSection".toList) [] "Logical networks".toList)
            (ovfTag v "Network".toList) (ovfTag v "name".toList) x = [] := by
          rw [List.eq_nil_iff_forall_not_mem]
          intro c hc
          have := (named_sub.1 hc).1
          rw [hnew] at this
          cases this
        rw [this]; simp
      · rw [hnew] at hn; cases hn
  obtain ⟨s1, n, f1, f2, f3, f4, f5⟩ := ensureNamed_spec (hwf.1 label)
  have hn1 : (kids n (ovfTag v "Description".toList)).length ≤ 1 := by
    rcases f5 with ⟨a, -⟩ | ⟨-, -, a⟩
    · exact hwf.2 n (named_sub.1 (by rw [a]; simp)).1
    · unfold kids; rw [a]; simp
  obtain ⟨n', c, g1, g2, g3, g4, g5, -⟩ := setOptText_spec (x := desc) (o := []) hn1
  have hnt := named_tag (s := s1) (c := n) (by rw [f2]; simp)
  obtain ⟨u1, u2, u3, u4⟩ := named_update f2 (n' := n') (g2.1.trans hnt.1) ((g2.get _).trans hnt.2)
  generalize hs' : updateFirst s1 (ovfTag v "Network".toList) [(ovfTag v "name".toList, label)] (fun _ => n') = s' at u1 u2 u3 u4
  have hst : s.tag = ovfTag v "NetworkSection".toList := kids_tag (by rw [e2]; simp)
  have w := updateFirst_spec e2 (s' := s') (u3.1.trans (f4.1.trans hst))
  have hset : createNetwork v env label desc = .ok (updateFirst env1 (ovfTag v "NetworkSection".toList) [] (fun _ => s')) := by
    unfold createNetwork netSecTag netSecAttrib networkTag networkName networkDesc
    rw [section_tag hv, section_attrib hv, e1]
    simp only
    rw [findChild_kids e2]
    simp only
    rw [f1]
    simp only
    rw [findChild_some.2 (show findAllChildren s1 _ _ = [n] by rw [findAll_named]; exact f2)]
    simp only
    rw [g1]
    simp only
    rw [hs']
  have hnames : (kids s' (ovfTag v "Network".toList)).map (fun n => n.get (ovfTag v "name".toList)) =
      (kids s1 (ovfTag v "Network".toList)).map (fun n => n.get (ovfTag v "name".toList)) :=
    u4 (fun n => n.get (ovfTag v "name".toList)) (g2.get _)
  refine ⟨_, s', n', hset, ⟨by rw [w.1]; simp, ?_⟩, e3.trans w.2, w.1, u1,
    fun d hd => Or.inr ⟨c, g3, by rw [g4 d hd]; rfl⟩, ?_, ?_⟩
  · intro s0 hs0
    rw [w.1, List.mem_singleton] at hs0
    subst hs0
    refine ⟨fun x => ?_, fun m hm => ?_⟩
    · by_cases hx : x = label
      · subst hx; rw [u1]; simp
      · rw [u2 x hx, f3 x hx]; exact hwf.1 x
    · -- every network is the new one or an old one
      by_cases hm' : m = n'
      · subst hm'; rw [g3]; simp
      · have hmem : m ∈ kids s1 (ovfTag v "Network".toList) := by
          rw [← hs'] at hm
          have hf : findAllChildren s1 (ovfTag v "Network".toList) [(ovfTag v "name".toList, label)] = [n] := by
            rw [findAll_named]; exact f2
          obtain ⟨pre, post, p1, p2, -, -, -⟩ := updateFirst_split (f := fun _ => n') hf
          unfold kids at hm ⊢
          rw [p2, List.mem_filter] at hm
          rw [p1, List.mem_filter]
          refine ⟨?_, hm.2⟩
          rcases List.mem_append.1 hm.1 with h | h
          · exact List.mem_append_left _ h
          · rcases List.mem_cons.1 h with h | h
            · exact absurd h hm'
            · exact List.mem_append_right _ (List.mem_cons_of_mem _ h)
        rcases f5 with ⟨-, a⟩ | ⟨-, a, b⟩
        · rw [a] at hmem; exact hwf.2 m hmem
        · rw [a] at hmem
          rcases List.mem_append.1 hmem with h | h
          · exact hwf.2 m h
          · rw [List.mem_singleton.1 h]; exact hn1
  · intro L hL
    rw [networks_of hv w.1, hnames]
    have hLs : L = (kids s (ovfTag v "Network".toList)).map (fun n => n.get (ovfTag v "name".toList)) := by
      rcases e4 with ⟨a, -⟩ | ⟨a, rfl⟩
      · rw [networks_of hv a] at hL
        exact (Except.ok.inj hL).symm
      · rw [networks_none hv a] at hL
        rw [hnew]
        exact (Except.ok.inj hL).symm
    rcases f5 with ⟨a, b⟩ | ⟨a, b, -⟩
    · have hin : some label ∈ L := by
        rw [hLs, List.mem_map]
        have := named_sub.1 (show n ∈ named s _ _ label by rw [a]; simp)
        exact ⟨n, this.1, this.2⟩
      rw [if_pos hin, b, hLs]
    · have hnin : ¬ some label ∈ L := by
        rw [hLs, List.mem_map]
        rintro ⟨m, hm, hm'⟩
        have : m ∈ named s (ovfTag v "Network".toList) (ovfTag v "name".toList) label := named_sub.2 ⟨hm, hm'⟩
        rw [a] at this
        cases this
      rw [if_neg hnin, b, List.map_append, hLs]
      have : n.get (ovfTag v "name".toList) = some label := hnt.2
      rw [List.map_cons, List.map_nil, this]
  · intro s0 hs0
    have : s0 = s := by
      rcases e4 with ⟨a, -⟩ | ⟨a, -⟩
      · rw [hs0] at a; cases a; rfl
      · rw [hs0] at a; cases a
    subst this
    refine ⟨f4.trans u3, fun x hx => (u2 x hx).trans (f3 x hx), fun m hm => ?_⟩
    rcases f5 with ⟨a, -⟩ | ⟨a, -⟩
    · rw [hm] at a
      cases a
      refine ⟨g2, fun hd d ht => ?_⟩
      rcases ht with ⟨ht, -⟩ | ⟨old, o1, o2⟩
      · cases ht
      · exact Or.inr ⟨c, g3, by rw [g5 hd old o1]; exact o2⟩
    · rw [hm] at a; cases a

/-- an envelope with one network, and an adapter connected to it -/
def exNetEnv : Elem :=
  .mk (ovfTag .v1 "Envelope".toList) [] none none
    [.mk (ovfTag .v1 "References".toList) [] none none [],
     .mk (ovfTag .v1 "NetworkSection".toList) [] none none
      [.mk (ovfTag .v1 "Network".toList) [(ovfTag .v1 "name".toList, "A".toList)] none none [],
       .mk (ovfTag .v1 "Network".toList) [(ovfTag .v1 "name".toList, "B".toList)] none none []]]

/-- hardware with an adapter connected to B -/
def exNetHws : Elem :=
  .mk (ovfTag .v1 "VirtualHardwareSection".toList) [] none none
    [.mk (nicItemTag .v1) [] none none [.mk (nicConnTag .v1) [] (some "B".toList) none []]]

example : (kids exNetEnv (ovfTag .v1 "NetworkSection".toList)).length = 1 ∧
    (∀ i ∈ kids exNetHws (nicItemTag .v1), (kids i (nicConnTag .v1)).length ≤ 1) ∧
    networks .v1 exNetEnv = .ok [some "A".toList, some "B".toList] ∧
    (refreshNetworks .v1 exNetEnv exNetHws).bind (networks .v1) = .ok [some "B".toList] ∧
    (createNetwork .v1 exNetEnv "C".toList (some "third".toList)).bind (networks .v1) =
      .ok [some "A".toList, some "B".toList, some "C".toList] :=
  ⟨by decide +kernel, by decide +kernel, rfl, rfl, rfl⟩

/-- starting without any network, creating two gives a well-formed envelope with both -/
example : ∃ env', NetsWF .v1 env' ∧ networks .v1 env' = .ok [some "A".toList, some "B".toList] := by
  have h0 : NetsWF .v1 (Elem.new (ovfTag .v1 "Envelope".toList)) :=
    ⟨by decide +kernel, fun s hs => by cases hs⟩
  obtain ⟨e1, -, -, -, w1, -, -, -, -, l1, -⟩ := C60_create (by decide) h0 "A".toList (some "first".toList)
  obtain ⟨e2, -, -, -, w2, -, -, -, -, l2, -⟩ := C60_create (by decide) w1 "B".toList (some "second".toList)
  exact ⟨e2, w2, l2 _ (l1 [] rfl)⟩

end Cot
