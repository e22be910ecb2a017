import Verif.Lemmas.Load3
import Verif.Props.Hardware
/-
C55, C65: what loading a hardware section establishes.
-/
namespace Cot

/-- an accepted section, entry by entry -/
theorem load_entries {env : Env} {s : Elem} {hw : Hw} (h : loadHardware env s = .ok hw) :
    (dkeys hw).Nodup ∧ (∀ e ∈ s.children, Loadable env e) ∧
    (∀ id, id ∈ dkeys hw ↔ ∃ e ∈ s.children, itemId env.ver e = some id) ∧
    ∀ id it, (id, it) ∈ hw → ∃ it0, addItems env (ofId env.ver id s.children) emptyItem = .ok it0 ∧
      it = { it0 with modified := false } := by
  unfold loadHardware at h
  cases hl : loadLoop env s.children [] with
  | error x => rw [hl] at h; cases h
  | ok hw0 =>
    rw [hl] at h
    cases h
    obtain ⟨h1, h2, h3, h4⟩ := loadLoop_inv _ hl
    have hk : dkeys (hw0.map (fun kv => (kv.1, ({ kv.2 with modified := false } : Item)))) = dkeys hw0 := by
      simp [dkeys, List.map_map, Function.comp_def]
    have hnd : (dkeys hw0).Nodup := h4 (by simp [dkeys])
    refine ⟨by rw [hk]; exact hnd, h1, fun id => by rw [hk, h3]; simp [dkeys], ?_⟩
    intro id it hm
    obtain ⟨⟨id', it0⟩, hm0, heq⟩ := List.mem_map.1 hm
    cases heq
    have := h2 id'
    unfold startItem at this
    rw [dget?_of_mem hnd hm0] at this
    exact ⟨it0, this, rfl⟩

/-- C55: a hardware section that loading accepts has one entry per InstanceID that occurs in it; every entry is internally
consistent, carries its key as its only InstanceID, and is not marked as modified. -/
theorem C55_loaded_consistent {env : Env} {s : Elem} {hw : Hw}
    (hp : ∀ e ∈ s.children, itemId env.ver e ≠ some []) (h : loadHardware env s = .ok hw) :
    HwWF env hw ∧ (∀ id, id ∈ dkeys hw ↔ ∃ e ∈ s.children, itemId env.ver e = some id) ∧
    ∀ id it, (id, it) ∈ hw → it.modified = false ∧ ∃ S, it.tab (instanceId env.ver) = [(.str id, S)] := by
  obtain ⟨h1, h2, h3, h4⟩ := load_entries h
  have hone : ∀ id it, (id, it) ∈ hw → it.modified = false ∧ ItemWF env it ∧ ∃ S, it.tab (instanceId env.ver) = [(.str id, S)] := by
    intro id it hm
    obtain ⟨it0, ha, rfl⟩ := h4 id it hm
    have wf := addItems_wf _ (.empty env) ha
    obtain ⟨e, he, hid⟩ := (h3 id).1 (List.mem_map.2 ⟨_, hm, rfl⟩)
    have hne : id ≠ [] := fun hc => hp e he (hc ▸ hid)
    obtain ⟨S, hS⟩ := addItems_id hne _ (.empty env) ofId_ids ha
      (Or.inl (List.ne_nil_of_mem (a := e) (List.mem_filter.2 ⟨he, by simp [hid]⟩)))
    exact ⟨rfl, ⟨wf.names, wf.tabs, wf.oneId, wf.oneType, wf.typed⟩, S, hS⟩
  refine ⟨⟨h1, fun id it hm => (hone id it hm).2.1, ?_⟩, h3, fun id it hm => ⟨(hone id it hm).1, (hone id it hm).2.2⟩⟩
  intro id it hm v S hv
  obtain ⟨-, -, S', hS'⟩ := hone id it hm
  rw [hS', List.mem_singleton] at hv
  cases hv; rfl

/-- C65, for properties other than the name and the description: the values of each entry are those its Item elements give: for a profile with an Item element of its own saying something
about the property, what that element says; for every other profile, what the element without profiles says. -/
theorem C65_values_partial {env : Env} {s : Elem} {hw : Hw} {id : Str} {it : Item} (h : loadHardware env s = .ok hw)
    (hne : id ≠ []) (hm : (id, it) ∈ hw)
    (ho : ∀ e ∈ s.children, itemId env.ver e = some id → OrdinaryItem env.ver e)
    (hd : (s.children.filter (fun e => decide (itemId env.ver e = some id))).Pairwise
      (fun a b => itemProfiles env.ver a ∩ itemProfiles env.ver b = ∅))
    {n : Str} (hn : n ∈ itemChildren env.ver) (hp : Plain env n) (p : Prof) (v : Val) :
    Reads (it.tab n) p v ↔
      (∃ e ∈ s.children, itemId env.ver e = some id ∧ p ∈ itemProfiles env.ver e ∧ Says e n v) ∨
      ((¬ ∃ e ∈ s.children, itemId env.ver e = some id ∧ p ∈ itemProfiles env.ver e ∧ ∃ u, Says e n u) ∧
        ∃ e ∈ s.children, itemId env.ver e = some id ∧ none ∈ itemProfiles env.ver e ∧ Says e n v) := by
  obtain ⟨-, -, -, h4⟩ := load_entries h
  obtain ⟨it0, ha, rfl⟩ := h4 id it hm
  have ho' : ∀ e ∈ ofId env.ver id s.children, OrdinaryItem env.ver e := fun e he =>
    ho e (List.mem_filter.1 he).1 (ofId_ids e he)
  have := holds_all hn hp hne (ofId env.ver id s.children) [] (.empty env) ho' ofId_ids hd (fun h => absurd rfl h)
    (fun _ => rfl) (holds_nil _ _) ha
  have key := reads_of_holds hn ho' hd this p v
  have hmem : ∀ Q : Elem → Prop, (∃ e ∈ ofId env.ver id s.children, Q e) ↔
      ∃ e ∈ s.children, itemId env.ver e = some id ∧ Q e := by
    intro Q
    constructor
    · rintro ⟨e, he, hq⟩; exact ⟨e, (List.mem_filter.1 he).1, ofId_ids e he, hq⟩
    · rintro ⟨e, he, hid, hq⟩; exact ⟨e, List.mem_filter.2 ⟨he, by simp [hid]⟩, hq⟩
  rw [hmem, hmem, hmem] at key
  exact key

/-- an Item element of a CPU -/
def exCpuElem (cfg : Option String) (q : String) : Elem :=
  .mk (itemTag .v1) (match cfg with | none => [] | some c => [(itemConfig .v1, c.toList)]) none none
    [.mk (rasd ++ "InstanceID".toList) [] (some "1".toList) none [],
     .mk (rasd ++ "ResourceType".toList) [] (some "3".toList) none [],
     .mk (rasd ++ "VirtualQuantity".toList) [] (some q.toList) none []]

/-- a hardware section with these Items -/
def exSection (els : List Elem) : Elem := .mk "VirtualHardwareSection".toList [] none none els

/-- what such a section loads as: here one CPU, four under profile x -/
def exLoaded (tab : Tab) : Hw :=
  [("1".toList, { props := [("InstanceID".toList, [(.str "1".toList, {none})]), ("ResourceType".toList, [(.str "3".toList, {none})]),
      ("VirtualQuantity".toList, tab)], ns := rasd, modified := false })]

theorem exSection_loads : loadHardware exEnv (exSection [exCpuElem none "1", exCpuElem (some "x") "4"]) =
    .ok (exLoaded [(.str "1".toList, {none}), (.str "4".toList, {pX})]) := by rfl

theorem exCpu_ordinary (cfg : Option String) (q : String) (hq : q.toList ≠ []) : OrdinaryItem .v1 (exCpuElem cfg q) := by
  constructor
  · intro c hc _
    simp only [exCpuElem, Elem.children, List.mem_cons, List.not_mem_nil, or_false] at hc
    rcases hc with rfl | rfl | rfl
    · exact ⟨_, rfl, by decide⟩
    · exact ⟨_, rfl, by decide⟩
    · exact ⟨_, rfl, hq⟩
  · intro n hn
    have e1 : stripNs (rasd ++ "InstanceID".toList) = "InstanceID".toList := by decide +kernel
    have e2 : stripNs (rasd ++ "ResourceType".toList) = "ResourceType".toList := by decide +kernel
    have e3 : stripNs (rasd ++ "VirtualQuantity".toList) = "VirtualQuantity".toList := by decide +kernel
    have hf : (exCpuElem cfg q).children.filter (fun c => stripNs c.tag == n) =
        (if "InstanceID".toList == n then [.mk (rasd ++ "InstanceID".toList) [] (some "1".toList) none []] else []) ++
        (if "ResourceType".toList == n then [.mk (rasd ++ "ResourceType".toList) [] (some "3".toList) none []] else []) ++
        (if "VirtualQuantity".toList == n then [.mk (rasd ++ "VirtualQuantity".toList) [] (some q.toList) none []] else []) := by
      simp only [exCpuElem, Elem.children, List.filter_cons, Elem.tag, e1, e2, e3, List.filter_nil]
      split <;> split <;> split <;> rfl
    rw [hf]
    by_cases h1 : n = "InstanceID".toList
    · subst h1
      rw [if_pos (by decide), if_neg (by decide), if_neg (by decide)]; simp
    · by_cases h2 : n = "ResourceType".toList
      · subst h2
        rw [if_neg (by decide), if_pos (by decide), if_neg (by decide)]; simp
      · rw [if_neg (by simpa using fun h => h1 h.symm), if_neg (by simpa using fun h => h2 h.symm)]
        split <;> simp

/-- C55 applies to it -/
example : HwWF exEnv (exLoaded [(.str "1".toList, {none}), (.str "4".toList, {pX})]) :=
  (C55_loaded_consistent (by decide +kernel) exSection_loads).1

/-- C65 applies to it: profile x has four CPUs, profile y one -/
example : Reads [(.str "1".toList, {none}), (.str "4".toList, {pX})] pX (.str "4".toList) ∧
    Reads [(.str "1".toList, {none}), (.str "4".toList, {pX})] pY (.str "1".toList) := by
  have key := fun p v => C65_values_partial (p := p) (v := v) (n := "VirtualQuantity".toList) (id := "1".toList) exSection_loads (by decide)
    (List.mem_singleton.2 rfl)
    (by
      intro e he _
      simp only [exSection, Elem.children, List.mem_cons, List.not_mem_nil, or_false] at he
      rcases he with rfl | rfl <;> exact exCpu_ordinary _ _ (by decide))
    (by decide +kernel) (by decide +kernel) ⟨by decide +kernel, by decide +kernel⟩
  have hsays : ∀ cfg q, Says (exCpuElem cfg q) "VirtualQuantity".toList (.str q.toList) := fun cfg q =>
    ⟨.mk (rasd ++ "VirtualQuantity".toList) [] (some q.toList) none [], by simp [exCpuElem, Elem.children],
      show stripNs (rasd ++ "VirtualQuantity".toList) = "VirtualQuantity".toList by decide +kernel, q.toList, rfl, rfl⟩
  constructor
  · exact (key pX _).2 (Or.inl ⟨exCpuElem (some "x") "4", by simp [exSection, Elem.children], by decide +kernel, by decide +kernel, hsays _ _⟩)
  · refine (key pY _).2 (Or.inr ⟨?_, exCpuElem none "1", by simp [exSection, Elem.children], by decide +kernel, by decide +kernel, hsays _ _⟩)
    rintro ⟨e, he, -, hp, -⟩
    simp only [exSection, Elem.children, List.mem_cons, List.not_mem_nil, or_false] at he
    rcases he with rfl | rfl <;> exact absurd hp (by decide +kernel)

/-- C65 fails in general: Items that contradict each other may be accepted. When an Item repeats, for a profile, what the Item without
profiles says, loading forgets that it did, so that another Item for the same profile may say something else unnoticed. -/
theorem C65_contradiction_fails : ¬ ∀ (env : Env) (s : Elem) (hw : Hw), loadHardware env s = .ok hw →
    ∀ e₁ ∈ s.children, ∀ e₂ ∈ s.children, ∀ id, itemId env.ver e₁ = some id → itemId env.ver e₂ = some id →
    ∀ p ∈ itemProfiles env.ver e₁, p ∈ itemProfiles env.ver e₂ →
    ∀ n ∈ itemChildren env.ver, Plain env n → ∀ v w, Says e₁ n v → Says e₂ n w → v = w := by
  intro h
  have hl : loadHardware exEnv (exSection [exCpuElem none "1", exCpuElem (some "x") "1", exCpuElem (some "x") "4"]) =
      .ok (exLoaded [(.str "1".toList, {none}), (.str "4".toList, {pX})]) := by rfl
  have hsays : ∀ cfg q, Says (exCpuElem cfg q) "VirtualQuantity".toList (.str q.toList) := fun cfg q =>
    ⟨.mk (rasd ++ "VirtualQuantity".toList) [] (some q.toList) none [], by simp [exCpuElem, Elem.children],
      show stripNs (rasd ++ "VirtualQuantity".toList) = "VirtualQuantity".toList by decide +kernel, q.toList, rfl, rfl⟩
  have := h _ _ _ hl (exCpuElem (some "x") "1") (by simp [exSection, Elem.children]) (exCpuElem (some "x") "4")
    (by simp [exSection, Elem.children]) "1".toList (by decide +kernel) (by decide +kernel) pX (by decide +kernel) (by decide +kernel)
    "VirtualQuantity".toList (by decide +kernel) ⟨by decide +kernel, by decide +kernel⟩ _ _ (hsays _ _) (hsays _ _)
  exact absurd this (by decide)

end Cot
