import Verif.Props.Save
/-
C115: a descriptor that was saved opens again as it was when it was saved.
-/
namespace Cot

theorem called_kids {v : Ver} (hv : v ≠ .v0) (e : Elem) (n : String) :
    childrenCalled v e ("{".toList ++ (schemaUri v).toList ++ "}".toList ++ (if v = .v0 then "Section" else n).toList) n =
      kids e (ovfTag v n.toList) := by
  rw [← children_eq, section_attrib hv, plain_children, if_neg hv, ← ovfTag_schema]
  rfl

/-- the parts of a descriptor of OVF 1.x or 2.x -/
theorem open_kids {root : Elem} {p : Parts} (hv : p.version ≠ .v0) : openDescriptor root = .ok p ↔
    IsEnvelope p.version root ∧ kids root (ovfTag p.version "References".toList) = [p.references] ∧
    kids root (ovfTag p.version "VirtualSystem".toList) = [p.system] ∧
    kids p.system (ovfTag p.version "VirtualHardwareSection".toList) = [p.hardware] ∧
    kids root (ovfTag p.version "DiskSection".toList) = p.disks.toList ∧
    kids root (ovfTag p.version "NetworkSection".toList) = p.networks.toList ∧
    kids root (ovfTag p.version "DeploymentOptionSection".toList) = p.deployment.toList ∧
    kids p.system (ovfTag p.version "ProductSection".toList) = p.product.toList ∧
    kids p.system (ovfTag p.version "AnnotationSection".toList) = p.annotation.toList := by
  rw [C107_open]
  unfold HasParts
  dsimp only
  simp only [called_kids hv]
  have hs : childrenCalled p.version root ("{".toList ++ (schemaUri p.version).toList ++ "}".toList ++
      (if p.version = .v0 then "Content" else "VirtualSystem").toList) "VirtualSystem" =
      kids root (ovfTag p.version "VirtualSystem".toList) := by
    rw [← children_eq, section_attrib hv, plain_children, if_neg hv, ← ovfTag_schema]
    rfl
  rw [hs]
  simp only [← ovfTag_schema]
  exact Iff.rfl

theorem SameRest.kids {v : Ver} {a b : Elem} (h : SameRest v a b) {t : Str} (ht : t ∉ savedParts v) : Cot.kids b t = Cot.kids a t := by
  have hsub : ∀ l : List Elem, l.filter (fun c => decide (c.tag = t)) =
      (l.filter (fun e => decide (e.tag ∉ savedParts v))).filter (fun c => decide (c.tag = t)) := by
    intro l
    rw [List.filter_filter]
    apply List.filter_congr
    intro e _
    by_cases hm : e.tag = t
    · simp [hm, ht]
    · simp [hm]
  unfold Cot.kids
  rw [hsub, h.2.2.2.2, ← hsub]

/-- **C115.** A descriptor of OVF 1.x or 2.x that was saved opens again, in the same version, with the product information,
annotation and profiles that it had when it was saved, and with the same hardware section, references, disks and networks
but for Items, Files, Disks and unused Networks. -/
theorem C115_reopen {c : Ctx} {o : Orders} {capOf : Str → Except Err Nat} {root root' : Elem} {parts : Parts} {hw : Hw}
    {files files' : List (Str × FRef)} (hopen : openDescriptor root = .ok parts) (hv : c.env.ver = parts.version)
    (hv0 : parts.version ≠ .v0) (h : saveTree c o capOf root parts hw files = .ok (root', files')) :
    ∃ parts', openDescriptor root' = .ok parts' ∧ parts'.version = parts.version ∧ parts'.product = parts.product ∧
      parts'.annotation = parts.annotation ∧ parts'.deployment = parts.deployment ∧
      updateXml c.env o hw parts.hardware = .ok parts'.hardware ∧
      SameButKids (ovfTag parts.version "VirtualHardwareSection".toList) parts.system parts'.system ∧
      SameButItems parts.version parts.hardware parts'.hardware ∧
      SameButKids (fileTag parts.version) parts.references parts'.references ∧
      SameDisks parts.version parts.disks parts'.disks ∧
      (∀ s', parts'.networks = some s' → ∃ s, parts.networks = some s ∧ SameButKids (ovfTag parts.version "Network".toList) s s' ∧
        (kids s' (ovfTag parts.version "Network".toList)).Sublist (kids s (ovfTag parts.version "Network".toList))) := by
  have hrest := save_frame hopen hv hv0 h
  obtain ⟨hsame, ⟨sys', hws', k1, k2, k3, k4, hup⟩, ⟨refs', k5, k6⟩, ⟨d', k7, k8⟩, k9⟩ := hrest
  obtain ⟨env, o1, o2, o3, o4, o5, o6, o7, o8⟩ := (open_kids hv0).1 hopen
  obtain ⟨n1, n2, n3⟩ : (ovfTag parts.version "ProductSection".toList ≠ ovfTag parts.version "VirtualHardwareSection".toList) ∧
      (ovfTag parts.version "AnnotationSection".toList ≠ ovfTag parts.version "VirtualHardwareSection".toList) ∧
      ovfTag parts.version "DeploymentOptionSection".toList ∉ savedParts parts.version := by
    cases parts.version <;> decide +kernel
  obtain ⟨n', hn', hn''⟩ : ∃ n' : Option Elem, kids root' (ovfTag parts.version "NetworkSection".toList) = n'.toList ∧
      ∀ s', n' = some s' → ∃ s, parts.networks = some s ∧ SameButKids (ovfTag parts.version "Network".toList) s s' ∧
        (kids s' (ovfTag parts.version "Network".toList)).Sublist (kids s (ovfTag parts.version "Network".toList)) := by
    rcases k9 with hk | ⟨s, s', e1, e2, e3, e4⟩
    · exact ⟨none, hk, by intro s' h; cases h⟩
    · refine ⟨some s', e2, ?_⟩
      intro s'' hs; cases hs
      exact ⟨s, e1, e3, e4⟩
  refine ⟨⟨parts.version, refs', d', n', parts.deployment, sys', parts.product, parts.annotation, hws'⟩, ?_, rfl, rfl, rfl, rfl, hup,
    k2, k4, k6, k7, hn''⟩
  refine (open_kids (p := ⟨parts.version, refs', d', n', parts.deployment, sys', parts.product, parts.annotation, hws'⟩) hv0).2 ⟨?_, k5, k1, k3, k8, hn', ?_, ?_, ?_⟩
  · have := hsame.1
    unfold IsEnvelope at env ⊢
    rw [this]; exact env
  · exact (hsame.kids n3).trans o6
  · exact (k2.kids n1).trans o7
  · exact (k2.kids n2).trans o8

/-- **C115 (hardware)**, for hardware that Items can express (`Storable`, see C08 and C54 for what they cannot): after any
history of edits, the descriptor that was saved opens again and is loaded with the same devices, which have the same values
under every profile. -/
theorem C115_hardware_partial {c : Ctx} {o : Orders} {capOf : Str → Except Err Nat} {root root' : Elem} {parts : Parts} {hw0 hw : Hw}
    {files files' : List (Str × FRef)} (hopen : openDescriptor root = .ok parts) (hv : c.env.ver = parts.version)
    (hv0 : parts.version ≠ .v0) (hload : loadHardware c.env parts.hardware = .ok hw0) (hedit : HwEdits hw0 hw)
    (wf : HwWF c.env hw) (hst : ∀ id it, (id, it) ∈ hw → Storable c.env id it) (hl : LiteralSub c.env)
    (h : saveTree c o capOf root parts hw files = .ok (root', files')) :
    ∃ parts' hw', openDescriptor root' = .ok parts' ∧ loadHardware c.env parts'.hardware = .ok hw' ∧ (dkeys hw').Perm (dkeys hw) ∧
      ∀ id it it', (id, it) ∈ hw → (id, it') ∈ hw' → ∀ n p, it'.getValue c.env n (some {p}) = it.getValue c.env n (some {p}) := by
  obtain ⟨parts', h1, -, -, -, -, h2, -⟩ := C115_reopen hopen hv hv0 h
  obtain ⟨s', hw', e1, e2, e3, e4, -⟩ := C54_reload_partial (o := o) hload (C54_edits_noticed hload hedit).2 wf hst hl
  rw [h2] at e1
  cases e1
  exact ⟨parts', hw', h1, e2, e3, e4⟩

theorem getField_kids {v : Ver} (hv : v ≠ .v0) {a b : Elem}
    (h : kids a (ovfTag v "ProductSection".toList) = kids b (ovfTag v "ProductSection".toList)) (f : Field) :
    getField v a f = getField v b f := by
  unfold getField prodSec findChild
  rw [section_tag hv, section_attrib hv, findAll_nil, findAll_nil, h]

/-- **C115 (product).** A text of the product information that was set is there when the saved descriptor is opened again, and
the others are as they were. -/
theorem C115_product {root : Elem} {parts : Parts} (hopen : openDescriptor root = .ok parts) (hv0 : parts.version ≠ .v0)
    (hp : ProductWF parts.version parts.system) (f : Field) (x : Str) :
    ∃ sys1 parts1, setField parts.version parts.system f x = .ok sys1 ∧
      openDescriptor (putSystem parts.version root sys1) = .ok parts1 ∧ parts1.hardware = parts.hardware ∧
      ∀ c o capOf hw files root' files', c.env.ver = parts.version →
        saveTree c o capOf (putSystem parts.version root sys1) parts1 hw files = .ok (root', files') →
        ∃ parts', openDescriptor root' = .ok parts' ∧ getField parts.version parts'.system f = .ok (some x) ∧
          ∀ g, g ≠ f → getField parts.version parts'.system g = getField parts.version parts.system g := by
  obtain ⟨env, o1, o2, o3, o4, o5, o6, o7, o8⟩ := (open_kids hv0).1 hopen
  obtain ⟨sys1, s1, e1, e2, e3, -, e5, e6, -⟩ := C59_fields hv0 hp f x
  have hvs : virtualSystemTag parts.version = ovfTag parts.version "VirtualSystem".toList := by
    cases hpv : parts.version <;> first | rfl | exact absurd hpv hv0
  obtain ⟨w1, w2⟩ := updateFirst_spec (s' := sys1) o2 (e5.1.trans (kids_tag (by rw [o2]; simp)))
  have hput : putSystem parts.version root sys1 = updateFirst root (ovfTag parts.version "VirtualSystem".toList) [] (fun _ => sys1) := by
    unfold putSystem; rw [hvs, section_attrib hv0]
  rw [← hput] at w1 w2
  obtain ⟨n1, n2, n3, n4, n5, n6, n7⟩ : (ovfTag parts.version "References".toList ≠ ovfTag parts.version "VirtualSystem".toList) ∧
      (ovfTag parts.version "DiskSection".toList ≠ ovfTag parts.version "VirtualSystem".toList) ∧
      (ovfTag parts.version "NetworkSection".toList ≠ ovfTag parts.version "VirtualSystem".toList) ∧
      (ovfTag parts.version "DeploymentOptionSection".toList ≠ ovfTag parts.version "VirtualSystem".toList) ∧
      (ovfTag parts.version "VirtualHardwareSection".toList ≠ ovfTag parts.version "ProductSection".toList) ∧
      (ovfTag parts.version "AnnotationSection".toList ≠ ovfTag parts.version "ProductSection".toList) ∧
      (ovfTag parts.version "ProductSection".toList ≠ ovfTag parts.version "VirtualHardwareSection".toList) := by
    cases parts.version <;> decide +kernel
  have hopen1 : openDescriptor (putSystem parts.version root sys1) = .ok { parts with system := sys1, product := some s1 } := by
    refine (open_kids (p := { parts with system := sys1, product := some s1 }) hv0).2
      ⟨?_, (w2.kids n1).trans o1, w1, (e5.kids n5).trans o3, (w2.kids n2).trans o4, (w2.kids n3).trans o5, (w2.kids n4).trans o6, e6,
       (e5.kids n6).trans o8⟩
    unfold IsEnvelope at env ⊢
    rw [w2.1]; exact env
  refine ⟨sys1, _, e1, hopen1, rfl, ?_⟩
  intro c o capOf hw files root' files' hv h
  obtain ⟨parts', h1, h2, -, -, -, -, h3, -⟩ := C115_reopen hopen1 hv hv0 h
  have hk : ∀ g, getField parts.version parts'.system g = getField parts.version sys1 g := fun g => getField_kids hv0 (h3.kids n7) g
  exact ⟨parts', h1, (hk f).trans e2, fun g hg => (hk g).trans (e3 g hg)⟩

/-! ### Cases -/

/-- a descriptor that opens, with hardware that loads -/
example : ∃ parts hw, openDescriptor (exWhole "1" "7" ["net"] [exCpuElem none "1", exNicElem "net"]) = .ok parts ∧
    parts.version ≠ .v0 ∧ ProductWF .v1 parts.system ∧ loadHardware exEnv parts.hardware = .ok hw := by
  refine ⟨_, _, rfl, by decide +kernel, ⟨by decide +kernel, ?_⟩, rfl⟩
  intro s hs
  have : s ∈ ([] : List Elem) := hs
  cases this

/-- a CPU is given a name and a description, and the descriptor is saved and opened again -/
example (o : Orders) : ∃ parts root' files' parts' hw' it', openDescriptor (exWhole "1" "7" [] [exCpuElem none "1", exCpuElem (some "x") "4"]) = .ok parts ∧
    saveTree { exCtx with env := exEnvL } o exCap (exWhole "1" "7" [] [exCpuElem none "1", exCpuElem (some "x") "4"]) parts
      [("1".toList, exNamed)] exWholeFiles = .ok (root', files') ∧
    openDescriptor root' = .ok parts' ∧ loadHardware exEnvL parts'.hardware = .ok hw' ∧ ("1".toList, it') ∈ hw' ∧
    it'.getValue exEnvL itemDescription (some {pX}) = .ok (some (.str "this is 4 virtual cpus".toList)) := by
  have hl : loadHardware exEnvL (exHwSec [exCpuElem none "1", exCpuElem (some "x") "4"]) =
      .ok (exLoaded [(.str "1".toList, {none}), (.str "4".toList, {pX})]) := by rfl
  have hst : ∀ id it, (id, it) ∈ [("1".toList, exNamed)] → Storable exEnvL id it := by
    intro id it h
    simp only [List.mem_singleton, Prod.mk.injEq] at h
    obtain ⟨rfl, rfl⟩ := h
    exact exNamed_storable
  obtain ⟨s', hw', h1, -⟩ := C54_reload_partial (o := o) hl (C54_edits_noticed hl exOld_edited).2 exNew_wf hst exEnvL_literal
  obtain ⟨⟨root', files'⟩, hs⟩ : ∃ r, saveTree { exCtx with env := exEnvL } o exCap (exWhole "1" "7" [] [exCpuElem none "1", exCpuElem (some "x") "4"])
      ⟨.v1, .mk (ovfTag .v1 "References".toList) [] none none [exFileE "vmdk".toList "d.vmdk".toList "1".toList],
       some (.mk (ovfTag .v1 "DiskSection".toList) [] none none [exDiskE "vmdisk1".toList "vmdk".toList "7".toList]), none, none,
       .mk (ovfTag .v1 "VirtualSystem".toList) [] none none [exHwSec [exCpuElem none "1", exCpuElem (some "x") "4"]], none, none,
       exHwSec [exCpuElem none "1", exCpuElem (some "x") "4"]⟩
      [("1".toList, exNamed)] exWholeFiles = .ok r := by
    unfold saveTree
    dsimp only
    rw [h1]
    exact ⟨_, rfl⟩
  obtain ⟨parts', hw', a1, a2, a3, a4⟩ := C115_hardware_partial (c := { exCtx with env := exEnvL }) (root := exWhole "1" "7" [] [exCpuElem none "1", exCpuElem (some "x") "4"])
    rfl rfl (by decide) hl exOld_edited exNew_wf hst exEnvL_literal hs
  have hk : "1".toList ∈ dkeys hw' := a3.mem_iff.2 (by simp [dkeys])
  obtain ⟨⟨k, it'⟩, hm, hke⟩ := List.mem_map.1 hk
  simp only at hke
  subst hke
  exact ⟨_, root', files', parts', hw', it', rfl, hs, a1, a2, hm, by rw [a4 _ exNamed it' (List.mem_singleton.2 rfl) hm]; rfl⟩

end Cot
