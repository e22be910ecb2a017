import Verif.Props.NetworksShown
/-
C124, kinds of hardware: `cot info` tells the system types and the kinds of controllers and NICs of the package that was saved.
-/
namespace Cot

/-- what is stored is what some profile reads -/
theorem stored_iff_reads {env : Env} {it : Item} (wf : ItemWF env it) (n : Str) (v : Val) :
    (∃ S, (v, S) ∈ it.tab n) ↔ ∃ p, Reads (it.tab n) p v := by
  constructor
  · rintro ⟨S, h⟩
    obtain ⟨t, h1, h2⟩ := mem_tab h
    obtain ⟨p, hp⟩ := Finset.nonempty_iff_ne_empty.2 ((wf.tabs _ _ h1).nonempty _ _ h2)
    exact ⟨p, Or.inl ⟨S, h, hp⟩⟩
  · rintro ⟨p, ⟨S, h, -⟩ | ⟨-, S, h, -⟩⟩ <;> exact ⟨S, h⟩

/-- devices that read the same have the same subtypes -/
theorem Twins.subtypes {env : Env} {hw hw2 : Hw} (tw : Twins env hw hw2) {code : Str} {l : List Str} (h : Subtypes hw2 code l) :
    Subtypes hw code l := by
  have pr : Plain env resourceSubType := by
    unfold Plain
    cases env.ver <;> decide +kernel
  have key : ∀ {a b : Hw}, Twins env a b → ∀ t, (∃ id it ts S, dget? a id = some it ∧ OfType it code ∧
      (Val.tup ts, S) ∈ it.tab resourceSubType ∧ t ∈ ts) → ∃ id it ts S, dget? b id = some it ∧ OfType it code ∧
      (Val.tup ts, S) ∈ it.tab resourceSubType ∧ t ∈ ts := by
    rintro a b tw t ⟨id, it, ts, S, h1, h2, h3, h4⟩
    have hm := dget?_mem h1
    obtain ⟨it', g1, g2, g3, -⟩ := tw.partner hm
    obtain ⟨p, hp⟩ := (stored_iff_reads (tw.wf.items _ _ hm) _ _).1 ⟨S, h3⟩
    obtain ⟨S', hS'⟩ := (stored_iff_reads (tw.wf2.items _ _ g1) _ _).2 ⟨p, (g2 _ _ _ pr).2 hp⟩
    exact ⟨id, it', ts, S', dget?_of_mem tw.wf2.keys g1, (g3 _).1 h2, hS', h4⟩
  intro t
  rw [h t]
  exact ⟨key tw.symm t, key tw t⟩

/-- saving, writing and reading keep the system types -/
theorem systemTypes_same {v : Ver} {a b c : Elem} (h1 : SameButItems v a b) (h2 : SameContent b c)
    (hc : ∀ s ∈ kids a (systemTag v), ∀ x ∈ kids s vstTag, x.children = []) :
    systemTypeText v (some c) = systemTypeText v (some a) := by
  have e : ∀ x : Elem, x.children.filter (fun c => c.tag == systemTag v) = kids x (systemTag v) := fun x =>
    List.filter_congr (fun y _ => by by_cases hy : y.tag = systemTag v <;> simp [hy])
  have hk : kids b (systemTag v) = kids a (systemTag v) := by
    have : ∀ x : Elem, kids x (systemTag v) = (x.children.filter (fun e => !isItemTag v e.tag)).filter (fun c => decide (c.tag = systemTag v)) := by
      intro x
      unfold kids
      rw [List.filter_filter]
      refine List.filter_congr (fun y _ => ?_)
      by_cases hy : y.tag = systemTag v
      · rw [hy]
        cases v <;> decide +kernel
      · simp [hy]
    rw [this, this, h1.2.2.2.2]
  have hf := kids_same h2 (systemTag v)
  unfold systemTypeText
  dsimp only
  rw [e, e]
  rw [hk] at hf
  cases ha : kids a (systemTag v) with
  | nil =>
    rw [ha] at hf
    rw [List.forall₂_nil_left_iff.1 hf]
  | cons x r =>
    rw [ha] at hf
    cases hb : kids c (systemTag v) with
    | nil => rw [hb] at hf; cases hf
    | cons y r' =>
      rw [hb] at hf
      cases hf with
      | cons hs _ => exact firstText_same hs _ (hc x (by rw [ha]; exact List.mem_cons_self ..))

/-- **C124 (kinds of hardware).** Of a package that was saved, `cot info` tells the system types that were stated before saving, and the
kinds of SCSI controllers, IDE controllers and NICs that the history of edits led to; and it says nothing if there are none of these. -/
theorem C124_variants_partial {c : Ctx} {o : Orders} {capOf : Str → Except Err Nat} {root root' : Elem} {parts : Parts} {hw0 hw : Hw}
    {files files' : List (Str × FRef)} {py : EtVer} {reg : List (Str × Str)} (hopen : openDescriptor root = .ok parts)
    (hv : c.env.ver = parts.version) (hv0 : parts.version ≠ .v0) (hload : loadHardware c.env parts.hardware = .ok hw0)
    (hedit : HwEdits hw0 hw) (wf : HwWF c.env hw) (hst : ∀ id it, (id, it) ∈ hw → Storable c.env id it) (hl : LiteralSub c.env)
    (h : saveTree c o capOf root parts hw files = .ok (root', files')) (hreg : GoodPrefixes reg) (hx : XmlWritable py root')
    (ht : ∀ c ∈ root'.tail.getD [], xmlWs c = true)
    (hpl : ∀ parts', openDescriptor root' = .ok parts' → ∀ e ∈ parts'.hardware.children, isItemTag c.env.ver e.tag = true →
      PlainItem c.env.ver e)
    (hsys : ∀ s ∈ kids parts.hardware (systemTag parts.version), ∀ x ∈ kids s vstTag, x.children = []) :
    ∃ s t parts2 hw2, writeXml py reg root' = .ok s ∧ parseXml s = some t ∧ openDescriptor t = .ok parts2 ∧
      loadHardware c.env parts2.hardware = .ok hw2 ∧
      ∀ (w : InfoWorld) (vm : InfoVM) (lines : List Str), vm.env = c.env → vm.pkg.hw = hw2 → vm.hws = some parts2.hardware →
        infoHardware w vm = .ok lines → ∃ scsi ide eth : List Str,
          Subtypes hw "6".toList scsi ∧ Subtypes hw "5".toList ide ∧ Subtypes hw "10".toList eth ∧
          ((systemTypeText parts.version (some parts.hardware) = [] ∧ scsi = [] ∧ ide = [] ∧ eth = [] ∧ lines = []) ∨
           (¬ (systemTypeText parts.version (some parts.hardware) = [] ∧ scsi = [] ∧ ide = [] ∧ eth = []) ∧
            ∃ (head : Str) (rest : List Str), lines = head :: rest ∧ splitWs head = splitWs "Hardware Variants:".toList ∧
            rest.flatMap splitWs =
              labelled "System types:".toList (splitWs (systemTypeText parts.version (some parts.hardware))) ++
              labelled "SCSI device types:".toList (scsi.flatMap splitWs) ++
              labelled "IDE device types:".toList (ide.flatMap splitWs) ++
              labelled "Ethernet device types:".toList (eth.flatMap splitWs))) := by
  obtain ⟨s, t, parts', parts2, hw2, h1, h2, h3, h4, -, -, -, h5, tw⟩ := saved_twins hopen hv hv0 hload hedit wf hst hl h hreg hx ht hpl
  refine ⟨s, t, parts2, hw2, h1, h2, h4, h5, ?_⟩
  obtain ⟨p0, g1, -, -, -, -, -, -, g2, -⟩ := C115_reopen hopen hv hv0 h
  rw [h3] at g1
  cases g1
  obtain ⟨s0, t0, k1, k2, k3⟩ := C119_saved_partial (py := py) hreg hx ht
  rw [h1] at k1
  cases k1
  rw [h2] at k2
  cases k2
  obtain ⟨p2, k4, -, -, -, -, -, -, -, -, k5⟩ := C119_opens k3 h3
  rw [h4] at k4
  cases k4
  intro w vm lines e1 e2 e3 hlines
  have hty : systemTypeText vm.env.ver vm.hws = systemTypeText parts.version (some parts.hardware) := by
    rw [e1, e3, hv]
    exact systemTypes_same g2 k5 hsys
  obtain ⟨scsi, ide, eth, i1, i2, i3, i4⟩ := C91_hardware (by rw [e1, e2]; exact tw.wf2) hlines
  rw [e2] at i1 i2 i3
  rw [hty] at i4
  exact ⟨scsi, ide, eth, tw.subtypes i1, tw.subtypes i2, tw.subtypes i3, i4⟩

/-- the kind of the NIC and the systems are told of the package that was saved -/
example (o : Orders) (py : EtVer) : ∃ s t parts2 hw2, writeXml py etDefault (exNetRoot [exNetElem "net" "the main one"]) = .ok s ∧
    parseXml s = some t ∧ openDescriptor t = .ok parts2 ∧ loadHardware exEnvL parts2.hardware = .ok hw2 ∧
    ∀ (w : InfoWorld) (vm : InfoVM) (lines : List Str), vm.env = exEnvL → vm.pkg.hw = hw2 → vm.hws = some parts2.hardware →
      infoHardware w vm = .ok lines → ∃ (head : Str) (rest eth : List Str), lines = head :: rest ∧ "E1000".toList ∈ eth ∧ (∀ x ∈ eth, x = "E1000".toList) ∧
        rest.flatMap splitWs = splitWs "System types:".toList ++ ["vmx-08".toList, "vmx-09".toList] ++
          labelled "Ethernet device types:".toList (eth.flatMap splitWs) := by
  obtain ⟨files', hs⟩ := exNet_saved o
  obtain ⟨s, t, parts2, hw2, h1, h2, h3, h4, h5⟩ := C124_variants_partial (c := { exCtx with env := exEnvL }) (py := py) exNet_open rfl
    (by decide) exNet_load .start exWired_wf (by
      intro id it h
      simp only [List.mem_singleton, Prod.mk.injEq] at h
      obtain ⟨rfl, rfl⟩ := h
      exact exWired_storable) exEnvL_literal hs etDefault_good (writableB_sound _ (by decide +kernel)) (by simp [exNetRoot, Elem.tail]) (by
      intro parts' hp
      rw [exNet_hardware hp]
      unfold PlainItem
      exact of_decide_eq_true (by decide +kernel)) (of_decide_eq_true (by decide +kernel))
  refine ⟨s, t, parts2, hw2, h1, h2, h3, h4, ?_⟩
  intro w vm lines e1 e2 e3 hl
  obtain ⟨scsi, ide, eth, i1, i2, i3, i4⟩ := h5 w vm lines e1 e2 e3 hl
  have hone : ∀ id it, dget? [("2".toList, exWired)] id = some it → it = exWired := by
    intro id it h
    have := dget?_mem h
    simp only [List.mem_singleton, Prod.mk.injEq] at this
    exact this.2
  have hno : ∀ (code : Str) (l : List Str), code ≠ "10".toList → Subtypes [("2".toList, exWired)] code l → l = [] := by
    intro code l hc hl
    rw [List.eq_nil_iff_forall_not_mem]
    intro x hx
    obtain ⟨id, it, ts, S, k1, ⟨S', k2⟩, -⟩ := (hl x).1 hx
    rw [hone id it k1] at k2
    have ht : exWired.tab resourceType = [(.str "10".toList, {none})] := rfl
    rw [ht] at k2
    cases k2
    exact hc rfl
  have htext : systemTypeText exNetParts.version (some exNetParts.hardware) = "vmx-08 vmx-09".toList := rfl
  have hs1 := hno _ _ (by decide) i1
  have hs2 := hno _ _ (by decide) i2
  subst hs1 hs2
  rw [htext] at i4
  rcases i4 with ⟨hc, -⟩ | ⟨-, head, rest, rfl, -, hrest⟩
  · cases hc
  · refine ⟨head, rest, eth, rfl, (i3 _).2 ⟨"2".toList, exWired, ["E1000".toList], {none}, rfl, ⟨{none}, rfl⟩, ?_, List.mem_singleton.2 rfl⟩, ?_, ?_⟩
    · have ht : exWired.tab resourceSubType = [(.tup ["E1000".toList], {none})] := rfl
      rw [ht]
      exact List.mem_singleton.2 rfl
    · intro x hx
      obtain ⟨id, it, ts, S, k1, -, k2, k3⟩ := (i3 x).1 hx
      rw [hone id it k1] at k2
      have ht : exWired.tab resourceSubType = [(.tup ["E1000".toList], {none})] := rfl
      rw [ht] at k2
      cases List.mem_singleton.1 k2
      exact List.mem_singleton.1 k3
    · rw [hrest]
      have hw : splitWs "vmx-08 vmx-09".toList = ["vmx-08".toList, "vmx-09".toList] := by decide +kernel
      have h0 : ∀ a : Str, labelled a (([] : List Str).flatMap splitWs) = [] := fun a => rfl
      have h1 : labelled "System types:".toList ["vmx-08".toList, "vmx-09".toList] =
          splitWs "System types:".toList ++ ["vmx-08".toList, "vmx-09".toList] := rfl
      rw [hw, h0, h0, h1, List.append_nil, List.append_nil]

end Cot
