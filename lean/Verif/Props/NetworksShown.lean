import Verif.Props.FilesShown
import Verif.Props.InfoNetworks
import Verif.Props.Networks
import Verif.Spec.NetworksShown
/-
C124, networks: `cot info` tells the networks that a saved package uses, and which NIC is connected to which.
-/
namespace Cot

theorem kids_same {a b : Elem} (h : SameContent a b) (tag : Str) : List.Forall₂ SameContent (kids a tag) (kids b tag) :=
  forall₂_filter (R := SameContent) (fun x y hxy => by rw [hxy.facts.1]) h.facts.2.2.2.forall₂

/-- the first text is read back, if there is nothing but text -/
theorem firstText_same {a b : Elem} (h : SameContent a b) (tag : Str) (hc : ∀ c ∈ kids a tag, c.children = []) :
    firstText b tag = firstText a tag := by
  have e : ∀ x : Elem, firstText x tag = (((kids x tag).head?).map (fun c => c.text.getD [])).getD [] := by
    intro x
    unfold firstText childText
    have : x.children.filter (fun c => c.tag == tag) = kids x tag :=
      List.filter_congr (fun y _ => by by_cases hy : y.tag = tag <;> simp [hy])
    rw [this]
  rw [e, e]
  have hk := kids_same h tag
  cases ha : kids a tag with
  | nil =>
    rw [ha] at hk
    rw [List.forall₂_nil_left_iff.1 hk]
  | cons x r =>
    rw [ha] at hk
    cases hb : kids b tag with
    | nil => rw [hb] at hk; cases hk
    | cons y r' =>
      rw [hb] at hk
      cases hk with
      | cons hs _ =>
        have := hs.facts.2.2.1 (hc x (by rw [ha]; exact List.mem_cons_self ..))
        simp [this, asRead_getD]

open Classical in
/-- **C124 (networks).** Of a package that was saved, `cot info` lists the networks that a NIC of the saved hardware is connected to, in
order, each with its name and its description, and no others; if there are none then it says nothing about networks. -/
theorem C124_networks_partial {c : Ctx} {o : Orders} {capOf : Str → Except Err Nat} {root root' : Elem} {parts : Parts} {hw : Hw}
    {files files' : List (Str × FRef)} {py : EtVer} {reg : List (Str × Str)} (hopen : openDescriptor root = .ok parts)
    (hv : c.env.ver = parts.version) (hv0 : parts.version ≠ .v0)
    (h : saveTree c o capOf root parts hw files = .ok (root', files')) (hreg : GoodPrefixes reg) (hx : XmlWritable py root')
    (ht : ∀ c ∈ root'.tail.getD [], xmlWs c = true)
    (hone : ∀ parts', openDescriptor root' = .ok parts' → OneConnection parts.version parts'.hardware)
    (hd : ∀ s, parts.networks = some s → ∀ n ∈ kids s (ovfTag parts.version "Network".toList),
      ∀ d ∈ kids n (networkDesc parts.version), d.children = []) :
    ∃ s t parts' parts2, writeXml py reg root' = .ok s ∧ parseXml s = some t ∧ openDescriptor root' = .ok parts' ∧
      openDescriptor t = .ok parts2 ∧
      ∀ (w : InfoWorld) (vm : InfoVM) (vb : Verbosity) (lines : List Str), vm.env = c.env → vm.envelope = t →
        infoNetworks w vm vb = .ok lines →
        (usedNetworks parts.version parts.networks parts'.hardware = [] → lines = []) ∧
        (usedNetworks parts.version parts.networks parts'.hardware ≠ [] → ∃ (longest : Nat) (head : Str) (blocks : List (List Str)),
          Longest ((usedNetworks parts.version parts.networks parts'.hardware).map (fun e => (e.get (networkName parts.version)).getD [])) longest ∧
          lines = head :: blocks.flatten ∧ splitWs head = ["Networks:".toList] ∧
          List.Forall₂ (NetworkRows w.width longest parts.version vb) (usedNetworks parts.version parts.networks parts'.hardware) blocks) := by
  obtain ⟨s, t, h1, h2, h3⟩ := C119_saved_partial hreg hx ht
  obtain ⟨parts', g1, -, -, -, -, g2, -⟩ := C115_reopen hopen hv hv0 h
  obtain ⟨parts2, h4, -⟩ := C119_opens h3 g1
  refine ⟨s, t, parts', parts2, h1, h2, g1, h4, ?_⟩
  obtain ⟨-, ⟨sys', hws', -, -, -, -, k1, root3, k2, k3⟩, -⟩ := save_parts hopen hv hv0 h
  have hhw : hws' = parts'.hardware := Except.ok.inj (k1.symm.trans g2)
  subst hhw
  intro w vm vb lines e1 e2 hl
  have ev : vm.env.ver = parts.version := by rw [e1, hv]
  have hsec := C92_networks hl
  rw [ev, e2] at hsec
  unfold netSecTag netSecAttrib at hsec
  rw [section_tag hv0, section_attrib hv0, findAll_nil] at hsec
  have hkt := kids_same h3 (ovfTag parts.version "NetworkSection".toList)
  unfold usedNetworks
  cases hn : parts.networks with
  | none =>
    rw [hn] at k2
    have hr : root3 = root' := Except.ok.inj ((C45_no_section hv0 _ k2).symm.trans k3)
    subst hr
    rw [show kids root3 (ovfTag parts.version "NetworkSection".toList) = [] from k2] at hkt
    have hkt := List.forall₂_nil_left_iff.1 hkt
    rcases hsec with ⟨-, rfl⟩ | ⟨s0, longest, head, blocks, q1, -⟩
    · exact ⟨fun _ => rfl, fun hne => absurd rfl hne⟩
    · rw [hkt] at q1
      cases q1
  | some sec =>
    rw [hn] at k2
    obtain ⟨env', r1, -, r2, r3⟩ := C45_refresh hv0 (s := sec) k2 (hone _ g1)
    have hr : env' = root' := Except.ok.inj (r1.symm.trans k3)
    subst hr
    simp only [Option.map_some, Option.getD_some]
    by_cases hu : ∃ n ∈ kids sec (ovfTag parts.version "Network".toList), NetworkUsed parts.version parts'.hardware n
    · obtain ⟨s', q1, -, q2⟩ := r3 hu
      rw [q1] at hkt
      obtain ⟨n0, hn0, hu0⟩ := hu
      refine ⟨fun hc => absurd (List.mem_filter.2 ⟨hn0, decide_eq_true hu0⟩) (by rw [hc]; simp), fun _ => ?_⟩
      rcases hsec with ⟨hc, -⟩ | ⟨s0, longest, head, blocks, p1, p2, p3, p4, p5⟩
      · rw [hc] at hkt
        cases hkt
      · rw [p1] at hkt
        cases hkt with
        | cons hs _ =>
          have hk2 := kids_same hs (ovfTag parts.version "Network".toList)
          rw [q2] at hk2
          have hf : s0.children.filter (fun e => e.tag == networkTag parts.version) = kids s0 (ovfTag parts.version "Network".toList) :=
            List.filter_congr (fun y _ => beq_eq_decide ..)
          rw [hf] at p2 p5
          refine ⟨longest, head, blocks, ?_, p3, p4, ?_⟩
          · have : ∀ {l m : List Elem}, List.Forall₂ SameContent l m → m.map (fun e => (e.get (networkName parts.version)).getD []) =
                l.map (fun e => (e.get (networkName parts.version)).getD []) := by
              intro l m hlm
              induction hlm with
              | nil => rfl
              | cons hs _ ih => rw [List.map_cons, List.map_cons, ih, same_get hs]
            rw [this hk2] at p2
            exact p2
          · have hdesc : ∀ e ∈ (kids sec (ovfTag parts.version "Network".toList)).filter
                (fun n => decide (NetworkUsed parts.version parts'.hardware n)), ∀ d ∈ kids e (networkDesc parts.version), d.children = [] :=
              fun e he => hd sec hn e (List.mem_filter.1 he).1
            have key : ∀ {l m : List Elem} {bs : List (List Str)}, List.Forall₂ SameContent l m →
                (∀ e ∈ l, ∀ d ∈ kids e (networkDesc parts.version), d.children = []) →
                List.Forall₂ (NetworkRows w.width longest parts.version vb) m bs → List.Forall₂ (NetworkRows w.width longest parts.version vb) l bs := by
              intro l m bs hlm
              induction hlm generalizing bs with
              | nil => intro _ hb; cases hb; exact .nil
              | cons hs _ ih =>
                intro hch hb
                cases hb with
                | cons hb1 hb2 =>
                  refine .cons ?_ (ih (fun e he => hch e (List.mem_cons_of_mem _ he)) hb2)
                  obtain ⟨n, m1, m2, m3⟩ := hb1
                  rw [firstText_same hs _ (hch _ (List.mem_cons_self ..))] at m2 m3
                  rw [same_get hs] at m1
                  exact ⟨n, m1, m2, m3⟩
            exact key hk2 hdesc p5
    · have hno : ∀ n ∈ kids sec (ovfTag parts.version "Network".toList), ¬ NetworkUsed parts.version parts'.hardware n :=
        fun n hn hc => hu ⟨n, hn, hc⟩
      have hempty : (kids sec (ovfTag parts.version "Network".toList)).filter
          (fun n => decide (NetworkUsed parts.version parts'.hardware n)) = [] := by
        rw [List.filter_eq_nil_iff]
        intro n hn
        simpa using hno n hn
      rw [hempty]
      rw [r2 hno] at hkt
      have hkt := List.forall₂_nil_left_iff.1 hkt
      rcases hsec with ⟨-, rfl⟩ | ⟨s0, longest, head, blocks, q1, -⟩
      · exact ⟨fun _ => rfl, fun hne => absurd rfl hne⟩
      · rw [hkt] at q1
        cases q1

/-- **C124 (NICs).** The NICs that a history of edits leads to are the NICs that `cot info` lists of the package that was written, each once
and in natural order of their identifiers, each with the network that it is connected to. -/
theorem C124_nics_partial {c : Ctx} {o : Orders} {capOf : Str → Except Err Nat} {root root' : Elem} {parts : Parts} {hw0 hw : Hw}
    {files files' : List (Str × FRef)} {py : EtVer} {reg : List (Str × Str)} (hopen : openDescriptor root = .ok parts)
    (hv : c.env.ver = parts.version) (hv0 : parts.version ≠ .v0) (hload : loadHardware c.env parts.hardware = .ok hw0)
    (hedit : HwEdits hw0 hw) (wf : HwWF c.env hw) (hst : ∀ id it, (id, it) ∈ hw → Storable c.env id it) (hl : LiteralSub c.env)
    (h : saveTree c o capOf root parts hw files = .ok (root', files')) (hreg : GoodPrefixes reg) (hx : XmlWritable py root')
    (ht : ∀ c ∈ root'.tail.getD [], xmlWs c = true)
    (hpl : ∀ parts', openDescriptor root' = .ok parts' → ∀ e ∈ parts'.hardware.children, isItemTag c.env.ver e.tag = true →
      PlainItem c.env.ver e) :
    ∃ s t parts2 hw2, writeXml py reg root' = .ok s ∧ parseXml s = some t ∧ openDescriptor t = .ok parts2 ∧
      loadHardware c.env parts2.hardware = .ok hw2 ∧
      ∀ (w : InfoWorld) (vm : InfoVM) (vb : Verbosity) (lines : List Str), vm.env = c.env → vm.pkg.hw = hw2 →
        infoNics w vm vb = .ok lines → vb ≠ .brief →
        ∃ ids : List Str, ids.Nodup ∧ ids.Pairwise NatLe ∧ (∀ k, k ∈ ids ↔ ∃ it, dget? hw k = some it ∧ OfType it "10".toList) ∧
          (ids = [] → lines = []) ∧
          (ids ≠ [] → ∃ (head : Str) (blocks : List (List Str)), lines = head :: blocks.flatten ∧
            splitWs head = splitWs "NICs and Associated Networks:".toList ∧ List.Forall₂ (NicConnection hw) ids blocks) := by
  obtain ⟨s, t, parts', parts2, hw2, h1, h2, -, h4, -, -, -, h5, tw⟩ := saved_twins hopen hv hv0 hload hedit wf hst hl h hreg hx ht hpl
  refine ⟨s, t, parts2, hw2, h1, h2, h4, h5, ?_⟩
  intro w vm vb lines e1 e2 hlines hb
  obtain ⟨ids, i1, i2, i3, i4⟩ := (C92_nics (by rw [e1, e2]; exact tw.wf2) hlines).2 hb
  rw [e2] at i1 i2
  obtain ⟨p1, p2, p3, p4, p5⟩ := plain_names c.env
  have pc : Plain c.env connection := by
    unfold Plain
    cases c.env.ver <;> decide +kernel
  refine ⟨ids, i1.nodup ((naturalSort_perm _).nodup_iff.2 tw.wf2.keys), (naturalSort_sorted _).sublist i1, ?_, i3, ?_⟩
  · intro k
    rw [i2]
    constructor
    · rintro ⟨it', k1, k2⟩
      obtain ⟨it, q1, q2, -⟩ := tw.symm.twin k1
      exact ⟨it, q1, (q2 _ _ p5).2 k2⟩
    · rintro ⟨it, k1, k2⟩
      obtain ⟨it', q1, q2, -⟩ := tw.twin k1
      exact ⟨it', q1, (q2 _ _ p5).2 k2⟩
  · intro hne
    obtain ⟨head, blocks, j1, j2, j3⟩ := i4 hne
    refine ⟨head, blocks, j1, j2, j3.imp ?_⟩
    rintro k b ⟨it', row, name, net, desc, k1, k2, k3, -, k4, -⟩
    rw [e2] at k1
    obtain ⟨it, q1, q2, -⟩ := tw.symm.twin k1
    exact ⟨it, row, name, net, desc, q1, k2, onlyValue_iff (fun x => (q2 _ x pc).symm) k3, k4⟩

/-! ### Cases -/

/-- a NIC of the kind E1000 -/
def exE1000 : Elem :=
  .mk (itemTag .v1) [] none none
    [.mk (rasd ++ "InstanceID".toList) [] (some "2".toList) none [],
     .mk (rasd ++ "ResourceType".toList) [] (some "10".toList) none [],
     .mk (rasd ++ "ResourceSubType".toList) [] (some "E1000".toList) none [],
     .mk (rasd ++ "Connection".toList) [] (some "net".toList) none []]

/-- the System element: what systems the machine is for -/
def exSystemElem : Elem := .mk (systemTag .v1) [] none none [.mk vstTag [] (some "vmx-08 vmx-09".toList) none []]

/-- the hardware of the descriptor -/
def exNetHw : Elem := exHwSec [exSystemElem, exE1000]

/-- a descriptor with two networks, of which only the first is used: a NIC is connected to it -/
def exNetRoot (nets : List Elem) : Elem :=
  .mk (ovfTag .v1 "Envelope".toList) [] none none
    [.mk (ovfTag .v1 "References".toList) [] none none [exFileE "vmdk".toList "d.vmdk".toList "1".toList],
     .mk (ovfTag .v1 "DiskSection".toList) [] none none [exDiskE "vmdisk1".toList "vmdk".toList "7".toList],
     .mk (ovfTag .v1 "NetworkSection".toList) [] none none nets,
     .mk (ovfTag .v1 "VirtualSystem".toList) [] none none [exNetHw]]

/-- a network with a description -/
def exNetElem (name desc : String) : Elem :=
  .mk (ovfTag .v1 "Network".toList) [(ovfTag .v1 "name".toList, name.toList)] none none
    [.mk (ovfTag .v1 "Description".toList) [] (some desc.toList) none []]

/-- the NIC of the descriptor -/
def exWired : Item :=
  { props := [("InstanceID".toList, [(.str "2".toList, {none})]), ("ResourceType".toList, [(.str "10".toList, {none})]),
      ("ResourceSubType".toList, [(.tup ["E1000".toList], {none})]), ("Connection".toList, [(.str "net".toList, {none})])], ns := rasd, modified := false }

def exNetParts : Parts :=
  ⟨.v1, .mk (ovfTag .v1 "References".toList) [] none none [exFileE "vmdk".toList "d.vmdk".toList "1".toList],
   some (.mk (ovfTag .v1 "DiskSection".toList) [] none none [exDiskE "vmdisk1".toList "vmdk".toList "7".toList]),
   some (.mk (ovfTag .v1 "NetworkSection".toList) [] none none [exNetElem "net" "the main one", exNetElem "other" "spare"]),
   none, .mk (ovfTag .v1 "VirtualSystem".toList) [] none none [exNetHw], none, none, exNetHw⟩

theorem exNet_open : openDescriptor (exNetRoot [exNetElem "net" "the main one", exNetElem "other" "spare"]) = .ok exNetParts := rfl

theorem exNet_load : loadHardware exEnvL exNetHw = .ok [("2".toList, exWired)] := rfl

theorem exNet_saved (o : Orders) : ∃ files', saveTree { exCtx with env := exEnvL } o exCap
    (exNetRoot [exNetElem "net" "the main one", exNetElem "other" "spare"]) exNetParts [("2".toList, exWired)] exWholeFiles =
      .ok (exNetRoot [exNetElem "net" "the main one"], files') := ⟨_, rfl⟩

theorem exNet_hardware {parts' : Parts} (h : openDescriptor (exNetRoot [exNetElem "net" "the main one"]) = .ok parts') :
    parts'.hardware = exNetHw := by
  have e : (openDescriptor (exNetRoot [exNetElem "net" "the main one"])).map (·.hardware) = .ok exNetHw := rfl
  rw [h] at e
  exact Except.ok.inj e

theorem exNet_used : usedNetworks .v1 exNetParts.networks exNetHw = [exNetElem "net" "the main one"] := by
  have h1 : NetworkUsed .v1 exNetHw (exNetElem "net" "the main one") := by
    unfold NetworkUsed
    exact of_decide_eq_true (by decide +kernel)
  have h2 : ¬ NetworkUsed .v1 exNetHw (exNetElem "other" "spare") := by
    unfold NetworkUsed
    exact of_decide_eq_true (by decide +kernel)
  have hk : (exNetParts.networks.map (fun s => kids s (ovfTag .v1 "Network".toList))).getD [] =
      [exNetElem "net" "the main one", exNetElem "other" "spare"] := by rfl
  unfold usedNetworks
  rw [hk]
  simp [List.filter, h1, h2]

/-- the package is saved: of the two networks, the one in use is told, with its description -/
example (o : Orders) (py : EtVer) : ∃ s t, writeXml py etDefault (exNetRoot [exNetElem "net" "the main one"]) = .ok s ∧ parseXml s = some t ∧
    ∀ (w : InfoWorld) (vm : InfoVM) (vb : Verbosity) (lines : List Str), vm.env = exEnvL → vm.envelope = t →
      infoNetworks w vm vb = .ok lines → ∃ (head : Str) (block : List Str), lines = head :: block ∧ splitWs head = ["Networks:".toList] ∧
        NetworkRows w.width 3 .v1 vb (exNetElem "net" "the main one") block := by
  obtain ⟨files', hs⟩ := exNet_saved o
  obtain ⟨s, t, parts', parts2, h1, h2, h3, h4, h5⟩ := C124_networks_partial (c := { exCtx with env := exEnvL }) (py := py) exNet_open rfl
    (by decide) hs etDefault_good (writableB_sound _ (by decide +kernel)) (by simp [exNetRoot, Elem.tail])
    (by
      intro parts' hp
      rw [exNet_hardware hp]
      unfold OneConnection
      exact of_decide_eq_true (by decide +kernel))
    (by
      intro s hs
      cases hs
      exact of_decide_eq_true (by decide +kernel))
  refine ⟨s, t, h1, h2, ?_⟩
  intro w vm vb lines e1 e2 hl
  have hu : usedNetworks exNetParts.version exNetParts.networks parts'.hardware = [exNetElem "net" "the main one"] := by
    rw [exNet_hardware h3]; exact exNet_used
  obtain ⟨longest, head, blocks, k1, k2, k3, k4⟩ := (h5 w vm vb lines e1 e2 hl).2 (by rw [hu]; simp)
  rw [hu] at k1 k4
  have hlen : longest = 3 := by
    have hn : ([exNetElem "net" "the main one"].map (fun e => (e.get (networkName exNetParts.version)).getD [])) = ["net".toList] := by rfl
    rw [hn] at k1
    obtain ⟨q1, q2⟩ := k1
    have := q1 "net".toList (List.mem_singleton.2 rfl)
    rcases q2 with rfl | ⟨x, hx, rfl⟩
    · exact absurd this (by decide)
    · rw [List.mem_singleton.1 hx]; rfl
  subst hlen
  cases k4 with
  | cons hb hr =>
    cases hr
    exact ⟨head, _, by rw [k2, List.flatten_cons, List.flatten_nil, List.append_nil], k3, hb⟩

theorem exWired_sets {n : Str} {v : Val} {S : PSet} (h : (v, S) ∈ exWired.tab n) : S = {none} := by
  obtain ⟨t, h1, h2⟩ := mem_tab h
  simp only [exWired, List.mem_cons, Prod.mk.injEq, List.not_mem_nil, or_false] at h1
  rcases h1 with ⟨-, rfl⟩ | ⟨-, rfl⟩ | ⟨-, rfl⟩ | ⟨-, rfl⟩ <;>
    simp only [List.mem_cons, Prod.mk.injEq, List.not_mem_nil, or_false] at h2 <;> exact h2.2

theorem exWired_wf : HwWF exEnvL [("2".toList, exWired)] := (C55_loaded_consistent (of_decide_eq_true (by decide +kernel)) exNet_load).1

theorem exWired_item : ItemWF exEnvL exWired := exWired_wf.items _ _ (List.mem_singleton.2 rfl)

theorem exWired_raw (p : Prof) (m : Str) : exWired.getRaw m (some {p}) = exWired.getRaw m (some {none}) := by
  by_cases hn : p = none
  · rw [hn]
  have hno : ∀ u, ¬ Explicit (exWired.tab m) p u := by
    rintro u ⟨S, h, hp⟩
    rw [exWired_sets h] at hp
    exact hn (Finset.mem_singleton.1 hp)
  apply Option.ext
  intro v
  rw [getRaw_single exWired_item, getRaw_single exWired_item, reads_none]
  exact ⟨fun h => h.elim (fun h => absurd h (hno v)) (fun h => h.2), fun h => Or.inr ⟨hno, h⟩⟩

theorem exWired_storable : Storable exEnvL "2".toList exWired := by
  refine ⟨⟨{none}, rfl⟩, ?_, ?_, ?_, ?_, ⟨?_, ?_, ?_, ?_, ?_⟩, _, rfl⟩
  · rintro S ⟨n, t, v, h1, h2⟩ s hs
    have : (v, S) ∈ exWired.tab n := by rw [tab_of_mem exWired_item h1]; exact h2
    rw [exWired_sets this] at hs
    simp at hs
  · rintro n p w ⟨S, h, hp⟩
    rw [exWired_sets h] at hp
    simp at hp
  · rintro n p w -
    have ht : exWired.tab (instanceId exEnvL.ver) = [(.str "2".toList, {none})] := rfl
    by_cases hp : p = none
    · subst hp; exact ⟨.str "2".toList, Or.inl ⟨{none}, by rw [ht]; simp, by simp⟩⟩
    · refine ⟨.str "2".toList, Or.inr ⟨?_, {none}, by rw [ht]; simp, by simp⟩⟩
      rintro w ⟨S, hS, hpS⟩
      rw [ht, List.mem_singleton] at hS
      cases hS
      exact hp (Finset.mem_singleton.1 hpS)
  · intro n v S h
    obtain ⟨t, h1, h2⟩ := mem_tab h
    simp only [exWired, List.mem_cons, Prod.mk.injEq, List.not_mem_nil, or_false] at h1
    rcases h1 with ⟨rfl, rfl⟩ | ⟨rfl, rfl⟩ | ⟨rfl, rfl⟩ | ⟨rfl, rfl⟩ <;>
      simp only [List.mem_cons, Prod.mk.injEq, List.not_mem_nil, or_false] at h2
    · obtain ⟨rfl, -⟩ := h2; exact .child (by decide +kernel) (by decide +kernel)
    · obtain ⟨rfl, -⟩ := h2; exact .child (by decide +kernel) (by decide +kernel)
    · obtain ⟨rfl, -⟩ := h2; exact .subtype (by decide +kernel)
    · obtain ⟨rfl, -⟩ := h2; exact .child (by decide +kernel) (by decide +kernel)
  · intro p v h
    have hn : exWired.tab virtualQuantity = [] := rfl
    rw [hn] at h
    obtain ⟨S, h, -⟩ | ⟨-, S, h, -⟩ := h <;> cases h
  · intro p v h
    rw [← getRaw_single exWired_item, exWired_raw] at h
    have : v = .tup ["E1000".toList] := (Option.some.inj h).symm
    subst this
    unfold TameVal
    decide +kernel
  · intro p v h
    rw [← getRaw_single exWired_item, exWired_raw] at h
    have : v = .str "net".toList := (Option.some.inj h).symm
    subst this
    unfold TameVal
    decide +kernel
  · intro p
    left
    rw [getValue_same (exWired_raw p)]
    rfl
  · intro p
    left
    rw [getValue_same (exWired_raw p)]
    rfl

/-- the NIC of the saved package is told, with its network -/
example (o : Orders) (py : EtVer) : ∃ s t parts2 hw2, writeXml py etDefault (exNetRoot [exNetElem "net" "the main one"]) = .ok s ∧
    parseXml s = some t ∧ openDescriptor t = .ok parts2 ∧ loadHardware exEnvL parts2.hardware = .ok hw2 ∧
    ∀ (w : InfoWorld) (vm : InfoVM) (lines : List Str), vm.env = exEnvL → vm.pkg.hw = hw2 → infoNics w vm .normal = .ok lines →
      ∃ head row name rest, lines = head :: row :: rest ∧ splitWs row = splitWs name ++ [":".toList, "net".toList] := by
  obtain ⟨files', hs⟩ := exNet_saved o
  obtain ⟨s, t, parts2, hw2, h1, h2, h3, h4, h5⟩ := C124_nics_partial (c := { exCtx with env := exEnvL }) (py := py) exNet_open rfl
    (by decide) exNet_load .start exWired_wf (by
      intro id it h
      simp only [List.mem_singleton, Prod.mk.injEq] at h
      obtain ⟨rfl, rfl⟩ := h
      exact exWired_storable) exEnvL_literal hs etDefault_good (writableB_sound _ (by decide +kernel)) (by simp [exNetRoot, Elem.tail]) (by
      intro parts' hp
      rw [exNet_hardware hp]
      unfold PlainItem
      exact of_decide_eq_true (by decide +kernel))
  refine ⟨s, t, parts2, hw2, h1, h2, h3, h4, ?_⟩
  intro w vm lines e1 e2 hl
  obtain ⟨ids, -, -, i3, -, i5⟩ := h5 w vm .normal lines e1 e2 hl (by decide)
  have hm : "2".toList ∈ ids := (i3 _).2 ⟨exWired, rfl, {none}, rfl⟩
  obtain ⟨head, blocks, rfl, -, hb⟩ := i5 (List.ne_nil_of_mem hm)
  cases hb with
  | nil => cases hm
  | @cons k b _ bs hb _ =>
    obtain ⟨it, row, name, net, rest, g1, rfl, g3, g4⟩ := hb
    have := dget?_mem g1
    simp only [List.mem_singleton, Prod.mk.injEq] at this
    obtain ⟨-, rfl⟩ := this
    have hnet : net = "net".toList := by
      have ht : exWired.tab connection = [(.str "net".toList, {none})] := rfl
      rw [ht] at g3
      rcases g3 with ⟨S, hS⟩ | ⟨hS, -⟩
      · cases hS; rfl
      · exact absurd rfl (hS "net".toList {none})
    subst hnet
    exact ⟨head, row, name, _, rfl, g4⟩

end Cot
