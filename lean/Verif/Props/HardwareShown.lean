import Verif.Props.XmlReopen
import Verif.Props.InfoProfiles
import Verif.Props.Load
import Verif.Lemmas.Isolation
/-
C124: the hardware that was saved is what `cot info` tells of the package that was written.
-/
namespace Cot

/-- two items that give the same answers store the same for every profile, under names that are not rewritten -/
theorem reads_of_values {env : Env} {it it' : Item} (wf : ItemWF env it) (wf' : ItemWF env it')
    (h : ∀ n p, it'.getValue env n (some {p}) = it.getValue env n (some {p})) {n : Str} (hn : Plain env n) (p : Prof) (w : Val) :
    Reads (it'.tab n) p w ↔ Reads (it.tab n) p w := by
  rw [← getRaw_single wf' n p w, ← getRaw_single wf n p w]
  have := h n p
  rw [getValue_plain hn, getValue_plain hn] at this
  rw [Except.ok.inj this]

theorem ofType_of_values {env : Env} {it it' : Item} (wf : ItemWF env it) (wf' : ItemWF env it')
    (h : ∀ n p, it'.getValue env n (some {p}) = it.getValue env n (some {p})) {code : Str} (ht : OfType it code) : OfType it' code := by
  obtain ⟨S, hS⟩ := ht
  have htab : TabWF (it.tab resourceType) := by
    unfold Item.tab at hS ⊢
    cases hg : dget? it.props resourceType with
    | none => rw [hg] at hS; cases hS
    | some t => exact wf.tabs _ _ (dget?_mem hg)
  obtain ⟨p, hp⟩ := Finset.nonempty_iff_ne_empty.2 (htab.nonempty _ _ (by rw [hS]; exact List.mem_singleton.2 rfl))
  have hr : Reads (it'.tab resourceType) p (.str code) :=
    (reads_of_values wf wf' h (plain_rt env) p _).2 (Or.inl ⟨S, by rw [hS]; exact List.mem_singleton.2 rfl, hp⟩)
  obtain ⟨q, S', hm, -⟩ : ∃ q, Explicit (it'.tab resourceType) q (.str code) := by
    rcases hr with hr | ⟨-, hr⟩
    · exact ⟨_, hr⟩
    · exact ⟨_, hr⟩
  have hlen := wf'.oneType
  match hl : it'.tab resourceType with
  | [] => rw [hl] at hm; cases hm
  | [x] =>
    rw [hl] at hm
    rw [List.mem_singleton] at hm
    subst hm
    exact ⟨S', hl⟩
  | _ :: _ :: _ => rw [hl] at hlen; simp at hlen

theorem has_of_values {env : Env} {it it' : Item} (wf : ItemWF env it) (wf' : ItemWF env it')
    (h : ∀ n p, it'.getValue env n (some {p}) = it.getValue env n (some {p})) {p : Prof} (hp : IsProfile env p) :
    it'.hasProfile env p = it.hasProfile env p := by
  rw [Bool.eq_iff_iff]
  rcases hp with ⟨q, hq, rfl⟩ | ⟨-, rfl⟩
  · rw [has_iff_reads hq, has_iff_reads hq]
    exact exists_congr (fun v => reads_of_values wf wf' h (plain_iid env) _ v)
  · have key : ∀ i : Item, i.hasProfile env none = true ↔ ∃ v, Reads (i.tab (instanceId env.ver)) none v := by
      intro i
      rw [hasProfile_iff]
      constructor
      · rintro (⟨v, hv⟩ | ⟨⟨v, hv⟩, -⟩) <;> exact ⟨v, Or.inl hv⟩
      · rintro ⟨v, hv | ⟨-, hv⟩⟩ <;> exact Or.inl ⟨v, hv⟩
    rw [key, key]
    exact exists_congr (fun v => reads_of_values wf wf' h (plain_iid env) _ v)

/-- the same identifiers, and the same answers under each -/
structure Twins (env : Env) (hw hw2 : Hw) : Prop where
  wf : HwWF env hw
  wf2 : HwWF env hw2
  keys : (dkeys hw2).Perm (dkeys hw)
  values : ∀ id it it', (id, it) ∈ hw → (id, it') ∈ hw2 → ∀ n p, it'.getValue env n (some {p}) = it.getValue env n (some {p})

theorem Twins.symm {env : Env} {hw hw2 : Hw} (h : Twins env hw hw2) : Twins env hw2 hw :=
  ⟨h.wf2, h.wf, h.keys.symm, fun id it it' h1 h2 n p => (h.values id it' it h2 h1 n p).symm⟩

/-- each device has its counterpart -/
theorem Twins.partner {env : Env} {hw hw2 : Hw} (h : Twins env hw hw2) {id : Str} {it : Item} (hm : (id, it) ∈ hw) :
    ∃ it', (id, it') ∈ hw2 ∧ (∀ n p w, Plain env n → (Reads (it'.tab n) p w ↔ Reads (it.tab n) p w)) ∧
      (∀ code, OfType it code ↔ OfType it' code) ∧ ∀ p, IsProfile env p → it'.hasProfile env p = it.hasProfile env p := by
  obtain ⟨⟨k, it'⟩, hm', hk⟩ := List.mem_map.1 (h.keys.mem_iff.2 (List.mem_map.2 ⟨_, hm, rfl⟩))
  simp only at hk
  subst hk
  have w := h.wf.items _ _ hm
  have w' := h.wf2.items _ _ hm'
  have hv := h.values _ _ _ hm hm'
  exact ⟨it', hm', fun n p v hn => reads_of_values w w' hv hn p v,
    fun code => ⟨ofType_of_values w w' hv, ofType_of_values w' w (fun n p => (hv n p).symm)⟩, fun p hp => has_of_values w w' hv hp⟩

theorem Twins.device {env : Env} {hw hw2 : Hw} (h : Twins env hw hw2) {code : Str} {p : Prof} (hp : IsProfile env p) {it : Item}
    (hd : DeviceUnder env hw code p it) :
    ∃ it', DeviceUnder env hw2 code p it' ∧ ∀ n w, Plain env n → (Reads (it'.tab n) p w ↔ Reads (it.tab n) p w) := by
  obtain ⟨⟨id, hid⟩, ht, hh⟩ := hd
  obtain ⟨it', h1, h2, h3, h4⟩ := h.partner (dget?_mem hid)
  exact ⟨it', ⟨⟨id, dget?_of_mem h.wf2.keys h1⟩, (h3 code).1 ht, by rw [h4 p hp, hh]⟩, fun n w hn => h2 n p w hn⟩

theorem Twins.count {env : Env} {hw hw2 : Hw} (h : Twins env hw hw2) (code : Str) {p : Prof} (hp : IsProfile env p) :
    countOf env hw2 code p = countOf env hw code p := by
  have key : ∀ a b : Hw, Twins env a b → ((a.filter (fun kv => decide (OfType kv.2 code) && kv.2.hasProfile env p)).map Prod.fst) ⊆
      ((b.filter (fun kv => decide (OfType kv.2 code) && kv.2.hasProfile env p)).map Prod.fst) := by
    intro a b hab id hid
    obtain ⟨⟨k, it⟩, hm, rfl⟩ := List.mem_map.1 hid
    obtain ⟨hm, hc⟩ := List.mem_filter.1 hm
    rw [Bool.and_eq_true] at hc
    obtain ⟨it', h1, -, h3, h4⟩ := hab.partner hm
    exact List.mem_map.2 ⟨(k, it'), List.mem_filter.2 ⟨h1, by
      rw [Bool.and_eq_true]
      exact ⟨decide_eq_true ((h3 code).1 (of_decide_eq_true hc.1)), by rw [h4 p hp]; exact hc.2⟩⟩, rfl⟩
  have nd : ∀ a : Hw, HwWF env a → ((a.filter (fun kv => decide (OfType kv.2 code) && kv.2.hasProfile env p)).map Prod.fst).Nodup :=
    fun a wa => wa.keys.sublist (List.filter_sublist.map _)
  have hperm := (List.perm_ext_iff_of_nodup (nd hw2 h.wf2) (nd hw h.wf)).2 (fun a => ⟨fun x => key _ _ h.symm x, fun x => key _ _ h x⟩)
  have := hperm.length_eq
  rw [List.length_map, List.length_map] at this
  exact this

theorem Twins.memory {env : Env} {hw hw2 : Hw} (h : Twins env hw hw2) {p : Prof} (hp : IsProfile env p) {z : Int}
    (hm : HasMemory env hw p z) : HasMemory env hw2 p z := by
  obtain ⟨it, s, hd, hq, hu⟩ := hm
  obtain ⟨it', hd', hr⟩ := h.device hp hd
  refine ⟨it', s, hd', (hr _ _ (plain_vq env)).2 hq, ?_⟩
  rcases hu with ⟨u, hu, hz⟩ | ⟨hu, hz⟩
  · exact Or.inl ⟨u, (hr _ _ (plain_au env)).2 hu, hz⟩
  · exact Or.inr ⟨fun u hc => hu u ((hr _ _ (plain_au env)).1 hc), hz⟩

/-- a row that tells of one tells of the other -/
theorem Twins.row {vm : InfoVM} {hw : Hw} (h : Twins vm.env vm.pkg.hw hw) {p : Prof} (hp : IsProfile vm.env p) {row : Str}
    (hr : ProfileRow vm p row) : ProfileRow { vm with pkg := { vm.pkg with hw := hw } } p row := by
  obtain ⟨cpus, mem, cap, bytes, total, h1, h2, h3, h4, h5, h6⟩ := hr
  have hnone : ∀ code, (∀ it, ¬ DeviceUnder vm.env vm.pkg.hw code p it) → ∀ it, ¬ DeviceUnder vm.env hw code p it := by
    intro code hn it hd
    obtain ⟨it', hd', -⟩ := h.symm.device hp hd
    exact hn it' hd'
  refine ⟨cpus, mem, cap, bytes, total, ?_, ?_, h3, h4, h5, ?_⟩
  · rcases h1 with ⟨it, hd, hq⟩ | ⟨hn, e⟩ | ⟨e1, ⟨it, hd, hq⟩, e2⟩
    · obtain ⟨it', hd', hr⟩ := h.device hp hd
      exact Or.inl ⟨it', hd', (hr _ _ (plain_vq _)).2 hq⟩
    · exact Or.inr (Or.inl ⟨hnone _ hn, e⟩)
    · obtain ⟨it', hd', hr⟩ := h.device hp hd
      exact Or.inr (Or.inr ⟨e1, ⟨it', hd', fun x hx => hq x ((hr _ _ (plain_vq _)).1 hx)⟩, e2⟩)
  · rcases h2 with h2 | ⟨hn, e⟩
    · exact Or.inl (h.memory hp h2)
    · exact Or.inr ⟨hnone _ hn, e⟩
  · dsimp only
    rw [h.count _ hp, h.count _ hp, h.count _ hp]
    exact h6

/-- The package that was saved can be written, read and opened, and its hardware loaded; the devices give the same answers as
before. -/
theorem saved_twins {c : Ctx} {o : Orders} {capOf : Str → Except Err Nat} {root root' : Elem} {parts : Parts} {hw0 hw : Hw}
    {files files' : List (Str × FRef)} {py : EtVer} {reg : List (Str × Str)} (hopen : openDescriptor root = .ok parts)
    (hv : c.env.ver = parts.version) (hv0 : parts.version ≠ .v0) (hload : loadHardware c.env parts.hardware = .ok hw0)
    (hedit : HwEdits hw0 hw) (wf : HwWF c.env hw) (hst : ∀ id it, (id, it) ∈ hw → Storable c.env id it) (hl : LiteralSub c.env)
    (h : saveTree c o capOf root parts hw files = .ok (root', files')) (hreg : GoodPrefixes reg) (hx : XmlWritable py root')
    (ht : ∀ c ∈ root'.tail.getD [], xmlWs c = true)
    (hpl : ∀ parts', openDescriptor root' = .ok parts' → ∀ e ∈ parts'.hardware.children, isItemTag c.env.ver e.tag = true →
      PlainItem c.env.ver e) :
    ∃ s t parts' parts2 hw2, writeXml py reg root' = .ok s ∧ parseXml s = some t ∧ openDescriptor root' = .ok parts' ∧
      openDescriptor t = .ok parts2 ∧ parts'.version = parts.version ∧ SameContent parts'.references parts2.references ∧
      SameOption parts'.disks parts2.disks ∧ loadHardware c.env parts2.hardware = .ok hw2 ∧ Twins c.env hw hw2 := by
  obtain ⟨s, t, h1, h2, h3⟩ := C119_saved_partial hreg hx ht
  obtain ⟨parts', hw2, g1, g2, g3, g4⟩ := C115_hardware_partial hopen hv hv0 hload hedit wf hst hl h
  obtain ⟨p0, h4, h5, -⟩ := C115_reopen hopen hv hv0 h
  rw [g1] at h4
  cases h4
  obtain ⟨parts2, h6, -, h7, h8, -, -, -, -, -, h9⟩ := C119_opens h3 g1
  have hne : ([] : Str) ∉ dkeys hw := by
    intro hc
    obtain ⟨⟨k, it⟩, hm, hk⟩ := List.mem_map.1 hc
    simp only at hk
    subst hk
    obtain ⟨S, hS⟩ := (hst _ _ hm).ident
    have htab : TabWF (it.tab (instanceId c.env.ver)) := by
      unfold Item.tab at hS ⊢
      cases hg : dget? it.props (instanceId c.env.ver) with
      | none => rw [hg] at hS; cases hS
      | some t => exact (wf.items _ _ hm).tabs _ _ (dget?_mem hg)
    have := htab.truthy (.str []) S (by rw [hS]; exact List.mem_singleton.2 rfl)
    simp [Val.truthy] at this
  obtain ⟨-, -, ids, -⟩ := load_entries g2
  have wf2 : HwWF c.env hw2 := (C55_loaded_consistent (fun e he hc => hne (g3.mem_iff.1 ((ids []).2 ⟨e, he, hc⟩))) g2).1
  exact ⟨s, t, parts', parts2, hw2, h1, h2, g1, h6, h5, h7, h8, (C119_hardware_partial h9 (hpl _ g1)).trans g2, Twins.mk wf wf2 g3 g4⟩

/-- **C124 (hardware).** The hardware that a history of edits leads to is what the profile table of `cot info` tells of the
package that was written: the descriptor is saved to a text, the text can be read and opened and its hardware loaded, and the
table then has one line for each profile, which states the processors, the memory and the numbers of NICs, serial ports and
hard disks that the edited hardware has under that profile.

Partial: the devices are `Storable`, and the Items of the saved descriptor are plain. -/
theorem C124_hardware_partial {c : Ctx} {o : Orders} {capOf : Str → Except Err Nat} {root root' : Elem} {parts : Parts} {hw0 hw : Hw}
    {files files' : List (Str × FRef)} {py : EtVer} {reg : List (Str × Str)} (hopen : openDescriptor root = .ok parts)
    (hv : c.env.ver = parts.version) (hv0 : parts.version ≠ .v0) (hload : loadHardware c.env parts.hardware = .ok hw0)
    (hedit : HwEdits hw0 hw) (wf : HwWF c.env hw) (hst : ∀ id it, (id, it) ∈ hw → Storable c.env id it) (hl : LiteralSub c.env)
    (h : saveTree c o capOf root parts hw files = .ok (root', files')) (hreg : GoodPrefixes reg) (hx : XmlWritable py root')
    (ht : ∀ c ∈ root'.tail.getD [], xmlWs c = true)
    (hpl : ∀ parts', openDescriptor root' = .ok parts' → ∀ e ∈ parts'.hardware.children, isItemTag c.env.ver e.tag = true →
      PlainItem c.env.ver e) :
    ∃ s t parts2 hw2, writeXml py reg root' = .ok s ∧ parseXml s = some t ∧ openDescriptor t = .ok parts2 ∧
      loadHardware c.env parts2.hardware = .ok hw2 ∧
      ∀ (w : InfoWorld) (vm : InfoVM) (vb : Verbosity) (lines : List Str), vm.env = c.env → vm.pkg.hw = hw2 → KeepsInk w.wrapBreak →
        infoProfiles w vm vb = .ok lines →
        ∃ (head rule : Str) (profiles : List Prof) (blocks : List (List Str)),
          lines = head :: rule :: blocks.flatten ∧
          (profiles = c.env.configProfiles.map some ∧ profiles ≠ [] ∨ c.env.configProfiles = [] ∧ profiles = [none]) ∧
          List.Forall₂ (fun p b => ∃ row labels, b = row :: labels ∧
            ProfileRow { vm with pkg := { vm.pkg with hw := hw } } p row) profiles blocks := by
  obtain ⟨s, t, parts', parts2, hw2, h1, h2, -, h4, -, -, -, h5, tw0⟩ := saved_twins hopen hv hv0 hload hedit wf hst hl h hreg hx ht hpl
  refine ⟨s, t, parts2, hw2, h1, h2, h4, h5, ?_⟩
  intro w vm vb lines e1 e2 hk hlines
  have tw : Twins vm.env vm.pkg.hw hw := by
    rw [e1, e2]
    exact tw0.symm
  obtain ⟨head, rule, profiles, blocks, i1, -, i2, i3⟩ := C89_profiles (by rw [e1, e2]; exact tw0.wf2) hk hlines
  rw [e1] at i2
  refine ⟨head, rule, profiles, blocks, i1, i2, ?_⟩
  have hall : ∀ p ∈ profiles, IsProfile vm.env p := by
    intro p hp
    rw [e1]
    rcases i2 with ⟨rfl, -⟩ | ⟨hc, rfl⟩
    · obtain ⟨q, hq, rfl⟩ := List.mem_map.1 hp
      exact Or.inl ⟨q, hq, rfl⟩
    · exact Or.inr ⟨hc, List.mem_singleton.1 hp⟩
  clear i1 i2
  induction i3 with
  | nil => exact .nil
  | cons hb _ ih =>
    obtain ⟨row, labels, rfl, hr, -⟩ := hb
    exact .cons ⟨row, labels, rfl, tw.row (hall _ (List.mem_cons_self ..)) hr⟩ (ih (fun p hp => hall p (List.mem_cons_of_mem _ hp)))

/-! ### A case -/

theorem enum_one {α : Type} [DecidableEq α] (s : SetOrder α) (a : α) : s.enum {a} = [a] := by
  have : (s.enum {a}).Perm [a] := (List.perm_ext_iff_of_nodup (s.nodup _) (by simp)).2 (fun x => by rw [s.mem]; simp)
  exact List.perm_singleton.1 this

theorem enum_two {α : Type} [DecidableEq α] (s : SetOrder α) {a b : α} (hab : a ≠ b) (S : Finset α) (hS : S = {a, b}) :
    s.enum S = [a, b] ∨ s.enum S = [b, a] := by
  have hp : (s.enum S).Perm [a, b] := (List.perm_ext_iff_of_nodup (s.nodup _) (by simpa using hab)).2 (fun x => by rw [s.mem, hS]; simp)
  match hl : s.enum S with
  | [] => rw [hl] at hp; simpa using hp.length_eq
  | [_] => rw [hl] at hp; simpa using hp.length_eq
  | [x, y] =>
    rw [hl] at hp
    have hx : x = a ∨ x = b := by simpa using hp.subset (List.mem_cons_self ..)
    have hy : y = a ∨ y = b := by simpa using hp.subset (List.mem_cons_of_mem _ (List.mem_cons_self ..))
    have hn : x ≠ y := by simpa using hp.nodup_iff.2 (by simpa using hab)
    rcases hx with rfl | rfl <;> rcases hy with rfl | rfl
    · exact absurd rfl hn
    · exact Or.inl rfl
    · exact Or.inr rfl
    · exact absurd rfl hn
  | _ :: _ :: _ :: _ => rw [hl] at hp; simpa using hp.length_eq

theorem exNamed_strings (o : Orders) : exNamed.setStrings o = [[], "x".toList] := by
  have hab : ({none} : PSet) ≠ {pX} := by decide
  have s1 : refineStep o [] {none} = [{none}] := by
    have : (([] : List PSet) ++ [{none}]).toFinset = {{none}} := by decide
    simp only [refineStep, splitLoop, this, enum_one]; decide
  have s2 : refineStep o [{none}] {none} = [{none}] := by
    have e : splitLoop [({none} : PSet)] {none} = ([{none}], {none}) := by decide
    have : (([{none}] : List PSet) ++ [{none}]).toFinset = {{none}} := by decide
    simp only [refineStep, e, this, enum_one]; decide
  have s3 : refineStep o [{none}] {pX} = [{none}, {pX}] ∨ refineStep o [{none}] {pX} = [{pX}, {none}] := by
    have e : splitLoop [({none} : PSet)] {pX} = ([{none}], {pX}) := by decide
    rcases enum_two o.sets hab (([{none}] : List PSet) ++ [{pX}]).toFinset (by decide) with h | h
    · left; simp only [refineStep, e, h]; decide
    · right; simp only [refineStep, e, h]; decide
  have s4 : ∀ L : List PSet, L = [{none}, {pX}] ∨ L = [{pX}, {none}] →
      refineStep o L {none} = [{none}, {pX}] ∨ refineStep o L {none} = [{pX}, {none}] := by
    rintro L (rfl | rfl)
    · have e : splitLoop [({none} : PSet), {pX}] {none} = ([{none}, {pX}], {none}) := by decide
      rcases enum_two o.sets hab (([{none}, {pX}] : List PSet) ++ [{none}]).toFinset (by decide) with h | h
      · left; simp only [refineStep, e, h]; decide
      · right; simp only [refineStep, e, h]; decide
    · have e : splitLoop [({pX} : PSet), {none}] {none} = ([{pX}, {none}], {none}) := by decide
      rcases enum_two o.sets hab (([{pX}, {none}] : List PSet) ++ [{none}]).toFinset (by decide) with h | h
      · left; simp only [refineStep, e, h]; decide
      · right; simp only [refineStep, e, h]; decide
  have hx : setString o {pX} = "x".toList := by
    have hn : (none : Prof) ∉ ({pX} : PSet) := by decide
    unfold setString
    rw [if_neg hn, enum_one]
    decide +kernel
  have hn : setString o {none} = [] := by
    unfold setString
    rw [if_pos (by decide)]
  have hl : exNamed.setList o = [{none}, {pX}] ∨ exNamed.setList o = [{pX}, {none}] := by
    have : exNamed.setList o = refineStep o (refineStep o (refineStep o (refineStep o (refineStep o (refineStep o [] {none}) {none}) {none})
        {pX}) {none}) {none} := rfl
    rw [this, s1, s2, s2]
    exact s4 _ (s4 _ s3)
  unfold Item.setStrings
  rcases hl with h | h <;> rw [h] <;> simp only [List.map_cons, List.map_nil, hx, hn] <;> decide +kernel

/-- what the section holds once the CPU has a name and a description -/
def exNamedItems : List Elem :=
  match mapE (exNamed.genItem exEnvL (itemTag .v1)) [[], "x".toList] with
  | .ok l => l
  | .error _ => []

theorem exNamed_written (o : Orders) : updateXml exEnvL o [("1".toList, exNamed)] (exHwSec [exCpuElem none "1", exCpuElem (some "x") "4"]) =
    .ok (exHwSec exNamedItems) := by
  have h1 : hwModified exEnvL.ver [("1".toList, exNamed)] (exHwSec [exCpuElem none "1", exCpuElem (some "x") "4"]) ≠ false := by decide
  have h2 : naturalSort (dkeys [("1".toList, exNamed)]) = ["1".toList] := by rfl
  unfold updateXml
  rw [if_neg h1, h2]
  have h3 : dget? [("1".toList, exNamed)] "1".toList = some exNamed := rfl
  have h4 : itemTagForNamespace exEnvL.ver exNamed.ns = .ok (itemTag .v1) := rfl
  simp only [emitHw, h3, Item.generateItems, h4, exNamed_strings]
  rfl

theorem exNamed_saved (o : Orders) : ∃ files', saveTree { exCtx with env := exEnvL } o exCap
    (exWhole "1" "7" [] [exCpuElem none "1", exCpuElem (some "x") "4"])
    ⟨.v1, .mk (ovfTag .v1 "References".toList) [] none none [exFileE "vmdk".toList "d.vmdk".toList "1".toList],
     some (.mk (ovfTag .v1 "DiskSection".toList) [] none none [exDiskE "vmdisk1".toList "vmdk".toList "7".toList]), none, none,
     .mk (ovfTag .v1 "VirtualSystem".toList) [] none none [exHwSec [exCpuElem none "1", exCpuElem (some "x") "4"]], none, none,
     exHwSec [exCpuElem none "1", exCpuElem (some "x") "4"]⟩
    [("1".toList, exNamed)] exWholeFiles = .ok (exWhole "1" "7" [] exNamedItems, files') := by
  unfold saveTree
  dsimp only
  rw [exNamed_written]
  exact ⟨_, rfl⟩

/-- the CPU is given a name and a description, and the package is saved, written, read and told about -/
example (o : Orders) (py : EtVer) : ∃ s t parts2 hw2, writeXml py etDefault (exWhole "1" "7" [] exNamedItems) = .ok s ∧
    parseXml s = some t ∧ openDescriptor t = .ok parts2 ∧ loadHardware exEnvL parts2.hardware = .ok hw2 ∧
    ∀ (w : InfoWorld) (vm : InfoVM) (lines : List Str), vm.env = exEnvL → vm.pkg.hw = hw2 → KeepsInk w.wrapBreak →
      infoProfiles w vm .brief = .ok lines →
      ∃ row rest, lines[2]? = some row ∧ ProfileRow { vm with pkg := { vm.pkg with hw := [("1".toList, exNamed)] } } pX row ∧
        splitWs row = "x".toList :: "(default)".toList :: "4".toList :: rest := by
  have hl : loadHardware exEnvL (exHwSec [exCpuElem none "1", exCpuElem (some "x") "4"]) =
      .ok (exLoaded [(.str "1".toList, {none}), (.str "4".toList, {pX})]) := by rfl
  have hst : ∀ id it, (id, it) ∈ [("1".toList, exNamed)] → Storable exEnvL id it := by
    intro id it h
    simp only [List.mem_singleton, Prod.mk.injEq] at h
    obtain ⟨rfl, rfl⟩ := h
    exact exNamed_storable
  obtain ⟨files', hs⟩ := exNamed_saved o
  obtain ⟨s, t, parts2, hw2, h1, h2, h3, h4, h5⟩ := C124_hardware_partial (c := { exCtx with env := exEnvL }) (py := py)
    (root := exWhole "1" "7" [] [exCpuElem none "1", exCpuElem (some "x") "4"]) rfl rfl (by decide) hl exOld_edited exNew_wf hst
    exEnvL_literal hs etDefault_good (writableB_sound _ (by decide +kernel)) (by simp [exWhole, Elem.tail]) (by
      intro parts' hp
      have e : (openDescriptor (exWhole "1" "7" [] exNamedItems)).map (·.hardware) = .ok (exHwSec exNamedItems) := by rfl
      rw [hp] at e
      rw [show parts'.hardware = exHwSec exNamedItems from Except.ok.inj e]
      unfold PlainItem
      exact of_decide_eq_true (by decide +kernel))
  refine ⟨s, t, parts2, hw2, h1, h2, h3, h4, ?_⟩
  intro w vm lines e1 e2 hk hlines
  obtain ⟨head, rule, profiles, blocks, rfl, i2, i3⟩ := h5 w vm .brief lines e1 e2 hk hlines
  have hp : profiles = [pX, pY] := by
    rcases i2 with ⟨rfl, -⟩ | ⟨hc, -⟩
    · rfl
    · cases hc
  subst hp
  obtain ⟨row, labels, hb, hr⟩ : ∃ row labels, blocks.flatten = row :: labels ∧
      ProfileRow { vm with pkg := { vm.pkg with hw := [("1".toList, exNamed)] } } pX row := by
    rcases i3 with _ | ⟨⟨row, labels, rfl, hr⟩, -⟩
    exact ⟨row, _, rfl, hr⟩
  have hd : ∀ it, DeviceUnder exEnvL [("1".toList, exNamed)] "3".toList pX it → it = exNamed := by
    rintro it ⟨⟨id, hid⟩, -⟩
    have := dget?_mem hid
    simp only [List.mem_singleton, Prod.mk.injEq] at this
    exact this.2
  refine ⟨row, ?_⟩
  obtain ⟨cpus, mem, cap, bytes, total, g1, g2, g3, g4, g5, g6⟩ := hr
  have hc : cpus = "4".toList := by
    rcases g1 with ⟨it, hd', hq⟩ | ⟨hn, -⟩ | ⟨-, ⟨it, hd', hq⟩, -⟩
    · rw [e1] at hd'
      cases hd it hd'
      rw [← getRaw_single exNamed_wf] at hq
      have : exNamed.getRaw virtualQuantity (some {pX}) = some (.str "4".toList) := rfl
      rw [this] at hq
      cases hq
      rfl
    · refine absurd ⟨⟨"1".toList, rfl⟩, ⟨{none}, rfl⟩, ?_⟩ (hn exNamed)
      rw [e1]
      decide
    · rw [e1] at hd'
      cases hd it hd'
      refine absurd ?_ (hq (.str "4".toList))
      rw [← getRaw_single exNamed_wf]
      rfl
  subst hc
  have g6' := g6
  dsimp only at g6'
  rw [e1] at g6'
  refine ⟨splitWs mem ++ ["0".toList, "0".toList, "0".toList, "/".toList] ++ splitWs cap, by rw [hb]; rfl,
    ⟨_, mem, cap, bytes, total, g1, g2, g3, g4, g5, g6⟩, g6'.trans ?_⟩
  rw [show countOf exEnvL [("1".toList, exNamed)] "10".toList pX = 0 by decide +kernel,
    show countOf exEnvL [("1".toList, exNamed)] "21".toList pX = 0 by decide +kernel,
    show countOf exEnvL [("1".toList, exNamed)] "17".toList pX = 0 by decide +kernel]
  rfl

end Cot
