import Verif.Props.ProductShown
import Verif.Props.EditProperties
import Verif.Props.InfoReport
import Verif.Lemmas.WriteMain
/-
C124, continued: what edit-properties sets is what `cot info` tells of the package that was written.
-/
namespace Cot

/-- the document with another virtual system, in which the hardware section may have been exchanged -/
theorem open_put {root sys1 hw1 : Elem} {parts : Parts} (hopen : openDescriptor root = .ok parts) (hv0 : parts.version ≠ .v0)
    (ht : sys1.tag = parts.system.tag) (hh : kids sys1 (ovfTag parts.version "VirtualHardwareSection".toList) = [hw1])
    (hp : (kids sys1 (ovfTag parts.version "ProductSection".toList)).length ≤ 1)
    (ha : kids sys1 (ovfTag parts.version "AnnotationSection".toList) = kids parts.system (ovfTag parts.version "AnnotationSection".toList)) :
    ∃ po, openDescriptor (putSystem parts.version root sys1) = .ok { parts with system := sys1, product := po, hardware := hw1 } := by
  obtain ⟨env, o1, o2, o3, o4, o5, o6, o7, o8⟩ := (open_kids hv0).1 hopen
  have hvs : virtualSystemTag parts.version = ovfTag parts.version "VirtualSystem".toList := by
    cases hpv : parts.version <;> first | rfl | exact absurd hpv hv0
  obtain ⟨w1, w2⟩ := updateFirst_spec (s' := sys1) o2 (ht.trans (kids_tag (by rw [o2]; simp)))
  have hput : putSystem parts.version root sys1 = updateFirst root (ovfTag parts.version "VirtualSystem".toList) [] (fun _ => sys1) := by
    unfold putSystem; rw [hvs, section_attrib hv0]
  rw [← hput] at w1 w2
  obtain ⟨n1, n2, n3, n4⟩ : (ovfTag parts.version "References".toList ≠ ovfTag parts.version "VirtualSystem".toList) ∧
      (ovfTag parts.version "DiskSection".toList ≠ ovfTag parts.version "VirtualSystem".toList) ∧
      (ovfTag parts.version "NetworkSection".toList ≠ ovfTag parts.version "VirtualSystem".toList) ∧
      (ovfTag parts.version "DeploymentOptionSection".toList ≠ ovfTag parts.version "VirtualSystem".toList) := by
    cases parts.version <;> decide +kernel
  obtain ⟨po, hpo⟩ : ∃ po : Option Elem, kids sys1 (ovfTag parts.version "ProductSection".toList) = po.toList := by
    cases hk : kids sys1 (ovfTag parts.version "ProductSection".toList) with
    | nil => exact ⟨none, rfl⟩
    | cons a r =>
      rw [hk] at hp
      cases r with
      | nil => exact ⟨some a, rfl⟩
      | cons => simp at hp
  refine ⟨po, (open_kids (p := { parts with system := sys1, product := po, hardware := hw1 }) hv0).2
      ⟨?_, (w2.kids n1).trans o1, w1, hh, (w2.kids n2).trans o4, (w2.kids n3).trans o5, (w2.kids n4).trans o6, hpo, ha.trans o8⟩⟩
  unfold IsEnvelope at env ⊢
  rw [w2.1]; exact env

/-- what is read after saving: the product section is that of the package, and the hardware section has the same attributes -/
theorem written_again {c : Ctx} {o : Orders} {capOf : Str → Except Err Nat} {root root' : Elem} {parts : Parts} {hw : Hw}
    {files files' : List (Str × FRef)} {py : EtVer} {reg : List (Str × Str)} (hopen : openDescriptor root = .ok parts)
    (hv : c.env.ver = parts.version) (hv0 : parts.version ≠ .v0) (h : saveTree c o capOf root parts hw files = .ok (root', files'))
    (hreg : GoodPrefixes reg) (hwr : XmlWritable py root') (htl : ∀ ch ∈ root'.tail.getD [], xmlWs ch = true) :
    ∃ s t parts2, writeXml py reg root' = .ok s ∧ parseXml s = some t ∧ openDescriptor t = .ok parts2 ∧ parts2.version = parts.version ∧
      List.Forall₂ SameContent (kids parts.system (ovfTag parts.version "ProductSection".toList))
        (kids parts2.system (ovfTag parts.version "ProductSection".toList)) ∧
      parts2.hardware.attrib = parts.hardware.attrib := by
  obtain ⟨s, t, p1, p2, p3⟩ := C119_saved_partial hreg hwr htl
  obtain ⟨parts', h1, h2, -, -, -, -, h3, h4, -⟩ := C115_reopen hopen hv hv0 h
  obtain ⟨parts2, f1, f2, -, -, -, -, f3, -, -, f4⟩ := C119_opens p3 h1
  have n7 : (ovfTag parts.version "ProductSection".toList ≠ ovfTag parts.version "VirtualHardwareSection".toList) := by
    cases parts.version <;> decide +kernel
  refine ⟨s, t, parts2, p1, p2, f1, f2.trans h2, ?_, f4.facts.2.1.trans h4.2.1⟩
  rw [← h3.kids n7]
  have := findAll_same f3 (ovfTag parts.version "ProductSection".toList) []
  rw [findAll_nil, findAll_nil] at this
  exact this

theorem propsOf_kids {v : Ver} (hv : v ≠ .v0) {vs : Elem} {es : List Elem} (h : IsProperties v vs es) :
    (kids vs (ovfTag v "ProductSection".toList) = [] ∧ es = []) ∨
    ∃ s, kids vs (ovfTag v "ProductSection".toList) = [s] ∧ es = s.children.filter (fun e => e.tag == propertyTag v) := by
  rcases h with ⟨h | h, rfl⟩ | ⟨-, s, h1, h2⟩
  · exact absurd h hv
  · exact Or.inl ⟨by rw [← sectionsOf_kids hv]; exact h, rfl⟩
  · exact Or.inr ⟨s, by rw [← sectionsOf_kids hv]; exact h1, h2⟩

theorem get_same {a b : Elem} (h : SameContent a b) (k : Str) : b.get k = a.get k := by
  unfold Elem.get
  rw [h.facts.2.1]

theorem mem_flatten_split {α : Type} {x : List α} : ∀ {l : List (List α)}, x ∈ l → ∃ a b, l.flatten = a ++ x ++ b
  | [], h => by cases h
  | y :: r, h => by
    rcases List.mem_cons.1 h with rfl | h
    · exact ⟨[], r.flatten, by simp⟩
    · obtain ⟨a, b, e⟩ := mem_flatten_split h
      exact ⟨y ++ a, b, by simp [e]⟩

/-- a property of the package is told of the package that was read, with the same attributes -/
theorem told_again {v : Ver} (hv : v ≠ .v0) {vs vs2 : Elem} {key : Str} {p : Elem} (hp : PropIs v vs key p)
    (hs : List.Forall₂ SameContent (kids vs (ovfTag v "ProductSection".toList)) (kids vs2 (ovfTag v "ProductSection".toList)))
    {w : InfoWorld} {vm : InfoVM} {vb : Verbosity} {lines : List Str} (hver : vm.env.ver = v) (hvs : vm.vs = vs2)
    (h : infoProperties w vm vb = .ok lines) : ∃ p2, SameContent p p2 ∧ ToldProp v vb p2 lines := by
  obtain ⟨es, h1, h2, h3⟩ := C93_properties h
  rw [hver, hvs] at h1
  rw [hver] at h3
  obtain ⟨sec, e1, e2⟩ := hp
  have e1' : kids vs (ovfTag v "ProductSection".toList) = [sec] := e1
  rw [e1'] at hs
  have hpm : p ∈ sec.children.filter (fun e => e.tag == propertyTag v) := by
    have : p ∈ sec.children.filter (fun e => e.tag = ovfTag v "Property".toList ∧ e.get (ovfTag v "key".toList) = some key) := by
      rw [e2]; simp
    rw [List.mem_filter, decide_eq_true_eq] at this
    exact List.mem_filter.2 ⟨this.1, beq_iff_eq.2 this.2.1⟩
  rcases propsOf_kids hv h1 with ⟨g1, -⟩ | ⟨s, g1, g2⟩
  · rw [g1] at hs; cases hs
  · rw [g1] at hs
    cases hs with
    | cons hs _ =>
      have hf : List.Forall₂ SameContent (sec.children.filter (fun e => e.tag == propertyTag v)) es := by
        rw [g2]
        exact forall₂_filter (R := SameContent) (fun x y hxy => by rw [hxy.facts.1]) hs.facts.2.2.2.forall₂
      obtain ⟨p2, m2, hsame⟩ := forall₂_mem_left hf p hpm
      refine ⟨p2, hsame, ?_⟩
      obtain ⟨wide, head, blocks, -, k1, -, k2⟩ := h3 (by rintro rfl; cases m2)
      obtain ⟨block, m3, k3⟩ := forall₂_mem_left k2 p2 m2
      obtain ⟨a, b, k4⟩ := mem_flatten_split m3
      exact ⟨wide, head :: a, block, b, by rw [k1, k4]; simp, k3⟩

/-- a text of an element is read back, if it is all that its element has in it -/
theorem text_again {a b : Elem} (h : SameContent a b) {tag x : Str} (ht : TextIs a tag (some x))
    (hc : ∀ c ∈ kids b tag, c.children = []) : firstText b tag = x := by
  rcases ht with ⟨h1, -⟩ | ⟨c, h1, h2⟩
  · cases h1
  · have hf : List.Forall₂ SameContent (kids a tag) (kids b tag) :=
      forall₂_filter (R := SameContent) (fun x y hxy => by rw [hxy.facts.1]) h.facts.2.2.2.forall₂
    rw [h1] at hf
    cases hk : kids b tag with
    | nil => rw [hk] at hf; cases hf
    | cons c' r =>
      rw [hk] at hf
      cases hf with
      | cons hs ht =>
        cases ht
        have hcc : c.children = [] := by
          have h0 := hc c' (by rw [hk]; exact List.mem_cons_self ..)
          have h1 := hs.facts.2.2.2.forall₂
          rw [h0] at h1
          exact List.forall₂_nil_right_iff.1 h1
        unfold firstText childText
        have hb : b.children.filter (fun e => e.tag == tag) = [c'] := by
          rw [← hk]; exact List.filter_congr (fun x _ => by by_cases hx : x.tag = tag <;> simp [hx])
        rw [hb]
        have := hs.facts.2.2.1 hcc
        simp only [Option.some.injEq] at h2
        rw [h2]
        simp [this, asRead_getD]

theorem changes_nil {v : Ver} {uc : Option Bool} {o o' : Option Elem} (h : Changes v uc [] o o') : o' = o := by cases h; rfl

theorem changes_some {v : Ver} {uc : Option Bool} : ∀ {es : List PropEntry} {o o' : Option Elem}, es ≠ [] → Changes v uc es o o' → ∃ p, o' = some p := by
  intro es
  induction es with
  | nil => intro o o' h; exact absurd rfl h
  | cons e r ih =>
    intro o o' _ h
    cases h with
    | cons h1 h2 =>
      by_cases hr : r = []
      · subst hr; exact ⟨_, changes_nil h2⟩
      · exact ih hr h2

theorem propState_eq {v : Ver} {vs : Elem} {key : Str} {p : Elem} {o : Option Elem} (h : PropIs v vs key p) (h' : PropState v vs key o) :
    o = some p := by
  obtain ⟨sec, e1, e2⟩ := h
  have m1 : sec ∈ vs.children.filter (fun e => e.tag = ovfTag v "ProductSection".toList) := by rw [e1]; simp
  have m2 : p ∈ sec.children.filter (fun e => e.tag = ovfTag v "Property".toList ∧ e.get (ovfTag v "key".toList) = some key) := by
    rw [e2]; simp
  rw [List.mem_filter, decide_eq_true_eq] at m1 m2
  cases o with
  | none => exact absurd m2.2 (h' sec m1.1 m1.2 p m2.1)
  | some p' =>
    obtain ⟨sec', f1, f2⟩ := h'
    rw [e1] at f1; cases f1
    rw [e2] at f2; cases f2
    rfl

theorem propIs_kids {v : Ver} {a b : Elem} (h : kids b (ovfTag v "ProductSection".toList) = kids a (ovfTag v "ProductSection".toList))
    {key : Str} {p : Elem} (hp : PropIs v a key p) : PropIs v b key p := by
  obtain ⟨sec, e1, e2⟩ := hp
  exact ⟨sec, (show kids b _ = _ from h).trans e1, e2⟩

/-- **C124 (properties).** When edit-properties succeeds on a package of OVF 1.x or 2.x (other than by asking for values), and the
package is saved, and XML can hold what is saved, then it is written without error, and what was written can be read and opened.
`cot info` then tells, of each property whose last use on the command line gives a value, its key and this value, in the form
that its type demands, and the label and the description given with it; of each property that is not named it tells what there was (if no configuration file is given); and it
tells the transports that were given. -/
theorem C124_properties_partial {root : Elem} {parts : Parts} (hopen : openDescriptor root = .ok parts) (hv0 : parts.version ≠ .v0)
    (hp : PropsWF parts.version parts.system) {ask : Str → Bool} {force : Bool} {inp : List Str} {q : PropReq} {vs' : Elem}
    {hws' : Option Elem} (hq : q.config ≠ none ∨ q.props ≠ [] ∨ q.transports ≠ [])
    (hr : editProperties parts.version ask force inp q parts.system (some parts.hardware) = some (.ok (vs', hws'))) :
    ∃ hw1 parts1 es, hws' = some hw1 ∧ EntriesOf q es ∧
      openDescriptor (putSystem parts.version root (withHardware parts.version vs' hw1)) = .ok parts1 ∧ parts1.hardware = hw1 ∧
      ∀ c o capOf hw files root' files' py reg, c.env.ver = parts.version →
        saveTree c o capOf (putSystem parts.version root (withHardware parts.version vs' hw1)) parts1 hw files = .ok (root', files') →
        GoodPrefixes reg → XmlWritable py root' → (∀ ch ∈ root'.tail.getD [], xmlWs ch = true) →
        ∃ s t parts2, writeXml py reg root' = .ok s ∧ parseXml s = some t ∧ openDescriptor t = .ok parts2 ∧
          parts2.version = parts.version ∧
          ∀ (w : InfoWorld) (vm : InfoVM) (vb : Verbosity), 0 < w.width → vm.env.ver = parts2.version → vm.vs = parts2.system →
            vm.hws = some parts2.hardware →
            ∃ plines elines : List Str, infoProperties w vm vb = .ok plines ∧ infoEnvironment w vm = .ok elines ∧
              (∀ key pre e x, es.filter (fun e => e.key = key) = pre ++ [e] → e.value = some x →
                ∃ p y, p.get (ovfTag parts.version "key".toList) = some key ∧ p.get (valueAttr parts.version) = some y ∧
                  Converts (typeOf parts.version p) x y ∧ (∀ ty, e.ptype = some ty → typeOf parts.version p = ty) ∧
                  (∀ l, e.label = some l → (∀ c ∈ kids p (propLabel parts.version), c.children = []) →
                    firstText p (propLabel parts.version) = l) ∧
                  (∀ d, e.desc = some d → (∀ c ∈ kids p (propDesc parts.version), c.children = []) →
                    firstText p (propDesc parts.version) = d) ∧
                  ToldProp parts.version vb p plines) ∧
              (q.config = none → ∀ key p0, PropIs parts.version parts.system key p0 → (∀ e ∈ es, e.key ≠ key) →
                ∃ p, SameContent p0 p ∧ ToldProp parts.version vb p plines) ∧
              ((∃ x ∈ q.transports, x ≠ []) → ∃ (head : Str) (rest : List Str), elines = head :: rest ∧
                splitWs head = ["Environment:".toList] ∧
                rest.flatMap splitWs = ["Transport".toList, "types:".toList] ++ q.transports.flatMap splitWs) := by
  obtain ⟨env, o1, o2, o3, o4, o5, o6, o7, o8⟩ := (open_kids hv0).1 hopen
  obtain ⟨vs1, es, a1, a2, a3, a4, a5, ⟨conf, a6⟩, ⟨new, a7, -⟩⟩ := C84_properties hv0 hp hq hr
  obtain ⟨hw1, b1, b2, b3⟩ := C84_transports hv0 hq hr
  obtain ⟨n5, n6, n7⟩ :
      (ovfTag parts.version "VirtualHardwareSection".toList ≠ ovfTag parts.version "ProductSection".toList) ∧
      (ovfTag parts.version "AnnotationSection".toList ≠ ovfTag parts.version "ProductSection".toList) ∧
      (ovfTag parts.version "AnnotationSection".toList ≠ ovfTag parts.version "VirtualHardwareSection".toList) := by
    cases parts.version <;> decide +kernel
  have hsame : SameButKids (ovfTag parts.version "ProductSection".toList) parts.system vs' := a6.1.trans a7.1
  have htag : hw1.tag = ovfTag parts.version "VirtualHardwareSection".toList := by
    have h0 : parts.hardware.tag = ovfTag parts.version "VirtualHardwareSection".toList := kids_tag (by rw [o3]; simp)
    by_cases ht : q.transports = []
    · rw [b2 ht]; exact h0
    · rw [(b3 ht).2.1]; exact h0
  obtain ⟨u1, u2⟩ := updateFirst_spec ((hsame.kids n5).trans o3) htag
  have hkp : kids (withHardware parts.version vs' hw1) (ovfTag parts.version "ProductSection".toList) =
      kids vs' (ovfTag parts.version "ProductSection".toList) := u2.kids (Ne.symm n5)
  obtain ⟨po, hopen1⟩ := open_put (sys1 := withHardware parts.version vs' hw1) hopen hv0 (u2.1.trans hsame.1) u1
    (by rw [hkp]; exact a3.1) ((u2.kids n7).trans (hsame.kids n6))
  refine ⟨hw1, _, es, b1, a4, hopen1, rfl, ?_⟩
  intro c o capOf hw files root' files' py reg hv h hreg hwr htl
  obtain ⟨s, t, parts2, p1, p2, p3, p4, p5, p6⟩ := written_again hopen1 hv hv0 h hreg hwr htl
  refine ⟨s, t, parts2, p1, p2, p3, p4, ?_⟩
  intro w vm vb hwid hver hvs hhws
  rw [p4] at hver
  have hver : vm.env.ver = parts.version := hver
  obtain ⟨-, -, -, -, -, -, -, q7, -⟩ := (open_kids (p := parts2) (by rw [p4]; exact hv0)).1 p3
  rw [p4] at q7
  have hl1 : (sectionsOf vm.env.ver vm.vs "ProductSection".toList).length ≤ 1 := by
    rw [hver, hvs, sectionsOf_kids hv0]
    refine (congrArg List.length q7).trans_le ?_
    cases parts2.product <;> simp
  obtain ⟨⟨elines, he⟩, ⟨plines, hpl⟩⟩ := C93_completes (w := w) vb hwid hl1
  refine ⟨plines, elines, hpl, he, ?_, ?_, ?_⟩
  · intro key pre e x hes hx
    obtain ⟨o, o', c1, c2, c3⟩ := a5 key
    obtain ⟨p', rfl⟩ := changes_some (by rw [hes]; simp) c3
    obtain ⟨k1, k2, k3, k4⟩ := C84_last c3 hes
    obtain ⟨y, y1, y2, -⟩ := k1 x hx
    obtain ⟨p, hs, ht⟩ := told_again hv0 (propIs_kids hkp c2) p5 hver hvs hpl
    refine ⟨p, y, ?_, ?_, ?_, ?_, fun l hl hc => text_again hs (k3 l hl) hc, fun d hd hc => text_again hs (k4 d hd) hc, ht⟩
    · rw [get_same hs]
      obtain ⟨sec, -, e2⟩ := c2
      have : p' ∈ sec.children.filter (fun e => e.tag = ovfTag parts.version "Property".toList ∧
          e.get (ovfTag parts.version "key".toList) = some key) := by rw [e2]; simp
      rw [List.mem_filter, decide_eq_true_eq] at this
      exact this.2.2
    · rw [get_same hs]; exact y1
    · unfold typeOf at y2 ⊢
      rw [get_same hs]; exact y2
    · intro ty hty
      have := k2 ty hty
      unfold typeOf at this ⊢
      rw [get_same hs]; exact this
  · intro hc key p0 hp0 hne
    obtain ⟨o, o', c1, c2, c3⟩ := a5 key
    have : es.filter (fun e => e.key = key) = [] := by
      rw [List.filter_eq_nil_iff]
      intro e he
      simpa using hne e he
    rw [this] at c3
    have hvs1 : vs1 = parts.system := by
      rcases a1 with ⟨-, h⟩ | ⟨l, -, h, -⟩
      · exact h
      · rw [hc] at h; cases h
    rw [hvs1] at c1
    rw [changes_nil c3, propState_eq hp0 c1] at c2
    exact told_again hv0 (propIs_kids hkp c2) p5 hver hvs hpl
  · rintro ⟨x, hx, hxe⟩
    have hne : q.transports ≠ [] := by rintro h; rw [h] at hx; cases hx
    have htext : transportText vm.env.ver vm.hws = joinWith [' '] q.transports := by
      have hg : hw1.get (transportAttr parts.version) = some (joinWith [' '] q.transports) := by
        obtain ⟨-, -, -, -, h3⟩ := editProperties_inv hq hr
        unfold transportStep at h3
        rw [if_neg hne] at h3
        have hst : setTransports parts.version (some parts.hardware) q.transports =
            .ok (parts.hardware.set (transportAttr parts.version) (joinWith [' '] q.transports)) := by
          cases hpv : parts.version <;> first | rfl | exact absurd hpv hv0
        rw [hst, b1] at h3
        cases h3
        rw [set_get, if_pos rfl]
      rw [hver, hhws]
      have h5 : transportText parts.version (some parts2.hardware) = (parts2.hardware.get (transportAttr parts.version)).getD [] := by
        cases hpv : parts.version <;> first | rfl | exact absurd hpv hv0
      rw [h5]
      unfold Elem.get at hg ⊢
      have p6 : parts2.hardware.attrib = hw1.attrib := p6
      rw [p6, hg]
      rfl
    rcases C93_transports he with ⟨k1, -⟩ | ⟨-, head, rest, k2, k3, k4⟩
    · rw [htext] at k1
      exfalso
      obtain ⟨pre, post, hsp⟩ := List.append_of_mem hx
      have : ∀ l : List Str, x ∈ l → joinWith [' '] l ≠ [] := by
        intro l hl
        cases l with
        | nil => cases hl
        | cons a r =>
          cases r with
          | nil =>
            rw [List.mem_singleton] at hl
            subst hl
            exact hxe
          | cons b r' => simp [joinWith]
      exact this _ hx k1
    · refine ⟨head, rest, k2, k3, ?_⟩
      rw [k4, htext, splitWs_joinSp]

/-! ### Cases -/

/-- a request for a new property and for a transport -/
def exToldReq : PropReq := { props := [("ssh".toList, some "yes".toList, some "boolean".toList)], transports := ["iso".toList] }

/-- the property that it makes -/
def exToldProp : Elem := .mk (ovfTag .v1 "Property".toList)
  [(ovfTag .v1 "key".toList, "ssh".toList), (ovfTag .v1 "type".toList, "boolean".toList), (ovfTag .v1 "value".toList, "true".toList)] none none []

/-- the product section afterwards -/
def exToldSec : Elem := .mk (ovfTag .v1 "ProductSection".toList) [] none none [exText (fieldTag .v1 .product) "P Q".toList, exToldProp]

/-- the hardware section afterwards -/
def exToldHw : Elem := exShownHw.set (transportAttr .v1) "iso".toList

/-- the virtual system afterwards -/
def exToldSys (hw : Elem) : Elem := .mk (ovfTag .v1 "VirtualSystem".toList) [] none none [hw, exToldSec]

theorem exTold_edit : editProperties .v1 (fun _ => true) false [] exToldReq exShownSys (some exShownHw) =
    some (.ok (exToldSys exShownHw, some exToldHw)) := rfl

theorem exTold_put : putSystem .v1 (exShownWith exShownSys) (withHardware .v1 (exToldSys exShownHw) exToldHw) = exShownWith (exToldSys exToldHw) := rfl

theorem exTold_open : openDescriptor (exShownWith (exToldSys exToldHw)) =
    .ok { exShownParts (exToldSys exToldHw) (some exToldSec) with hardware := exToldHw } := rfl

theorem exTold_save : ∃ hw, loadHardware exEnv exToldHw = .ok hw ∧ ∀ o,
    (saveTree exCtx o exCap (exShownWith (exToldSys exToldHw)) { exShownParts (exToldSys exToldHw) (some exToldSec) with hardware := exToldHw } hw
      exWholeFiles).map Prod.fst = .ok (exShownWith (exToldSys exToldHw)) :=
  ⟨_, rfl, fun _ => rfl⟩

theorem exTold_wf : PropsWF .v1 exShownSys := by
  refine ⟨by decide +kernel, fun key => Or.inl ?_⟩
  intro sec hs _ p hp
  have : ∀ sec ∈ exShownSys.children, ∀ p ∈ sec.children, p.tag ≠ ovfTag .v1 "Property".toList := by decide +kernel
  exact fun h => this sec hs p hp h.1

/-- the request, from the descriptor before it to what is told after it was written and read again: the value is told as "true" -/
example (py : EtVer) (o : Orders) : ∃ s t parts2, writeXml py etDefault (exShownWith (exToldSys exToldHw)) = .ok s ∧ parseXml s = some t ∧
    openDescriptor t = .ok parts2 ∧
    ∀ (w : InfoWorld) (vm : InfoVM) (vb : Verbosity), 0 < w.width → vm.env.ver = parts2.version → vm.vs = parts2.system →
      vm.hws = some parts2.hardware → ∃ plines elines p, infoProperties w vm vb = .ok plines ∧ infoEnvironment w vm = .ok elines ∧
        p.get (ovfTag .v1 "key".toList) = some "ssh".toList ∧ p.get (valueAttr .v1) = some "true".toList ∧ ToldProp .v1 vb p plines ∧
        elines.flatMap splitWs = ["Environment:", "Transport", "types:", "iso"].map String.toList := by
  obtain ⟨hw, -, hsave⟩ := exTold_save
  obtain ⟨hw1, parts1, es, e1, e2, e3, -, e4⟩ := C124_properties_partial exShown_open (by decide) exTold_wf (q := exToldReq)
    (ask := fun _ => true) (force := false) (inp := []) (vs' := exToldSys exShownHw) (hws' := some exToldHw) (Or.inr (Or.inl (by decide))) exTold_edit
  cases e1
  have hput : putSystem (exShownParts exShownSys
    (some (.mk (ovfTag .v1 "ProductSection".toList) [] none none [exText (fieldTag .v1 .product) "P Q".toList]))).version
      (exShownWith exShownSys) (withHardware (exShownParts exShownSys
    (some (.mk (ovfTag .v1 "ProductSection".toList) [] none none [exText (fieldTag .v1 .product) "P Q".toList]))).version
       (exToldSys exShownHw) exToldHw) = exShownWith (exToldSys exToldHw) := exTold_put
  rw [hput] at e3 e4
  have e3' := Except.ok.inj (e3.symm.trans exTold_open)
  subst e3'
  have hes : es = [{ key := "ssh".toList, value := some "yes".toList, ptype := some "boolean".toList, label := none, desc := none }] := by
    obtain ⟨l1, l2⟩ := e2
    match es, l1, l2 with
    | [e], _, l2 =>
      obtain ⟨m1, m2, m3⟩ := l2 0 e rfl
      obtain ⟨k, v, t, l, d⟩ := e
      simp only [exToldReq, List.getElem?_cons_zero, List.getElem?_nil, Option.some.injEq, Prod.mk.injEq] at m1 m2 m3
      obtain ⟨r1, r2, r3⟩ := m1
      subst r1; subst r2; subst r3; subst m2; subst m3
      rfl
  have hs := hsave o
  cases hr : saveTree exCtx o exCap (exShownWith (exToldSys exToldHw)) { exShownParts (exToldSys exToldHw) (some exToldSec) with hardware := exToldHw } hw
      exWholeFiles with
  | error e => rw [hr] at hs; cases hs
  | ok r =>
    obtain ⟨root', files'⟩ := r
    rw [hr] at hs
    have hs' : root' = exShownWith (exToldSys exToldHw) := Except.ok.inj hs
    subst hs'
    obtain ⟨s, t, parts2, f1, f2, f3, f4, f5⟩ := e4 exCtx o exCap hw exWholeFiles _ files' py etDefault rfl hr etDefault_good
      (writableB_sound _ (by decide +kernel)) (by simp [exShownWith, Elem.tail])
    refine ⟨s, t, parts2, f1, f2, f3, ?_⟩
    intro w vm vb h1 h2 h3 h4
    obtain ⟨plines, elines, g1, g2, g3, -, g4⟩ := f5 w vm vb h1 h2 h3 h4
    obtain ⟨p, y, k1, k2, k3, k4, -, -, k5⟩ := g3 "ssh".toList [] _ "yes".toList (by rw [hes]; rfl) rfl
    obtain ⟨head, rest, m1, m2, m3⟩ := g4 ⟨"iso".toList, by simp [exToldReq], by decide⟩
    refine ⟨plines, elines, p, g1, g2, k1, ?_, k5, ?_⟩
    · rw [k4 _ rfl] at k3
      unfold Converts at k3
      rw [if_pos rfl] at k3
      rcases k3 with ⟨-, rfl⟩ | ⟨hf, -⟩
      · exact k2
      · exact absurd hf (by unfold FalseWord; decide +kernel)
    · rw [m1, List.flatMap_cons, m2, m3]
      decide +kernel

end Cot
