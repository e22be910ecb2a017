import Verif.Lemmas.Sections
/-
C44 (transports and system types), C59 (product fields), C45 and C60 (networks).
-/
namespace Cot

/-! ### C44 -/

theorem splitOnChar_free (c : Char) : ∀ (s : Str), ∀ x ∈ splitOnChar c s, c ∉ x
  | [], x, h => by simp [splitOnChar] at h; subst h; simp
  | d :: t, x, h => by
    have ih := splitOnChar_free c t
    unfold splitOnChar at h
    split at h
    · rcases List.mem_cons.1 h with rfl | h
      · simp
      · exact ih x h
    · rename_i hne
      split at h
      · simp at h; subst h; simpa using Ne.symm hne
      · rename_i a r hs
        rw [hs] at ih
        rcases List.mem_cons.1 h with rfl | h
        · have := ih a (by simp)
          simp only [List.mem_cons, not_or]
          exact ⟨Ne.symm hne, this⟩
        · exact ih x (by simp [h])

theorem joinWith_eq_nil {c : Char} : ∀ {L : List Str}, joinWith [c] L = [] ↔ L = [] ∨ L = [[]]
  | [] => by simp [joinWith]
  | [x] => by simp [joinWith]
  | x :: y :: t => by simp [joinWith]

/-- what is read back after joining with spaces -/
theorem splitList_join (L : List Str) :
    (splitList (some (joinWith [' '] L)) = some L ↔ SpaceSafe L) ∧
    (splitList (some (joinWith [' '] L)) = none ↔ L = [] ∨ L = [[]]) := by
  cases h : joinWith [' '] L with
  | nil =>
    have hL := joinWith_eq_nil.1 h
    refine ⟨⟨fun hh => (by cases hh), fun hs => ?_⟩, ⟨fun _ => hL, fun _ => rfl⟩⟩
    rcases hL with hL | hL
    · exact absurd hL hs.1
    · exact absurd hL hs.2.1
  | cons a s =>
    have hL : ¬ (L = [] ∨ L = [[]]) := fun hL => by rw [joinWith_eq_nil.2 hL] at h; cases h
    refine ⟨?_, ⟨fun hh => (by cases hh), fun hh => absurd hh hL⟩⟩
    change some (splitOnChar ' ' (a :: s)) = some L ↔ _
    rw [← h]
    constructor
    · intro hh
      have hh' := Option.some.inj hh
      refine ⟨fun e => hL (Or.inl e), fun e => hL (Or.inr e), fun x hx => ?_⟩
      rw [← hh'] at hx
      exact splitOnChar_free _ _ x hx
    · rintro ⟨h1, -, h3⟩
      rw [splitOnChar_join ' ' L h1 h3]

/-- **C44 (transports).** Setting the transports (OVF 1 and 2) reads back as the same list exactly if the list
can be told apart when written with spaces; an empty list reads back as None; nothing else in the section
changes. -/
theorem C44_transports {v : Ver} (hv : v ≠ .v0) (h : Elem) (L : List Str) :
    ∃ h', setTransports v (some h) L = .ok h' ∧
      (getTransports v (some h') = some L ↔ SpaceSafe L) ∧
      (getTransports v (some h') = none ↔ L = [] ∨ L = [[]]) ∧
      h'.tag = h.tag ∧ h'.children = h.children ∧ (∀ k, k ≠ ovfTag v "transport".toList → h'.get k = h.get k) := by
  refine ⟨h.set (transportAttr v) (joinWith [' '] L), by cases v <;> first | rfl | exact absurd rfl hv, ?_, ?_,
    set_tag _ _ _, set_children _ _ _, fun k hk => ?_⟩
  · have : getTransports v (some (h.set (transportAttr v) (joinWith [' '] L))) =
        splitList ((h.set (transportAttr v) (joinWith [' '] L)).get (transportAttr v)) := by
      cases v <;> first | rfl | exact absurd rfl hv
    rw [this, set_get, if_pos rfl]
    exact (splitList_join L).1
  · have : getTransports v (some (h.set (transportAttr v) (joinWith [' '] L))) =
        splitList ((h.set (transportAttr v) (joinWith [' '] L)).get (transportAttr v)) := by
      cases v <;> first | rfl | exact absurd rfl hv
    rw [this, set_get, if_pos rfl]
    exact (splitList_join L).2
  · have hk' : ¬ transportAttr v = k := Ne.symm hk
    rw [set_get, if_neg hk']

/-- **C44 (OVF 0.9).** Transports are not supported there. -/
theorem C44_transports_v0 (h : Option Elem) (L : List Str) :
    setTransports .v0 h L = .error .notImplementedError ∧ getTransports .v0 h = none := ⟨rfl, rfl⟩

/-- **C44 (names on the command line).** The three short names stand for their transports, everything else is
taken literally, in the given order. -/
theorem C44_known (L : List Str) :
    cliTransports L = L.map (fun x =>
      if x = "iso".toList then "iso".toList
      else if x = "vmware".toList then "com.vmware.guestInfo".toList
      else if x = "ibm".toList then "http://www.ibm.com/xmlns/ovf/transport/filesystem/etc/ovf-transport".toList
      else x) := by
  unfold cliTransports
  congr 1
  funext x
  unfold knownTransports
  by_cases h1 : x = "iso".toList
  · subst h1; rfl
  by_cases h2 : x = "vmware".toList
  · subst h2; rfl
  by_cases h3 : x = "ibm".toList
  · subst h3; rfl
  rw [if_neg h1, if_neg h2, if_neg h3]
  simp only [dget?]
  rw [if_neg (Ne.symm h1), if_neg (Ne.symm h2), if_neg (Ne.symm h3)]
  rfl

theorem mapFirst_tag (p : Elem) (t : Str) (f : Elem → Elem) :
    p.setChildren (mapFirst (fun c => c.tag == t) f p.children) = updateFirst p t [] f := by
  unfold updateFirst
  congr 2
  funext c
  simp [attribMatch]

theorem newSystem_kids (v : Ver) : kids (newSystem v) vstTag = [] := by
  cases v <;> rfl

theorem newSystem_tag (v : Ver) : (newSystem v).tag = systemTag v := by
  cases v <;> rfl

/-- **C44 (system types).** The same for the virtual system types, which are kept in the VirtualSystemType of
the System element; a System that is missing is created; everything else stays as it was. -/
theorem C44_types (v : Ver) (h : Elem) (L : List Str) (h1 : (kids h (ovfTag v "System".toList)).length ≤ 1)
    (h2 : ∀ s ∈ kids h (ovfTag v "System".toList), (kids s vstTag).length ≤ 1) :
    ∃ h' s', setSystemTypes v (some h) L = .ok h' ∧
      (getSystemTypes v (some h') = some L ↔ SpaceSafe L) ∧
      (getSystemTypes v (some h') = none ↔ L = [] ∨ L = [[]]) ∧
      SameButKids (ovfTag v "System".toList) h h' ∧ kids h' (ovfTag v "System".toList) = [s'] ∧
      (∀ s, kids h (ovfTag v "System".toList) = [s] → SameButKids vstTag s s') := by
  have hget : ∀ h' s', kids h' (ovfTag v "System".toList) = [s'] → TextIs s' vstTag (some (joinWith [' '] L)) →
      getSystemTypes v (some h') = splitList (some (joinWith [' '] L)) := by
    intro h' s' hk ht
    unfold getSystemTypes
    have : findFirst h' (systemTag v) = some s' := by
      rw [findFirst_eq]
      change (kids h' (ovfTag v "System".toList)).head? = _
      rw [hk]; rfl
    simp only
    rw [this]
    change splitList (findText s' vstTag) = _
    rw [textIs_findText ht]
  match hk : kids h (ovfTag v "System".toList), h1, h2 with
  | [s], _, h2 =>
    obtain ⟨s', c, e1, e2, e3, e4, e5, -⟩ := setText_spec (x := joinWith [' '] L) (o := []) (h2 s (by simp))
    have hst : s.tag = ovfTag v "System".toList := kids_tag (by rw [hk]; simp)
    have u := updateFirst_spec hk (s' := s') (e2.1.trans hst)
    have hset : setSystemTypes v (some h) L = .ok (updateFirst h (ovfTag v "System".toList) [] (fun _ => s')) := by
      unfold setSystemTypes
      have : findFirst h (systemTag v) = some s := by
        rw [findFirst_eq]
        change (kids h (ovfTag v "System".toList)).head? = _
        rw [hk]; rfl
      simp only
      rw [this]
      simp only
      rw [e1]
      simp only
      rw [mapFirst_tag]
      rfl
    refine ⟨_, s', hset, ?_, ?_, u.2, u.1, ?_⟩
    · rw [hget _ _ u.1 e5]; exact (splitList_join L).1
    · rw [hget _ _ u.1 e5]; exact (splitList_join L).2
    · intro s0 hs0
      cases hs0
      exact e2
  | [], _, _ =>
    obtain ⟨s', c, e1, e2, e3, e4, e5, -⟩ := setText_spec (p := newSystem v) (t := vstTag) (x := joinWith [' '] L) (o := [])
      (by rw [newSystem_kids]; simp)
    have hst : s'.tag = ovfTag v "System".toList := e2.1.trans (newSystem_tag v)
    obtain ⟨pre, post, f1, f2, -, -⟩ := C27_add_child h s' [infoTag v, systemTag v, itemTag v]
    have hpp : kids h (ovfTag v "System".toList) = pre.filter (fun c => decide (c.tag = ovfTag v "System".toList)) ++
        post.filter (fun c => decide (c.tag = ovfTag v "System".toList)) := by
      unfold kids; rw [f1, List.filter_append]
    rw [hk, eq_comm, List.append_eq_nil_iff] at hpp
    have hkids : kids (addChild h s' [infoTag v, systemTag v, itemTag v]) (ovfTag v "System".toList) = [s'] := by
      unfold kids
      rw [f2]
      change (pre ++ s' :: post).filter _ = _
      rw [List.filter_append, List.filter_cons, if_pos (by simpa using hst), hpp.1, hpp.2]
      rfl
    have hset : setSystemTypes v (some h) L = .ok (addChild h s' [infoTag v, systemTag v, itemTag v]) := by
      unfold setSystemTypes
      have : findFirst h (systemTag v) = none := by
        rw [findFirst_eq]
        change (kids h (ovfTag v "System".toList)).head? = _
        rw [hk]; rfl
      simp only
      rw [this]
      simp only
      rw [e1]
    refine ⟨_, s', hset, ?_, ?_, ?_, hkids, by simp⟩
    · rw [hget _ _ hkids e5]; exact (splitList_join L).1
    · rw [hget _ _ hkids e5]; exact (splitList_join L).2
    · rw [f2]
      refine ⟨rfl, rfl, rfl, rfl, ?_⟩
      change (pre ++ s' :: post).filter _ = _
      rw [List.filter_append, List.filter_cons, if_neg (by simpa using hst), f1, List.filter_append]

/-- a hardware section with an Info and a System that has no VirtualSystemType yet -/
def exHws : Elem :=
  .mk (ovfTag .v1 "VirtualHardwareSection".toList) [] none none
    [.mk (infoTag .v1) [] (some "hw".toList) none [], newSystem .v1]

example : (kids exHws (ovfTag .v1 "System".toList)).length ≤ 1 ∧
    (∀ s ∈ kids exHws (ovfTag .v1 "System".toList), (kids s vstTag).length ≤ 1) ∧
    SpaceSafe ["vmx-07".toList, "vmx-08".toList] := by
  refine ⟨by decide +kernel, by decide +kernel, by decide, by decide, by decide⟩

/-! ### C59 -/

/-- the tags of the seven product fields -/
def FieldTagIs (v : Ver) : Field → Str → Prop
  | .product, t => t = ovfTag v "Product".toList
  | .vendor, t => t = ovfTag v "Vendor".toList
  | .version, t => t = ovfTag v "Version".toList
  | .fullVersion, t => t = ovfTag v "FullVersion".toList
  | .productUrl, t => t = ovfTag v "ProductUrl".toList
  | .vendorUrl, t => t = ovfTag v "VendorUrl".toList
  | .appUrl, t => t = ovfTag v "AppUrl".toList

theorem fieldTag_iff {v : Ver} {f : Field} {t : Str} : FieldTagIs v f t ↔ t = fieldTag v f := by
  cases f <;> exact Iff.rfl

theorem fieldTag_inj {v : Ver} {f g : Field} (h : fieldTag v f = fieldTag v g) : f = g := by
  cases f <;> cases g <;> first | rfl | exact absurd (List.append_cancel_left h) (by decide)

theorem section_tag {v : Ver} (hv : v ≠ .v0) (n : Str) : sectionTag v n = ovfTag v n := by
  cases v <;> first | rfl | exact absurd rfl hv

theorem section_attrib {v : Ver} (hv : v ≠ .v0) (n : Str) : sectionAttrib v n = [] := by
  cases v <;> first | rfl | exact absurd rfl hv

theorem findChild_kids {p s : Elem} {t : Str} (h : kids p t = [s]) : findChild p t [] false = .ok (some s) :=
  findChild_some.2 (by rw [findAll_nil]; exact h)

theorem findChild_no_kids {p : Elem} {t : Str} (h : kids p t = []) : findChild p t [] false = .ok none :=
  findChild_none.2 (by rw [findAll_nil]; exact h)

/-- A product section, if any, is the only one, and has each field at most once. -/
def ProductWF (v : Ver) (vs : Elem) : Prop :=
  (kids vs (ovfTag v "ProductSection".toList)).length ≤ 1 ∧
  ∀ s ∈ kids vs (ovfTag v "ProductSection".toList), ∀ f t, FieldTagIs v f t → (kids s t).length ≤ 1

theorem getField_of {v : Ver} (hv : v ≠ .v0) {vs s : Elem} (h : kids vs (ovfTag v "ProductSection".toList) = [s]) (f : Field) :
    getField v vs f = .ok (findText s (fieldTag v f)) := by
  unfold getField prodSec
  rw [section_tag hv, section_attrib hv, findChild_kids h]

theorem getField_none {v : Ver} (hv : v ≠ .v0) {vs : Elem} (h : kids vs (ovfTag v "ProductSection".toList) = []) (f : Field) :
    getField v vs f = .ok none := by
  unfold getField prodSec
  rw [section_tag hv, section_attrib hv, findChild_no_kids h]

theorem fieldTag_ne_info (v : Ver) (f : Field) : infoTag v ≠ fieldTag v f := by
  intro h
  cases f <;> exact absurd (List.append_cancel_left h) (by decide)

theorem newSection_kids {v : Ver} {t t' info : Str} (h : t' ≠ infoTag v) : kids (newSection v t [] info) t' = [] := by
  unfold kids newSection
  rw [List.filter_eq_nil_iff]
  intro c hc
  have hc' : c.tag = infoTag v := by
    have : c ∈ [(Elem.new (infoTag v)).setText (some info)] := hc
    rw [List.mem_singleton.1 this]; rfl
  rw [hc']
  simpa using Ne.symm h

/-- **C59.** Setting a product field (product, vendor, version, …) makes it read back as given; every other
field reads as before; apart from that field the product section, and apart from the product section the
virtual system, stay as they were. -/
theorem C59_fields {v : Ver} (hv : v ≠ .v0) {vs : Elem} (h : ProductWF v vs) (f : Field) (x : Str) :
    ∃ vs' s', setField v vs f x = .ok vs' ∧ getField v vs' f = .ok (some x) ∧
      (∀ g, g ≠ f → getField v vs' g = getField v vs g) ∧ ProductWF v vs' ∧
      SameButKids (ovfTag v "ProductSection".toList) vs vs' ∧ kids vs' (ovfTag v "ProductSection".toList) = [s'] ∧
      (∀ s t, kids vs (ovfTag v "ProductSection".toList) = [s] → FieldTagIs v f t → SameButKids t s s') := by
  obtain ⟨vs1, s, e1, e2, e3, e4⟩ := ensure_spec (v := v) "Product Information".toList h.1
  have hone : ∀ g, (kids s (fieldTag v g)).length ≤ 1 := by
    intro g
    rcases e4 with ⟨a, -⟩ | ⟨-, rfl⟩
    · exact h.2 s (by rw [a]; simp) g _ (fieldTag_iff.2 rfl)
    · rw [newSection_kids (Ne.symm (fieldTag_ne_info v g))]; simp
  obtain ⟨s', c, f1, f2, f3, f4, f5, -⟩ := setText_spec (x := x) (o := []) (hone f)
  have hst : s.tag = ovfTag v "ProductSection".toList := kids_tag (by rw [e2]; simp)
  have u := updateFirst_spec e2 (s' := s') (f2.1.trans hst)
  have hset : setField v vs f x = .ok (updateFirst vs1 (ovfTag v "ProductSection".toList) [] (fun _ => s')) := by
    unfold setField prodSec
    rw [section_tag hv, section_attrib hv, e1]
    simp only
    rw [findChild_kids e2]
    simp only
    rw [f1]
  have hother : ∀ g, g ≠ f → kids s' (fieldTag v g) = kids s (fieldTag v g) := fun g hg =>
    f2.kids (fun hh => hg (fieldTag_inj hh))
  refine ⟨_, s', hset, ?_, ?_, ⟨?_, ?_⟩, e3.trans u.2, u.1, ?_⟩
  · rw [getField_of hv u.1, textIs_findText f5]
  · intro g hg
    rw [getField_of hv u.1]
    have ht : findText s' (fieldTag v g) = findText s (fieldTag v g) := by
      unfold findText; rw [findFirst_eq, findFirst_eq, hother g hg]
    rw [ht]
    rcases e4 with ⟨a, -⟩ | ⟨a, rfl⟩
    · rw [getField_of hv a]
    · rw [getField_none hv a]
      unfold findText
      rw [findFirst_eq, newSection_kids (Ne.symm (fieldTag_ne_info v g))]; rfl
  · rw [u.1]; simp
  · intro s0 hs0 g t ht
    rw [u.1, List.mem_singleton] at hs0
    subst hs0
    rw [fieldTag_iff.1 ht]
    by_cases hg : g = f
    · subst hg; rw [f3]; simp
    · rw [hother g hg]; exact hone g
  · intro s0 t hs0 ht
    rcases e4 with ⟨a, -⟩ | ⟨a, -⟩
    · rw [hs0] at a
      cases a
      rw [fieldTag_iff.1 ht]; exact f2
    · rw [hs0] at a; cases a

example : ProductWF .v2 (.mk (virtualSystemTag .v2) [] none none
    [.mk (ovfTag .v2 "ProductSection".toList) [] none none [.mk (ovfTag .v2 "Vendor".toList) [] none none []]]) := by
  refine ⟨by decide +kernel, ?_⟩
  intro s hs f t ht
  rw [fieldTag_iff.1 ht]
  have : s = .mk (ovfTag .v2 "ProductSection".toList) [] none none [.mk (ovfTag .v2 "Vendor".toList) [] none none []] := by
    have hs' : s ∈ [Elem.mk (ovfTag .v2 "ProductSection".toList) [] none none [.mk (ovfTag .v2 "Vendor".toList) [] none none []]] := hs
    exact List.mem_singleton.1 hs'
  subst this
  cases f <;> decide +kernel

end Cot
