import Verif.Props.XmlText
import Verif.Props.SaveReopen
/-
C119, continued: what is read after saving is opened as the same descriptor.
-/
namespace Cot

theorem SameContent.facts {a b : Elem} (h : SameContent a b) :
    b.tag = a.tag ∧ b.attrib = a.attrib ∧ (a.children = [] → b.text = asRead a.text) ∧ SameContentL a.children b.children := by
  cases a; cases b
  simp only [SameContent] at h
  exact ⟨h.1.symm, h.2.1.symm, h.2.2.1, h.2.2.2⟩

theorem SameContentL.forall₂ : ∀ {l m : List Elem}, SameContentL l m → List.Forall₂ SameContent l m
  | [], [], _ => .nil
  | [], _ :: _, h => by simp [SameContentL] at h
  | _ :: _, [], h => by simp [SameContentL] at h
  | a :: l, b :: m, h => by
    simp only [SameContentL] at h
    exact .cons h.1 (SameContentL.forall₂ h.2)

theorem attribMatch_same {a b : Elem} (h : SameContent a b) (f : List (Str × Str)) : attribMatch b f = attribMatch a f := by
  have := h.facts
  unfold attribMatch Elem.get
  rw [this.2.1]

theorem forall₂_filter {α : Type} {R : α → α → Prop} {p : α → Bool} (hp : ∀ a b, R a b → p b = p a) :
    ∀ {l m : List α}, List.Forall₂ R l m → List.Forall₂ R (l.filter p) (m.filter p)
  | _, _, .nil => .nil
  | _, _, .cons (a := a) (b := b) h t => by
    rw [List.filter_cons, List.filter_cons, hp a b h]
    split
    · exact .cons h (forall₂_filter hp t)
    · exact forall₂_filter hp t

theorem findAll_same {a b : Elem} (h : SameContent a b) (tag : Str) (f : List (Str × Str)) :
    List.Forall₂ SameContent (findAllChildren a tag f) (findAllChildren b tag f) := by
  unfold findAllChildren
  exact forall₂_filter (fun x y hxy => by rw [attribMatch_same hxy, hxy.facts.1]) h.facts.2.2.2.forall₂

theorem findChild_same {a b : Elem} (h : SameContent a b) {tag : Str} {f : List (Str × Str)} {r : Bool} {x : Option Elem}
    (hx : findChild a tag f r = .ok x) : ∃ y, findChild b tag f r = .ok y ∧ SameOption x y := by
  have hf := findAll_same h tag f
  unfold findChild at hx ⊢
  generalize findAllChildren a tag f = l at hf hx
  generalize findAllChildren b tag f = m at hf
  cases hf with
  | nil =>
    dsimp only at hx ⊢
    split at hx
    · cases hx
    · rename_i hr
      cases hx
      rw [if_neg hr]
      exact ⟨none, rfl, trivial⟩
  | cons h1 h2 =>
    cases h2 with
    | nil => cases hx; exact ⟨_, rfl, h1⟩
    | cons h3 h4 => cases hx

theorem requireChild_same {a b : Elem} (h : SameContent a b) {tag : Str} {f : List (Str × Str)} {x : Elem}
    (hx : requireChild a tag f = .ok x) : ∃ y, requireChild b tag f = .ok y ∧ SameContent x y := by
  unfold requireChild at hx ⊢
  cases hc : findChild a tag f true with
  | error e => rw [hc] at hx; cases hx
  | ok o =>
    rw [hc] at hx
    cases o with
    | none => cases hx
    | some e =>
      cases hx
      obtain ⟨y, h1, h2⟩ := findChild_same h hc
      cases y with
      | none => exact absurd h2 (by simp [SameOption])
      | some y => exact ⟨y, by rw [h1], h2⟩

/-- **C119 (opens).** If a descriptor can be opened, then so can one with the same content: the version is the same, and each of the
sections is found again, with the same content. -/
theorem C119_opens {root t : Elem} {parts : Parts} (hs : SameContent root t) (h : openDescriptor root = .ok parts) :
    ∃ parts', openDescriptor t = .ok parts' ∧ parts'.version = parts.version ∧ SameContent parts.references parts'.references ∧
      SameOption parts.disks parts'.disks ∧ SameOption parts.networks parts'.networks ∧ SameOption parts.deployment parts'.deployment ∧
      SameContent parts.system parts'.system ∧ SameOption parts.product parts'.product ∧ SameOption parts.annotation parts'.annotation ∧
      SameContent parts.hardware parts'.hardware := by
  have htag := hs.facts.1
  have hv : ovfVersion t = ovfVersion root := by unfold ovfVersion; rw [htag]
  have hl : looksLikeOvf t = looksLikeOvf root := by unfold looksLikeOvf; rw [htag]
  unfold openDescriptor at h ⊢
  rw [hl, hv]
  split at h
  · rename_i hlook
    rw [if_pos hlook]
    obtain ⟨v, e0, h⟩ := bind_ok_inv h
    obtain ⟨r1, e1, h⟩ := bind_ok_inv h
    obtain ⟨r2, e2, h⟩ := bind_ok_inv h
    obtain ⟨r3, e3, h⟩ := bind_ok_inv h
    obtain ⟨r4, e4, h⟩ := bind_ok_inv h
    obtain ⟨r5, e5, h⟩ := bind_ok_inv h
    obtain ⟨r6, e6, h⟩ := bind_ok_inv h
    obtain ⟨r7, e7, h⟩ := bind_ok_inv h
    obtain ⟨r8, e8, h⟩ := bind_ok_inv h
    cases h
    obtain ⟨y1, f1, g1⟩ := requireChild_same hs e1
    obtain ⟨y2, f2, g2⟩ := findChild_same hs e2
    obtain ⟨y3, f3, g3⟩ := findChild_same hs e3
    obtain ⟨y4, f4, g4⟩ := findChild_same hs e4
    obtain ⟨y5, f5, g5⟩ := requireChild_same hs e5
    obtain ⟨y6, f6, g6⟩ := findChild_same g5 e6
    obtain ⟨y7, f7, g7⟩ := findChild_same g5 e7
    obtain ⟨y8, f8, g8⟩ := requireChild_same g5 e8
    refine ⟨⟨v, y1, y2, y3, y4, y5, y6, y7, y8⟩, ?_, rfl, g1, g2, g3, g4, g5, g6, g7, g8⟩
    rw [e0]
    show (requireChild t (ovfTag v "References".toList) [] >>= _) = _
    rw [f1]
    show (findChild t _ _ _ >>= _) = _
    rw [f2]
    show (findChild t _ _ _ >>= _) = _
    rw [f3]
    show (findChild t _ _ _ >>= _) = _
    rw [f4]
    show (requireChild t _ _ >>= _) = _
    rw [f5]
    show (findChild y5 _ _ _ >>= _) = _
    rw [f6]
    show (findChild y5 _ _ _ >>= _) = _
    rw [f7]
    show (requireChild y5 _ _ >>= _) = _
    rw [f8]
    rfl
  · cases h

/-! ### Hardware -/

/-- children of an Item that are read the same -/
def ReadSame (env : Env) (c c' : Elem) : Prop := c'.tag = c.tag ∧ childCalls env c' = childCalls env c ∧ c'.text = c.text

theorem forall₂_find? {α : Type} {R : α → α → Prop} {p : α → Bool} (hp : ∀ a b, R a b → p b = p a) :
    ∀ {l m : List α}, List.Forall₂ R l m → (l.find? p = none ∧ m.find? p = none) ∨ ∃ a b, l.find? p = some a ∧ m.find? p = some b ∧ R a b
  | _, _, .nil => Or.inl ⟨rfl, rfl⟩
  | _, _, .cons (a := a) (b := b) h t => by
    rw [List.find?_cons, List.find?_cons, hp a b h]
    cases p a with
    | true => exact Or.inr ⟨a, b, rfl, rfl, h⟩
    | false => exact forall₂_find? hp t

theorem forall₂_eraseP {α : Type} {R : α → α → Prop} {p : α → Bool} (hp : ∀ a b, R a b → p b = p a) :
    ∀ {l m : List α}, List.Forall₂ R l m → List.Forall₂ R (l.eraseP p) (m.eraseP p)
  | _, _, .nil => .nil
  | _, _, .cons (a := a) (b := b) h t => by
    rw [List.eraseP_cons, List.eraseP_cons, hp a b h]
    cases p a with
    | true => exact t
    | false => exact .cons h (forall₂_eraseP hp t)

theorem forall₂_append {α : Type} {R : α → α → Prop} : ∀ {l m l' m' : List α}, List.Forall₂ R l m → List.Forall₂ R l' m' →
    List.Forall₂ R (l ++ l') (m ++ m')
  | _, _, _, _, .nil, h => h
  | _, _, _, _, .cons h t, h' => .cons h (forall₂_append t h')

theorem forall₂_moveToEnd {env : Env} {q : Elem → Bool} (hq : ∀ a b : Elem, b.tag = a.tag → q b = q a) {l m : List Elem}
    (h : List.Forall₂ (ReadSame env) l m) : List.Forall₂ (ReadSame env) (moveToEnd q l) (moveToEnd q m) := by
  have hp : ∀ a b, ReadSame env a b → q b = q a := fun a b h => hq a b h.1
  unfold moveToEnd
  rcases forall₂_find? hp h with ⟨h1, h2⟩ | ⟨a, b, h1, h2, h3⟩
  · rw [h1, h2]; exact h
  · rw [h1, h2]; exact forall₂_append (forall₂_eraseP hp h) (.cons h3 .nil)

theorem forall₂_calls {env : Env} : ∀ {l m : List Elem}, List.Forall₂ (ReadSame env) l m → m.flatMap (childCalls env) = l.flatMap (childCalls env)
  | _, _, .nil => rfl
  | _, _, .cons h t => by rw [List.flatMap_cons, List.flatMap_cons, h.2.1, forall₂_calls t]

theorem plain_readSame {env : Env} {e e' : Elem} (h : SameContent e e') (hp : PlainItem env.ver e) :
    List.Forall₂ (ReadSame env) e.children e'.children := by
  have hk := h.facts.2.2.2.forall₂
  unfold PlainItem at hp
  generalize e.children = l at hk hp
  generalize e'.children = m at hk
  induction hk with
  | nil => exact .nil
  | cons h1 _ ih =>
    rename_i a b _ _ _
    refine .cons ?_ (ih (fun c hc => hp c (List.mem_cons_of_mem _ hc)))
    obtain ⟨p1, p2, p3⟩ := hp a (List.mem_cons_self ..)
    obtain ⟨f1, f2, f3, -⟩ := h1.facts
    have f4 : b.text = a.text := by
      rw [f3 p2]
      cases ht : a.text with
      | none => rw [asRead_eq]; simp
      | some s => exact asRead_some (by rintro rfl; exact p3 ht)
    refine ⟨f1, ?_, f4⟩
    unfold childCalls
    dsimp only
    rw [f1, if_neg (by simpa using p1), if_neg (by simpa using p1), f2, f4]

theorem addItem_same {env : Env} {e e' : Elem} (h : SameContent e e') (hp : PlainItem env.ver e) (it : Item) :
    it.addItem env e' = it.addItem env e := by
  have hr := plain_readSame h hp
  obtain ⟨f1, f2, -, -⟩ := h.facts
  have hc : addItemCalls env e' = addItemCalls env e := by
    unfold addItemCalls attribCalls orderedChildren
    rw [f2, forall₂_calls (forall₂_moveToEnd (fun a b hab => by rw [hab]) (forall₂_moveToEnd (fun a b hab => by rw [hab]) hr))]
  unfold Item.addItem elemProfiles Elem.get
  rw [f1, f2, hc]

theorem loadOne_same {env : Env} {e e' : Elem} (h : SameContent e e') (hp : isItemTag env.ver e.tag = true → PlainItem env.ver e) (hw : Hw) :
    loadOne env hw e' = loadOne env hw e := by
  obtain ⟨f1, f2, -, -⟩ := h.facts
  unfold loadOne
  rw [f1]
  cases hn : namespaceForItemTag env.ver e.tag with
  | none => rfl
  | some ns =>
    have hp' := hp (isItem_of_ns hn)
    have hr := plain_readSame h hp'
    dsimp only
    rcases forall₂_find? (p := fun c => c.tag == ns ++ instanceId env.ver) (fun a b hab => by rw [hab.1]) hr with ⟨h1, h2⟩ | ⟨a, b, h1, h2, h3⟩
    · rw [h1, h2]
    · rw [h1, h2]
      dsimp only
      have he : elemNames env.ver e' = elemNames env.ver e := by unfold elemNames Elem.get; rw [f2]
      rw [h3.2.2, he]
      simp only [addItem_same h hp']

theorem loadLoop_same {env : Env} : ∀ {l m : List Elem}, List.Forall₂ SameContent l m →
    (∀ e ∈ l, isItemTag env.ver e.tag = true → PlainItem env.ver e) → ∀ hw, loadLoop env m hw = loadLoop env l hw
  | _, _, .nil, _, _ => rfl
  | _, _, .cons h t, hp, hw => by
    rw [loadLoop, loadLoop, loadOne_same h (hp _ (List.mem_cons_self ..))]
    split
    · rfl
    · exact loadLoop_same t (fun e he => hp e (List.mem_cons_of_mem _ he)) _

/-- **C119 (hardware).** Sections with the same content, in which Items have only elements of the schema and no empty ones, are
read as the same hardware, or give the same error. -/
theorem C119_hardware_partial {env : Env} {s s' : Elem} (h : SameContent s s')
    (hp : ∀ e ∈ s.children, isItemTag env.ver e.tag = true → PlainItem env.ver e) : loadHardware env s' = loadHardware env s := by
  unfold loadHardware
  rw [loadLoop_same h.facts.2.2.2.forall₂ hp]

/-- **C119 (reopen).** From text to text: when a package that was opened is saved, and XML can hold what is saved, then it is
written without error, what was written can be read and opened, with the same version, and the hardware is what was saved. -/
theorem C119_reopen_partial {c : Ctx} {o : Orders} {capOf : Str → Except Err Nat} {root root' : Elem} {parts : Parts} {hw : Hw}
    {files files' : List (Str × FRef)} {py : EtVer} {reg : List (Str × Str)} (hopen : openDescriptor root = .ok parts)
    (hv : c.env.ver = parts.version) (hv0 : parts.version ≠ .v0) (h : saveTree c o capOf root parts hw files = .ok (root', files'))
    (hreg : GoodPrefixes reg) (hw' : XmlWritable py root') (ht : ∀ c ∈ root'.tail.getD [], xmlWs c = true) :
    ∃ s t parts' parts'', writeXml py reg root' = .ok s ∧ parseXml s = some t ∧ openDescriptor root' = .ok parts' ∧
      openDescriptor t = .ok parts'' ∧ parts''.version = parts.version ∧ SameContent parts'.hardware parts''.hardware ∧
      ((∀ e ∈ parts'.hardware.children, isItemTag c.env.ver e.tag = true → PlainItem c.env.ver e) →
        loadHardware c.env parts''.hardware = loadHardware c.env parts'.hardware) := by
  obtain ⟨s, t, h1, h2, h3⟩ := C119_saved_partial hreg hw' ht
  obtain ⟨parts', h4, h5, -⟩ := C115_reopen hopen hv hv0 h
  obtain ⟨parts'', h6, h7, -, -, -, -, -, -, -, h8⟩ := C119_opens h3 h4
  exact ⟨s, t, parts', parts'', h1, h2, h4, h6, h7.trans h5, h8, fun hp => C119_hardware_partial h8 hp⟩

/-! ### Cases -/

/-- a test for `XmlQName` -/
def qnameB (q : Str) : Bool :=
  match splitQname q with
  | none => properName q && q.all nameChar && !q.elem ':' && !decide (q = "xmlns".toList)
  | some (.ok (u, l)) => decide (q = '{' :: u ++ '}' :: l) &&
      (!u.isEmpty && !u.elem '}' && !decide (u = "http://www.w3.org/2000/xmlns/".toList) && u.all (fun c => xmlChar c && !decide (c = '\t') && !decide (c = '\r'))) &&
      (properName l && l.all nameChar && !l.elem ':')
  | _ => false

theorem qnameB_sound {py : EtVer} {q : Str} (h : qnameB q = true) : XmlQName py q := by
  unfold qnameB at h
  split at h
  · exact good_plain h
  · rename_i u l _
    rw [Bool.and_eq_true, Bool.and_eq_true] at h
    rw [of_decide_eq_true h.1.1]
    exact good_in u l h.1.2 h.2
  · cases h

def textB (s : Str) : Bool := s.all (fun c => xmlChar c && !decide (c = '\t') && !decide (c = '\r'))

theorem textB_sound {s : Str} (h : textB s = true) : DataText s ∧ ∀ py, AttrText py s := by
  unfold textB at h
  simp only [List.all_eq_true, Bool.and_eq_true, Bool.not_eq_true', decide_eq_false_iff_not] at h
  exact ⟨fun c hc => ⟨(h c hc).1.1, (h c hc).2⟩, fun _ c hc => ⟨(h c hc).1.1, fun _ => ⟨(h c hc).1.2, (h c hc).2⟩⟩⟩

mutual
/-- a test for `XmlWritable` -/
def writableB : Elem → Bool
  | .mk tag attrib text tail cs => qnameB tag && attrib.all (fun kv => qnameB kv.1 && textB kv.2) && decide ((dkeys attrib).Nodup) &&
      textB (text.getD []) && textB (tail.getD []) && writableLB cs
def writableLB : List Elem → Bool
  | [] => true
  | e :: r => writableB e && writableLB r
end

mutual
theorem writableB_sound {py : EtVer} : ∀ (e : Elem), writableB e = true → XmlWritable py e
  | .mk tag attrib text tail cs, h => by
    simp only [writableB, Bool.and_eq_true, List.all_eq_true, decide_eq_true_eq] at h
    simp only [XmlWritable]
    exact ⟨qnameB_sound h.1.1.1.1.1, fun kv hkv => ⟨qnameB_sound (h.1.1.1.1.2 kv hkv).1, (textB_sound (h.1.1.1.1.2 kv hkv).2).2 py⟩,
      h.1.1.1.2, (textB_sound h.1.1.2).1, (textB_sound h.1.2).1, writableLB_sound cs h.2⟩
theorem writableLB_sound {py : EtVer} : ∀ (cs : List Elem), writableLB cs = true → XmlWritableL py cs
  | [], _ => by simp [XmlWritableL]
  | e :: r, h => by
    simp only [writableLB, Bool.and_eq_true] at h
    simp only [XmlWritableL]
    exact ⟨writableB_sound e h.1, writableLB_sound r h.2⟩
end

/-- a descriptor with a CPU and a network adapter is opened, saved, read and opened again -/
example (o : Orders) (py : EtVer) : ∃ parts hw root' files' s t parts', openDescriptor (exWhole "1" "7" ["net"] [exCpuElem none "1", exNicElem "net"]) = .ok parts ∧
    loadHardware exEnv parts.hardware = .ok hw ∧
    saveTree exCtx o exCap (exWhole "1" "7" ["net"] [exCpuElem none "1", exNicElem "net"]) parts hw exWholeFiles = .ok (root', files') ∧
    writeXml py etDefault root' = .ok s ∧ parseXml s = some t ∧ openDescriptor t = .ok parts' ∧ parts'.version = .v1 ∧
    loadHardware exEnv parts'.hardware = .ok hw := by
  obtain ⟨parts, hw, e1, e2, e3, e4, e5⟩ : ∃ parts hw, openDescriptor (exWhole "1" "7" ["net"] [exCpuElem none "1", exNicElem "net"]) = .ok parts ∧
      loadHardware exEnv parts.hardware = .ok hw ∧
      (saveTree exCtx o exCap (exWhole "1" "7" ["net"] [exCpuElem none "1", exNicElem "net"]) parts hw exWholeFiles).map Prod.fst =
        .ok (exWhole "1" "7" ["net"] [exCpuElem none "1", exNicElem "net"]) ∧ parts.version = .v1 ∧
      parts.hardware = exHwSec [exCpuElem none "1", exNicElem "net"] := ⟨_, _, rfl, rfl, rfl, rfl, rfl⟩
  cases hsv : saveTree exCtx o exCap (exWhole "1" "7" ["net"] [exCpuElem none "1", exNicElem "net"]) parts hw exWholeFiles with
  | error x => rw [hsv] at e3; cases e3
  | ok r =>
    rw [hsv] at e3
    obtain ⟨root', files'⟩ := r
    have e3' : root' = exWhole "1" "7" ["net"] [exCpuElem none "1", exNicElem "net"] := Except.ok.inj e3
    subst e3'
    obtain ⟨s, t, p1, p2, h1, h2, h3, h4, h5, h6, h7⟩ := C119_reopen_partial (py := py) e1 (by rw [e4]; rfl) (by rw [e4]; decide) hsv etDefault_good
      (writableB_sound _ (by decide +kernel)) (by simp [exWhole, Elem.tail])
    rw [e1] at h3
    cases h3
    refine ⟨parts, hw, _, files', s, t, p2, e1, e2, hsv, h1, h2, h4, h5.trans e4, ?_⟩
    rw [show exEnv = exCtx.env from rfl, h7]
    · exact e2
    · rw [e5]
      unfold PlainItem
      exact of_decide_eq_true (by decide +kernel)

end Cot
