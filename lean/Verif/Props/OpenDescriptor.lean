import Verif.Props.SchemaNames
/-
C106 (second part): the names that the rest of the model uses are the ones of the schema.
C107: which descriptors are opened, and with which parts.
-/
namespace Cot

/-! ### The names used elsewhere in the model -/

/-- What the code asks the name helper for, beside the constant that stands for it in the model. -/
def usedNames (v : Ver) : List (Str × Str) :=
  [("RASD".toList, rasd), ("SASD".toList, sasd v), ("EPASD".toList, epasd v), ("VSSD".toList, vssd),
   ("ITEM".toList, itemTag v), ("STORAGE_ITEM".toList, storageItemTag v),
   ("ETHERNET_PORT_ITEM".toList, ethernetPortItemTag v), ("ITEM_CONFIG".toList, itemConfig v),
   ("ELEMENT_NAME".toList, elementName v), ("ITEM_DESCRIPTION".toList, itemDescription),
   ("VIRTUAL_QUANTITY".toList, virtualQuantity), ("RESOURCE_SUB_TYPE".toList, resourceSubType),
   ("RESOURCE_TYPE".toList, resourceType), ("CONNECTION".toList, connection), ("INSTANCE_ID".toList, instanceId v),
   ("ADDRESS".toList, address), ("ADDRESS_ON_PARENT".toList, addressOnParent), ("PARENT".toList, parentName),
   ("HOST_RESOURCE".toList, hostResource), ("ALLOCATION_UNITS".toList, allocationUnits), ("CAPTION".toList, caption),
   ("OLD_HOST_RSRC_FILE_REF".toList, oldFileRef), ("OLD_HOST_RSRC_DISK_REF".toList, oldDiskRef),
   ("HOST_RSRC_FILE_REF".toList, hostFileRef v), ("HOST_RSRC_DISK_REF".toList, hostDiskRef v),
   ("INFO".toList, infoTag v), ("VIRTUAL_SYSTEM".toList, virtualSystemTag v), ("SYSTEM".toList, systemTag v),
   ("VIRTUAL_SYSTEM_TYPE".toList, vstTag), ("ENVIRONMENT_TRANSPORT".toList, transportAttr v),
   ("NETWORK_SECTION".toList, netSecTag v), ("NETWORK".toList, networkTag v), ("NETWORK_NAME".toList, networkName v),
   ("NWK_DESC".toList, networkDesc v),
   ("DEPLOY_OPT_SECTION".toList, deployTag v), ("CONFIG".toList, configTag v), ("CONFIG_ID".toList, configId v),
   ("CONFIG_DEFAULT".toList, configDefault v), ("CFG_LABEL".toList, configLabel v), ("CFG_DESC".toList, configDesc v),
   ("REFERENCES".toList, ovfTag v "References".toList),
   ("FILE".toList, fileTag v), ("FILE_ID".toList, fileId v), ("FILE_HREF".toList, fileHref v),
   ("FILE_SIZE".toList, fileSize v), ("DISK_SECTION".toList, diskSecTag v), ("DISK".toList, diskTag v),
   ("DISK_ID".toList, diskId v), ("DISK_FILE_REF".toList, diskFileRef v), ("DISK_CAPACITY".toList, diskCapacity v),
   ("DISK_CAP_UNITS".toList, diskCapUnits v), ("DISK_FORMAT".toList, diskFormat v),
   ("ANNOTATION_SECTION".toList, sectionTag v "AnnotationSection".toList),
   ("ANNOTATION".toList, ovfTag v "Annotation".toList),
   ("PRODUCT_SECTION".toList, productSection v), ("PRODUCT_SECTION".toList, sectionTag v "ProductSection".toList),
   ("PRODUCT_CLASS".toList, productClassAttr v), ("PRODUCT".toList, fieldTag v .product),
   ("VENDOR".toList, fieldTag v .vendor), ("VERSION".toList, fieldTag v .version),
   ("FULL_VERSION".toList, fieldTag v .fullVersion), ("PRODUCT_URL".toList, fieldTag v .productUrl),
   ("VENDOR_URL".toList, fieldTag v .vendorUrl), ("APPLICATION_URL".toList, fieldTag v .appUrl),
   ("PROPERTY".toList, propertyTag v), ("PROP_KEY".toList, propKey v), ("PROP_VALUE".toList, propValue v),
   ("PROP_QUAL".toList, propQual v), ("PROP_TYPE".toList, propType v), ("PROP_USER_CONFIGABLE".toList, propUserConf v),
   ("PROPERTY_LABEL".toList, propLabel v), ("PROPERTY_DESC".toList, propDesc v),
   ("EULA_SECTION".toList, sectionTag v "EulaSection".toList), ("EULA_LICENSE".toList, ovfTag v "License".toList),
   ("VIRTUAL_HW_SECTION".toList, sectionTag v "VirtualHardwareSection".toList)]

theorem used_pure : ∀ v, ∀ r ∈ usedNames v, pureName v r.1 = some r.2 := by
  intro v
  cases v <;> decide +kernel

/-- **C106**, for the model itself: every name that occurs in the rest of the model is what the code's lookup gives,
whatever was looked up before, and what the schema of that version says. -/
theorem C106_used {c : Caches} (h : LookedUp c) (v : Ver) : ∀ r ∈ usedNames v,
    (nameOf c v r.1).1 = .ok r.2 ∧ NameIs v r.1 r.2 := by
  intro r hr
  have hn := (pureName_iff v r.1 r.2).1 (used_pure v r hr)
  exact ⟨((C106_history h v r.1).1 r.2).2 hn, hn⟩

/-- The order of the words below an Item, for each version: alphabetical since OVF 1, of its own kind in OVF 0.9. -/
theorem C106_order :
    (∀ v, v ≠ .v0 → (itemChildren v).Pairwise (fun a b => strLe a b = true) ∧
      ∀ w, w ∈ itemChildren v ↔ ∃ n, NameIs v n w ∧ (∃ r ∈ itemVocabulary, n = r.1.toList) ∧ '/' ∉ w) ∧
    itemChildren .v0 = (["Caption", "Description", "InstanceId", "ResourceType", "OtherResourceType", "ResourceSubType",
      "PoolID", "ConsumerVisibility", "HostResource", "AllocationUnits", "VirtualQuantity", "Reservation", "Limit", "Weight",
      "AutomaticAllocation", "AutomaticDeallocation", "Parent", "Connection", "Address", "MappingBehavior",
      "AddressOnParent", "BusNumber"] : List String).map String.toList := by
  refine ⟨fun v hv => ⟨?_, fun w => ?_⟩, by decide +kernel⟩
  · cases v
    · exact absurd rfl hv
    · decide +kernel
    · decide +kernel
  · have h1 : ∀ w ∈ itemChildren v, ∃ r ∈ itemVocabulary, w = r.2.2.toList ∧ '/' ∉ w := by
      cases v
      · exact absurd rfl hv
      · decide +kernel
      · decide +kernel
    have h2 : ∀ r ∈ itemVocabulary, '/' ∉ r.2.2.toList → r.2.2.toList ∈ itemChildren v := by
      cases v
      · exact absurd rfl hv
      · decide +kernel
      · decide +kernel
    have hval : ∀ r ∈ itemVocabulary, NameIs v r.1.toList r.2.2.toList := by
      intro r hr
      have := NameIs.word (v := v) (n := r.1) (a := r.2.1) (b := r.2.2) hr
      cases v
      · exact absurd rfl hv
      · exact this
      · exact this
    constructor
    · intro hw
      obtain ⟨r, hr, rfl, hs⟩ := h1 w hw
      exact ⟨_, hval r hr, ⟨r, hr, rfl⟩, hs⟩
    · rintro ⟨n, hn, ⟨r, hr, rfl⟩, hs⟩
      have e := C106_unique hn (hval r hr)
      subst e
      exact h2 r hr hs

/-! ### C107 -/

theorem lastBrace : ∀ {t a b : Str}, afterLast '}' t = some b → beforeLast '}' t = some a → t = a ++ '}' :: b
  | [], _, _, h, _ => by cases h
  | x :: t, a, b, h1, h2 => by
    rw [afterLast] at h1
    rw [beforeLast] at h2
    cases ha : afterLast '}' t with
    | some r =>
      rw [ha] at h1
      cases h1
      cases hb : beforeLast '}' t with
      | some r' =>
        rw [hb] at h2
        cases h2
        rw [lastBrace ha hb]
        rfl
      | none =>
        exfalso
        rw [hb] at h2
        -- both look for the same brace
        have : ∀ t : Str, afterLast '}' t = some b → beforeLast '}' t = none → False := by
          intro t
          induction t with
          | nil => intro h; cases h
          | cons y t ih =>
            intro g1 g2
            rw [afterLast] at g1
            rw [beforeLast] at g2
            cases h3 : afterLast '}' t with
            | some r => 
              rw [h3] at g1
              cases g1
              cases h4 : beforeLast '}' t with
              | none => exact ih h3 h4
              | some r => rw [h4] at g2; cases g2
            | none =>
              rw [h3] at g1
              dsimp only at g1
              cases h4 : beforeLast '}' t with
              | some r => rw [h4] at g2; cases g2
              | none =>
                rw [h4] at g2
                dsimp only at g2
                by_cases hy : y = '}'
                · rw [if_pos hy] at g2; cases g2
                · rw [if_neg hy] at g1; cases g1
        exact this t ha hb
    | none =>
      rw [ha] at h1
      dsimp only at h1
      by_cases hx : x = '}'
      · rw [if_pos hx] at h1
        cases h1
        have hnot : ∀ t : Str, afterLast '}' t = none → beforeLast '}' t = none := by
          intro t
          induction t with
          | nil => intro _; rfl
          | cons y t ih =>
            intro g
            rw [afterLast] at g
            rw [beforeLast]
            cases h3 : afterLast '}' t with
            | some r => rw [h3] at g; cases g
            | none =>
              rw [h3] at g
              rw [ih h3]
              dsimp only at g ⊢
              by_cases hy : y = '}'
              · rw [if_pos hy] at g; cases g
              · rw [if_neg hy]
        rw [hnot t ha] at h2
        dsimp only at h2
        rw [if_pos hx] at h2
        cases h2
        rw [hx]
        rfl
      · rw [if_neg hx] at h1
        cases h1

/-- taking a qualified name apart -/
theorem tag_parts {t n u : Str} (hu : u ≠ []) (h1 : stripNs t = n) (h2 : getNs t = u) :
    t = "{".toList ++ u ++ "}".toList ++ n := by
  cases t with
  | nil => exact absurd h2.symm hu
  | cons c r =>
    by_cases hc : c = '{'
    · subst hc
      rw [stripNs] at h1
      rw [getNs] at h2
      cases hb : beforeLast '}' r with
      | none => rw [hb] at h2; exact absurd h2.symm hu
      | some a =>
        rw [hb] at h2
        dsimp only at h2
        cases ha : afterLast '}' r with
        | none =>
          exfalso
          have hnot : ∀ t : Str, afterLast '}' t = none → beforeLast '}' t = none := by
            intro t
            induction t with
            | nil => intro _; rfl
            | cons y t ih =>
              intro g
              rw [afterLast] at g
              rw [beforeLast]
              cases h3 : afterLast '}' t with
              | some r => rw [h3] at g; cases g
              | none =>
                rw [h3] at g
                rw [ih h3]
                dsimp only at g ⊢
                by_cases hy : y = '}'
                · rw [if_pos hy] at g; cases g
                · rw [if_neg hy]
          rw [hnot r ha] at hb
          cases hb
        | some b =>
          rw [ha] at h1
          dsimp only at h1
          subst h1 h2
          rw [lastBrace ha hb]
          simp
    · exfalso
      have : getNs (c :: r) = [] := by
        unfold getNs
        split
        · rename_i h; cases h; exact absurd rfl hc
        · rfl
      rw [this] at h2
      exact hu h2.symm

theorem schemaUri_facts : ∀ v : Ver, (schemaUri v).toList ≠ [] ∧
    stripNs ("{".toList ++ (schemaUri v).toList ++ "}Envelope".toList) = "Envelope".toList ∧
    getNs ("{".toList ++ (schemaUri v).toList ++ "}Envelope".toList) = (schemaUri v).toList ∧
    hasSub "Envelope".toList ("{".toList ++ (schemaUri v).toList ++ "}Envelope".toList) = true := by
  intro v
  cases v <;> decide +kernel

theorem version_iff (root : Elem) (v : Ver) : ovfVersion root = .ok v ↔ getNs root.tag = (schemaUri v).toList := by
  unfold ovfVersion
  constructor
  · intro h
    split at h
    · rename_i h1
      cases h
      exact h1
    · split at h
      · rename_i h1
        cases h
        exact h1
      · split at h
        · rename_i h1
          cases h
          exact h1
        · cases h
  · intro h
    rw [h]
    cases v <;> decide +kernel

theorem version_error (root : Elem) {e : Err} (h : ovfVersion root = .error e) :
    e = .vmInitError ∧ ∀ v : Ver, getNs root.tag ≠ (schemaUri v).toList := by
  refine ⟨?_, fun v hv => ?_⟩
  · unfold ovfVersion at h
    split at h
    · cases h
    · split at h
      · cases h
      · split at h
        · cases h
        · cases h; rfl
  · rw [(version_iff root v).2 hv] at h
    cases h

theorem isEnvelope_iff (v : Ver) (root : Elem) :
    IsEnvelope v root ↔ looksLikeOvf root = true ∧ ovfVersion root = .ok v := by
  rw [version_iff]
  obtain ⟨f1, f2, f3, f4⟩ := schemaUri_facts v
  unfold IsEnvelope looksLikeOvf
  constructor
  · intro h
    rw [h, f2, f3, f4]
    exact ⟨by decide, rfl⟩
  · rintro ⟨h1, h2⟩
    rw [Bool.and_eq_true, decide_eq_true_eq] at h1
    rw [tag_parts f1 h1.2 h2]
    rw [List.append_assoc, List.append_assoc, List.append_assoc]
    rfl

theorem requireChild_iff {p e : Elem} {t : Str} {a : List (Str × Str)} :
    requireChild p t a = .ok e ↔ findAllChildren p t a = [e] := by
  unfold requireChild
  rw [← findChild_some (r := true)]
  constructor
  · intro h
    split at h
    · rename_i x hx
      cases h
      exact hx
    · cases h
    · cases h
  · intro h
    rw [h]

theorem optChild_iff {p : Elem} {o : Option Elem} {t : Str} {a : List (Str × Str)} :
    findChild p t a false = .ok o ↔ findAllChildren p t a = o.toList := by
  cases o with
  | none => exact findChild_none
  | some e => exact findChild_some

theorem xsi_eq : xsiType = "{http://www.w3.org/2001/XMLSchema-instance}type".toList := by decide +kernel

theorem children_eq (v : Ver) (e : Elem) (tag : Str) (n : String) :
    findAllChildren e tag (sectionAttrib v n.toList) = childrenCalled v e tag n := by
  unfold findAllChildren childrenCalled
  congr 1
  funext c
  rw [Bool.eq_iff_iff, Bool.and_eq_true, beq_iff_eq, decide_eq_true_eq]
  refine and_congr_right fun _ => ?_
  cases v
  · simp only [sectionAttrib, attribMatch, List.all_cons, List.all_nil, Bool.and_true, beq_iff_eq, forall_const, xsi_eq,
      String.toList_append]
  · simp [sectionAttrib, attribMatch]
  · simp [sectionAttrib, attribMatch]

theorem plain_children (e : Elem) (tag : Str) : findAllChildren e tag [] = e.children.filter (fun c => c.tag = tag) := by
  unfold findAllChildren
  congr 1
  funext c
  rw [Bool.eq_iff_iff, Bool.and_eq_true, beq_iff_eq, decide_eq_true_eq]
  simp [attribMatch]

theorem ovfTag_schema (v : Ver) (n : String) :
    ovfTag v n.toList = "{".toList ++ (schemaUri v).toList ++ "}".toList ++ n.toList := by
  cases v <;> rfl

theorem sectionTag_schema (v : Ver) (n : String) : sectionTag v n.toList =
    "{".toList ++ (schemaUri v).toList ++ "}".toList ++ (if v = .v0 then "Section" else n).toList := by
  cases v <;> rfl

theorem systemTag_schema (v : Ver) : virtualSystemTag v =
    "{".toList ++ (schemaUri v).toList ++ "}".toList ++ (if v = .v0 then "Content" else "VirtualSystem").toList := by
  cases v <;> rfl

/-- **C107**: a descriptor is opened, with the version `p.version` and the parts `p`, exactly if its top-level element is
the Envelope of that version and these are its parts. -/
theorem C107_open (root : Elem) (p : Parts) :
    openDescriptor root = .ok p ↔ IsEnvelope p.version root ∧ HasParts p.version root p := by
  obtain ⟨v, refs, disks, nets, depl, sys, prod, ann, hw⟩ := p
  rw [isEnvelope_iff]
  unfold HasParts
  dsimp only
  simp only [← sectionTag_schema, ← systemTag_schema]
  simp only [← children_eq, ← ovfTag_schema, ← plain_children, ← requireChild_iff, ← optChild_iff]
  unfold openDescriptor
  constructor
  · intro h
    split at h
    · rename_i hl
      obtain ⟨v', hv, h⟩ := bind_ok_inv h
      obtain ⟨a1, h1, h⟩ := bind_ok_inv h
      obtain ⟨a2, h2, h⟩ := bind_ok_inv h
      obtain ⟨a3, h3, h⟩ := bind_ok_inv h
      obtain ⟨a4, h4, h⟩ := bind_ok_inv h
      obtain ⟨a5, h5, h⟩ := bind_ok_inv h
      obtain ⟨a6, h6, h⟩ := bind_ok_inv h
      obtain ⟨a7, h7, h⟩ := bind_ok_inv h
      obtain ⟨a8, h8, h⟩ := bind_ok_inv h
      cases h
      exact ⟨⟨hl, hv⟩, h1, h5, h8, h2, h3, h4, h6, h7⟩
    · cases h
  · rintro ⟨⟨hl, hv⟩, h1, h5, h8, h2, h3, h4, h6, h7⟩
    rw [if_pos hl, hv]
    simp only [bind, Except.bind]
    have h4' : findChild root (deployTag v) [] false = .ok depl := h4
    rw [h1]
    dsimp only
    rw [h2]
    dsimp only
    rw [h3]
    dsimp only
    rw [h4']
    dsimp only
    rw [h5]
    dsimp only
    rw [h6]
    dsimp only
    rw [h7]
    dsimp only
    rw [h8]

/-- **C107**: a document that is not the Envelope of one of the three versions is refused with the error that says so. -/
theorem C107_refused_partial (root : Elem) : (∀ v, ¬ IsEnvelope v root) ↔ openDescriptor root = .error .vmInitError := by
  constructor
  · intro h
    unfold openDescriptor
    by_cases hl : looksLikeOvf root = true
    · rw [if_pos hl]
      cases hv : ovfVersion root with
      | ok v => exact absurd ((isEnvelope_iff v root).2 ⟨hl, hv⟩) (h v)
      | error e => rw [(version_error root hv).1]; rfl
    · rw [if_neg hl]
  · intro h v hv
    rw [isEnvelope_iff] at hv
    unfold openDescriptor at h
    rw [if_pos hv.1, hv.2] at h
    have hr : ∀ {q : Elem} {t : Str} {a : List (Str × Str)}, requireChild q t a ≠ .error .vmInitError := by
      intro q t a hq
      unfold requireChild findChild at hq
      cases hf : findAllChildren q t a with
      | nil => rw [hf] at hq; cases hq
      | cons x r => cases r <;> (rw [hf] at hq; cases hq)
    have ho : ∀ {q : Elem} {t : Str} {a : List (Str × Str)}, findChild q t a false ≠ .error .vmInitError := by
      intro q t a hq
      unfold findChild at hq
      cases hf : findAllChildren q t a with
      | nil => rw [hf] at hq; cases hq
      | cons x r => cases r <;> (rw [hf] at hq; cases hq)
    have step : ∀ {α β : Type} {x : Except Err α} {f : α → Except Err β} {P : Prop}, (x >>= f) = .error .vmInitError →
        x ≠ .error .vmInitError → (∀ a, f a = .error .vmInitError → P) → P := by
      intro α β x f P h1 h2 h3
      cases x with
      | error e =>
        cases h1
        exact absurd rfl h2
      | ok a => exact h3 a h1
    refine step h (by simp) fun v h => ?_
    refine step h hr fun _ h => ?_
    refine step h ho fun _ h => ?_
    refine step h ho fun _ h => ?_
    refine step h ho fun _ h => ?_
    refine step h hr fun _ h => ?_
    refine step h ho fun _ h => ?_
    refine step h ho fun _ h => ?_
    refine step h hr fun _ h => ?_
    cases h

/-- a descriptor of OVF 0.9 -/
def exDescriptor0 : Elem :=
  let s (n : String) (c : List Elem) : Elem := .mk (ovfTag .v0 "Section".toList)
    [("{http://www.w3.org/2001/XMLSchema-instance}type".toList, ("ovf:" ++ n ++ "_Type").toList)] none none c
  .mk (ovfTag .v0 "Envelope".toList) [] none none
    [.new (ovfTag .v0 "References".toList), s "DiskSection" [], s "NetworkSection" [],
     .mk (ovfTag .v0 "Content".toList)
      [("{http://www.w3.org/2001/XMLSchema-instance}type".toList, "ovf:VirtualSystem_Type".toList)] none none
      [s "ProductSection" [], s "VirtualHardwareSection" [], s "EulaSection" []]]

example : ∃ p, openDescriptor exDescriptor0 = .ok p ∧ p.version = .v0 ∧ p.disks.isSome ∧ p.product.isSome ∧
    p.annotation = none :=
  ⟨_, rfl, rfl, rfl, rfl, rfl⟩

/-- a descriptor of OVF 1 with `product` product sections and with or without References -/
def exDescriptor1 (refs : Bool) (products : Nat) : Elem :=
  .mk (ovfTag .v1 "Envelope".toList) [] none none
    ((if refs then [.new (ovfTag .v1 "References".toList)] else []) ++
     [.mk (ovfTag .v1 "VirtualSystem".toList) [] none none
       (List.replicate products (.new (ovfTag .v1 "ProductSection".toList)) ++
        [.new (ovfTag .v1 "VirtualHardwareSection".toList)])])

example : ∃ p, openDescriptor (exDescriptor1 true 1) = .ok p ∧ p.version = .v1 ∧ p.product.isSome := ⟨_, rfl, rfl, rfl⟩

example : openDescriptor (.new "{http://schemas.dmtf.org/ovf/envelope/3}Envelope".toList) = .error .vmInitError := rfl

/-- The full claim would be that what cannot be opened is refused with that error, which is the one that users are told
about.  It fails: without References the program ends with `KeyError`, and a machine with two products, which the standard
allows, ends with `LookupError`; neither is caught by the command line. -/
theorem C107_error_fails : IsEnvelope .v1 (exDescriptor1 false 1) ∧
    openDescriptor (exDescriptor1 false 1) = .error .keyError ∧
    IsEnvelope .v1 (exDescriptor1 true 2) ∧ openDescriptor (exDescriptor1 true 2) = .error .lookupError :=
  ⟨by unfold IsEnvelope; decide +kernel, rfl, by unfold IsEnvelope; decide +kernel, rfl⟩

end Cot
