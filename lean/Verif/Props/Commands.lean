import Verif.Lemmas.Commands
import Verif.Props.EditProduct
import Verif.Props.EditProperties
import Verif.Props.PropertyArgs
import Verif.Props.OvfSections
/-
C125: what the command line asks edit-product and edit-properties for is what is done.
-/
namespace Cot

variable {f : EhFiles}

/-! ### edit-product -/

def productCmd : SubCommand := ⟨"edit-product".toList, ["set-product".toList, "set-version".toList], editProductParser⟩

theorem product_plain : PlainCommand productCmd := by
  refine ⟨?_, ?_, ?_, ?_⟩ <;> decide +kernel

theorem product_page : ∀ m ∈ commandPages, m.names = productCmd.title :: productCmd.aliases → m = editProductPage := by decide +kernel

/-- every attribute of edit-product is set by its own name only -/
theorem productSetters_keep {b : Str} {g : Setter ProductReq} (hm : (b, g) ∈ productSetters) {q q' : ProductReq} {v : ArgVal ArgAtom}
    (h : g q v = .ok q') :
    (b ≠ "product_class".toList → q'.cls = q.cls) ∧ (b ≠ "product".toList → q'.product = q.product) ∧
    (b ≠ "vendor".toList → q'.vendor = q.vendor) ∧ (b ≠ "version".toList → q'.version = q.version) ∧
    (b ≠ "full_version".toList → q'.fullVersion = q.fullVersion) ∧ (b ≠ "product_url".toList → q'.productUrl = q.productUrl) ∧
    (b ≠ "vendor_url".toList → q'.vendorUrl = q.vendorUrl) ∧ (b ≠ "application_url".toList → q'.appUrl = q.appUrl) := by
  unfold productSetters at hm
  simp only [List.mem_cons, List.not_mem_nil, or_false, Prod.mk.injEq] at hm
  rcases hm with ⟨rfl, rfl⟩ | ⟨rfl, rfl⟩ | ⟨rfl, rfl⟩ | ⟨rfl, rfl⟩ | ⟨rfl, rfl⟩ | ⟨rfl, rfl⟩ | ⟨rfl, rfl⟩ | ⟨rfl, rfl⟩
  all_goals
    obtain ⟨s, -, rfl⟩ := storeText_ok h
    refine ⟨?_, ?_, ?_, ?_, ?_, ?_, ?_, ?_⟩ <;> intro hne <;> first | rfl | exact absurd rfl hne

/-- a text that is stored as it is, after the command line has been handed over -/
theorem Handed.text {Q : Type} {setters : List (Str × Setter Q)} {q : Q} {P : ArgParser} {m : ManPage} {us : List ArgUse} {ws : List Str}
    {cmd : PkgCmd Q} {d : List (Str × ArgVal ArgAtom)} (h : Handed f setters q P m us ws cmd d) {flags : List Str} {a : Str} (fl : String)
    (ho : ⟨flags, .value .text, a⟩ ∈ m.options) (hfl : ∀ x ∈ P.opts, (∃ g ∈ flags, g ∈ x.flags) ↔ fl.toList ∈ x.flags)
    (F : Q → Option Str) (G : Q → Str → Q) (h1 : a ≠ "package".toList) (h2 : a ≠ "output".toList) (hg : dget? setters a = some (storeText G))
    (hk : ∀ b g', (b, g') ∈ setters → b ≠ a → ∀ q v q', g' q v = .ok q' → F q' = F q) (hG : ∀ q s, F (G q s) = some s) (h0 : F q = none) :
    F cmd.req = lastGiven fl us := by
  obtain ⟨v, e1, e2⟩ := h.option (R := fun v x => ∃ s y : Str, v = .one (.text s) ∧ s = y ∧ x = some y) ho (by simp) hfl h1 h2 hg hk (by
    intro q v q' hq
    obtain ⟨s, e, rfl⟩ := storeText_ok hq
    exact ⟨s, s, e, rfl, hG q s⟩)
  rw [h0] at e2
  unfold lastGiven
  rcases reached_text (R := Eq) e1 e2 with ⟨e3, e4⟩ | ⟨s, y, e3, -, rfl, e6⟩
  · rw [e3, e4]
  · rw [e3, e6]

theorem product_asks {us : List ArgUse} {ws : List Str} {cmd : PkgCmd ProductReq} {d : List (Str × ArgVal ArgAtom)}
    (h : Handed f productSetters {} editProductParser editProductPage us ws cmd d) :
    cmd.req.cls = lastGiven "--product-class" us ∧ ∀ x, cmd.req.field x = lastGiven (productFlag x) us := by
  constructor
  · exact h.text (flags := ["-c".toList, "--product-class".toList]) (a := "product_class".toList) "--product-class" (by decide +kernel) (by decide +kernel)
      (fun q => q.cls) (fun q s => { q with cls := some s }) (by decide) (by decide) rfl
      (fun b g hb hne q v q' hq => (productSetters_keep hb hq).1 hne) (fun _ _ => rfl) rfl
  · intro x
    cases x
    · exact h.text (flags := ["-p".toList, "--product".toList]) (a := "product".toList) "--product" (by decide +kernel) (by decide +kernel)
        (fun q => q.product) (fun q s => { q with product := some s }) (by decide) (by decide) rfl
        (fun b g hb hne q v q' hq => (productSetters_keep hb hq).2.1 hne) (fun _ _ => rfl) rfl
    · exact h.text (flags := ["-n".toList, "--vendor".toList]) (a := "vendor".toList) "--vendor" (by decide +kernel) (by decide +kernel)
        (fun q => q.vendor) (fun q s => { q with vendor := some s }) (by decide) (by decide) rfl
        (fun b g hb hne q v q' hq => (productSetters_keep hb hq).2.2.1 hne) (fun _ _ => rfl) rfl
    · exact h.text (flags := ["-v".toList, "--version".toList]) (a := "version".toList) "--version" (by decide +kernel) (by decide +kernel)
        (fun q => q.version) (fun q s => { q with version := some s }) (by decide) (by decide) rfl
        (fun b g hb hne q v q' hq => (productSetters_keep hb hq).2.2.2.1 hne) (fun _ _ => rfl) rfl
    · exact h.text (flags := ["-V".toList, "--full-version".toList]) (a := "full_version".toList) "--full-version" (by decide +kernel)
        (by decide +kernel) (fun q => q.fullVersion) (fun q s => { q with fullVersion := some s }) (by decide) (by decide) rfl
        (fun b g hb hne q v q' hq => (productSetters_keep hb hq).2.2.2.2.1 hne) (fun _ _ => rfl) rfl
    · exact h.text (flags := ["-u".toList, "--product-url".toList]) (a := "product_url".toList) "--product-url" (by decide +kernel)
        (by decide +kernel) (fun q => q.productUrl) (fun q s => { q with productUrl := some s }) (by decide) (by decide) rfl
        (fun b g hb hne q v q' hq => (productSetters_keep hb hq).2.2.2.2.2.1 hne) (fun _ _ => rfl) rfl
    · exact h.text (flags := ["-r".toList, "--vendor-url".toList]) (a := "vendor_url".toList) "--vendor-url" (by decide +kernel)
        (by decide +kernel) (fun q => q.vendorUrl) (fun q s => { q with vendorUrl := some s }) (by decide) (by decide) rfl
        (fun b g hb hne q v q' hq => (productSetters_keep hb hq).2.2.2.2.2.2.1 hne) (fun _ _ => rfl) rfl
    · exact h.text (flags := ["-l".toList, "--application-url".toList]) (a := "application_url".toList) "--application-url" (by decide +kernel)
        (by decide +kernel) (fun q => q.appUrl) (fun q s => { q with appUrl := some s }) (by decide) (by decide) rfl
        (fun b g hb hne q v q' hq => (productSetters_keep hb hq).2.2.2.2.2.2.2 hne) (fun _ _ => rfl) rfl

theorem one_word {us : List ArgUse} {ws : List Str} {Q : Type} {setters : List (Str × Setter Q)} {q : Q} {P : ArgParser} {m : ManPage}
    {cmd : PkgCmd Q} {d : List (Str × ArgVal ArgAtom)} (h : Handed f setters q P m us ws cmd d) (hP : P.pos.length = 1) : ∃ p, ws = [p] := by
  have := h.words
  rw [hP] at this
  match ws, this with
  | [p], _ => exact ⟨p, rfl⟩

/-- **C125 (edit-product).** If `cot … edit-product …` (under any of its names) is carried out on a package, each field of the product
information is afterwards what the last use of its option says, and is as before if its option was not given; likewise the product class.
The package is the one named on the command line, the output that of the last `--output`. -/
theorem C125_product_partial {v : Ver} (hv : v ≠ .v0) {name : Str} (hn : name = productCmd.title ∨ name ∈ productCmd.aliases)
    {g l : List Str} {gus us : List ArgUse} {ws : List Str} (hg : CmdLine mainParser g gus []) (hl : CmdLine editProductParser l us ws)
    (hp : ∀ u ∈ gus ++ us, ¬ OnlyPrints u.opt) (ha : ClearFor mainParser l) {vs vs' : Elem} (hw : ProductWF v vs) {cmd : PkgCmd ProductReq}
    (h : productMain f v (g ++ name :: l) vs = .ok (cmd, vs')) :
    (∃ p, ws = [p] ∧ PkgPlaces f us p cmd) ∧
    (∀ x, getField v vs' x = (match lastGiven (productFlag x) us with | some t => .ok (some t) | none => getField v vs x)) ∧
    getProductClass v vs' = (match lastGiven "--product-class" us with | some t => .ok (some t) | none => getProductClass v vs) ∧
    SameButKids (ovfTag v "ProductSection".toList) vs vs' := by
  unfold productMain at h
  cases hc : pkgCommand f productSetters {} (g ++ name :: l) with
  | error e => rw [hc] at h; cases h
  | ok cmd' =>
    rw [hc] at h
    dsimp only at h
    cases hr : editProduct v cmd'.req vs with
    | error e => rw [hr] at h; cases h
    | ok vs2 =>
      rw [hr] at h
      cases h
      obtain ⟨d, hd⟩ := handed product_plain product_page hn hg hl hp ha hc
      obtain ⟨p, rfl⟩ := one_word hd rfl
      obtain ⟨k1, k2⟩ := product_asks hd
      have hq : (∃ c, cmd.req.cls = some c ∧ c ≠ []) ∨ ∃ f x, cmd.req.field f = some x ∧ x ≠ [] := by
        by_contra hno
        push Not at hno
        rw [C83_refused cmd.req (by
          rintro o (rfl | ⟨x, rfl⟩)
          · cases hx : cmd.req.cls with
            | none => exact .inl rfl
            | some c => exact .inr (by rw [hno.1 c hx])
          · cases hx : cmd.req.field x with
            | none => exact .inl rfl
            | some c => exact .inr (by rw [hno.2 x c hx]))] at hr
        cases hr
      obtain ⟨vs3, e1, -, e2, e3, -, e4, -⟩ := C83_edit_product hv hw cmd.req hq
      rw [hr] at e1
      cases e1
      refine ⟨⟨p, rfl, hd.places (i := 0) rfl rfl (by decide +kernel) (by decide +kernel)⟩, fun x => ?_, ?_, e4⟩
      · rw [e2 x, k2 x]
        cases lastGiven (productFlag x) us <;> rfl
      · rw [e3, k1]
        cases lastGiven "--product-class" us <;> rfl

/-- **C125 (edit-product).** It is carried out whenever the command line is right, the package can be opened, the output is agreed to, and
some text that is not empty is given. -/
theorem C125_product_runs_partial {v : Ver} (hv : v ≠ .v0) {name : Str} (hn : name = productCmd.title ∨ name ∈ productCmd.aliases)
    {g l : List Str} {gus us : List ArgUse} {ws : List Str} (hg : CmdLine mainParser g gus []) (hl : CmdLine editProductParser l us ws)
    (hp : ∀ u ∈ gus ++ us, ¬ OnlyPrints u.opt) (ha : ClearFor mainParser l) (hnc : NoConflict gus) (hr : RightLine editProductParser us ws)
    (hopen : ∀ p ∈ ws, f.opens p = .ok ()) (hagree : ∀ x, lastGiven "--output" us = some x → f.agrees x = .ok ())
    {vs : Elem} (hw : ProductWF v vs)
    (hq : (∃ t, lastGiven "--product-class" us = some t ∧ t ≠ []) ∨ ∃ x t, lastGiven (productFlag x) us = some t ∧ t ≠ []) :
    ∃ r, productMain f v (g ++ name :: l) vs = .ok r := by
  have hlen : ws.length = 1 := hr.1
  obtain ⟨p, rfl⟩ : ∃ p, ws = [p] := by
    match ws, hlen with
    | [p], _ => exact ⟨p, rfl⟩
  obtain ⟨cmd, hc⟩ := handed_runs (f := f) (setters := productSetters) product_plain product_page hn hg hl hp ha hnc hr {} (i := 0) rfl rfl
    (hopen p List.mem_cons_self) (by decide +kernel) (by decide +kernel) hagree (by
      intro b g' hm
      unfold productSetters at hm
      simp only [List.mem_cons, List.not_mem_nil, or_false, Prod.mk.injEq] at hm
      rcases hm with ⟨rfl, rfl⟩ | ⟨rfl, rfl⟩ | ⟨rfl, rfl⟩ | ⟨rfl, rfl⟩ | ⟨rfl, rfl⟩ | ⟨rfl, rfl⟩ | ⟨rfl, rfl⟩ | ⟨rfl, rfl⟩
      · exact .inl (storeText_runs (flags := ["-c".toList, "--product-class".toList]) _ (by decide +kernel))
      · exact .inl (storeText_runs (flags := ["-p".toList, "--product".toList]) _ (by decide +kernel))
      · exact .inl (storeText_runs (flags := ["-n".toList, "--vendor".toList]) _ (by decide +kernel))
      · exact .inl (storeText_runs (flags := ["-v".toList, "--version".toList]) _ (by decide +kernel))
      · exact .inl (storeText_runs (flags := ["-V".toList, "--full-version".toList]) _ (by decide +kernel))
      · exact .inl (storeText_runs (flags := ["-u".toList, "--product-url".toList]) _ (by decide +kernel))
      · exact .inl (storeText_runs (flags := ["-r".toList, "--vendor-url".toList]) _ (by decide +kernel))
      · exact .inl (storeText_runs (flags := ["-l".toList, "--application-url".toList]) _ (by decide +kernel)))
  obtain ⟨d, hd⟩ := handed product_plain product_page hn hg hl hp ha hc
  obtain ⟨k1, k2⟩ := product_asks hd
  obtain ⟨vs', e1, -⟩ := C83_edit_product hv hw cmd.req (by
    rcases hq with ⟨t, h1, h2⟩ | ⟨x, t, h1, h2⟩
    · exact .inl ⟨t, by rw [k1, h1], h2⟩
    · exact .inr ⟨x, t, by rw [k2, h1], h2⟩)
  refine ⟨(cmd, vs'), ?_⟩
  unfold productMain
  rw [hc]
  dsimp only
  rw [e1]

end Cot
