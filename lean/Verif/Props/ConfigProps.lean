import Verif.Props.EnvProps
import Verif.Lemmas.Digits
import Mathlib.Tactic.Ring
import Mathlib.Tactic.ByContra
/-
C43: configuration lines become numbered properties.
-/
namespace Cot

/-! ### Keys -/

theorem digitsVal_zeros : ∀ (z : Str) (m : Str), (∀ c ∈ z, c = '0') → digitsVal (z ++ m) = digitsVal m := by
  intro z
  induction z with
  | nil => intro m _; rfl
  | cons c z ih =>
    intro m h
    have hc := h c (by simp)
    subst hc
    rw [← ih m (fun d hd => h d (by simp [hd]))]
    rfl

theorem natStr_head {n : Nat} (h : 0 < n) : (natStr n).head? ≠ some '0' := by
  intro hh
  cases hn : natStr n with
  | nil => exact natStr_ne_nil n hn
  | cons c t =>
    rw [hn] at hh
    simp only [List.head?_cons, Option.some.injEq] at hh
    subst hh
    by_cases ht : t = []
    · subst ht
      have := digitsVal_natStr n
      rw [hn] at this
      have e : digitsVal ['0'] = 0 := rfl
      omega
    · exact natStr_noLeadingZero n _ _ hn ht rfl

theorem numberedKey_iff {lit : Str} {n : Nat} (h : 0 < n) {k : Str} : NumberedKey lit n k ↔ k = configKey lit n := by
  constructor
  · rintro ⟨z, m, rfl, hz, hm, hh, hv, hl⟩
    have hnz : NoLeadingZero m := by
      intro c t e ht hc
      subst e; subst hc
      exact hh rfl
    have e1 := natStr_digitsVal m hm.1 hm.2 hnz
    rw [hv] at e1
    have hz' : z = List.replicate z.length '0' := List.eq_replicate_iff.2 ⟨rfl, hz⟩
    have hl' : z.length = 4 - m.length := by
      rw [List.length_append] at hl; omega
    unfold configKey pad4
    rw [e1, ← hl', ← hz']
  · rintro rfl
    refine ⟨List.replicate (4 - (natStr n).length) '0', natStr n, rfl, ?_, ⟨natStr_ne_nil n, isDig_natStr n⟩,
      natStr_head h, digitsVal_natStr n, ?_⟩
    · intro c hc; exact List.eq_of_mem_replicate hc
    · rw [List.length_append, List.length_replicate]; omega

theorem configKey_inj {lit : Str} {m n : Nat} (h : configKey lit m = configKey lit n) : m = n := by
  unfold configKey at h
  have h1 := List.append_cancel_left h
  simp only [List.cons.injEq, true_and] at h1
  have e : ∀ n, digitsVal (pad4 n) = n := fun n => by
    unfold pad4
    rw [digitsVal_zeros _ _ (fun c hc => List.eq_of_mem_replicate hc), digitsVal_natStr]
  rw [← e m, ← e n, h1]

/-! ### Storing one line -/

theorem lengthAllowed_nil (n : Nat) : LengthAllowed [] n := by
  have h : ∀ name m, ¬ Declares name [] m := by
    rintro name m ⟨pre, d, ⟨_, post, h⟩, -⟩
    simp at h
  exact ⟨fun m hm => absurd hm (h _ _), fun m hm => absurd hm (h _ _)⟩

theorem set_text {v : Ver} (hv : v ≠ .v0) {vs : Elem} (h : PropsWF v vs) {key : Str} (ht : TakesText v vs key) (x : Str)
    (uc : Option Bool) : ∃ vs', setPropertyValue v vs key (some x) uc none none none = (.ok (some x), vs') ∧
      PropsWF v vs' ∧ getPropertyValue v vs' key = .ok (some x) ∧
      (∀ k, k ≠ key → ∀ q, PropIs v vs' k q ↔ PropIs v vs k q) ∧ (∀ k, k ≠ key → (NoProp v vs' k ↔ NoProp v vs k)) := by
  obtain ⟨p, ty, hcase, e1, e2, e3, e4, e5⟩ := setPropertyValue_shape hv h key (some x) uc none none none
  obtain ⟨s1, s2, s3, s4, s5, s6, s7, s8, s9, s10, s11, s12⟩ := editProp_spec v p (some x) uc ty none none
  obtain ⟨n1, n2, n3, n4, n5, n6, n7, n8, n9⟩ := prop_names v
  have hout : (editProp v p (some x) uc ty none none).1 = .ok (some x) := by
    have key1 : Converts ((ty.or (p.get (propType v))).getD []) x x ∧ LengthAllowed ((p.get (propQual v)).getD []) x.length := by
      rcases hcase with ⟨hp, rfl⟩ | ⟨hn, rfl, rfl⟩
      · rcases ht with hn | ⟨p', hp', h1, h2⟩
        · exfalso
          obtain ⟨sec, a1, a2⟩ := (propIs_iff hv).1 hp
          have := (noProp_iff hv).1 hn sec (by rw [a1]; simp)
          rw [a2] at this
          cases this
        · have := propIs_unique hp hp'
          subst this
          have hc : Converts (typeOf v p) x x := by unfold Converts; rw [if_neg h1]
          exact ⟨hc, h2 _⟩
      · refine ⟨?_, ?_⟩
        · have : ((newType none).or (((Elem.new (propertyTag v)).set (propKey v) key).get (propType v))).getD [] = "string".toList := rfl
          rw [this]; unfold Converts; rw [if_neg (by decide)]
        · rw [new_get v key (propQual v) (fun hh => absurd (ovfTag_inj.1 hh) (by decide))]
          exact lengthAllowed_nil _
    rcases s8 x x rfl key1.1 key1.2 with h | h
    · exact h
    · exact absurd h (s10 rfl rfl)
  refine ⟨(setPropertyValue v vs key (some x) uc none none none).2, ?_, e5, ?_, e3, e4⟩
  · rw [← hout, ← e1]
  · obtain ⟨w, a1, a2, -⟩ := (s7 _ hout).2 x rfl
    cases a1
    rw [get_of_propIs hv e2, a2]

theorem takesText_other {v : Ver} {vs vs' : Elem} {k : Str} (h1 : ∀ q, PropIs v vs' k q ↔ PropIs v vs k q)
    (h2 : NoProp v vs' k ↔ NoProp v vs k) (h : TakesText v vs k) : TakesText v vs' k := by
  rcases h with h | ⟨p, hp, r⟩
  · exact Or.inl (h2.2 h)
  · exact Or.inr ⟨p, (h1 p).2 hp, r⟩

theorem strip_blank {s : Str} (h : Blank s) : strip s = [] :=
  strip_eq_iff.2 ⟨⟨s, [], h, by intro c hc; simp at hc, by simp⟩, by simp, by simp⟩

/-- Every list of lines has exactly one list of commands. -/
theorem C43_commands (lines : List Str) : ∃! cmds, Commands lines cmds := by
  induction lines with
  | nil => exact ⟨[], .nil, fun _ h => by cases h; rfl⟩
  | cons line lines ih =>
    obtain ⟨cmds, h1, h2⟩ := ih
    have hst := strip_eq_iff.1 (rfl : strip line = strip line)
    cases hs : strip line with
    | nil =>
      rw [hs] at hst
      obtain ⟨⟨a, b, ha, hb, e⟩, -, -⟩ := hst
      have hbl : Blank line := by
        intro c hc
        rw [e] at hc
        simp only [List.append_nil, List.mem_append] at hc
        exact hc.elim (ha c) (hb c)
      refine ⟨cmds, .blank hbl h1, fun c' h' => ?_⟩
      cases h' with
      | blank _ r => exact h2 _ r
      | comment h _ => exact absurd (hs.symm.trans (strip_eq_iff.2 h)) (by simp)
      | command h _ _ => exact absurd (hs.symm.trans (strip_eq_iff.2 h)) (by simp)
    | cons c t =>
      rw [hs] at hst
      by_cases hc : c = '!'
      · subst hc
        refine ⟨cmds, .comment hst h1, fun c' h' => ?_⟩
        cases h' with
        | blank _ r => exact h2 _ r
        | comment _ r => exact h2 _ r
        | command h hn _ =>
          have := hs.symm.trans (strip_eq_iff.2 h)
          simp only [List.cons.injEq] at this
          exact absurd this.1.symm hn
      · refine ⟨(c :: t) :: cmds, .command hst hc h1, fun c' h' => ?_⟩
        cases h' with
        | blank h _ => exact absurd (hs.symm.trans (strip_blank h)) (by simp)
        | comment h _ =>
          have := hs.symm.trans (strip_eq_iff.2 h)
          simp only [List.cons.injEq] at this
          exact absurd this.1 hc
        | command h _ r =>
          have := hs.symm.trans (strip_eq_iff.2 h)
          rw [this, h2 _ r]

theorem configLoop_spec {v : Ver} (hv : v ≠ .v0) (lit : Str) (uc : Option Bool) {lines cmds : List Str}
    (hc : Commands lines cmds) : ∀ (n : Nat) {vs : Elem}, PropsWF v vs →
      (∀ i, i < cmds.length → TakesText v vs (configKey lit (n + i + 1))) →
      ∃ vs', configLoop v lit uc n lines vs = (.ok (), vs') ∧ PropsWF v vs' ∧
        (∀ i c, cmds[i]? = some c → getPropertyValue v vs' (configKey lit (n + i + 1)) = .ok (some c)) ∧
        (∀ k, (∀ i, i < cmds.length → k ≠ configKey lit (n + i + 1)) →
          getPropertyValue v vs' k = getPropertyValue v vs k) := by
  induction hc with
  | nil => intro n vs h _; exact ⟨vs, rfl, h, by simp, fun _ _ => rfl⟩
  | @blank line lines cmds h r ih =>
    intro n vs hw ht
    obtain ⟨vs', e, hw', g1, g2⟩ := ih n hw ht
    refine ⟨vs', ?_, hw', g1, g2⟩
    rw [configLoop]
    have : skipLine line = true := by unfold skipLine; rw [strip_blank h]
    rw [if_pos this, e]
  | @comment line t lines cmds h r ih =>
    intro n vs hw ht
    obtain ⟨vs', e, hw', g1, g2⟩ := ih n hw ht
    refine ⟨vs', ?_, hw', g1, g2⟩
    rw [configLoop]
    have : skipLine line = true := by unfold skipLine; rw [strip_eq_iff.2 h]; rfl
    rw [if_pos this, e]
  | @command line c t lines cmds h hne r ih =>
    intro n vs hw ht
    obtain ⟨vs1, f1, hw1, f2, f3, f4⟩ := set_text hv hw (ht 0 (by simp)) (c :: t) uc
    have ht1 : ∀ i, i < cmds.length → TakesText v vs1 (configKey lit (n + 1 + i + 1)) := by
      intro i hi
      have hk : configKey lit (n + 1 + i + 1) ≠ configKey lit (n + 0 + 1) := fun hh => by
        have := configKey_inj hh; omega
      have := ht (i + 1) (by simp only [List.length_cons]; omega)
      have e : n + (i + 1) + 1 = n + 1 + i + 1 := by omega
      rw [e] at this
      exact takesText_other (f3 _ hk) (f4 _ hk) this
    obtain ⟨vs', e, hw', g1, g2⟩ := ih (n + 1) hw1 ht1
    refine ⟨vs', ?_, hw', ?_, ?_⟩
    · rw [configLoop]
      have hst := strip_eq_iff.2 h
      have : skipLine line = false := by unfold skipLine; rw [hst]; simpa using hne
      rw [if_neg (by rw [this]; simp), hst]
      have f1' : setPropertyValue v vs (configKey lit (n + 1)) (some (c :: t)) uc none none none = (.ok (some (c :: t)), vs1) := f1
      rw [f1']
      exact e
    · intro i d hi
      cases i with
      | zero =>
        simp only [List.getElem?_cons_zero, Option.some.injEq] at hi
        subst hi
        rw [g2 _ (fun i hi hh => by have := configKey_inj hh; omega)]
        exact f2
      | succ i =>
        rw [List.getElem?_cons_succ] at hi
        have := g1 i d hi
        have e : n + (i + 1) + 1 = n + 1 + i + 1 := by omega
        rw [e]; exact this
    · intro k hk
      have hk0 : k ≠ configKey lit (n + 0 + 1) := hk 0 (by simp)
      rw [g2 k (fun i hi => by
        have := hk (i + 1) (by simp only [List.length_cons]; omega)
        have e : n + (i + 1) + 1 = n + 1 + i + 1 := by omega
        rw [e] at this; exact this)]
      exact get_other hv hw hw1 (f3 k hk0) (f4 k hk0)

/-- the prefix of the keys, for the platforms that take literal configuration lines -/
def ConfigPrefix (p : Plat) (lit : Str) : Prop :=
  (p = .generic ∧ lit = "config".toList) ∨ ((p = .csr ∨ p = .c9800) ∧ lit = "ios-config".toList)

theorem literalCli_iff {p : Plat} {lit : Str} : literalCli p = some lit ↔ ConfigPrefix p lit := by
  unfold ConfigPrefix
  cases p <;> simp [literalCli, eq_comm]

/-- **C43.** The i-th command of the file becomes the value of the property whose key has the number i, for
any file length; every other property keeps its value.  (A property that already exists under one of the keys
must take any text.) -/
theorem C43_lines {v : Ver} (hv : v ≠ .v0) {plat : Plat} {lit : Str} (hl : ConfigPrefix plat lit) {vs : Elem} (h : PropsWF v vs)
    {lines cmds : List Str} (hc : Commands lines cmds) (uc : Option Bool)
    (ht : ∀ n k, 1 ≤ n → n ≤ cmds.length → NumberedKey lit n k → TakesText v vs k) :
    ∃ vs', configFileToProperties v plat lines uc vs = (.ok (), vs') ∧ PropsWF v vs' ∧
      (∀ i c k, cmds[i]? = some c → NumberedKey lit (i + 1) k → getPropertyValue v vs' k = .ok (some c)) ∧
      (∀ k, (∀ n, 1 ≤ n → n ≤ cmds.length → ¬ NumberedKey lit n k) → getPropertyValue v vs' k = getPropertyValue v vs k) := by
  obtain ⟨vs', e, hw, g1, g2⟩ := configLoop_spec hv lit uc hc 0 h (fun i hi =>
    ht (i + 1) _ (by omega) (by omega) ((numberedKey_iff (by omega)).2 (by rw [Nat.zero_add])))
  refine ⟨vs', ?_, hw, ?_, ?_⟩
  · unfold configFileToProperties
    rw [literalCli_iff.2 hl]; exact e
  · intro i c k hi hk
    rw [(numberedKey_iff (by omega)).1 hk]
    have := g1 i c hi
    rwa [Nat.zero_add] at this
  · intro k hk
    refine g2 k (fun i hi hh => hk (i + 1) (by omega) (by omega) ((numberedKey_iff (by omega)).2 ?_))
    rw [hh, Nat.zero_add]

/-- **C43 (no key twice).** For every number there is exactly one key, and different numbers have different keys. -/
theorem C43_keys (lit : Str) {n : Nat} (hn : 0 < n) :
    (∃! k, NumberedKey lit n k) ∧ ∀ m k, NumberedKey lit n k → NumberedKey lit m k → 0 < m → m = n := by
  refine ⟨⟨configKey lit n, (numberedKey_iff hn).2 rfl, fun k hk => (numberedKey_iff hn).1 hk⟩, ?_⟩
  intro m k h1 h2 hm
  exact configKey_inj (((numberedKey_iff hm).1 h2).symm.trans ((numberedKey_iff hn).1 h1))

/-- **C43 (other platforms).** Without a platform that takes literal configuration lines nothing changes. -/
theorem C43_unsupported (v : Ver) {plat : Plat} (h : ∀ lit, ¬ ConfigPrefix plat lit) (lines : List Str) (uc : Option Bool) (vs : Elem) :
    configFileToProperties v plat lines uc vs = (.error .notImplementedError, vs) := by
  unfold configFileToProperties
  cases hl : literalCli plat with
  | none => rfl
  | some lit => exact absurd (literalCli_iff.1 hl) (h lit)

/-! ### Sorting the keys -/

theorem digitsVal_cons (c : Char) (s : Str) : digitsVal (c :: s) = digVal c * 10 ^ s.length + digitsVal s := by
  induction s using List.reverseRecOn with
  | nil => simp [digitsVal]
  | append_singleton s d ih =>
    rw [← List.cons_append, digitsVal_append, ih, digitsVal_append, List.length_append, List.length_singleton, pow_succ]
    ring

theorem digitsVal_lt : ∀ (s : Str), (∀ c ∈ s, isDig c = true) → digitsVal s < 10 ^ s.length := by
  intro s
  induction s with
  | nil => intro _; decide
  | cons c s ih =>
    intro h
    have h1 := ih (fun d hd => h d (by simp [hd]))
    have h2 := digVal_lt (h c (by simp))
    rw [digitsVal_cons, List.length_cons, pow_succ]
    have : digVal c * 10 ^ s.length ≤ 9 * 10 ^ s.length := Nat.mul_le_mul_right _ (by omega)
    omega

theorem digVal_lt_iff {c d : Char} (hc : isDig c = true) (hd : isDig d = true) : digVal c < digVal d ↔ c < d := by
  have h1 := (isDig_iff c).1 hc
  have h2 := (isDig_iff d).1 hd
  have : c < d ↔ c.toNat < d.toNat := Iff.rfl
  rw [this]
  unfold digVal
  omega

/-- numerals of the same length are ordered like their values -/
theorem lex_of_digitsVal : ∀ (a b : Str), a.length = b.length → (∀ c ∈ a, isDig c = true) → (∀ c ∈ b, isDig c = true) →
    digitsVal a < digitsVal b → a < b := by
  intro a
  induction a with
  | nil => intro b hl _ _ h; cases b with
    | nil => simp at h
    | cons => simp at hl
  | cons c a ih =>
    intro b hl ha hb h
    cases b with
    | nil => simp at hl
    | cons d b =>
      simp only [List.length_cons, Nat.add_right_cancel_iff] at hl
      rw [digitsVal_cons, digitsVal_cons, hl] at h
      have la := digitsVal_lt a (fun x hx => ha x (by simp [hx]))
      have lb := digitsVal_lt b (fun x hx => hb x (by simp [hx]))
      rw [hl] at la
      have hc := ha c (by simp)
      have hd := hb d (by simp)
      rw [List.cons_lt_cons_iff]
      rcases Nat.lt_trichotomy (digVal c) (digVal d) with hlt | heq | hgt
      · exact Or.inl ((digVal_lt_iff hc hd).1 hlt)
      · right
        refine ⟨?_, ih b hl (fun x hx => ha x (by simp [hx])) (fun x hx => hb x (by simp [hx])) (by rw [heq] at h; omega)⟩
        rw [← digitChar_digVal hc, ← digitChar_digVal hd, heq]
      · exfalso
        have : (digVal d + 1) * 10 ^ b.length ≤ digVal c * 10 ^ b.length := Nat.mul_le_mul_right _ hgt
        rw [Nat.add_mul, Nat.one_mul] at this
        omega

theorem append_lt_append {l a b : Str} (h : a < b) : l ++ a < l ++ b := by
  induction l with
  | nil => exact h
  | cons c l ih => rw [List.cons_append, List.cons_append, List.cons_lt_cons_iff]; exact Or.inr ⟨rfl, ih⟩

theorem natStr_length_le {n : Nat} (h : n < 10000) : (natStr n).length ≤ 4 := by
  by_contra hc
  cases hn : natStr n with
  | nil => rw [hn] at hc; simp at hc
  | cons c t =>
    rw [hn, List.length_cons] at hc
    have hpos : 0 < n := by
      rcases Nat.eq_zero_or_pos n with rfl | h
      · rw [show natStr 0 = ['0'] from rfl] at hn
        cases hn
        simp at hc
      · exact h
    have h1 := digitsVal_natStr n
    rw [hn, digitsVal_cons] at h1
    have hcd : isDig c = true := isDig_natStr n c (by rw [hn]; simp)
    have hc0 : digVal c ≠ 0 := by
      intro h0
      have := digitChar_digVal hcd
      rw [h0] at this
      apply natStr_head hpos
      rw [hn, ← this]; rfl
    have h2 : 10 ^ 4 ≤ 10 ^ t.length := Nat.pow_le_pow_right (by omega) (by omega)
    have h3 : 1 * 10 ^ t.length ≤ digVal c * 10 ^ t.length := Nat.mul_le_mul_right _ (by omega)
    omega

/-- **C43 (sorting).** Up to 9999 the keys sort, as strings, in the order of their numbers. -/
theorem C43_sorted_partial (lit : Str) {m n : Nat} (h0 : 0 < m) (hmn : m < n) (hn : n ≤ 9999) {k k' : Str}
    (hk : NumberedKey lit m k) (hk' : NumberedKey lit n k') : k < k' := by
  rw [(numberedKey_iff h0).1 hk, (numberedKey_iff (by omega)).1 hk']
  unfold configKey
  apply append_lt_append
  rw [List.cons_lt_cons_iff]
  right
  refine ⟨rfl, ?_⟩
  have hlen : ∀ n, n ≤ 9999 → (pad4 n).length = 4 := fun n h => by
    unfold pad4
    have := natStr_length_le (n := n) (by omega)
    rw [List.length_append, List.length_replicate]; omega
  have hdig : ∀ n, ∀ c ∈ pad4 n, isDig c = true := fun n c hc => by
    unfold pad4 at hc
    rcases List.mem_append.1 hc with h | h
    · rw [List.eq_of_mem_replicate h]; rfl
    · exact isDig_natStr n c h
  have hval : ∀ n, digitsVal (pad4 n) = n := fun n => by
    unfold pad4
    rw [digitsVal_zeros _ _ (fun c hc => List.eq_of_mem_replicate hc), digitsVal_natStr]
  exact lex_of_digitsVal _ _ (by rw [hlen m (by omega), hlen n hn]) (hdig m) (hdig n) (by rw [hval, hval]; exact hmn)

/-- From the ten-thousandth line on the keys no longer sort in file order. -/
theorem C43_sorted_fails : ∃ k k', NumberedKey "config".toList 9999 k ∧ NumberedKey "config".toList 10000 k' ∧ k' < k :=
  ⟨configKey "config".toList 9999, configKey "config".toList 10000, (numberedKey_iff (by omega)).2 rfl,
    (numberedKey_iff (by omega)).2 rfl, by decide +kernel⟩

/-! ### The hypotheses can be met -/

theorem exVs_sections : exVs.children.filter (fun e => decide (e.tag = ovfTag .v1 "ProductSection".toList)) = exVs.children := by
  rfl

theorem exVs_wf : PropsWF .v1 exVs := by
  refine ⟨by rw [exVs_sections]; decide, fun key => ?_⟩
  by_cases hk : key = "login".toList
  · subst hk
    right
    refine ⟨(exVs.children.headD (.new [])).children.getLastD (.new []), exVs.children.headD (.new []), exVs_sections, ?_⟩
    rfl
  · left
    intro sec hsec _ p hp hh
    have e1 : sec = exVs.children.headD (.new []) := by
      simpa [exVs, Elem.children] using hsec
    subst e1
    have e2 : p ∈ [(exVs.children.headD (.new [])).children.headD (.new []),
        (exVs.children.headD (.new [])).children.getLastD (.new [])] := hp
    simp only [List.mem_cons, List.not_mem_nil, or_false] at e2
    rcases e2 with rfl | rfl
    · exact absurd hh.1 (by decide +kernel)
    · apply hk
      have : ((exVs.children.headD (.new [])).children.getLastD (.new [])).get (ovfTag .v1 "key".toList) = some "login".toList := by
        decide +kernel
      rw [this] at hh
      exact (Option.some.inj hh.2).symm

/-- setting a value, being refused, and importing configuration lines in the example -/
example : (setPropertyValue .v1 exVs "login".toList (some "wxyz".toList) none none none none).1 = .ok (some "wxyz".toList) ∧
    (setPropertyValue .v1 exVs "login".toList (some "wxyzz".toList) none none none none).1 = .error .valueUnsupported ∧
    Commands ["! comment\n".toList, "  hostname r1 \n".toList, "\n".toList, "end".toList] ["hostname r1".toList, "end".toList] ∧
    (configFileToProperties .v1 .csr ["! comment\n".toList, "  hostname r1 \n".toList, "\n".toList, "end".toList] none exVs).1 = .ok () := by
  refine ⟨rfl, rfl, ?_, rfl⟩
  refine .comment (t := " comment".toList) (strip_eq_iff.1 (by decide +kernel)) (.command (c := 'h') (t := "ostname r1".toList) (strip_eq_iff.1 (by decide +kernel)) (by decide)
    (.blank (by unfold Blank; decide) (.command (c := 'e') (t := "nd".toList) (strip_eq_iff.1 (by decide +kernel)) (by decide) .nil)))

/-- the new keys take any text in the example -/
example : ∀ n k, 0 < n → NumberedKey "ios-config".toList n k → TakesText .v1 exVs k := by
  intro n k hn hk
  left
  rcases exVs_wf.2 k with h | ⟨p, sec, h1, h2⟩
  · exact h
  · exfalso
    rw [exVs_sections] at h1
    have e : sec = exVs.children.headD (.new []) := by rw [h1]; rfl
    subst e
    have hp : p ∈ (exVs.children.headD (.new [])).children.filter (fun e => e.tag = ovfTag .v1 "Property".toList ∧
      e.get (ovfTag .v1 "key".toList) = some k) := by rw [h2]; simp
    obtain ⟨hp1, hp2⟩ := List.mem_filter.1 hp
    have hp2' := of_decide_eq_true hp2
    have e2 : p ∈ [(exVs.children.headD (.new [])).children.headD (.new []),
        (exVs.children.headD (.new [])).children.getLastD (.new [])] := hp1
    simp only [List.mem_cons, List.not_mem_nil, or_false] at e2
    rcases e2 with rfl | rfl
    · exact absurd hp2'.1 (by decide +kernel)
    · have : ((exVs.children.headD (.new [])).children.getLastD (.new [])).get (ovfTag .v1 "key".toList) = some "login".toList := by
        decide +kernel
      rw [this] at hp2'
      rw [(numberedKey_iff hn).1 hk] at hp2'
      have h3 := congrArg List.head? (Option.some.inj hp2'.2)
      have : (configKey "ios-config".toList n).head? = some 'i' := rfl
      rw [this] at h3
      exact absurd h3 (by decide)

theorem exVs_obey : AllObey .v1 exVs := by
  intro key p w hp hw
  obtain ⟨sec, h1, h2⟩ := hp
  rw [exVs_sections] at h1
  have e : sec = exVs.children.headD (.new []) := by rw [h1]; rfl
  subst e
  have hp : p ∈ (exVs.children.headD (.new [])).children.filter (fun e => e.tag = ovfTag .v1 "Property".toList ∧
    e.get (ovfTag .v1 "key".toList) = some key) := by rw [h2]; simp
  obtain ⟨hp1, hp2⟩ := List.mem_filter.1 hp
  have hp2' := of_decide_eq_true hp2
  have e2 : p ∈ [(exVs.children.headD (.new [])).children.headD (.new []),
      (exVs.children.headD (.new [])).children.getLastD (.new [])] := hp1
  simp only [List.mem_cons, List.not_mem_nil, or_false] at e2
  rcases e2 with rfl | rfl
  · exact absurd hp2'.1 (by decide +kernel)
  · have e3 : typeOf .v1 ((exVs.children.headD (.new [])).children.getLastD (.new [])) = "string".toList := by decide +kernel
    have e4 : qualOf .v1 ((exVs.children.headD (.new [])).children.getLastD (.new [])) = "MinLen(2) MaxLen(4)".toList := by
      decide +kernel
    have e5 : ((exVs.children.headD (.new [])).children.getLastD (.new [])).get (valueAttr .v1) = some "abc".toList := by
      decide +kernel
    rw [e5] at hw
    cases hw
    rw [e3, e4]
    exact ⟨fun h => absurd h (by decide), checkQualifiers_iff.1.1 (by rfl)⟩

/-- the hypotheses of `C42_history_partial` hold in the example, with a step that sets a value -/
example : ∃ vs', SetSteps .v1 exVs vs' ∧ getPropertyValue .v1 vs' "login".toList = .ok (some "wxyz".toList) ∧
    PropsWF .v1 vs' ∧ AllObey .v1 vs' := by
  have hs : SetSteps .v1 exVs (setPropertyValue .v1 exVs "login".toList (some "wxyz".toList) none none none none).2 :=
    .step (.refl _) ⟨_, _, _, _, _, _, rfl, Or.inl rfl⟩
  exact ⟨_, hs, rfl, C42_history_partial (by decide) exVs_wf exVs_obey hs⟩

end Cot
