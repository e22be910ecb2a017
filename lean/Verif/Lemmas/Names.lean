import Verif.Lemmas.Placeholder
import Verif.Lemmas.RoundTripOk
/-
Names and descriptions of items: what is stored for them and what is read.
-/
namespace Cot

/-- the values that may stand behind the placeholders, as a set of profiles reads them -/
def phVals (env : Env) (it : Item) (P : PSet) : Ph → Option Str
  | .en => match it.getValue env (elementName env.ver) (some P) with
    | .ok (some v) => some (env.valStr v)
    | _ => none
  | .vq => (it.getRaw virtualQuantity (some P)).map env.valStr
  | .rst => (it.getRaw resourceSubType (some P)).map (slashJoin env)
  | .conn => (it.getRaw connection (some P)).map env.valStr

theorem names_plain (env : Env) : Plain env virtualQuantity ∧ Plain env resourceSubType ∧ Plain env connection ∧
    elementName env.ver ≠ itemDescription ∧ elementName env.ver ≠ resourceType ∧ itemDescription ≠ resourceType ∧
    elementName env.ver ≠ resourceSubType ∧ itemDescription ≠ resourceSubType := by
  unfold Plain
  cases env.ver <;> decide +kernel

theorem tameVal_noslash {v : Str} (h : TameVal v) : '\\' ∉ v := by
  intro hm
  have := (h.2.1 _ hm).1
  revert this; decide

theorem ph_ok (k : Ph) : k.text ≠ [] ∧ (∀ c ∈ k.text, plainChar c = true) ∧ '\\' ∉ k.text := by
  cases k <;> decide

theorem ph_texts : "_EN_".toList = Ph.en.text ∧ "_VQ_".toList = Ph.vq.text ∧ "_RST_".toList = Ph.rst.text ∧
    "_CONN_".toList = Ph.conn.text := by decide

theorem addOne_ok {env : Env} (hl : LiteralSub env) {k : Ph} {o : Option Str} (ht : ∀ v, o = some v → TameVal v) (s : Str) :
    addOne env o k.text s = .ok (hideOne k o s) := by
  cases o with
  | none => rfl
  | some v =>
    have hT := ht v rfl
    exact hl v k.text s hT.1 (fun c hc => (hT.2.1 c hc).1) (ph_ok k).2.2

theorem subIf_ok {env : Env} (hl : LiteralSub env) {k : Ph} {o : Option Str} (ht : ∀ v, o = some v → '\\' ∉ v) (s : Str) :
    subIf env k.text o s = .ok (showOne k o s) := by
  cases o with
  | none => rfl
  | some v => exact hl k.text v s (ph_ok k).1 (ph_ok k).2.1 (ht v rfl)

/-- the placeholders used in a name -/
def enOrder : List Ph := [.vq, .rst, .conn]
/-- the placeholders used in a description -/
def descOrder : List Ph := [.en, .vq, .rst, .conn]

theorem valStr_str {env : Env} (x : Str) : env.valStr (.str x) = x := rfl

/-- what is stored for a name -/
theorem addWildcards_en {env : Env} (hl : LiteralSub env) {it : Item} {P : PSet}
    (ht : ∀ k ∈ enOrder, ∀ v, phVals env it P k = some v → TameVal v) (x : Str) :
    it.addWildcards env (elementName env.ver) (.str x) P = .ok (.str (hideAll (phVals env it P) enOrder x)) := by
  obtain ⟨p1, p2, p3, hne, -⟩ := names_plain env
  unfold Item.addWildcards
  rw [if_pos (Or.inl rfl), getValue_plain p1, getValue_plain p2, getValue_plain p3]
  simp only [if_neg hne, bind, Except.bind, pure, Except.pure]
  have h1 := addOne_ok hl (k := .vq) (ht .vq (by decide))
  have h2 := addOne_ok hl (k := .rst) (ht .rst (by decide))
  have h3 := addOne_ok hl (k := .conn) (ht .conn (by decide))
  simp only [phVals] at h1 h2 h3
  obtain ⟨t0, t1, t2, t3⟩ := ph_texts
  rw [t1, t2, t3]
  rw [h1]
  simp only
  rw [h2]
  simp only
  rw [h3]
  rfl

/-- what is stored for a description -/
theorem addWildcards_desc {env : Env} (hl : LiteralSub env) {it : Item} {P : PSet}
    (ht : ∀ k ∈ descOrder, ∀ v, phVals env it P k = some v → TameVal v)
    (hr : ∃ ov, it.getValue env (elementName env.ver) (some P) = .ok ov) (x : Str) :
    it.addWildcards env itemDescription (.str x) P = .ok (.str (hideAll (phVals env it P) descOrder x)) := by
  obtain ⟨p1, p2, p3, hne, -⟩ := names_plain env
  obtain ⟨ov, hov⟩ := hr
  unfold Item.addWildcards
  rw [if_pos (Or.inr rfl), getValue_plain p1, getValue_plain p2, getValue_plain p3, hov]
  simp only [if_pos, bind, Except.bind, pure, Except.pure]
  have h0 := addOne_ok hl (k := .en) (ht .en (by decide))
  have h1 := addOne_ok hl (k := .vq) (ht .vq (by decide))
  have h2 := addOne_ok hl (k := .rst) (ht .rst (by decide))
  have h3 := addOne_ok hl (k := .conn) (ht .conn (by decide))
  have he : phVals env it P .en = ov.map env.valStr := by
    simp only [phVals, hov]
    cases ov <;> rfl
  rw [he] at h0
  simp only [phVals] at h1 h2 h3
  obtain ⟨t0, t1, t2, t3⟩ := ph_texts
  rw [t1, t2, t3]
  rw [t0, h0]
  simp only
  rw [h1]
  simp only
  rw [h2]
  simp only
  rw [h3]
  simp only [descOrder, hideAll, he]
  rfl

theorem hasSub_mem {c : Char} {p s : Str} (h : hasSub (c :: p) s = true) : c ∈ s := by
  induction s with
  | nil => simp [hasSub] at h
  | cons d t ih =>
    unfold hasSub at h
    rw [Bool.or_eq_true] at h
    rcases h with h | h
    · simp [List.isPrefixOf] at h
      simp [h.1]
    · exact List.mem_cons_of_mem _ (ih h)

theorem no_wildcard {x : Str} (h : '_' ∉ x) : hasWildcard x = false := by
  unfold hasWildcard
  have : ∀ p, hasSub ('_' :: p) x = false := fun p => by
    cases hh : hasSub ('_' :: p) x with
    | false => rfl
    | true => exact absurd (hasSub_mem hh) h
  have h1 := this "RST_".toList
  have h2 := this "VQ_".toList
  have h3 := this "CONN_".toList
  have h4 := this "EN_".toList
  show (hasSub ('_' :: "RST_".toList) x || hasSub ('_' :: "VQ_".toList) x || hasSub ('_' :: "CONN_".toList) x ||
    hasSub ('_' :: "EN_".toList) x) = false
  rw [h1, h2, h3, h4]; rfl

/-- the order in which values are put back -/
def enShow : List Ph := [.rst, .vq, .conn]
def descShow : List Ph := [.en, .rst, .vq, .conn]

theorem hide_truthy {vals : Ph → Option Str} {ks : List Ph} (ht : ∀ k ∈ ks, ∀ v, vals k = some v → TameVal v) {x : Str}
    (hx : '_' ∉ x) (hne : x ≠ []) : hideAll vals ks x ≠ [] := by
  obtain ⟨ts, h1, h2, h3, h4, h5⟩ := hide_toks ht hx
  rw [h1]
  cases ts with
  | nil => exact absurd h3.symm hne
  | cons t ts =>
    cases t with
    | ch c => simp [render, PTok.render]
    | ph k => simp [render, PTok.render, Ph.text]

/-- the literal values of placeholders, as tokens -/
def litRaw (vals : Ph → Option Str) : Ph → Option (List PTok) := fun k => (vals k).map (List.map PTok.ch)

theorem litRaw_facts {vals : Ph → Option Str} {k : Ph} (ht : ∀ v, vals k = some v → TameVal v) :
    (∀ vt, litRaw vals k = some vt → Clean vt ∧ vals k = some (expand vals vt)) ∧
    (∀ vt, litRaw vals k = some vt → ∀ l, PTok.ph l ∉ vt) ∧ (litRaw vals k).map render = vals k ∧
    ((∃ v, vals k = some v) → (litRaw vals k).isSome = true) := by
  unfold litRaw
  cases h : vals k with
  | none => simp
  | some v =>
    simp only [Option.map_some, Option.some.injEq]
    refine ⟨?_, ?_, ?_, fun _ => rfl⟩
    · rintro vt rfl
      refine ⟨clean_chars (fun hm => ((ht v h).2.1 '_' hm).2 rfl), by rw [expand_chars]⟩
    · rintro vt rfl l hl
      rw [List.mem_map] at hl
      obtain ⟨d, -, he⟩ := hl
      cases he
    · rw [render_chars]

/-- The name read back is the name that was hidden. -/
theorem getValue_en_back {env : Env} (hl : LiteralSub env) {it : Item} {P : PSet} {vals : Ph → Option Str}
    (ht : ∀ k ∈ enOrder, ∀ v, vals k = some v → TameVal v) (hv : ∀ k ∈ enOrder, phVals env it P k = vals k)
    {x : Str} (hx : TameText x) (hne : x ≠ [])
    (hraw : it.getRaw (elementName env.ver) (some P) = some (.str (hideAll vals enOrder x))) :
    it.getValue env (elementName env.ver) (some P) = .ok (some (.str x)) := by
  obtain ⟨ts, h1, h2, h3, h4, h5⟩ := hide_toks ht hx.1
  have htr : (Val.str (hideAll vals enOrder x)).truthy = true := by
    simp [Val.truthy, hide_truthy ht hx.1 hne]
  have f : ∀ k ∈ enOrder, _ := fun k hk => litRaw_facts (k := k) (ht k hk)
  have key := showAll_toks (vals := vals) (raw := litRaw vals) enShow ts
    (fun k hk => (f k (by revert hk; cases k <;> decide)).1)
    ⟨fun vt h k hk => absurd hk ((f .rst (by decide)).2.1 vt h k), fun vt h k hk => absurd hk ((f .vq (by decide)).2.1 vt h k),
      fun vt h k hk => absurd hk ((f .conn (by decide)).2.1 vt h k), trivial⟩
    h2 (by rw [h3]; exact hx.2)
    (fun k hk => by
      obtain ⟨q1, q2⟩ := h4 k hk
      exact ⟨(by revert q1; cases k <;> decide), (f k q1).2.2.2 q2⟩)
  rw [h3, ← h1] at key
  have hr : it.replaceWildcards env (elementName env.ver) (.str (hideAll vals enOrder x)) (some P) = .ok (.str x) := by
    obtain ⟨-, -, -, hned, -⟩ := names_plain env
    unfold Item.replaceWildcards
    rw [if_neg (by simp [htr]), if_pos (Or.inl rfl)]
    simp only [if_neg hned, bind, Except.bind, pure, Except.pure]
    have e1 := hv .rst (by decide)
    have e2 := hv .vq (by decide)
    have e3 := hv .conn (by decide)
    simp only [phVals] at e1 e2 e3
    rw [e1, e2, e3]
    obtain ⟨t0, t1, t2, t3⟩ := ph_texts
    have s1 := subIf_ok hl (k := .rst) (o := vals .rst) (fun v h => tameVal_noslash (ht .rst (by decide) v h))
    have s2 := subIf_ok hl (k := .vq) (o := vals .vq) (fun v h => tameVal_noslash (ht .vq (by decide) v h))
    have s3 := subIf_ok hl (k := .conn) (o := vals .conn) (fun v h => tameVal_noslash (ht .conn (by decide) v h))
    rw [t2, t1, t3, s1]
    simp only
    rw [s2]
    simp only
    rw [s3]
    simp only [Except.ok.injEq, Val.str.injEq, valStr_str]
    refine Eq.trans ?_ key
    simp only [enShow, showAll, (f .rst (by decide)).2.2.1, (f .vq (by decide)).2.2.1, (f .conn (by decide)).2.2.1]
  unfold Item.getValue
  rw [hraw]
  simp only [hr, bind, Except.bind]
  simp [no_wildcard hx.1]
  rfl

/-- The description read back is the one that was hidden. -/
theorem getValue_desc_back {env : Env} (hl : LiteralSub env) {it : Item} {P : PSet} {vals : Ph → Option Str}
    (ht : ∀ k ∈ descOrder, ∀ v, vals k = some v → TameVal v) (hv : ∀ k ∈ enOrder, phVals env it P k = vals k)
    (hen : ∀ v, vals .en = some v → TameText v)
    (hraw0 : it.getRaw (elementName env.ver) (some P) = (vals .en).map (fun v => .str (hideAll vals enOrder v)))
    {x : Str} (hx : TameText x) (hne : x ≠ [])
    (hraw : it.getRaw itemDescription (some P) = some (.str (hideAll vals descOrder x))) :
    it.getValue env itemDescription (some P) = .ok (some (.str x)) := by
  obtain ⟨ts, h1, h2, h3, h4, h5⟩ := hide_toks ht hx.1
  have hte : ∀ k ∈ enOrder, ∀ v, vals k = some v → TameVal v := fun k hk => ht k (by revert hk; cases k <;> decide)
  have htr : (Val.str (hideAll vals descOrder x)).truthy = true := by
    simp [Val.truthy, hide_truthy ht hx.1 hne]
  have f : ∀ k ∈ enOrder, _ := fun k hk => litRaw_facts (k := k) (hte k hk)
  -- the name as tokens
  obtain ⟨raw, r1, r2⟩ : ∃ raw : Ph → Option (List PTok), (∀ k ∈ enOrder, raw k = litRaw vals k) ∧
      ((raw .en).map render = (vals .en).map (hideAll vals enOrder) ∧
        (∀ vt, raw .en = some vt → Clean vt ∧ vals .en = some (expand vals vt) ∧
          (∀ k, PTok.ph k ∈ vt → k ∈ enOrder ∧ ∃ v, vals k = some v) ∧ '\\' ∉ render vt) ∧
        ((∃ v, vals .en = some v) → (raw .en).isSome = true)) := by
    cases hvn : vals .en with
    | none =>
      refine ⟨fun k => if k = .en then none else litRaw vals k, ?_, ?_, ?_, ?_⟩
      · intro k hk; exact if_neg (by rintro rfl; revert hk; decide)
      · simp
      · simp
      · simp
    | some v =>
      have hT := hen v hvn
      obtain ⟨vt, g1, g2, g3, g4, g5⟩ := hide_toks hte hT.1
      refine ⟨fun k => if k = .en then some vt else litRaw vals k, ?_, ?_, ?_, ?_⟩
      · intro k hk; exact if_neg (by rintro rfl; revert hk; decide)
      · simp [g1]
      · simp only [if_true, Option.some.injEq]
        rintro _ rfl
        refine ⟨g2, by rw [g3], g4, ?_⟩
        intro hm
        rcases mem_render hm with h | h | h
        · exact tameVal_noslash (ht .en (by decide) v hvn) (g5 _ h)
        · revert h; decide
        · revert h; decide
      · simp
  obtain ⟨r2, r3, r4⟩ := r2
  have key := showAll_toks (vals := vals) (raw := raw) descShow ts
    (by
      intro k hk vt hvt
      by_cases hke : k = .en
      · subst hke; exact ⟨(r3 vt hvt).1, (r3 vt hvt).2.1⟩
      · have hk' : k ∈ enOrder := by revert hke; cases k <;> decide
        rw [r1 k hk'] at hvt
        exact (f k hk').1 vt hvt)
    ⟨fun vt h k hk => by
        obtain ⟨q1, q2⟩ := (r3 vt h).2.2.1 k hk
        refine ⟨(by revert q1; cases k <;> decide), ?_⟩
        rw [r1 k q1]; exact (f k q1).2.2.2 q2,
      fun vt h k hk => by rw [r1 .rst (by decide)] at h; exact absurd hk ((f .rst (by decide)).2.1 vt h k),
      fun vt h k hk => by rw [r1 .vq (by decide)] at h; exact absurd hk ((f .vq (by decide)).2.1 vt h k),
      fun vt h k hk => by rw [r1 .conn (by decide)] at h; exact absurd hk ((f .conn (by decide)).2.1 vt h k), trivial⟩
    h2 (by rw [h3]; exact hx.2)
    (fun k hk => by
      obtain ⟨q1, q2⟩ := h4 k hk
      refine ⟨(by cases k <;> decide), ?_⟩
      by_cases hke : k = .en
      · subst hke; exact r4 q2
      · have hk' : k ∈ enOrder := by revert hke; cases k <;> decide
        rw [r1 k hk']; exact (f k hk').2.2.2 q2)
  rw [h3, ← h1] at key
  have hr : it.replaceWildcards env itemDescription (.str (hideAll vals descOrder x)) (some P) = .ok (.str x) := by
    unfold Item.replaceWildcards
    rw [if_neg (by simp [htr]), if_pos (Or.inr rfl)]
    simp only [if_pos, bind, Except.bind, pure, Except.pure]
    have e1 := hv .rst (by decide)
    have e2 := hv .vq (by decide)
    have e3 := hv .conn (by decide)
    simp only [phVals] at e1 e2 e3
    rw [e1, e2, e3, hraw0, Option.map_map]
    have hcomp : (env.valStr ∘ fun v => Val.str (hideAll vals enOrder v)) = hideAll vals enOrder := rfl
    rw [hcomp]
    obtain ⟨t0, t1, t2, t3⟩ := ph_texts
    have s0 := subIf_ok hl (k := .en) (o := (vals .en).map (hideAll vals enOrder)) (fun v h => by
      rw [← r2] at h
      rw [Option.map_eq_some_iff] at h
      obtain ⟨vt, q1, rfl⟩ := h
      exact (r3 vt q1).2.2.2)
    have s1 := subIf_ok hl (k := .rst) (o := vals .rst) (fun v h => tameVal_noslash (ht .rst (by decide) v h))
    have s2 := subIf_ok hl (k := .vq) (o := vals .vq) (fun v h => tameVal_noslash (ht .vq (by decide) v h))
    have s3 := subIf_ok hl (k := .conn) (o := vals .conn) (fun v h => tameVal_noslash (ht .conn (by decide) v h))
    rw [t0, t1, t2, t3, s0]
    simp only
    rw [s1]
    simp only
    rw [s2]
    simp only
    rw [s3]
    simp only [Except.ok.injEq, Val.str.injEq, valStr_str]
    refine Eq.trans ?_ key
    simp only [descShow, showAll, r2, r1 .rst (by decide), r1 .vq (by decide), r1 .conn (by decide),
      (f .rst (by decide)).2.2.1, (f .vq (by decide)).2.2.1, (f .conn (by decide)).2.2.1]
  unfold Item.getValue
  rw [hraw]
  simp only [hr, bind, Except.bind]
  simp [no_wildcard hx.1]
  rfl

end Cot
