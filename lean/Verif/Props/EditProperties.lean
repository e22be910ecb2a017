import Verif.Lemmas.EditProps
import Verif.Props.ConfigProps
/-
C84: edit-properties with options.
-/
namespace Cot

theorem propState_exists {v : Ver} {vs : Elem} (h : PropsWF v vs) (key : Str) : ∃ o, PropState v vs key o := by
  rcases h.2 key with hn | ⟨p, hp⟩
  · exact ⟨none, hn⟩
  · exact ⟨some p, hp⟩

theorem propState_unique {v : Ver} {vs : Elem} {key : Str} {o o' : Option Elem} (h : PropState v vs key o)
    (h' : PropState v vs key o') : o = o' := by
  have hcl : ∀ p, NoProp v vs key → ¬ PropIs v vs key p := by
    intro p hn ⟨sec, e1, e2⟩
    have h1 : sec ∈ vs.children.filter (fun e => e.tag = ovfTag v "ProductSection".toList) := by rw [e1]; simp
    have h2 : p ∈ sec.children.filter (fun e => e.tag = ovfTag v "Property".toList ∧ e.get (ovfTag v "key".toList) = some key) := by
      rw [e2]; simp
    obtain ⟨a, b⟩ := List.mem_filter.1 h1
    obtain ⟨c, d⟩ := List.mem_filter.1 h2
    exact hn sec a (of_decide_eq_true b) p c (of_decide_eq_true d)
  cases o with
  | none => cases o' with
    | none => rfl
    | some q => exact absurd h' (hcl q h)
  | some p => cases o' with
    | none => exact absurd h (hcl p h')
    | some q => rw [propIs_unique h h']

theorem get_of_state {v : Ver} (hv : v ≠ .v0) {vs : Elem} (h : PropsWF v vs) {key : Str} {o : Option Elem}
    (hs : PropState v vs key o) : getPropertyValue v vs key = .ok (o.bind (fun p => p.get (propValue v))) := by
  cases o with
  | none => exact get_of_noProp hv h hs
  | some p => exact get_of_propIs hv hs

/-- inversion of one step of the loop -/
theorem propLoop_cons {v : Ver} {ask : Str → Bool} {uc : Option Bool} {e : PropEntry} {r : List PropEntry} {vs vs' : Elem}
    (h : propLoop v ask uc (e :: r) vs = .ok vs') :
    ∃ cur o vs1, getPropertyValue v vs e.key = .ok cur ∧ (cur = none → ask e.key = true) ∧
      setPropertyValue v vs e.key e.value uc e.ptype e.label e.desc = (.ok o, vs1) ∧ propLoop v ask uc r vs1 = .ok vs' := by
  unfold propLoop at h
  split at h
  · cases h
  · rename_i cur hc
    split at h
    · cases h
    · rename_i hask
      split at h
      · cases h
      · rename_i o vs1 hs
        refine ⟨cur, o, vs1, hc, ?_, hs, h⟩
        intro hn
        cases ha : ask e.key with
        | true => rfl
        | false => exact absurd ⟨hn, ha⟩ hask

theorem propLoop_changes {v : Ver} (hv : v ≠ .v0) {ask : Str → Bool} {uc : Option Bool} :
    ∀ {es : List PropEntry} {vs vs' : Elem}, PropsWF v vs → propLoop v ask uc es vs = .ok vs' →
      PropsWF v vs' ∧ ∀ key, ∃ o o', PropState v vs key o ∧ PropState v vs' key o' ∧
        Changes v uc (es.filter (fun e => e.key = key)) o o' := by
  intro es
  induction es with
  | nil =>
    intro vs vs' h hl
    cases hl
    refine ⟨h, fun key => ?_⟩
    obtain ⟨o, ho⟩ := propState_exists h key
    exact ⟨o, o, ho, ho, Changes.nil o⟩
  | cons e r ih =>
    intro vs vs' h hl
    obtain ⟨cur, x, vs1, -, -, hs, hl'⟩ := propLoop_cons hl
    obtain ⟨w1, ⟨o, p', s1, s2, s3⟩, s4⟩ := set_change hv h e uc hs
    obtain ⟨w2, ih2⟩ := ih w1 hl'
    refine ⟨w2, fun key => ?_⟩
    obtain ⟨o1, o2, t1, t2, t3⟩ := ih2 key
    by_cases hk : e.key = key
    · subst hk
      cases propState_unique t1 s2
      refine ⟨o, o2, s1, t2, ?_⟩
      rw [List.filter_cons, if_pos (by simp)]
      exact Changes.cons s3 t3
    · refine ⟨o1, o2, (s4 key (Ne.symm hk) o1).1 t1, t2, ?_⟩
      rw [List.filter_cons, if_neg (by simpa using hk)]
      exact t3

theorem propLoop_only {v : Ver} (hv : v ≠ .v0) {ask : Str → Bool} {uc : Option Bool} :
    ∀ {es : List PropEntry} {vs vs' : Elem}, PropsWF v vs → propLoop v ask uc es vs = .ok vs' →
      ∃ new, OnlyProps v new vs vs' ∧ new.Sublist (es.map PropEntry.key) ∧ new.Nodup ∧
        ∀ k, k ∈ new ↔ NoProp v vs k ∧ ∃ e ∈ es, e.key = k := by
  intro es
  induction es with
  | nil =>
    intro vs vs' h hl
    cases hl
    exact ⟨[], ⟨sameButKids_refl _ _, Or.inl ⟨rfl, rfl⟩⟩, List.Sublist.refl _, List.nodup_nil, by simp⟩
  | cons e r ih =>
    intro vs vs' h hl
    obtain ⟨cur, x, vs1, -, -, hs, hl'⟩ := propLoop_cons hl
    obtain ⟨w1, ⟨o, p', s1, s2, s3⟩, s4⟩ := set_change hv h e uc hs
    obtain ⟨n1, c1, f1⟩ := setPropertyValue_frame hv h e.key e.value uc e.ptype e.label e.desc
    rw [hs] at f1
    obtain ⟨n2, f2, u2, d2, m2⟩ := ih w1 hl'
    have hno : ¬ NoProp v vs1 e.key := fun hn => by
      have := propState_unique (o := none) hn s2
      cases this
    have hother : ∀ k, k ≠ e.key → (NoProp v vs1 k ↔ NoProp v vs k) := fun k hk => s4 k hk none
    have hn2 : e.key ∉ n2 := fun hh => hno ((m2 _).1 hh).1
    refine ⟨n1 ++ n2, f1.trans f2, ?_, ?_, ?_⟩
    · rcases c1 with ⟨-, rfl⟩ | ⟨-, rfl⟩
      · exact u2.cons_cons _
      · exact u2.cons _
    · rcases c1 with ⟨-, rfl⟩ | ⟨-, rfl⟩
      · exact List.nodup_cons.2 ⟨hn2, d2⟩
      · exact d2
    · intro k
      rw [List.mem_append, m2]
      rcases c1 with ⟨hn, rfl⟩ | ⟨⟨p, hp⟩, rfl⟩
      · by_cases hk : k = e.key
        · subst hk; simp [hn]
        · rw [hother k hk]
          simp [hk, Ne.symm hk]
      · by_cases hk : k = e.key
        · subst hk
          have : ¬ NoProp v vs e.key := fun hn => by
            have := propState_unique (o := none) (o' := some p) hn hp
            cases this
          simp [hno, this]
        · rw [hother k hk]
          simp [Ne.symm hk]

theorem propLoop_consent {v : Ver} (hv : v ≠ .v0) {ask : Str → Bool} {uc : Option Bool} :
    ∀ {es : List PropEntry} {vs vs' : Elem}, PropsWF v vs → propLoop v ask uc es vs = .ok vs' →
      ∀ e ∈ es, getPropertyValue v vs e.key = .ok none → ask e.key = true := by
  intro es
  induction es with
  | nil => intro vs vs' _ _ e he; cases he
  | cons a r ih =>
    intro vs vs' h hl e he hg
    obtain ⟨cur, x, vs1, hc, hcons, hs, hl'⟩ := propLoop_cons hl
    by_cases hk : e.key = a.key
    · rw [hk, hc] at hg
      rw [hk]
      cases hg
      exact hcons rfl
    · obtain ⟨w1, -, s4⟩ := set_change hv h a uc hs
      rcases List.mem_cons.1 he with rfl | he
      · exact absurd rfl hk
      · refine ih w1 hl' e he ?_
        obtain ⟨o, ho⟩ := propState_exists h e.key
        rw [get_of_state hv w1 ((s4 _ hk o).2 ho), ← get_of_state hv h ho, hg]

/-- values do not disappear -/
theorem set_none {v : Ver} (hv : v ≠ .v0) {vs vs' : Elem} (h : PropsWF v vs) (e : PropEntry) (uc : Option Bool) {r : Option Str}
    (hs : setPropertyValue v vs e.key e.value uc e.ptype e.label e.desc = (.ok r, vs')) (k : Str)
    (hg : getPropertyValue v vs' k = .ok none) : getPropertyValue v vs k = .ok none := by
  obtain ⟨w1, ⟨o, p', s1, s2, s3⟩, s4⟩ := set_change hv h e uc hs
  by_cases hk : k = e.key
  · subst hk
    rw [get_of_state hv w1 s2] at hg
    have hg' : p'.get (valueAttr v) = none := by injection hg
    rw [get_of_state hv h s1]
    have hbase : (baseProp v e.key o).get (valueAttr v) = none := by
      cases hv0 : (baseProp v e.key o).get (valueAttr v) with
      | none => rfl
      | some y =>
        exfalso
        cases hx : e.value with
        | some x => obtain ⟨w, a, -⟩ := s3.given x hx; rw [a] at hg'; cases hg'
        | none =>
          by_cases ht : e.ptype = none
          · rw [s3.kept hx (Or.inl ht), hv0] at hg'; cases hg'
          · obtain ⟨w, a, -⟩ := s3.retyped hx ht y hv0; rw [a] at hg'; cases hg'
    cases o with
    | none => rfl
    | some p => exact congrArg Except.ok hbase
  · obtain ⟨o', ho⟩ := propState_exists h k
    rw [get_of_state hv h ho]
    rw [get_of_state hv w1 ((s4 _ hk o').2 ho)] at hg
    exact hg

theorem propLoop_ask {v : Ver} (hv : v ≠ .v0) {ask ask' : Str → Bool} {uc : Option Bool} :
    ∀ {es : List PropEntry} {vs : Elem}, PropsWF v vs →
      (∀ e ∈ es, getPropertyValue v vs e.key = .ok none → ask e.key = ask' e.key) →
      propLoop v ask uc es vs = propLoop v ask' uc es vs := by
  intro es
  induction es with
  | nil => intro vs _ _; rfl
  | cons a r ih =>
    intro vs h hag
    obtain ⟨o, ho⟩ := propState_exists h a.key
    have hg := get_of_state hv h ho
    unfold propLoop
    rw [hg]
    simp only
    have hc : (Option.bind o (fun p => p.get (propValue v)) = none ∧ ask a.key = false) ↔
        (Option.bind o (fun p => p.get (propValue v)) = none ∧ ask' a.key = false) := by
      constructor <;> rintro ⟨h1, h2⟩ <;> refine ⟨h1, ?_⟩
      · rw [← hag a (by simp) (by rw [hg, h1])]; exact h2
      · rw [hag a (by simp) (by rw [hg, h1])]; exact h2
    by_cases hh : Option.bind o (fun p => p.get (propValue v)) = none ∧ ask a.key = false
    · rw [if_pos hh, if_pos (hc.1 hh)]
    · rw [if_neg hh, if_neg (fun x => hh (hc.2 x))]
      cases hs : setPropertyValue v vs a.key a.value uc a.ptype a.label a.desc with
      | mk x vs1 =>
        cases x with
        | error e => rfl
        | ok y =>
          simp only
          obtain ⟨w1, -, -⟩ := set_change hv h a uc hs
          exact ih w1 (fun e he hge => hag e (by simp [he]) (set_none hv h a uc hs _ hge))

/-- an acceptable entry is stored -/
theorem set_accept {v : Ver} (hv : v ≠ .v0) {vs : Elem} (h : PropsWF v vs) (e : PropEntry) (uc : Option Bool) {o : Option Elem}
    (ho : PropState v vs e.key o) (ha : Acceptable v o e) :
    ∃ r vs', setPropertyValue v vs e.key e.value uc e.ptype e.label e.desc = (.ok r, vs') := by
  obtain ⟨p, ty, hcase, e1, -⟩ := setPropertyValue_shape hv h e.key e.value uc e.ptype e.label e.desc
  obtain ⟨n1, n2, n3, n4, n5, n6, n7, n8, n9⟩ := prop_names v
  obtain ⟨a1, a2, a3⟩ := ha
  have key : ∃ r, (editProp v p e.value uc ty e.label e.desc).1 = .ok r := by
    rcases hcase with ⟨hp, rfl⟩ | ⟨hn, rfl, rfl⟩
    · cases propState_unique (o' := some p) ho hp
      refine editProp_succeeds ?_ a2 a3
      intro x hx
      obtain ⟨w, b1, b2⟩ := a1 x (by
        unfold valueToSet at hx
        cases hval : e.value with
        | some y => rw [hval] at hx; exact Or.inl hx
        | none =>
          rw [hval] at hx
          right
          cases hty : e.ptype with
          | none => rw [hty] at hx; cases hx
          | some t => rw [hty] at hx; exact ⟨rfl, by simp, hx⟩)
      rw [if_neg (by simp)] at b1
      refine ⟨w, ?_, b2⟩
      cases hty : e.ptype with
      | none => rw [hty] at b1; exact b1
      | some t => rw [hty] at b1; exact b1
    · cases propState_unique (o' := none) ho hn
      have hbt : (baseProp v e.key none).get (propType v) = none := by
        rw [← baseProp_new]; exact new_get v e.key _ (Ne.symm n2)
      have hbv : (baseProp v e.key none).get (propValue v) = none := by
        rw [← baseProp_new]; exact new_get v e.key _ (Ne.symm n1)
      rw [baseProp_new]
      refine editProp_succeeds ?_ a2 a3
      intro x hx
      obtain ⟨w, b1, b2⟩ := a1 x (by
        unfold valueToSet at hx
        cases hval : e.value with
        | some y => rw [hval] at hx; exact Or.inl hx
        | none =>
          exfalso
          rw [hval] at hx
          cases hty : newType e.ptype with
          | none => rw [hty] at hx; cases hx
          | some t => rw [hty] at hx; simp only at hx; rw [hbv] at hx; cases hx)
      rw [if_pos rfl] at b1
      refine ⟨w, ?_, b2⟩
      rw [hbt]
      cases hty : e.ptype with
      | none => rw [hty] at b1; exact b1
      | some t => rw [hty] at b1; exact b1
  obtain ⟨r, hr⟩ := key
  rw [hr] at e1
  cases hs : setPropertyValue v vs e.key e.value uc e.ptype e.label e.desc with
  | mk x vs1 => rw [hs] at e1; exact ⟨r, vs1, by rw [show x = .ok r from e1]⟩

theorem propLoop_succeeds {v : Ver} (hv : v ≠ .v0) {ask : Str → Bool} {uc : Option Bool} :
    ∀ {es : List PropEntry} {vs : Elem}, PropsWF v vs → (es.map PropEntry.key).Nodup →
      (∀ e ∈ es, ∀ o, PropState v vs e.key o → Acceptable v o e) →
      (∀ e ∈ es, getPropertyValue v vs e.key = .ok none → ask e.key = true) →
      ∃ vs', propLoop v ask uc es vs = .ok vs' := by
  intro es
  induction es with
  | nil => intro vs _ _ _ _; exact ⟨vs, rfl⟩
  | cons a r ih =>
    intro vs h hnd hacc hask
    obtain ⟨o, ho⟩ := propState_exists h a.key
    obtain ⟨x, vs1, hs⟩ := set_accept hv h a uc ho (hacc a (by simp) o ho)
    obtain ⟨w1, -, s4⟩ := set_change hv h a uc hs
    rw [List.map_cons, List.nodup_cons] at hnd
    have hne : ∀ e ∈ r, e.key ≠ a.key := fun e he hh => hnd.1 (by rw [← hh]; exact List.mem_map_of_mem he)
    obtain ⟨vs', hl⟩ := ih w1 hnd.2 (fun e he o' ho' => hacc e (by simp [he]) o' ((s4 _ (hne e he) o').1 ho'))
      (fun e he hg => hask e (by simp [he]) (set_none hv h a uc hs _ hg))
    refine ⟨vs', ?_⟩
    unfold propLoop
    have hg := get_of_state hv h ho
    rw [hg]
    simp only
    rw [if_neg, hs]
    · exact hl
    · rintro ⟨h1, h2⟩
      rw [hask a (by simp) (by rw [hg, h1])] at h2
      cases h2

theorem entriesFrom_get (q : PropReq) : ∀ (l : List (Str × Option Str × Option Str)) (n i : Nat) (e : PropEntry),
    (entriesFrom q n l)[i]? = some e → l[i]? = some (e.key, e.value, e.ptype) ∧ e.label = q.labels[n + i]? ∧ e.desc = q.descs[n + i]?
  | [], n, i, e, h => by simp [entriesFrom] at h
  | p :: r, n, 0, e, h => by
    simp only [entriesFrom, List.getElem?_cons_zero, Option.some.injEq] at h
    subst h
    simp
  | p :: r, n, i + 1, e, h => by
    rw [entriesFrom, List.getElem?_cons_succ] at h
    have := entriesFrom_get q r (n + 1) i e h
    rw [List.getElem?_cons_succ]
    have e1 : n + 1 + i = n + (i + 1) := by omega
    rwa [e1] at this

theorem entriesFrom_length (q : PropReq) : ∀ (l : List (Str × Option Str × Option Str)) (n : Nat), (entriesFrom q n l).length = l.length
  | [], _ => rfl
  | p :: r, n => by simp [entriesFrom, entriesFrom_length q r]

theorem entries_unique {q : PropReq} {es es' : List PropEntry} (h : EntriesOf q es) (h' : EntriesOf q es') : es = es' := by
  apply List.ext_getElem?
  intro i
  cases he : es[i]? with
  | none =>
    cases he' : es'[i]? with
    | none => rfl
    | some b =>
      have h1 := List.getElem?_eq_none_iff.1 he
      have h2 := (List.getElem?_eq_some_iff.1 he').1
      rw [h.1] at h1; rw [h'.1] at h2; omega
  | some a =>
    cases he' : es'[i]? with
    | none =>
      have h1 := List.getElem?_eq_none_iff.1 he'
      have h2 := (List.getElem?_eq_some_iff.1 he).1
      rw [h'.1] at h1; rw [h.1] at h2; omega
    | some b =>
      obtain ⟨a1, a2, a3⟩ := h.2 i a he
      obtain ⟨b1, b2, b3⟩ := h'.2 i b he'
      rw [a1] at b1
      cases a; cases b
      simp only [Option.some.injEq, Prod.mk.injEq] at *
      obtain ⟨rfl, rfl, rfl⟩ := b1
      subst a2 a3 b2 b3
      rfl

theorem entriesOf_iff {q : PropReq} {es : List PropEntry} : EntriesOf q es ↔ es = entriesFrom q 0 q.props := by
  have hm : EntriesOf q (entriesFrom q 0 q.props) :=
    ⟨entriesFrom_length q _ _, fun i e h => by simpa using entriesFrom_get q q.props 0 i e h⟩
  exact ⟨fun h => entries_unique h hm, fun h => h ▸ hm⟩

theorem propsReady_iff {q : PropReq} : propsReady q = true ↔ ReadyReq q := by
  unfold propsReady ReadyReq
  by_cases h1 : q.labels = []
  · by_cases h2 : q.descs = []
    · simp [h1, h2]
    · by_cases h3 : q.props = []
      · simp [h1, h2, h3]
      · simp [h1, h2, h3]
  · by_cases h3 : q.props = []
    · simp [h1, h3]
    · by_cases h2 : q.descs = []
      · simp [h1, h2, h3]
      · by_cases h4 : q.labels.length = q.props.length
        · simp [h1, h2, h3, h4]
        · simp [h1, h2, h3, h4]

/-! ### the configuration file -/

theorem configLoop_only {v : Ver} (hv : v ≠ .v0) (lit : Str) (uc : Option Bool) : ∀ (lines : List Str) (n : Nat) {vs vs' : Elem},
    PropsWF v vs → configLoop v lit uc n lines vs = (.ok (), vs') → PropsWF v vs' ∧ ∃ new, OnlyProps v new vs vs'
  | [], n, vs, vs', h, hl => by
    cases hl
    exact ⟨h, [], sameButKids_refl _ _, Or.inl ⟨rfl, rfl⟩⟩
  | line :: r, n, vs, vs', h, hl => by
    unfold configLoop at hl
    split at hl
    · exact configLoop_only hv lit uc r n h hl
    · split at hl
      · cases hl
      · rename_i o vs1 hs
        obtain ⟨n1, -, f1⟩ := setPropertyValue_frame hv h (configKey lit (n + 1)) (some (strip line)) uc none none none
        obtain ⟨-, -, -, -, -, -, -, e5⟩ := setPropertyValue_shape hv h (configKey lit (n + 1)) (some (strip line)) uc none none none
        rw [hs] at f1 e5
        obtain ⟨w, n2, f2⟩ := configLoop_only hv lit uc r (n + 1) e5 hl
        exact ⟨w, n1 ++ n2, f1.trans f2⟩

/-- inversion of a run with options -/
theorem editProperties_inv {v : Ver} {ask : Str → Bool} {force : Bool} {inp : List Str} {q : PropReq} {vs vs' : Elem}
    {hws hws' : Option Elem} (hq : q.config ≠ none ∨ q.props ≠ [] ∨ q.transports ≠ [])
    (h : editProperties v ask force inp q vs hws = some (.ok (vs', hws'))) :
    propsReady q = true ∧ ∃ vs1, configStep v q.uc q.config vs = .ok vs1 ∧
      propLoop v ask q.uc (entriesFrom q 0 q.props) vs1 = .ok vs' ∧ transportStep v hws q.transports = .ok hws' := by
  unfold editProperties at h
  split at h
  · cases h
  · rename_i hr
    refine ⟨by simpa using hr, ?_⟩
    split at h
    · cases h
    · rename_i vs1 h1
      split at h
      · cases h
      · rename_i vs2 h2
        split at h
        · cases h
        · rename_i hws1 h3
          split at h
          · rename_i hno
            obtain ⟨a, b, c⟩ := hno
            rcases hq with hq | hq | hq
            · exact absurd (Option.isNone_iff_eq_none.1 a) hq
            · exact absurd b hq
            · exact absurd c hq
          · cases h
            exact ⟨vs1, h1, h2, h3⟩

/-- the document after the configuration file, if any, has been turned into properties (see C43) -/
def AfterConfig (v : Ver) (q : PropReq) (vs vs1 : Elem) : Prop :=
  (q.config = none ∧ vs1 = vs) ∨
  ∃ lines plat, q.config = some lines ∧ platformOf v vs = .ok plat ∧
    configFileToProperties v plat lines q.uc vs = (.ok (), vs1)

theorem configStep_iff {v : Ver} {q : PropReq} {vs vs1 : Elem} (h : configStep v q.uc q.config vs = .ok vs1) :
    AfterConfig v q vs vs1 := by
  unfold configStep at h
  split at h
  · rename_i hc; cases h; exact Or.inl ⟨hc, rfl⟩
  · rename_i lines hc
    split at h
    · cases h
    · rename_i plat hp
      split at h
      · cases h
      · rename_i hf
        cases h
        exact Or.inr ⟨lines, plat, hc, hp, hf⟩

theorem afterConfig_only {v : Ver} (hv : v ≠ .v0) {q : PropReq} {vs vs1 : Elem} (h : PropsWF v vs) (ha : AfterConfig v q vs vs1) :
    PropsWF v vs1 ∧ ∃ new, OnlyProps v new vs vs1 := by
  rcases ha with ⟨-, rfl⟩ | ⟨lines, plat, -, -, hf⟩
  · exact ⟨h, [], sameButKids_refl _ _, Or.inl ⟨rfl, rfl⟩⟩
  · unfold configFileToProperties at hf
    split at hf
    · cases hf
    · exact configLoop_only hv _ _ _ _ h hf

/-! ### C84 -/

/-- **C84.** A successful edit-properties with options first turns the configuration file, if any, into properties;
then every property named on the command line goes, in order, through exactly the changes asked for (`OneChange`:
type, value as the type demands, label, description, whether it is configurable), and every other property is the
same.  A property that does not exist is created, after the ones that exist; nothing else in the document changes. -/
theorem C84_properties {v : Ver} (hv : v ≠ .v0) {ask : Str → Bool} {force : Bool} {inp : List Str} {q : PropReq} {vs vs' : Elem}
    {hws hws' : Option Elem} (h : PropsWF v vs) (hq : q.config ≠ none ∨ q.props ≠ [] ∨ q.transports ≠ [])
    (hr : editProperties v ask force inp q vs hws = some (.ok (vs', hws'))) :
    ∃ vs1 es, AfterConfig v q vs vs1 ∧ PropsWF v vs1 ∧ PropsWF v vs' ∧ EntriesOf q es ∧
      (∀ key, ∃ o o', PropState v vs1 key o ∧ PropState v vs' key o' ∧ Changes v q.uc (es.filter (fun e => e.key = key)) o o') ∧
      (∃ conf, OnlyProps v conf vs vs1) ∧
      (∃ new, OnlyProps v new vs1 vs' ∧ new.Sublist (es.map PropEntry.key) ∧ new.Nodup ∧
        ∀ k, k ∈ new ↔ NoProp v vs1 k ∧ ∃ e ∈ es, e.key = k) := by
  obtain ⟨-, vs1, h1, h2, -⟩ := editProperties_inv hq hr
  have ha := configStep_iff h1
  obtain ⟨w1, hc⟩ := afterConfig_only hv h ha
  obtain ⟨w2, hch⟩ := propLoop_changes hv w1 h2
  exact ⟨vs1, _, ha, w1, w2, entriesOf_iff.2 rfl, hch, hc, propLoop_only hv w1 h2⟩

/-- **C84 (the last value wins).** If the last entry for a property gives a value, that is the value afterwards, in
the form the type demands and within the limits of the qualifiers; if the last type given for it comes with or
before that value, that is the type. -/
theorem C84_last {v : Ver} {uc : Option Bool} {es : List PropEntry} {o : Option Elem} {p' : Elem}
    (h : Changes v uc es o (some p')) {pre : List PropEntry} {e : PropEntry} (hes : es = pre ++ [e]) :
    (∀ x, e.value = some x → ∃ w, p'.get (valueAttr v) = some w ∧ Converts (typeOf v p') x w ∧
      Obeys (typeOf v p') (qualOf v p') w) ∧
    (∀ t, e.ptype = some t → typeOf v p' = t) ∧
    (∀ l, e.label = some l → TextIs p' (ovfTag v "Label".toList) (some l)) ∧
    (∀ d, e.desc = some d → TextIs p' (ovfTag v "Description".toList) (some d)) := by
  subst hes
  induction pre generalizing o with
  | nil =>
    cases h with
    | cons h1 h2 =>
      cases h2
      refine ⟨h1.given, ?_, h1.label.1, h1.desc.1⟩
      intro t ht
      unfold typeOf
      rw [h1.type, ht]
      rfl
  | cons a r ih =>
    cases h with
    | cons h1 h2 => exact ih h2

/-- **C84 (transports).** The transports are those given, written one after the other; without the option they stay. -/
theorem C84_transports {v : Ver} (hv : v ≠ .v0) {ask : Str → Bool} {force : Bool} {inp : List Str} {q : PropReq} {vs vs' hw : Elem}
    {hws' : Option Elem} (hq : q.config ≠ none ∨ q.props ≠ [] ∨ q.transports ≠ [])
    (hr : editProperties v ask force inp q vs (some hw) = some (.ok (vs', hws'))) :
    ∃ hw', hws' = some hw' ∧ (q.transports = [] → hw' = hw) ∧
      (q.transports ≠ [] →
        (getTransports v (some hw') = some q.transports ↔ SpaceSafe q.transports) ∧
        hw'.tag = hw.tag ∧ hw'.children = hw.children ∧ (∀ k, k ≠ ovfTag v "transport".toList → hw'.get k = hw.get k)) := by
  obtain ⟨-, vs1, -, -, h3⟩ := editProperties_inv hq hr
  unfold transportStep at h3
  by_cases ht : q.transports = []
  · rw [if_pos ht] at h3
    cases h3
    exact ⟨hw, rfl, fun _ => rfl, fun hn => absurd ht hn⟩
  · rw [if_neg ht] at h3
    obtain ⟨hw', e1, e2, -, e4, e5, e6⟩ := C44_transports hv hw q.transports
    rw [e1] at h3
    cases h3
    exact ⟨hw', rfl, fun hn => absurd hn ht, fun _ => ⟨e2, e4, e5, e6⟩⟩

/-- **C84 (consent).** A property that had no value is set only if the user agreed, and no other question is asked:
the outcome depends on no other answer. -/
theorem C84_consent {v : Ver} (hv : v ≠ .v0) {ask : Str → Bool} {force : Bool} {inp : List Str} {q : PropReq} {vs : Elem}
    {hws : Option Elem} (h : PropsWF v vs) (hq : q.config ≠ none ∨ q.props ≠ [] ∨ q.transports ≠ []) :
    (∀ vs' hws', editProperties v ask force inp q vs hws = some (.ok (vs', hws')) → ∃ vs1, AfterConfig v q vs vs1 ∧
      ∀ p ∈ q.props, getPropertyValue v vs1 p.1 = .ok none → ask p.1 = true) ∧
    (∀ ask' : Str → Bool, (∀ vs1, AfterConfig v q vs vs1 → ∀ p ∈ q.props, getPropertyValue v vs1 p.1 = .ok none → ask p.1 = ask' p.1) →
      editProperties v ask force inp q vs hws = editProperties v ask' force inp q vs hws) := by
  have hkey : ∀ e ∈ entriesFrom q 0 q.props, ∃ p ∈ q.props, p.1 = e.key := by
    intro e he
    obtain ⟨i, hi⟩ := List.mem_iff_getElem?.1 he
    obtain ⟨a, -, -⟩ := (entriesOf_iff.2 rfl : EntriesOf q (entriesFrom q 0 q.props)).2 i e hi
    exact ⟨_, List.mem_of_getElem? a, rfl⟩
  have hkey' : ∀ p ∈ q.props, ∃ e ∈ entriesFrom q 0 q.props, e.key = p.1 := by
    intro p hp
    obtain ⟨i, hi⟩ := List.mem_iff_getElem?.1 hp
    have hlt : i < (entriesFrom q 0 q.props).length := by
      rw [entriesFrom_length]; exact (List.getElem?_eq_some_iff.1 hi).1
    obtain ⟨a, -, -⟩ := (entriesOf_iff.2 rfl : EntriesOf q (entriesFrom q 0 q.props)).2 i _ (List.getElem?_eq_getElem hlt)
    rw [hi] at a
    exact ⟨_, List.getElem_mem hlt, by cases a; rfl⟩
  constructor
  · intro vs' hws' hr
    obtain ⟨-, vs1, h1, h2, -⟩ := editProperties_inv hq hr
    have ha := configStep_iff h1
    refine ⟨vs1, ha, fun p hp hg => ?_⟩
    obtain ⟨e, he, hek⟩ := hkey' p hp
    rw [← hek] at hg ⊢
    exact propLoop_consent hv (afterConfig_only hv h ha).1 h2 e he hg
  · intro ask' hag
    unfold editProperties
    cases hcs : configStep v q.uc q.config vs with
    | error e => rfl
    | ok vs1 =>
      have ha := configStep_iff hcs
      have hl : propLoop v ask q.uc (entriesFrom q 0 q.props) vs1 = propLoop v ask' q.uc (entriesFrom q 0 q.props) vs1 :=
        propLoop_ask hv (afterConfig_only hv h ha).1 (fun e he hg => by
          obtain ⟨p, hp, hpk⟩ := hkey e he
          rw [← hpk] at hg ⊢
          exact hag vs1 ha p hp hg)
      simp only
      rw [hl]

/-- **C84 (success).** Without a configuration file, and with each property named once, the command succeeds if
every value can be stored and the user agrees to the creation of what has no value. -/
theorem C84_succeeds {v : Ver} (hv : v ≠ .v0) {ask : Str → Bool} {force : Bool} {inp : List Str} {q : PropReq} {vs hw : Elem}
    (h : PropsWF v vs) (hc : q.config = none) (hq : q.props ≠ [] ∨ q.transports ≠ []) (hready : ReadyReq q)
    (hnd : (q.props.map Prod.fst).Nodup)
    (hacc : ∀ es, EntriesOf q es → ∀ e ∈ es, ∀ o, PropState v vs e.key o → Acceptable v o e)
    (hask : ∀ p ∈ q.props, getPropertyValue v vs p.1 = .ok none → ask p.1 = true) :
    ∃ r, editProperties v ask force inp q vs (some hw) = some (.ok r) := by
  have hE : EntriesOf q (entriesFrom q 0 q.props) := entriesOf_iff.2 rfl
  have hkeys : ∀ (l : List (Str × Option Str × Option Str)) (n : Nat), (entriesFrom q n l).map PropEntry.key = l.map Prod.fst := by
    intro l
    induction l with
    | nil => intro n; rfl
    | cons a r ih => intro n; simp [entriesFrom, ih]
  obtain ⟨vs', hl⟩ := propLoop_succeeds (uc := q.uc) hv h (es := entriesFrom q 0 q.props) (by rw [hkeys]; exact hnd)
    (fun e he o ho => hacc _ hE e he o ho)
    (fun e he hg => by
      have : e.key ∈ (entriesFrom q 0 q.props).map PropEntry.key := List.mem_map_of_mem he
      rw [hkeys] at this
      obtain ⟨p, hp, hpk⟩ := List.mem_map.1 this
      rw [← hpk] at hg ⊢
      exact hask p hp hg)
  obtain ⟨hws', ht⟩ : ∃ x, transportStep v (some hw) q.transports = .ok x := by
    unfold transportStep
    split
    · exact ⟨_, rfl⟩
    · obtain ⟨hw', e1, -⟩ := C44_transports hv hw q.transports
      rw [e1]; exact ⟨_, rfl⟩
  refine ⟨(vs', hws'), ?_⟩
  unfold editProperties
  rw [if_neg (by rw [propsReady_iff.2 hready]; simp), hc]
  have : configStep v q.uc none vs = .ok vs := rfl
  rw [this]
  simp only
  rw [hl]
  simp only
  rw [ht]
  simp only
  rw [if_neg]
  rintro ⟨-, h1, h2⟩
  rcases hq with hq | hq
  · exact hq h1
  · exact hq h2

/-- **C84 (refused).** Labels or descriptions that are not as many as the properties are refused before anything
happens. -/
theorem C84_refused {v : Ver} {ask : Str → Bool} {force : Bool} {inp : List Str} {q : PropReq} {vs : Elem} {hws : Option Elem}
    (h : ¬ ReadyReq q) : editProperties v ask force inp q vs hws = some (.error .invalidInput) := by
  unfold editProperties
  rw [if_pos]
  rw [← Bool.not_eq_true, propsReady_iff]
  exact h

/-- **C84 (file and options together).** The lines of the configuration file become the values of the numbered
properties, except for those that are named on the command line as well; properties that are neither keep their
value. -/
theorem C84_config {v : Ver} (hv : v ≠ .v0) {ask : Str → Bool} {force : Bool} {inp : List Str} {q : PropReq} {vs vs' : Elem}
    {hws hws' : Option Elem} (h : PropsWF v vs) {lines cmds : List Str} (hc : q.config = some lines) (hcmd : Commands lines cmds)
    {plat : Plat} {lit : Str} (hp : platformOf v vs = .ok plat) (hl : ConfigPrefix plat lit)
    (ht : ∀ n k, 1 ≤ n → n ≤ cmds.length → NumberedKey lit n k → TakesText v vs k)
    (hr : editProperties v ask force inp q vs hws = some (.ok (vs', hws'))) :
    (∀ i c k, cmds[i]? = some c → NumberedKey lit (i + 1) k → (∀ p ∈ q.props, p.1 ≠ k) → getPropertyValue v vs' k = .ok (some c)) ∧
    (∀ k, (∀ n, 1 ≤ n → n ≤ cmds.length → ¬ NumberedKey lit n k) → (∀ p ∈ q.props, p.1 ≠ k) →
      getPropertyValue v vs' k = getPropertyValue v vs k) := by
  have hq : q.config ≠ none ∨ q.props ≠ [] ∨ q.transports ≠ [] := Or.inl (by rw [hc]; simp)
  obtain ⟨vs1, es, ha, w1, w2, hE, hch, -, -⟩ := C84_properties hv h hq hr
  obtain ⟨vs1', g1, -, g3, g4⟩ := C43_lines hv hl h hcmd q.uc ht
  have hvs : vs1 = vs1' := by
    rcases ha with ⟨h1, -⟩ | ⟨lines', plat', h1, h2, h3⟩
    · rw [hc] at h1; cases h1
    · rw [hc] at h1; cases h1
      rw [hp] at h2; cases h2
      rw [g1] at h3; cases h3; rfl
  subst hvs
  have hun : ∀ k, (∀ p ∈ q.props, p.1 ≠ k) → getPropertyValue v vs' k = getPropertyValue v vs1 k := by
    intro k hk
    obtain ⟨o, o', s1, s2, s3⟩ := hch k
    have : es.filter (fun e => decide (e.key = k)) = [] := by
      rw [List.filter_eq_nil_iff]
      intro e he
      obtain ⟨i, hi⟩ := List.mem_iff_getElem?.1 he
      obtain ⟨a, -, -⟩ := hE.2 i e hi
      simpa using hk _ (List.mem_of_getElem? a)
    rw [this] at s3
    cases s3
    rw [get_of_state hv w2 s2, get_of_state hv w1 s1]
  constructor
  · intro i c k hi hk hn
    rw [hun k hn]; exact g3 i c k hi hk
  · intro k hk hn
    rw [hun k hn]; exact g4 k hk

/-! ### Examples and findings -/

theorem exVs_wf' : PropsWF .v1 exVs := by
  refine ⟨by decide +kernel, ?_⟩
  intro key
  by_cases hk : key = "login".toList
  · subst hk
    exact Or.inr ⟨_, _, rfl, rfl⟩
  · left
    intro sec hsec _ p hp
    have h1 : sec ∈ [Elem.mk (ovfTag .v1 "ProductSection".toList) [] none none
      [.mk (ovfTag .v1 "Info".toList) [] (some "Product Information".toList) none [],
       .mk (ovfTag .v1 "Property".toList)
        [(ovfTag .v1 "key".toList, "login".toList), (ovfTag .v1 "type".toList, "string".toList),
         (ovfTag .v1 "qualifiers".toList, "MinLen(2) MaxLen(4)".toList), (ovfTag .v1 "value".toList, "abc".toList)] none none []]] := hsec
    rw [List.mem_singleton] at h1
    subst h1
    have h2 : p ∈ [Elem.mk (ovfTag .v1 "Info".toList) [] (some "Product Information".toList) none [],
       .mk (ovfTag .v1 "Property".toList)
        [(ovfTag .v1 "key".toList, "login".toList), (ovfTag .v1 "type".toList, "string".toList),
         (ovfTag .v1 "qualifiers".toList, "MinLen(2) MaxLen(4)".toList), (ovfTag .v1 "value".toList, "abc".toList)] none none []] := hp
    rintro ⟨h3, h4⟩
    rcases List.mem_cons.1 h2 with rfl | h2
    · revert h3; decide +kernel
    · rw [List.mem_singleton] at h2
      subst h2
      have : some "login".toList = some key := h4
      exact hk (Option.some.inj this).symm

/-- a request: set "login" to "xyz", create a boolean "ssh", and use the ISO transport -/
def exPropReq : PropReq :=
  { props := [("login".toList, some "xyz".toList, none), ("ssh".toList, some "yes".toList, some "boolean".toList)],
    labels := ["Login".toList, "SSH".toList], uc := some true, transports := ["iso".toList] }

/-- The example meets the hypotheses; it succeeds, and the values, types and labels are as asked for. -/
example : PropsWF .v1 exVs ∧ ReadyReq exPropReq ∧ (exPropReq.props.map Prod.fst).Nodup ∧
    ∃ vs' hw', editProperties .v1 (fun k => k = "ssh".toList) false [] exPropReq exVs (some exHws) = some (.ok (vs', some hw')) ∧
      getPropertyValue .v1 vs' "login".toList = .ok (some "xyz".toList) ∧
      getPropertyValue .v1 vs' "ssh".toList = .ok (some "true".toList) ∧
      getTransports .v1 (some hw') = some ["iso".toList] :=
  ⟨exVs_wf', ⟨Or.inr rfl, Or.inl rfl⟩, by decide, _, _, rfl, rfl, rfl, rfl⟩

/-- without consent to the new property the command stops -/
example : editProperties .v1 (fun _ => false) false [] exPropReq exVs (some exHws) = some (.error .systemExit) := rfl

/-- a property without a value, "token" -/
def exVsNoValue : Elem :=
  .mk (virtualSystemTag .v1) [] none none
    [.mk (ovfTag .v1 "ProductSection".toList) [] none none
      [.mk (ovfTag .v1 "Property".toList)
        [(ovfTag .v1 "key".toList, "token".toList), (ovfTag .v1 "type".toList, "string".toList)] none none []]]

/-- The statement "only the creation of a property needs the user's consent" is false: a property that exists but
has no value yet is taken for one that does not exist, and the user who declines its creation ends the command. -/
theorem C84_existing_asked_fails :
    (∃ p, PropIs .v1 exVsNoValue "token".toList p) ∧
    editProperties .v1 (fun _ => false) false [] { props := [("token".toList, some "x".toList, none)] } exVsNoValue none =
      some (.error .systemExit) :=
  ⟨⟨_, _, rfl, rfl⟩, rfl⟩

end Cot
