import Verif.Props.EditProperties
import Verif.Props.Ui
/-
Property C85: what the interactive editor for environment properties does with the lines typed.
-/
namespace Cot

/-- the array of properties the editor works on -/
def psOf (v : Ver) (vs : Elem) (K : List Str) : List (Str × Option Str) :=
  K.map (fun k => (k, match getPropertyValue v vs k with
    | .ok x => x
    | .error _ => none))

theorem psOf_keys (v : Ver) (vs : Elem) (K : List Str) : (psOf v vs K).map Prod.fst = K := by
  unfold psOf
  rw [List.map_map]
  conv_rhs => rw [← List.map_id K]
  rfl

theorem psOf_congr {v : Ver} {vs vs' : Elem} {K : List Str} (h : ∀ k, getPropertyValue v vs' k = getPropertyValue v vs k) :
    psOf v vs' K = psOf v vs K := by
  unfold psOf
  exact List.map_congr_left (fun k _ => by rw [h k])

theorem psOf_find {v : Ver} {vs : Elem} {K : List Str} {k : Str} {x : Option Str} (hk : k ∈ K)
    (hg : getPropertyValue v vs k = .ok x) : (psOf v vs K).find? (fun p => p.1 == k) = some (k, x) := by
  unfold psOf
  induction K with
  | nil => cases hk
  | cons a r ih =>
    rw [List.map_cons, List.find?_cons]
    by_cases ha : a = k
    · subst ha
      simp [hg]
    · have h0 : (a == k) = false := by simpa using ha
      simp only [h0]
      exact ih ((List.mem_cons.1 hk).resolve_left (fun h => ha h.symm))

theorem keyList_map (l : List (Str × Option Str)) : keyList (l.map (fun p => (some p.1, p.2))) = .ok l := by
  induction l with
  | nil => rfl
  | cons a r ih => rw [List.map_cons, keyList, ih]

/-- a property listed among the keys exists -/
theorem key_exists {v : Ver} (hv : v ≠ .v0) {vs : Elem} (h : PropsWF v vs) {K : List Str} (hK : KeysAre v vs K) {k : Str} :
    k ∈ K ↔ ∃ p, PropIs v vs k p := by
  obtain ⟨s, hb, hs⟩ := hK
  have hiff : k ∈ K ↔ ∃ p ∈ kids s (propertyTag v), p.get (propKey v) = some k := by
    have h1 : some k ∈ propKeys v s ↔ k ∈ K := by
      rw [hs, List.mem_map]
      exact ⟨fun ⟨a, ha, e⟩ => by cases e; exact ha, fun hk => ⟨k, hk, rfl⟩⟩
    rw [← h1]
    unfold propKeys
    rw [List.mem_map]
    exact Iff.rfl
  obtain ⟨hN, hP⟩ := propState_section hv hb k
  have hmem : ∀ p, p ∈ named s (propertyTag v) (propKey v) k ↔ p ∈ kids s (propertyTag v) ∧ p.get (propKey v) = some k := by
    intro p
    unfold named kids
    rw [List.mem_filter, List.mem_filter]
    simp only [decide_eq_true_eq, and_assoc]
  rw [hiff]
  constructor
  · rintro ⟨p, hp, hk⟩
    rcases h.2 k with hn | hp'
    · rw [hN] at hn
      have := (hmem p).2 ⟨hp, hk⟩
      rw [hn] at this; cases this
    · exact hp'
  · rintro ⟨p, hp⟩
    rw [hP] at hp
    obtain ⟨a, b⟩ := (hmem p).1 (by rw [hp]; simp)
    exact ⟨p, a, b⟩

theorem env_of_keys {v : Ver} (hv : v ≠ .v0) {vs : Elem} (h : PropsWF v vs) {K : List Str} (hK : KeysAre v vs K) :
    ∃ l, envProperties v vs = .ok l ∧ keyList l = .ok (psOf v vs K) := by
  have hval : ∀ k p, PropIs v vs k p → getPropertyValue v vs k = .ok (p.get (propValue v)) := fun k p hp => get_of_propIs hv hp
  have hK' := hK
  obtain ⟨s, hb, hs⟩ := hK
  unfold envProperties prodSec
  rw [if_neg hv, sectionAttrib_nil hv]
  have hst : sectionTag v "ProductSection".toList = ovfTag v "ProductSection".toList := productSection_eq hv
  rw [hst]
  rcases hb with a | ⟨a, rfl⟩
  · rw [findChild_kids a]
    refine ⟨_, rfl, ?_⟩
    have hmap : (findAllChildren s (propertyTag v) []).map (fun p => (p.get (propKey v), p.get (propValue v))) =
        (psOf v vs K).map (fun p => (some p.1, p.2)) := by
      rw [findAll_nil]
      have hgen : ∀ (L : List Elem) (J : List Str), (∀ p ∈ L, p ∈ kids s (propertyTag v)) →
          L.map (fun p => p.get (propKey v)) = J.map some →
          L.map (fun p => (p.get (propKey v), p.get (propValue v))) = (psOf v vs J).map (fun p => (some p.1, p.2)) := by
        intro L
        induction L with
        | nil => intro J _ hJ; cases J with
          | nil => rfl
          | cons _ _ => cases hJ
        | cons p r ih =>
          intro J hL hJ
          cases J with
          | nil => cases hJ
          | cons k J =>
            rw [List.map_cons, List.map_cons] at hJ
            injection hJ with e1 e2
            have hin : p ∈ kids s (propertyTag v) := hL p (by simp)
            have hb' : BaseSection v vs s := Or.inl a
            have hkK : k ∈ K := by
              have : some k ∈ propKeys v s := List.mem_map.2 ⟨p, hin, e1⟩
              rw [hs, List.mem_map] at this
              obtain ⟨x, hx, e⟩ := this
              cases e; exact hx
            obtain ⟨p', hp'⟩ := (key_exists hv h hK').1 hkK
            have hpp : p' = p := by
              have h2 := ((propState_section hv hb' k).2 p').1 hp'
              have h3 : p ∈ named s (propertyTag v) (propKey v) k := by
                unfold named
                unfold kids at hin
                rw [List.mem_filter] at hin ⊢
                exact ⟨hin.1, by simp only [decide_eq_true_eq] at hin ⊢; exact ⟨hin.2, e1⟩⟩
              rw [h2, List.mem_singleton] at h3
              exact h3.symm
            subst hpp
            rw [List.map_cons]
            show _ = (_ :: _ : List _)
            rw [ih J (fun x hx => hL x (List.mem_cons_of_mem _ hx)) e2]
            congr 1
            simp only [hval k p' hp', e1]
      exact hgen _ _ (fun p hp => hp) hs
    rw [hmap, keyList_map]
  · rw [findChild_no_kids a]
    refine ⟨_, rfl, ?_⟩
    have hK0 : K = [] := by
      have : propKeys v (.mk (ovfTag v "ProductSection".toList) [] none none
          [.mk (ovfTag v "Info".toList) [] (some "Product Information".toList) none []]) = [] := by
        unfold propKeys kids
        rw [List.map_eq_nil_iff, List.filter_eq_nil_iff]
        intro c hc
        have : c ∈ [Elem.mk (ovfTag v "Info".toList) [] (some "Product Information".toList) none []] := hc
        rw [List.mem_singleton] at this
        subst this
        simp only [decide_eq_true_eq]
        intro e
        exact absurd (ovfTag_inj.1 e) (by decide)
      rw [this] at hs
      exact List.map_eq_nil_iff.1 hs.symm
    subst hK0
    rfl

theorem editInteractive_eq {v : Ver} (hv : v ≠ .v0) {vs : Elem} (h : PropsWF v vs) {K : List Str} (hK : KeysAre v vs K)
    (uc : Option Bool) (inp : List Str) : editInteractive v false uc inp vs = interactive v uc inp .list (psOf v vs K) vs := by
  obtain ⟨l, h1, h2⟩ := env_of_keys hv h hK
  unfold editInteractive
  rw [h1]; simp only; rw [h2]; rfl

theorem keys_of_only {v : Ver} {vs vs' : Elem} {K : List Str} (hK : KeysAre v vs K) (h : OnlyProps v [] vs vs') : KeysAre v vs' K := by
  rcases h.2 with ⟨rfl, -⟩ | ⟨s, s', h1, h2, h3, h4⟩
  · exact hK
  · obtain ⟨t, ht, hk⟩ := hK
    refine ⟨s', Or.inl h2, ?_⟩
    have : s = t := by
      rcases h1 with a | ⟨a, b⟩ <;> rcases ht with c | ⟨c, d⟩
      · rw [a] at c; injection c
      · rw [a] at c; cases c
      · rw [a] at c; cases c
      · rw [b, d]
    subst this
    rw [h4, hk]; simp

/-- an attempt to store a value that is refused does what a call without a value does -/
theorem refused_same {v : Ver} (hv : v ≠ .v0) {vs vs' p : Elem} (h : PropsWF v vs) {key x : Str} {uc : Option Bool} (hp : PropIs v vs key p)
    (hs : setPropertyValue v vs key (some x) uc none none none = (.error .valueUnsupported, vs')) :
    ∃ r, setPropertyValue v vs key none uc none none none = (.ok r, vs') := by
  obtain ⟨vs1, s, e1, e2, e3, e4⟩ := ensure_base' (wf_section h)
  obtain ⟨hN, hP⟩ := propState_section hv e4 key
  have hp' := (hP p).1 hp
  unfold setPropertyValue at hs ⊢
  rw [if_neg hv, sectionAttrib_nil hv, productSection_eq hv, e1] at hs ⊢
  simp only at hs ⊢
  rw [findChild_kids e2] at hs ⊢
  simp only at hs ⊢
  rw [findChild_some.2 (by rw [findAll_key]; exact hp')] at hs ⊢
  simp only at hs ⊢
  rw [Prod.mk.injEq] at hs
  obtain ⟨h1, h2⟩ := hs
  have he : editProp v p none uc none none none = (.ok none, (editProp v p (some x) uc none none none).2) := by
    have hfst : (editProp v p (some x) uc none none none).2 = setOpt p (propUserConf v) (uc.map boolStr) := by
      unfold editProp at h1 ⊢
      simp only [valueToSet, setOpt] at h1 ⊢
      revert h1
      split
      · intro _; rfl
      · intro h1; cases h1
    rw [hfst]
    rfl
  rw [he]
  exact ⟨none, by rw [Prod.mk.injEq]; exact ⟨rfl, h2⟩⟩

/-- what one answer to the question for a value does -/
theorem value_step {v : Ver} (hv : v ≠ .v0) {vs p : Elem} (h : PropsWF v vs) {K : List Str} (hK : KeysAre v vs K) (uc : Option Bool)
    {k x : Str} (hp : PropIs v vs k p) (y : Option Str)
    (hy : y = some x ∧ (∃ w, Converts (typeOf v p) x w ∧ LengthAllowed (qualOf v p) w.length) ∨
      y = none ∧ ¬ ∃ w, Converts (typeOf v p) x w ∧ LengthAllowed (qualOf v p) w.length) :
    ∃ r vs1, setPropertyValue v vs k (some x) uc none none none = (r, vs1) ∧
      (y = some x → ∃ o, r = .ok o) ∧ (y = none → r = .error .valueUnsupported ∧ ∀ k, getPropertyValue v vs1 k = getPropertyValue v vs k) ∧
      PropsWF v vs1 ∧ KeysAre v vs1 K ∧ OnlyProps v [] vs vs1 ∧
      (∃ p', PropIs v vs1 k p' ∧ OneChange v uc (.just k y) (some p) p') ∧
      (∀ k', k' ≠ k → ∀ o, PropState v vs1 k' o ↔ PropState v vs k' o) := by
  obtain ⟨c1, c2⟩ := C42_accepts hv h k x hp uc none
  have hframe : OnlyProps v [] vs (setPropertyValue v vs k (some x) uc none none none).2 := by
    obtain ⟨new, hn, hf⟩ := setPropertyValue_frame hv h k (some x) uc none none none
    rcases hn with ⟨hno, -⟩ | ⟨-, rfl⟩
    · cases propState_unique (o := none) (o' := some p) hno hp
    · exact hf
  cases hset : setPropertyValue v vs k (some x) uc none none none with
  | mk r vs1 =>
  rw [hset] at c1 c2 hframe
  simp only at c1 c2 hframe
  refine ⟨r, vs1, rfl, ?_⟩
  rcases hy with ⟨rfl, w, hw1, hw2⟩ | ⟨rfl, hno⟩
  · have hr := c1 w hw1 hw2
    subst hr
    obtain ⟨w1, ⟨o, p', s1, s2, s3⟩, s4⟩ := set_change hv h (.just k (some x)) uc hset
    cases propState_unique (o' := some p) s1 hp
    exact ⟨fun _ => ⟨_, rfl⟩, (fun hn => by cases hn), w1, keys_of_only hK hframe, hframe, ⟨p', s2, s3⟩, s4⟩
  · have hr := c2 hno
    subst hr
    obtain ⟨r', hs'⟩ := refused_same hv h hp hset
    obtain ⟨w1, ⟨o, p', s1, s2, s3⟩, s4⟩ := set_change hv h (.just k none) uc hs'
    cases propState_unique (o' := some p) s1 hp
    exact ⟨(fun hn => by cases hn), fun _ => ⟨rfl, C42_refused hv h k (some x) uc none none none hset⟩, w1, keys_of_only hK hframe, hframe,
      ⟨p', s2, s3⟩, s4⟩

/-- the state after a line that picks a property -/
theorem pick_step {v : Ver} (hv : v ≠ .v0) {vs p : Elem} {K : List Str} (uc : Option Bool)
    {line k : Str} {rest : List Str} (hk : k ∈ K) (hp : PropIs v vs k p) (hne : line ≠ []) (hq : k ≠ "q".toList) (hQ : k ≠ "Q".toList)
    (hc : chooseOne K "q".toList line = some k) (vs' : Elem) :
    interactive v uc (line :: rest) .list (psOf v vs K) vs' =
      interactive v uc rest (.value k (p.get (valueAttr v))) (psOf v vs K) vs' := by
  rw [interactive, psOf_keys, if_neg hne, hc]
  simp only
  rw [if_neg (by rintro (h | h); exacts [hq h, hQ h]), psOf_find hk (get_of_propIs hv hp)]
  rfl

/-! ### C85 -/

/-- **C85 (force).** When the user is not to be asked, the editor changes nothing. -/
theorem C85_force {v : Ver} (hv : v ≠ .v0) {vs : Elem} (h : PropsWF v vs) {K : List Str} (hK : KeysAre v vs K)
    (uc : Option Bool) (inp : List Str) : editInteractive v true uc inp vs = some (.ok vs) := by
  obtain ⟨l, h1, h2⟩ := env_of_keys hv h hK
  unfold editInteractive
  rw [h1]; simp only; rw [h2]; rfl

/-- **C85 (quit).** An empty line, or `q`, at the list of properties ends the session with the document as it is. -/
theorem C85_quit {v : Ver} (hv : v ≠ .v0) {vs : Elem} (h : PropsWF v vs) {K : List Str} (hK : KeysAre v vs K)
    (uc : Option Bool) {line : Str} (hl : line = [] ∨ line = "q".toList) (rest : List Str) :
    editInteractive v false uc (line :: rest) vs = some (.ok vs) := by
  rw [editInteractive_eq hv h hK, interactive]
  have : (if line = [] then "q".toList else line) = "q".toList := by
    rcases hl with rfl | rfl
    · rfl
    · rfl
  rw [this]
  unfold chooseOne
  rw [if_pos (Or.inl rfl)]
  simp only
  rw [if_pos (Or.inl trivial)]

/-- **C85 (nothing selected).** A line that selects no property is ignored. -/
theorem C85_again {v : Ver} (hv : v ≠ .v0) {vs : Elem} (h : PropsWF v vs) {K : List Str} (hK : KeysAre v vs K)
    (uc : Option Bool) {line : Str} (hne : line ≠ []) (hw : ¬ WrapsAround K line) (hno : ∀ x, ¬ Selects K "q".toList line x)
    (rest : List Str) : editInteractive v false uc (line :: rest) vs = editInteractive v false uc rest vs := by
  rw [editInteractive_eq hv h hK, editInteractive_eq hv h hK, interactive, psOf_keys, if_neg hne]
  cases hc : chooseOne K "q".toList line with
  | none => rfl
  | some x => exact absurd ((chooseOne_spec hw).1 hc) (hno x)

/-- **C85 (keeping a value).** After a property is picked, an empty line or the value it has leaves all as it is. -/
theorem C85_keep {v : Ver} (hv : v ≠ .v0) {vs p : Elem} (h : PropsWF v vs) {K : List Str} (hK : KeysAre v vs K)
    (uc : Option Bool) {line k x : Str} (hne : line ≠ []) (hw : ¬ WrapsAround K line) (hs : Selects K "q".toList line k)
    (hq : k ≠ "q".toList) (hQ : k ≠ "Q".toList) (hp : PropIs v vs k p) (hx : x = [] ∨ p.get (valueAttr v) = some x)
    (rest : List Str) : editInteractive v false uc (line :: x :: rest) vs = editInteractive v false uc rest vs := by
  rw [editInteractive_eq hv h hK, editInteractive_eq hv h hK,
    pick_step hv uc ((key_exists hv h hK).2 ⟨p, hp⟩) hp hne hq hQ ((chooseOne_spec hw).2 hs), interactive]
  rw [if_pos]
  rcases hx with rfl | hx
  · exact Or.inl rfl
  · exact Or.inr hx.symm

/-- **C85 (a new value).** After a property is picked, another value that the type and the qualifiers of the property
allow is stored, in the form the type demands; the session goes on at the list.  Nothing else changes. -/
theorem C85_stored {v : Ver} (hv : v ≠ .v0) {vs p : Elem} (h : PropsWF v vs) {K : List Str} (hK : KeysAre v vs K)
    (uc : Option Bool) {line k x : Str} (hne : line ≠ []) (hw : ¬ WrapsAround K line) (hs : Selects K "q".toList line k)
    (hq : k ≠ "q".toList) (hQ : k ≠ "Q".toList) (hp : PropIs v vs k p) (hx : x ≠ [])
    (hx' : p.get (valueAttr v) ≠ some x)
    (hok : ∃ w, Converts (typeOf v p) x w ∧ LengthAllowed (qualOf v p) w.length) (rest : List Str) :
    ∃ vs1, editInteractive v false uc (line :: x :: rest) vs = editInteractive v false uc rest vs1 ∧
      PropsWF v vs1 ∧ KeysAre v vs1 K ∧ OnlyProps v [] vs vs1 ∧
      (∃ p', PropIs v vs1 k p' ∧ OneChange v uc (.just k (some x)) (some p) p') ∧
      (∀ k', k' ≠ k → ∀ o, PropState v vs1 k' o ↔ PropState v vs k' o) := by
  obtain ⟨r, vs1, h1, h2, -, h4, h5, h6, h7, h8⟩ := value_step hv h hK uc hp (some x) (Or.inl ⟨rfl, hok⟩)
  obtain ⟨o, rfl⟩ := h2 rfl
  refine ⟨vs1, ?_, h4, h5, h6, h7, h8⟩
  obtain ⟨l, e1, e2⟩ := env_of_keys hv h4 h5
  rw [editInteractive_eq hv h hK, editInteractive_eq hv h4 h5,
    pick_step hv uc ((key_exists hv h hK).2 ⟨p, hp⟩) hp hne hq hQ ((chooseOne_spec hw).2 hs), interactive,
    if_neg (by rintro (a | a); exacts [hx a, hx' a.symm]), h1]
  simp only
  rw [e1]; simp only; rw [e2]

/-- **C85 (a value that is refused).** A value that the type or the qualifiers do not allow is not stored, and the
editor asks for a value of the same property again.  No value changes; the mark whether the property is configurable
is set nevertheless. -/
theorem C85_refused_partial {v : Ver} (hv : v ≠ .v0) {vs p : Elem} (h : PropsWF v vs) {K : List Str} (hK : KeysAre v vs K)
    (uc : Option Bool) {line k x : Str} (hne : line ≠ []) (hw : ¬ WrapsAround K line) (hs : Selects K "q".toList line k)
    (hq : k ≠ "q".toList) (hQ : k ≠ "Q".toList) (hp : PropIs v vs k p) (hx : x ≠ [])
    (hx' : p.get (valueAttr v) ≠ some x)
    (hno : ¬ ∃ w, Converts (typeOf v p) x w ∧ LengthAllowed (qualOf v p) w.length) (rest : List Str) :
    ∃ vs1, editInteractive v false uc (line :: x :: rest) vs = editInteractive v false uc (line :: rest) vs1 ∧
      PropsWF v vs1 ∧ KeysAre v vs1 K ∧ OnlyProps v [] vs vs1 ∧
      (∃ p', PropIs v vs1 k p' ∧ OneChange v uc (.just k none) (some p) p') ∧
      (∀ k', k' ≠ k → ∀ o, PropState v vs1 k' o ↔ PropState v vs k' o) := by
  obtain ⟨r, vs1, h1, -, h3, h4, h5, h6, h7, h8⟩ := value_step hv h hK uc hp none (Or.inr ⟨rfl, hno⟩)
  obtain ⟨rfl, hg⟩ := h3 rfl
  refine ⟨vs1, ?_, h4, h5, h6, h7, h8⟩
  have hk := (key_exists hv h hK).2 ⟨p, hp⟩
  have hc := (chooseOne_spec (dflt := "q".toList) hw).2 hs
  rw [editInteractive_eq hv h hK, editInteractive_eq hv h4 h5, psOf_congr hg,
    pick_step hv uc hk hp hne hq hQ hc, pick_step hv uc hk hp hne hq hQ hc, interactive,
    if_neg (by rintro (a | a); exacts [hx a, hx' a.symm]), h1]

/-- one or more attempts -/
theorem Changes.append {v : Ver} {uc : Option Bool} {a b : List PropEntry} {o o' o'' : Option Elem} (h : Changes v uc a o o')
    (h' : Changes v uc b o' o'') : Changes v uc (a ++ b) o o'' := by
  induction h with
  | nil => exact h'
  | cons h1 _ ih => exact .cons h1 (ih h')

/-- what a whole session may do -/
def SessionResult (v : Ver) (uc : Option Bool) (K inp : List Str) (vs vs' : Elem) : Prop :=
  PropsWF v vs' ∧ OnlyProps v [] vs vs' ∧
  ∃ es : List PropEntry, (∀ e ∈ es, e.key ∈ K ∧ e = .just e.key e.value ∧ ∀ x, e.value = some x → x ∈ inp ∧ x ≠ []) ∧
    ∀ k, ∃ o o', PropState v vs k o ∧ PropState v vs' k o' ∧ Changes v uc (es.filter (fun e => e.key = k)) o o'

theorem SessionResult.refl {v : Ver} {uc : Option Bool} {K inp : List Str} {vs : Elem} (h : PropsWF v vs) :
    SessionResult v uc K inp vs vs :=
  ⟨h, ⟨sameButKids_refl _ _, Or.inl ⟨rfl, rfl⟩⟩, [], by simp, fun k => by
    obtain ⟨o, ho⟩ := propState_exists h k
    exact ⟨o, o, ho, ho, .nil _⟩⟩

theorem SessionResult.step {v : Ver} {uc : Option Bool} {K inp : List Str} {vs vs1 vs' p p' : Elem} {k : Str} {y : Option Str}
    (hk : k ∈ K) (hy : ∀ x, y = some x → x ∈ inp ∧ x ≠ []) (hf : OnlyProps v [] vs vs1) (hp : PropIs v vs k p) (hp' : PropIs v vs1 k p')
    (hc : OneChange v uc (.just k y) (some p) p') (ho : ∀ k', k' ≠ k → ∀ o, PropState v vs1 k' o ↔ PropState v vs k' o)
    (h : SessionResult v uc K inp vs1 vs') : SessionResult v uc K inp vs vs' := by
  obtain ⟨w, f, es, he, hs⟩ := h
  refine ⟨w, hf.trans f, .just k y :: es, ?_, ?_⟩
  · intro e hin
    rcases List.mem_cons.1 hin with rfl | hin
    · exact ⟨hk, rfl, hy⟩
    · exact he e hin
  · intro k'
    obtain ⟨o, o', a, b, c⟩ := hs k'
    by_cases hkk : k' = k
    · subst hkk
      cases propState_unique (o' := some p') a hp'
      refine ⟨some p, o', hp, b, ?_⟩
      rw [List.filter_cons_of_pos (by simp [PropEntry.just])]
      exact .cons hc c
    · refine ⟨o, o', (ho k' hkk o).1 a, b, ?_⟩
      rw [List.filter_cons_of_neg (by rw [decide_eq_true_eq]; exact Ne.symm hkk)]
      exact c

theorem SessionResult.mono {v : Ver} {uc : Option Bool} {K inp inp' : List Str} {vs vs' : Elem} (hsub : ∀ x ∈ inp, x ∈ inp')
    (h : SessionResult v uc K inp vs vs') : SessionResult v uc K inp' vs vs' := by
  obtain ⟨w, f, es, he, hs⟩ := h
  exact ⟨w, f, es, fun e hin => ⟨(he e hin).1, (he e hin).2.1, fun x hx => ⟨hsub x ((he e hin).2.2 x hx).1, ((he e hin).2.2 x hx).2⟩⟩, hs⟩

/-- every session -/
theorem session_aux {v : Ver} (hv : v ≠ .v0) (uc : Option Bool) : ∀ (inp : List Str) {vs : Elem} {K : List Str}
    (at' : EditAt), PropsWF v vs → KeysAre v vs K →
    (match at' with
     | .list => True
     | .value k _ => k ∈ K) →
    (interactive v uc inp at' (psOf v vs K) vs = none ∨
      ∃ vs', interactive v uc inp at' (psOf v vs K) vs = some (.ok vs') ∧ SessionResult v uc K inp vs vs') := by
  intro inp
  induction inp with
  | nil => intro vs K at' _ _ _; left; cases at' <;> rfl
  | cons line r ih =>
    intro vs K at' h hK hat
    have lift : ∀ {vs1 : Elem} {at'' : EditAt} {vs2}, (interactive v uc r at'' (psOf v vs1 K) vs2 = none ∨
        ∃ vs', interactive v uc r at'' (psOf v vs1 K) vs2 = some (.ok vs') ∧ SessionResult v uc K r vs2 vs') →
        (interactive v uc r at'' (psOf v vs1 K) vs2 = none ∨
        ∃ vs', interactive v uc r at'' (psOf v vs1 K) vs2 = some (.ok vs') ∧ SessionResult v uc K (line :: r) vs2 vs') := by
      intro vs1 at'' vs2 hh
      rcases hh with hh | ⟨vs', h1, h2⟩
      · exact Or.inl hh
      · exact Or.inr ⟨vs', h1, h2.mono (fun x hx => List.mem_cons_of_mem _ hx)⟩
    cases at' with
    | list =>
      rw [interactive, psOf_keys]
      cases hc : chooseOne K "q".toList (if line = [] then "q".toList else line) with
      | none => exact lift (ih .list h hK trivial)
      | some x =>
        simp only
        by_cases hx : x = "q".toList ∨ x = "Q".toList
        · rw [if_pos hx]
          exact Or.inr ⟨vs, rfl, SessionResult.refl h⟩
        · rw [if_neg hx]
          have hxK : x ∈ K := (chooseOne_mem hc).resolve_left (fun e => hx (Or.inl e))
          obtain ⟨p, hp⟩ := (key_exists hv h hK).1 hxK
          rw [psOf_find hxK (get_of_propIs hv hp)]
          exact lift (ih (.value x _) h hK hxK)
    | value k old =>
      obtain ⟨p, hp⟩ := (key_exists hv h hK).1 hat
      rw [interactive]
      by_cases hx : line = [] ∨ some line = old
      · rw [if_pos hx]
        exact lift (ih .list h hK trivial)
      · rw [if_neg hx]
        have hne : line ≠ [] := fun e => hx (Or.inl e)
        by_cases hok : ∃ w, Converts (typeOf v p) line w ∧ LengthAllowed (qualOf v p) w.length
        · obtain ⟨o, vs1, h1, h2, -, h4, h5, h6, ⟨p', h7, h7'⟩, h8⟩ := value_step hv h hK uc hp (some line) (Or.inl ⟨rfl, hok⟩)
          obtain ⟨o, rfl⟩ := h2 rfl
          obtain ⟨l, e1, e2⟩ := env_of_keys hv h4 h5
          rw [h1]; simp only; rw [e1]; simp only; rw [e2]; simp only
          rcases lift (ih .list h4 h5 trivial) with hh | ⟨vs', g1, g2⟩
          · exact Or.inl hh
          · refine Or.inr ⟨vs', g1, SessionResult.step hat ?_ h6 hp h7 h7' h8 g2⟩
            intro x hx; cases hx; exact ⟨by simp, hne⟩
        · obtain ⟨o, vs1, h1, -, h3, h4, h5, h6, ⟨p', h7, h7'⟩, h8⟩ := value_step hv h hK uc hp none (Or.inr ⟨rfl, hok⟩)
          obtain ⟨rfl, hg⟩ := h3 rfl
          rw [h1]; simp only
          have := lift (ih (.value k old) h4 h5 hat)
          rw [psOf_congr hg] at this
          rcases this with hh | ⟨vs', g1, g2⟩
          · exact Or.inl hh
          · exact Or.inr ⟨vs', g1, SessionResult.step hat (fun x hx => by cases hx) h6 hp h7 h7' h8 g2⟩

/-- **C85 (every session).** Whatever the user types, the session ends without an error (or the input ends first),
and the document has gone through a sequence of changes each of which gives an existing property a value that was
typed, as its type and qualifiers demand (or, after a refused value, marks it as configurable or not, if that was asked
for).  No property is added or removed and nothing else in the document changes. -/
theorem C85_session {v : Ver} (hv : v ≠ .v0) {vs : Elem} (h : PropsWF v vs) {K : List Str} (hK : KeysAre v vs K)
    (force : Bool) (uc : Option Bool) (inp : List Str) :
    editInteractive v force uc inp vs = none ∨
    ∃ vs', editInteractive v force uc inp vs = some (.ok vs') ∧ PropsWF v vs' ∧ KeysAre v vs' K ∧ OnlyProps v [] vs vs' ∧
      ∃ es : List PropEntry, (∀ e ∈ es, e.key ∈ K ∧ e = .just e.key e.value ∧ ∀ x, e.value = some x → x ∈ inp ∧ x ≠ []) ∧
        ∀ k, ∃ o o', PropState v vs k o ∧ PropState v vs' k o' ∧ Changes v uc (es.filter (fun e => e.key = k)) o o' := by
  cases force with
  | true =>
    obtain ⟨w, f, es, he, hs⟩ := SessionResult.refl (uc := uc) (K := K) (inp := inp) h
    exact Or.inr ⟨vs, C85_force hv h hK uc inp, h, hK, f, es, he, hs⟩
  | false =>
    rw [editInteractive_eq hv h hK]
    rcases session_aux hv uc inp .list h hK trivial with hh | ⟨vs', h1, w, f, es, he, hs⟩
    · exact Or.inl hh
    · exact Or.inr ⟨vs', h1, w, keys_of_only hK f, f, es, he, hs⟩

/-- **C85 (ends).** As long as the user has not quit, the editor asks for more. -/
theorem C85_eof {v : Ver} (hv : v ≠ .v0) {vs : Elem} (h : PropsWF v vs) {K : List Str} (hK : KeysAre v vs K) (uc : Option Bool) :
    editInteractive v false uc [] vs = none := by
  rw [editInteractive_eq hv h hK]; rfl

/-- **C85 (when it is started).** The editor is started exactly when the command line asks for nothing. -/
theorem C85_started {v : Ver} {ask : Str → Bool} {force : Bool} {inp : List Str} {q : PropReq} {vs : Elem} {hws : Option Elem}
    (hr : ReadyReq q) (hq : q.config = none ∧ q.props = [] ∧ q.transports = []) :
    editProperties v ask force inp q vs hws =
      (editInteractive v force q.uc inp vs).map (fun r => r.map (fun vs' => (vs', hws))) := by
  obtain ⟨h1, h2, h3⟩ := hq
  unfold editProperties
  rw [if_neg (by rw [propsReady_iff.2 hr]; simp), h1, h2, h3]
  simp only [configStep, entriesFrom, propLoop, transportStep]
  rw [if_pos (by simp)]
  match editInteractive v force q.uc inp vs with
  | none => rfl
  | some (.error e) => rfl
  | some (.ok x) => rfl

/-! ### Examples and findings -/

/-- The example of C42 has the one property "login"; a session that picks it by its first letter, tries a value that
is too long, gives another and quits. -/
example : PropsWF .v1 exVs ∧ KeysAre .v1 exVs ["login".toList] ∧ ¬ WrapsAround ["login".toList] "l".toList ∧
    Selects ["login".toList] "q".toList "l".toList "login".toList ∧
    (editInteractive .v1 false none ["l".toList, "much too long".toList, "wxyz".toList, "?".toList, "q".toList] exVs).map
      (fun r => r.map (fun vs' => getPropertyValue .v1 vs' "login".toList)) = some (.ok (.ok (some "wxyz".toList))) := by
  refine ⟨exVs_wf', ⟨_, Or.inl rfl, rfl⟩, ?_, ?_, rfl⟩
  · rintro ⟨z, hz, -, -⟩
    rw [← pyInt_iff] at hz
    revert hz
    have : pyInt "l".toList = none := by decide +kernel
    rw [this]; simp
  · right
    refine ⟨by decide, Or.inl ⟨[], [], rfl, ⟨_, rfl⟩, by simp⟩⟩

/-- a document with the properties "q", "Q" and "port", the last a boolean -/
def exVsQ : Elem :=
  .mk (virtualSystemTag .v1) [] none none
    [.mk (ovfTag .v1 "ProductSection".toList) [] none none
      [.mk (ovfTag .v1 "Property".toList)
        [(ovfTag .v1 "key".toList, "q".toList), (ovfTag .v1 "type".toList, "string".toList)] none none [],
       .mk (ovfTag .v1 "Property".toList)
        [(ovfTag .v1 "key".toList, "Q".toList), (ovfTag .v1 "type".toList, "string".toList)] none none [],
       .mk (ovfTag .v1 "Property".toList)
        [(ovfTag .v1 "key".toList, "ssh".toList), (ovfTag .v1 "type".toList, "boolean".toList)] none none []]]

/-- The statement "every property that is listed can be edited" is false: to pick the property `q` or `Q`, by name or
by number, ends the session. -/
theorem C85_q_fails (uc : Option Bool) (rest : List Str) :
    KeysAre .v1 exVsQ ["q".toList, "Q".toList, "ssh".toList] ∧
    ∀ line ∈ ["q".toList, "Q".toList, "1".toList, "2".toList],
      editInteractive .v1 false uc (line :: rest) exVsQ = some (.ok exVsQ) := by
  refine ⟨⟨_, Or.inl rfl, rfl⟩, ?_⟩
  intro line hl
  simp only [List.mem_cons, List.not_mem_nil, or_false] at hl
  rcases hl with rfl | rfl | rfl | rfl <;> rfl

/-- The statement "a refused value leaves the document as it is" is false: the property is marked as configurable. -/
theorem C85_refused_marks_fails :
    (editInteractive .v1 false (some true) ["ssh".toList, "maybe".toList, [], []] exVsQ).map (fun r => r.map (fun vs' =>
      (kids ((kids vs' (ovfTag .v1 "ProductSection".toList)).headD (.new [])) (ovfTag .v1 "Property".toList)).map
        (fun p => (p.get (ovfTag .v1 "value".toList), p.get (ovfTag .v1 "userConfigurable".toList))))) =
    some (.ok [(none, none), (none, none), (none, some "true".toList)]) := rfl

end Cot
