import Verif.Lemmas.ItemOps2
/-
Properties C01-C06 of hardware items.  `Explicit`, `Reads`, `TabWF`, `ItemWF`, `Plain`, `Denotes` and
`Inheritable` are the specification vocabulary of Verif/Spec/Item.lean.
-/
namespace Cot

/-! ### A concrete environment and item used for the non-vacuity examples -/

/-- two configuration profiles, no wildcard substitution -/
def exEnv : Env :=
  { ver := .v1, configProfiles := ["x".toList, "y".toList],
    reSub := fun _ _ s => .ok s, strOfList := fun _ => [], toXml := fun _ => [],
    ofXml := fun _ => .error .valueError }

def pX : Prof := some "x".toList
def pY : Prof := some "y".toList

/-- a CPU item: 1 CPU by default, 4 under profile x -/
def exItem : Item :=
  { props := [("InstanceID".toList, [(.str "1".toList, {none})]),
              ("ResourceType".toList, [(.str "3".toList, {none})]),
              ("VirtualQuantity".toList, [(.str "1".toList, {none}), (.str "4".toList, {pX})])],
    ns := rasd, modified := true }

/-! ### Histories of edits (C02) -/

/-- one edit of an item through its API, in the environment it sees at that moment -/
inductive Edit where
  | set (name : Str) (val : InVal) (profiles : PSet) (overwrite : Bool)
  | addProfile (p : Prof) (fromItem : Option Item)
  | removeProfile (p : Prof) (split : Bool)
  | addElement (e : Elem)

/-- perform one edit -/
def Edit.run (env : Env) (it : Item) : Edit → Except Err Item
  | .set n v P o => it.setProperty env n v P o
  | .addProfile p src => it.addProfile env p src
  | .removeProfile p s => it.removeProfile env p s
  | .addElement e => it.addItem env e

/-- An item reached from the empty one by successful edits.  The environment (configuration profiles,
regular expression engine, ...) may differ from edit to edit, only the OVF version is fixed; an item
passed as `from_item` must itself be reachable. -/
inductive Reachable (v : Ver) : Item → Prop where
  | empty : Reachable v emptyItem
  | step {it it' : Item} {env : Env} {ed : Edit} : Reachable v it → env.ver = v →
      (∀ p s, ed = .addProfile p (some s) → Reachable v s) →
      ed.run env it = .ok it' → Reachable v it'

theorem edit_wf {env : Env} {it it' : Item} {ed : Edit} (wf : ItemWF env it)
    (hs : ∀ p s, ed = .addProfile p (some s) → ItemWF env s) (h : ed.run env it = .ok it') :
    ItemWF env it' := by
  cases ed with
  | set n v P o => obtain ⟨_, _, w, _⟩ := setProperty_spec wf h; exact w
  | addProfile p src =>
    refine addProfile_wf wf ?_ h
    intro s hsrc; subst hsrc; exact hs p s rfl
  | removeProfile p s =>
    obtain ⟨it1, h1, w, _⟩ := removeProfile_spec wf p s
    have h' : it.removeProfile env p s = .ok it' := h
    rw [h1] at h'; cases h'; exact w
  | addElement e => obtain ⟨_, _, _, _, w, _⟩ := addItem_inv wf h; exact w

/-- **C02.** Any item reached by any finite sequence of successful edits is consistent: no profile
has two values for a property, no value is stored for no profile, the default profile is not stored
together with named ones, and there is at most one InstanceID and one ResourceType. -/
theorem C02_edits_preserve_consistency {v : Ver} {it : Item} (h : Reachable v it) :
    (∀ n p a b, Explicit (it.tab n) p a → Explicit (it.tab n) p b → a = b) ∧
    (∀ n a S, (a, S) ∈ it.tab n → S ≠ ∅ ∧ (none ∈ S → S = {none})) ∧
    (it.tab (instanceId v)).length ≤ 1 ∧ (it.tab resourceType).length ≤ 1 ∧
    (∀ env : Env, env.ver = v → ItemWF env it) := by
  have key : ∀ env : Env, env.ver = v → ItemWF env it := by
    induction h with
    | empty => intro env _; exact ItemWF.empty env
    | @step it it' env ed _ hv _ hrun ih1 ih2 =>
      intro env' hv'
      have := edit_wf (ih1 env hv) (fun p s hed => ih2 p s hed env hv) hrun
      exact this.congr (hv'.trans hv.symm)
  have wf := key { exEnv with ver := v } rfl
  exact ⟨fun n p a b => (wf.tab n).functional p a b,
    fun n a S hm => ⟨(wf.tab n).nonempty a S hm, (wf.tab n).dflt a S hm⟩,
    wf.oneId, wf.oneType, key⟩

/-- non-vacuity of C02: the example item is reachable by four edits -/
theorem exItem_reachable : Reachable .v1 exItem := by
  refine .step (env := exEnv) (ed := .set "VirtualQuantity".toList (.str "4".toList) {pX} true)
    (.step (env := exEnv) (ed := .set "VirtualQuantity".toList (.str "1".toList) ∅ true)
    (.step (env := exEnv) (ed := .set "ResourceType".toList (.str "3".toList) ∅ true)
    (.step (env := exEnv) (ed := .set "InstanceID".toList (.str "1".toList) ∅ true)
      .empty rfl (by intro _ _ h; cases h) rfl) rfl (by intro _ _ h; cases h) rfl)
      rfl (by intro _ _ h; cases h) rfl) rfl (by intro _ _ h; cases h) rfl

theorem exItem_wf : ItemWF exEnv exItem :=
  (C02_edits_preserve_consistency exItem_reachable).2.2.2.2 exEnv rfl

/-! ### C06 -/

/-- **C06.** Reading an ordinary property over a non-empty set of profiles never fails; it yields `v`
iff every one of these profiles individually reads `v`, and nothing otherwise.  In particular it does
not depend on the order in which values are stored. -/
theorem C06_get_value_agreement {env : Env} {it : Item} (wf : ItemWF env it) {n : Str}
    (hn : Plain env n) {P : PSet} (hP : P ≠ ∅) :
    (∀ v, it.getValue env n (some P) = .ok (some v) ↔ ∀ p ∈ P, Reads (it.tab n) p v) ∧
    ((¬ ∃ v, ∀ p ∈ P, Reads (it.tab n) p v) → it.getValue env n (some P) = .ok none) := by
  have h := getRaw_iff wf n hP
  rw [getValue_plain hn]
  constructor
  · intro v
    constructor
    · intro hh; cases hh' : it.getRaw n (some P) with
      | none => rw [hh'] at hh; cases hh
      | some w => rw [hh'] at hh; cases hh; exact (h v).1 hh'
    · intro hh; rw [(h v).2 hh]
  · intro hh
    cases hh' : it.getRaw n (some P) with
    | none => rfl
    | some w => exact absurd ⟨w, (h w).1 hh'⟩ hh

/-- C06, order independence: storing the values of a property in another order changes no answer. -/
theorem C06_order_independent {env : Env} {it it' : Item} (wf : ItemWF env it) (wf' : ItemWF env it')
    {n : Str} (hn : Plain env n) (hperm : (it.tab n).Perm (it'.tab n)) {P : PSet} (hP : P ≠ ∅) :
    it.getValue env n (some P) = it'.getValue env n (some P) := by
  refine getValue_congr wf wf' hn hP ?_
  have he : ∀ p w, Explicit (it.tab n) p w ↔ Explicit (it'.tab n) p w := by
    intro p w; unfold Explicit; simp only [hperm.mem_iff]
  intro p _ w
  unfold Reads; simp only [he]

/-- C06 without a profile set: a value is returned iff the property has exactly one value. -/
theorem C06_get_value_no_profiles {env : Env} {it : Item} {n : Str} (hn : Plain env n) (v : Val) :
    it.getValue env n none = .ok (some v) ↔ ∃ S, it.tab n = [(v, S)] := by
  rw [getValue_plain hn]
  unfold Item.getRaw
  rcases it.tab n with _ | ⟨⟨a, S⟩, _ | ⟨b, t⟩⟩
  · simp
  · simp
  · simp

/-- non-vacuity: y and the default agree on 1 CPU; x disagrees; so the three together read nothing -/
example : exItem.getValue exEnv virtualQuantity (some {none, pY}) = .ok (some (.str "1".toList)) ∧
    exItem.getValue exEnv virtualQuantity (some {pX}) = .ok (some (.str "4".toList)) ∧
    exItem.getValue exEnv virtualQuantity (some {none, pX, pY}) = .ok none ∧
    Plain exEnv virtualQuantity ∧ ItemWF exEnv exItem :=
  ⟨rfl, rfl, rfl, by constructor <;> decide, exItem_wf⟩

/-! ### C01 -/

theorem Denotes.norm {env : Env} {name : Str} {val : InVal} {v : Val} (h : Denotes name val v) :
    normValue env name val = v := by
  rcases h with ⟨hn, s, rfl, rfl⟩ | ⟨rfl, l, rfl, rfl⟩
  · simp [normValue, hn]
  · simp [normValue]

/-- **C01.** A successful `set_property(name, val, P)` with a non-empty value on an ordinary property:
every profile in `P` now reads the new value; every profile outside `P` reads every property exactly
as before, except that a profile without a value of its own follows the default when the default
profile is in `P`; and the stored values of all other properties are unchanged. -/
theorem C01_set_property_isolation {env : Env} {it it' : Item} {name : Str} {val : InVal} {v : Val}
    {P : PSet} {ow : Bool} (wf : ItemWF env it) (hd : Denotes name val v) (hv : v.truthy = true)
    (hpl : Plain env name) (hP : P ≠ ∅) (h : it.setProperty env name val P ow = .ok it') :
    (∀ p ∈ P, it'.getValue env name (some {p}) = .ok (some v)) ∧
    (∀ p, p ∉ P → none ∉ P → ∀ n, it'.getValue env n (some {p}) = it.getValue env n (some {p})) ∧
    (∀ p, p ∉ P → (∃ w, Explicit (it.tab name) p w) →
      it'.getValue env name (some {p}) = it.getValue env name (some {p})) ∧
    (∀ p, p ∉ P → none ∈ P → (¬ ∃ w, Explicit (it.tab name) p w) →
      it'.getValue env name (some {p}) = .ok (some v)) ∧
    (∀ n, n ≠ name → Plain env n → ∀ Q, it'.getValue env n Q = it.getValue env n Q) ∧
    (∀ n, n ≠ name → it'.tab n = it.tab n) := by
  obtain ⟨v', h1, wf', h3, h4, _⟩ := setProperty_spec wf h
  rw [hd.norm, addWildcards_plain hpl] at h1
  cases h1
  rw [effProfiles_of_ne it name hP] at h4
  have hread : ∀ p, p ∉ P → (none ∉ P ∨ ∃ w, Explicit (it.tab name) p w) →
      ∀ w, Reads (it'.tab name) p w ↔ Reads (it.tab name) p w := by
    intro p hp hcase w
    rw [h4, reads_set_not_mem (wf.tab name) hv hp]
    unfold Reads
    rcases hcase with hn | ⟨u, hu⟩
    · simp [hn]
    · constructor
      · rintro (h | ⟨h, _⟩)
        · exact Or.inl h
        · exact absurd hu (h u)
      · rintro (h | ⟨h, _⟩)
        · exact Or.inl h
        · exact absurd hu (h u)
  have hraw : ∀ n, n ≠ name → ∀ Q, it'.getRaw n Q = it.getRaw n Q := by
    intro n hn Q; unfold Item.getRaw; rw [h3 n hn]
  refine ⟨?_, ?_, ?_, ?_, ?_, h3⟩
  · intro p hp
    refine ((C06_get_value_agreement wf' hpl (by simp)).1 v).2 ?_
    intro q hq
    rw [Finset.mem_singleton] at hq; subst hq
    rw [h4, reads_set_mem (wf.tab name) hv hp]
  · intro p hp hn n
    apply getValue_congr_all
    intro m
    by_cases hm : m = name
    · subst hm
      refine getRaw_congr wf' wf m (by simp) ?_
      intro q hq w
      rw [Finset.mem_singleton] at hq; subst hq
      exact hread q hp (Or.inl hn) w
    · exact hraw m hm _
  · intro p hp hex
    refine getValue_congr wf' wf hpl (by simp) ?_
    intro q hq w
    rw [Finset.mem_singleton] at hq; subst hq
    exact hread q hp (Or.inr hex) w
  · intro p hp hn hnex
    refine ((C06_get_value_agreement wf' hpl (by simp)).1 v).2 ?_
    intro q hq
    rw [Finset.mem_singleton] at hq; subst hq
    rw [h4, reads_set_not_mem (wf.tab name) hv hp]
    exact Or.inr ⟨fun u hu => hnex ⟨u, hu⟩, Or.inl ⟨hn, rfl⟩⟩
  · intro n hn hpn Q
    rw [getValue_plain hpn, getValue_plain hpn, hraw n hn Q]

/-- C01, availability: with overwriting permitted, setting an ordinary property (other than the two
identifying ones) never fails. -/
theorem C01_set_property_succeeds {env : Env} {it : Item} (wf : ItemWF env it) {name : Str}
    (val : InVal) (P : PSet) (hpl : Plain env name) (hid : name ≠ instanceId env.ver)
    (hrt : name ≠ resourceType) : ∃ it', it.setProperty env name val P true = .ok it' :=
  setProperty_ok wf val P hpl hid hrt

/-- C01 for clearing: setting an empty value for `P` removes the explicit values of the profiles in
`P` (they fall back to the default, unless the default was cleared too) and touches nothing else. -/
theorem C01_clear_property {env : Env} {it it' : Item} {name : Str} {val : InVal} {v : Val}
    {P : PSet} {ow : Bool} (wf : ItemWF env it) (hd : Denotes name val v) (hv : v.truthy = false)
    (hpl : Plain env name) (hP : P ≠ ∅) (h : it.setProperty env name val P ow = .ok it') :
    (∀ p ∈ P, none ∉ P → it'.getValue env name (some {p}) = it.getValue env name (some {none})) ∧
    (∀ p ∈ P, none ∈ P → it'.getValue env name (some {p}) = .ok none) ∧
    (∀ p, p ∉ P → none ∉ P → ∀ n, it'.getValue env n (some {p}) = it.getValue env n (some {p})) ∧
    (∀ n, n ≠ name → it'.tab n = it.tab n) := by
  obtain ⟨v', h1, wf', h3, h4, _⟩ := setProperty_spec wf h
  rw [hd.norm, addWildcards_plain hpl] at h1
  cases h1
  rw [effProfiles_of_ne it name hP] at h4
  have hr := fun p w => reads_clear (P := P) (wf.tab name) hv p w
  rw [← h4] at hr
  refine ⟨?_, ?_, ?_, h3⟩
  · intro p hp hn
    rw [getValue_plain hpl, getValue_plain hpl]
    congr 1
    apply Option.ext
    intro w
    rw [getRaw_single wf', getRaw_single wf, hr]
    simp only [hp, not_true_eq_false, false_and, true_or, true_and, hn, not_false_eq_true, false_or]
    unfold Reads
    constructor
    · exact Or.inl
    · rintro (h | ⟨_, h⟩) <;> exact h
  · intro p hp hn
    refine (C06_get_value_agreement wf' hpl (by simp)).2 ?_
    rintro ⟨w, hw⟩
    have := hw p (by simp)
    rw [hr] at this
    rcases this with ⟨h, _⟩ | ⟨_, h, _⟩
    · exact h hp
    · exact h hn
  · intro p hp hn n
    apply getValue_congr_all
    intro m
    by_cases hm : m = name
    · subst hm
      refine getRaw_congr wf' wf m (by simp) ?_
      intro q hq w
      rw [Finset.mem_singleton] at hq; subst hq
      rw [hr]; unfold Reads; simp [hp, hn]
    · unfold Item.getRaw; rw [h3 m hm]

/-- non-vacuity of C01: set 2 CPUs under y in the example item -/
example : ∃ it', exItem.setProperty exEnv virtualQuantity (.str "2".toList) {pY} true = .ok it' ∧
    it'.getValue exEnv virtualQuantity (some {pY}) = .ok (some (.str "2".toList)) ∧
    it'.getValue exEnv virtualQuantity (some {pX}) = .ok (some (.str "4".toList)) ∧
    it'.getValue exEnv virtualQuantity (some {none}) = .ok (some (.str "1".toList)) :=
  ⟨_, rfl, rfl, rfl, rfl⟩

/-- non-vacuity of C01 with the default profile among the given ones: y follows the default -/
example : ∃ it', exItem.setProperty exEnv virtualQuantity (.str "2".toList) {none} true = .ok it' ∧
    it'.getValue exEnv virtualQuantity (some {pY}) = .ok (some (.str "2".toList)) ∧
    it'.getValue exEnv virtualQuantity (some {pX}) = .ok (some (.str "4".toList)) :=
  ⟨_, rfl, rfl, rfl⟩

/-! ### C03 -/

/-- **C03.** Adding an Item element either fails, or keeps every explicitly stored value of every
property under every profile.  Under an element that names profiles, profiles it does not name read
every property exactly as before; an element without profiles changes no property that already had a
value. -/
theorem C03_add_item_no_overwrite {env : Env} {it it' : Item} {e : Elem} (wf : ItemWF env it)
    (h : it.addItem env e = .ok it') :
    (∀ n p w, Explicit (it.tab n) p w → Explicit (it'.tab n) p w) ∧
    (elemProfiles env.ver e ≠ ∅ → ∀ p, p ∉ elemProfiles env.ver e →
      ∀ n, it'.getValue env n (some {p}) = it.getValue env n (some {p})) ∧
    (elemProfiles env.ver e = ∅ → ∀ n, it.tab n ≠ [] → it'.tab n = it.tab n) := by
  obtain ⟨ns, it1, w0, hs, w1, rfl, _⟩ := addItem_inv wf h
  have htab : ∀ n, ({ it1 with modified := true } : Item).tab n = it1.tab n := fun _ => rfl
  by_cases hP : elemProfiles env.ver e = ∅
  · rw [hP] at hs
    have hd := setAll_default _ w0 hs
    refine ⟨?_, fun h => absurd hP h, fun _ n hn => hd n hn⟩
    intro n p w hx
    rw [htab]
    have hne : it.tab n ≠ [] := by
      rintro hnil; rw [hnil] at hx; obtain ⟨S, hm, _⟩ := hx; simp at hm
    have : it1.tab n = it.tab n := hd n hne
    rw [this]; exact hx
  · have hd := setAll_named hP (none_not_mem_elemProfiles _ _) _ w0 hs
    refine ⟨fun n p w hx => (hd n p w).1 hx, ?_, fun h => absurd h hP⟩
    intro _ p hp n
    apply getValue_congr_all
    intro m
    refine getRaw_congr w1 wf m (by simp) ?_
    intro q hq w
    rw [Finset.mem_singleton] at hq; subst hq
    have e1 : ∀ u, Explicit (it1.tab m) q u ↔ Explicit (it.tab m) q u := fun u =>
      ⟨(hd m q u).2 hp, (hd m q u).1⟩
    have e2 : ∀ u, Explicit (it1.tab m) none u ↔ Explicit (it.tab m) none u := fun u =>
      ⟨(hd m none u).2 (none_not_mem_elemProfiles _ _), (hd m none u).1⟩
    show Reads (it1.tab m) q w ↔ Reads (it.tab m) q w
    unfold Reads
    simp only [e1, e2]

/-- an Item element for instance 1 with the given configuration and VirtualQuantity -/
def exElem (config vq : String) : Elem :=
  .mk (itemTag .v1) [(itemConfig .v1, config.toList)] none none
    [.mk (rasd ++ "InstanceID".toList) [] (some "1".toList) none [],
     .mk (rasd ++ "VirtualQuantity".toList) [] (some vq.toList) none []]

/-- non-vacuity of C03: an element for y is merged into the example item, one for x conflicts -/
example : (∃ it', exItem.addItem exEnv (exElem "y" "2") = .ok it' ∧
      it'.getValue exEnv virtualQuantity (some {pY}) = .ok (some (.str "2".toList)) ∧
      it'.getValue exEnv virtualQuantity (some {pX}) = .ok (some (.str "4".toList))) ∧
    exItem.addItem exEnv (exElem "y x" "2") = .error .itemDataError ∧
    elemProfiles .v1 (exElem "y x" "2") = {pX, pY} :=
  ⟨⟨_, rfl, rfl, rfl⟩, rfl, by decide⟩

/-- C03, order sensitivity (a limitation users meet): a default Item element that comes *after* a
profile-specific element of the same instance is always rejected, although the reverse order loads. -/
theorem C03_default_after_specific_rejected :
    (∃ it', emptyItem.addItem exEnv (exElem "x" "4") = .ok it' ∧
      it'.addItem exEnv (exElem "" "1") = .error .itemDataError) ∧
    (∃ it', emptyItem.addItem exEnv (exElem "" "1") = .ok it' ∧
      ∃ it'', it'.addItem exEnv (exElem "x" "4") = .ok it'') :=
  ⟨⟨_, rfl, rfl⟩, ⟨_, rfl, _, rfl⟩⟩

/-! ### C04 -/

/-- **C04.** Removing a named profile `p` under which the item exists always succeeds; afterwards the
item does not exist under `p`, every property is absent under `p`, and over any non-empty set of
other configured profiles every property reads as before and the item exists as before. -/
theorem C04_remove_profile {env : Env} {it : Item} (wf : ItemWF env it) {p : Str}
    (hp : it.hasProfile env (some p) = true) :
    ∃ it', it.removeProfile env (some p) true = .ok it' ∧ ItemWF env it' ∧
      it'.hasProfile env (some p) = false ∧
      (∀ n, it'.getValue env n (some {some p}) = .ok none) ∧
      (∀ Q : PSet, Q ≠ ∅ → (∀ q ∈ Q, q ≠ some p ∧ ∃ c ∈ env.configProfiles, q = some c) →
        ∀ n, it'.getValue env n (some Q) = it.getValue env n (some Q)) ∧
      (∀ q ∈ env.configProfiles, q ≠ p → it'.hasProfile env (some q) = it.hasProfile env (some q)) := by
  obtain ⟨it', h1, wf', _, h2⟩ := removeProfile_spec wf (some p) true
  have htab := h2 hp
  have he : ∀ n q w, Explicit (it'.tab n) q w ↔ q ≠ some p ∧
      ((Explicit (it.tab n) q w ∧ (q = none → true = false)) ∨
        (true = true ∧ some p ≠ none ∧ q ≠ none ∧ q ∈ env.cfgSet ∧ Explicit (it.tab n) none w ∧
          ∀ u, ¬ Explicit (it.tab n) q u)) := fun n q w => by
    rw [htab n]; exact explicit_removeLoop (wf.tab n) q w
  have hpn : ∀ n w, ¬ Explicit (it'.tab n) (some p) w := by
    intro n w; rw [he]; tauto
  have hnn : ∀ n w, ¬ Explicit (it'.tab n) none w := by
    intro n w; rw [he]; simp
  have hcfg : ∀ q, (∃ c ∈ env.configProfiles, q = some c) → q ∈ env.cfgSet := by
    rintro q ⟨c, hc, rfl⟩; simp [Env.cfgSet, hc]
  have hreads : ∀ q, q ≠ some p → (∃ c ∈ env.configProfiles, q = some c) → ∀ n w,
      Reads (it'.tab n) q w ↔ Reads (it.tab n) q w := by
    intro q hq hc n w
    have hqn : q ≠ none := by obtain ⟨c, _, rfl⟩ := hc; simp
    unfold Reads
    have hnot : ¬ ((∀ w, ¬ Explicit (it'.tab n) q w) ∧ Explicit (it'.tab n) none w) :=
      fun h => hnn n w h.2
    simp only [hnot, or_false]
    rw [he]
    have := hcfg q hc
    constructor
    · rintro ⟨_, ⟨h, _⟩ | ⟨_, _, _, _, h1, h2⟩⟩
      · exact Or.inl h
      · exact Or.inr ⟨h2, h1⟩
    · rintro (h | ⟨h1, h2⟩)
      · exact ⟨hq, Or.inl ⟨h, fun h => absurd h hqn⟩⟩
      · exact ⟨hq, Or.inr ⟨rfl, by simp, hqn, this, h2, h1⟩⟩
  refine ⟨it', h1, wf', ?_, ?_, ?_, ?_⟩
  · rw [← Bool.not_eq_true, hasProfile_iff]
    rintro (⟨v, hv⟩ | ⟨⟨v, hv⟩, _⟩)
    · exact hpn _ _ hv
    · exact hnn _ _ hv
  · intro n
    have : it'.getRaw n (some {some p}) = none := by
      cases hh : it'.getRaw n (some {some p}) with
      | none => rfl
      | some w =>
        rw [getRaw_single wf'] at hh
        rcases hh with hh | ⟨_, hh⟩
        · exact absurd hh (hpn _ _)
        · exact absurd hh (hnn _ _)
    unfold Item.getValue; rw [this]
  · intro Q hQ hall n
    apply getValue_congr_all
    intro m
    refine getRaw_congr wf' wf m hQ ?_
    intro q hq w
    exact hreads q (hall q hq).1 (hall q hq).2 m w
  · intro q hq hne
    have hr := hreads (some q) (by simpa using hne) ⟨q, hq, rfl⟩ (instanceId env.ver)
    rw [Bool.eq_iff_iff, hasProfile_iff, hasProfile_iff]
    have hqc := hcfg (some q) ⟨q, hq, rfl⟩
    have conv : ∀ t : Tab, ((∃ v, Explicit t (some q) v) ∨ ((∃ v, Explicit t none v) ∧ some q ∈ env.cfgSet)) ↔
        ∃ v, Reads t (some q) v := by
      intro t
      constructor
      · rintro (⟨v, hv⟩ | ⟨⟨v, hv⟩, _⟩)
        · exact ⟨v, Or.inl hv⟩
        · by_cases hx : ∃ u, Explicit t (some q) u
          · obtain ⟨u, hu⟩ := hx; exact ⟨u, Or.inl hu⟩
          · exact ⟨v, Or.inr ⟨fun u hu => hx ⟨u, hu⟩, hv⟩⟩
      · rintro ⟨v, hv | ⟨_, hv⟩⟩
        · exact Or.inl ⟨v, hv⟩
        · exact Or.inr ⟨⟨v, hv⟩, hqc⟩
    rw [conv, conv]
    constructor
    · rintro ⟨v, hv⟩; exact ⟨v, (hr v).1 hv⟩
    · rintro ⟨v, hv⟩; exact ⟨v, (hr v).2 hv⟩

/-- C04 with `split_default=False` (used when the profile is being deleted altogether): only the
values stored explicitly for `p` go away; every other profile, including the default and profiles
that are not configured, reads exactly as before, and `p` itself would read the defaults. -/
theorem C04_remove_profile_keep_default {env : Env} {it : Item} (wf : ItemWF env it) {p : Str}
    (hp : it.hasProfile env (some p) = true) :
    ∃ it', it.removeProfile env (some p) false = .ok it' ∧ ItemWF env it' ∧
      (∀ n w, ¬ Explicit (it'.tab n) (some p) w) ∧
      (∀ n, it'.getRaw n (some {some p}) = it.getRaw n (some {none})) ∧
      (∀ Q : PSet, Q ≠ ∅ → some p ∉ Q → ∀ n,
        it'.getValue env n (some Q) = it.getValue env n (some Q)) := by
  obtain ⟨it', h1, wf', _, h2⟩ := removeProfile_spec wf (some p) false
  have htab := h2 hp
  have he : ∀ n q w, Explicit (it'.tab n) q w ↔ q ≠ some p ∧ Explicit (it.tab n) q w := fun n q w => by
    rw [htab n, explicit_removeLoop (wf.tab n)]; simp
  refine ⟨it', h1, wf', ?_, ?_, ?_⟩
  · intro n w; rw [he]; tauto
  · intro n
    apply Option.ext
    intro w
    rw [getRaw_single wf', getRaw_single wf]
    unfold Reads
    simp only [he]
    simp only [ne_eq, not_true_eq_false, false_and, not_false_eq_true, implies_true, true_and,
      false_or, reduceCtorEq]
    constructor
    · exact Or.inl
    · rintro (h | ⟨_, h⟩) <;> exact h
  · intro Q hQ hpQ n
    apply getValue_congr_all
    intro m
    refine getRaw_congr wf' wf m hQ ?_
    intro q hq w
    have hqp : q ≠ some p := fun h => hpQ (h ▸ hq)
    unfold Reads
    simp [he, hqp]

/-- non-vacuity of C04: the example item exists under x and y, and loses x -/
example : exItem.hasProfile exEnv pX = true ∧
    ∃ it', exItem.removeProfile exEnv pX true = .ok it' ∧ it'.hasProfile exEnv pX = false ∧
      it'.getValue exEnv virtualQuantity (some {pY}) = .ok (some (.str "1".toList)) ∧
      it'.tab virtualQuantity = [(.str "1".toList, {pY})] :=
  ⟨rfl, _, rfl, rfl, rfl, by decide⟩

/-- Removing the *default* profile is different: profiles that inherited from it lose the item
(the statement of C04 is about named profiles only). -/
theorem C04_remove_default_drops_inheritors_fails :
    ∃ it', exItem.removeProfile exEnv none true = .ok it' ∧
      exItem.hasProfile exEnv pY = true ∧ it'.hasProfile exEnv pY = false :=
  ⟨_, rfl, rfl, rfl⟩

/-! ### C05 -/

/-- **C05.** `add_profile(p, from_item)` for a named profile the item lacks: if it succeeds, each
ordinary property that has values in the source item reads, under `p`, as the source's default (or
only) value; properties the source has no value for are unchanged; every other profile reads every
property as before; and, if `p` is a configured profile and the source has an InstanceID, the item now
exists under `p`. -/
theorem C05_add_profile {env : Env} {it it' : Item} {p : Str} {src : Option Item}
    (wf : ItemWF env it) (wfs : ∀ s, src = some s → ItemWF env s)
    (hp : it.hasProfile env (some p) = false) (h : it.addProfile env (some p) src = .ok it') :
    (∀ n, Plain env n → (src.getD it).tab n ≠ [] → ∃ v, Inheritable ((src.getD it).tab n) v ∧
      it'.getValue env n (some {some p}) = .ok (some v)) ∧
    (∀ n, (src.getD it).tab n = [] → it'.tab n = it.tab n) ∧
    (∀ Q : PSet, Q ≠ ∅ → some p ∉ Q → ∀ n,
      it'.getValue env n (some Q) = it.getValue env n (some Q)) ∧
    (p ∈ env.configProfiles → (src.getD it).tab (instanceId env.ver) ≠ [] →
      it'.hasProfile env (some p) = true) := by
  obtain ⟨wf', h2, h3⟩ := addProfile_spec wf wfs hp h
  have wfsrc : ItemWF env (src.getD it) := by
    cases src with
    | none => exact wf
    | some s => exact wfs s rfl
  have htruthy : ∀ n v, Inheritable ((src.getD it).tab n) v → v.truthy = true := by
    rintro n v (⟨S, hm, _⟩ | ⟨S, hm⟩)
    · exact (wfsrc.tab n).truthy _ _ hm
    · exact (wfsrc.tab n).truthy v S (by rw [hm]; simp)
  have hplain : ∀ n, Plain env n → (src.getD it).tab n ≠ [] → ∃ v,
      Inheritable ((src.getD it).tab n) v ∧ Reads (it'.tab n) (some p) v := by
    intro n hn hne
    obtain ⟨v, v', hi, htab, heq⟩ := h3 n hne
    have := heq hn; subst this
    refine ⟨v', hi, ?_⟩
    rw [htab, reads_set_mem (wf.tab n) (htruthy n v' hi) (by simp)]
  refine ⟨?_, h2, ?_, ?_⟩
  · intro n hn hne
    obtain ⟨v, hi, hr⟩ := hplain n hn hne
    refine ⟨v, hi, ?_⟩
    refine ((C06_get_value_agreement wf' hn (by simp)).1 v).2 ?_
    intro q hq; rw [Finset.mem_singleton] at hq; subst hq; exact hr
  · intro Q hQ hpQ n
    apply getValue_congr_all
    intro m
    refine getRaw_congr wf' wf m hQ ?_
    intro q hq w
    have hqp : q ∉ ({some p} : PSet) := by
      rw [Finset.mem_singleton]; intro h; exact hpQ (h ▸ hq)
    by_cases hm : (src.getD it).tab m = []
    · rw [h2 m hm]
    · obtain ⟨v, v', hi, htab, _⟩ := h3 m hm
      rw [htab]
      by_cases hv : v'.truthy = true
      · rw [reads_set_not_mem (wf.tab m) hv hqp]; unfold Reads; simp
      · rw [reads_clear (wf.tab m) (by simpa using hv)]; unfold Reads
        simp only [Finset.mem_singleton, reduceCtorEq, not_false_eq_true, true_and]
        rw [Finset.mem_singleton] at hqp
        simp [hqp]
  · intro hcfg hne
    have hpl : Plain env (instanceId env.ver) := by
      unfold Plain; cases env.ver <;> decide
    obtain ⟨v, _, hr⟩ := hplain _ hpl hne
    rw [hasProfile_iff]
    rcases hr with hr | ⟨_, hr⟩
    · exact Or.inl ⟨v, hr⟩
    · exact Or.inr ⟨⟨v, hr⟩, by simp [Env.cfgSet, hcfg]⟩

/-- An item that exists only under x: used to exercise `add_profile`. -/
def exItemX : Item :=
  { props := [("InstanceID".toList, [(.str "7".toList, {pX})]),
              ("ResourceType".toList, [(.str "10".toList, {pX})]),
              ("Connection".toList, [(.str "net".toList, {pX})])],
    ns := rasd, modified := true }

theorem exItemX_reachable : Reachable .v1 exItemX := by
  refine .step (env := exEnv) (ed := .set "Connection".toList (.str "net".toList) {pX} true)
    (.step (env := exEnv) (ed := .set "ResourceType".toList (.str "10".toList) {pX} true)
    (.step (env := exEnv) (ed := .set "InstanceID".toList (.str "7".toList) {pX} true)
      .empty rfl (by intro _ _ h; cases h) rfl) rfl (by intro _ _ h; cases h) rfl)
      rfl (by intro _ _ h; cases h) rfl

/-- non-vacuity of C05: y is added to an item that exists only under x -/
example : exItemX.hasProfile exEnv pY = false ∧ ItemWF exEnv exItemX ∧
    ∃ it', exItemX.addProfile exEnv pY none = .ok it' ∧ it'.hasProfile exEnv pY = true ∧
      it'.getValue exEnv connection (some {pY}) = .ok (some (.str "net".toList)) :=
  ⟨rfl, (C02_edits_preserve_consistency exItemX_reachable).2.2.2.2 exEnv rfl, _, rfl, rfl, rfl⟩

/-- The last clause of C05 needs `p` to be configured: adding an unconfigured profile to a default
item changes nothing and the item still does not exist under it. -/
theorem C05_unconfigured_profile_fails :
    ∃ it', exItem.addProfile exEnv (some "z".toList) none = .ok it' ∧
      it'.hasProfile exEnv (some "z".toList) = false :=
  ⟨_, rfl, rfl⟩

end Cot
