import Verif.Lemmas.RoundTripNames3
import Verif.Props.RoundTrip
/-
Property C08 for names and descriptions, whose stored form has placeholders for other properties.
The vocabulary (`TameItem`, `LiteralSub`) is in Verif/Spec/Placeholder.lean.
-/
namespace Cot

theorem readBackS_empty (env : Env) (it : Item) (n : Str) : ReadBackS env it emptyItem [] n := by
  intro p w
  simp [Explicit, Item.tab, emptyItem]

/-- what is stored in the item read back, for every property and profile -/
theorem raw_back {env : Env} {it it' : Item} (wf : ItemWF env it) (ht : TameItem env it) (wf' : ItemWF env it')
    {G : List PSet} (hcov : ∀ p, (∃ g ∈ G, p ∈ g) ↔ ∃ S ∈ it.storedSets, p ∈ S)
    (hdflt : ∀ g ∈ G, none ∈ g → g = {none}) (hrb : ∀ n, ReadBackS env it it' G n) (p : Prof) (n : Str) (w : Val) :
    it'.getRaw n (some {p}) = some w ↔ StoredAs env it n p w := by
  rw [getRaw_single wf']
  -- a property with a default value has a value under every profile
  have hd : ∀ q w, StoredAs env it n none w → ∃ u, StoredAs env it n q u := by
    intro q w hw
    have hget : ∀ m, (∃ v, it.getRaw m (some {none}) = some v) → ∃ v, it.getRaw m (some {q}) = some v := by
      rintro m ⟨v, hv⟩
      rw [getRaw_single wf] at hv
      by_cases hq : ∃ u, Explicit (it.tab m) q u
      · obtain ⟨u, hu⟩ := hq
        exact ⟨u, (getRaw_single wf m q u).2 (Or.inl hu)⟩
      · exact ⟨v, (getRaw_single wf m q v).2 (Or.inr ⟨fun u hu => hq ⟨u, hu⟩, reads_none.1 hv⟩)⟩
    have hsome : ∀ m r, it.getValue env m (some {r}) = .ok none → it.getRaw m (some {r}) = none := by
      intro m r h
      cases hr : it.getRaw m (some {r}) with
      | none => rfl
      | some v =>
        unfold Item.getValue at h
        rw [hr] at h
        simp only [bind, Except.bind] at h
        cases hv : it.replaceWildcards env m v (some {r}) with
        | error e => rw [hv] at h; cases h
        | ok v' =>
          rw [hv] at h
          simp only at h
          split at h
          · cases v' with
            | str s =>
              simp only at h
              split at h <;> cases h
            | tup l => cases h
          · cases h
    have hraw : ∀ m x, it.getValue env m (some {none}) = .ok (some x) → ∃ v, it.getRaw m (some {none}) = some v := by
      intro m x h
      cases hr : it.getRaw m (some {none}) with
      | none => unfold Item.getValue at h; rw [hr] at h; cases h
      | some v => exact ⟨v, rfl⟩
    rcases name_cases env n with hp | rfl | rfl
    · rw [storedAs_plain hp, ← getRaw_single wf] at hw
      obtain ⟨v, hv⟩ := hget n ⟨w, hw⟩
      exact ⟨v, by rw [storedAs_plain hp, ← getRaw_single wf]; exact hv⟩
    · obtain ⟨x, hx, -⟩ := (storedAs_en none w).1 hw
      obtain ⟨v, hv⟩ := hget _ (hraw _ _ hx)
      rcases ht.name q with h | ⟨y, h, -⟩
      · rw [hsome _ _ h] at hv; cases hv
      · exact ⟨_, (storedAs_en q _).2 ⟨y, h, rfl⟩⟩
    · obtain ⟨x, hx, -⟩ := (storedAs_desc none w).1 hw
      obtain ⟨v, hv⟩ := hget _ (hraw _ _ hx)
      rcases ht.descr q with h | ⟨y, h, -⟩
      · rw [hsome _ _ h] at hv; cases hv
      · exact ⟨_, (storedAs_desc q _).2 ⟨y, h, rfl⟩⟩
  by_cases hc : ∃ g ∈ G, p ∈ g
  · exact reads_covered wf hdflt (hrb n) hc (fun w _ h => hd p w h) w
  -- a profile the item does not mention is read as the default
  · have hunc : ∀ q, ¬ (∃ g ∈ G, q ∈ g) → ∀ m v, ¬ Explicit (it.tab m) q v := by
      rintro q hq m v ⟨S, hS, hqS⟩
      exact hq ((hcov q).2 ⟨S, (by
        obtain ⟨t, h1, h2⟩ := mem_tab hS
        exact mem_storedSets.2 ⟨m, t, v, h1, h2⟩), hqS⟩)
    have hunc' : ∀ q, ¬ (∃ g ∈ G, q ∈ g) → ∀ v, ¬ Explicit (it'.tab n) q v := fun q hq v h => hq ((hrb n q v).1 h).1
    have hsame : ∀ m, it.getRaw m (some {p}) = it.getRaw m (some {none}) := by
      intro m
      apply Option.ext
      intro v
      rw [getRaw_single wf, getRaw_single wf, reads_none]
      exact ⟨fun h => h.elim (fun h => absurd h (hunc p hc m v)) (fun h => h.2), fun h => Or.inr ⟨fun u => hunc p hc m u, h⟩⟩
    rw [storedAs_same wf hsame n w]
    have hl : Reads (it'.tab n) p w ↔ Reads (it'.tab n) none w := by
      rw [reads_none]
      exact ⟨fun h => h.elim (fun h => absurd h (hunc' p hc w)) (fun h => h.2), fun h => Or.inr ⟨fun u => hunc' p hc u, h⟩⟩
    rw [hl]
    by_cases hcn : ∃ g ∈ G, (none : Prof) ∈ g
    · exact reads_covered wf hdflt (hrb n) hcn (fun w _ h => hd none w h) w
    · rw [reads_none]
      constructor
      · intro h; exact absurd h (hunc' none hcn w)
      · intro h
        exfalso
        have hno : ∀ m, it.getRaw m (some {none}) = none := by
          intro m
          cases hr : it.getRaw m (some {none}) with
          | none => rfl
          | some v => exact absurd (reads_none.1 ((getRaw_single wf m none v).1 hr)) (hunc none hcn m v)
        have hnv : ∀ m, it.getValue env m (some {none}) = .ok none := by
          intro m; unfold Item.getValue; rw [hno]
        rcases name_cases env n with hp | rfl | rfl
        · rw [storedAs_plain hp, ← getRaw_single wf, hno] at h; cases h
        · obtain ⟨x, hx, -⟩ := (storedAs_en none w).1 h; rw [hnv] at hx; cases hx
        · obtain ⟨x, hx, -⟩ := (storedAs_desc none w).1 h; rw [hnv] at hx; cases hx

/-- **C08**, with names and descriptions.  The Item elements of a consistent item are generated and loaded into a fresh
item successfully, whatever the set iteration orders, and every property reads the same under every profile as in the
original; that includes the name and the description, which are written expanded and stored with placeholders again.

Partial: the texts and the values they may contain are `TameItem` (no underscore, no regular expression syntax, no
placeholder name; see the witness below), and child elements have no attributes of their own (`Representable`). -/
theorem C08_roundtrip_names_partial {env : Env} {o : Orders} {it : Item} {tag : Str}
    (wf : ItemWF env it) (hgood : GoodProfiles it) (hrep : Representable env it)
    (hns : itemTagForNamespace env.ver it.ns = .ok tag) (hl : LiteralSub env) (ht : TameItem env it) :
    ∃ els it', it.generateItems env o = .ok els ∧ addItems env els emptyItem = .ok it' ∧ ItemWF env it' ∧
      ∀ n p, it'.getValue env n (some {p}) = it.getValue env n (some {p}) := by
  have hw := allWritable_of_representable (truthy_of_wf wf) hrep
  obtain ⟨⟨x, hnsx⟩, htag⟩ := itemTag_braced hns
  obtain ⟨f1, f2, f3, f4, f5⟩ := setStrings_facts o wf hgood
  have hgen : ∀ s ∈ it.setStrings o, ∃ e, it.genItem env tag s = .ok e := by
    intro s hs
    refine genItem_ok wf.names hnsx hw tag s ?_
    intro n _
    obtain ⟨p0, hp0⟩ := Finset.nonempty_iff_ne_empty.2 (f1 s hs)
    rw [getValue_same (fun m => getRaw_alike wf (f2 s hs) hp0 m) n]
    exact getValue_alike_ok ht n p0
  obtain ⟨els, hels⟩ := mapE_ok (f := it.genItem env tag) (l := it.setStrings o) hgen
  have hg : it.generateItems env o = .ok els := by
    unfold Item.generateItems; rw [hns]; exact hels
  obtain ⟨it', h1, wf', hrb⟩ := addElems_names wf ht hl hnsx hw htag (it.setStrings o) els [] emptyItem (.empty env) hels f1
    (by
      rcases setStrings_split o wf hgood with h | ⟨r, hr, h⟩
      · exact Or.inl h
      · exact Or.inr ⟨rfl, rfl, r, hr, h⟩)
    f2 (by simpa using f3) (by simp) (fun n => readBackS_empty env it n)
  rw [List.nil_append] at hrb
  refine ⟨els, it', hg, h1, wf', ?_⟩
  have hraw := raw_back wf ht wf' f4 f5 hrb
  intro n p
  have hplain : ∀ m, Plain env m → it'.getRaw m (some {p}) = it.getRaw m (some {p}) := by
    intro m hm
    apply Option.ext
    intro v
    rw [hraw, storedAs_plain hm, getRaw_single wf]
  obtain ⟨q1, q2, q3, -⟩ := names_plain env
  have hv : ∀ k ∈ enOrder, phVals env it' {p} k = phVals env it {p} k := by
    intro k hk
    cases k with
    | en => exact absurd hk (by decide)
    | vq => simp only [phVals, hplain _ q1]
    | rst => simp only [phVals, hplain _ q2]
    | conn => simp only [phVals, hplain _ q3]
  have hnone : ∀ m, (∀ w, ¬ StoredAs env it m p w) → it'.getValue env m (some {p}) = .ok none := by
    intro m hm
    have : it'.getRaw m (some {p}) = none := by
      cases hr : it'.getRaw m (some {p}) with
      | none => rfl
      | some w => exact absurd ((hraw p m w).1 hr) (hm w)
    unfold Item.getValue
    rw [this]
  rcases name_cases env n with hp | rfl | rfl
  · rw [getValue_plain hp, getValue_plain hp, hplain n hp]
  · rcases ht.name p with h | ⟨y, h, hy, hyv⟩
    · rw [h]
      refine hnone _ (fun w hw => ?_)
      obtain ⟨z, hz, -⟩ := (storedAs_en p w).1 hw
      rw [h] at hz; cases hz
    · rw [h]
      exact getValue_en_back hl (fun k _ v => phVals_tame wf ht p k v) hv hy hyv.1
        ((hraw p _ _).2 ((storedAs_en p _).2 ⟨y, h, rfl⟩))
  · rcases ht.descr p with h | ⟨y, h, hy, hyv⟩
    · rw [h]
      refine hnone _ (fun w hw => ?_)
      obtain ⟨z, hz, -⟩ := (storedAs_desc p w).1 hw
      rw [h] at hz; cases hz
    · rw [h]
      refine getValue_desc_back hl (fun k _ v => phVals_tame wf ht p k v) hv ?_ ?_ hy hyv
        ((hraw p _ _).2 ((storedAs_desc p _).2 ⟨y, h, rfl⟩))
      · intro v hvv
        rcases ht.name p with h' | ⟨x, h', hx, -⟩
        · simp only [phVals, h'] at hvv; cases hvv
        · simp only [phVals, h'] at hvv; cases hvv; exact hx
      · rcases ht.name p with h' | ⟨x, h', hx, -⟩
        · simp only [phVals, h', Option.map_none]
          cases hr : it'.getRaw (elementName env.ver) (some {p}) with
          | none => rfl
          | some w =>
            obtain ⟨z, hz, -⟩ := (storedAs_en p w).1 ((hraw p _ w).1 hr)
            rw [h'] at hz; cases hz
        · refine Eq.trans ((hraw p _ _).2 ((storedAs_en p _).2 ⟨x, h', rfl⟩)) ?_
          simp only [phVals, h', Option.map_some]
          rfl

/-! ### A concrete item with a name and a description -/

/-- an environment whose `re.sub` replaces texts literally -/
def exEnvL : Env := { exEnv with reSub := fun p r s => .ok (replaceAll p r s) }

theorem exEnvL_literal : LiteralSub exEnvL := fun _ _ _ _ _ _ => rfl

/-- a CPU item with a name and a description mentioning the quantity and the name: "4 virtual cpus", under profile x -/
def exNamed : Item :=
  { props := [("InstanceID".toList, [(.str "1".toList, {none})]),
              ("ResourceType".toList, [(.str "3".toList, {none})]),
              ("VirtualQuantity".toList, [(.str "1".toList, {none}), (.str "4".toList, {pX})]),
              ("ElementName".toList, [(.str "_VQ_ virtual cpus".toList, {none})]),
              ("Description".toList, [(.str "this is _EN_".toList, {none})])],
    ns := rasd, modified := true }

theorem exNamed_wf : ItemWF exEnvL exNamed := by
  have h0 : ItemWF exEnvL exItem := ⟨exItem_wf.names, exItem_wf.tabs, exItem_wf.oneId, exItem_wf.oneType, exItem_wf.typed⟩
  have h1 : exItem.setProperty exEnvL "ElementName".toList (.str "1 virtual cpus".toList) {none} true =
      .ok { exNamed with props := exNamed.props.take 4 } := by rfl
  obtain ⟨-, -, w1, -⟩ := setProperty_spec h0 h1
  have h2 : ({ exNamed with props := exNamed.props.take 4 } : Item).setProperty exEnvL "Description".toList
      (.str "this is 1 virtual cpus".toList) {none} true = .ok exNamed := by rfl
  obtain ⟨-, -, w2, -⟩ := setProperty_spec w1 h2
  exact w2

theorem exNamed_sets {n : Str} {v : Val} {S : PSet} (h : (v, S) ∈ exNamed.tab n) : S = {none} ∨ S = {pX} := by
  obtain ⟨t, h1, h2⟩ := mem_tab h
  simp only [exNamed, List.mem_cons, Prod.mk.injEq, List.not_mem_nil, or_false] at h1
  rcases h1 with ⟨-, rfl⟩ | ⟨-, rfl⟩ | ⟨-, rfl⟩ | ⟨-, rfl⟩ | ⟨-, rfl⟩ <;>
    simp only [List.mem_cons, Prod.mk.injEq, List.not_mem_nil, or_false] at h2
  · exact Or.inl h2.2
  · exact Or.inl h2.2
  · rcases h2 with h2 | h2
    · exact Or.inl h2.2
    · exact Or.inr h2.2
  · exact Or.inl h2.2
  · exact Or.inl h2.2

theorem exNamed_profiles (p : Prof) : (∀ m, exNamed.getRaw m (some {p}) = exNamed.getRaw m (some {pX})) ∨
    (∀ m, exNamed.getRaw m (some {p}) = exNamed.getRaw m (some {none})) := by
  by_cases hx : p = pX
  · exact Or.inl (fun m => by rw [hx])
  · right
    by_cases hn : p = none
    · intro m; rw [hn]
    intro m
    have hno : ∀ u, ¬ Explicit (exNamed.tab m) p u := by
      rintro u ⟨S, h, hp⟩
      rcases exNamed_sets h with rfl | rfl
      · exact hn (Finset.mem_singleton.1 hp)
      · exact hx (Finset.mem_singleton.1 hp)
    apply Option.ext
    intro v
    rw [getRaw_single exNamed_wf, getRaw_single exNamed_wf, reads_none]
    exact ⟨fun h => h.elim (fun h => absurd h (hno v)) (fun h => h.2), fun h => Or.inr ⟨hno, h⟩⟩

theorem exNamed_tame : TameItem exEnvL exNamed := by
  refine ⟨?_, ?_, ?_, ?_, ?_⟩
  · intro p v h
    rw [← getRaw_single exNamed_wf] at h
    rcases exNamed_profiles p with hp | hp <;> rw [hp] at h
    · have : v = .str "4".toList := (Option.some.inj h).symm
      subst this
      exact ⟨by decide, by decide, by decide⟩
    · have : v = .str "1".toList := (Option.some.inj h).symm
      subst this
      exact ⟨by decide, by decide, by decide⟩
  · intro p v h
    have hn : exNamed.tab resourceSubType = [] := rfl
    rw [hn] at h
    obtain ⟨S, h, -⟩ | ⟨-, S, h, -⟩ := h <;> cases h
  · intro p v h
    have hn : exNamed.tab connection = [] := rfl
    rw [hn] at h
    obtain ⟨S, h, -⟩ | ⟨-, S, h, -⟩ := h <;> cases h
  · intro p
    right
    rcases exNamed_profiles p with hp | hp <;> rw [getValue_same hp]
    · exact ⟨"4 virtual cpus".toList, by rfl, by unfold TameText; decide +kernel, by unfold TameVal; decide +kernel⟩
    · exact ⟨"1 virtual cpus".toList, by rfl, by unfold TameText; decide +kernel, by unfold TameVal; decide +kernel⟩
  · intro p
    right
    rcases exNamed_profiles p with hp | hp <;> rw [getValue_same hp]
    · exact ⟨"this is 4 virtual cpus".toList, by rfl, by unfold TameText; decide +kernel, by decide +kernel⟩
    · exact ⟨"this is 1 virtual cpus".toList, by rfl, by unfold TameText; decide +kernel, by decide +kernel⟩

theorem exNamed_good : GoodProfiles exNamed := by
  rintro S ⟨n, t, v, h1, h2⟩ s hs
  have : (v, S) ∈ exNamed.tab n := by rw [tab_of_mem exNamed_wf h1]; exact h2
  rcases exNamed_sets this with rfl | rfl
  · simp at hs
  · simp [pX] at hs; subst hs; decide

theorem exNamed_representable : Representable exEnvL exNamed := by
  intro n v S h
  obtain ⟨t, h1, h2⟩ := mem_tab h
  simp only [exNamed, List.mem_cons, Prod.mk.injEq, List.not_mem_nil, or_false] at h1
  rcases h1 with ⟨rfl, rfl⟩ | ⟨rfl, rfl⟩ | ⟨rfl, rfl⟩ | ⟨rfl, rfl⟩ | ⟨rfl, rfl⟩ <;>
    simp only [List.mem_cons, Prod.mk.injEq, List.not_mem_nil, or_false] at h2
  · obtain ⟨rfl, -⟩ := h2; exact .child (by decide +kernel) (by decide +kernel)
  · obtain ⟨rfl, -⟩ := h2; exact .child (by decide +kernel) (by decide +kernel)
  · rcases h2 with ⟨rfl, -⟩ | ⟨rfl, -⟩ <;> exact .child (by decide +kernel) (by decide +kernel)
  · obtain ⟨rfl, -⟩ := h2; exact .child (by decide +kernel) (by decide +kernel)
  · obtain ⟨rfl, -⟩ := h2; exact .child (by decide +kernel) (by decide +kernel)

/-- non-vacuity: the item is written and read back, with its two descriptions -/
example (o : Orders) : ∃ els it', exNamed.generateItems exEnvL o = .ok els ∧ addItems exEnvL els emptyItem = .ok it' ∧
    it'.getValue exEnvL itemDescription (some {pX}) = .ok (some (.str "this is 4 virtual cpus".toList)) ∧
    it'.getValue exEnvL itemDescription (some {pY}) = .ok (some (.str "this is 1 virtual cpus".toList)) := by
  obtain ⟨els, it', h1, h2, -, h3⟩ := C08_roundtrip_names_partial (o := o) (tag := itemTag .v1) exNamed_wf exNamed_good
    exNamed_representable rfl exEnvL_literal exNamed_tame
  exact ⟨els, it', h1, h2, by rw [h3]; rfl, by rw [h3]; rfl⟩

/-! ### C08 fails for texts that look like placeholders once abbreviated -/

/-- an Item element: one cpu, described as "1EN1" -/
def exConfused : Elem :=
  .mk (itemTag .v1) [] none none
    [.mk (rasd ++ "Description".toList) [] (some "1EN1".toList) none [],
     .mk (rasd ++ "ElementName".toList) [] (some "cpu".toList) none [],
     .mk (rasd ++ "InstanceID".toList) [] (some "1".toList) none [],
     .mk (rasd ++ "ResourceType".toList) [] (some "3".toList) none [],
     .mk (rasd ++ "VirtualQuantity".toList) [] (some "1".toList) none []]

/-- **C08** does not hold without that restriction: an Item with one cpu, the name "cpu" and the description "1EN1" is
loaded without an error, and its description then reads "_VQcpuVQ_": the 1s of the description are stored as `_VQ_`, and
the text `_EN_` that this makes up is taken for the name. -/
theorem C08_placeholder_confusion_fails : LiteralSub exEnvL ∧ ∃ it, emptyItem.addItem exEnvL exConfused = .ok it ∧
    it.getValue exEnvL itemDescription (some {none}) = .ok (some (.str "_VQcpuVQ_".toList)) :=
  ⟨exEnvL_literal, _, rfl, rfl⟩

end Cot
