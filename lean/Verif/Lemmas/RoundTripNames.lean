import Verif.Lemmas.Names
/-
Writing and reading back items with names and descriptions.
-/
namespace Cot

/-! ### sets of profiles that read the same -/

theorem replaceWildcards_same {env : Env} {it : Item} {P Q : PSet}
    (h : ∀ n, it.getRaw n (some P) = it.getRaw n (some Q)) (n : Str) (v : Val) :
    it.replaceWildcards env n v (some P) = it.replaceWildcards env n v (some Q) := by
  unfold Item.replaceWildcards
  rw [h (elementName env.ver), h resourceSubType, h virtualQuantity, h connection]

theorem getValue_same {env : Env} {it : Item} {P Q : PSet}
    (h : ∀ n, it.getRaw n (some P) = it.getRaw n (some Q)) (n : Str) :
    it.getValue env n (some P) = it.getValue env n (some Q) := by
  unfold Item.getValue
  rw [h n]
  cases it.getRaw n (some Q) with
  | none => rfl
  | some v => simp only [replaceWildcards_same h]

theorem phVals_same {env : Env} {it : Item} {P Q : PSet}
    (h : ∀ n, it.getRaw n (some P) = it.getRaw n (some Q)) : phVals env it P = phVals env it Q := by
  funext k
  cases k <;> simp only [phVals, h, getValue_same h]

theorem getRaw_alike {env : Env} {it : Item} (wf : ItemWF env it) {P : PSet}
    (halike : ∀ p ∈ P, ∀ q ∈ P, ∀ S ∈ it.storedSets, p ∈ S ↔ q ∈ S) {p : Prof} (hp : p ∈ P) (n : Str) :
    it.getRaw n (some P) = it.getRaw n (some {p}) := by
  have hne : P ≠ ∅ := by rintro rfl; simp at hp
  apply Option.ext
  intro v
  rw [getRaw_iff wf n hne, getRaw_single wf]
  constructor
  · exact fun h => h p hp
  · intro h q hq
    exact (reads_iff_of_explicit (fun w => reads_alike (halike p hp q hq) n w) v).1 h

/-! ### what is stored after reading back -/

/-- what an item read back stores for the profile `p` (unless it is the default) -/
def StoredAs (env : Env) (it : Item) (n : Str) (p : Prof) (w : Val) : Prop :=
  if n = elementName env.ver then ∃ x, it.getValue env n (some {p}) = .ok (some (.str x)) ∧
    w = .str (hideAll (phVals env it {p}) enOrder x)
  else if n = itemDescription then ∃ x, it.getValue env n (some {p}) = .ok (some (.str x)) ∧
    w = .str (hideAll (phVals env it {p}) descOrder x)
  else Reads (it.tab n) p w

theorem storedAs_plain {env : Env} {it : Item} {n : Str} (h : Plain env n) (p : Prof) (w : Val) :
    StoredAs env it n p w ↔ Reads (it.tab n) p w := by
  unfold StoredAs
  rw [if_neg h.1, if_neg h.2]

theorem storedAs_en {env : Env} {it : Item} (p : Prof) (w : Val) : StoredAs env it (elementName env.ver) p w ↔
    ∃ x, it.getValue env (elementName env.ver) (some {p}) = .ok (some (.str x)) ∧
      w = .str (hideAll (phVals env it {p}) enOrder x) := by
  unfold StoredAs
  rw [if_pos rfl]

theorem storedAs_desc {env : Env} {it : Item} (p : Prof) (w : Val) : StoredAs env it itemDescription p w ↔
    ∃ x, it.getValue env itemDescription (some {p}) = .ok (some (.str x)) ∧
      w = .str (hideAll (phVals env it {p}) descOrder x) := by
  unfold StoredAs
  rw [if_neg (Ne.symm (names_plain env).2.2.2.1), if_pos rfl]

theorem name_cases (env : Env) (n : Str) : Plain env n ∨ n = elementName env.ver ∨ n = itemDescription := by
  unfold Plain; tauto

theorem storedAs_functional {env : Env} {it : Item} (wf : ItemWF env it) {n : Str} {p : Prof} {v w : Val}
    (h1 : StoredAs env it n p v) (h2 : StoredAs env it n p w) : v = w := by
  rcases name_cases env n with hp | rfl | rfl
  · rw [storedAs_plain hp] at h1 h2; exact (wf.tab n).reads_functional h1 h2
  · rw [storedAs_en] at h1 h2
    obtain ⟨x, e1, rfl⟩ := h1
    obtain ⟨y, e2, rfl⟩ := h2
    rw [e1] at e2
    simp only [Except.ok.injEq, Option.some.injEq, Val.str.injEq] at e2
    rw [e2]
  · rw [storedAs_desc] at h1 h2
    obtain ⟨x, e1, rfl⟩ := h1
    obtain ⟨y, e2, rfl⟩ := h2
    rw [e1] at e2
    simp only [Except.ok.injEq, Option.some.injEq, Val.str.injEq] at e2
    rw [e2]

/-- the values behind the placeholders are tame -/
theorem phVals_tame {env : Env} {it : Item} (wf : ItemWF env it) (ht : TameItem env it) (p : Prof) (k : Ph) (v : Str)
    (h : phVals env it {p} k = some v) : TameVal v := by
  cases k with
  | en =>
    simp only [phVals] at h
    rcases ht.name p with h' | ⟨x, h', -, hT⟩
    · rw [h'] at h; cases h
    · rw [h'] at h
      simp only [Option.some.injEq] at h
      rw [← h]; exact hT
  | vq =>
    simp only [phVals, Option.map_eq_some_iff] at h
    obtain ⟨u, h1, rfl⟩ := h
    exact ht.quantity p u ((getRaw_single wf _ p u).1 h1)
  | rst =>
    simp only [phVals, Option.map_eq_some_iff] at h
    obtain ⟨u, h1, rfl⟩ := h
    exact ht.subtype p u ((getRaw_single wf _ p u).1 h1)
  | conn =>
    simp only [phVals, Option.map_eq_some_iff] at h
    obtain ⟨u, h1, rfl⟩ := h
    exact ht.conn p u ((getRaw_single wf _ p u).1 h1)

theorem tameVal_ne {x : Str} (h : TameVal x) : x ≠ [] := h.1

theorem storedAs_truthy {env : Env} {it : Item} (wf : ItemWF env it) (ht : TameItem env it) {n : Str} {p : Prof} {w : Val}
    (h : StoredAs env it n p w) : w.truthy = true := by
  rcases name_cases env n with hp | rfl | rfl
  · rw [storedAs_plain hp] at h; exact reads_truthy (wf.tab n) h
  · rw [storedAs_en] at h
    obtain ⟨x, e, rfl⟩ := h
    rcases ht.name p with h' | ⟨y, h', hy, hv⟩
    · rw [h'] at e; cases e
    · rw [h'] at e
      simp only [Except.ok.injEq, Option.some.injEq, Val.str.injEq] at e
      subst e
      simp [Val.truthy, hide_truthy (fun k _ => phVals_tame wf ht p k) hy.1 hv.1]
  · rw [storedAs_desc] at h
    obtain ⟨x, e, rfl⟩ := h
    rcases ht.descr p with h' | ⟨y, h', hy, hv⟩
    · rw [h'] at e; cases e
    · rw [h'] at e
      simp only [Except.ok.injEq, Option.some.injEq, Val.str.injEq] at e
      subst e
      simp [Val.truthy, hide_truthy (fun k _ => phVals_tame wf ht p k) hy.1 hv]

theorem storedAs_same {env : Env} {it : Item} (wf : ItemWF env it) {p q : Prof}
    (h : ∀ n, it.getRaw n (some {p}) = it.getRaw n (some {q})) (n : Str) (w : Val) :
    StoredAs env it n p w ↔ StoredAs env it n q w := by
  have e1 := getValue_same (env := env) h
  have e2 := phVals_same (env := env) h
  rcases name_cases env n with hp | rfl | rfl
  · rw [storedAs_plain hp, storedAs_plain hp, ← getRaw_single wf, ← getRaw_single wf, h]
  · rw [storedAs_en, storedAs_en, e1, e2]
  · rw [storedAs_desc, storedAs_desc, e1, e2]

/-- what the item read back so far stores: `G` are the groups already read -/
def ReadBackS (env : Env) (it it' : Item) (G : List PSet) (n : Str) : Prop :=
  ∀ p w, Explicit (it'.tab n) p w ↔ (∃ g ∈ G, p ∈ g) ∧ StoredAs env it n p w ∧
    (p ≠ none → ¬ (({none} : PSet) ∈ G ∧ StoredAs env it n none w))

/-- reading one more group -/
theorem readBackS_step {env : Env} {it it' it'' : Item} (wf : ItemWF env it) (ht : TameItem env it) (wf' : ItemWF env it')
    {G : List PSet} {P : PSet} {n : Str} (hne : P ≠ ∅)
    (hcase : (none : Prof) ∉ P ∨ (P = {none} ∧ G = []))
    (halike : ∀ p ∈ P, ∀ q ∈ P, ∀ m, it.getRaw m (some {p}) = it.getRaw m (some {q}))
    (hdisj : ∀ g ∈ G, ∀ p ∈ P, p ∉ g) (hdflt : ∀ g ∈ G, none ∈ g → g = {none})
    (hyes : ∀ v, (∀ p ∈ P, StoredAs env it n p v) → it''.tab n = collapseTab (setTab v P (it'.tab n)))
    (hno : (∀ p ∈ P, ∀ v, ¬ StoredAs env it n p v) → it''.tab n = it'.tab n)
    (hrb : ReadBackS env it it' G n) : ReadBackS env it it'' (G ++ [P]) n := by
  have hreads : ∀ p ∈ P, ∀ q ∈ P, ∀ w, StoredAs env it n p w ↔ StoredAs env it n q w :=
    fun p hp q hq w => storedAs_same wf (halike p hp q hq) n w
  obtain ⟨p0, hp0⟩ := Finset.nonempty_iff_ne_empty.2 hne
  rcases hcase with hnn | ⟨rfl, rfl⟩
  · -- a named group
    have hG1 : ∀ p, p ∉ P → ((∃ g ∈ G ++ [P], p ∈ g) ↔ ∃ g ∈ G, p ∈ g) := by
      intro p hp
      constructor
      · rintro ⟨g, hg, hpg⟩
        rcases List.mem_append.1 hg with hg | hg
        · exact ⟨g, hg, hpg⟩
        · rw [List.mem_singleton] at hg; subst hg; exact absurd hpg hp
      · rintro ⟨g, hg, hpg⟩; exact ⟨g, List.mem_append_left _ hg, hpg⟩
    have hG2 : (({none} : PSet) ∈ G ++ [P]) ↔ ({none} : PSet) ∈ G := by
      rw [List.mem_append, List.mem_singleton]
      constructor
      · rintro (h | h)
        · exact h
        · rw [← h] at hnn; simp at hnn
      · exact Or.inl
    have hG3 : (({none} : PSet) ∈ G) ↔ ∃ g ∈ G, (none : Prof) ∈ g := by
      constructor
      · intro h; exact ⟨_, h, by simp⟩
      · rintro ⟨g, hg, hn⟩; rw [hdflt g hg hn] at hg; exact hg
    have hEg : ∀ p ∈ P, ∀ w, ¬ Explicit (it'.tab n) p w := by
      intro p hp w hE
      obtain ⟨⟨g, hg, hpg⟩, -⟩ := (hrb p w).1 hE
      exact hdisj g hg p hp hpg
    by_cases hex : ∃ v, StoredAs env it n p0 v
    · obtain ⟨v', hv⟩ := hex
      have hallv : ∀ p ∈ P, StoredAs env it n p v' := fun p hp => (hreads p0 hp0 p hp v').1 hv
      have htr := storedAs_truthy wf ht hv
      intro p w
      rw [hyes v' hallv, explicit_collapseTab _ _ _ (setTab_keys (wf'.tab n)),
        explicit_setTab (wf'.tab n) htr, explicit_setTab (wf'.tab n) htr]
      have hnone : ∀ w, ((w ≠ v' ∧ (none : Prof) ∉ P ∧ Explicit (it'.tab n) none w) ∨
          (w = v' ∧ (Explicit (it'.tab n) none v' ∨ ((none : Prof) ∈ P ∧
            ¬ Explicit (it'.tab n) none v')))) ↔ Explicit (it'.tab n) none w := by
        intro w
        by_cases hwv : w = v'
        · subst hwv; simp [hnn]
        · simp [hwv, hnn]
      rw [hnone w]
      by_cases hpg : p ∈ P
      · have hpn : p ≠ none := fun h => hnn (h ▸ hpg)
        have hr : StoredAs env it n p w ↔ w = v' :=
          ⟨fun h => storedAs_functional wf h (hallv p hpg), fun h => h ▸ hallv p hpg⟩
        have hE0 := hEg p hpg
        rw [hr, hG2, hG3]
        have hnE := hrb none w
        simp only [ne_eq, not_true, false_implies, and_true] at hnE
        have hcov : ∃ g ∈ G ++ [P], p ∈ g := ⟨P, by simp, hpg⟩
        by_cases hwv : w = v'
        · subst hwv
          simp only [hE0, hpg, hcov, hpn, hnE]
          simp; tauto
        · simp [hwv, hpg]
      · rw [hG1 p hpg, hG2, ← hrb p w]
        by_cases hwv : w = v'
        · subst hwv
          simp only [hpg]
          simp
          exact fun h1 h2 => (wf'.tab n).dflt_alone h2 h1
        · have hda : Explicit (it'.tab n) p w → Explicit (it'.tab n) none w → p = none :=
            fun h1 h2 => (wf'.tab n).dflt_alone h2 h1
          constructor
          · rintro ⟨⟨-, -, h⟩ | ⟨h, -⟩, -⟩
            · exact h
            · exact absurd h hwv
          · exact fun h => ⟨Or.inl ⟨hwv, hpg, h⟩, hda h⟩
    · have hn0 : ∀ p ∈ P, ∀ v, ¬ StoredAs env it n p v := fun p hp v h => hex ⟨v, (hreads p hp p0 hp0 v).1 h⟩
      intro p w
      rw [hno hn0, hrb p w, hG2]
      by_cases hpg : p ∈ P
      · simp [hn0 p hpg w]
      · rw [hG1 p hpg]
  · -- the default group, first of all
    have hnil : it'.tab n = [] := by
      rw [tab_eq_nil_iff (wf'.tab n)]
      intro p w hE
      obtain ⟨⟨g, hg, -⟩, -⟩ := (hrb p w).1 hE
      simp at hg
    have hall : ∀ v, StoredAs env it n none v → ∀ p ∈ ({none} : PSet), StoredAs env it n p v := by
      intro v hv p hp; rw [Finset.mem_singleton] at hp; subst hp; exact hv
    by_cases hex : ∃ v, StoredAs env it n none v
    · obtain ⟨v', hv⟩ := hex
      have htr := storedAs_truthy wf ht hv
      have g2 := hyes v' (hall v' hv)
      rw [hnil] at g2
      intro p w
      have hnl : ∀ p w, ¬ Explicit [] p w := by rintro p w ⟨S, h, _⟩; simp at h
      rw [g2, explicit_collapseTab _ _ _ (setTab_keys TabWF.nil),
        explicit_setTab TabWF.nil htr, explicit_setTab TabWF.nil htr]
      have hr : StoredAs env it n none w ↔ w = v' :=
        ⟨fun h => storedAs_functional wf h hv, fun h => h ▸ hv⟩
      by_cases hpn : p = none
      · subst hpn; simp [hnl, hr]
      · simp [hnl, hpn]
    · have hn0 : ∀ p ∈ ({none} : PSet), ∀ v, ¬ StoredAs env it n p v := by
        intro p hp v h
        rw [Finset.mem_singleton] at hp; subst hp
        exact hex ⟨v, h⟩
      intro p w
      rw [hno hn0, hnil]
      constructor
      · rintro ⟨S, h, _⟩; simp at h
      · rintro ⟨⟨g, hg, hpg⟩, hr, _⟩
        rw [List.nil_append, List.mem_singleton] at hg; subst hg
        exact absurd hr (hn0 p hpg w)

/-- what a profile whose group was read reads -/
theorem reads_covered {env : Env} {it it' : Item} (wf : ItemWF env it) {G : List PSet} {n : Str}
    (hdflt : ∀ g ∈ G, none ∈ g → g = {none}) (hrb : ReadBackS env it it' G n) {p : Prof} (hc : ∃ g ∈ G, p ∈ g)
    (hd : ∀ w, ({none} : PSet) ∈ G → StoredAs env it n none w → ∃ u, StoredAs env it n p u) (w : Val) :
    Reads (it'.tab n) p w ↔ StoredAs env it n p w := by
  have hnone : ∀ w, Explicit (it'.tab n) none w ↔ (({none} : PSet) ∈ G ∧ StoredAs env it n none w) := by
    intro w
    rw [hrb none w]
    simp only [ne_eq, not_true, false_implies, and_true]
    constructor
    · rintro ⟨⟨g, hg, hn⟩, h⟩
      rw [hdflt g hg hn] at hg; exact ⟨hg, h⟩
    · rintro ⟨h1, h2⟩; exact ⟨⟨_, h1, by simp⟩, h2⟩
  by_cases hpn : p = none
  · subst hpn
    rw [reads_none, hnone]
    obtain ⟨g, hg, hn⟩ := hc
    rw [hdflt g hg hn] at hg
    exact ⟨fun h => h.2, fun h => ⟨hg, h⟩⟩
  have hE : ∀ w, Explicit (it'.tab n) p w ↔ StoredAs env it n p w ∧ ¬ (({none} : PSet) ∈ G ∧ StoredAs env it n none w) := by
    intro w
    rw [hrb p w]
    exact ⟨fun h => ⟨h.2.1, h.2.2 hpn⟩, fun h => ⟨hc, h.1, fun _ => h.2⟩⟩
  constructor
  · rintro (h | ⟨h1, h2⟩)
    · exact ((hE w).1 h).1
    · obtain ⟨hG, hS⟩ := (hnone w).1 h2
      obtain ⟨u, hu⟩ := hd w hG hS
      by_cases hun : StoredAs env it n none u
      · rw [storedAs_functional wf hS hun]; exact hu
      · exact absurd ((hE u).2 ⟨hu, fun h => hun h.2⟩) (h1 u)
  · intro h
    by_cases hS : ({none} : PSet) ∈ G ∧ StoredAs env it n none w
    · refine Or.inr ⟨?_, (hnone w).2 hS⟩
      intro u hu
      obtain ⟨h1, h2⟩ := (hE u).1 hu
      have := storedAs_functional wf h1 h
      subst this
      exact h2 hS
    · exact Or.inl ((hE w).2 ⟨h, hS⟩)

end Cot
