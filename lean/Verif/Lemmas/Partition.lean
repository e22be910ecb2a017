import Verif.Model.ItemXml
import Verif.Lemmas.NatSort
import Verif.Lemmas.Str
import Mathlib.Tactic.Tauto
import Mathlib.Data.Finset.SDiff
namespace Cot

/-- union of a list of sets -/
def unionAll (L : List PSet) : PSet := L.foldr (· ∪ ·) ∅

theorem mem_unionAll {L : List PSet} {p : Prof} : p ∈ unionAll L ↔ ∃ S ∈ L, p ∈ S := by
  induction L with
  | nil => simp [unionAll]
  | cons a L ih => simp [unionAll] at ih ⊢; rw [ih]

theorem splitLoop_spec (L : List PSet) (new : PSet) (hd : L.Pairwise (fun a b => a ∩ b = ∅)) (g : PSet)
    (hg : g ≠ ∅) : (g ∈ (splitLoop L new).1 ∨ g = (splitLoop L new).2) ↔
      ((∃ ex ∈ L, g = ex \ new ∨ g = ex ∩ new) ∨ g = new \ unionAll L) := by
  induction L generalizing new with
  | nil => simp [splitLoop, unionAll]
  | cons ex r ih =>
    rw [List.pairwise_cons] at hd
    have hU : ∀ p, p ∈ ex → p ∉ unionAll r := by
      intro p hp hp2
      obtain ⟨S, hS, hpS⟩ := mem_unionAll.1 hp2
      have : p ∈ ex ∩ S := Finset.mem_inter.2 ⟨hp, hpS⟩
      rw [hd.1 S hS] at this; simp at this
    have hUc : unionAll (ex :: r) = ex ∪ unionAll r := rfl
    rw [List.exists_mem_cons_iff, hUc]
    unfold splitLoop
    by_cases h1 : new = ex
    · subst h1
      have ih' := ih new hd.2
      simp only [true_or, if_true, List.mem_cons, or_assoc]
      rw [ih']
      have e1 : new \ unionAll r = new := by
        ext p; simp only [Finset.mem_sdiff]; constructor
        · exact fun h => h.1
        · exact fun h => ⟨h, hU p h⟩
      have e2 : new \ (new ∪ unionAll r) = ∅ := by
        ext p; simp only [Finset.mem_sdiff, Finset.mem_union]; simp; tauto
      rw [e1, e2, Finset.sdiff_self, Finset.inter_self]
      generalize (∃ x ∈ r, g = x \ new ∨ g = x ∩ new) = Q
      have hg' : ¬ g = ∅ := hg
      tauto
    · by_cases h2 : new ∩ ex = ∅
      · have ih' := ih new hd.2
        simp only [h2, or_true, if_true, List.mem_cons, or_assoc]
        rw [ih']
        have h2' : ∀ p, p ∈ ex → p ∉ new := by
          intro p hp hn
          have : p ∈ new ∩ ex := Finset.mem_inter.2 ⟨hn, hp⟩
          rw [h2] at this; simp at this
        have e1 : ex \ new = ex := by
          ext p; simp only [Finset.mem_sdiff]; constructor
          · exact fun h => h.1
          · exact fun h => ⟨h, h2' p h⟩
        have e2 : ex ∩ new = ∅ := by rw [Finset.inter_comm]; exact h2
        have e3 : new \ (ex ∪ unionAll r) = new \ unionAll r := by
          ext p; simp only [Finset.mem_sdiff, Finset.mem_union]
          constructor
          · tauto
          · exact fun h => ⟨h.1, fun hx => hx.elim (fun hx => h2' p hx h.1) h.2⟩
        rw [e3, e1, e2]
        generalize (∃ x ∈ r, g = x \ new ∨ g = x ∩ new) = Q
        have hg' : ¬ g = ∅ := hg
        tauto
      · have ih' := ih (new \ ex) hd.2
        have hno : ¬ (new = ex ∨ new ∩ ex = ∅) := by tauto
        simp only [if_neg hno, List.mem_cons, or_assoc]
        rw [ih']
        have e1 : (new \ ex) \ unionAll r = new \ (ex ∪ unionAll r) := by
          ext p; simp only [Finset.mem_sdiff, Finset.mem_union]; tauto
        have e2 : ∀ x ∈ r, x \ (new \ ex) = x \ new := by
          intro x hx; ext p; simp only [Finset.mem_sdiff]
          have : p ∈ x → p ∉ ex := by
            intro h1 h2
            exact hU p h2 (mem_unionAll.2 ⟨x, hx, h1⟩)
          tauto
        have e3 : ∀ x ∈ r, x ∩ (new \ ex) = x ∩ new := by
          intro x hx; ext p; simp only [Finset.mem_sdiff, Finset.mem_inter]
          have : p ∈ x → p ∉ ex := by
            intro h1 h2
            exact hU p h2 (mem_unionAll.2 ⟨x, hx, h1⟩)
          tauto
        rw [e1]
        have e4 : (∃ x ∈ r, g = x \ (new \ ex) ∨ g = x ∩ (new \ ex)) ↔
            (∃ x ∈ r, g = x \ new ∨ g = x ∩ new) := by
          constructor
          · rintro ⟨x, hx, h⟩; rw [e2 x hx, e3 x hx] at h; exact ⟨x, hx, h⟩
          · rintro ⟨x, hx, h⟩; rw [← e2 x hx, ← e3 x hx] at h; exact ⟨x, hx, h⟩
        rw [e4]

/-- `L` is the list of classes of profiles that no set of `Ts` distinguishes. -/
structure Classes (Ts : List PSet) (L : List PSet) : Prop where
  nodup : L.Nodup
  nonempty : ∀ g ∈ L, g ≠ ∅
  cls : ∀ g ∈ L, ∀ p ∈ g, ∀ q, q ∈ g ↔ ∀ S ∈ Ts, p ∈ S ↔ q ∈ S
  cover : ∀ p, (∃ g ∈ L, p ∈ g) ↔ ∃ S ∈ Ts, p ∈ S

theorem Classes.eq_of_mem {Ts L} (h : Classes Ts L) {g k : PSet} (hg : g ∈ L) (hk : k ∈ L) {p : Prof}
    (hp : p ∈ g) (hp' : p ∈ k) : g = k := by
  ext q; rw [h.cls g hg p hp q, h.cls k hk p hp' q]

theorem Classes.disjoint {Ts L} (h : Classes Ts L) : L.Pairwise (fun a b => a ∩ b = ∅) := by
  refine (List.pairwise_iff_getElem).2 ?_
  intro i j hi hj hij
  by_contra hne
  obtain ⟨p, hp⟩ := Finset.nonempty_iff_ne_empty.2 hne
  have hp' := Finset.mem_inter.1 hp
  have := h.eq_of_mem (List.getElem_mem hi) (List.getElem_mem hj) hp'.1 hp'.2
  have := (List.Nodup.getElem_inj_iff h.nodup).1 this
  omega

theorem mem_refineStep (o : Orders) (L : List PSet) (new : PSet)
    (hd : L.Pairwise (fun a b => a ∩ b = ∅)) (g : PSet) :
    g ∈ refineStep o L new ↔ g ≠ ∅ ∧
      ((∃ ex ∈ L, g = ex \ new ∨ g = ex ∩ new) ∨ g = new \ unionAll L) := by
  unfold refineStep
  simp only [List.mem_filter, o.sets.mem, List.mem_toFinset, List.mem_append, List.mem_singleton,
    decide_eq_true_eq]
  constructor
  · rintro ⟨h, hg⟩; exact ⟨hg, (splitLoop_spec L new hd g hg).1 h⟩
  · rintro ⟨hg, h⟩; exact ⟨(splitLoop_spec L new hd g hg).2 h, hg⟩

theorem Classes.refine (o : Orders) {Ts L} (h : Classes Ts L) (new : PSet) :
    Classes (Ts ++ [new]) (refineStep o L new) := by
  have hm := mem_refineStep o L new h.disjoint
  have hforall : ∀ p q, (∀ S ∈ Ts ++ [new], p ∈ S ↔ q ∈ S) ↔
      ((∀ S ∈ Ts, p ∈ S ↔ q ∈ S) ∧ (p ∈ new ↔ q ∈ new)) := by
    intro p q
    constructor
    · intro h; exact ⟨fun S hS => h S (by simp [hS]), h new (by simp)⟩
    · rintro ⟨h1, h2⟩ S hS
      rcases List.mem_append.1 hS with hS | hS
      · exact h1 S hS
      · rw [List.mem_singleton] at hS; subst hS; exact h2
  have hU : ∀ p, p ∈ unionAll L ↔ ∃ S ∈ Ts, p ∈ S := fun p => by rw [mem_unionAll]; exact h.cover p
  refine ⟨?_, fun g hg => ((hm g).1 hg).1, ?_, ?_⟩
  · exact (o.sets.nodup _).filter _
  · intro g hg p hp q
    rw [hforall]
    obtain ⟨_, hc⟩ := (hm g).1 hg
    rcases hc with ⟨ex, hex, rfl | rfl⟩ | rfl
    · rw [Finset.mem_sdiff] at hp ⊢
      rw [h.cls ex hex p hp.1 q]; tauto
    · rw [Finset.mem_inter] at hp ⊢
      rw [h.cls ex hex p hp.1 q]; tauto
    · rw [Finset.mem_sdiff, hU] at hp ⊢
      constructor
      · rintro ⟨h1, h2⟩
        refine ⟨fun S hS => ?_, by tauto⟩
        constructor
        · exact fun hx => absurd ⟨S, hS, hx⟩ hp.2
        · exact fun hx => absurd ⟨S, hS, hx⟩ h2
      · rintro ⟨h1, h2⟩
        refine ⟨h2.1 hp.1, ?_⟩
        rintro ⟨S, hS, hx⟩
        exact hp.2 ⟨S, hS, (h1 S hS).2 hx⟩
  · intro p
    constructor
    · rintro ⟨g, hg, hp⟩
      obtain ⟨_, hc⟩ := (hm g).1 hg
      rcases hc with ⟨ex, hex, rfl | rfl⟩ | rfl
      · obtain ⟨S, hS, hpS⟩ := (h.cover p).1 ⟨ex, hex, (Finset.mem_sdiff.1 hp).1⟩
        exact ⟨S, by simp [hS], hpS⟩
      · exact ⟨new, by simp, (Finset.mem_inter.1 hp).2⟩
      · exact ⟨new, by simp, (Finset.mem_sdiff.1 hp).1⟩
    · rintro ⟨S, hS, hpS⟩
      by_cases hL : p ∈ unionAll L
      · obtain ⟨ex, hex, hpe⟩ := mem_unionAll.1 hL
        by_cases hn : p ∈ new
        · have hp : p ∈ ex ∩ new := Finset.mem_inter.2 ⟨hpe, hn⟩
          exact ⟨_, (hm _).2 ⟨Finset.ne_empty_of_mem hp, Or.inl ⟨ex, hex, Or.inr rfl⟩⟩, hp⟩
        · have hp : p ∈ ex \ new := Finset.mem_sdiff.2 ⟨hpe, hn⟩
          exact ⟨_, (hm _).2 ⟨Finset.ne_empty_of_mem hp, Or.inl ⟨ex, hex, Or.inl rfl⟩⟩, hp⟩
      · have hn : p ∈ new := by
          rcases List.mem_append.1 hS with hS | hS
          · exact absurd ((hU p).2 ⟨S, hS, hpS⟩) hL
          · rw [List.mem_singleton] at hS; subst hS; exact hpS
        have hp : p ∈ new \ unionAll L := Finset.mem_sdiff.2 ⟨hn, hL⟩
        exact ⟨_, (hm _).2 ⟨Finset.ne_empty_of_mem hp, Or.inr rfl⟩, hp⟩

theorem Classes.fold (o : Orders) (Ts' : List PSet) {Ts L} (h : Classes Ts L) :
    Classes (Ts ++ Ts') (Ts'.foldl (refineStep o) L) := by
  induction Ts' generalizing Ts L with
  | nil => simpa using h
  | cons S r ih =>
    have := ih (h.refine o S)
    rw [List.append_assoc] at this
    exact this

/-- all stored profile sets of an item -/
def Item.storedSets (it : Item) : List PSet := it.props.flatMap (fun nt => nt.2.map Prod.snd)

theorem setList_classes (o : Orders) (it : Item) : Classes it.storedSets (it.setList o) := by
  have h0 : Classes [] [] := ⟨by simp, by simp, by simp, by simp⟩
  have := h0.fold o it.storedSets
  rw [List.nil_append] at this
  exact this

theorem mem_storedSets {it : Item} {S : PSet} :
    S ∈ it.storedSets ↔ ∃ n t v, (n, t) ∈ it.props ∧ (v, S) ∈ t := by
  unfold Item.storedSets
  simp only [List.mem_flatMap, List.mem_map, Prod.exists]
  constructor
  · rintro ⟨n, t, h, v, S', h', rfl⟩; exact ⟨n, t, v, h, h'⟩
  · rintro ⟨n, t, v, h, h'⟩; exact ⟨n, t, h, v, S, h', rfl⟩

/-! ### group strings -/

theorem setString_named (o : Orders) {g : PSet} (hn : none ∉ g) (hne : g ≠ ∅)
    (hgood : ∀ s, some s ∈ g → GoodName s) :
    setString o g ≠ [] ∧ stringSet (setString o g) = g ∧
      splitWs (setString o g) = naturalSort ((o.profs.enum g).filterMap id) := by
  have hmem : ∀ s, s ∈ naturalSort ((o.profs.enum g).filterMap id) ↔ some s ∈ g := by
    intro s
    rw [mem_naturalSort, List.mem_filterMap]
    simp [o.profs.mem]
  have hs : setString o g = joinWith [' '] (naturalSort ((o.profs.enum g).filterMap id)) := by
    unfold setString; rw [if_neg hn]
  have hsp : splitWs (setString o g) = naturalSort ((o.profs.enum g).filterMap id) := by
    rw [hs]; exact splitWs_join _ (fun s h => hgood s ((hmem s).1 h))
  obtain ⟨p, hp⟩ := Finset.nonempty_iff_ne_empty.2 hne
  have hne' : setString o g ≠ [] := by
    intro h
    rw [h] at hsp
    cases p with
    | none => exact hn hp
    | some s =>
      have := (hmem s).2 hp
      rw [← hsp] at this
      simp [splitWs, splitWsAux] at this
  refine ⟨hne', ?_, hsp⟩
  unfold stringSet
  rw [if_neg hne', hsp]
  ext q
  simp only [List.mem_toFinset, List.mem_map, hmem]
  cases q with
  | none => simp [hn]
  | some s => simp

/-- in a well-formed item, the class of the default profile is `{None}` -/
theorem Classes.dflt {Ts L} (h : Classes Ts L) (hd : ∀ S ∈ Ts, none ∈ S → S = {none}) {g : PSet} (hg : g ∈ L)
    (hn : none ∈ g) : g = {none} := by
  obtain ⟨S, hS, hnS⟩ := (h.cover none).1 ⟨g, hg, hn⟩
  ext q
  rw [h.cls g hg none hn q]
  constructor
  · intro hq
    have := (hq S hS).1 hnS
    rw [hd S hS hnS] at this; exact this
  · intro hq T hT
    rw [Finset.mem_singleton] at hq; subst hq; rfl

theorem stringSet_setString (o : Orders) {Ts L} (h : Classes Ts L)
    (hd : ∀ S ∈ Ts, none ∈ S → S = {none})
    (hgood : ∀ S ∈ Ts, ∀ s, some s ∈ S → GoodName s) {g : PSet} (hg : g ∈ L) :
    stringSet (setString o g) = g := by
  by_cases hn : none ∈ g
  · rw [h.dflt hd hg hn]; simp [setString, stringSet]
  · refine (setString_named o hn (h.nonempty g hg) ?_).2.1
    intro s hs
    obtain ⟨S, hS, hsS⟩ := (h.cover (some s)).1 ⟨g, hg, hs⟩
    exact hgood S hS s hsS

end Cot
