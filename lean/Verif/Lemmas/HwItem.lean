import Verif.Lemmas.HwBasic
import Verif.Lemmas.Emit
/-
How the edits used by the hardware collection act on the profile set of an item whose InstanceID and
ResourceType are stored for the same profiles.
-/
namespace Cot

/-- a value table with at most one value -/
def tagTab (v : Val) (S : PSet) : Tab := if S = ∅ then [] else [(v, S)]

/-- the item has identifier `id` and type `code` exactly for the profiles `S` -/
structure Dev (env : Env) (id code : Str) (S : PSet) (it : Item) : Prop where
  wf : ItemWF env it
  iid : it.tab (instanceId env.ver) = tagTab (.str id) S
  rt : it.tab resourceType = tagTab (.str code) S

theorem explicit_tagTab {v w : Val} {S : PSet} {p : Prof} : Explicit (tagTab v S) p w ↔ w = v ∧ p ∈ S := by
  unfold tagTab
  split
  · rename_i h; subst h; simp [Explicit]
  · exact explicit_singleton

theorem plain_iid (env : Env) : Plain env (instanceId env.ver) := by
  unfold Plain; cases env.ver <;> decide +kernel

theorem plain_rt (env : Env) : Plain env resourceType := by
  unfold Plain; cases env.ver <;> decide +kernel

theorem iid_ne_rt (v : Ver) : instanceId v ≠ resourceType := by cases v <;> decide +kernel
theorem iid_ne_rst (v : Ver) : instanceId v ≠ resourceSubType := by cases v <;> decide +kernel
theorem rt_ne_rst : resourceType ≠ resourceSubType := by decide +kernel

theorem Dev.has {env : Env} {id code : Str} {S : PSet} {it : Item} (h : Dev env id code S it) (p : Prof) :
    it.hasProfile env p = true ↔ p ∈ S ∨ (none ∈ S ∧ p ∈ env.cfgSet) := by
  rw [hasProfile_iff, h.iid]
  simp only [explicit_tagTab]
  simp

theorem Dev.ofType {env : Env} {id code : Str} {S : PSet} {it : Item} (h : Dev env id code S it)
    (c : Str) : OfType it c ↔ S ≠ ∅ ∧ c = code := by
  unfold OfType
  rw [h.rt]
  unfold tagTab
  split
  · rename_i hS; simp [hS]
  · rename_i hS
    simp only [List.cons.injEq, Prod.mk.injEq, and_true, Val.str.injEq, ne_eq, hS, not_false_eq_true,
      true_and]
    constructor
    · rintro ⟨_, h, _⟩; exact h.symm
    · rintro rfl; exact ⟨S, rfl, rfl⟩

theorem Dev.dflt {env : Env} {id code : Str} {S : PSet} {it : Item} (h : Dev env id code S it)
    (hn : none ∈ S) : S = {none} := by
  have hne : S ≠ ∅ := by rintro rfl; simp at hn
  refine (h.wf.tab (instanceId env.ver)).dflt (.str id) S ?_ hn
  rw [h.iid]; unfold tagTab; rw [if_neg hne]; simp

theorem Dev.truthy {env : Env} {id code : Str} {S : PSet} {it : Item} (h : Dev env id code S it)
    (hS : S ≠ ∅) : (Val.str id).truthy = true ∧ (Val.str code).truthy = true := by
  constructor
  · refine (h.wf.tab (instanceId env.ver)).truthy (.str id) S ?_
    rw [h.iid]; unfold tagTab; rw [if_neg hS]; simp
  · refine (h.wf.tab resourceType).truthy (.str code) S ?_
    rw [h.rt]; unfold tagTab; rw [if_neg hS]; simp

/-! ### removing a profile -/

def remS (env : Env) (p : Prof) (S : PSet) : PSet :=
  if none ∈ S \ {p} then ((S \ {p} ∪ env.cfgSet) \ {none}) \ {p} else S \ {p}

theorem removeLoop_tagTab (env : Env) (p : Prof) (v : Val) (S : PSet) :
    removeLoop p env.cfgSet true [] (tagTab v S) = tagTab v (remS env p S) := by
  unfold tagTab
  by_cases hS : S = ∅
  · subst hS
    simp [removeLoop, remS]
  · rw [if_neg hS]
    have : removeLoop p env.cfgSet true [] [(v, S)] =
        if remS env p S = ∅ then [] else [(v, remS env p S)] := by
      simp only [removeLoop, List.append_nil, and_true, List.nil_append]
      have ht : tabUnion [] = ∅ := rfl
      rw [ht, Finset.sdiff_empty]
      rfl
    rw [this]

theorem Dev.remove {env : Env} {id code : Str} {S : PSet} {it : Item} (h : Dev env id code S it)
    {p : Prof} (hp : it.hasProfile env p = true) :
    ∃ it', it.removeProfile env p true = .ok it' ∧ Dev env id code (remS env p S) it' ∧
      ∀ n, it'.tab n = removeLoop p env.cfgSet true [] (it.tab n) := by
  obtain ⟨it', h1, wf', _, h3⟩ := removeProfile_spec h.wf p true
  refine ⟨it', h1, ⟨wf', ?_, ?_⟩, h3 hp⟩
  · rw [h3 hp, h.iid, removeLoop_tagTab]
  · rw [h3 hp, h.rt, removeLoop_tagTab]

/-! ### setting a value -/

theorem setTab_tagTab_same {v : Val} {P S : PSet} (hv : v.truthy = true) (hP : P ≠ ∅) :
    collapseTab (setTab v P (tagTab v S)) = tagTab v (collapse (if none ∈ S then S else S ∪ P)) := by
  unfold tagTab
  by_cases hS : S = ∅
  · subst hS
    have hc := collapse_nonempty hP
    simp [setTab, updTab, hv, collapseTab, dkeys, collapse]
    exact hc
  · rw [if_neg hS]
    have hne : (if none ∈ S then S else S ∪ P) ≠ ∅ := by
      split
      · exact hS
      · intro h; rw [Finset.union_eq_empty] at h; exact hS h.1
    have hu : updTab v P [(v, S)] = [(v, if none ∈ S then S else S ∪ P)] := by
      simp [updTab, updSet, hne]
    rw [if_neg (collapse_nonempty hne)]
    unfold setTab
    rw [hu]
    simp [dkeys, collapseTab, collapse]

theorem setTab_tagTab_other {v w : Val} {P S : PSet} (hv : v.truthy = true) (hvw : w ≠ v) :
    collapseTab (setTab v P (tagTab w S)) =
      (if S \ P = ∅ then [] else [(w, collapse (S \ P))]) ++ [(v, collapse P)] := by
  unfold tagTab
  by_cases hS : S = ∅
  · subst hS
    simp [setTab, updTab, hv, collapseTab, dkeys, collapse]
  · rw [if_neg hS]
    have hu : updTab v P [(w, S)] = if S \ P = ∅ then [] else [(w, S \ P)] := by
      by_cases h : S \ P = ∅
      · simp [updTab, updSet, hvw, Finset.sdiff_eq_empty_iff_subset.1 h]
      · simp only [updTab, updSet, List.filterMap_cons, List.filterMap_nil]
        simp [hvw, h]
    unfold setTab
    rw [hu]
    by_cases h : S \ P = ∅
    · rw [if_pos h, if_pos h]; simp [hv, dkeys, collapseTab, collapse]
    · rw [if_neg h, if_neg h]; simp [hv, dkeys, collapseTab, collapse, hvw.symm]

/-! ### adding a profile -/

def addS (p : Prof) (S : PSet) : PSet := if none ∈ S then S else collapse (S ∪ {p})

theorem Dev.add {env : Env} {id code : Str} {S : PSet} {it it' : Item} (h : Dev env id code S it)
    {p : Prof} (hp : it.hasProfile env p = false) (hS : S ≠ ∅)
    (hadd : it.addProfile env p none = .ok it') : Dev env id code (addS p S) it' := by
  obtain ⟨wf', h2, h3⟩ := addProfile_spec h.wf (by intro s h; cases h) hp hadd
  simp only [Option.getD_none] at h2 h3
  obtain ⟨t1, t2⟩ := h.truthy hS
  have key : ∀ n v, Plain env n → it.tab n = tagTab v S → v.truthy = true →
      it'.tab n = tagTab v (addS p S) := by
    intro n v hpl ht hv
    have hne : it.tab n ≠ [] := by rw [ht]; unfold tagTab; rw [if_neg hS]; simp
    obtain ⟨u, u', hi, htab, heq⟩ := h3 n hne
    have := heq hpl; subst this
    have hu : u' = v := by
      rw [ht] at hi
      unfold tagTab at hi; rw [if_neg hS] at hi
      rcases hi with hi | ⟨S', hi⟩
      · exact (explicit_singleton.1 hi).1
      · simp at hi; exact hi.1.symm
    subst hu
    rw [htab, ht, setTab_tagTab_same hv (by simp)]
    congr 1
    unfold addS
    by_cases hn : none ∈ S
    · rw [if_pos hn, if_pos hn]
      rw [h.dflt hn]; simp [collapse]
    · rw [if_neg hn, if_neg hn]
  exact ⟨wf', key _ _ (plain_iid env) h.iid t1, key _ _ (plain_rt env) h.rt t2⟩

/-! ### setting properties -/

theorem Dev.setOther {env : Env} {id code : Str} {S : PSet} {it it' : Item} (h : Dev env id code S it)
    {n : Str} {val : InVal} {P : PSet} {ow : Bool} (h1 : n ≠ instanceId env.ver) (h2 : n ≠ resourceType)
    (hs : it.setProperty env n val P ow = .ok it') : Dev env id code S it' := by
  obtain ⟨_, _, wf', h3, _⟩ := setProperty_spec h.wf hs
  exact ⟨wf', by rw [h3 _ h1.symm, h.iid], by rw [h3 _ h2.symm, h.rt]⟩

theorem normValue_str {env : Env} {n s : Str} (h : n ≠ resourceSubType) : normValue env n (.str s) = .str s := by
  unfold normValue; rw [if_neg h]

/-- giving the item another identifier for the profiles `P` -/
theorem newId_raw {env : Env} {id id' : Str} {S P : PSet} {it it' : Item} {ow : Bool}
    (wf : ItemWF env it) (ht : it.tab (instanceId env.ver) = tagTab (.str id) S)
    (hP : P ≠ ∅) (hid : id' ≠ id) (hne : id' ≠ [])
    (hs : it.setProperty env (instanceId env.ver) (.str id') P ow = .ok it') :
    ItemWF env it' ∧ S ⊆ P ∧ it'.tab (instanceId env.ver) = [(.str id', collapse P)] ∧
      ∀ n, n ≠ instanceId env.ver → it'.tab n = it.tab n := by
  obtain ⟨v, h1, wf', h3, h4, -⟩ := setProperty_spec wf hs
  rw [normValue_str (iid_ne_rst _), addWildcards_plain (plain_iid env)] at h1
  cases h1
  rw [effProfiles_of_ne _ _ hP, ht] at h4
  have htr : (Val.str id').truthy = true := by
    cases id' with
    | nil => exact absurd rfl hne
    | cons c t => rfl
  rw [setTab_tagTab_other htr (by simpa using Ne.symm hid)] at h4
  have hone := wf'.oneId
  have hsub : S \ P = ∅ := by
    by_contra hc
    rw [h4, if_neg hc] at hone
    simp at hone
  rw [if_pos hsub] at h4
  exact ⟨wf', Finset.sdiff_eq_empty_iff_subset.1 hsub, by simpa using h4, h3⟩

theorem Dev.newId {env : Env} {id code id' : Str} {S P : PSet} {it it' : Item} {ow : Bool}
    (h : Dev env id code S it) (hP : P ≠ ∅) (hid : id' ≠ id) (hne : id' ≠ [])
    (hs : it.setProperty env (instanceId env.ver) (.str id') P ow = .ok it') :
    ItemWF env it' ∧ S ⊆ P ∧ it'.tab (instanceId env.ver) = [(.str id', collapse P)] ∧
      it'.tab resourceType = tagTab (.str code) S ∧ ∀ n, n ≠ instanceId env.ver → it'.tab n = it.tab n := by
  obtain ⟨h1, h2, h3, h4⟩ := newId_raw h.wf h.iid hP hid hne hs
  exact ⟨h1, h2, h3, by rw [h4 _ (iid_ne_rt _).symm, h.rt], h4⟩

/-- a property set on an item that has no value for it yet -/
theorem setProperty_fresh {env : Env} {it it' : Item} {n s : Str} {P : PSet} {ow : Bool}
    (wf : ItemWF env it) (hpl : Plain env n) (hn : n ≠ resourceSubType) (ht : dget? it.props n = none)
    (hs : s ≠ []) (h : it.setProperty env n (.str s) P ow = .ok it') :
    ItemWF env it' ∧ it'.tab n = [(.str s, collapse (if P = ∅ then {none} else P))] ∧
      ∀ m, m ≠ n → it'.tab m = it.tab m := by
  obtain ⟨v, h1, wf', h3, h4, -⟩ := setProperty_spec wf h
  rw [normValue_str hn, addWildcards_plain hpl] at h1
  cases h1
  have heff : it.effProfiles n P = if P = ∅ then {none} else P := by
    unfold Item.effProfiles Item.allProfiles
    rw [ht]; rfl
  have htr : (Val.str s).truthy = true := by
    cases s with
    | nil => exact absurd rfl hs
    | cons c t => rfl
  have htab : it.tab n = [] := by simp [Item.tab, ht]
  rw [heff, htab, setTab_nil, if_pos htr] at h4
  exact ⟨wf', by rw [h4]; simp [collapseTab, collapse], h3⟩

theorem setProperty_keys {env : Env} {it it' : Item} {n m : Str} {val : InVal} {P : PSet} {ow : Bool}
    (h : it.setProperty env n val P ow = .ok it') (hm : m ≠ n)
    (hd : dget? it.props m = none) : dget? it'.props m = none := by
  unfold Item.setProperty at h
  simp only at h
  obtain ⟨v, -, h⟩ := bind_ok_inv h
  obtain ⟨it1, h1, h⟩ := bind_ok_inv h
  have k1 : dget? it1.props m = none := by
    unfold Item.storeProperty at h1
    rw [updNs_props] at h1
    split at h1
    · cases h1
      unfold Item.setNew
      split
      · rw [updNs_props]; exact hd
      · simp only [updNs_props]
        rw [dget?_dset, if_neg (by simpa using Ne.symm hm)]; exact hd
    · split at h1
      · cases h1
      · cases h1; simp only
        rw [dget?_ddel, if_neg (by simpa using Ne.symm hm)]; exact hd
      · cases h1; simp only
        rw [dget?_dset, if_neg (by simpa using Ne.symm hm)]; exact hd
  split at h
  · unfold Item.validate at h
    split at h
    · cases h
    · split at h
      · cases h
      · split at h
        · cases h
        · rename_i ps hps
          cases h
          obtain ⟨rfl, -⟩ := validateProps_ok_inv hps
          simp only
          rw [dget?_map_snd, k1]; rfl
  · cases h; exact k1

end Cot
