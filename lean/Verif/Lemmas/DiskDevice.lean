import Verif.Model.DiskDevice
import Verif.Spec.DiskDevice
import Verif.Lemmas.HwOps
import Verif.Lemmas.DataValidation
import Verif.Lemmas.RoundTripOk
/-
Searches by property and the choice of free addresses.
-/
namespace Cot

theorem getRaw_none_eq {it : Item} {n : Str} {v : Val} :
    it.getRaw n none = some v ↔ ∃ S, it.tab n = [(v, S)] := by
  unfold Item.getRaw
  simp only
  match ht : it.tab n with
  | [] => simp
  | [(w, S)] =>
    simp only [Option.some.injEq, List.cons.injEq, Prod.mk.injEq, and_true]
    constructor
    · rintro rfl; exact ⟨S, rfl, rfl⟩
    · rintro ⟨_, h, _⟩; exact h
  | _ :: _ :: _ => simp

/-- searching by one property -/
theorem findAllItems_prop {env : Env} {hw : Hw} {n : Str} (hn : Plain env n) (v : Option Val) :
    ∃ ids, findAllItems env hw none [(n, v)] [] = .ok ids ∧
      ∀ id, id ∈ ids ↔ ∃ it, dget? hw id = some it ∧ it.getRaw n none = v := by
  have hm : ∀ it : Item, itemMatch env it none [(n, v)] [] = .ok (decide (it.getRaw n none = v)) := by
    intro it
    unfold itemMatch typeMatch
    simp only [List.any_nil, Bool.false_eq_true, if_false]
    unfold propsMatch
    rw [getValue_plain hn]
    simp only [propsMatch]
    by_cases h : it.getRaw n none = v <;> simp [h]
  obtain ⟨ids, hids⟩ : ∃ ids, findAllItems env hw none [(n, v)] [] = .ok ids := by
    unfold findAllItems
    refine filterE_ok ?_
    intro id hid
    have hk : id ∈ dkeys hw := (naturalSort_perm (dkeys hw)).mem_iff.1 hid
    obtain ⟨it, hit⟩ := dget?_of_mem_dkeys hk
    rw [hit]
    exact ⟨_, hm it⟩
  refine ⟨ids, hids, ?_⟩
  intro id
  unfold findAllItems at hids
  rw [(filterE_mem hids).1 id, mem_naturalSort]
  constructor
  · rintro ⟨hin, h⟩
    obtain ⟨it, hit⟩ := dget?_of_mem_dkeys hin
    rw [hit] at h
    simp only [hm, Except.ok.injEq, decide_eq_true_eq] at h
    exact ⟨it, hit, h⟩
  · rintro ⟨it, hit, h⟩
    refine ⟨mem_dkeys_of_dget? hit, ?_⟩
    rw [hit]
    simp only [hm, h, decide_true]

theorem valuesOf_ok {env : Env} {hw : Hw} {n : Str} (hn : Plain env n) : ∀ (ids : List Str),
    (∀ id ∈ ids, ∃ it, dget? hw id = some it) →
    ∃ vs, valuesOf env hw n ids = .ok vs ∧
      ∀ v, v ∈ vs ↔ ∃ id ∈ ids, ∃ it, dget? hw id = some it ∧ it.getRaw n none = v
  | [], _ => ⟨[], rfl, by simp⟩
  | id :: r, h => by
    obtain ⟨it, hit⟩ := h id (by simp)
    obtain ⟨vs, h1, h2⟩ := valuesOf_ok hn r (fun x hx => h x (by simp [hx]))
    refine ⟨it.getRaw n none :: vs, ?_, ?_⟩
    · unfold valuesOf
      rw [hit]; simp only [getValue_plain hn, h1]
    · intro v
      rw [List.exists_mem_cons_iff, List.mem_cons, h2]
      refine or_congr ?_ Iff.rfl
      constructor
      · rintro rfl; exact ⟨it, hit, rfl⟩
      · rintro ⟨it', h3, h4⟩; rw [hit] at h3; cases h3; exact h4.symm

/-! ### the first free number -/

theorem freeLoop_spec (used : List (Option Val)) : ∀ (k n : Nat), n ≤ freeLoop used k n ∧ freeLoop used k n ≤ n + k ∧
    (∀ m, n ≤ m → m < freeLoop used k n → some (Val.str (natStr m)) ∈ used) ∧
    (freeLoop used k n < n + k → some (Val.str (natStr (freeLoop used k n))) ∉ used)
  | 0, n => by
    refine ⟨Nat.le_refl _, Nat.le_refl _, ?_, ?_⟩
    · intro m h1 h2; simp only [freeLoop] at h2; omega
    · intro h; simp only [freeLoop] at h; omega
  | k + 1, n => by
    unfold freeLoop
    split
    · rename_i h
      obtain ⟨h1, h2, h3, h4⟩ := freeLoop_spec used k (n + 1)
      refine ⟨by omega, by omega, ?_, fun h5 => h4 (by omega)⟩
      intro m h5 h6
      by_cases hm : m = n
      · subst hm; exact h
      · exact h3 m (by omega) h6
    · rename_i h
      exact ⟨Nat.le_refl _, by omega, fun m h1 h2 => by omega, fun _ => h⟩

theorem freeAddress_spec (used : List (Option Val)) :
    FirstFree (fun a => some (Val.str (natStr a)) ∈ used) (freeAddress used) := by
  obtain ⟨-, h2, h3, h4⟩ := freeLoop_spec used used.length 0
  refine ⟨?_, fun b hb => h3 b (Nat.zero_le _) hb⟩
  show ¬ (some (Val.str (natStr (freeAddress used))) ∈ used)
  by_cases hlt : freeAddress used < used.length
  · exact h4 (by show freeAddress used < _; omega)
  · intro hin
    have heq : freeAddress used = used.length := by
      have : freeAddress used ≤ 0 + used.length := h2
      omega
    have hsub : ((List.range (used.length + 1)).map (fun i => some (Val.str (natStr i)))) ⊆ used := by
      intro x hx
      obtain ⟨i, hi, rfl⟩ := List.mem_map.1 hx
      rw [List.mem_range] at hi
      by_cases hi' : i = used.length
      · subst hi'; rw [heq] at hin; exact hin
      · exact h3 i (Nat.zero_le _) (by change i < freeAddress used; omega)
    have hnd : ((List.range (used.length + 1)).map (fun i => some (Val.str (natStr i)))).Nodup := by
      refine List.Nodup.map ?_ List.nodup_range
      intro a b hab
      simp only [Option.some.injEq, Val.str.injEq] at hab
      exact natStr_inj hab
    have := (List.subperm_of_subset hnd hsub).length_le
    simp only [List.length_map, List.length_range] at this
    omega

theorem FirstFree.congr {p q : Nat → Prop} (h : ∀ a, p a ↔ q a) {n : Nat} (hf : FirstFree p n) : FirstFree q n :=
  ⟨fun hq => hf.1 ((h n).2 hq), fun b hb => (h b).1 (hf.2 b hb)⟩

theorem plain_parent (env : Env) : Plain env parentName := by unfold Plain; cases env.ver <;> decide +kernel
theorem plain_aop (env : Env) : Plain env addressOnParent := by unfold Plain; cases env.ver <;> decide +kernel
theorem plain_address (env : Env) : Plain env address := by unfold Plain; cases env.ver <;> decide +kernel

theorem freeOnController_spec (env : Env) (hw : Hw) (ctrl : Str) :
    ∃ n, freeOnController env hw (some (.str ctrl)) = .ok n ∧ FirstFree (Occupied hw ctrl) n := by
  obtain ⟨ids, h1, h2⟩ := findAllItems_prop (hw := hw) (plain_parent env) (some (.str ctrl))
  obtain ⟨vs, h3, h4⟩ := valuesOf_ok (hw := hw) (plain_aop env) ids (fun id hid => by
    obtain ⟨it, h, -⟩ := (h2 id).1 hid; exact ⟨it, h⟩)
  refine ⟨freeAddress vs, ?_, (freeAddress_spec vs).congr ?_⟩
  · unfold freeOnController; rw [h1]; simp only [h3]
  · intro a
    rw [h4]
    unfold Occupied ChildOf AtAddress
    constructor
    · rintro ⟨id, hid, it, h5, h6⟩
      obtain ⟨it', h7, h8⟩ := (h2 id).1 hid
      rw [h5] at h7; cases h7
      exact ⟨id, it, h5, getRaw_none_eq.1 h8, getRaw_none_eq.1 h6⟩
    · rintro ⟨id, it, h5, h6, h7⟩
      exact ⟨id, (h2 id).2 ⟨it, h5, getRaw_none_eq.2 h6⟩, it, h5, getRaw_none_eq.2 h7⟩

theorem pyInt_digits {d : Str} (h : Digits d) : pyInt d = some (digitsVal d : Int) := by
  rw [pyInt_iff]
  exact ⟨d, h, Or.inl ⟨⟨[], [], by simp [Blank], by simp [Blank], by simp⟩, rfl⟩⟩

theorem digits_natStr (n : Nat) : Digits (natStr n) := ⟨natStr_ne_nil n, fun c hc => isDig_natStr n c hc⟩

theorem pyInt_natStr (n : Nat) : pyInt (natStr n) = some (n : Int) := by
  rw [pyInt_digits (digits_natStr n), digitsVal_natStr]

end Cot

namespace Cot

/-! ### creation of a new device succeeds -/

/-- `set_property` with overwrite succeeds when the wildcard step does -/
theorem setProperty_ok_wild {env : Env} {it : Item} (wf : ItemWF env it) {name : Str} {val : InVal}
    {P : PSet} {v : Val} (hid : name ≠ instanceId env.ver) (hrt : name ≠ resourceType)
    (hw : (it.updNs env name (normValue env name val)).addWildcards env name (normValue env name val)
      (it.effProfiles name P) = .ok v) :
    ∃ it', it.setProperty env name val P true = .ok it' := by
  have wf0 := updNs_wf wf name (normValue env name val)
  obtain ⟨it1, h1⟩ := storeProperty_ok wf0 (name := name) (v := v) (P := it.effProfiles name P)
  have hP := effProfiles_ne wf name P
  obtain ⟨k1, k2, k3, k4, k5, k6, k7, k8⟩ := storeProperty_spec wf0 hP h1
  unfold Item.setProperty
  simp only [updNs_eff]
  rw [hw]
  simp only [bind, Except.bind, h1]
  split
  · refine ⟨_, validate_ok_of ?_ ?_ ?_⟩
    · rw [k3 _ hid.symm, updNs_tab]; exact wf.oneId
    · rw [k3 _ hrt.symm, updNs_tab]; exact wf.oneType
    · intro n t hm
      exact validateTab_ok_of_collapse (k2 n t hm)
  · exact ⟨_, rfl⟩

theorem getRaw_nil {it : Item} {n : Str} (h : it.tab n = []) (P : Option PSet) : it.getRaw n P = none := by
  unfold Item.getRaw
  rw [h]
  cases P <;> rfl

theorem getValue_nil {env : Env} {it : Item} {n : Str} (h : it.tab n = []) (P : Option PSet) :
    it.getValue env n P = .ok none := by
  unfold Item.getValue
  rw [getRaw_nil h]

theorem en_ne_desc (v : Ver) : elementName v ≠ itemDescription := by cases v <;> decide +kernel

/-- the name of a device without quantity, subtype and connection is stored as it is -/
theorem addWildcards_name {env : Env} {it : Item} {s : Str} {P : PSet} (h1 : it.tab virtualQuantity = [])
    (h2 : it.tab resourceSubType = []) (h3 : it.tab connection = []) :
    it.addWildcards env (elementName env.ver) (.str s) P = .ok (.str s) := by
  unfold Item.addWildcards
  rw [if_pos (Or.inl rfl), if_neg (en_ne_desc _), getValue_nil h1, getValue_nil h2, getValue_nil h3]
  rfl

theorem vq_ne (v : Ver) : virtualQuantity ≠ instanceId v ∧ virtualQuantity ≠ resourceType := by
  cases v <;> decide +kernel
theorem rst_ne (v : Ver) : resourceSubType ≠ instanceId v ∧ resourceSubType ≠ resourceType := by
  cases v <;> decide +kernel
theorem conn_ne (v : Ver) : connection ≠ instanceId v ∧ connection ≠ resourceType := by
  cases v <;> decide +kernel
theorem en_ne (v : Ver) : elementName v ≠ instanceId v ∧ elementName v ≠ resourceType := by
  cases v <;> decide +kernel

theorem setProperty_fresh_ok {env : Env} {it : Item} (wf : ItemWF env it) {name : Str} (val : InVal) (P : PSet)
    (hpl : Plain env name) (ht : it.tab name = []) : ∃ it', it.setProperty env name val P true = .ok it' := by
  have hd : ∀ w S, (w, S) ∈ it.tab name → S ∩ it.effProfiles name P = ∅ := by rw [ht]; simp
  obtain ⟨it', h⟩ := setProperty_ok' wf val P hpl (fun _ => Or.inl ht) hd
  exact ⟨it', by rw [← setProperty_disjoint hd]; exact h⟩

/-- `new_item` succeeds for every known type -/
theorem newItem_ok {env : Env} (hw : Hw) {rt code : Str} (P : List Prof) (hc : resourceCode rt = .ok code) :
    ∃ id hw', newItem env hw rt P = .ok (id, hw') := by
  obtain ⟨z, hz, hu, hfresh, -⟩ := findUnusedId_spec hw 1
  have hi := iid_ne_rt env.ver
  have wf0 := ItemWF.empty env
  obtain ⟨it1, h1⟩ := setProperty_fresh_ok wf0 (.str (intStr z)) P.toFinset (plain_iid env) rfl
  obtain ⟨_, _, w1, o1, _⟩ := setProperty_spec wf0 h1
  have e1 : ∀ n, n ≠ instanceId env.ver → it1.tab n = [] := fun n hn => by rw [o1 n hn]; rfl
  obtain ⟨it2, h2⟩ := setProperty_fresh_ok w1 (.str code) P.toFinset (plain_rt env) (e1 _ hi.symm)
  obtain ⟨_, _, w2, o2, _⟩ := setProperty_spec w1 h2
  have e2 : ∀ n, n ≠ instanceId env.ver → n ≠ resourceType → it2.tab n = [] := fun n hn hn' => by
    rw [o2 n hn', e1 n hn]
  have hname : normValue env (elementName env.ver) (.str rt) = .str rt := normValue_str (by
    cases env.ver <;> decide +kernel)
  obtain ⟨it3, h3⟩ := setProperty_ok_wild w2 (val := .str rt) (P := P.toFinset) (en_ne env.ver).1 (en_ne env.ver).2 (by
    rw [hname]
    exact addWildcards_name (by rw [updNs_tab]; exact e2 _ (vq_ne env.ver).1 (vq_ne env.ver).2)
      (by rw [updNs_tab]; exact e2 _ (rst_ne env.ver).1 (rst_ne env.ver).2)
      (by rw [updNs_tab]; exact e2 _ (conn_ne env.ver).1 (conn_ne env.ver).2))
  unfold newItem
  rw [hu]
  simp only [h1, h2, h3, hc, bind, Except.bind]
  exact ⟨_, _, rfl⟩

end Cot
