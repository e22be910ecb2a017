import Verif.Lemmas.SetAll
import Verif.Lemmas.Names
import Verif.Lemmas.PackageDisk
import Verif.Spec.DiskNames
/-
Names and descriptions of the drives that `add-disk` adds.
-/
namespace Cot

/-- a value replaces all others, whatever is stored for it -/
theorem setProperty_stored {env : Env} {it it' : Item} {n s : Str} {x : InVal} {ow : Bool} (wf : ItemWF env it)
    (hs : s ≠ []) (hw : (it.updNs env n (normValue env n x)).addWildcards env n (normValue env n x) (it.effProfiles n ∅) =
      .ok (.str s)) (h : it.setProperty env n x ∅ ow = .ok it') :
    it'.tab n = [(.str s, collapse (it.effProfiles n ∅))] := by
  obtain ⟨v, h1, wf', h3, h4, -⟩ := setProperty_spec wf h
  rw [hw] at h1
  cases h1
  have tw := wf.tab n
  have hP := effProfiles_ne wf n ∅
  have hup : ∀ w S', (w, S') ∈ updTab (.str s) (it.effProfiles n ∅) (it.tab n) →
      w = .str s ∧ collapse S' = collapse (it.effProfiles n ∅) := by
    intro w S' hm
    obtain ⟨S, hS, hu, hne⟩ := mem_updTab.1 hm
    have hsub := eff_covers hS
    unfold updSet at hu
    by_cases hw : w = .str s
    · rw [if_neg (by simpa using hw)] at hu
      exact ⟨hw, by rw [hu]; exact collapse_eff hsub⟩
    · rw [if_pos hw] at hu
      rw [Finset.sdiff_eq_empty_iff_subset.2 hsub] at hu
      exact absurd hu hne
  have htr : (Val.str s).truthy = true := by
    cases s with
    | nil => exact absurd rfl hs
    | cons c t => rfl
  rw [h4]
  have hall : ∀ e ∈ collapseTab (setTab (.str s) (it.effProfiles n ∅) (it.tab n)),
      e = (Val.str s, collapse (it.effProfiles n ∅)) := by
    rintro ⟨w, S'⟩ hm
    obtain ⟨S0, hm0, rfl⟩ := mem_collapseTab.1 hm
    unfold setTab at hm0
    split at hm0
    · rcases List.mem_append.1 hm0 with hm0 | hm0
      · obtain ⟨rfl, h⟩ := hup _ _ hm0; rw [h]
      · simp at hm0; rw [hm0.1, hm0.2]
    · obtain ⟨rfl, h⟩ := hup _ _ hm0; rw [h]
  have hnd : (dkeys (collapseTab (setTab (.str s) (it.effProfiles n ∅) (it.tab n)))).Nodup := by
    rw [dkeys_collapseTab]; exact setTab_keys tw
  have hne : collapseTab (setTab (.str s) (it.effProfiles n ∅) (it.tab n)) ≠ [] := by
    intro hc
    have : dkeys (setTab (.str s) (it.effProfiles n ∅) (it.tab n)) = [] := by
      rw [← dkeys_collapseTab, hc]; rfl
    unfold setTab at this
    split at this
    · simp [dkeys] at this
    · rename_i hcon
      exact hcon ⟨htr, by rw [this]; simp⟩
  match hl : collapseTab (setTab (.str s) (it.effProfiles n ∅) (it.tab n)), hne, hall, hnd with
  | [], hne, _, _ => exact absurd rfl hne
  | [a], _, hall, _ => rw [hall a (by simp)]
  | a :: b :: r, _, hall, hnd =>
    rw [hall a (by simp), hall b (by simp)] at hnd
    simp [dkeys] at hnd


/-- every value is for the default configuration -/
def AllDefault (it : Item) (n : Str) : Prop := ∀ w S, (w, S) ∈ it.tab n → S = {none}

theorem eff_default {it : Item} {n : Str} (h : AllDefault it n) : it.effProfiles n ∅ = {none} := by
  unfold Item.effProfiles Item.allProfiles
  rw [if_pos rfl]
  unfold AllDefault Item.tab at h
  cases hd : dget? it.props n with
  | none => rfl
  | some t =>
    rw [hd] at h
    simp only [Option.getD_some] at h
    cases t with
    | nil => rfl
    | cons e t =>
      simp only [Option.getD_some]
      ext q
      rw [mem_tabUnion, Finset.mem_singleton]
      constructor
      · rintro ⟨w, S, hm, hq⟩
        rw [h w S hm] at hq
        simpa using hq
      · rintro rfl
        exact ⟨e.1, e.2, by simp, by rw [h e.1 e.2 (by simp)]; simp⟩

theorem setProperty_default {env : Env} {it it' : Item} {n : Str} {x : InVal} {ow : Bool} (wf : ItemWF env it)
    (hd : it.tab n = []) (h : it.setProperty env n x ∅ ow = .ok it') : AllDefault it' n := by
  obtain ⟨v, h1, wf', h3, h4, -⟩ := setProperty_spec wf h
  intro w S hm
  rw [h4, hd, eff_default (by intro w S hm; rw [hd] at hm; simp at hm)] at hm
  obtain ⟨S0, hm0, rfl⟩ := mem_collapseTab.1 hm
  unfold setTab at hm0
  have key : collapse ({none} : PSet) = {none} := by decide +kernel
  split at hm0
  · rcases List.mem_append.1 hm0 with hm0 | hm0
    · obtain ⟨_, hS, _⟩ := mem_updTab.1 hm0
      simp at hS
    · simp at hm0; rw [hm0.2]; exact key
  · obtain ⟨_, hS, _⟩ := mem_updTab.1 hm0
    simp at hS

/-- a new drive is described by its type, its place and its provisional name only -/
theorem newItem_default {env : Env} {hw hw' : Hw} {rt id : Str} (h : newItem env hw rt [] = .ok (id, hw')) :
    ∃ it, dget? hw' id = some it ∧ AllDefault it (elementName env.ver) := by
  obtain ⟨z, hz, hu, hfresh, -⟩ := findUnusedId_spec hw 1
  unfold newItem at h
  rw [hu] at h
  simp only at h
  obtain ⟨it1, h1, h⟩ := bind_ok_inv h
  obtain ⟨code, hc, h⟩ := bind_ok_inv h
  obtain ⟨it2, h2, h⟩ := bind_ok_inv h
  obtain ⟨it3, h3, h⟩ := bind_ok_inv h
  cases h
  obtain ⟨_, _, w1, o1, _⟩ := setProperty_spec (ItemWF.empty env) h1
  obtain ⟨_, _, w2, o2, _⟩ := setProperty_spec w1 h2
  have := setProperty_default w2 (by rw [o2 _ (by cases env.ver <;> decide +kernel), o1 _ (en_ne env.ver).1]; rfl) h3
  exact ⟨{ it3 with modified := true }, by rw [dget?_dset, if_pos rfl], this⟩

theorem createNewDisk_bare {env : Env} {hw hw' : Hw} {drive ctrl id nm : Str} {address name : Option Str}
    (h : createNewDisk env hw drive address name ctrl = .ok (id, nm, hw')) :
    driveName drive name = .ok nm ∧ ∃ it, dget? hw' id = some it ∧ ItemWF env it ∧ AllDefault it (elementName env.ver) ∧
      it.tab itemDescription = [] ∧ it.tab virtualQuantity = [] ∧ it.tab resourceSubType = [] ∧
      it.tab connection = [] := by
  unfold createNewDisk at h
  split at h
  · cases h
  split at h
  · cases h
  split at h
  · cases h
  split at h
  · cases h
  split at h
  · cases h
  rename_i nm1 hnm
  split at h
  · cases h
  rename_i id1 hw1 hni
  obtain ⟨itd, hg, hdf⟩ := newItem_default hni
  obtain ⟨z, code, it0, -, -, -, -, rfl, wfi, hi, -, ho, -⟩ := newItem_spec hni
  rw [dget?_dset, if_pos rfl] at h hg
  cases hg
  dsimp only at h
  split at h
  · cases h
  rename_i it1 h1
  split at h
  · cases h
  rename_i it2 h2
  cases h
  obtain ⟨-, -, w1, o1, -⟩ := setProperty_spec wfi h1
  obtain ⟨-, -, w2, o2, -⟩ := setProperty_spec w1 h2
  have hne : ∀ v : Ver, elementName v ≠ parentName ∧ elementName v ≠ addressOnParent ∧
      ∀ n ∈ [itemDescription, virtualQuantity, resourceSubType, connection], n ≠ parentName ∧ n ≠ addressOnParent ∧
        n ≠ instanceId v ∧ n ≠ resourceType ∧ n ≠ elementName v := by
    intro v; cases v <;> decide +kernel
  obtain ⟨a1, a2, a3⟩ := hne env.ver
  have emp : ∀ n ∈ [itemDescription, virtualQuantity, resourceSubType, connection], it2.tab n = [] := fun n hn => by
    obtain ⟨b1, b2, b3, b4, b5⟩ := a3 n hn
    rw [o2 _ b1, o1 _ b2, ho _ b3 b4 b5]
  refine ⟨hnm, it2, by rw [dget?_dset, if_pos rfl], w2, ?_, emp _ (by simp), emp _ (by simp), emp _ (by simp),
    emp _ (by simp)⟩
  intro w S hm
  rw [o2 _ a1, o1 _ a2] at hm
  exact hdf w S hm

theorem getRaw_empty {it : Item} {n : Str} (h : it.tab n = []) (P : PSet) : it.getRaw n (some P) = none := by
  unfold Item.getRaw; rw [h]; rfl

theorem getRaw_only {it : Item} {n : Str} {v : Val} (h : it.tab n = [(v, {none})]) (P : PSet) :
    it.getRaw n (some P) = some v := by
  unfold Item.getRaw
  rw [h]
  simp only [getScan]
  split
  · rfl
  · simp

/-- what stands behind the placeholders of a bare drive: at most its name -/
theorem hide_bare {env : Env} {it : Item} {P : PSet} (h1 : it.tab virtualQuantity = []) (h2 : it.tab resourceSubType = [])
    (h3 : it.tab connection = []) : ∀ k ∈ enOrder, phVals env it P k = none := by
  intro k hk
  cases k with
  | en => exact absurd hk (by decide)
  | vq => simp only [phVals, getRaw_empty h1]; rfl
  | rst => simp only [phVals, getRaw_empty h2]; rfl
  | conn => simp only [phVals, getRaw_empty h3]; rfl

theorem hideAll_none {vals : Ph → Option Str} {ks : List Ph} (h : ∀ k ∈ ks, vals k = none) (x : Str) :
    hideAll vals ks x = x := by
  induction ks with
  | nil => rfl
  | cons k t ih =>
    unfold hideAll
    rw [h k (by simp)]
    exact ih (fun k hk => h k (by simp [hk]))

/-- without values for the placeholders a name is stored as it is -/
theorem addWildcards_bare {env : Env} {it : Item} (h1 : it.tab virtualQuantity = []) (h2 : it.tab resourceSubType = [])
    (h3 : it.tab connection = []) (x : Str) (P : PSet) :
    it.addWildcards env (elementName env.ver) (.str x) P = .ok (.str x) := by
  obtain ⟨p1, p2, p3, hne, -⟩ := names_plain env
  unfold Item.addWildcards
  rw [if_pos (Or.inl rfl), getValue_plain p1, getValue_plain p2, getValue_plain p3, getRaw_empty h1, getRaw_empty h2,
    getRaw_empty h3]
  simp only [if_neg hne, bind, Except.bind, pure, Except.pure]
  rfl

/-- the name and the description of a drive that had none -/
theorem fillDisk_names {c : Ctx} {hw hw' : Hw} {k drive res nm : Str} {descr : Option Str} {it : Item}
    (hk : dget? hw k = some it) (wf : ItemWF c.env it) (hd : AllDefault it (elementName c.env.ver))
    (h0 : it.tab itemDescription = []) (h1 : it.tab virtualQuantity = []) (h2 : it.tab resourceSubType = [])
    (h3 : it.tab connection = []) (h : fillDisk c hw k drive res (some nm) descr = .ok hw') :
    ∃ it', dget? hw' k = some it' ∧ (nm ≠ [] → it'.tab (elementName c.env.ver) = [(.str nm, {none})]) ∧
      (descr = none → it'.tab itemDescription = []) ∧
      (LiteralSub c.env → TameText nm → nm ≠ [] → ∀ P : PSet,
        it'.getValue c.env (elementName c.env.ver) (some P) = .ok (some (.str nm))) ∧
      (LiteralSub c.env → TameText nm → TameVal nm → ∀ d, descr = some d → TameText d → d ≠ [] → ∀ P : PSet,
        it'.getValue c.env itemDescription (some P) = .ok (some (.str d))) := by
  unfold fillDisk at h
  rw [hk] at h
  simp only at h
  obtain ⟨code, hc, h⟩ := bind_ok_inv h
  obtain ⟨i1, g1, h⟩ := bind_ok_inv h
  obtain ⟨i2, g2, h⟩ := bind_ok_inv h
  obtain ⟨i3, g3, h⟩ := bind_ok_inv h
  obtain ⟨i4, g4, h⟩ := bind_ok_inv h
  simp only [Except.ok.injEq] at h
  subst h
  obtain ⟨-, -, w1, o1, -⟩ := setProperty_spec wf g1
  obtain ⟨-, -, w2, o2, -⟩ := setProperty_spec w1 g2
  obtain ⟨v3, v3', w3, o3, -⟩ := setProperty_spec w2 g3
  have hne : ∀ v : Ver, elementName v ≠ resourceType ∧ elementName v ≠ hostResource ∧ elementName v ≠ itemDescription ∧
      elementName v ≠ resourceSubType ∧ itemDescription ≠ resourceSubType ∧ itemDescription ≠ resourceType ∧
      itemDescription ≠ elementName v ∧ itemDescription ≠ hostResource ∧
      ∀ n ∈ [virtualQuantity, resourceSubType, connection], n ≠ resourceType ∧ n ≠ hostResource ∧ n ≠ elementName v ∧
        n ≠ itemDescription := by
    intro v; cases v <;> decide +kernel
  obtain ⟨e1, e2, e3, e4, e5, e6, e7, e8, e9⟩ := hne c.env.ver
  have emp : ∀ n ∈ [virtualQuantity, resourceSubType, connection], it.tab n = [] := by
    intro n hn
    rcases List.mem_cons.1 hn with rfl | hn
    · exact h1
    rcases List.mem_cons.1 hn with rfl | hn
    · exact h2
    rw [List.mem_singleton.1 hn]; exact h3
  have m1 : virtualQuantity ∈ [virtualQuantity, resourceSubType, connection] := List.mem_cons_self
  have m2 : resourceSubType ∈ [virtualQuantity, resourceSubType, connection] := List.mem_cons_of_mem _ List.mem_cons_self
  have m3 : connection ∈ [virtualQuantity, resourceSubType, connection] :=
    List.mem_cons_of_mem _ (List.mem_cons_of_mem _ List.mem_cons_self)
  have emp2 : ∀ n ∈ [virtualQuantity, resourceSubType, connection], i2.tab n = [] := fun n hn => by
    rw [o2 _ (e9 n hn).2.1, o1 _ (e9 n hn).1, emp n hn]
  have emp3 : ∀ n ∈ [virtualQuantity, resourceSubType, connection], i3.tab n = [] := fun n hn => by
    rw [o3 _ (e9 n hn).2.2.1, emp2 n hn]
  have d2 : AllDefault i2 (elementName c.env.ver) := by
    intro w S hm
    rw [o2 _ e2, o1 _ e1] at hm
    exact hd w S hm
  have key : collapse ({none} : PSet) = {none} := by decide +kernel
  -- the name
  have hbare : ∀ (i : Item) (P : PSet), (∀ n ∈ [virtualQuantity, resourceSubType, connection], i.tab n = []) →
      ∀ k ∈ enOrder, phVals c.env i P k = none := fun i P hi =>
    hide_bare (hi _ m1) (hi _ m2) (hi _ m3)
  have t3 : nm ≠ [] → i3.tab (elementName c.env.ver) = [(.str nm, {none})] := by
    intro hn
    have hup : i2.updNs c.env (elementName c.env.ver) (normValue c.env (elementName c.env.ver) (.str nm)) = i2 := by
      unfold Item.updNs; rw [if_neg e1]
    have := setProperty_stored w2 hn (by
      rw [hup, normValue_str e4]
      exact addWildcards_bare (emp2 _ m1) (emp2 _ m2) (emp2 _ m3) nm _) g3
    rw [eff_default d2, key] at this
    exact this
  have s4 : ItemWF c.env i4 ∧ ∀ m, m ≠ itemDescription → i4.tab m = i3.tab m := by
    cases descr with
    | none => cases g4; exact ⟨w3, fun _ _ => rfl⟩
    | some n =>
      obtain ⟨-, -, w, o, -⟩ := setProperty_spec w3 g4
      exact ⟨w, o⟩
  obtain ⟨w4, o4⟩ := s4
  have emp4 : ∀ n ∈ [virtualQuantity, resourceSubType, connection], i4.tab n = [] := fun n hn => by
    rw [o4 _ (e9 n hn).2.2.2, emp3 n hn]
  have t4 : nm ≠ [] → i4.tab (elementName c.env.ver) = [(.str nm, {none})] := fun hn => by rw [o4 _ e3, t3 hn]
  have hdesc3 : i3.tab itemDescription = [] := by rw [o3 _ e7, o2 _ e8, o1 _ e6, h0]
  refine ⟨i4, by rw [dget?_dset, if_pos rfl], t4, ?_, ?_, ?_⟩
  · rintro rfl
    cases g4
    exact hdesc3
  · intro hl hx hn P
    refine getValue_en_back hl (vals := fun _ => none) (by intro k _ v hv; cases hv) (hbare i4 P emp4) hx hn ?_
    rw [hideAll_none (fun _ _ => rfl)]
    exact getRaw_only (t4 hn) P
  · rintro hl hx hv d rfl hdt hdn P
    have hn := hv.1
    simp only at g4
    have hen : ∀ (i : Item) (Q : PSet), (∀ n ∈ [virtualQuantity, resourceSubType, connection], i.tab n = []) →
        i.tab (elementName c.env.ver) = [(.str nm, {none})] →
        i.getValue c.env (elementName c.env.ver) (some Q) = .ok (some (.str nm)) := fun i Q hi ht => by
      refine getValue_en_back hl (vals := fun _ => none) (by intro k _ v hv; cases hv) (hbare i Q hi) hx hn ?_
      rw [hideAll_none (fun _ _ => rfl)]
      exact getRaw_only ht Q
    let vals : Ph → Option Str := fun k => match k with | .en => some nm | _ => none
    have hvals : ∀ k ∈ descOrder, ∀ v, vals k = some v → TameVal v := by
      intro k _ v hv'
      cases k with
      | en => cases hv'; exact hv
      | vq => cases hv'
      | rst => cases hv'
      | conn => cases hv'
    have hph : ∀ (i : Item) (Q : PSet), (∀ n ∈ [virtualQuantity, resourceSubType, connection], i.tab n = []) →
        i.tab (elementName c.env.ver) = [(.str nm, {none})] → phVals c.env i Q = vals := fun i Q hi ht => by
      funext k
      cases k with
      | en => simp only [phVals, hen i Q hi ht]; rfl
      | vq => exact hbare i Q hi .vq (by decide)
      | rst => exact hbare i Q hi .rst (by decide)
      | conn => exact hbare i Q hi .conn (by decide)
    have hup : i3.updNs c.env itemDescription (normValue c.env itemDescription (.str d)) = i3 := by
      unfold Item.updNs; rw [if_neg e6]
    have hst := setProperty_stored w3 (hide_truthy hvals hdt.1 hdn) (by
      rw [hup, normValue_str e5]
      have := addWildcards_desc hl (it := i3) (P := i3.effProfiles itemDescription ∅) (by rw [hph _ _ emp3 (t3 hn)]; exact hvals)
        ⟨_, hen i3 _ emp3 (t3 hn)⟩ d
      rw [hph _ _ emp3 (t3 hn)] at this
      exact this) g4
    rw [eff_default (by intro w S hm; rw [hdesc3] at hm; simp at hm), key] at hst
    refine getValue_desc_back hl (vals := vals) hvals (fun k _ => by rw [hph _ _ emp4 (t4 hn)]) ?_ ?_ hdt hdn
      (getRaw_only hst P)
    · intro v hv'; cases hv'; exact hx
    · rw [getRaw_only (t4 hn) P]
      show _ = some (Val.str (hideAll vals enOrder nm))
      rw [hideAll_none (by intro k hk; cases k <;> first | rfl | exact absurd hk (by decide))]

end Cot
