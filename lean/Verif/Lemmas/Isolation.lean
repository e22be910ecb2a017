import Verif.Spec.EditHardware
import Verif.Lemmas.Count
import Verif.Props.Count
/-
Edits for some profiles leave what other profiles see unchanged.
-/
namespace Cot

/-- everything stored for `q`, or by default, reads the same -/
def SameReads (q : Prof) (it it' : Item) : Prop := ∀ n w, Reads (it'.tab n) q w ↔ Reads (it.tab n) q w

theorem SameReads.refl (q : Prof) (it : Item) : SameReads q it it := fun _ _ => Iff.rfl

theorem SameReads.trans {q : Prof} {a b c : Item} (h1 : SameReads q a b) (h2 : SameReads q b c) : SameReads q a c :=
  fun n w => (h2 n w).trans (h1 n w)

theorem reads_setTab_other {v : Val} {P : PSet} {t : Tab} (wf : TabWF t) (hn : none ∉ P) {q : Prof} (hq : q ∉ P)
    (w : Val) : Reads (collapseTab (setTab v P t)) q w ↔ Reads t q w := by
  cases hv : v.truthy with
  | true =>
    rw [reads_set_not_mem wf hv hq]
    simp only [hn, false_and, not_false_eq_true, true_and, false_or]
    rfl
  | false =>
    rw [reads_clear wf hv]
    simp only [hn, hq, not_false_eq_true, true_and, false_or]
    rfl

theorem setProperty_same {env : Env} {it it' : Item} (wf : ItemWF env it) {name : Str} {val : InVal} {P : PSet}
    {ow : Bool} (h : it.setProperty env name val P ow = .ok it') (hP : P ≠ ∅) (hn : none ∉ P) {q : Prof} (hq : q ∉ P) :
    SameReads q it it' := by
  obtain ⟨v, -, -, h3, h4, -⟩ := setProperty_spec wf h
  rw [effProfiles_of_ne _ _ hP] at h4
  intro n w
  by_cases hnn : n = name
  · subst hnn; rw [h4]; exact reads_setTab_other (wf.tab n) hn hq w
  · rw [h3 n hnn]

theorem removeProfile_same {env : Env} {it it' : Item} (wf : ItemWF env it) {p q : Str}
    (h : it.removeProfile env (some p) true = .ok it') (hq : q ∈ env.configProfiles) (hqp : q ≠ p) :
    ItemWF env it' ∧ SameReads (some q) it it' := by
  obtain ⟨it1, h1, wf1, h2, h3⟩ := removeProfile_spec wf (some p) true
  rw [h] at h1; cases h1
  refine ⟨wf1, ?_⟩
  cases hh : it.hasProfile env (some p) with
  | false => rw [h2 hh]; exact SameReads.refl _ _
  | true => exact (reads_removed wf (h3 hh)).1 q hq hqp

theorem addProfile_same {env : Env} {it it' : Item} (wf : ItemWF env it) {p : Str} {q : Prof}
    (hp : it.hasProfile env (some p) = false) (h : it.addProfile env (some p) none = .ok it') (hqp : q ≠ some p) :
    ItemWF env it' ∧ SameReads q it it' := by
  obtain ⟨w1, h2, h3⟩ := addProfile_spec wf (by simp) hp h
  refine ⟨w1, fun n w => ?_⟩
  by_cases hn : it.tab n = []
  · rw [h2 n hn]
  · obtain ⟨v, v', -, ht, -⟩ := h3 n hn
    rw [ht]
    exact reads_setTab_other (wf.tab n) (by simp) (by simpa using hqp) w

theorem SameReads.has {env : Env} {it it' : Item} {q : Str} (hq : q ∈ env.configProfiles)
    (h : SameReads (some q) it it') : it'.hasProfile env (some q) = it.hasProfile env (some q) := by
  rw [Bool.eq_iff_iff, has_iff_reads hq, has_iff_reads hq]
  exact exists_congr (fun v => h _ v)

theorem SameReads.value {env : Env} {it it' : Item} {q : Prof} (wf : ItemWF env it) (wf' : ItemWF env it')
    (h : SameReads q it it') (n : Str) : it'.getValue env n (some {q}) = it.getValue env n (some {q}) := by
  refine getValue_congr_all (fun m => ?_) n
  refine getRaw_congr wf' wf m (by simp) ?_
  intro p hp w
  rw [Finset.mem_singleton.1 hp]
  exact h m w

/-! ### collections -/

/-- the same for the items of two collections; new items do not exist under `q` -/
structure HwSame (env : Env) (q : Str) (hw hw' : Hw) : Prop where
  keep : ∀ id it, dget? hw id = some it → ∃ it', dget? hw' id = some it' ∧ SameReads (some q) it it'
  new : ∀ id it', dget? hw' id = some it' → dget? hw id = none → it'.hasProfile env (some q) = false

theorem HwSame.refl (env : Env) (q : Str) (hw : Hw) : HwSame env q hw hw :=
  ⟨fun _ it h => ⟨it, h, SameReads.refl _ _⟩, fun _ _ h h' => by rw [h] at h'; cases h'⟩

theorem HwSame.trans {env : Env} {q : Str} (hq : q ∈ env.configProfiles) {a b c : Hw} (h1 : HwSame env q a b)
    (h2 : HwSame env q b c) : HwSame env q a c := by
  refine ⟨?_, ?_⟩
  · intro id it h
    obtain ⟨it1, g1, s1⟩ := h1.keep id it h
    obtain ⟨it2, g2, s2⟩ := h2.keep id it1 g1
    exact ⟨it2, g2, s1.trans s2⟩
  · intro id it hc ha
    cases hb : dget? b id with
    | none => exact h2.new id it hc hb
    | some it1 =>
      obtain ⟨it2, g2, s2⟩ := h2.keep id it1 hb
      rw [hc] at g2; cases g2
      rw [s2.has hq]
      exact h1.new id it1 hb ha

theorem HwSame.sameIn {env : Env} {q : Str} (hq : q ∈ env.configProfiles) {a b : Hw} (wf : HwWF env a)
    (wf' : HwWF env b) (h : HwSame env q a b) : SameIn env env (some q) a b := by
  refine ⟨?_, ?_⟩
  · intro id it h1 hh
    obtain ⟨it', g, s⟩ := h.keep id it h1
    exact ⟨it', g, by rw [s.has hq]; exact hh, s.value (wf.get h1).1 (wf'.get g).1⟩
  · intro id it' h1 hh
    cases h0 : dget? a id with
    | none => rw [h.new id it' h1 h0] at hh; cases hh
    | some it =>
      obtain ⟨it2, g, s⟩ := h.keep id it h0
      rw [h1] at g; cases g
      exact ⟨it, rfl, by rw [← s.has hq]; exact hh⟩

/-- editing one item -/
theorem HwSame.edit {env : Env} {q : Str} {hw : Hw} {id : Str} {it it' : Item} (h : dget? hw id = some it)
    (hs : SameReads (some q) it it') : HwSame env q hw (dset hw id it') := by
  refine ⟨?_, ?_⟩
  · intro i x hx
    by_cases hi : i = id
    · subst hi; rw [h] at hx; cases hx
      exact ⟨it', by rw [dget?_dset, if_pos rfl], hs⟩
    · exact ⟨x, by rw [dget?_dset, if_neg (Ne.symm hi)]; exact hx, SameReads.refl _ _⟩
  · intro i x hx hn
    have hi : i ≠ id := by rintro rfl; rw [h] at hn; cases hn
    rw [dget?_dset, if_neg (Ne.symm hi), hn] at hx
    cases hx

/-- adding one item -/
theorem HwSame.added {env : Env} {q : Str} {hw : Hw} {id : Str} {it : Item} (h : id ∉ dkeys hw)
    (hs : it.hasProfile env (some q) = false) : HwSame env q hw (dset hw id it) := by
  have hid : dget? hw id = none := by
    cases hd : dget? hw id with
    | none => rfl
    | some x => exact absurd (mem_dkeys_of_dget? hd) h
  refine ⟨?_, ?_⟩
  · intro i x hx
    have hi : i ≠ id := by rintro rfl; rw [hid] at hx; cases hx
    exact ⟨x, by rw [dget?_dset, if_neg (Ne.symm hi)]; exact hx, SameReads.refl _ _⟩
  · intro i x hx hn
    by_cases hi : i = id
    · subst hi; rw [dget?_dset, if_pos rfl] at hx; cases hx; exact hs
    · rw [dget?_dset, if_neg (Ne.symm hi), hn] at hx; cases hx

/-- all items are consistent -/
def ItemsWF (env : Env) (hw : Hw) : Prop := ∀ id it, dget? hw id = some it → ItemWF env it

theorem HwWF.itemsWF {env : Env} {hw : Hw} (wf : HwWF env hw) : ItemsWF env hw := fun _ _ h => (wf.get h).1

theorem ItemsWF.dset {env : Env} {hw : Hw} {id : Str} {it : Item} (wf : ItemsWF env hw) (h : ItemWF env it) :
    ItemsWF env (dset hw id it) := by
  intro i x hx
  rw [dget?_dset] at hx
  split at hx
  · cases hx; exact h
  · exact wf i x hx

/-! ### set_item_count_per_profile -/

theorem profLoop_same {env : Env} {count : Nat} {q : Str} (hq : q ∈ env.configProfiles) : ∀ (L : List Prof)
    {it it' : Item} {cd cd' seen seen' : Prof → Nat}, none ∉ L → some q ∉ L → ItemWF env it →
    profLoop env count L (it, cd, seen) = .ok (it', cd', seen') → ItemWF env it' ∧ SameReads (some q) it it'
  | [], it, it', cd, cd', seen, seen', _, _, wf, h => by cases h; exact ⟨wf, SameReads.refl _ _⟩
  | p :: r, it, it', cd, cd', seen, seen', hn, hL, wf, h => by
    simp only [List.mem_cons, not_or] at hn hL
    cases p with
    | none => exact absurd rfl hn.1
    | some p =>
      have hqp : q ≠ p := fun e => hL.1 (by rw [e])
      unfold profLoop at h
      split at h
      · split at h
        · split at h
          · cases h
          · rename_i it1 h1
            obtain ⟨w1, s1⟩ := removeProfile_same wf h1 hq hqp
            obtain ⟨w2, s2⟩ := profLoop_same hq r hn.2 hL.2 w1 h
            exact ⟨w2, s1.trans s2⟩
        · exact profLoop_same hq r hn.2 hL.2 wf h
      · rename_i hh
        split at h
        · split at h
          · cases h
          · rename_i it1 h1
            obtain ⟨w1, s1⟩ := addProfile_same (q := some q) wf (by simpa using hh) h1 (by simpa using hqp)
            obtain ⟨w2, s2⟩ := profLoop_same hq r hn.2 hL.2 w1 h
            exact ⟨w2, s1.trans s2⟩
        · exact profLoop_same hq r hn.2 hL.2 wf h

theorem existingLoop_same {env : Env} {count : Nat} {q : Str} (hq : q ∈ env.configProfiles) {L : List Prof}
    (hn : none ∉ L) (hL : some q ∉ L) : ∀ (ids : List Str) {hw hw' : Hw} {cd cd' seen seen' : Prof → Nat},
    ItemsWF env hw → existingLoop env count L ids hw cd seen = .ok (hw', cd', seen') →
    ItemsWF env hw' ∧ HwSame env q hw hw'
  | [], hw, hw', cd, cd', seen, seen', wf, h => by cases h; exact ⟨wf, HwSame.refl _ _ _⟩
  | id :: r, hw, hw', cd, cd', seen, seen', wf, h => by
    unfold existingLoop at h
    split at h
    · cases h
    · rename_i it hit
      split at h
      · cases h
      · rename_i it1 cd1 seen1 hp
        obtain ⟨w1, s1⟩ := profLoop_same hq L hn hL (wf id it hit) hp
        obtain ⟨w2, s2⟩ := existingLoop_same hq hn hL r (wf.dset w1) h
        exact ⟨w2, (HwSame.edit hit s1).trans hq s2⟩

theorem pickProfiles_sub (count : Nat) : ∀ (L : List Prof) (cd : Prof → Nat), ∀ p ∈ (pickProfiles count L cd).1, p ∈ L
  | [], cd => by simp [pickProfiles]
  | p :: r, cd => by
    intro x hx
    unfold pickProfiles at hx
    split at hx
    · simp only [List.mem_cons] at hx
      rcases hx with rfl | hx
      · exact List.mem_cons_self
      · exact List.mem_cons_of_mem _ (pickProfiles_sub count r _ x hx)
    · exact List.mem_cons_of_mem _ (pickProfiles_sub count r _ x hx)

theorem updateCloned_same {env : Env} {nicName : Nat → Str} {it it' : Item} {P : List Prof} {n : Nat} {q : Prof}
    (wf : ItemWF env it) (hP : P ≠ []) (hn : none ∉ P) (hq : q ∉ P)
    (h : updateCloned env nicName it P n = .ok it') : ItemWF env it' ∧ SameReads q it it' := by
  have hPf : P.toFinset ≠ ∅ := by simpa using hP
  have hnf : none ∉ P.toFinset := by simpa using hn
  have hqf : q ∉ P.toFinset := by simpa using hq
  unfold updateCloned at h
  split at h
  · cases h
  · obtain ⟨it1, h1, h⟩ := bind_ok_inv h
    have key : ItemWF env it1 ∧ SameReads q it it1 := by
      split at h1
      · cases h1; exact ⟨wf, SameReads.refl _ _⟩
      · split at h1
        · cases h1
        · exact ⟨(setProperty_spec wf h1).choose_spec.2.1, setProperty_same wf h1 hPf hnf hqf⟩
      · cases h1
    split at h
    · exact ⟨(setProperty_spec key.1 h).choose_spec.2.1, key.2.trans (setProperty_same key.1 h hPf hnf hqf)⟩
    · cases h; exact key

theorem not_has_of_reads {env : Env} {it : Item} {q : Str} (hq : q ∈ env.configProfiles)
    (h : ∀ w, ¬ Reads (it.tab (instanceId env.ver)) (some q) w) : it.hasProfile env (some q) = false := by
  rw [Bool.eq_false_iff]
  intro hh
  obtain ⟨w, hw⟩ := (has_iff_reads hq).1 hh
  exact h w hw

theorem newItem_same {env : Env} {hw hw' : Hw} {rt id : Str} {P : List Prof} {q : Str} (hq : q ∈ env.configProfiles)
    (hP : P ≠ []) (hn : none ∉ P) (hqP : some q ∉ P) (wf : ItemsWF env hw)
    (h : newItem env hw rt P = .ok (id, hw')) :
    ItemsWF env hw' ∧ HwSame env q hw hw' ∧ ∃ it, dget? hw' id = some it ∧ it.hasProfile env (some q) = false := by
  have hPf : P.toFinset ≠ ∅ := by simpa using hP
  obtain ⟨z, code, it, -, -, hfresh, -, rfl, wfi, hi, -⟩ := newItem_spec h
  rw [if_neg hPf, collapse_eq_self (fun h => absurd (List.mem_toFinset.1 h) hn)] at hi
  have hh : it.hasProfile env (some q) = false := by
    apply not_has_of_reads hq
    rw [hi]
    rintro w (⟨S, hm, hS⟩ | ⟨-, S, hm, hS⟩)
    · simp only [List.mem_singleton, Prod.mk.injEq] at hm; rw [hm.2] at hS; exact hqP (List.mem_toFinset.1 hS)
    · simp only [List.mem_singleton, Prod.mk.injEq] at hm; rw [hm.2] at hS; exact hn (List.mem_toFinset.1 hS)
  exact ⟨wf.dset wfi, HwSame.added hfresh hh, it, by rw [dget?_dset, if_pos rfl], hh⟩

theorem cloneItem_same {env : Env} {hw hw' : Hw} {parent id : Str} {P : List Prof} {q : Str}
    (hq : q ∈ env.configProfiles) (hP : P ≠ []) (hn : none ∉ P) (hqP : some q ∉ P) (wf : ItemsWF env hw)
    (h : cloneItem env hw parent P = .ok (id, hw')) :
    ItemsWF env hw' ∧ HwSame env q hw hw' ∧ ∃ it, dget? hw' id = some it ∧ it.hasProfile env (some q) = false := by
  have hPf : P.toFinset ≠ ∅ := by simpa using hP
  obtain ⟨pit, s, z, y, it1, it, h1, -, -, -, -, hfresh, h2, h3, rfl⟩ := cloneItem_spec h
  obtain ⟨it1', g1, w1, -, -, g5, g6⟩ := cloneStrip_spec (P := P) env.configProfiles (fun _ h => h) (wf _ _ h1)
  rw [h2] at g1; cases g1
  have hno : ∀ w, ¬ Reads (it1.tab (instanceId env.ver)) (some q) w := by
    cases hh : pit.hasProfile env (some q) with
    | true => exact g6 q hq hqP hh _
    | false =>
      rcases g5 q hq with g | g
      · intro w hw
        rw [g] at hw
        rw [(has_iff_reads hq).2 ⟨w, hw⟩] at hh; cases hh
      · exact g _
  have hs := setProperty_same w1 h3 hPf (by simpa using hn) (q := some q) (by simpa using hqP)
  have w2 : ItemWF env it := (setProperty_spec w1 h3).choose_spec.2.1
  have hh : ({ it with modified := true } : Item).hasProfile env (some q) = false := by
    apply not_has_of_reads hq
    intro w hw
    exact hno w ((hs _ w).1 hw)
  exact ⟨wf.dset (w2.flag true), HwSame.added hfresh hh, _, by rw [dget?_dset, if_pos rfl], hh⟩

theorem addLoop_same {env : Env} {nicName : Nat → Str} {rt : Str} {count : Nat} {L : List Prof} {q : Str}
    (hq : q ∈ env.configProfiles) (hn : none ∉ L) (hL : some q ∉ L) :
    ∀ (k : Nat) {hw hw' : Hw} {cd : Prof → Nat} {last : Option Str}, ItemsWF env hw →
    addLoop env nicName rt count L k hw cd last = .ok hw' → ItemsWF env hw' ∧ HwSame env q hw hw'
  | 0, hw, hw', cd, last, wf, h => by cases h; exact ⟨wf, HwSame.refl _ _ _⟩
  | k + 1, hw, hw', cd, last, wf, h => by
    unfold addLoop at h
    generalize hpick : pickProfiles count L cd = pk at h
    obtain ⟨P, cd'⟩ := pk
    simp only at h
    obtain ⟨⟨id, hw1⟩, h1, h⟩ := bind_ok_inv h
    simp only at h
    have hsub : ∀ p ∈ P, p ∈ L := by
      have := pickProfiles_sub count L cd
      rw [hpick] at this; exact this
    cases P with
    | nil => cases h
    | cons p P =>
      simp only at h
      have hn' : none ∉ p :: P := fun hh => hn (hsub _ hh)
      have hq' : some q ∉ p :: P := fun hh => hL (hsub _ hh)
      have key : ItemsWF env hw1 ∧ HwSame env q hw hw1 ∧ ∃ it, dget? hw1 id = some it ∧ it.hasProfile env (some q) = false := by
        cases last with
        | none => exact newItem_same hq (by simp) hn' hq' wf h1
        | some l => exact cloneItem_same hq (by simp) hn' hq' wf h1
      obtain ⟨w1, s1, it, hit, -⟩ := key
      rw [hit] at h
      simp only at h
      obtain ⟨it', h2, h⟩ := bind_ok_inv h
      obtain ⟨wi, si⟩ := updateCloned_same (w1 id it hit) (by simp) hn' hq' h2
      obtain ⟨w2, s2⟩ := addLoop_same hq hn hL k (w1.dset wi) h
      exact ⟨w2, (s1.trans hq (HwSame.edit hit si)).trans hq s2⟩

theorem setItemCount_same {env : Env} {nicName : Nat → Str} {hw hw' : Hw} {rt : Str} {count : Nat}
    {profiles : List Prof} {q : Str} (hq : q ∈ env.configProfiles) (hne : profiles ≠ []) (hn : none ∉ profiles)
    (hqP : some q ∉ profiles) (wf : ItemsWF env hw) (h : setItemCount env nicName hw rt count profiles = .ok hw') :
    ItemsWF env hw' ∧ HwSame env q hw hw' := by
  unfold setItemCount at h
  have hLL : allProfilesIfEmpty env profiles = profiles := by unfold allProfilesIfEmpty; rw [if_neg hne]
  simp only [hLL] at h
  obtain ⟨cd, -, h⟩ := bind_ok_inv h
  obtain ⟨ids, -, h⟩ := bind_ok_inv h
  obtain ⟨⟨hw1, cd1, seen1⟩, hex, h⟩ := bind_ok_inv h
  simp only at h
  obtain ⟨w1, s1⟩ := existingLoop_same hq hn hqP ids wf hex
  obtain ⟨w2, s2⟩ := addLoop_same hq hn hqP _ w1 h
  exact ⟨w2, s1.trans hq s2⟩

/-! ### set_value_for_all_items -/

theorem setEach_same {env : Env} {name : Str} {val : InVal} {P : List Prof} {q : Str} (hq : q ∈ env.configProfiles)
    (hP : P ≠ []) (hn : none ∉ P) (hqP : some q ∉ P) : ∀ (ids : List Str) {hw hw' : Hw}, ItemsWF env hw →
    setEach env name val P ids hw = .ok hw' → ItemsWF env hw' ∧ HwSame env q hw hw'
  | [], hw, hw', wf, h => by cases h; exact ⟨wf, HwSame.refl _ _ _⟩
  | i :: r, hw, hw', wf, h => by
    unfold setEach at h
    split at h
    · cases h
    · rename_i it hit
      split at h
      · cases h
      · rename_i it1 h1
        have s1 := setProperty_same (wf i it hit) h1 (by simpa using hP) (by simpa using hn) (q := some q) (by simpa using hqP)
        have w1 : ItemWF env it1 := (setProperty_spec (wf i it hit) h1).choose_spec.2.1
        obtain ⟨w2, s2⟩ := setEach_same hq hP hn hqP r (wf.dset w1) h
        exact ⟨w2, (HwSame.edit hit s1).trans hq s2⟩

theorem setValueForAll_same {env : Env} {hw hw' : Hw} {rt name : Str} {val : InVal} {P : List Prof} {cn : Bool} {q : Str}
    (hq : q ∈ env.configProfiles) (hP : P ≠ []) (hn : none ∉ P) (hqP : some q ∉ P) (wf : ItemsWF env hw)
    (h : setValueForAll env hw rt name val P cn = .ok hw') : ItemsWF env hw' ∧ HwSame env q hw hw' := by
  unfold setValueForAll at h
  obtain ⟨ids, -, h⟩ := bind_ok_inv h
  split at h
  · split at h
    · cases h; exact ⟨wf, HwSame.refl _ _ _⟩
    · obtain ⟨⟨id, hw1⟩, h1, h⟩ := bind_ok_inv h
      obtain ⟨w1, s1, -⟩ := newItem_same hq hP hn hqP wf h1
      obtain ⟨w2, s2⟩ := setEach_same hq hP hn hqP _ w1 h
      exact ⟨w2, s1.trans hq s2⟩
  · exact setEach_same hq hP hn hqP _ wf h

/-! ### set_item_values_per_profile -/

theorem setUnder_same {env : Env} {name : Str} {val : InVal} {q : Prof} : ∀ (L : List Prof) {it it' : Item},
    none ∉ L → q ∉ L → ItemWF env it → setUnder env name val L it = .ok it' → ItemWF env it' ∧ SameReads q it it'
  | [], it, it', _, _, wf, h => by cases h; exact ⟨wf, SameReads.refl _ _⟩
  | p :: r, it, it', hn, hL, wf, h => by
    simp only [List.mem_cons, not_or] at hn hL
    unfold setUnder at h
    split at h
    · split at h
      · cases h
      · rename_i it1 h1
        have s1 := setProperty_same wf h1 (by simp) (by simpa using hn.1) (q := q) (by simpa using hL.1)
        have w1 : ItemWF env it1 := (setProperty_spec wf h1).choose_spec.2.1
        obtain ⟨w2, s2⟩ := setUnder_same r hn.2 hL.2 w1 h
        exact ⟨w2, s1.trans s2⟩
    · exact setUnder_same r hn.2 hL.2 wf h

theorem setValuesLoop_same {env : Env} {name : Str} {dflt : InVal} {L : List Prof} {q : Str} (hq : q ∈ env.configProfiles)
    (hn : none ∉ L) (hL : some q ∉ L) : ∀ (ids : List Str) (vs : List InVal) {hw hw' : Hw}, ItemsWF env hw →
    setValuesLoop env name dflt L ids vs hw = .ok hw' → ItemsWF env hw' ∧ HwSame env q hw hw'
  | [], vs, hw, hw', wf, h => by cases h; exact ⟨wf, HwSame.refl _ _ _⟩
  | a :: r, vs, hw, hw', wf, h => by
    unfold setValuesLoop at h
    split at h
    · cases h
    · rename_i it hit
      split at h
      · cases h
      · rename_i it1 h1
        obtain ⟨w1, s1⟩ := setUnder_same L hn hL (wf a it hit) h1
        obtain ⟨w2, s2⟩ := setValuesLoop_same hq hn hL r vs.tail (wf.dset w1) h
        exact ⟨w2, (HwSame.edit hit s1).trans hq s2⟩

theorem setItemValues_same {env : Env} {hw hw' : Hw} {rt name : Str} {vs : List InVal} {dflt : InVal} {L : List Prof}
    {q : Str} (hq : q ∈ env.configProfiles) (hn : none ∉ L) (hL : some q ∉ L) (wf : ItemsWF env hw)
    (h : setItemValues env hw rt name vs (some L) dflt = .ok hw') : ItemsWF env hw' ∧ HwSame env q hw hw' := by
  unfold setItemValues at h
  obtain ⟨ids, -, h⟩ := bind_ok_inv h
  exact setValuesLoop_same hq hn hL ids vs wf h

end Cot
