import Verif.Spec.Package
import Verif.Lemmas.DiskDevice
import Verif.Props.DiskDevice
import Verif.Props.DataValidation
import Verif.Props.Utilities
/-
Lemmas about the package functions.
-/
namespace Cot

/-! ### Finding entries -/

theorem positions_append (p : Elem → Bool) : ∀ (a b : List Elem) (n : Nat),
    positions p (a ++ b) n = positions p a n ++ positions p b (n + a.length)
  | [], b, n => by simp [positions]
  | e :: a, b, n => by
    have ih := positions_append p a b (n + 1)
    simp only [List.cons_append, positions]
    rw [ih, show n + 1 + a.length = n + (e :: a).length by simp; omega]
    split <;> simp

theorem mem_positions {p : Elem → Bool} : ∀ {cs : List Elem} {n i : Nat},
    i ∈ positions p cs n ↔ ∃ j e, i = n + j ∧ cs[j]? = some e ∧ p e = true
  | [], n, i => by simp [positions]
  | e :: t, n, i => by
    have ih := @mem_positions p t (n + 1) i
    have aux : (∃ j x, i = n + j ∧ (e :: t)[j]? = some x ∧ p x = true) ↔
        (i = n ∧ p e = true) ∨ ∃ j x, i = n + 1 + j ∧ t[j]? = some x ∧ p x = true := by
      constructor
      · rintro ⟨j, x, h1, h2, h3⟩
        cases j with
        | zero => simp at h2; subst h2; left; exact ⟨by simpa using h1, h3⟩
        | succ j => right; exact ⟨j, x, by omega, by simpa using h2, h3⟩
      · rintro (⟨h1, h2⟩ | ⟨j, x, h1, h2, h3⟩)
        · exact ⟨0, e, by simpa using h1, by simp, h2⟩
        · exact ⟨j + 1, x, by omega, by simpa using h2, h3⟩
    rw [aux, ← ih]
    rw [positions]
    split
    · rename_i h; simp [h]
    · rename_i h; simp [h]

theorem positions_nodup {p : Elem → Bool} : ∀ {cs : List Elem} {n : Nat}, (positions p cs n).Nodup
  | [], n => by simp [positions]
  | e :: t, n => by
    unfold positions
    have ih := @positions_nodup p t (n + 1)
    split
    · rw [List.nodup_cons]
      refine ⟨?_, ih⟩
      rw [mem_positions]
      rintro ⟨j, x, h, -⟩
      omega
    · exact ih

theorem findPos_some {cs : List Elem} {tag key : Str} {val : Option Str} {i : Nat} :
    findPos cs tag key val = .ok (some i) ↔ OnlyAt cs (fun e => e.tag = tag ∧ e.get key = val) i := by
  have hm := fun i => @mem_positions (entryIs tag key val) cs 0 i
  have hiff : ∀ e, entryIs tag key val e = true ↔ (e.tag = tag ∧ e.get key = val) := by
    intro e; simp [entryIs]
  have hnd := @positions_nodup (entryIs tag key val) cs 0
  simp only [Nat.zero_add, hiff] at hm
  unfold findPos OnlyAt
  match hp : positions (entryIs tag key val) cs 0 with
  | [] =>
    rw [hp] at hm
    simp only [Except.ok.injEq, reduceCtorEq, false_iff]
    rintro ⟨⟨e, h1, h2⟩, -⟩
    exact absurd ((hm i).2 ⟨i, e, rfl, h1, h2⟩) (by simp)
  | [k] =>
    rw [hp] at hm
    simp only [Except.ok.injEq, Option.some.injEq]
    constructor
    · rintro rfl
      obtain ⟨j, e, rfl, h2, h3⟩ := (hm k).1 (by simp)
      refine ⟨⟨e, h2, h3⟩, ?_⟩
      intro j' e' h4 h5
      have := (hm j').2 ⟨j', e', rfl, h4, h5⟩
      simpa using this
    · rintro ⟨⟨e, h1, h2⟩, -⟩
      have := (hm i).2 ⟨i, e, rfl, h1, h2⟩
      exact (by simpa using this : i = k).symm
  | a :: b :: l =>
    rw [hp] at hm hnd
    simp only [reduceCtorEq, false_iff]
    rintro ⟨-, h⟩
    obtain ⟨j, e, rfl, h2, h3⟩ := (hm a).1 (by simp)
    obtain ⟨j', e', rfl, h2', h3'⟩ := (hm b).1 (by simp)
    have := (h _ _ h2 h3).trans (h _ _ h2' h3').symm
    subst this
    simp at hnd

theorem findPos_none {cs : List Elem} {tag key : Str} {val : Option Str} :
    findPos cs tag key val = .ok none ↔ ∀ e ∈ cs, ¬ (e.tag = tag ∧ e.get key = val) := by
  have hm := fun i => @mem_positions (entryIs tag key val) cs 0 i
  have hiff : ∀ e, entryIs tag key val e = true ↔ (e.tag = tag ∧ e.get key = val) := by
    intro e; simp [entryIs]
  simp only [Nat.zero_add, hiff] at hm
  unfold findPos
  match hp : positions (entryIs tag key val) cs 0 with
  | [] =>
    rw [hp] at hm
    simp only [true_iff]
    intro e he hx
    obtain ⟨i, hi⟩ := List.mem_iff_getElem?.1 he
    exact absurd ((hm i).2 ⟨i, e, rfl, hi, hx⟩) (by simp)
  | [k] =>
    rw [hp] at hm
    simp only [Except.ok.injEq, reduceCtorEq, false_iff]
    intro h
    obtain ⟨j, e, rfl, h2, h3⟩ := (hm k).1 (by simp)
    exact h e (List.mem_iff_getElem?.2 ⟨_, h2⟩) h3
  | a :: b :: l =>
    rw [hp] at hm
    simp only [reduceCtorEq, false_iff]
    intro h
    obtain ⟨j, e, rfl, h2, h3⟩ := (hm a).1 (by simp)
    exact h e (List.mem_iff_getElem?.2 ⟨_, h2⟩) h3

theorem findPos_error {cs : List Elem} {tag key : Str} {val : Option Str} {e : Err} :
    findPos cs tag key val = .error e ↔ e = .lookupError ∧ ∃ (i j : Nat) (x y : Elem), i ≠ j ∧ cs[i]? = some x ∧ cs[j]? = some y ∧
      (x.tag = tag ∧ x.get key = val) ∧ (y.tag = tag ∧ y.get key = val) := by
  have hm := fun i => @mem_positions (entryIs tag key val) cs 0 i
  have hiff : ∀ e, entryIs tag key val e = true ↔ (e.tag = tag ∧ e.get key = val) := by
    intro e; simp [entryIs]
  have hnd := @positions_nodup (entryIs tag key val) cs 0
  simp only [Nat.zero_add, hiff] at hm
  unfold findPos
  match hp : positions (entryIs tag key val) cs 0 with
  | [] =>
    rw [hp] at hm
    simp only [reduceCtorEq, false_iff]
    rintro ⟨-, i, j, x, y, -, h, -, h', -⟩
    exact absurd ((hm i).2 ⟨i, x, rfl, h, h'⟩) (by simp)
  | [k] =>
    rw [hp] at hm
    simp only [reduceCtorEq, false_iff]
    rintro ⟨-, i, j, x, y, hne, h, h', hx, hy⟩
    have h1 := (hm i).2 ⟨i, x, rfl, h, hx⟩
    have h2 := (hm j).2 ⟨j, y, rfl, h', hy⟩
    simp only [List.mem_singleton] at h1 h2
    exact hne (h1.trans h2.symm)
  | a :: b :: l =>
    rw [hp] at hm hnd
    simp only [Except.error.injEq]
    constructor
    · rintro rfl
      obtain ⟨j, e, rfl, h2, h3⟩ := (hm a).1 (by simp)
      obtain ⟨j', e', rfl, h2', h3'⟩ := (hm b).1 (by simp)
      refine ⟨rfl, _, _, e, e', ?_, h2, h2', h3, h3'⟩
      rintro rfl
      simp at hnd
    · rintro ⟨rfl, -⟩; rfl

/-! ### Finding items -/

theorem plain_hr (env : Env) : Plain env hostResource := by unfold Plain; cases env.ver <;> decide +kernel

theorem propsMatch_plain {env : Env} {it : Item} : ∀ {props : List (Str × Option Val)},
    (∀ kv ∈ props, Plain env kv.1) →
    ∃ b, propsMatch env it props = .ok b ∧ (b = true ↔ ∀ kv ∈ props, it.getRaw kv.1 none = kv.2)
  | [], _ => ⟨true, rfl, by simp⟩
  | (n, v) :: r, h => by
    obtain ⟨b, h1, h2⟩ := propsMatch_plain (it := it) (props := r) (fun kv hkv => h kv (by simp [hkv]))
    unfold propsMatch
    rw [getValue_plain (h (n, v) (by simp))]
    simp only
    by_cases hv : it.getRaw n none = v
    · refine ⟨b, by rw [if_neg (by simpa using hv)]; exact h1, ?_⟩
      rw [h2]; simp [hv]
    · refine ⟨false, by rw [if_pos hv], ?_⟩
      simp [hv]

/-- the type filter of a search -/
def TypeIs (it : Item) : Option Str → Prop
  | none => True
  | some rt => rt = [] ∨ ∃ code, resourceCode rt = .ok code ∧ OfType it code

theorem findAll_mem {env : Env} {hw : Hw} {rt : Option Str} {props : List (Str × Option Val)} {P : List Prof}
    {ids : List Str} (hp : ∀ kv ∈ props, Plain env kv.1) (h : findAllItems env hw rt props P = .ok ids) (id : Str) :
    id ∈ ids ↔ ∃ it, dget? hw id = some it ∧ TypeIs it rt ∧ (∀ q ∈ P, it.hasProfile env q = true) ∧
        ∀ kv ∈ props, it.getRaw kv.1 none = kv.2 := by
  unfold findAllItems at h
  rw [(filterE_mem h).1 id, mem_naturalSort]
  have hm : ∀ it : Item, (∀ x, typeMatch it rt ≠ .error x) → (itemMatch env it rt props P = .ok true ↔
      TypeIs it rt ∧ (∀ q ∈ P, it.hasProfile env q = true) ∧ ∀ kv ∈ props, it.getRaw kv.1 none = kv.2) := by
    intro it hne
    obtain ⟨b, hb, hb2⟩ := propsMatch_plain (it := it) hp
    have hty : typeMatch it rt = .ok true ↔ TypeIs it rt := by
      unfold typeMatch TypeIs OfType
      cases rt with
      | none => simp
      | some s =>
        simp only
        by_cases hs : s = []
        · simp [hs]
        · rw [if_neg hs]
          cases hr : resourceCode s with
          | error e => simp [hs]
          | ok code =>
            simp only [Except.ok.injEq, decide_eq_true_eq, hs, false_or, exists_eq_left', getRaw_none_eq]
    unfold itemMatch
    cases ht : typeMatch it rt with
    | error x => exact absurd ht (hne x)
    | ok b' =>
      rw [ht] at hty
      cases b' with
      | false =>
        simp only [Except.ok.injEq, Bool.false_eq_true, false_iff] at hty ⊢
        rintro ⟨h1, -⟩; exact hty h1
      | true =>
        simp only [true_iff] at hty
        simp only [hty, true_and]
        by_cases hP : P.any (fun p => !it.hasProfile env p) = true
        · rw [if_pos hP]
          simp only [Except.ok.injEq, Bool.false_eq_true, false_iff]
          rintro ⟨h1, -⟩
          obtain ⟨q, hq, hq2⟩ := List.any_eq_true.1 hP
          rw [h1 q hq] at hq2; simp at hq2
        · rw [if_neg hP, hb]
          simp only [Except.ok.injEq, hb2]
          constructor
          · intro hx
            refine ⟨?_, hx⟩
            intro q hq
            by_contra hc
            exact hP (List.any_eq_true.2 ⟨q, hq, by simpa using hc⟩)
          · exact fun hx => hx.2
  constructor
  · rintro ⟨hin, h'⟩
    obtain ⟨it, hit⟩ := dget?_of_mem_dkeys hin
    rw [hit] at h'
    refine ⟨it, hit, (hm it ?_).1 h'⟩
    intro x hx
    simp only [itemMatch, hx] at h'
    cases h'
  · rintro ⟨it, hit, h'⟩
    have hin := mem_dkeys_of_dget? hit
    refine ⟨hin, ?_⟩
    rw [hit]
    refine (hm it ?_).2 h'
    intro x hx
    have := h'.1
    unfold TypeIs at this
    unfold typeMatch at hx
    cases rt with
    | none => cases hx
    | some s =>
      simp only at hx this
      rcases this with rfl | ⟨code, hc, -⟩
      · simp at hx
      · rw [hc] at hx
        split at hx <;> cases hx

/-- what `find_item` looks for -/
def Sought (env : Env) (rt : Option Str) (props : List (Str × Option Val)) (it : Item) : Prop :=
  TypeIs it rt ∧ InDefault env it ∧ ∀ kv ∈ props, it.getRaw kv.1 none = kv.2

theorem findItem_some {env : Env} {hw : Hw} {rt : Option Str} {props : List (Str × Option Val)} {k : Str}
    (hp : ∀ kv ∈ props, Plain env kv.1) (h : findItem env hw rt props none = .ok (some k)) :
    (∃ it, dget? hw k = some it ∧ Sought env rt props it) ∧
      ∀ k' it', dget? hw k' = some it' → Sought env rt props it' → k' = k := by
  unfold findItem at h
  cases hf : findAllItems env hw rt props [none] with
  | error e => rw [hf] at h; cases h
  | ok ids =>
    have hm := findAll_mem hp hf
    rw [hf] at h
    match ids, hm, h with
    | [a], hm, h =>
      cases h
      constructor
      · obtain ⟨it, h1, h2, h3, h4⟩ := (hm k).1 (by simp)
        exact ⟨it, h1, h2, h3 none (by simp), h4⟩
      · intro k' it' h1 ⟨h2, h3, h4⟩
        have := (hm k').2 ⟨it', h1, h2, by intro q hq; simp only [List.mem_singleton] at hq; subst hq; exact h3, h4⟩
        simpa using this

theorem findItem_none {env : Env} {hw : Hw} {rt : Option Str} {props : List (Str × Option Val)}
    (hp : ∀ kv ∈ props, Plain env kv.1) (h : findItem env hw rt props none = .ok none) :
    ∀ k it, dget? hw k = some it → ¬ Sought env rt props it := by
  unfold findItem at h
  cases hf : findAllItems env hw rt props [none] with
  | error e => rw [hf] at h; cases h
  | ok ids =>
    have hm := findAll_mem hp hf
    rw [hf] at h
    match ids, hm, h with
    | [_], hm, h => cases h
    | _ :: _ :: _, hm, h => cases h
    | [], hm, h =>
      rintro k it h1 ⟨h2, h3, h4⟩
      have := (hm k).2 ⟨it, h1, h2, by intro q hq; simp only [List.mem_singleton] at hq; subst hq; exact h3, h4⟩
      simp at this

theorem findAll_total {env : Env} {hw : Hw} {rt : Option Str} {props : List (Str × Option Val)} {P : List Prof}
    (hrt : ∀ s, rt = some s → ∃ code, resourceCode s = .ok code) (hp : ∀ kv ∈ props, Plain env kv.1) :
    ∃ ids, findAllItems env hw rt props P = .ok ids := by
  unfold findAllItems
  refine filterE_ok ?_
  intro id hid
  obtain ⟨it, hit⟩ := dget?_of_mem_dkeys (mem_naturalSort.1 hid)
  rw [hit]
  simp only
  have hty : ∃ b, typeMatch it rt = .ok b := by
    unfold typeMatch
    cases rt with
    | none => exact ⟨_, rfl⟩
    | some s =>
      simp only
      by_cases hs : s = []
      · exact ⟨true, by rw [if_pos hs]⟩
      · obtain ⟨code, hc⟩ := hrt s rfl
        rw [if_neg hs, hc]
        exact ⟨_, rfl⟩
  obtain ⟨b, hb⟩ := hty
  obtain ⟨b', hb', -⟩ := propsMatch_plain (it := it) hp
  unfold itemMatch
  rw [hb]
  cases b with
  | false => exact ⟨_, rfl⟩
  | true =>
    simp only
    split
    · exact ⟨_, rfl⟩
    · exact ⟨_, hb'⟩

theorem nodup_singleton {l : List Str} (hnd : l.Nodup) {k : Str} (h : ∀ x, x ∈ l ↔ x = k) : l = [k] := by
  match l, hnd, h with
  | [], _, h => exact absurd ((h k).2 rfl) (by simp)
  | [a], _, h => rw [(h a).1 (by simp)]
  | a :: b :: t, hnd, h =>
    have h1 := (h a).1 (by simp)
    have h2 := (h b).1 (by simp)
    subst h1; subst h2
    simp at hnd

theorem findItem_complete {env : Env} {hw : Hw} {rt : Option Str} {props : List (Str × Option Val)} {k : Str} {it : Item}
    (hk : (dkeys hw).Nodup) (hrt : ∀ s, rt = some s → ∃ code, resourceCode s = .ok code)
    (hp : ∀ kv ∈ props, Plain env kv.1) (h1 : dget? hw k = some it) (h2 : Sought env rt props it)
    (h3 : ∀ k' it', dget? hw k' = some it' → Sought env rt props it' → k' = k) :
    findItem env hw rt props none = .ok (some k) := by
  obtain ⟨ids, hids⟩ := findAll_total (env := env) (hw := hw) (P := [none]) hrt hp
  have hm := findAll_mem hp hids
  have hnd : ids.Nodup := by
    unfold findAllItems at hids
    exact (filterE_mem hids).2.nodup ((naturalSort_perm (dkeys hw)).nodup_iff.2 hk)
  have : ids = [k] := by
    refine nodup_singleton hnd ?_
    intro x
    rw [hm x]
    constructor
    · rintro ⟨it', g1, g2, g3, g4⟩
      exact h3 x it' g1 ⟨g2, g3 none (by simp), g4⟩
    · rintro rfl
      exact ⟨it, h1, h2.1, by intro q hq; simp only [List.mem_singleton] at hq; subst hq; exact h2.2.1, h2.2.2⟩
  unfold findItem
  rw [hids, this]

theorem findItem_absent {env : Env} {hw : Hw} {rt : Option Str} {props : List (Str × Option Val)}
    (hrt : ∀ s, rt = some s → ∃ code, resourceCode s = .ok code)
    (hp : ∀ kv ∈ props, Plain env kv.1)
    (h3 : ∀ k' it', dget? hw k' = some it' → ¬ Sought env rt props it') :
    findItem env hw rt props none = .ok none := by
  obtain ⟨ids, hids⟩ := findAll_total (env := env) (hw := hw) (P := [none]) hrt hp
  have hm := findAll_mem hp hids
  have : ids = [] := by
    refine List.eq_nil_iff_forall_not_mem.2 ?_
    intro x hx
    obtain ⟨it', g1, g2, g3, g4⟩ := (hm x).1 hx
    exact h3 x it' g1 ⟨g2, g3 none (by simp), g4⟩
  unfold findItem
  rw [hids, this]

theorem sought_mapped {env : Env} {it : Item} {s : Str} :
    Sought env none [(hostResource, some (.str s))] it ↔ InDefault env it ∧ Mapped it s := by
  unfold Sought Mapped TypeIs
  simp [getRaw_none_eq]

theorem itemFromRef_some {env : Env} {hw : Hw} {new old : Str} {id : Option Str} {k : Str}
    (h : itemFromRef env hw new old id = .ok (some k)) :
    ∃ s it, id = some s ∧ dget? hw k = some it ∧ InDefault env it ∧ (Mapped it (new ++ s) ∨ Mapped it (old ++ s)) := by
  unfold itemFromRef at h
  cases id with
  | none => cases h
  | some s =>
    simp only at h
    have hp : ∀ t, ∀ kv ∈ [(hostResource, some (Val.str t))], Plain env kv.1 := by
      intro t kv hkv; simp at hkv; subst hkv; exact plain_hr env
    cases h1 : itemFromResource env hw (new ++ s) with
    | error e => rw [h1] at h; cases h
    | ok o =>
      rw [h1] at h
      cases o with
      | some k1 =>
        cases h
        obtain ⟨⟨it, g1, g2⟩, -⟩ := findItem_some (hp _) h1
        obtain ⟨g3, g4⟩ := sought_mapped.1 g2
        exact ⟨s, it, rfl, g1, g3, Or.inl g4⟩
      | none =>
        obtain ⟨⟨it, g1, g2⟩, -⟩ := findItem_some (hp _) h
        obtain ⟨g3, g4⟩ := sought_mapped.1 g2
        exact ⟨s, it, rfl, g1, g3, Or.inr g4⟩

theorem itemFromRef_none {env : Env} {hw : Hw} {new old : Str} {id : Option Str}
    (h : itemFromRef env hw new old id = .ok none) :
    ∃ s, id = some s ∧ ∀ k it, dget? hw k = some it → InDefault env it →
      ¬ (Mapped it (new ++ s) ∨ Mapped it (old ++ s)) := by
  unfold itemFromRef at h
  cases id with
  | none => cases h
  | some s =>
    simp only at h
    have hp : ∀ t, ∀ kv ∈ [(hostResource, some (Val.str t))], Plain env kv.1 := by
      intro t kv hkv; simp at hkv; subst hkv; exact plain_hr env
    cases h1 : itemFromResource env hw (new ++ s) with
    | error e => rw [h1] at h; cases h
    | ok o =>
      rw [h1] at h
      cases o with
      | some k1 => cases h
      | none =>
        refine ⟨s, rfl, ?_⟩
        intro k it hk hd
        rintro (hm | hm)
        · exact findItem_none (hp _) h1 k it hk (sought_mapped.2 ⟨hd, hm⟩)
        · exact findItem_none (hp _) h k it hk (sought_mapped.2 ⟨hd, hm⟩)

/-- the parent of a device -/
theorem findParent_some {env : Env} {hw : Hw} {o : Option Str} {c : Str} (wf : HwWF env hw)
    (h : findParent env hw o = .ok (some c)) :
    ∃ k it ci, o = some k ∧ dget? hw k = some it ∧ dget? hw c = some ci ∧ InDefault env ci ∧ ChildOf it c := by
  unfold findParent at h
  cases o with
  | none => cases h
  | some k =>
    unfold valueAt at h
    simp only at h
    cases hk : dget? hw k with
    | none => rw [hk] at h; cases h
    | some it =>
      rw [hk] at h
      simp only [getValue_plain (plain_parent env)] at h
      cases hv : it.getRaw parentName none with
      | none => rw [hv] at h; cases h
      | some v =>
        rw [hv] at h
        obtain ⟨⟨ci, g1, g2⟩, -⟩ := findItem_some (by
          intro kv hkv; simp at hkv; subst hkv; exact plain_iid env) h
        obtain ⟨-, g3, g4⟩ := g2
        have g5 := g4 (instanceId env.ver, some v) (by simp)
        obtain ⟨S, hS⟩ := getRaw_none_eq.1 g5
        have := wf.ident c ci (dget?_mem g1) v S (by simp only at hS; rw [hS]; simp)
        subst this
        exact ⟨k, it, ci, rfl, hk, g1, g3, getRaw_none_eq.1 hv⟩

theorem plain_hr1 {env : Env} (t : Str) : ∀ kv ∈ [(hostResource, some (Val.str t))], Plain env kv.1 := by
  intro kv hkv; simp at hkv; subst hkv; exact plain_hr env

theorem itemFromRef_absent {env : Env} {hw : Hw} {new old s : Str}
    (h : ∀ k it, dget? hw k = some it → InDefault env it → ¬ (Mapped it (new ++ s) ∨ Mapped it (old ++ s))) :
    itemFromRef env hw new old (some s) = .ok none := by
  unfold itemFromRef itemFromResource
  simp only
  rw [findItem_absent (by simp) (plain_hr1 _) (fun k it hk hs => by
    obtain ⟨g1, g2⟩ := sought_mapped.1 hs
    exact h k it hk g1 (Or.inl g2))]
  simp only
  exact findItem_absent (by simp) (plain_hr1 _) (fun k it hk hs => by
    obtain ⟨g1, g2⟩ := sought_mapped.1 hs
    exact h k it hk g1 (Or.inr g2))

theorem itemFromRef_complete {env : Env} {hw : Hw} {new old s k : Str} {it : Item} (hk : (dkeys hw).Nodup)
    (h1 : dget? hw k = some it) (hd : InDefault env it) (h2 : Mapped it (new ++ s) ∨ Mapped it (old ++ s))
    (h : ∀ k' it', dget? hw k' = some it' → InDefault env it' → Mapped it' (new ++ s) ∨ Mapped it' (old ++ s) → k' = k) :
    itemFromRef env hw new old (some s) = .ok (some k) := by
  unfold itemFromRef itemFromResource
  simp only
  by_cases hn : Mapped it (new ++ s)
  · rw [findItem_complete hk (by simp) (plain_hr1 _) h1 (sought_mapped.2 ⟨hd, hn⟩) (fun k' it' hk' hs => by
      obtain ⟨g1, g2⟩ := sought_mapped.1 hs
      exact h k' it' hk' g1 (Or.inl g2))]
  · have h2' := h2.resolve_left hn
    rw [findItem_absent (by simp) (plain_hr1 _) (fun k' it' hk' hs => by
      obtain ⟨g1, g2⟩ := sought_mapped.1 hs
      have := h k' it' hk' g1 (Or.inl g2)
      subst this
      rw [h1] at hk'; cases hk'
      exact hn g2)]
    simp only
    exact findItem_complete hk (by simp) (plain_hr1 _) h1 (sought_mapped.2 ⟨hd, h2'⟩) (fun k' it' hk' hs => by
      obtain ⟨g1, g2⟩ := sought_mapped.1 hs
      exact h k' it' hk' g1 (Or.inr g2))

/-- an item of the default configuration has its InstanceID -/
theorem default_id {env : Env} {hw : Hw} {c : Str} {ci : Item} (wf : HwWF env hw)
    (h3 : dget? hw c = some ci) (h4 : InDefault env ci) : ∃ S, ci.tab (instanceId env.ver) = [(.str c, S)] := by
  obtain ⟨wc, S, hS⟩ := wf.get h3
  unfold tagTab at hS
  by_cases hSe : S = ∅
  · rw [if_pos hSe] at hS
    exfalso
    unfold InDefault Item.hasProfile Item.allProfiles at h4
    unfold Item.tab at hS
    cases hd : dget? ci.props (instanceId env.ver) with
    | none => rw [hd] at h4; simp at h4
    | some t => rw [hd] at hS h4; simp only [Option.getD_some] at hS; subst hS; simp at h4
  · rw [if_neg hSe] at hS; exact ⟨S, hS⟩

theorem findParent_complete {env : Env} {hw : Hw} {k c : Str} {it ci : Item} (wf : HwWF env hw)
    (h1 : dget? hw k = some it) (h2 : ChildOf it c) (h3 : dget? hw c = some ci) (h4 : InDefault env ci) :
    findParent env hw (some k) = .ok (some c) := by
  have hid := default_id wf h3 h4
  unfold findParent valueAt
  simp only [h1, getValue_plain (plain_parent env)]
  rw [getRaw_none_eq.2 h2]
  refine findItem_complete wf.keys (by simp) (by
    intro kv hkv; simp at hkv; subst hkv; exact plain_iid env) h3 ⟨trivial, h4, ?_⟩ ?_
  · intro kv hkv
    simp only [List.mem_singleton] at hkv; subst hkv
    exact getRaw_none_eq.2 hid
  · intro k' it' hk' hg
    obtain ⟨-, -, g⟩ := hg
    obtain ⟨S, hS⟩ := getRaw_none_eq.1 (g _ (List.mem_singleton.2 rfl))
    have := wf.ident k' it' (dget?_mem hk') (.str c) S (by simp only at hS; rw [hS]; simp)
    cases this; rfl

end Cot
