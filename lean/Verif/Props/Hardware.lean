import Verif.Lemmas.HwOps
/-
Properties C10, C11, C13 and C14 of the hardware collection.  `HwWF`, `OfType` and `countOf` are the
specification vocabulary of Verif/Spec/Hardware.lean.
-/
namespace Cot

/-! ### Concrete collections for the examples -/

/-- an Ethernet adapter existing under the given profiles -/
def exNic (id : String) (S : PSet) : Item :=
  { props := [("InstanceID".toList, [(.str id.toList, S)]),
              ("ResourceType".toList, [(.str "10".toList, S)]),
              ("ResourceSubType".toList, [(.tup ["E1000".toList], S)])],
    ns := rasd, modified := false }

/-- a CPU and two NICs -/
def exHw : Hw :=
  [("1".toList, exItem), ("11".toList, exNic "11" {none}), ("12".toList, exNic "12" {none})]

theorem exNic_wf (id : String) (S : PSet) (hid : id.toList ≠ []) (hS : S ≠ ∅)
    (hd : none ∈ S → S = {none}) : ItemWF exEnv (exNic id S) := by
  have hv : (Val.str id.toList).truthy = true := by
    simp only [Val.truthy]; cases h : id.toList with
    | nil => exact absurd h hid
    | cons c t => rfl
  have one : ∀ v : Val, v.truthy = true → TabWF [(v, S)] := by
    intro v hv
    refine ⟨by simp [dkeys], ?_, ?_, ?_, ?_⟩
    · intro w T h; simp at h; rw [h.1]; exact hv
    · intro w T h; simp at h; rw [h.2]; exact hS
    · intro p a b ha hb; rw [explicit_singleton] at ha hb; rw [ha.1, hb.1]
    · intro w T h; simp at h; rw [h.2]; exact hd
  refine ⟨by simp [exNic, dkeys], ?_, ?_, ?_, ?_⟩
  · intro n t h
    simp only [exNic, List.mem_cons, Prod.mk.injEq, List.not_mem_nil, or_false] at h
    rcases h with ⟨_, rfl⟩ | ⟨_, rfl⟩ | ⟨_, rfl⟩
    · exact one _ hv
    · exact one _ rfl
    · exact one _ rfl
  · show ([(Val.str id.toList, S)] : Tab).length ≤ 1
    simp
  · show ([(Val.str "10".toList, S)] : Tab).length ≤ 1
    simp
  · intro n v T h
    unfold Item.tab at h
    cases hd : dget? (exNic id S).props n with
    | none => rw [hd] at h; simp at h
    | some t =>
      rw [hd] at h
      have := dget?_mem hd
      simp only [exNic, List.mem_cons, Prod.mk.injEq, List.not_mem_nil, or_false] at this
      rcases this with ⟨rfl, rfl⟩ | ⟨rfl, rfl⟩ | ⟨rfl, rfl⟩ <;>
      · simp at h; obtain ⟨rfl, rfl⟩ := h
        simp only [Val.isTup]
        decide +kernel

theorem exHw_wf : HwWF exEnv exHw := by
  refine ⟨by decide +kernel, ?_, ?_⟩
  · intro id it h
    simp only [exHw, List.mem_cons, Prod.mk.injEq, List.not_mem_nil, or_false] at h
    rcases h with ⟨_, rfl⟩ | ⟨_, rfl⟩ | ⟨_, rfl⟩
    · exact exItem_wf
    · exact exNic_wf _ _ (by decide) (by simp) (fun _ => rfl)
    · exact exNic_wf _ _ (by decide) (by simp) (fun _ => rfl)
  · intro id it h v S hv
    simp only [exHw, List.mem_cons, Prod.mk.injEq, List.not_mem_nil, or_false] at h
    rcases h with ⟨rfl, rfl⟩ | ⟨rfl, rfl⟩ | ⟨rfl, rfl⟩
    · have : exItem.tab (instanceId exEnv.ver) = [(.str "1".toList, {none})] := rfl
      rw [this] at hv; simp at hv; rw [hv.1]; rfl
    · have : (exNic "11" {none}).tab (instanceId exEnv.ver) = [(.str "11".toList, {none})] := rfl
      rw [this] at hv; simp at hv; rw [hv.1]; rfl
    · have : (exNic "12" {none}).tab (instanceId exEnv.ver) = [(.str "12".toList, {none})] := rfl
      rw [this] at hv; simp at hv; rw [hv.1]; rfl

/-! ### C10 -/

/-- **C10.** `find_unused_instance_id(start)` terminates for every collection and start value, and
returns the least number `≥ start` that is not an identifier already in use. -/
theorem C10_unused_instance_id (hw : Hw) (start : Int) :
    ∃ z, start ≤ z ∧ findUnusedId hw start = some (intStr z) ∧ intStr z ∉ dkeys hw ∧
      ∀ y, start ≤ y → y < z → intStr y ∈ dkeys hw :=
  findUnusedId_spec hw start

/-- non-vacuity: 11 and 12 are taken, so a search from 11 finds 13; a search from 2 finds 2 -/
example : findUnusedId exHw 11 = some "13".toList ∧ findUnusedId exHw 2 = some "2".toList ∧
    findUnusedId exHw 1 = some "2".toList := by decide +kernel

/-! ### C11 -/

/-- **C11 (new item).** A successful `new_item(type, P)` files one item under an identifier that was
not in use and leaves every other item as it was; the new item exists exactly in the profiles of `P`
(the default profile if `P` is empty), with that identifier as its InstanceID and the requested type. -/
theorem C11_new_item {env : Env} {hw hw' : Hw} {rt id : Str} {P : List Prof} (wf : HwWF env hw)
    (h : newItem env hw rt P = .ok (id, hw')) :
    id ∉ dkeys hw ∧ dkeys hw' = dkeys hw ++ [id] ∧
    (∀ k, k ≠ id → dget? hw' k = dget? hw k) ∧ HwWF env hw' ∧
    ∃ code it, resourceCode rt = .ok code ∧ dget? hw' id = some it ∧ OfType it code ∧
      it.modified = true ∧
      (∀ p, (p ∈ P ∨ (P = [] ∧ p = none)) →
        it.getValue env (instanceId env.ver) (some {p}) = .ok (some (.str id)) ∧
        it.getValue env resourceType (some {p}) = .ok (some (.str code)) ∧
        ((none ∈ P → p = none ∨ p ∈ env.cfgSet) → it.hasProfile env p = true)) ∧
      (∀ p, p ∉ P → P ≠ [] → none ∉ P → it.hasProfile env p = false) := by
  obtain ⟨z, code, it, -, rfl, hf, hc, rfl, w, t1, t2, -, hm⟩ := newItem_spec h
  have hset : ∀ p, (p ∈ P ∨ (P = [] ∧ p = none)) → p ∈ (if P.toFinset = ∅ then ({none} : PSet) else P.toFinset) := by
    intro p hp
    rcases hp with hp | ⟨rfl, rfl⟩
    · have : P.toFinset ≠ ∅ := by
        intro h; have : p ∈ P.toFinset := List.mem_toFinset.2 hp
        rw [h] at this; simp at this
      rw [if_neg this]; exact List.mem_toFinset.2 hp
    · simp
  have hread : ∀ (S : PSet) (v : Val) p, p ∈ S → Reads [(v, collapse S)] p v := by
    intro S v p hp
    by_cases hn : none ∈ S
    · by_cases hp0 : p = none
      · left; rw [explicit_singleton, mem_collapse]; exact ⟨rfl, hp, fun _ => hp0⟩
      · right
        refine ⟨fun w => ?_, ?_⟩
        · rw [explicit_singleton, mem_collapse]; rintro ⟨_, _, h⟩; exact hp0 (h hn)
        · rw [explicit_singleton, mem_collapse]; exact ⟨rfl, hn, fun _ => rfl⟩
    · left; rw [explicit_singleton, mem_collapse]; exact ⟨rfl, hp, fun h => absurd h hn⟩
  refine ⟨hf, ?_, ?_, wf.append hf w t1, code, it, hc, ?_, ⟨_, t2⟩, hm, ?_, ?_⟩
  · rw [dset_append hf]; simp [dkeys]
  · intro k hk; rw [dget?_dset, if_neg (Ne.symm hk)]
  · rw [dget?_dset, if_pos rfl]
  · intro p hp
    have hp' := hset p hp
    refine ⟨?_, ?_, ?_⟩
    · rw [getValue_plain (plain_iid env), (getRaw_single w _ _ _).2]; rw [t1]; exact hread _ _ _ hp'
    · rw [getValue_plain (plain_rt env), (getRaw_single w _ _ _).2]; rw [t2]; exact hread _ _ _ hp'
    · intro hcfg
      rw [hasProfile_iff, t1]
      simp only [explicit_singleton, mem_collapse]
      by_cases hn : none ∈ (if P.toFinset = ∅ then ({none} : PSet) else P.toFinset)
      · by_cases hpn : p = none
        · left; exact ⟨_, rfl, hp', fun _ => hpn⟩
        · right
          refine ⟨⟨_, rfl, hn, fun _ => by trivial⟩, ?_⟩
          rcases hp with hp | ⟨_, hp⟩
          · have hP : P.toFinset ≠ ∅ := by
              intro h; have : p ∈ P.toFinset := List.mem_toFinset.2 hp
              rw [h] at this; simp at this
            rw [if_neg hP, List.mem_toFinset] at hn
            exact (hcfg hn).resolve_left hpn
          · exact absurd hp hpn
      · left; exact ⟨_, rfl, hp', fun h => absurd h hn⟩
  · intro p hp hP hn
    rw [Bool.eq_false_iff]
    intro hh
    rw [hasProfile_iff, t1] at hh
    have hPf : P.toFinset ≠ ∅ := by simpa using hP
    simp only [explicit_singleton, mem_collapse, if_neg hPf, List.mem_toFinset] at hh
    rcases hh with ⟨_, _, h, _⟩ | ⟨⟨_, _, h, _⟩, _⟩
    · exact hp h
    · exact hn h

/-- non-vacuity: a new NIC for profile x gets identifier 2 -/
example : ∃ hw', newItem exEnv exHw "ethernet".toList [pX] = .ok ("2".toList, hw') ∧ HwWF exEnv exHw :=
  ⟨_, rfl, exHw_wf⟩

/-- **C11 (clone).** A successful `clone_item(parent, P)` files one item under an identifier that was
not in use and is not smaller than the parent's InstanceID, and leaves every other item, the parent
included, as it was.  The clone has that identifier as its InstanceID in every profile of `P`; in
every configured profile of `P` it reads every other ordinary property as the parent does; and it does
not exist in the configured profiles outside `P`. -/
theorem C11_clone_item {env : Env} {hw hw' : Hw} {parent id : Str} {P : List Prof} (wf : HwWF env hw)
    (hP : P ≠ []) (h : cloneItem env hw parent P = .ok (id, hw')) :
    id ∉ dkeys hw ∧ dkeys hw' = dkeys hw ++ [id] ∧
    (∀ k, k ≠ id → dget? hw' k = dget? hw k) ∧ HwWF env hw' ∧
    (∃ y z, pyInt parent = some y ∧ id = intStr z ∧ y ≤ z) ∧
    ∃ pit it, dget? hw parent = some pit ∧ dget? hw' id = some it ∧ it.modified = true ∧
      (∀ p ∈ P, it.getValue env (instanceId env.ver) (some {p}) = .ok (some (.str id))) ∧
      (∀ Q : PSet, Q ≠ ∅ → (∀ q ∈ Q, q ∈ P ∧ ∃ c ∈ env.configProfiles, q = some c) →
        ∀ n, Plain env n → n ≠ instanceId env.ver →
          it.getValue env n (some Q) = pit.getValue env n (some Q)) ∧
      (∀ c ∈ env.configProfiles, some c ∉ P → none ∉ P → it.hasProfile env (some c) = false) := by
  obtain ⟨pit, s, z, y, it1, it, hp, hs, hy, hyz, rfl, hf, h1, h2, rfl⟩ := cloneItem_spec h
  obtain ⟨wp, S, hS⟩ := wf.get hp
  have hsp : s = parent := by
    unfold Item.getRaw at hs
    simp only [hS] at hs
    unfold tagTab at hs
    by_cases hSe : S = ∅
    · rw [if_pos hSe] at hs; cases hs
    · rw [if_neg hSe] at hs; cases hs; rfl
  subst hsp
  have hPf : P.toFinset ≠ ∅ := by simpa using hP
  obtain ⟨it1', e1, w1, k1, k2, k3, k4⟩ := cloneStrip_spec (P := P) env.configProfiles (fun _ h => h) wp
  rw [h1] at e1; cases e1
  obtain ⟨S1, hS1⟩ := k1 _ _ hS
  have hne : intStr z ≠ s := by
    rintro h; rw [h] at hf; exact hf (mem_dkeys_of_dget? hp)
  obtain ⟨w, hsub, ht, hoth⟩ := newId_raw w1 hS1 hPf hne (intStr_ne_nil z) h2
  refine ⟨hf, ?_, ?_, wf.append hf (w.flag true) ht, ⟨y, z, hy, rfl, hyz⟩, pit, _, hp,
    by rw [dget?_dset, if_pos rfl], rfl, ?_, ?_, ?_⟩
  · rw [dset_append hf]; simp [dkeys]
  · intro k hk; rw [dget?_dset, if_neg (Ne.symm hk)]
  · intro p hp'
    rw [getValue_plain (plain_iid env), (getRaw_single (w.flag true) _ _ _).2]
    show Reads (it.tab _) _ _
    rw [ht]
    have hpP : p ∈ P.toFinset := List.mem_toFinset.2 hp'
    unfold Reads
    simp only [explicit_singleton, mem_collapse]
    by_cases hn : none ∈ P.toFinset
    · by_cases hpn : p = none
      · left; exact ⟨trivial, hpP, fun _ => hpn⟩
      · right; exact ⟨fun w hw => hpn (hw.2.2 hn), trivial, hn, fun _ => trivial⟩
    · left; exact ⟨trivial, hpP, fun h => absurd h hn⟩
  · intro Q hQ hQP n hpl hn
    refine getValue_congr (w.flag true) wp hpl hQ ?_
    intro q hq v
    show Reads (it.tab _) _ _ ↔ _
    obtain ⟨hqP, c, hc, rfl⟩ := hQP q hq
    rw [hoth n hn, k2 c hc hqP]
  · intro c hc hcP hnP
    rw [Bool.eq_false_iff]
    intro hh
    rw [hasProfile_iff] at hh
    have ht' : ({ it with modified := true } : Item).tab (instanceId env.ver) =
        [(.str (intStr z), collapse P.toFinset)] := ht
    rw [ht'] at hh
    simp only [explicit_singleton, mem_collapse, List.mem_toFinset] at hh
    rcases hh with ⟨_, _, h, _⟩ | ⟨⟨_, _, h, _⟩, _⟩
    · exact hcP h
    · exact hnP h

/-- non-vacuity: cloning NIC 11 into profile x only gives NIC 13, with the parent's type -/
example : ∃ hw', cloneItem exEnv exHw "11".toList [pX] = .ok ("13".toList, hw') ∧ HwWF exEnv exHw ∧
    ∃ it, dget? hw' "13".toList = some it ∧
      it.getValue exEnv resourceSubType (some {pX}) = .ok (some (.tup ["E1000".toList])) :=
  ⟨_, rfl, exHw_wf, _, rfl, rfl⟩

/-- What C11 excludes for the default profile, 1: an item of the default profile cannot be cloned into
all configured profiles by name (the clone would keep the parent's InstanceID for the default). -/
theorem C11_clone_into_all_named_fails :
    cloneItem exEnv exHw "11".toList [pX, pY] = .error .runtimeError := rfl

/-- What C11 excludes for the default profile, 2: a clone into the default profile alone loses every
property except its InstanceID, because the named profiles are stripped first. -/
theorem C11_clone_into_default_fails :
    ∃ hw' it, cloneItem exEnv exHw "11".toList [none] = .ok ("13".toList, hw') ∧
      dget? hw' "13".toList = some it ∧
      it.getValue exEnv resourceType (some {none}) = .ok none ∧
      (exNic "11" {none}).getValue exEnv resourceType (some {none}) = .ok (some (.str "10".toList)) :=
  ⟨_, _, rfl, rfl, rfl, rfl⟩

/-! ### C13 -/

/-- **C13.** A successful `set_value_for_all_items(type, name, val, P, create_new)` for an ordinary
property: every existing item of the type reads the new value in every profile of `P`, reads as before
in profiles outside `P` (when `P` does not touch the default), and keeps all its other properties;
items of other types and the set of identifiers are unchanged.  If there is no item of the type,
nothing happens, unless `create_new` asks for one to be created: then exactly one item of the type is
added, and it reads the new value. -/
theorem C13_set_value_for_all {env : Env} {hw hw' : Hw} {rt name code : Str} {val : InVal} {v : Val}
    {P : List Prof} {createNew : Bool} (wf : HwWF env hw) (hc : resourceCode rt = .ok code)
    (hd : Denotes name val v) (hv : v.truthy = true) (hpl : Plain env name)
    (hid : name ≠ instanceId env.ver) (hP : P ≠ [])
    (h : setValueForAll env hw rt name val P createNew = .ok hw') :
    HwWF env hw' ∧
    (∀ id it, dget? hw id = some it → ¬ OfType it code → dget? hw' id = some it) ∧
    (∀ id it, dget? hw id = some it → OfType it code → ∃ it', dget? hw' id = some it' ∧
      (∀ p ∈ P, it'.getValue env name (some {p}) = .ok (some v)) ∧
      (none ∉ P → ∀ q, q ∉ P → ∀ n, it'.getValue env n (some {q}) = it.getValue env n (some {q})) ∧
      (∀ n, n ≠ name → it'.tab n = it.tab n)) ∧
    ((∃ id it, dget? hw id = some it ∧ OfType it code) → dkeys hw' = dkeys hw) ∧
    ((¬ ∃ id it, dget? hw id = some it ∧ OfType it code) → createNew = false → hw' = hw) ∧
    ((¬ ∃ id it, dget? hw id = some it ∧ OfType it code) → createNew = true →
      ∃ id it', dkeys hw' = dkeys hw ++ [id] ∧ dget? hw' id = some it' ∧
        (∀ p ∈ P, it'.getValue env name (some {p}) = .ok (some v)) ∧
        (name ≠ resourceType → OfType it' code)) := by
  have hPf : P.toFinset ≠ ∅ := by simpa using hP
  unfold setValueForAll at h
  obtain ⟨ids, hids, h⟩ := bind_ok_inv h
  obtain ⟨hnd, -, hspec⟩ := findAllItems_spec wf.keys (resourceCode_ne hc).1 hids
  have hmem : ∀ id, id ∈ ids ↔ ∃ it, dget? hw id = some it ∧ OfType it code := by
    rcases hspec with ⟨rfl, rfl⟩ | ⟨c, hc', hm⟩
    · intro id; simp
    · rw [hc] at hc'; cases hc'; exact hm
  have upd : ∀ (ids : List Str) {hw0 hw1 : Hw}, HwWF env hw0 → ids.Nodup →
      setEach env name val P ids hw0 = .ok hw1 → HwWF env hw1 ∧ dkeys hw1 = dkeys hw0 ∧
      (∀ id, id ∉ ids → dget? hw1 id = dget? hw0 id) ∧
      (∀ id ∈ ids, ∃ it it', dget? hw0 id = some it ∧ dget? hw1 id = some it' ∧
        (∀ p ∈ P, it'.getValue env name (some {p}) = .ok (some v)) ∧
        (none ∉ P → ∀ q, q ∉ P → ∀ n, it'.getValue env n (some {q}) = it.getValue env n (some {q})) ∧
        (∀ n, n ≠ name → it'.tab n = it.tab n)) := by
    intro ids hw0 hw1 wf0 hnd hs
    obtain ⟨e1, e2, e3⟩ := setEach_spec ids hnd hs
    refine ⟨?_, e1, e2, ?_⟩
    · refine wf0.of_edits e1 ?_
      intro id it' hit'
      by_cases hm : id ∈ ids
      · obtain ⟨it, it2, h1, h2, h3⟩ := e3 id hm
        rw [hit'] at h2; cases h2
        obtain ⟨_, _, w', ho, _⟩ := setProperty_spec (wf0.get h1).1 h3
        exact ⟨w', it, h1, ho _ (Ne.symm hid)⟩
      · rw [e2 id hm] at hit'
        exact ⟨(wf0.get hit').1, it', hit', rfl⟩
    · intro id hm
      obtain ⟨it, it2, h1, h2, h3⟩ := e3 id hm
      obtain ⟨c1, c2, _, _, _, c6⟩ := C01_set_property_isolation (wf0.get h1).1 hd hv hpl hPf h3
      refine ⟨it, it2, h1, h2, fun p hp => c1 p (List.mem_toFinset.2 hp), ?_, c6⟩
      intro hn q hq
      exact c2 q (by simpa using hq) (by simpa using hn)
  by_cases hempty : ids = []
  · subst hempty
    rw [if_pos rfl] at h
    have hnone : ¬ ∃ id it, dget? hw id = some it ∧ OfType it code := by
      rintro ⟨id, hx⟩; have := (hmem id).2 hx; simp at this
    cases createNew with
    | false =>
      cases h
      refine ⟨wf, fun _ _ h _ => h, ?_, fun _ => rfl, fun _ _ => rfl, by simp⟩
      intro id it h1 h2; exact absurd ⟨id, it, h1, h2⟩ hnone
    | true =>
      simp only [Bool.true_eq_false, if_false] at h
      obtain ⟨⟨id, hw1⟩, hnew, h⟩ := bind_ok_inv h
      obtain ⟨n1, n2, n3, n4, code', it, n5, n6, n7, -, -⟩ := C11_new_item wf hnew
      rw [hc] at n5; cases n5
      obtain ⟨u1, u2, u3, u4⟩ := upd [id] n4 (by simp) h
      refine ⟨u1, ?_, ?_, fun hx => absurd hx hnone, by simp, ?_⟩
      · intro k itk hk _
        have hkid : k ≠ id := by rintro rfl; exact n1 (mem_dkeys_of_dget? hk)
        rw [u3 k (by simpa using hkid), n3 k hkid, hk]
      · intro k itk h1 h2; exact absurd ⟨k, itk, h1, h2⟩ hnone
      · intro _ _
        obtain ⟨it0, it', g1, g2, g3, -, g4⟩ := u4 id (by simp)
        rw [n6] at g1; cases g1
        refine ⟨id, it', by rw [u2, n2], g2, g3, ?_⟩
        intro hnr
        obtain ⟨S, hS⟩ := n7
        exact ⟨S, by rw [g4 _ (Ne.symm hnr), hS]⟩
  · rw [if_neg hempty] at h
    obtain ⟨u1, u2, u3, u4⟩ := upd ids wf hnd h
    have hsome : ∃ id it, dget? hw id = some it ∧ OfType it code := by
      obtain ⟨a, ha⟩ := List.exists_mem_of_ne_nil _ hempty
      exact ⟨a, (hmem a).1 ha⟩
    refine ⟨u1, ?_, ?_, fun _ => u2, fun hx => absurd hsome hx, fun hx => absurd hsome hx⟩
    · intro id it h1 h2
      rw [u3 id, h1]
      intro hm
      obtain ⟨it2, h3, h4⟩ := (hmem id).1 hm
      rw [h1] at h3; cases h3; exact h2 h4
    · intro id it h1 h2
      obtain ⟨it0, it', g1, g2, g3, g4, g5⟩ := u4 id ((hmem id).2 ⟨it, h1, h2⟩)
      rw [h1] at g1; cases g1
      exact ⟨it', g2, g3, g4, g5⟩

/-- C13, success: on existing items, an ordinary property other than InstanceID and ResourceType can
always be set. -/
theorem C13_set_value_for_all_succeeds {env : Env} {hw : Hw} {rt name code : Str} (val : InVal)
    (P : List Prof) (wf : HwWF env hw) (hc : resourceCode rt = .ok code) (hpl : Plain env name)
    (hid : name ≠ instanceId env.ver) (hrt : name ≠ resourceType) :
    ∃ hw', setValueForAll env hw rt name val P false = .ok hw' := by
  obtain ⟨ids, hids⟩ := findAllItems_ok (env := env) (hw := hw) hc
  obtain ⟨hnd, -, hspec⟩ := findAllItems_spec wf.keys (resourceCode_ne hc).1 hids
  unfold setValueForAll
  rw [hids]
  by_cases he : ids = []
  · subst he; exact ⟨hw, rfl⟩
  · show ∃ hw', (if ids = [] then _ else _) = _
    rw [if_neg he]
    refine setEach_ok hpl hid hrt ids hnd ?_
    intro id hm
    rcases hspec with ⟨rfl, rfl⟩ | ⟨c, hc', hmem⟩
    · simp at hm
    · obtain ⟨it, h1, _⟩ := (hmem id).1 hm
      exact ⟨it, h1, (wf.get h1).1⟩

/-- non-vacuity: changing the type of both NICs for profile x only -/
example : ∃ hw', setValueForAll exEnv exHw "ethernet".toList resourceSubType (.list ["VMXNET3".toList])
      [pX] false = .ok hw' ∧ HwWF exEnv exHw ∧ resourceCode "ethernet".toList = .ok "10".toList ∧
      Denotes resourceSubType (.list ["VMXNET3".toList]) (.tup ["VMXNET3".toList]) ∧
      Plain exEnv resourceSubType ∧ OfType (exNic "11" {none}) "10".toList :=
  ⟨_, rfl, exHw_wf, rfl, Or.inr ⟨rfl, _, rfl, rfl⟩, by constructor <;> decide, _, rfl⟩

/-! ### C14 -/

/-- **C14.** A successful `set_item_values_per_profile(type, name, vs, L, default)` for an ordinary
property: the items of the type, taken in natural order of their identifiers, get the values of `vs`
in turn (the default once `vs` is exhausted) in each profile of `L` in which they exist.  In a profile
outside `L`, an item's own value is unchanged, and every value is when `L` does not contain the default
profile.  Other properties, other items and the set of identifiers are unchanged. -/
theorem C14_set_item_values {env : Env} {hw hw' : Hw} {rt name code : Str} {vs : List InVal} {dflt : InVal}
    {profiles : Option (List Prof)} {L : List Prof} (wf : HwWF env hw) (hc : resourceCode rt = .ok code)
    (hpl : Plain env name) (hid : name ≠ instanceId env.ver)
    (hL : L = match profiles with
      | none => env.configProfiles.map some ++ [none]
      | some l => l)
    (h : setItemValues env hw rt name vs profiles dflt = .ok hw') :
    HwWF env hw' ∧ dkeys hw' = dkeys hw ∧
    (∀ id it, dget? hw id = some it → ¬ OfType it code → dget? hw' id = some it) ∧
    ∃ ids : List Str, ids.Nodup ∧ ids.Pairwise NatLe ∧
      (∀ id, id ∈ ids ↔ ∃ it, dget? hw id = some it ∧ OfType it code) ∧
      ∀ (i : Nat) (hi : i < ids.length), ∃ it it', dget? hw ids[i] = some it ∧ dget? hw' ids[i] = some it' ∧
        (∀ n, n ≠ name → it'.tab n = it.tab n) ∧
        ∀ v, Denotes name (vs[i]?.getD dflt) v → v.truthy = true →
          (∀ p ∈ L, it.hasProfile env p = true → it'.getValue env name (some {p}) = .ok (some v)) ∧
          (∀ q, q ∉ L → (none ∉ L ∨ ∃ w, Explicit (it.tab name) q w) →
            it'.getValue env name (some {q}) = it.getValue env name (some {q})) := by
  unfold setItemValues at h
  have hL' : profiles.getD (env.configProfiles.map some ++ [none]) = L := by
    rw [hL]; cases profiles <;> rfl
  rw [hL'] at h
  obtain ⟨ids, hids, h⟩ := bind_ok_inv h
  obtain ⟨hnd, hsort, hspec⟩ := findAllItems_spec wf.keys (resourceCode_ne hc).1 hids
  have hmem : ∀ id, id ∈ ids ↔ ∃ it, dget? hw id = some it ∧ OfType it code := by
    rcases hspec with ⟨rfl, rfl⟩ | ⟨c, hc', hm⟩
    · intro id; simp
    · rw [hc] at hc'; cases hc'; exact hm
  obtain ⟨e1, e2, e3⟩ := setValuesLoop_spec ids vs hnd h
  refine ⟨?_, e1, ?_, ids, hnd, hsort, hmem, ?_⟩
  · refine wf.of_edits e1 ?_
    intro id it' hit'
    by_cases hm : id ∈ ids
    · obtain ⟨i, hi, rfl⟩ := List.getElem_of_mem hm
      obtain ⟨it, it2, h1, h2, h3⟩ := e3 i hi
      rw [hit'] at h2; cases h2
      obtain ⟨w', ho, -⟩ := setUnder_spec hid hpl L (wf.get h1).1 h3
      exact ⟨w', it, h1, ho _ (Ne.symm hid)⟩
    · rw [e2 id hm] at hit'
      exact ⟨(wf.get hit').1, it', hit', rfl⟩
  · intro id it h1 h2
    rw [e2 id, h1]
    intro hm
    obtain ⟨it2, h3, h4⟩ := (hmem id).1 hm
    rw [h1] at h3; cases h3; exact h2 h4
  · intro i hi
    obtain ⟨it, it', h1, h2, h3⟩ := e3 i hi
    have w := (wf.get h1).1
    obtain ⟨w', ho, hr⟩ := setUnder_spec hid hpl L w h3
    refine ⟨it, it', h1, h2, ho, ?_⟩
    intro v hd hv
    obtain ⟨r1, r2, r3, r4⟩ := hr v hd hv
    refine ⟨?_, ?_⟩
    · intro p hp hh
      rw [getValue_plain hpl, (getRaw_single w' _ _ _).2 (r2 p hp hh)]
    · intro q hq hcase
      refine getValue_congr w' w hpl (by simp) ?_
      intro q' hq' x
      rw [Finset.mem_singleton] at hq'; subst hq'
      rcases hcase with hn | ⟨u, hu⟩
      · exact r4 hn q' hq x
      · have hr' := r3 q' hq u hu
        constructor
        · intro hx
          have : x = u := reads_functional (w'.tab name) hx hr'
          subst this; exact Or.inl hu
        · intro hx
          have : x = u := reads_functional (w.tab name) hx (Or.inl hu)
          subst this; exact hr'

/-- C14, success. -/
theorem C14_set_item_values_succeeds {env : Env} {hw : Hw} {rt name code : Str} (vs : List InVal)
    (dflt : InVal) (profiles : Option (List Prof)) (wf : HwWF env hw) (hc : resourceCode rt = .ok code)
    (hpl : Plain env name) (hid : name ≠ instanceId env.ver) (hrt : name ≠ resourceType) :
    ∃ hw', setItemValues env hw rt name vs profiles dflt = .ok hw' := by
  obtain ⟨ids, hids⟩ := findAllItems_ok (env := env) (hw := hw) hc
  obtain ⟨hnd, -, hspec⟩ := findAllItems_spec wf.keys (resourceCode_ne hc).1 hids
  unfold setItemValues
  rw [hids]
  refine setValuesLoop_ok hpl hid hrt ids vs hnd ?_
  intro id hm
  rcases hspec with ⟨rfl, rfl⟩ | ⟨c, hc', hmem⟩
  · simp at hm
  · obtain ⟨it, h1, _⟩ := (hmem id).1 hm
    exact ⟨it, h1, (wf.get h1).1⟩

/-- non-vacuity: the first NIC of profile x gets the first address, the second the default -/
example : ∃ hw' a b, setItemValues exEnv exHw "ethernet".toList "Address".toList [.str "AA".toList]
      (some [pX]) (.str "BB".toList) = .ok hw' ∧ HwWF exEnv exHw ∧ Plain exEnv "Address".toList ∧
      dget? hw' "11".toList = some a ∧ dget? hw' "12".toList = some b ∧
      a.getValue exEnv "Address".toList (some {pX}) = .ok (some (.str "AA".toList)) ∧
      b.getValue exEnv "Address".toList (some {pX}) = .ok (some (.str "BB".toList)) ∧
      a.getValue exEnv "Address".toList (some {pY}) = .ok none :=
  ⟨_, _, _, rfl, exHw_wf, by constructor <;> decide, rfl, rfl, rfl, rfl, rfl⟩

end Cot
