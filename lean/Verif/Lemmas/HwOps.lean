import Verif.Lemmas.HwItem
import Verif.Props.Item
/-
Lemmas about the edits of a hardware collection: new, clone, set for all, set per item.
-/
namespace Cot

theorem mem_cfgSet {env : Env} {q : Str} : some q ∈ env.cfgSet ↔ q ∈ env.configProfiles := by
  simp [Env.cfgSet]

theorem none_not_cfg (env : Env) : none ∉ env.cfgSet := by simp [Env.cfgSet]

/-- for a configured profile, existing and having a readable InstanceID are the same -/
theorem has_iff_reads {env : Env} {it : Item} {q : Str} (hq : q ∈ env.configProfiles) :
    it.hasProfile env (some q) = true ↔ ∃ v, Reads (it.tab (instanceId env.ver)) (some q) v := by
  rw [hasProfile_iff]
  unfold Reads
  constructor
  · rintro (⟨v, h⟩ | ⟨⟨v, h⟩, _⟩)
    · exact ⟨v, Or.inl h⟩
    · by_cases he : ∃ w, Explicit (it.tab (instanceId env.ver)) (some q) w
      · obtain ⟨w, hw⟩ := he; exact ⟨w, Or.inl hw⟩
      · exact ⟨v, Or.inr ⟨fun w hw => he ⟨w, hw⟩, h⟩⟩
  · rintro ⟨v, h | ⟨_, h⟩⟩
    · exact Or.inl ⟨v, h⟩
    · exact Or.inr ⟨⟨v, h⟩, mem_cfgSet.2 hq⟩

/-- reads after removing the named profile `p` -/
theorem reads_removed {env : Env} {it it' : Item} (wf : ItemWF env it) {p : Str}
    (htab : ∀ n, it'.tab n = removeLoop (some p) env.cfgSet true [] (it.tab n)) :
    (∀ q ∈ env.configProfiles, q ≠ p → ∀ n w, Reads (it'.tab n) (some q) w ↔ Reads (it.tab n) (some q) w) ∧
    (∀ n w, ¬ Reads (it'.tab n) (some p) w) ∧ (∀ n w, ¬ Explicit (it'.tab n) none w) := by
  have he : ∀ n q w, Explicit (it'.tab n) q w ↔ q ≠ some p ∧
      ((Explicit (it.tab n) q w ∧ (q = none → true = false)) ∨
        (true = true ∧ some p ≠ none ∧ q ≠ none ∧ q ∈ env.cfgSet ∧ Explicit (it.tab n) none w ∧
          ∀ u, ¬ Explicit (it.tab n) q u)) := fun n q w => by
    rw [htab n]; exact explicit_removeLoop (wf.tab n) q w
  have hnone : ∀ n w, ¬ Explicit (it'.tab n) none w := by intro n w; rw [he]; simp
  refine ⟨?_, ?_, hnone⟩
  · intro q hq hqp n w
    have hc := mem_cfgSet.2 hq
    unfold Reads
    rw [he]
    constructor
    · rintro (⟨_, ⟨h, _⟩ | ⟨_, _, _, _, h, h'⟩⟩ | ⟨_, h⟩)
      · exact Or.inl h
      · exact Or.inr ⟨h', h⟩
      · exact absurd h (hnone n w)
    · rintro (h | ⟨h', h⟩)
      · exact Or.inl ⟨by simpa using hqp, Or.inl ⟨h, by simp⟩⟩
      · exact Or.inl ⟨by simpa using hqp, Or.inr ⟨rfl, by simp, by simp, hc, h, h'⟩⟩
  · rintro n w (h | ⟨_, h⟩)
    · rw [he] at h; exact h.1 rfl
    · exact hnone n w h

theorem cloneStrip_spec {env : Env} {P : List Prof} : ∀ (L : List Str)
    (_ : ∀ q ∈ L, q ∈ env.configProfiles) {it : Item}, ItemWF env it →
    ∃ it', cloneStrip env P L it = .ok it' ∧ ItemWF env it' ∧
      (∀ v S, it.tab (instanceId env.ver) = tagTab v S → ∃ S', it'.tab (instanceId env.ver) = tagTab v S') ∧
      (∀ q ∈ env.configProfiles, some q ∈ P → ∀ n w, Reads (it'.tab n) (some q) w ↔ Reads (it.tab n) (some q) w) ∧
      (∀ q ∈ env.configProfiles, (∀ n w, Reads (it'.tab n) (some q) w ↔ Reads (it.tab n) (some q) w) ∨
        (∀ n w, ¬ Reads (it'.tab n) (some q) w)) ∧
      (∀ q ∈ L, some q ∉ P → it.hasProfile env (some q) = true → ∀ n w, ¬ Reads (it'.tab n) (some q) w)
  | [], _, it, wf => ⟨it, rfl, wf, fun v S h => ⟨S, h⟩, fun _ _ _ _ _ => Iff.rfl,
      fun _ _ => Or.inl fun _ _ => Iff.rfl, by simp⟩
  | p :: r, hL, it, wf => by
    have hr : ∀ q ∈ r, q ∈ env.configProfiles := fun q hq => hL q (List.mem_cons_of_mem _ hq)
    have hpc := hL p List.mem_cons_self
    by_cases hc : it.hasProfile env (some p) ∧ some p ∉ P
    · obtain ⟨it1, h1, wf1, -, h2⟩ := removeProfile_spec wf (some p) true
      have htab := h2 hc.1
      obtain ⟨r1, r2, r3⟩ := reads_removed wf htab
      obtain ⟨it', k1, k2, k3, k4, k5, k6⟩ := cloneStrip_spec (P := P) r hr wf1
      refine ⟨it', ?_, k2, ?_, ?_, ?_, ?_⟩
      · unfold cloneStrip; rw [if_pos hc, h1]; exact k1
      · intro v S hv
        exact k3 v (remS env (some p) S) (by rw [htab, hv, removeLoop_tagTab])
      · intro q hq hqP n w
        rw [k4 q hq hqP, r1 q hq (by rintro rfl; exact hc.2 hqP)]
      · intro q hq
        by_cases hqp : q = p
        · subst hqp
          right
          rcases k5 q hq with h | h
          · intro n w; rw [h]; exact r2 n w
          · exact h
        · rcases k5 q hq with h | h
          · left; intro n w; rw [h, r1 q hq hqp]
          · right; exact h
      · intro q hq hqP hh
        by_cases hqp : q = p
        · subst hqp
          rcases k5 q hpc with h | h
          · intro n w; rw [h]; exact r2 n w
          · exact h
        · have hq' : q ∈ r := by
            rcases List.mem_cons.1 hq with h | h
            · exact absurd h hqp
            · exact h
          refine k6 q hq' hqP ?_
          rw [has_iff_reads (hr q hq')] at hh ⊢
          obtain ⟨v, hv⟩ := hh
          exact ⟨v, (r1 q (hr q hq') hqp _ _).2 hv⟩
    · obtain ⟨it', k1, k2, k3, k4, k5, k6⟩ := cloneStrip_spec (P := P) r hr wf
      refine ⟨it', ?_, k2, k3, k4, k5, ?_⟩
      · unfold cloneStrip; rw [if_neg hc]; exact k1
      · intro q hq hqP hh
        rcases List.mem_cons.1 hq with rfl | hq'
        · exact absurd ⟨hh, hqP⟩ hc
        · exact k6 q hq' hqP hh

theorem intStr_ne_nil (z : Int) : intStr z ≠ [] := by
  cases z with
  | ofNat n => exact natStr_ne_nil n
  | negSucc n => simp [intStr]

theorem tagTab_of_ident {env : Env} {it : Item} {id : Str} (wf : ItemWF env it)
    (h : ∀ v S, (v, S) ∈ it.tab (instanceId env.ver) → v = .str id) :
    ∃ S, it.tab (instanceId env.ver) = tagTab (.str id) S := by
  have hone := wf.oneId
  match ht : it.tab (instanceId env.ver) with
  | [] => exact ⟨∅, by simp [tagTab]⟩
  | [(v, S)] =>
    have hv := h v S (by rw [ht]; simp)
    have hS := (wf.tab (instanceId env.ver)).nonempty v S (by rw [ht]; simp)
    exact ⟨S, by rw [hv]; simp [tagTab, hS]⟩
  | _ :: _ :: _ => rw [ht] at hone; simp at hone

theorem HwWF.get {env : Env} {hw : Hw} (wf : HwWF env hw) {id : Str} {it : Item}
    (h : dget? hw id = some it) : ItemWF env it ∧ ∃ S, it.tab (instanceId env.ver) = tagTab (.str id) S := by
  have hm := dget?_mem h
  have w := wf.items id it hm
  exact ⟨w, tagTab_of_ident w (wf.ident id it hm)⟩

theorem HwWF.append {env : Env} {hw : Hw} (wf : HwWF env hw) {id : Str} {it : Item} {S : PSet}
    (hf : id ∉ dkeys hw) (w : ItemWF env it) (ht : it.tab (instanceId env.ver) = [(.str id, S)]) :
    HwWF env (dset hw id it) := by
  rw [dset_append hf]
  refine ⟨?_, ?_, ?_⟩
  · rw [dkeys, List.map_append, List.nodup_append]
    refine ⟨wf.keys, by simp, ?_⟩
    intro a ha b hb
    simp at hb; subst hb
    rintro rfl; exact hf ha
  · intro id' it' hm
    rcases List.mem_append.1 hm with h | h
    · exact wf.items _ _ h
    · simp at h; obtain ⟨rfl, rfl⟩ := h; exact w
  · intro id' it' hm v T hv
    rcases List.mem_append.1 hm with h | h
    · exact wf.ident _ _ h v T hv
    · simp at h; obtain ⟨rfl, rfl⟩ := h
      rw [ht] at hv; simp at hv; exact hv.1

theorem mem_dset_cases {κ ν : Type} [DecidableEq κ] {d : List (κ × ν)} {x k : κ} {w v : ν}
    (hnd : (dkeys d).Nodup) (h : (k, v) ∈ dset d x w) : (k = x ∧ v = w) ∨ (k ≠ x ∧ (k, v) ∈ d) := by
  have hn : (dkeys (dset d x w)).Nodup := by
    by_cases hx : x ∈ dkeys d
    · rw [dkeys_dset_mem hx]; exact hnd
    · rw [dset_append hx, dkeys, List.map_append, List.nodup_append]
      refine ⟨hnd, by simp, ?_⟩
      intro a ha b hb
      simp at hb; subst hb
      rintro rfl; exact hx ha
  have := dget?_of_mem hn h
  rw [dget?_dset] at this
  split at this
  · rename_i hk; cases this; exact Or.inl ⟨hk.symm, rfl⟩
  · rename_i hk; exact Or.inr ⟨fun e => hk e.symm, dget?_mem this⟩

theorem HwWF.replace {env : Env} {hw : Hw} (wf : HwWF env hw) {id : Str} {it : Item}
    (hf : id ∈ dkeys hw) (w : ItemWF env it)
    (ht : ∀ v S, (v, S) ∈ it.tab (instanceId env.ver) → v = .str id) :
    HwWF env (dset hw id it) := by
  refine ⟨by rw [dkeys_dset_mem hf]; exact wf.keys, ?_, ?_⟩
  · intro id' it' hm
    rcases mem_dset_cases wf.keys hm with ⟨rfl, rfl⟩ | ⟨_, h⟩
    · exact w
    · exact wf.items _ _ h
  · intro id' it' hm v T hv
    rcases mem_dset_cases wf.keys hm with ⟨rfl, rfl⟩ | ⟨_, h⟩
    · exact ht v T hv
    · exact wf.ident _ _ h v T hv

theorem filterE_ok {α : Type} {f : α → Except Err Bool} {l : List α} (h : ∀ x ∈ l, ∃ b, f x = .ok b) :
    ∃ r, filterE f l = .ok r := by
  induction l with
  | nil => exact ⟨[], rfl⟩
  | cons a l ih =>
    obtain ⟨b, hb⟩ := h a List.mem_cons_self
    obtain ⟨r, hr⟩ := ih (fun x hx => h x (List.mem_cons_of_mem _ hx))
    unfold filterE
    rw [hb, hr]; exact ⟨_, rfl⟩

theorem findAllItems_ok {env : Env} {hw : Hw} {rt code : Str} (hc : resourceCode rt = .ok code) :
    ∃ ids, findAllItems env hw (some rt) [] [] = .ok ids := by
  unfold findAllItems
  refine filterE_ok ?_
  intro id hid
  have hk : id ∈ dkeys hw := (naturalSort_perm (dkeys hw)).mem_iff.1 hid
  obtain ⟨it, hit⟩ := dget?_of_mem_dkeys hk
  rw [hit]
  exact ⟨_, itemMatch_type_ok hc⟩

theorem reads_functional {t : Tab} (wf : TabWF t) {p : Prof} {v w : Val} (h1 : Reads t p v)
    (h2 : Reads t p w) : v = w := by
  rcases h1 with h1 | ⟨a, h1⟩ <;> rcases h2 with h2 | ⟨b, h2⟩
  · exact wf.functional _ _ _ h1 h2
  · exact absurd h1 (b v)
  · exact absurd h2 (a w)
  · exact wf.functional _ _ _ h1 h2

/-! ### new item -/

theorem newItem_spec {env : Env} {hw hw' : Hw} {rt id : Str} {P : List Prof}
    (h : newItem env hw rt P = .ok (id, hw')) :
    ∃ z code it, 1 ≤ z ∧ id = intStr z ∧ id ∉ dkeys hw ∧ resourceCode rt = .ok code ∧
      hw' = dset hw id it ∧ ItemWF env it ∧
      it.tab (instanceId env.ver) = [(.str id, collapse (if P.toFinset = ∅ then {none} else P.toFinset))] ∧
      it.tab resourceType = [(.str code, collapse (if P.toFinset = ∅ then {none} else P.toFinset))] ∧
      (∀ n, n ≠ instanceId env.ver → n ≠ resourceType → n ≠ elementName env.ver → it.tab n = []) ∧
      it.modified = true := by
  obtain ⟨z, hz, hu, hfresh, -⟩ := findUnusedId_spec hw 1
  unfold newItem at h
  rw [hu] at h
  simp only at h
  obtain ⟨it1, h1, h⟩ := bind_ok_inv h
  obtain ⟨code, hc, h⟩ := bind_ok_inv h
  obtain ⟨it2, h2, h⟩ := bind_ok_inv h
  obtain ⟨it3, h3, h⟩ := bind_ok_inv h
  cases h
  have hi := iid_ne_rt env.ver
  obtain ⟨w1, t1, o1⟩ := setProperty_fresh (ItemWF.empty env) (plain_iid env) (iid_ne_rst _) rfl
    (intStr_ne_nil z) h1
  have hk := setProperty_keys h1 hi.symm rfl
  obtain ⟨w2, t2, o2⟩ := setProperty_fresh w1 (plain_rt env) rt_ne_rst hk (resourceCode_ne hc).2 h2
  obtain ⟨_, _, w3, o3, _⟩ := setProperty_spec w2 h3
  refine ⟨z, code, _, hz, rfl, hfresh, hc, rfl, w3.flag true, ?_, ?_, ?_, rfl⟩
  · show it3.tab _ = _
    rw [o3 _ (plain_iid env).1, o2 _ hi, t1]
  · show it3.tab _ = _
    rw [o3 _ (plain_rt env).1, t2]
  · intro n n1 n2 n3
    show it3.tab _ = _
    rw [o3 _ n3, o2 _ n2, o1 _ n1]; rfl

/-! ### clone -/

theorem cloneItem_spec {env : Env} {hw hw' : Hw} {parent id : Str} {P : List Prof}
    (h : cloneItem env hw parent P = .ok (id, hw')) :
    ∃ pit s z y it1 it, dget? hw parent = some pit ∧
      pit.getRaw (instanceId env.ver) none = some (.str s) ∧ pyInt s = some y ∧ y ≤ z ∧ id = intStr z ∧
      id ∉ dkeys hw ∧ cloneStrip env P env.configProfiles pit = .ok it1 ∧
      it1.setProperty env (instanceId env.ver) (.str id) P.toFinset true = .ok it ∧
      hw' = dset hw id { it with modified := true } := by
  unfold cloneItem at h
  split at h
  · cases h
  · rename_i pit hp
    split at h
    · cases h
    · cases h
    · rename_i s hs
      split at h
      · cases h
      · rename_i y hy
        obtain ⟨z, hz, hu, hfresh, -⟩ := findUnusedId_spec hw y
        rw [hu] at h
        simp only at h
        obtain ⟨it1, h1, h⟩ := bind_ok_inv h
        obtain ⟨it, h2, h⟩ := bind_ok_inv h
        cases h
        exact ⟨pit, s, z, y, it1, it, hp, hs, hy, hz, rfl, hfresh, h1, h2, rfl⟩

/-! ### setting one value on many items -/

theorem setEach_spec {env : Env} {name : Str} {val : InVal} {P : List Prof} :
    ∀ (ids : List Str) {hw hw' : Hw}, ids.Nodup → setEach env name val P ids hw = .ok hw' →
      dkeys hw' = dkeys hw ∧ (∀ id, id ∉ ids → dget? hw' id = dget? hw id) ∧
      ∀ id ∈ ids, ∃ it it', dget? hw id = some it ∧ dget? hw' id = some it' ∧
        it.setProperty env name val P.toFinset true = .ok it'
  | [], hw, hw', _, h => by cases h; exact ⟨rfl, fun _ _ => rfl, by simp⟩
  | i :: r, hw, hw', hnd, h => by
    unfold setEach at h
    split at h
    · cases h
    · rename_i it hit
      split at h
      · cases h
      · rename_i it' hset
        have hnd' := List.nodup_cons.1 hnd
        obtain ⟨k1, k2, k3⟩ := setEach_spec r hnd'.2 h
        have hik := mem_dkeys_of_dget? hit
        refine ⟨by rw [k1, dkeys_dset_mem hik], ?_, ?_⟩
        · intro id hid
          simp only [List.mem_cons, not_or] at hid
          rw [k2 id hid.2, dget?_dset, if_neg (Ne.symm hid.1)]
        · intro id hid
          by_cases he : id = i
          · subst he
            exact ⟨it, it', hit, by rw [k2 id hnd'.1, dget?_dset, if_pos rfl], hset⟩
          · have hr : id ∈ r := by
              rcases List.mem_cons.1 hid with h | h
              · exact absurd h he
              · exact h
            obtain ⟨a, b, h1, h2, h3⟩ := k3 id hr
            rw [dget?_dset, if_neg (Ne.symm he)] at h1
            exact ⟨a, b, h1, h2, h3⟩

theorem setEach_ok {env : Env} {name : Str} {val : InVal} {P : List Prof} (hpl : Plain env name)
    (h1 : name ≠ instanceId env.ver) (h2 : name ≠ resourceType) :
    ∀ (ids : List Str) {hw : Hw}, ids.Nodup → (∀ id ∈ ids, ∃ it, dget? hw id = some it ∧ ItemWF env it) →
      ∃ hw', setEach env name val P ids hw = .ok hw'
  | [], hw, _, _ => ⟨hw, rfl⟩
  | i :: r, hw, hnd, h => by
    obtain ⟨it, hit, wf⟩ := h i List.mem_cons_self
    obtain ⟨it', hs⟩ := setProperty_ok wf val P.toFinset hpl h1 h2
    unfold setEach
    rw [hit]
    simp only [hs]
    have hnd' := List.nodup_cons.1 hnd
    refine setEach_ok hpl h1 h2 r hnd'.2 ?_
    intro id hid
    obtain ⟨a, h3, h4⟩ := h id (List.mem_cons_of_mem _ hid)
    exact ⟨a, by rw [dget?_dset, if_neg (by rintro rfl; exact hnd'.1 hid)]; exact h3, h4⟩

/-- replacing items by edits that keep the InstanceID keeps the collection consistent -/
theorem HwWF.of_edits {env : Env} {hw hw' : Hw} (wf : HwWF env hw) (hk : dkeys hw' = dkeys hw)
    (h : ∀ id it', dget? hw' id = some it' → ItemWF env it' ∧
      ∃ it, dget? hw id = some it ∧ it'.tab (instanceId env.ver) = it.tab (instanceId env.ver)) :
    HwWF env hw' := by
  have hnd : (dkeys hw').Nodup := by rw [hk]; exact wf.keys
  refine ⟨hnd, ?_, ?_⟩
  · intro id it hm; exact (h id it (dget?_of_mem hnd hm)).1
  · intro id it hm v S hv
    obtain ⟨_, it0, h0, ht⟩ := h id it (dget?_of_mem hnd hm)
    rw [ht] at hv
    exact wf.ident id it0 (dget?_mem h0) v S hv

/-! ### setting values item by item -/

theorem setUnder_spec {env : Env} {name : Str} {val : InVal} (hid : name ≠ instanceId env.ver)
    (hpl : Plain env name) : ∀ (L : List Prof) {it it' : Item}, ItemWF env it →
    setUnder env name val L it = .ok it' →
    ItemWF env it' ∧ (∀ n, n ≠ name → it'.tab n = it.tab n) ∧
    (∀ v, Denotes name val v → v.truthy = true →
      (∀ p, Reads (it.tab name) p v → Reads (it'.tab name) p v) ∧
      (∀ p ∈ L, it.hasProfile env p = true → Reads (it'.tab name) p v) ∧
      (∀ q, q ∉ L → ∀ w, Explicit (it.tab name) q w → Reads (it'.tab name) q w) ∧
      (none ∉ L → ∀ q, q ∉ L → ∀ w, Reads (it'.tab name) q w ↔ Reads (it.tab name) q w))
  | [], it, it', wf, h => by
    cases h
    exact ⟨wf, fun _ _ => rfl, fun v _ _ => ⟨fun p h => h, by simp,
      fun _ _ _ h => Or.inl h, fun _ _ _ _ => Iff.rfl⟩⟩
  | p :: r, it, it', wf, h => by
    unfold setUnder at h
    split at h
    · rename_i hh
      split at h
      · cases h
      · rename_i it1 hs
        obtain ⟨v', h1, wf1, h3, h4, -⟩ := setProperty_spec wf hs
        rw [addWildcards_plain hpl, effProfiles_of_ne _ _ (by simp)] at *
        cases h1
        obtain ⟨k1, k2, k3⟩ := setUnder_spec hid hpl r wf1 h
        have hhas : ∀ q, it1.hasProfile env q = it.hasProfile env q := by
          intro q
          rw [Bool.eq_iff_iff, hasProfile_iff, hasProfile_iff, h3 _ (Ne.symm hid)]
        refine ⟨k1, fun n hn => by rw [k2 n hn, h3 n hn], ?_⟩
        intro v hd hv
        rw [hd.norm] at h4
        obtain ⟨m1, m2, m3, m4⟩ := k3 v hd hv
        have step : ∀ q, Reads (it.tab name) q v → Reads (it1.tab name) q v := by
          intro q hq
          rw [h4]
          by_cases hqp : q ∈ ({p} : PSet)
          · exact (reads_set_mem (wf.tab name) hv hqp v).2 rfl
          · rw [reads_set_not_mem (wf.tab name) hv hqp]
            rcases hq with hq | ⟨hq, hq'⟩
            · exact Or.inl hq
            · refine Or.inr ⟨hq, ?_⟩
              by_cases hn : none ∈ ({p} : PSet)
              · exact Or.inl ⟨hn, rfl⟩
              · exact Or.inr ⟨hn, hq'⟩
        refine ⟨fun q hq => m1 q (step q hq), ?_, ?_, ?_⟩
        · intro q hq hqh
          rcases List.mem_cons.1 hq with rfl | hq'
          · apply m1
            rw [h4]
            exact (reads_set_mem (wf.tab name) hv (by simp) v).2 rfl
          · exact m2 q hq' (by rw [hhas]; exact hqh)
        · intro q hq w hw
          simp only [List.mem_cons, not_or] at hq
          have hqp : q ∉ ({p} : PSet) := by simpa using hq.1
          by_cases hwv : w = v
          · subst hwv; exact m1 q (step q (Or.inl hw))
          · apply m3 q hq.2
            rw [h4, explicit_collapseTab _ _ _ (setTab_keys (wf.tab name)), explicit_setTab (wf.tab name) hv,
              explicit_setTab (wf.tab name) hv]
            refine ⟨Or.inl ⟨hwv, hqp, hw⟩, ?_⟩
            rintro (⟨_, _, S, hS, hn⟩ | ⟨h, _⟩)
            · obtain ⟨S', hS', hq'⟩ := hw
              have : S' = S := by
                have a := dget?_of_mem (wf.tab name).keys hS
                have b := dget?_of_mem (wf.tab name).keys hS'
                rw [a] at b; exact (Option.some.inj b).symm
              subst this
              rw [(wf.tab name).dflt _ _ hS hn] at hq'
              simpa using hq'
            · exact absurd h hwv
        · intro hn q hq w
          simp only [List.mem_cons, not_or] at hq hn
          have hqp : q ∉ ({p} : PSet) := by simpa using hq.1
          have hnp : none ∉ ({p} : PSet) := by simpa using hn.1
          rw [m4 hn.2 q hq.2, h4, reads_set_not_mem (wf.tab name) hv hqp]
          unfold Reads
          constructor
          · rintro (h | ⟨h, ⟨h', _⟩ | ⟨_, h'⟩⟩)
            · exact Or.inl h
            · exact absurd h' hnp
            · exact Or.inr ⟨h, h'⟩
          · rintro (h | ⟨h, h'⟩)
            · exact Or.inl h
            · exact Or.inr ⟨h, Or.inr ⟨hnp, h'⟩⟩
    · rename_i hh
      obtain ⟨k1, k2, k3⟩ := setUnder_spec hid hpl r wf h
      refine ⟨k1, k2, ?_⟩
      intro v hd hv
      obtain ⟨m1, m2, m3, m4⟩ := k3 v hd hv
      refine ⟨m1, ?_, ?_, ?_⟩
      · intro q hq hqh
        rcases List.mem_cons.1 hq with rfl | hq'
        · exact absurd hqh hh
        · exact m2 q hq' hqh
      · intro q hq
        simp only [List.mem_cons, not_or] at hq
        exact m3 q hq.2
      · intro hn q hq
        simp only [List.mem_cons, not_or] at hq hn
        exact m4 hn.2 q hq.2

theorem setUnder_ok {env : Env} {name : Str} {val : InVal} (hpl : Plain env name)
    (h1 : name ≠ instanceId env.ver) (h2 : name ≠ resourceType) : ∀ (L : List Prof) {it : Item},
    ItemWF env it → ∃ it', setUnder env name val L it = .ok it'
  | [], it, _ => ⟨it, rfl⟩
  | p :: r, it, wf => by
    unfold setUnder
    split
    · obtain ⟨it', hs⟩ := setProperty_ok wf val {p} hpl h1 h2
      simp only [hs]
      obtain ⟨_, _, wf', _⟩ := setProperty_spec wf hs
      exact setUnder_ok hpl h1 h2 r wf'
    · exact setUnder_ok hpl h1 h2 r wf

theorem setValuesLoop_spec {env : Env} {name : Str} {dflt : InVal} {L : List Prof} :
    ∀ (ids : List Str) (vs : List InVal) {hw hw' : Hw}, ids.Nodup →
      setValuesLoop env name dflt L ids vs hw = .ok hw' →
      dkeys hw' = dkeys hw ∧ (∀ id, id ∉ ids → dget? hw' id = dget? hw id) ∧
      ∀ (i : Nat) (h : i < ids.length), ∃ it it', dget? hw ids[i] = some it ∧ dget? hw' ids[i] = some it' ∧
        setUnder env name (vs[i]?.getD dflt) L it = .ok it'
  | [], vs, hw, hw', _, h => by cases h; exact ⟨rfl, fun _ _ => rfl, by simp⟩
  | a :: r, vs, hw, hw', hnd, h => by
    unfold setValuesLoop at h
    split at h
    · cases h
    · rename_i it hit
      split at h
      · cases h
      · rename_i it' hset
        have hnd' := List.nodup_cons.1 hnd
        obtain ⟨k1, k2, k3⟩ := setValuesLoop_spec r vs.tail hnd'.2 h
        refine ⟨by rw [k1, dkeys_dset_mem (mem_dkeys_of_dget? hit)], ?_, ?_⟩
        · intro id hid
          simp only [List.mem_cons, not_or] at hid
          rw [k2 id hid.2, dget?_dset, if_neg (Ne.symm hid.1)]
        · intro i hi
          cases i with
          | zero =>
            refine ⟨it, it', hit, ?_, ?_⟩
            · rw [List.getElem_cons_zero, k2 a hnd'.1, dget?_dset, if_pos rfl]
            · rw [← List.head?_eq_getElem?]; exact hset
          | succ j =>
            have hj : j < r.length := by simpa using hi
            obtain ⟨x, y, h1, h2, h3⟩ := k3 j hj
            have hne : a ≠ r[j] := by rintro rfl; exact hnd'.1 (List.getElem_mem hj)
            rw [dget?_dset, if_neg hne] at h1
            exact ⟨x, y, h1, h2, by rw [List.getElem?_tail] at h3; exact h3⟩

theorem setValuesLoop_ok {env : Env} {name : Str} {dflt : InVal} {L : List Prof} (hpl : Plain env name)
    (h1 : name ≠ instanceId env.ver) (h2 : name ≠ resourceType) :
    ∀ (ids : List Str) (vs : List InVal) {hw : Hw}, ids.Nodup →
      (∀ id ∈ ids, ∃ it, dget? hw id = some it ∧ ItemWF env it) →
      ∃ hw', setValuesLoop env name dflt L ids vs hw = .ok hw'
  | [], _, hw, _, _ => ⟨hw, rfl⟩
  | i :: r, vs, hw, hnd, h => by
    obtain ⟨it, hit, wf⟩ := h i List.mem_cons_self
    obtain ⟨it', hs⟩ := setUnder_ok (val := vs.head?.getD dflt) hpl h1 h2 L wf
    unfold setValuesLoop
    rw [hit]
    simp only [hs]
    have hnd' := List.nodup_cons.1 hnd
    refine setValuesLoop_ok hpl h1 h2 r vs.tail hnd'.2 ?_
    intro id hid
    obtain ⟨a, h3, h4⟩ := h id (List.mem_cons_of_mem _ hid)
    exact ⟨a, by rw [dget?_dset, if_neg (by rintro rfl; exact hnd'.1 hid)]; exact h3, h4⟩

end Cot
