import Verif.Lemmas.EditProfiles
/-
What edit-hardware declares in the descriptor: inferred networks, descriptions of networks, labels of profiles.
-/
namespace Cot

/-- exactly when networks are inferred -/
theorem inferNetworks_cases {c : EhCtx} {q q' : EhReq} {s : EhSt} {env : Env} {d : Prof → Nat} {nets : List (Option Str)}
    (h : inferNetworks c q s = .ok q') (he : curEnv c s.envl = .ok env)
    (hd : itemCounts env s.hw "ethernet".toList q.profList = .ok d) (hn : networks c.env.ver s.envl = .ok nets)
    (hq : q.networks = none) :
    (∀ pats, q'.networks = some pats ↔ Infers q (maxCount d (allProfilesIfEmpty env q.profList)) nets pats) ∧
    (q'.descriptions = q.descriptions ∨ q.descriptions = none ∧ ∃ ds, networkDescriptions c.env.ver s.envl = .ok ds ∧
      q'.descriptions = guessListWildcard ds) := by
  unfold inferNetworks at h
  unfold Infers
  split at h
  · rename_i h1
    cases h
    exact ⟨fun pats => by simp [hq, h1], Or.inl rfl⟩
  · rename_i h2 _; rw [hq] at h2; cases h2
  · rename_i n h1 h2
    obtain ⟨env1, h3, h⟩ := bind_ok_inv h
    rw [he] at h3; cases h3
    obtain ⟨d1, h4, h⟩ := bind_ok_inv h
    rw [hd] at h4; cases h4
    simp only at h
    generalize maxCount d (allProfilesIfEmpty env q.profList) = m at h
    by_cases hm : n ≤ m ∨ m < 2
    · rw [if_pos hm] at h
      cases h
      refine ⟨fun pats => ⟨fun hh => (by rw [hq] at hh; cases hh), ?_⟩, Or.inl rfl⟩
      rintro ⟨-, k, names, k1, -, -, k2, k3, -⟩
      rw [h1] at k1; cases k1
      omega
    · rw [if_neg hm] at h
      obtain ⟨nets1, h5, h⟩ := bind_ok_inv h
      rw [hn] at h5; cases h5
      split at h
      · rename_i hne
        cases h
        refine ⟨fun pats => ⟨fun hh => (by rw [hq] at hh; cases hh), ?_⟩, Or.inl rfl⟩
        rintro ⟨-, k, names, -, rfl, k2, -⟩
        exact absurd (by simpa using k2) hne
      · rename_i heq
        split at h
        · cases h
        · rename_i names hnm
          obtain ⟨descs, h6, h⟩ := bind_ok_inv h
          cases h
          rw [allSome_iff] at hnm
          subst hnm
          refine ⟨fun pats => ⟨?_, ?_⟩, ?_⟩
          · intro hh
            refine ⟨hq, n, names, h1, rfl, by simpa using heq, by omega, by omega, hh⟩
          · rintro ⟨-, k, names', -, k1, -, -, -, k2⟩
            have : names = names' := List.map_injective_iff.2 (Option.some_injective _) k1
            subst this
            exact k2
          · cases hqd : q.descriptions with
            | some x => exact Or.inl rfl
            | none => exact Or.inr ⟨rfl, descs, h6, rfl⟩


/-! ### descriptions of networks -/

theorem createNetwork_described {v : Ver} (hv : v ≠ .v0) {e e' : Elem} (h : NetsWF v e) {n : Str} {d : Option Str}
    (hc : createNetwork v e n d = .ok e') :
    (∀ x, d = some x → Described v e' n x) ∧ (d = none → ∀ x, Described v e n x → Described v e' n x) ∧
    (∀ m x, m ≠ n → Described v e m x → Described v e' m x) := by
  obtain ⟨e1, s', n', h1, h2, h3, h4, h5, h6, -, h8⟩ := C60_create hv h n d
  rw [hc] at h1; cases h1
  refine ⟨fun x hx => ⟨s', n', h4, h5, h6 x hx⟩, ?_, ?_⟩
  · rintro hd x ⟨s, y, k1, k2, k3⟩
    obtain ⟨-, -, g3⟩ := h8 s k1
    exact ⟨s', n', h4, h5, (g3 y k2).2 hd x k3⟩
  · rintro m x hm ⟨s, y, k1, k2, k3⟩
    obtain ⟨-, g2, -⟩ := h8 s k1
    exact ⟨s', y, h4, by rw [g2 m hm]; exact k2, k3⟩

theorem networkLoop_other {c : EhCtx} (hv : c.env.ver ≠ .v0) {existing : List (Option Str)} : ∀ (l descs : List Str)
    {e e' : Elem}, NetsWF c.env.ver e → networkLoop c existing l descs e = .ok e' → ∀ n x, n ∉ l →
      Described c.env.ver e n x → Described c.env.ver e' n x
  | [], descs, e, e', wf, h => by cases h; exact fun _ _ _ hx => hx
  | m :: r, descs, e, e', wf, h => by
    unfold networkLoop at h
    split at h
    · cases h
    · split at h
      · cases h
      · rename_i e1 h1
        intro n x hn hx
        simp only [List.mem_cons, not_or] at hn
        exact networkLoop_other hv r descs.tail (createNetwork_added hv wf h1).wf h n x hn.2
          ((createNetwork_described hv wf h1).2.2 n x hn.1 hx)

/-- the description that a network will have, if it is to be changed -/
theorem netDescFor_cases {c : EhCtx} {existing : List (Option Str)} {n : Str} {d r : Option Str}
    (h : netDescFor c existing n d = .ok r) :
    (∀ x, d = some x → x ≠ [] → r = some x) ∧ (some n ∈ existing → r = d) ∧
    (some n ∉ existing → d.getD [] = [] → r = some (c.input (.networkDesc n))) := by
  unfold netDescFor at h
  split at h
  · rename_i hm
    cases h
    exact ⟨fun x hx _ => hx, fun _ => rfl, fun hn => absurd hm hn⟩
  · rename_i hm
    split at h
    · cases h
    · split at h
      · cases h; exact ⟨by simp, fun hh => absurd hh hm, fun _ _ => rfl⟩
      · cases h
        exact ⟨fun x hx hne => by cases hx; exact absurd rfl hne, fun hh => absurd hh hm, fun _ _ => rfl⟩
      · cases h
        exact ⟨fun x hx _ => hx, fun hh => absurd hh hm, fun _ hh => by simp at hh⟩

theorem networkLoop_described {c : EhCtx} (hv : c.env.ver ≠ .v0) {existing : List (Option Str)} : ∀ (l descs : List Str)
    {e e' : Elem}, NetsWF c.env.ver e → networkLoop c existing l descs e = .ok e' → ∀ (i : Nat) n, l[i]? = some n →
      n ∉ l.drop (i + 1) →
      (∀ x, descs[i]? = some x → x ≠ [] ∨ some n ∈ existing → Described c.env.ver e' n x) ∧
      (some n ∉ existing → (descs[i]?).getD [] = [] → Described c.env.ver e' n (c.input (.networkDesc n))) ∧
      (some n ∈ existing → descs[i]? = none → n ∉ l.take i → ∀ x, Described c.env.ver e n x → Described c.env.ver e' n x)
  | [], descs, e, e', wf, h => by intro i n hi; simp at hi
  | m :: r, descs, e, e', wf, h => by
    unfold networkLoop at h
    split at h
    · cases h
    · rename_i d hd
      split at h
      · cases h
      · rename_i e1 h1
        have wf1 := (createNetwork_added hv wf h1).wf
        obtain ⟨a1, a2, a3⟩ := createNetwork_described hv wf h1
        intro i n hi hn
        cases i with
        | zero =>
          simp only [List.getElem?_cons_zero, Option.some.injEq] at hi
          subst hi
          simp only [Nat.zero_add, List.drop_succ_cons, List.drop_zero] at hn
          have ho := networkLoop_other hv r descs.tail wf1 h m
          obtain ⟨b1, b2, b3⟩ := netDescFor_cases hd
          rw [← List.head?_eq_getElem?]
          refine ⟨?_, ?_, ?_⟩
          · intro x hx hor
            refine ho x hn (a1 x ?_)
            rcases hor with hne | hex
            · exact b1 x hx hne
            · rw [b2 hex, hx]
          · intro hne h0
            exact ho _ hn (a1 _ (b3 hne h0))
          · intro hex h0 _ x hx
            exact ho _ hn (a2 (by rw [b2 hex, h0]) x hx)
        | succ i =>
          simp only [List.getElem?_cons_succ] at hi
          simp only [List.drop_succ_cons] at hn
          obtain ⟨k1, k2, k3⟩ := networkLoop_described hv r descs.tail wf1 h i n hi hn
          rw [List.getElem?_tail] at k1 k2 k3
          refine ⟨k1, k2, ?_⟩
          intro hex h0 ht x hx
          simp only [List.take_succ_cons, List.mem_cons, not_or] at ht
          exact k3 hex h0 ht.2 x (a3 n x ht.1 hx)

theorem describeLoop_described {v : Ver} (hv : v ≠ .v0) : ∀ (l : List (Option Str × Str)) {e e' : Elem}, NetsWF v e →
    describeLoop v l e = .ok e' →
      (∀ n x, some n ∉ l.map Prod.fst → Described v e n x → Described v e' n x) ∧
      (∀ (i : Nat) n x, l[i]? = some (some n, x) → some n ∉ (l.drop (i + 1)).map Prod.fst → Described v e' n x)
  | [], e, e', wf, h => by cases h; exact ⟨fun _ _ _ h => h, by simp⟩
  | (none, d) :: r, e, e', wf, h => by cases h
  | (some m, d) :: r, e, e', wf, h => by
    unfold describeLoop at h
    split at h
    · cases h
    · rename_i e1 h1
      have wf1 := (createNetwork_added hv wf h1).wf
      obtain ⟨a1, -, a3⟩ := createNetwork_described hv wf h1
      obtain ⟨k1, k2⟩ := describeLoop_described hv r wf1 h
      refine ⟨?_, ?_⟩
      · intro n x hn hx
        simp only [List.map_cons, List.mem_cons, Option.some.injEq, not_or] at hn
        exact k1 n x hn.2 (a3 n x hn.1 hx)
      · intro i n x hi hn
        cases i with
        | zero =>
          simp only [List.getElem?_cons_zero, Option.some.injEq, Prod.mk.injEq] at hi
          obtain ⟨rfl, rfl⟩ := hi
          exact k1 m d (by simpa using hn) (a1 d rfl)
        | succ i =>
          simp only [List.getElem?_cons_succ] at hi
          simp only [List.drop_succ_cons] at hn
          exact k2 i n x hi hn

/-! ### the elements that declare the profiles -/

theorem createLoop_declares {c : EhCtx} {known : List Str} : ∀ (P : List Str) {e e' : Elem}, ConfigsWF c.env.ver e →
    createLoop c known P e = .ok e' → ∀ p,
      (p ∉ P ∨ p ∈ known → ∀ x, DeclaresProfile c.env.ver e p x → DeclaresProfile c.env.ver e' p x) ∧
      (p ∉ known → (p ∈ P ∨ ∃ x, DeclaresProfile c.env.ver e p x ∧
          TextIs x (ovfTag c.env.ver "Label".toList) (some (c.input (.profileLabel p))) ∧
          TextIs x (ovfTag c.env.ver "Description".toList) (some (c.input (.profileDesc (c.input (.profileLabel p)))))) →
        ∃ x, DeclaresProfile c.env.ver e' p x ∧
          TextIs x (ovfTag c.env.ver "Label".toList) (some (c.input (.profileLabel p))) ∧
          TextIs x (ovfTag c.env.ver "Description".toList) (some (c.input (.profileDesc (c.input (.profileLabel p))))))
  | [], e, e', wf, h => by
    cases h
    intro p
    refine ⟨fun _ x hx => hx, ?_⟩
    rintro - (hp | hp)
    · cases hp
    · exact hp
  | a :: r, e, e', wf, h => by
    unfold createLoop at h
    intro p
    split at h
    · rename_i ha
      obtain ⟨k1, k2⟩ := createLoop_declares r wf h p
      refine ⟨?_, ?_⟩
      · intro hp
        refine k1 ?_
        rcases hp with hp | hp
        · exact Or.inl (fun hh => hp (List.mem_cons_of_mem _ hh))
        · exact Or.inr hp
      · intro hn hp
        refine k2 hn ?_
        rcases hp with hp | hp
        · rcases List.mem_cons.1 hp with rfl | hp
          · exact absurd ha hn
          · exact Or.inl hp
        · exact Or.inr hp
    · rename_i ha
      split at h
      · cases h
      · simp only at h
        split at h
        · cases h
        · rename_i e1 h1
          obtain ⟨e1', s', c', g1, g2, g3, g4, g5, g6, g7, -, g8⟩ := C46_create wf a (c.input (.profileLabel a))
            (c.input (.profileDesc (c.input (.profileLabel a))))
          rw [h1] at g1; cases g1
          obtain ⟨k1, k2⟩ := createLoop_declares r g2 h p
          have hother : p ≠ a → ∀ x, DeclaresProfile c.env.ver e p x → DeclaresProfile c.env.ver e1 p x := by
            rintro hpa x ⟨s, y1, y2⟩
            exact ⟨s', g4, by rw [(g8 s y1).2 p hpa]; exact y2⟩
          refine ⟨?_, ?_⟩
          · intro hp x hx
            have hpa : p ≠ a := by
              rintro rfl
              rcases hp with hp | hp
              · exact hp (by simp)
              · exact ha hp
            refine k1 ?_ x (hother hpa x hx)
            rcases hp with hp | hp
            · exact Or.inl (fun hh => hp (List.mem_cons_of_mem _ hh))
            · exact Or.inr hp
          · intro hn hp
            refine k2 hn ?_
            by_cases hpa : p = a
            · subst hpa
              exact Or.inr ⟨c', ⟨s', g4, g5⟩, g6, g7⟩
            · rcases hp with hp | ⟨x, x1, x2⟩
              · rcases List.mem_cons.1 hp with hp | hp
                · exact absurd hp hpa
                · exact Or.inl hp
              · exact Or.inr ⟨x, hother hpa x x1, x2⟩

theorem named_filter {s s' : Elem} {t a p q : Str} (h : kids s' t = (kids s t).filter (fun c => decide (c.get a ≠ some p)))
    (hq : q ≠ p) : named s' t a q = named s t a q := by
  have hsub : ∀ (u : Elem), named u t a q = (kids u t).filter (fun c => decide (c.get a = some q)) := by
    intro u
    unfold named kids
    rw [List.filter_filter]
    apply List.filter_congr
    intro z _
    simp [Bool.and_comm]
  rw [hsub, hsub, h, List.filter_filter]
  apply List.filter_congr
  intro z _
  by_cases hz : z.get a = some q
  · simp [hz, hq]
  · simp [hz]

theorem deleteProfile_declares {env : Env} {envl : Elem} {hw : Hw} {p : Str} (wf : HwWF env hw)
    {envl' : Elem} {hw' : Hw} (h : deleteProfile env envl hw p = .ok (envl', hw'))
    (cw : ConfigsWF env.ver envl) (hids : configProfiles env.ver envl = .ok (env.configProfiles.map some))
    (hp : p ∈ env.configProfiles) {q : Str} (hq : q ≠ p) {x : Elem} (hx : DeclaresProfile env.ver envl q x) :
    DeclaresProfile env.ver envl' q x := by
  obtain ⟨s, y1, y2⟩ := hx
  have hcs := cw.2 s (by rw [y1]; simp)
  have hex : (named s (ovfTag env.ver "Configuration".toList) (ovfTag env.ver "id".toList) p).length = 1 := by
    have h1 := hcs.1 p
    have h2 : named s (ovfTag env.ver "Configuration".toList) (ovfTag env.ver "id".toList) p ≠ [] := by
      rw [(C46_listing env.ver envl).1 s y1] at hids
      simp only [Except.ok.injEq] at hids
      have hm : some p ∈ env.configProfiles.map some := List.mem_map.2 ⟨p, hp, rfl⟩
      rw [← hids] at hm
      unfold listing at hm
      simp only [List.mem_append, List.mem_reverse, List.mem_map, List.mem_filter] at hm
      have : ∃ x ∈ kids s (ovfTag env.ver "Configuration".toList), x.get (ovfTag env.ver "id".toList) = some p := by
        rcases hm with ⟨x, ⟨hx, -⟩, hg⟩ | ⟨x, ⟨hx, -⟩, hg⟩ <;> exact ⟨x, hx, hg⟩
      obtain ⟨x, hx, hg⟩ := this
      intro hnil
      have := named_sub.2 ⟨hx, hg⟩
      rw [hnil] at this; cases this
    have : (named s (ovfTag env.ver "Configuration".toList) (ovfTag env.ver "id".toList) p).length ≠ 0 := by
      intro h0; exact h2 (List.length_eq_zero_iff.1 h0)
    omega
  obtain ⟨e1, hw1, g1, -, -, -, g5, -⟩ := C46_delete wf y1 hex
  rw [h] at g1
  simp only [Except.ok.injEq, Prod.mk.injEq] at g1
  obtain ⟨rfl, rfl⟩ := g1
  have hxm := named_sub.1 (show x ∈ named s _ _ q by rw [y2]; simp)
  obtain ⟨s', n1, n2, n3⟩ := g5 ⟨x, hxm.1, by rw [hxm.2]; simpa using hq⟩
  exact ⟨s', n1, by rw [named_filter n3 hq]; exact y2⟩

theorem deleteLoop_declares {c : EhCtx} {named : Bool} : ∀ (todo : List Str) {s s' : EhSt} {env : Env}, todo.Nodup →
    (∀ p ∈ todo, p ∈ env.configProfiles) → curEnv c s.envl = .ok env → ConfigsWF c.env.ver s.envl → HwWF env s.hw →
    deleteLoop c named todo s = .ok s' → ∀ q ∉ delSet c named todo, ∀ x, DeclaresProfile c.env.ver s.envl q x →
      DeclaresProfile c.env.ver s'.envl q x
  | [], s, s', env, _, _, he, cw, wf, h => by cases h; exact fun _ _ _ hx => hx
  | p :: r, s, s', env, hnd, hin, he, cw, wf, h => by
    rw [List.nodup_cons] at hnd
    unfold deleteLoop at h
    split at h
    · rename_i hc
      have hds : delSet c named (p :: r) = delSet c named r := by
        unfold delSet; rw [List.filter_cons_of_neg]; simp [hc.1, hc.2]
      rw [hds]
      exact deleteLoop_declares r hnd.2 (fun x hx => hin x (List.mem_cons_of_mem _ hx)) he cw wf h
    · rename_i hc
      have hds : delSet c named (p :: r) = p :: delSet c named r := by
        unfold delSet; rw [List.filter_cons_of_pos]
        simp only [not_and, Bool.not_eq_false] at hc
        cases named <;> simp_all
      rw [he] at h
      simp only at h
      split at h
      · cases h
      · rename_i e1 hw1 h1
        obtain ⟨ids, c1, c2⟩ := curEnv_iff.1 he
        have hv : env.ver = c.env.ver := curEnv_ver he
        have hids : configProfiles env.ver s.envl = .ok (env.configProfiles.map some) := by rw [c2]; exact c1
        obtain ⟨k1, k2, k3, k4, -⟩ := deleteProfile_step wf (by rw [hv]; exact cw) hids
          (hin p (by simp)) h1
        rw [hv] at k1 k2 k3
        have he1 : curEnv c e1 = .ok (withoutProfile env p) := by
          rw [curEnv_iff]
          exact ⟨_, k3, by rw [c2]; rfl⟩
        have ih := deleteLoop_declares r
          (s := { s with envl := e1, hw := hw1 }) (env := withoutProfile env p) hnd.2
          (by
            intro x hx
            unfold withoutProfile
            simp only [List.mem_filter, decide_eq_true_eq]
            exact ⟨hin x (List.mem_cons_of_mem _ hx), by rintro rfl; exact hnd.1 hx⟩) he1 k1 k4 h
        intro q hq x hx
        rw [hds] at hq
        simp only [List.mem_cons, not_or] at hq
        refine ih q hq.2 x ?_
        rw [← hv] at hx cw ⊢
        exact deleteProfile_declares wf h1 cw hids (hin p (by simp)) hq.1 hx

theorem updateProfiles_declares {c : EhCtx} {q : EhReq} {s s' : EhSt} {env : Env} (ho : OrdersSets c.setOrder)
    (he : curEnv c s.envl = .ok env) (hnd : env.configProfiles.Nodup) (cw : ConfigsWF c.env.ver s.envl)
    (wf : HwWF env s.hw) (h : updateProfiles c q s = .ok s') (p : Str) (hp : ¬ Deleted c q p) :
    (p ∉ q.profiles.getD [] ∨ p ∈ env.configProfiles → ∀ x, DeclaresProfile c.env.ver s.envl p x → DeclaresProfile c.env.ver s'.envl p x) ∧
    (p ∉ env.configProfiles → p ∈ q.profiles.getD [] → ∃ x, DeclaresProfile c.env.ver s'.envl p x ∧
      TextIs x (ovfTag c.env.ver "Label".toList) (some (c.input (.profileLabel p))) ∧
      TextIs x (ovfTag c.env.ver "Description".toList) (some (c.input (.profileDesc (c.input (.profileLabel p)))))) := by
  obtain ⟨ids, c1, c2⟩ := curEnv_iff.1 he
  have hids : env.configProfiles = ids := by rw [c2]
  unfold updateProfiles at h
  obtain ⟨s1, h1, h⟩ := bind_ok_inv h
  obtain ⟨env1, e1, l1, cw1, w1, a1, a2⟩ : ∃ env1, curEnv c s1.envl = .ok env1 ∧
      env1.configProfiles = addNew env.configProfiles (q.profiles.getD []) ∧ ConfigsWF c.env.ver s1.envl ∧
      s1.hw = s.hw ∧
      (p ∉ q.profiles.getD [] ∨ p ∈ env.configProfiles → ∀ x, DeclaresProfile c.env.ver s.envl p x → DeclaresProfile c.env.ver s1.envl p x) ∧
      (p ∉ env.configProfiles → p ∈ q.profiles.getD [] → ∃ x, DeclaresProfile c.env.ver s1.envl p x ∧
        TextIs x (ovfTag c.env.ver "Label".toList) (some (c.input (.profileLabel p))) ∧
        TextIs x (ovfTag c.env.ver "Description".toList) (some (c.input (.profileDesc (c.input (.profileLabel p)))))) := by
    cases hpq : q.profiles with
    | none =>
      rw [hpq] at h1
      cases h1
      exact ⟨env, he, by simp [addNew], cw, rfl, fun _ _ hx => hx, by simp⟩
    | some P =>
      rw [hpq] at h1
      simp only at h1
      obtain ⟨u1, b1, h1⟩ := bind_ok_inv h1
      obtain ⟨u2, b2, h1⟩ := bind_ok_inv h1
      obtain ⟨env0, b3, h1⟩ := bind_ok_inv h1
      obtain ⟨e1, b4, h1⟩ := bind_ok_inv h1
      cases h1
      rw [he] at b3; cases b3
      obtain ⟨k1, k2, k3, k4⟩ := createLoop_inv P cw c1 (by rw [hids]; exact fun _ x => x) b4
      obtain ⟨g1, g2⟩ := createLoop_declares P cw b4 p
      exact ⟨{ c.env with configProfiles := addNew ids P }, curEnv_iff.2 ⟨_, k3, rfl⟩, by rw [hids]; rfl, k1, rfl,
        g1, fun hn hm => g2 hn (Or.inl hm)⟩
  obtain ⟨ids1, m1, m2⟩ := curEnv_iff.1 e1
  have hver : env1.ver = env.ver := by rw [c2, m2]
  have wf1 : HwWF env1 s1.hw := by rw [w1]; exact wf.congr hver
  have nd1 : env1.configProfiles.Nodup := by rw [l1]; exact addNew_nodup hnd
  have keep : ∀ x, DeclaresProfile c.env.ver s1.envl p x → DeclaresProfile c.env.ver s'.envl p x := by
    cases hdo : q.deleteOthers with
    | false =>
      rw [hdo] at h
      simp only [Bool.false_eq_true, if_false] at h
      cases h
      exact fun _ hx => hx
    | true =>
      rw [hdo] at h
      simp only [if_true] at h
      unfold deleteOthersStep at h
      obtain ⟨env1', b1, h⟩ := bind_ok_inv h
      rw [e1] at b1; cases b1
      cases hpq : q.profiles with
      | none => exact absurd ⟨hdo, by simp [hpq], Or.inl hpq⟩ hp
      | some P =>
        rw [hpq] at h
        simp only at h
        obtain ⟨o1, o2⟩ := ho (env1.configProfiles.filter (fun p => decide (p ∉ P)))
        refine deleteLoop_declares _ o1 (fun p hpp => (List.mem_filter.1 ((o2 p).1 hpp)).1) e1 cw1 wf1 h p ?_
        intro hd
        unfold delSet at hd
        rw [List.mem_filter, o2, List.mem_filter] at hd
        refine hp ⟨hdo, ?_, Or.inr ?_⟩
        · simpa [hpq] using hd.1.2
        · simpa using hd.2
  refine ⟨fun hh x hx => keep x (a1 hh x hx), fun hn hm => ?_⟩
  obtain ⟨x, x1, x2⟩ := a2 hn hm
  exact ⟨x, keep x x1, x2⟩

end Cot
