import Verif.Lemmas.EditRun
import Verif.Lemmas.Names
/-!
Setting the names of devices profile by profile
-/
namespace Cot

/-- what is stored when the name `x` is given under the profile `p` -/
def storedName (env : Env) (it : Item) (x : Str) (p : Prof) : Val := .str (hideAll (phVals env it {p}) enOrder x)

/-- the values that may occur in names under `p` are tame -/
def TameUnder (env : Env) (it : Item) (p : Prof) : Prop :=
  ∀ k ∈ enOrder, ∀ v, phVals env it {p} k = some v → TameVal v

theorem phVals_congr {env : Env} {it it' : Item} (h : ∀ n, n ≠ elementName env.ver → it'.tab n = it.tab n) (P : PSet)
    {k : Ph} (hk : k ∈ enOrder) : phVals env it' P k = phVals env it P k := by
  have e : ∀ n, n ≠ elementName env.ver → it'.getRaw n (some P) = it.getRaw n (some P) := by
    intro n hn
    unfold Item.getRaw
    rw [h n hn]
  have hv := (names_plain env)
  cases k with
  | en => simp [enOrder] at hk
  | vq => simp only [phVals]; rw [e _ hv.1.1]
  | rst => simp only [phVals]; rw [e _ hv.2.1.1]
  | conn => simp only [phVals]; rw [e _ hv.2.2.1.1]

theorem hideAll_congr {f g : Ph → Option Str} : ∀ (ks : List Ph) (x : Str), (∀ k ∈ ks, f k = g k) → hideAll f ks x = hideAll g ks x
  | [], _, _ => rfl
  | k :: ks, x, h => by
    unfold hideAll
    rw [h k (by simp)]
    exact hideAll_congr ks _ (fun k hk => h k (by simp [hk]))

theorem storedName_congr {env : Env} {it it' : Item} (h : ∀ n, n ≠ elementName env.ver → it'.tab n = it.tab n) (x : Str)
    (p : Prof) : storedName env it' x p = storedName env it x p := by
  unfold storedName
  rw [hideAll_congr enOrder x (fun k hk => phVals_congr h {p} hk)]

theorem setUnder_names {env : Env} (hl : LiteralSub env) {x : Str} (hx : TameText x) (hne : x ≠ []) :
    ∀ (L : List Prof) {it it' : Item}, ItemWF env it → (∀ p ∈ L, TameUnder env it p) →
    setUnder env (elementName env.ver) (.str x) L it = .ok it' →
    ItemWF env it' ∧ (∀ n, n ≠ elementName env.ver → it'.tab n = it.tab n) ∧
    (none ∉ L → ∀ p, p ∉ L → ∀ w, Reads (it.tab (elementName env.ver)) p w → Reads (it'.tab (elementName env.ver)) p w) ∧
    (∀ w0, (∀ p ∈ L, storedName env it x p = w0) → ∀ p, Reads (it.tab (elementName env.ver)) p w0 →
      Reads (it'.tab (elementName env.ver)) p w0) ∧
    (none ∉ L ∨ (∀ p ∈ L, ∀ p' ∈ L, storedName env it x p = storedName env it x p') → ∀ p ∈ L, it.hasProfile env p = true →
      Reads (it'.tab (elementName env.ver)) p (storedName env it x p))
  | [], it, it', wf, _, h => by
    cases h
    exact ⟨wf, fun _ _ => rfl, fun _ _ _ _ h => h, fun _ _ _ h => h, by simp⟩
  | p :: r, it, it', wf, ht, h => by
    unfold setUnder at h
    split at h
    · rename_i hh
      split at h
      · cases h
      · rename_i it1 hs
        obtain ⟨v', h1, wf1, h3, h4, -⟩ := setProperty_spec wf hs
        have hnv : normValue env (elementName env.ver) (.str x) = .str x :=
          normValue_str (names_plain env).2.2.2.2.2.2.1
        rw [hnv, effProfiles_of_ne _ _ (by simp)] at h1
        rw [effProfiles_of_ne _ _ (by simp)] at h4
        have hu : ∀ n, n ≠ elementName env.ver →
            (it.updNs env (elementName env.ver) (.str x)).tab n = it.tab n := fun n _ => updNs_tab _ _ _ _ _
        rw [addWildcards_en hl (by
          intro k hk v hv
          rw [phVals_congr hu _ hk] at hv
          exact ht p (by simp) k hk v hv)] at h1
        obtain rfl : storedName env it x p = v' := by
          rw [← storedName_congr hu]
          exact Except.ok.inj h1
        have hv : (storedName env it x p).truthy = true := by
          simp [storedName, Val.truthy, hide_truthy (ht p (by simp)) hx.1 hne]
        have ht1 : ∀ p ∈ r, TameUnder env it1 p := by
          intro p hp k hk v hv
          rw [phVals_congr h3 _ hk] at hv
          exact ht p (by simp [hp]) k hk v hv
        obtain ⟨k1, k2, k3, k4, k5⟩ := setUnder_names hl hx hne r wf1 ht1 h
        have hst : ∀ p, storedName env it1 x p = storedName env it x p := storedName_congr h3 x
        have hhas : ∀ q, it1.hasProfile env q = it.hasProfile env q := by
          intro q
          rw [Bool.eq_iff_iff, hasProfile_iff, hasProfile_iff, h3 _ (Ne.symm (en_iid _))]
        have hset : Reads (it1.tab (elementName env.ver)) p (storedName env it x p) := by
          rw [h4]; exact (reads_set_mem (wf.tab _) hv (by simp) _).2 rfl
        refine ⟨k1, fun n hn => by rw [k2 n hn, h3 n hn], ?_, ?_, ?_⟩
        · intro hn q hq w hw
          simp only [List.mem_cons, not_or] at hq hn
          refine k3 hn.2 q hq.2 w ?_
          rw [h4, reads_set_not_mem (wf.tab _) hv (by simpa using hq.1)]
          rcases hw with hw | ⟨hw, hw'⟩
          · exact Or.inl hw
          · exact Or.inr ⟨hw, Or.inr ⟨by simpa using hn.1, hw'⟩⟩
        · intro w0 hw0 q hq
          refine k4 w0 (fun p hp => by rw [hst]; exact hw0 p (by simp [hp])) q ?_
          have e := hw0 p (by simp)
          rw [e] at h4 hv
          rw [h4]
          by_cases hqp : q ∈ ({p} : PSet)
          · exact (reads_set_mem (wf.tab _) hv hqp _).2 rfl
          · rw [reads_set_not_mem (wf.tab _) hv hqp]
            rcases hq with hq | ⟨hq, hq'⟩
            · exact Or.inl hq
            · refine Or.inr ⟨hq, ?_⟩
              by_cases hn : none ∈ ({p} : PSet)
              · exact Or.inl ⟨hn, rfl⟩
              · exact Or.inr ⟨hn, hq'⟩
        · intro hor q hq hqh
          have hor' : none ∉ r ∨ (∀ p ∈ r, ∀ p' ∈ r, storedName env it1 x p = storedName env it1 x p') := by
            rcases hor with hor | hor
            · exact Or.inl (fun hn => hor (by simp [hn]))
            · exact Or.inr (fun p hp p' hp' => by rw [hst, hst]; exact hor p (by simp [hp]) p' (by simp [hp']))
          by_cases hqr : q ∈ r
          · rw [← hst]
            exact k5 hor' q hqr (by rw [hhas]; exact hqh)
          · have hqp : q = p := by simpa [hqr] using hq
            subst hqp
            rcases hor with hor | hor
            · exact k3 (fun hn => hor (by simp [hn])) q hqr _ hset
            · exact k4 _ (fun p' hp => by rw [hst]; exact hor p' (by simp [hp]) q (by simp)) q hset
    · rename_i hh
      obtain ⟨k1, k2, k3, k4, k5⟩ := setUnder_names hl hx hne r wf (fun p hp => ht p (by simp [hp])) h
      refine ⟨k1, k2, ?_, ?_, ?_⟩
      · intro hn q hq
        simp only [List.mem_cons, not_or] at hq hn
        exact k3 hn.2 q hq.2
      · intro w0 hw0
        exact k4 w0 (fun p hp => hw0 p (by simp [hp]))
      · intro hor q hq hqh
        have hor' : none ∉ r ∨ (∀ p ∈ r, ∀ p' ∈ r, storedName env it x p = storedName env it x p') := by
          rcases hor with hor | hor
          · exact Or.inl (fun hn => hor (by simp [hn]))
          · exact Or.inr (fun p hp p' hp' => hor p (by simp [hp]) p' (by simp [hp']))
        rcases List.mem_cons.1 hq with rfl | hqr
        · exact absurd hqh hh
        · exact k5 hor' q hqr hqh

/-- the names read back -/
theorem setUnder_names_value {env : Env} (hl : LiteralSub env) {x : Str} (hx : TameText x) (hne : x ≠ []) (L : List Prof)
    {it it' : Item} (wf : ItemWF env it) (ht : ∀ p ∈ L, TameUnder env it p)
    (h : setUnder env (elementName env.ver) (.str x) L it = .ok it')
    (hor : none ∉ L ∨ (∀ p ∈ L, ∀ k ∈ enOrder, phVals env it {p} k = phVals env it {none} k))
    {p : Prof} (hp : p ∈ L) (hh : it.hasProfile env p = true) :
    it'.getValue env (elementName env.ver) (some {p}) = .ok (some (.str x)) := by
  obtain ⟨k1, k2, -, -, k5⟩ := setUnder_names hl hx hne L wf ht h
  have hr := k5 (by
    rcases hor with hor | hor
    · exact Or.inl hor
    · refine Or.inr (fun p hp p' hp' => ?_)
      unfold storedName
      rw [hideAll_congr enOrder x (fun k hk => hor p hp k hk), hideAll_congr enOrder x (fun k hk => hor p' hp' k hk)]) p hp hh
  exact getValue_en_back hl (ht p hp) (fun k hk => phVals_congr k2 _ hk) hx hne ((getRaw_single k1 _ p _).2 hr)

end Cot
