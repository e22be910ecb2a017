import Verif.Lemmas.Reopen
/-
From the state of a package to the run that writes it.
-/
namespace Cot

variable {l : Lib}

/-! ### Names -/

theorem pathExt_base (p : Str) : pathExt (pathBase p) = pathExt p := by
  have : pathBase (pathBase p) = pathBase p := by
    have := pathBase_of_noslash (noslash_base p) [] (Or.inl rfl)
    simpa using this
  unfold pathExt
  rw [this]

theorem pathExt_length (p : Str) : (pathExt p).length ≤ (pathBase p).length := by
  unfold pathExt
  simp only
  split
  · rename_i h
    have h1 : ((pathBase p).dropWhile (fun c => c == '.')).length ≤ (pathBase p).length :=
      (List.dropWhile_sublist _).length_le
    generalize (pathBase p).dropWhile (fun c => c == '.') = b at h h1
    have h2 : (b.reverse.takeWhile (fun c => c != '.')).length < b.reverse.length := by
      rcases Nat.lt_or_ge (b.reverse.takeWhile (fun c => c != '.')).length b.reverse.length with h3 | h3
      · exact h3
      · exfalso
        have h4 := (List.takeWhile_prefix (fun c => c != '.') (l := b.reverse)).eq_of_length_le h3
        have h5 := List.all_takeWhile (p := fun c => c != '.') (l := b.reverse)
        rw [h4, List.all_eq_true] at h5
        have := h5 '.' (by simpa using h)
        simp at this
    simp only [List.length_cons, List.length_reverse] at h2 ⊢
    omega
  · simp

theorem pathRoot_head (p : Str) : pathRoot p = pathHead p ++ pathRoot (pathBase p) := by
  have h := head_base p
  have hl := pathExt_length p
  unfold pathRoot
  rw [pathExt_base]
  generalize pathHead p = a at *
  generalize pathBase p = b at *
  generalize pathExt p = e at *
  subst h
  rw [List.length_append, show a.length + b.length - e.length = a.length + (b.length - e.length) by omega,
    List.take_append]
  simp

theorem pathHead_of {a b : Str} (hb : '/' ∉ b) (ha : a = [] ∨ a.getLast? = some '/') : pathHead (a ++ b) = a := by
  have h1 := head_base (a ++ b)
  rw [pathBase_of_noslash hb a ha] at h1
  exact List.append_cancel_right h1

theorem join_head {W : Str} :
    ∃ X, (X = [] ∨ X.getLast? = some '/') ∧ W <+: X ∧ ∀ m, '/' ∉ m → pathJoin W m = X ++ m := by
  by_cases h : W = [] ∨ W.getLast? = some '/'
  · refine ⟨W, h, List.prefix_refl W, fun m hm => ?_⟩
    unfold pathJoin
    rw [if_neg (show ¬ m.head? = some '/' from fun hh => hm (List.mem_of_mem_head? hh)), if_pos h]
  · refine ⟨W ++ ['/'], Or.inr (by simp), ⟨['/'], rfl⟩, fun m hm => ?_⟩
    unfold pathJoin
    rw [if_neg (show ¬ m.head? = some '/' from fun hh => hm (List.mem_of_mem_head? hh)), if_neg h]
    simp

theorem pathRoot_join {W b : Str} (hb : '/' ∉ b) (hr : '/' ∉ pathRoot b) : pathRoot (pathJoin W b) = pathJoin W (pathRoot b) := by
  obtain ⟨X, hX, -, hall⟩ := join_head (W := W)
  rw [hall b hb, hall _ hr, pathRoot_head, pathHead_of hb hX, pathBase_of_noslash hb X hX]

theorem join_append {W a e : Str} (ha : '/' ∉ a) (he : '/' ∉ e) : pathJoin W a ++ e = pathJoin W (a ++ e) := by
  obtain ⟨X, -, -, hall⟩ := join_head (W := W)
  rw [hall a ha, hall (a ++ e) (by simp [ha, he]), List.append_assoc]

theorem plain_suffix {a e : Str} (ha : '/' ∉ a) (he : '/' ∉ e) (hl : ∃ c ∈ e, c ≠ '.') : PlainName (a ++ e) := by
  obtain ⟨c, hc, hne⟩ := hl
  refine ⟨?_, ?_, ?_, by simp [ha, he]⟩
  · intro h
    have : c ∈ a ++ e := by simp [hc]
    rw [h] at this; cases this
  · intro h
    have : c ∈ a ++ e := by simp [hc]
    rw [h] at this; simp at this; exact hne this
  · intro h
    have : c ∈ a ++ e := by simp [hc]
    rw [h] at this; simp at this; exact hne this

/-! ### Refreshed references -/

theorem FileOf.content {v : Ver} {w : Fs} {input h : Str} {r : FRef} {b : List UInt8} (H : FileOf v w input h r b) :
    r.content w = .ok b ∧ r.exists_ w = (.ok true, r) := by
  unfold FRef.content FRef.exists_
  by_cases ht : r.inTar = true
  · obtain ⟨-, -, -, ms, h1, h2⟩ := H.tar ht
    rw [if_pos ht, if_pos ht, h1]
    simp only [h2]
    exact ⟨trivial, trivial⟩
  · obtain ⟨h1, -, h2⟩ := H.disk (by simpa using ht)
    rw [if_neg ht, if_neg ht, h1, h2]
    exact ⟨rfl, rfl⟩

theorem Gone.exists_ {w : Fs} {r : FRef} (H : Gone w r) : r.exists_ w = (.ok false, r) := by
  unfold FRef.exists_
  rcases H with ⟨h1, h2⟩ | ⟨h1, ms, h2, h3⟩
  · rw [if_neg (by simp [h1]), h2]; rfl
  · rw [if_pos h1, h2]
    simp only
    cases hg : getMember ms r.filename with
    | some b => exact absurd rfl (h3 _ (getMember_some hg)).1
    | none =>
      cases hf : ms.find? (fun m => decide (normpath m.1 = r.filename)) with
      | none => rfl
      | some m =>
        have e1 := List.mem_of_find?_eq_some hf
        have e2 := List.find?_some hf
        simp at e2
        exact absurd e2 (h3 m e1).2

theorem readSize_keeps {r r' : FRef} {w : Fs} {x : Except Err Nat} (h : r.readSize w = (x, r')) :
    SameRef r r' ∧ r'.force = r.force ∧ r'.algo = r.algo := by
  unfold FRef.readSize at h
  split at h
  · cases h; exact ⟨SameRef.refl r, rfl, rfl⟩
  · cases hc : r.content w with
    | error e => rw [hc] at h; cases h; exact ⟨SameRef.refl r, rfl, rfl⟩
    | ok b => rw [hc] at h; cases h; exact ⟨⟨rfl, rfl, rfl⟩, rfl, rfl⟩

theorem readSum_keeps {digest : Str → List UInt8 → Except Err Str} {r r' : FRef} {w : Fs} {x : Except Err (Option Str)}
    (h : r.readSum digest w = (x, r')) : SameRef r r' ∧ r'.force = r.force ∧ r'.algo = r.algo := by
  unfold FRef.readSum at h
  cases ha : r.algo with
  | none => rw [ha] at h; cases h; exact ⟨SameRef.refl r, rfl, ha⟩
  | some a =>
    rw [ha] at h
    simp only at h
    split at h
    · cases h; exact ⟨SameRef.refl r, rfl, ha⟩
    · cases hc : r.content w with
      | error e => rw [hc] at h; cases h; exact ⟨SameRef.refl r, rfl, ha⟩
      | ok b =>
        rw [hc] at h
        simp only at h
        cases hd : digest a b with
        | error e => rw [hd] at h; cases h; exact ⟨SameRef.refl r, rfl, ha⟩
        | ok c => rw [hd] at h; cases h; exact ⟨⟨rfl, rfl, rfl⟩, rfl, rfl⟩

theorem exists_same {r r0 : FRef} {w : Fs} (hs : SameRef r r0) (h : r.exists_ w = (.ok true, r)) :
    r0.exists_ w = (.ok true, r0) := by
  have hc := (exists_content h).1
  obtain ⟨b, hb⟩ := hc
  rw [← hs.content] at hb
  unfold FRef.exists_
  unfold FRef.content at hb
  by_cases ht : r0.inTar = true
  · rw [if_pos ht] at hb ⊢
    cases hw : w.tar r0.container with
    | none => rw [hw] at hb; cases hb
    | some ms =>
      rw [hw] at hb
      simp only at hb ⊢
      cases hg : getMember ms r0.filename with
      | none => rw [hg] at hb; cases hb
      | some b' => rfl
  · rw [if_neg ht] at hb ⊢
    cases hw : w.file (pathJoin r0.container r0.filename) with
    | none => rw [hw] at hb; cases hb
    | some b' => rfl

theorem refresh_keeps {digest : Str → List UInt8 → Except Err Str} {r r' : FRef} {w : Fs} {ok : Bool}
    (he : r.exists_ w = (.ok true, r)) (h : r.refresh digest w = (.ok ok, r')) :
    SameRef r r' ∧ r'.force = true ∧ r'.algo = r.algo := by
  unfold FRef.refresh at h
  cases h1 : r.readSize w with
  | mk x r1 =>
    rw [h1] at h
    obtain ⟨a1, -, a3⟩ := readSize_keeps h1
    cases x with
    | error e => cases h
    | ok n =>
      simp only at h
      cases h2 : r1.readSum digest w with
      | mk y r2 =>
        rw [h2] at h
        obtain ⟨b1, -, b3⟩ := readSum_keeps h2
        cases y with
        | error e => cases h
        | ok c =>
          simp only at h
          unfold FRef.recheck at h
          have hs : SameRef r ({ r2 with force := true } : FRef) := a1.trans (b1.trans ⟨rfl, rfl, rfl⟩)
          rw [exists_same hs he] at h
          simp only at h
          cases h3 : ({ r2 with force := true } : FRef).readSize w with
          | mk x3 r3 =>
            rw [h3] at h
            obtain ⟨c1, c2, c3⟩ := readSize_keeps h3
            cases x3 with
            | error e => cases h
            | ok n' =>
              simp only at h
              cases h4 : r3.readSum digest w with
              | mk y4 r4 =>
                rw [h4] at h
                obtain ⟨d1, d2, d3⟩ := readSum_keeps h4
                cases y4 with
                | error e => cases h
                | ok c' =>
                  cases h
                  exact ⟨hs.trans (c1.trans d1), by rw [d2, c2], by rw [d3, c3]; exact b3.trans a3⟩

theorem refreshRefs_held {c : Ctx} {v : Ver} {sum : List UInt8 → Str} {input : Str} {cont : Str → List UInt8} :
    ∀ {files files' : List (Str × FRef)}, (dkeys files).Nodup →
      (∀ h r, dget? files h = some r → FileOf v c.fs input h r (cont h) ∨ Gone c.fs r) →
      refreshRefs c files = .ok files' →
      (dkeys files').Sublist (dkeys files) ∧
      (∀ h, h ∈ dkeys files' ↔ ∃ r, dget? files h = some r ∧ FileOf v c.fs input h r (cont h)) ∧
      ∀ h r', dget? files' h = some r' → Held v sum c.fs h r' (cont h) ∧ ∃ r, dget? files h = some r ∧ SameRef r r'
  | [], files', _, _, h => by
    cases h
    exact ⟨List.Sublist.refl _, fun h => ⟨fun hh => (nomatch hh), fun ⟨r, hr, _⟩ => (nomatch hr)⟩,
      fun h r' hh => (nomatch hh)⟩
  | (n, r) :: t, files', hnd, hf, h => by
    have hnd' : n ∉ dkeys t ∧ (dkeys t).Nodup := List.nodup_cons.1 hnd
    have hft : ∀ h r, dget? t h = some r → FileOf v c.fs input h r (cont h) ∨ Gone c.fs r := by
      intro m s hs
      apply hf m s
      rw [dget?_cons, if_neg]
      · exact hs
      · rintro rfl; exact hnd'.1 (mem_dkeys_of_dget? hs)
    have hup : ∀ m, m ∈ dkeys t → ∀ s, dget? ((n, r) :: t) m = some s ↔ dget? t m = some s := by
      intro m hm s
      rw [dget?_cons, if_neg]
      rintro rfl; exact hnd'.1 hm
    unfold refreshRefs at h
    rcases hf n r (by rw [dget?_cons, if_pos rfl]) with H | H
    · obtain ⟨hb, hex⟩ := H.content
      rw [hex] at h
      simp only at h
      cases hrf : r.refresh c.digest c.fs with
      | mk y r2 =>
        rw [hrf] at h
        cases y with
        | error e => cases h
        | ok ok =>
          simp only at h
          cases hrest : refreshRefs c t with
          | error e => rw [hrest] at h; cases h
          | ok l =>
            rw [hrest] at h
            cases h
            obtain ⟨g1, g2, g3⟩ := refreshRefs_held (sum := sum) hnd'.2 hft hrest
            obtain ⟨s1, s2, s3⟩ := refresh_keeps hex hrf
            refine ⟨?_, ?_, ?_⟩
            · exact g1.cons_cons n
            · intro m
              by_cases hmn : m = n
              · subst hmn
                exact ⟨fun _ => ⟨r, by rw [dget?_cons, if_pos rfl], H⟩, fun _ => by simp [dkeys]⟩
              · have : m ∈ dkeys ((n, r2) :: l) ↔ m ∈ dkeys l := by simp [dkeys, hmn]
                rw [this, g2 m, dget?_cons, if_neg (Ne.symm hmn)]
            · intro m r' hm
              rw [dget?_cons] at hm
              split at hm
              · rename_i hmn
                cases hm; subst hmn
                refine ⟨?_, r, by rw [dget?_cons, if_pos rfl], s1⟩
                refine ⟨H.name.1, s3.trans H.algo, by rw [s1.2.1]; exact H.abs, ?_, ?_, ?_, by rw [s1.content]; exact hb,
                  fun hh => absurd (s2.symm.trans hh) (by decide), fun hh => absurd (s2.symm.trans hh) (by decide)⟩
                · rw [s1.2.2]
                  by_cases ht : r.inTar = true
                  · exact (H.tar ht).2.1
                  · rw [(H.disk (by simpa using ht)).1]; exact plain_norm H.name.1
                · intro ht
                  rw [s1.1] at ht
                  rw [s1.2.1, s1.2.2]
                  exact ⟨(H.disk ht).1, (H.disk ht).2.1⟩
                · rw [s1.2.2]
                  by_cases ht : r.inTar = true
                  · exact (H.tar ht).2.2.1
                  · rw [(H.disk (by simpa using ht)).1]; exact plain_last H.name.1
              · obtain ⟨q1, r0, q2, q3⟩ := g3 m r' hm
                exact ⟨q1, r0, (hup m (mem_dkeys_of_dget? q2) r0).2 q2, q3⟩
    · rw [H.exists_] at h
      simp only at h
      obtain ⟨g1, g2, g3⟩ := refreshRefs_held (sum := sum) hnd'.2 hft h
      refine ⟨g1.cons n, ?_, ?_⟩
      · intro m
        rw [g2 m]
        by_cases hmn : m = n
        · subst hmn
          constructor
          · rintro ⟨s, hs, -⟩
            exact absurd (mem_dkeys_of_dget? hs) hnd'.1
          · rintro ⟨s, hs, hfo⟩
            rw [dget?_cons, if_pos rfl] at hs
            cases hs
            have := hfo.content.2
            rw [H.exists_] at this
            cases this
        · rw [dget?_cons, if_neg (Ne.symm hmn)]
      · intro m r' hm
        obtain ⟨q1, r0, q2, q3⟩ := g3 m r' hm
        exact ⟨q1, r0, (hup m (mem_dkeys_of_dget? q2) r0).2 q2, q3⟩

end Cot
