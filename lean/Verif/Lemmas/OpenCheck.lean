import Verif.Spec.Open
import Verif.Lemmas.Reopen
import Verif.Lemmas.NormIdem
import Verif.Lemmas.Refresh
/-
What is found when a package is opened.
-/
namespace Cot

variable {l : Lib}

/-- a directory or an archive -/
def Place (w : Fs) (path : Str) : Prop :=
  path.head? = some '/' ∧ (w.isDir path = true ∨ ((w.file path).isSome = true ∧ (w.tar path).isSome = true))

theorem HoldsFile.unique {w : Fs} {path h : Str} {b b' : List UInt8} (hc : Clear w path) (h1 : HoldsFile w path h b)
    (h2 : HoldsFile w path h b') : b = b' := by
  cases h1 with
  | disk d f => cases h2 with
    | disk d' f' => rw [f] at f'; cases f'; rfl
    | tar d' => rw [d] at d'; cases d'
  | tar d f t m n => cases h2 with
    | disk d' f' => rw [d] at d'; cases d'
    | tar d' f' t' m' n' =>
      rw [t] at t'
      cases t'
      have := List.inj_on_of_nodup_map (hc d _ t) m m' (n.trans n'.symm)
      cases this
      rfl

/-- what looking for a file comes to -/
theorem create_cases {digest : Str → List UInt8 → Except Err Str} {w : Fs} {path h : Str} (hp : Place w path)
    (hcl : Clear w path) :
    ((¬ ∃ b, HoldsFile w path h b) ∧ ∀ algo c n, FRef.create digest w path h algo c n = .error .ioError) ∨
    ∃ b, HoldsFile w path h b ∧ ∀ algo c n, ∃ r : FRef, FRef.create digest w path h algo c n = r.compare digest w c n ∧
      r.content w = .ok b ∧ r.sum = none ∧ r.size = none ∧ r.algo = algo := by
  obtain ⟨ha, hp⟩ := hp
  have hm : makeAbs w path = path := by unfold makeAbs; rw [if_pos ha]
  cases hdir : w.isDir path with
  | true =>
    cases hf : w.file (pathJoin path (normpath h)) with
    | none =>
      refine Or.inl ⟨?_, fun algo c n => ?_⟩
      · rintro ⟨b, hb⟩
        cases hb with
        | disk d f => rw [hf] at f; cases f
        | tar d => rw [hdir] at d; cases d
      · unfold FRef.create
        simp only [hm, hdir, if_true]
        unfold FRef.init
        simp only [hm]
        unfold FRef.exists_
        simp [hf]
    | some b =>
      refine Or.inr ⟨b, .disk hdir hf, fun algo c n => ?_⟩
      unfold FRef.create
      simp only [hm, hdir, if_true]
      unfold FRef.init
      simp only [hm]
      unfold FRef.exists_
      simp only [Bool.false_eq_true, if_false, hf, Option.isSome_some]
      refine ⟨_, rfl, ?_, rfl, rfl, rfl⟩
      simp [FRef.content, hf]
  | false =>
    rw [hdir] at hp
    simp only [Bool.false_eq_true, false_or] at hp
    obtain ⟨hfile, htar⟩ := hp
    obtain ⟨ms, hms⟩ := Option.isSome_iff_exists.1 htar
    have hnd := hcl hdir ms hms
    have key : ∀ algo c n, FRef.create digest w path h algo c n = FRef.init digest w true path h algo c n := by
      intro algo c n
      unfold FRef.create
      simp only [hm, hdir, Bool.false_eq_true, if_false, hfile, if_true, htar]
    by_cases hex : ∃ m ∈ ms, normpath m.1 = normpath h
    · obtain ⟨m, hmem, hname⟩ := hex
      have huq : ∀ m' ∈ ms, normpath m'.1 = normpath h → m' = m := fun m' hm' hn' =>
        List.inj_on_of_nodup_map hnd hm' hmem (hn'.trans hname.symm)
      refine Or.inr ⟨m.2, .tar hdir hfile hms (n := m.1) hmem hname, fun algo c n => ?_⟩
      rw [key]
      unfold FRef.init
      simp only [hm]
      unfold FRef.exists_
      simp only [if_true, hms]
      cases hg : getMember ms (normpath h) with
      | some b =>
        have := huq _ (getMember_some hg) (normpath_idem h)
        refine ⟨_, rfl, ?_, rfl, rfl, rfl⟩
        simp only [FRef.content, if_true, hms, hg]
        rw [← this]
      | none =>
        cases hx : ms.find? (fun m => decide (normpath m.1 = normpath h)) with
        | none =>
          rw [List.find?_eq_none] at hx
          exact absurd hname (by simpa using hx m hmem)
        | some m' =>
          have h1 := List.mem_of_find?_eq_some hx
          have h2 := List.find?_some hx
          simp at h2
          have h3 := huq m' h1 h2
          subst h3
          refine ⟨_, rfl, ?_, rfl, rfl, rfl⟩
          obtain ⟨b, hb⟩ := getMember_of_mem h1
          have := getMember_some hb
          have e := huq _ this h2
          simp only [FRef.content, if_true, hms, hb]
          rw [← e]
    · refine Or.inl ⟨?_, fun algo c n => ?_⟩
      · rintro ⟨b, hb⟩
        cases hb with
        | disk d f => rw [hdir] at d; cases d
        | tar d f t m n =>
          rw [hms] at t
          cases t
          exact hex ⟨_, m, n⟩
      · rw [key]
        unfold FRef.init
        simp only [hm]
        unfold FRef.exists_
        simp only [if_true, hms]
        cases hg : getMember ms (normpath h) with
        | some b => exact absurd ⟨_, getMember_some hg, normpath_idem h⟩ hex
        | none =>
          cases hx : ms.find? (fun m => decide (normpath m.1 = normpath h)) with
          | none => rfl
          | some m' =>
            refine absurd ⟨m', List.mem_of_find?_eq_some hx, ?_⟩ hex
            have h2 := List.find?_some hx
            simpa using h2

/-- the comparison with what is expected -/
theorem compare_cases {digest : Str → List UInt8 → Except Err Str} {a : Str} {sum : List UInt8 → Str}
    (hd : ∀ b, digest a b = .ok (sum b)) {w : Fs} {r : FRef} {b : List UInt8} (c n : Option Str)
    (hr : r.content w = .ok b) (h1 : r.sum = none) (h2 : r.size = none) (ha : r.algo = some a) :
    ((∃ s, n = some s ∧ pyInt s = none) ∧ r.compare digest w c n = .error .valueError) ∨
    ((∀ s, n = some s → pyInt s ≠ none) ∧ ∃ r' ws, r.compare digest w c n = .ok (r', ws) ∧ r'.content w = .ok b ∧
      (FWarn.checksum ∈ ws ↔ ∃ s, c = some s ∧ s ≠ sum b) ∧
      (FWarn.size ∈ ws ↔ ∃ s, n = some s ∧ pyInt s ≠ some (b.length : Int))) := by
  have hsz : ∀ r' : FRef, SameRef r r' → r'.size = none → ∃ r2, r'.readSize w = (.ok b.length, r2) ∧ SameRef r r2 := by
    intro r' hsr hn
    unfold FRef.readSize
    rw [hn, hsr.content, hr]
    exact ⟨_, rfl, hsr⟩
  have hsm : ∃ r', r.readSum digest w = (.ok (some (sum b)), r') ∧ SameRef r r' ∧ r'.size = none := by
    unfold FRef.readSum
    rw [ha, h1, hr]
    simp only [hd]
    exact ⟨_, rfl, ⟨rfl, rfl, rfl⟩, h2⟩
  have tail : ∀ (r1 : FRef) (ws1 : List FWarn), SameRef r r1 → r1.size = none → FWarn.size ∉ ws1 →
      (FWarn.checksum ∈ ws1 ↔ ∃ s, c = some s ∧ s ≠ sum b) →
      ∀ x : Except Err (FRef × List FWarn), (∀ s, n = some s → x = match r1.readSize w with
        | (.error e, _) => .error e
        | (.ok n', r) => match pyInt s with
          | none => .error .valueError
          | some k => .ok (r, ws1 ++ if (n' : Int) = k then [] else [.size])) → (n = none → x = .ok (r1, ws1)) →
      ((∃ s, n = some s ∧ pyInt s = none) ∧ x = .error .valueError) ∨
      ((∀ s, n = some s → pyInt s ≠ none) ∧ ∃ r' ws, x = .ok (r', ws) ∧ r'.content w = .ok b ∧
        (FWarn.checksum ∈ ws ↔ ∃ s, c = some s ∧ s ≠ sum b) ∧
        (FWarn.size ∈ ws ↔ ∃ s, n = some s ∧ pyInt s ≠ some (b.length : Int))) := by
    intro r1 ws1 e2 e3 e5 e4 x hx1 hx2
    cases n with
    | none =>
      refine Or.inr ⟨by simp, r1, ws1, hx2 rfl, by rw [e2.content]; exact hr, e4, ?_⟩
      simp [e5]
    | some s =>
      obtain ⟨r2, g1, g2⟩ := hsz r1 e2 e3
      have hx := hx1 s rfl
      simp only [g1] at hx
      cases hi : pyInt s with
      | none => rw [hi] at hx; exact Or.inl ⟨⟨s, rfl, hi⟩, hx⟩
      | some k =>
        rw [hi] at hx
        refine Or.inr ⟨?_, r2, _, hx, by rw [g2.content]; exact hr, ?_, ?_⟩
        · rintro s' hs'
          cases hs'
          simp [hi]
        · rw [List.mem_append, e4]
          constructor
          · rintro (h | h)
            · exact h
            · split at h <;> simp at h
          · exact Or.inl
        · rw [List.mem_append]
          by_cases hk : (b.length : Int) = k
          · simp [e5, hk, hi]
          · simp [e5, hk, hi, Ne.symm hk]
  cases c with
  | none =>
    refine tail r [] (SameRef.refl r) h2 (by simp) (by simp) _ ?_ ?_
    · rintro s rfl; rfl
    · rintro rfl; rfl
  | some s =>
    obtain ⟨r', f1, f2, f3⟩ := hsm
    refine tail r' (if (some (sum b)) = some s then [] else [.checksum]) f2 f3 (by split <;> simp) ?_ _ ?_ ?_
    · by_cases hs : sum b = s
      · simp [hs]
      · simp [hs, Ne.symm hs]
    · rintro s' rfl
      unfold FRef.compare
      simp only [f1]
      rfl
    · rintro rfl
      unfold FRef.compare
      simp only [f1]

/-- what looking for a file with expectations comes to -/
theorem create_checked {digest : Str → List UInt8 → Except Err Str} {a : Str} {sum : List UInt8 → Str}
    (hd : ∀ b, digest a b = .ok (sum b)) {w : Fs} {path h : Str} (hp : Place w path) (hcl : Clear w path)
    (c n : Option Str) :
    ((¬ ∃ b, HoldsFile w path h b) ∧ FRef.create digest w path h (some a) c n = .error .ioError) ∨
    ∃ b, HoldsFile w path h b ∧
    (((∃ s, n = some s ∧ pyInt s = none) ∧ FRef.create digest w path h (some a) c n = .error .valueError) ∨
    ((∀ s, n = some s → pyInt s ≠ none) ∧
      ∃ r ws, FRef.create digest w path h (some a) c n = .ok (r, ws) ∧ r.content w = .ok b ∧
      (FWarn.checksum ∈ ws ↔ ∃ s, c = some s ∧ s ≠ sum b) ∧
      (FWarn.size ∈ ws ↔ ∃ s, n = some s ∧ pyInt s ≠ some (b.length : Int)))) := by
  rcases create_cases (digest := digest) (h := h) hp hcl with ⟨h1, h2⟩ | ⟨b, h1, h2⟩
  · exact Or.inl ⟨h1, h2 _ _ _⟩
  · obtain ⟨r, e, f1, f2, f3, f4⟩ := h2 (some a) c n
    refine Or.inr ⟨b, h1, ?_⟩
    rw [e]
    exact compare_cases hd c n f1 f2 f3 f4

/-! ### The manifest -/

theorem readManifest_cases {digest : Str → List UInt8 → Except Err Str} {w : Fs} {path n : Str} (hp : Place w path)
    (hcl : Clear w path) :
    ((¬ ∃ b, HoldsFile w path n b) ∧ readManifest l digest w path n = .ok none) ∨
    ∃ b, HoldsFile w path n b ∧
      readManifest l digest w path n = match l.dec b with | none => .error .valueError | some t => .ok (some t) := by
  unfold readManifest
  rcases create_cases (digest := digest) (h := n) hp hcl with ⟨h1, h2⟩ | ⟨b, h1, h2⟩
  · rw [h2]
    exact Or.inl ⟨h1, rfl⟩
  · obtain ⟨r, e, f1, f2, f3, f4⟩ := h2 none none none
    rw [e]
    refine Or.inr ⟨b, h1, ?_⟩
    have : r.compare digest w none none = .ok (r, []) := rfl
    rw [this]
    simp only [f1]
    rfl

theorem linesOf_any (t : Str) : LinesOf t (splitOnChar '\n' t) := by
  refine ⟨splitOnChar_ne_nil _ _, splitOnChar_sepfree '\n' t, (joinWith_splitOnChar '\n' t).symm⟩

theorem mem_badLines {t line : Str} : line ∈ badLines t ↔
    line ∈ splitOnChar '\n' t ∧ line ≠ [] ∧ ∀ a n s, ¬ IsManifestLine line a n s := by
  unfold badLines
  rw [List.mem_filter]
  constructor
  · rintro ⟨h1, h2⟩
    simp only [Bool.and_eq_true, decide_eq_true_eq] at h2
    refine ⟨h1, h2.1, fun a n s h => ?_⟩
    rw [manifestRe_some (splitOnChar_sepfree '\n' t line h1) h] at h2
    simp at h2
  · rintro ⟨h1, h2, h3⟩
    refine ⟨h1, ?_⟩
    rw [manifestRe_none (splitOnChar_sepfree '\n' t line h1) h3]
    simp [h2]

/-! ### The entries of the descriptor -/

theorem foldl_dset_get {v : Ver} : ∀ (es : List Elem) (acc : List (Option Str × Option Str)) (k s : Option Str),
    dget? (es.foldl (fun d e => dset d (e.get (fileHref v)) (e.get (fileSize v))) acc) k = some s ↔
      (∃ pre e post, es = pre ++ e :: post ∧ e.get (fileHref v) = k ∧ e.get (fileSize v) = s ∧
        ∀ x ∈ post, x.get (fileHref v) ≠ k) ∨ ((∀ e ∈ es, e.get (fileHref v) ≠ k) ∧ dget? acc k = some s)
  | [], acc, k, s => by simp
  | e :: t, acc, k, s => by
    rw [List.foldl_cons, foldl_dset_get t, dget?_dset]
    constructor
    · rintro (⟨pre, x, post, rfl, h⟩ | ⟨h1, h2⟩)
      · exact Or.inl ⟨e :: pre, x, post, rfl, h⟩
      · split at h2
        · rename_i hk
          cases h2
          exact Or.inl ⟨[], e, t, rfl, hk.symm ▸ rfl, rfl, h1⟩
        · rename_i hk
          refine Or.inr ⟨?_, h2⟩
          intro x hx
          rcases List.mem_cons.1 hx with rfl | hx
          · exact fun h => hk (by rw [h])
          · exact h1 x hx
    · rintro (⟨pre, x, post, hx, h1, h2, h3⟩ | ⟨h1, h2⟩)
      · cases pre with
        | nil =>
          simp only [List.nil_append, List.cons.injEq] at hx
          obtain ⟨rfl, rfl⟩ := hx
          refine Or.inr ⟨h3, ?_⟩
          rw [h1, if_pos rfl, h2]
        | cons y pre =>
          simp only [List.cons_append, List.cons.injEq] at hx
          obtain ⟨rfl, rfl⟩ := hx
          exact Or.inl ⟨pre, x, post, rfl, h1, h2, h3⟩
      · refine Or.inr ⟨fun x hx => h1 x (by simp [hx]), ?_⟩
        rw [if_neg (h1 e (by simp))]
        exact h2

theorem foldl_dset_nodup {v : Ver} : ∀ (es : List Elem) (acc : List (Option Str × Option Str)), (dkeys acc).Nodup →
    (dkeys (es.foldl (fun d e => dset d (e.get (fileHref v)) (e.get (fileSize v))) acc)).Nodup
  | [], _, h => h
  | _ :: t, _, h => foldl_dset_nodup t _ (nodup_dset h)

theorem describedFiles_nodup (v : Ver) (refs : Elem) : (dkeys (describedFiles v refs)).Nodup :=
  foldl_dset_nodup _ _ (by simp [dkeys])

theorem filter_split {α : Type} {p : α → Bool} : ∀ {xs pre post : List α} {e : α}, xs.filter p = pre ++ e :: post →
    ∃ pre' post', xs = pre' ++ e :: post' ∧ p e = true ∧ post'.filter p = post
  | [], pre, post, e, h => by simp at h
  | x :: xs, pre, post, e, h => by
    by_cases hx : p x = true
    · rw [List.filter_cons_of_pos hx] at h
      cases pre with
      | nil =>
        simp only [List.nil_append, List.cons.injEq] at h
        obtain ⟨rfl, h⟩ := h
        exact ⟨[], xs, rfl, hx, h⟩
      | cons y pre =>
        simp only [List.cons_append, List.cons.injEq] at h
        obtain ⟨rfl, h⟩ := h
        obtain ⟨p', q', rfl, h2, h3⟩ := filter_split h
        exact ⟨x :: p', q', rfl, h2, h3⟩
    · rw [List.filter_cons_of_neg hx] at h
      obtain ⟨p', q', rfl, h2, h3⟩ := filter_split h
      exact ⟨x :: p', q', rfl, h2, h3⟩

theorem describedFiles_get {v : Ver} {refs : Elem} {h : Str} {s : Option Str} :
    (some h, s) ∈ describedFiles v refs ↔ SaysSize v refs h s := by
  have : (some h, s) ∈ describedFiles v refs ↔ dget? (describedFiles v refs) (some h) = some s :=
    ⟨dget?_of_mem (describedFiles_nodup v refs), dget?_mem⟩
  rw [this]
  unfold describedFiles
  rw [foldl_dset_get]
  simp only [dget?_nil, reduceCtorEq, and_false, or_false]
  unfold SaysSize
  constructor
  · rintro ⟨pre, e, post, h1, h2, h3, h4⟩
    obtain ⟨p', q', g1, g2, rfl⟩ := filter_split h1
    refine ⟨p', e, q', g1, by simpa using g2, h2, h3, ?_⟩
    intro x hx ht
    exact h4 x (List.mem_filter.2 ⟨hx, by simpa using ht⟩)
  · rintro ⟨pre, e, post, h1, h2, h3, h4, h5⟩
    refine ⟨pre.filter (fun e => e.tag == fileTag v), e, post.filter (fun e => e.tag == fileTag v), ?_, h3, h4, ?_⟩
    · rw [h1, List.filter_append, List.filter_cons_of_pos (by simpa using h2)]
    · intro x hx
      obtain ⟨g1, g2⟩ := List.mem_filter.1 hx
      exact h5 x g1 (by simpa using g2)

theorem mem_dkeys {κ ν : Type} [DecidableEq κ] {d : List (κ × ν)} {k : κ} : k ∈ dkeys d ↔ ∃ v, (k, v) ∈ d := by
  unfold dkeys
  simp

theorem mem_foldl_dset {v : Ver} {k : Option Str} : ∀ (es : List Elem) (acc : List (Option Str × Option Str)),
    k ∈ dkeys (es.foldl (fun d e => dset d (e.get (fileHref v)) (e.get (fileSize v))) acc) ↔
      (∃ e ∈ es, e.get (fileHref v) = k) ∨ k ∈ dkeys acc
  | [], acc => by simp
  | e :: t, acc => by
    rw [List.foldl_cons, mem_foldl_dset t, dkeys_dset]
    by_cases hk : e.get (fileHref v) ∈ dkeys acc
    · rw [if_pos hk]
      constructor
      · rintro (⟨x, hx, h⟩ | h)
        · exact Or.inl ⟨x, by simp [hx], h⟩
        · exact Or.inr h
      · rintro (⟨x, hx, h⟩ | h)
        · rcases List.mem_cons.1 hx with rfl | hx
          · exact Or.inr (h ▸ hk)
          · exact Or.inl ⟨x, hx, h⟩
        · exact Or.inr h
    · rw [if_neg hk]
      simp only [List.mem_append, List.mem_cons, List.not_mem_nil, or_false]
      constructor
      · rintro (⟨x, hx, h⟩ | h | rfl)
        · exact Or.inl ⟨x, Or.inr hx, h⟩
        · exact Or.inr h
        · exact Or.inl ⟨e, Or.inl rfl, rfl⟩
      · rintro (⟨x, rfl | hx, h⟩ | h)
        · exact Or.inr (Or.inr h.symm)
        · exact Or.inl ⟨x, hx, h⟩
        · exact Or.inr (Or.inl h)

theorem mem_described {v : Ver} {refs : Elem} {h : Str} :
    some h ∈ dkeys (describedFiles v refs) ↔ h ∈ namedFiles v refs := by
  unfold describedFiles namedFiles
  rw [mem_foldl_dset]
  simp only [dkeys, List.map_nil, List.not_mem_nil, or_false, List.mem_filter, List.mem_filterMap, beq_iff_eq]
  constructor
  · rintro ⟨e, ⟨h1, h2⟩, h3⟩
    exact ⟨e, h1, by rw [if_pos h2, h3]⟩
  · rintro ⟨e, h1, h2⟩
    split at h2
    · rename_i ht
      exact ⟨e, ⟨h1, ht⟩, h2⟩
    · cases h2

theorem none_described {v : Ver} {refs : Elem} :
    none ∈ dkeys (describedFiles v refs) ↔ ∃ e ∈ refs.children, e.tag = fileTag v ∧ e.get (fileHref v) = none := by
  unfold describedFiles
  rw [mem_foldl_dset]
  simp only [dkeys, List.map_nil, List.not_mem_nil, or_false, List.mem_filter, beq_iff_eq]
  constructor
  · rintro ⟨e, ⟨h1, h2⟩, h3⟩; exact ⟨e, h1, h2, h3⟩
  · rintro ⟨e, h1, h2, h3⟩; exact ⟨e, ⟨h1, h2⟩, h3⟩

/-! ### The loop over the files -/

theorem checkFiles_exact {digest : Str → List UInt8 → Except Err Str} {w : Fs} {algo path : Str}
    {mf : List (Str × Str × Str)} : ∀ {d : List (Option Str × Option Str)} {fs : List (Str × FRef)} {cs : List Complaint},
    checkFiles digest w algo path mf d = .ok (fs, cs) →
    (∀ x, x ∈ cs ↔ ∃ h size, (some h, size) ∈ d ∧
      ((x = .missing h ∧ FRef.create digest w path h (some algo) ((dget? mf h).map Prod.snd) size = .error .ioError) ∨
        ∃ r ws y, FRef.create digest w path h (some algo) ((dget? mf h).map Prod.snd) size = .ok (r, ws) ∧ y ∈ ws ∧
          x = .differs h y)) ∧
    (∀ h r, (h, r) ∈ fs ↔ ∃ size ws, (some h, size) ∈ d ∧
      FRef.create digest w path h (some algo) ((dget? mf h).map Prod.snd) size = .ok (r, ws)) ∧
    none ∉ dkeys d
  | [], fs, cs, h => by
    unfold checkFiles at h
    cases h
    simp [dkeys]
  | (none, _) :: t, fs, cs, h => by
    unfold checkFiles at h
    cases h
  | (some k, size) :: t, fs, cs, h => by
    unfold checkFiles at h
    cases hc : FRef.create digest w path k (some algo) ((dget? mf k).map Prod.snd) size with
    | error e =>
      rw [hc] at h
      cases e with
      | ioError =>
        simp only at h
        cases hr : checkFiles digest w algo path mf t with
        | error e => rw [hr] at h; cases h
        | ok y =>
          obtain ⟨fs', cs'⟩ := y
          rw [hr] at h
          cases h
          obtain ⟨i1, i2, i3⟩ := checkFiles_exact hr
          refine ⟨?_, ?_, ?_⟩
          · intro x
            rw [List.mem_cons, i1]
            constructor
            · rintro (rfl | ⟨h, s, h1, h2⟩)
              · exact ⟨k, size, by simp, Or.inl ⟨rfl, hc⟩⟩
              · exact ⟨h, s, by simp [h1], h2⟩
            · rintro ⟨h, s, h1, h2⟩
              rcases List.mem_cons.1 h1 with h1 | h1
              · cases h1
                rcases h2 with ⟨h2, -⟩ | ⟨r, ws, y, h2, -⟩
                · exact Or.inl h2
                · rw [hc] at h2; cases h2
              · exact Or.inr ⟨h, s, h1, h2⟩
          · intro h r
            rw [i2]
            constructor
            · rintro ⟨s, ws, h1, h2⟩
              exact ⟨s, ws, by simp [h1], h2⟩
            · rintro ⟨s, ws, h1, h2⟩
              rcases List.mem_cons.1 h1 with h1 | h1
              · cases h1
                rw [hc] at h2; cases h2
              · exact ⟨s, ws, h1, h2⟩
          · simp only [dkeys, List.map_cons, List.mem_cons, not_or, reduceCtorEq, not_false_eq_true, true_and]
            exact i3
      | _ => cases h
    | ok x =>
      obtain ⟨r, ws⟩ := x
      rw [hc] at h
      simp only at h
      cases hr : checkFiles digest w algo path mf t with
      | error e => rw [hr] at h; cases h
      | ok y =>
        obtain ⟨fs', cs'⟩ := y
        rw [hr] at h
        cases h
        obtain ⟨i1, i2, i3⟩ := checkFiles_exact hr
        refine ⟨?_, ?_, ?_⟩
        · intro x
          rw [List.mem_append, i1]
          constructor
          · rintro (h | ⟨h, s, h1, h2⟩)
            · obtain ⟨y, hy, rfl⟩ := List.mem_map.1 h
              exact ⟨k, size, by simp, Or.inr ⟨r, ws, y, hc, hy, rfl⟩⟩
            · exact ⟨h, s, by simp [h1], h2⟩
          · rintro ⟨h, s, h1, h2⟩
            rcases List.mem_cons.1 h1 with h1 | h1
            · cases h1
              rcases h2 with ⟨-, h2⟩ | ⟨r', ws', y, h2, h3, rfl⟩
              · rw [hc] at h2; cases h2
              · rw [hc] at h2; cases h2
                exact Or.inl (List.mem_map.2 ⟨y, h3, rfl⟩)
            · exact Or.inr ⟨h, s, h1, h2⟩
        · intro h r'
          rw [List.mem_cons, i2]
          constructor
          · rintro (hh | ⟨s, ws, h1, h2⟩)
            · cases hh
              exact ⟨size, ws, by simp, hc⟩
            · exact ⟨s, ws, by simp [h1], h2⟩
          · rintro ⟨s, ws', h1, h2⟩
            rcases List.mem_cons.1 h1 with h1 | h1
            · cases h1
              rw [hc] at h2; cases h2
              exact Or.inl rfl
            · exact Or.inr ⟨s, ws', h1, h2⟩
        · simp only [dkeys, List.map_cons, List.mem_cons, not_or, reduceCtorEq, not_false_eq_true, true_and]
          exact i3

theorem checkFiles_succeeds {digest : Str → List UInt8 → Except Err Str} {w : Fs} {algo path : Str}
    {mf : List (Str × Str × Str)} : ∀ {d : List (Option Str × Option Str)}, none ∉ dkeys d →
    (∀ h size, (some h, size) ∈ d →
      FRef.create digest w path h (some algo) ((dget? mf h).map Prod.snd) size = .error .ioError ∨
      ∃ x, FRef.create digest w path h (some algo) ((dget? mf h).map Prod.snd) size = .ok x) →
    ∃ x, checkFiles digest w algo path mf d = .ok x
  | [], _, _ => ⟨_, rfl⟩
  | (none, _) :: t, hn, _ => absurd (by simp [dkeys]) hn
  | (some k, size) :: t, hn, h => by
    obtain ⟨⟨fs, cs⟩, hx⟩ := checkFiles_succeeds (d := t) (fun hh => hn (by
      simp only [dkeys, List.map_cons, List.mem_cons] at hh ⊢; exact Or.inr hh)) (fun h' s hs => h h' s (by simp [hs]))
    unfold checkFiles
    rcases h k size (by simp) with h1 | ⟨⟨r, ws⟩, h1⟩
    · simp only [h1, hx]; exact ⟨_, rfl⟩
    · simp only [h1, hx]; exact ⟨_, rfl⟩

end Cot
