import Verif.Lemmas.NatSort
import Verif.Spec.NatSort
/-
C15, C16: natural sorting (COT/data_validation.py:66-114).
-/
namespace Cot

/-- The Python list `[t0, n1, t1, ...]` denoted by the model's representation. -/
def keyToks (k : Str × List (Nat × Str)) : List Tok :=
  .txt k.1 :: k.2.flatMap (fun e => [.num e.1, .txt e.2])

theorem reSplitDigits_txt (t s : Str) (ht : ∀ c ∈ t, isDig c = false) :
    reSplitDigits (t ++ s) = (t ++ (reSplitDigits s).1, (reSplitDigits s).2) := by
  induction t with
  | nil => rfl
  | cons c t ih =>
    simp only [List.cons_append]
    conv_lhs => unfold reSplitDigits
    rw [ih (fun x hx => ht x (List.mem_cons_of_mem _ hx))]
    simp [ht c (by simp)]

theorem reSplitDigits_run : ∀ (d s : Str), d ≠ [] → (∀ c ∈ d, isDig c = true) →
    ((reSplitDigits s).1 ≠ [] ∨ (reSplitDigits s).2 = []) →
    reSplitDigits (d ++ s) = ([], (d, (reSplitDigits s).1) :: (reSplitDigits s).2)
  | [], _, h, _, _ => absurd rfl h
  | [c], s, _, hd, hs => by
    simp only [List.cons_append, List.nil_append]
    conv_lhs => unfold reSplitDigits
    simp only [hd c (by simp), if_true]
    generalize reSplitDigits s = r at *
    obtain ⟨x, r⟩ := r
    cases x with
    | nil => cases r with
      | nil => rfl
      | cons e r => simp at hs
    | cons a x => rfl
  | c :: c' :: t, s, _, hd, hs => by
    rw [List.cons_append]
    conv_lhs => unfold reSplitDigits
    rw [reSplitDigits_run (c' :: t) s (by simp) (fun x hx => hd x (List.mem_cons_of_mem _ hx)) hs]
    simp [hd c (by simp)]

theorem reSplitDigits_unsplit (t0 : Str) (rs : List (Str × Str)) (h0 : ∀ c ∈ t0, isDig c = false)
    (h : ∀ e ∈ rs, e.1 ≠ [] ∧ (∀ c ∈ e.1, isDig c = true) ∧ (∀ c ∈ e.2, isDig c = false))
    (hmax : ∀ a e b, rs = a ++ e :: b → b ≠ [] → e.2 ≠ []) :
    reSplitDigits (t0 ++ rs.flatMap (fun e => e.1 ++ e.2)) = (t0, rs) := by
  induction rs generalizing t0 with
  | nil =>
    have := reSplitDigits_txt t0 [] h0
    simpa [reSplitDigits] using this
  | cons e r ih =>
    have he := h e (by simp)
    have ih' := ih e.2 he.2.2 (fun x hx => h x (List.mem_cons_of_mem _ hx))
      (fun a x b hx hb => hmax (e :: a) x b (by simp [hx]) hb)
    rw [reSplitDigits_txt _ _ h0]
    simp only [List.flatMap_cons, List.append_assoc]
    rw [reSplitDigits_run e.1 _ he.1 he.2.1]
    · rw [ih']; simp
    · rw [ih']
      cases r with
      | nil => right; rfl
      | cons x r => left; exact hmax [] e (x :: r) rfl (by simp)

theorem isSplit_iff (s : Str) (k : List Tok) : IsSplit s k ↔ k = keyToks (alphanumSplit s) := by
  constructor
  · rintro ⟨t0, rs, ⟨rfl, h0, h, hm⟩, rfl⟩
    unfold alphanumSplit
    rw [reSplitDigits_unsplit t0 rs h0 h hm]
    simp [keyToks, List.flatMap_map]
  · rintro rfl
    obtain ⟨h1, h2, h3, h4⟩ := reSplitDigits_spec s
    refine ⟨(reSplitDigits s).1, (reSplitDigits s).2, ⟨h1.symm, h2, h3, h4⟩, ?_⟩
    simp [keyToks, alphanumSplit, List.flatMap_map]

theorem strLe_iff (s t : Str) : strLe s t = true ↔
    ¬ List.Lex (fun a b : Char => a.toNat < b.toNat) t s := by
  induction s generalizing t with
  | nil => simp [strLe]
  | cons a s ih =>
    cases t with
    | nil => simp [strLe]
    | cons b t =>
      unfold strLe
      by_cases h : a = b
      · subst h; simp only [if_true, ih]
        constructor
        · intro hn hx
          cases hx with
          | cons hx => exact hn hx
          | rel hx => omega
        · intro hn hx; exact hn (.cons hx)
      · have hn : a.toNat ≠ b.toNat := fun h2 => h (char_eq_of_toNat h2)
        simp only [if_neg h, decide_eq_true_eq]
        constructor
        · intro hlt hx
          cases hx with
          | cons hx => exact h rfl
          | rel hx => omega
        · intro hx
          by_contra hc
          exact hx (.rel (by omega))

theorem strLt_irrefl (s : Str) : ¬ List.Lex (fun a b : Char => a.toNat < b.toNat) s s :=
  (strLe_iff s s).1 (strLe_refl s)

theorem tailLe_iff (r r' : List (Nat × Str)) : tailLe r r' = true ↔
    ¬ List.Lex TokLt (r'.flatMap (fun e => [Tok.num e.1, .txt e.2]))
        (r.flatMap (fun e => [Tok.num e.1, .txt e.2])) := by
  induction r generalizing r' with
  | nil => simp [tailLe]
  | cons e r ih =>
    obtain ⟨m, s⟩ := e
    cases r' with
    | nil => simp [tailLe]
    | cons e' r' =>
      obtain ⟨n, t⟩ := e'
      unfold tailLe
      simp only [List.flatMap_cons, List.cons_append, List.nil_append]
      by_cases h : m = n
      · subst h
        simp only [if_true]
        by_cases h2 : s = t
        · subst h2
          simp only [if_true, ih]
          constructor
          · intro hn hx
            cases hx with
            | cons hx => cases hx with
              | cons hx => exact hn hx
              | rel hx => cases hx with | txt hx => exact strLt_irrefl _ hx
            | rel hx => cases hx with | num hx => omega
          · intro hn hx; exact hn (.cons (.cons hx))
        · simp only [if_neg h2, strLe_iff]
          constructor
          · intro hn hx
            cases hx with
            | cons hx => cases hx with
              | cons hx => exact h2 rfl
              | rel hx => cases hx with | txt hx => exact hn hx
            | rel hx => cases hx with | num hx => omega
          · intro hn hx; exact hn (.cons (.rel (.txt hx)))
      · simp only [if_neg h, decide_eq_true_eq]
        constructor
        · intro hlt hx
          cases hx with
          | cons hx => exact h rfl
          | rel hx => cases hx with | num hx => omega
        · intro hn
          by_contra hc
          exact hn (.rel (.num (by omega)))

theorem natKeyLe_iff (a b : Str × List (Nat × Str)) : natKeyLe a b = true ↔
    ¬ List.Lex TokLt (keyToks b) (keyToks a) := by
  obtain ⟨s, r⟩ := a
  obtain ⟨t, r'⟩ := b
  unfold natKeyLe keyToks
  by_cases h : s = t
  · subst h
    simp only [if_true, tailLe_iff]
    constructor
    · intro hn hx
      cases hx with
      | cons hx => exact hn hx
      | rel hx => cases hx with | txt hx => exact strLt_irrefl _ hx
    · intro hn hx; exact hn (.cons hx)
  · simp only [if_neg h, strLe_iff]
    constructor
    · intro hn hx
      cases hx with
      | cons hx => exact h rfl
      | rel hx => cases hx with | txt hx => exact hn hx
    · intro hn hx; exact hn (.rel (.txt hx))

theorem natLe_iff (x y : Str) : NatLe x y ↔ ¬ NatBefore y x := by
  unfold NatLe NatBefore
  rw [natKeyLe_iff]
  simp [isSplit_iff]

theorem keyToks_inj {a b : Str × List (Nat × Str)} (h : keyToks a = keyToks b) : a = b := by
  obtain ⟨s, r⟩ := a
  obtain ⟨t, r'⟩ := b
  simp only [keyToks, List.cons.injEq, Tok.txt.injEq] at h
  obtain ⟨rfl, h⟩ := h
  congr 1
  induction r generalizing r' with
  | nil => cases r' with
    | nil => rfl
    | cons e r' => simp at h
  | cons e r ih => cases r' with
    | nil => simp at h
    | cons e' r' =>
      simp only [List.flatMap_cons, List.cons_append, List.nil_append, List.cons.injEq,
        Tok.num.injEq, Tok.txt.injEq] at h
      rw [ih _ h.2.2, Prod.ext h.1 h.2.1]

theorem natSame_iff (x y : Str) : NatSame x y ↔ alphanumSplit x = alphanumSplit y := by
  unfold NatSame
  simp only [isSplit_iff]
  constructor
  · rintro ⟨k, h1, h2⟩; exact keyToks_inj (h1.symm.trans h2)
  · intro h; exact ⟨_, rfl, by rw [h]⟩

/-! ## C15 -/

/-- The result is a rearrangement of the input. -/
theorem C15_natural_sort_perm (l : List Str) : (naturalSort l).Perm l := naturalSort_perm l

/-- No element comes after one it should precede in natural order. -/
theorem C15_natural_sort_ordered (l : List Str) :
    (naturalSort l).Pairwise (fun x y => ¬ NatBefore y x) :=
  (naturalSort_sorted l).imp (fun {x y} h => (natLe_iff x y).1 h)

/-- Natural order is a strict weak order: any two names are comparable or read the same, never
both ways, and precedence is transitive. -/
theorem C15_natural_order_total (x y z : Str) :
    (NatBefore x y ∨ NatBefore y x ∨ NatSame x y) ∧ ¬ (NatBefore x y ∧ NatBefore y x) ∧
    ¬ (NatBefore x y ∧ NatSame x y) ∧ (NatBefore x y → NatBefore y z → NatBefore x z) := by
  have e : ∀ a b, NatBefore a b ↔ ¬ NatLe b a := fun a b => by rw [natLe_iff]; tauto
  refine ⟨?_, ?_, ?_, ?_⟩
  · by_cases h1 : NatLe y x
    · by_cases h2 : NatLe x y
      · exact Or.inr (Or.inr ((natSame_iff x y).2 (natKeyLe_antisymm h2 h1)))
      · exact Or.inr (Or.inl ((e y x).2 h2))
    · exact Or.inl ((e x y).2 h1)
  · rintro ⟨h1, h2⟩
    rcases natKeyLe_total (alphanumSplit x) (alphanumSplit y) with h | h
    · exact (e y x).1 h2 h
    · exact (e x y).1 h1 h
  · rintro ⟨h1, h2⟩
    refine (e x y).1 h1 ?_
    unfold NatLe; rw [(natSame_iff x y).1 h2]; exact natKeyLe_refl _
  · intro h1 h2
    rw [e] at h1 h2 ⊢
    intro h
    have hxy : NatLe x y := (natKeyLe_total _ _).resolve_right h1
    exact h2 (natKeyLe_trans h hxy)

/-- Elements that read the same keep their input order. -/
theorem C15_natural_sort_stable (l : List Str) (x : Str) [DecidablePred (NatSame x)] :
    (naturalSort l).filter (fun y => NatSame x y) = l.filter (fun y => NatSame x y) := by
  have h := naturalSort_stable l (alphanumSplit x)
  have e : ∀ m : List Str, m.filter (fun y => decide (NatSame x y)) =
      m.filter (fun s => decide (alphanumSplit s = alphanumSplit x)) := by
    intro m
    refine List.filter_congr ?_
    intro y _
    simp only [natSame_iff, decide_eq_decide]
    exact eq_comm
  rw [e, e, h]

/-- Sorting a sorted list changes nothing, and the result is the only stable ordering. -/
theorem C15_natural_sort_idempotent (l : List Str) : naturalSort (naturalSort l) = naturalSort l :=
  naturalSort_idem l

/-- Names made of a common prefix (not ending in a digit) and a number sort by the number's value. -/
theorem C15_numeric_order (p : Str) (hp : ∀ q c, p = q ++ [c] → isDig c = false) (m n : Nat) :
    NatBefore (p ++ natStr m) (p ++ natStr n) ↔ m < n := by
  have h := natLe_iff (p ++ natStr n) (p ++ natStr m)
  unfold NatLe at h
  rw [alphanumSplit_append p hp, alphanumSplit_append p hp] at h
  unfold natKeyLe at h
  simp only [if_true, tailLe_append] at h
  have hh : (tailLe [(n, [])] [(m, [])] = true) ↔ n ≤ m := by
    unfold tailLe
    by_cases e : n = m
    · simp [e, tailLe]
    · simp only [if_neg e, decide_eq_true_eq]; omega
  rw [hh] at h
  constructor
  · intro hb; by_contra hc; exact h.1 (by omega) hb
  · intro hlt; by_contra hb; have := h.2 hb; omega

example : naturalSort ["Eth3".toList, "Eth1".toList, "Eth10".toList, "Eth2".toList] =
    ["Eth1".toList, "Eth2".toList, "Eth3".toList, "Eth10".toList] := by decide +kernel
example : NatBefore ("Eth".toList ++ natStr 9) ("Eth".toList ++ natStr 10) :=
  (C15_numeric_order "Eth".toList (by
    intro q c h
    have : "Eth".toList = ['E', 't'] ++ ['h'] := rfl
    rw [this] at h
    have := (List.append_inj' h rfl).2
    cases this; rfl) 9 10).2 (by omega)
/-- "a01" and "a1" read the same, so they keep their order either way round. -/
example : NatSame "a01".toList "a1".toList ∧
    naturalSort ["a01".toList, "a1".toList] = ["a01".toList, "a1".toList] ∧
    naturalSort ["a1".toList, "a01".toList] = ["a1".toList, "a01".toList] :=
  ⟨(natSame_iff _ _).2 (by decide +kernel), by decide +kernel, by decide +kernel⟩

/-! ## C16 -/

/-- The result is the unique reading of the input as text, number, text, ..., text. -/
theorem C16_alphanum_split (s : Str) (k : List Tok) :
    IsSplit s k ↔ k = keyToks (alphanumSplit s) := isSplit_iff s k

/-- Re-joining the tokens reproduces the input with each number rewritten in canonical decimal form;
exactly the input, if no number is written with a leading zero. -/
theorem C16_rejoin (s t0 : Str) (rs : List (Str × Str)) (h : Runs s t0 rs) :
    (keyToks (alphanumSplit s)).flatMap unTok =
      t0 ++ rs.flatMap (fun e => natStr (digitsVal e.1) ++ e.2) ∧
    ((∀ e ∈ rs, NoLeadingZero e.1) → (keyToks (alphanumSplit s)).flatMap unTok = s) := by
  have hk := (isSplit_iff s _).1 ⟨t0, rs, h, rfl⟩
  have hj : (keyToks (alphanumSplit s)).flatMap unTok =
      t0 ++ rs.flatMap (fun e => natStr (digitsVal e.1) ++ e.2) := by
    rw [← hk]
    simp only [List.flatMap_cons, List.flatMap_assoc]
    simp [unTok]
  refine ⟨hj, fun hz => ?_⟩
  rw [hj]
  conv_rhs => rw [h.join]
  congr 1
  have : ∀ rs : List (Str × Str), (∀ e ∈ rs, NoLeadingZero e.1) →
      (∀ e ∈ rs, e.1 ≠ [] ∧ (∀ c ∈ e.1, isDig c = true) ∧ (∀ c ∈ e.2, isDig c = false)) →
      rs.flatMap (fun e => natStr (digitsVal e.1) ++ e.2) = rs.flatMap (fun e => e.1 ++ e.2) := by
    intro rs hz h
    induction rs with
    | nil => rfl
    | cons e r ih =>
      simp only [List.flatMap_cons]
      rw [ih (fun x hx => hz x (List.mem_cons_of_mem _ hx)) (fun x hx => h x (List.mem_cons_of_mem _ hx)),
        natStr_digitsVal _ (h e (by simp)).1 (h e (by simp)).2.1 (hz e (by simp))]
  exact this _ hz h.parts

example : keyToks (alphanumSplit "hello1world27".toList) =
    [.txt "hello".toList, .num 1, .txt "world".toList, .num 27, .txt []] := by decide +kernel
/-- a leading zero is lost -/
example : (keyToks (alphanumSplit "a01".toList)).flatMap unTok = "a1".toList := by decide +kernel

end Cot
