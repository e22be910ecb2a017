import Verif.Py.TextWrap
import Verif.Lemmas.Str
import Mathlib.Tactic.Ring
/-
Words of texts, and that wrapping keeps them.
-/
namespace Cot

theorem splitWsAux_append_ws {c : Char} (hc : isWs c = true) (a b cur : Str) :
    splitWsAux (a ++ c :: b) cur = splitWsAux a cur ++ splitWs b := by
  induction a generalizing cur with
  | nil =>
    simp only [List.nil_append, splitWsAux, hc, if_true]
    by_cases h : cur = []
    · simp [h, splitWs]
    · simp [h, splitWs]
  | cons x r ih =>
    simp only [List.cons_append, splitWsAux]
    by_cases hx : isWs x = true
    · simp only [hx, if_true]
      by_cases h : cur = []
      · simp only [h, if_true]; exact ih []
      · simp only [h, if_false, List.cons_append]; rw [ih []]
    · simp only [hx]
      exact ih _

theorem splitWs_sep {c : Char} (hc : isWs c = true) (a b : Str) : splitWs (a ++ c :: b) = splitWs a ++ splitWs b :=
  splitWsAux_append_ws hc a b []

theorem splitWs_cons_ws {c : Char} (hc : isWs c = true) (b : Str) : splitWs (c :: b) = splitWs b := by
  have := splitWs_sep hc [] b
  simpa [splitWs, splitWsAux] using this

theorem splitWs_nil : splitWs [] = [] := by simp [splitWs, splitWsAux]

theorem splitWs_append_blank {b : Str} (h : ∀ c ∈ b, isWs c = true) (a : Str) : splitWs (a ++ b) = splitWs a := by
  induction b generalizing a with
  | nil => simp
  | cons c r ih =>
    rw [splitWs_sep (h c (by simp)), show splitWs r = [] from ?_, List.append_nil]
    have := ih (fun x hx => h x (by simp [hx])) []
    simpa [splitWs_nil] using this

theorem splitWs_blank {b : Str} (h : ∀ c ∈ b, isWs c = true) : splitWs b = [] := by
  have := splitWs_append_blank h []
  simpa [splitWs_nil] using this

theorem splitWs_blank_append {b : Str} (h : ∀ c ∈ b, isWs c = true) (a : Str) : splitWs (b ++ a) = splitWs a := by
  induction b with
  | nil => rfl
  | cons c r ih =>
    rw [List.cons_append, splitWs_cons_ws (h c (by simp))]
    exact ih (fun x hx => h x (by simp [hx]))

/-- white space between two texts separates their words, if the first ends with it or the second begins with it -/
theorem splitWs_append {a b : Str} (h : (∃ a' c, a = a' ++ [c] ∧ isWs c = true) ∨ (∃ c b', b = c :: b' ∧ isWs c = true) ∨
    a = [] ∨ b = []) : splitWs (a ++ b) = splitWs a ++ splitWs b := by
  rcases h with ⟨a', c, rfl, hc⟩ | ⟨c, b', rfl, hc⟩ | rfl | rfl
  · rw [List.append_assoc, List.singleton_append, splitWs_sep hc, splitWs_sep hc, splitWs_nil, List.append_nil]
  · rw [splitWs_sep hc, splitWs_cons_ws hc]
  · simp [splitWs_nil]
  · simp [splitWs_nil]

theorem splitWs_ne_nil {s : Str} (h : ∃ c ∈ s, isWs c = false) : splitWs s ≠ [] := by
  obtain ⟨c, hc, hw⟩ := h
  have key : ∀ (s cur : Str), (cur ≠ [] ∨ ∃ c ∈ s, isWs c = false) → splitWsAux s cur ≠ [] := by
    intro s
    induction s with
    | nil =>
      intro cur h
      rcases h with h | ⟨c, hc, -⟩
      · simp [splitWsAux, h]
      · simp at hc
    | cons x r ih =>
      intro cur h
      simp only [splitWsAux]
      by_cases hx : isWs x = true
      · simp only [hx, if_true]
        by_cases hcur : cur = []
        · simp only [hcur, if_true]
          rcases h with h | ⟨c, hc, hcw⟩
          · exact absurd hcur h
          · rcases List.mem_cons.1 hc with rfl | hc
            · rw [hx] at hcw; cases hcw
            · exact ih [] (Or.inr ⟨c, hc, hcw⟩)
        · simp [hcur]
      · simp only [hx]
        exact ih _ (Or.inl (by simp))
  exact key s [] (Or.inr ⟨c, hc, hw⟩)

theorem splitWs_eq_nil {s : Str} : splitWs s = [] ↔ ∀ c ∈ s, isWs c = true := by
  constructor
  · intro h c hc
    by_contra hn
    exact splitWs_ne_nil ⟨c, hc, by simpa using hn⟩ h
  · exact splitWs_blank

/-- the words of lines are the words of the text -/
theorem splitWs_joinLines : ∀ (sep : Str), sep ≠ [] → (∀ c ∈ sep, isWs c = true) → ∀ l : List Str,
    splitWs (joinWith sep l) = l.flatMap splitWs := by
  intro sep hne hsep l
  obtain ⟨c, t, rfl⟩ := List.exists_cons_of_ne_nil hne
  induction l with
  | nil => simp [joinWith, splitWs_nil]
  | cons x r ih =>
    cases r with
    | nil => simp [joinWith]
    | cons y r =>
      rw [List.flatMap_cons, ← ih]
      simp only [joinWith, List.append_assoc]
      rw [List.cons_append, splitWs_sep (hsep c (by simp)), splitWs_blank_append (fun x hx => hsep x (by simp [hx]))]

/-! ### Munging and chunks -/

theorem splitWsAux_spaces (k : Nat) (t cur : Str) :
    splitWsAux (List.replicate (k + 1) ' ' ++ t) cur = splitWsAux (' ' :: t) cur := by
  induction k generalizing cur with
  | zero => rfl
  | succ k ih =>
    rw [List.replicate_succ, List.cons_append]
    have hs : isWs ' ' = true := by decide
    simp only [splitWsAux, hs, if_true]
    rw [ih []]
    simp only [splitWsAux, hs, if_true]

theorem splitWsAux_expand (s : Str) : ∀ (col : Nat) (cur : Str), splitWsAux (expandTabs col s) cur = splitWsAux s cur := by
  induction s with
  | nil => intro col cur; rfl
  | cons c r ih =>
    intro col cur
    unfold expandTabs
    by_cases hc : c = '\t'
    · rw [if_pos hc]
      have : 8 - col % 8 = (7 - col % 8) + 1 := by omega
      rw [this, splitWsAux_spaces]
      have hs : isWs ' ' = true := by decide
      have ht : isWs c = true := by rw [hc]; decide
      simp only [splitWsAux, hs, ht, if_true]
      rw [ih]
    · rw [if_neg hc]
      simp only [splitWsAux]
      rw [ih, ih]

theorem splitWsAux_map (s : Str) : ∀ cur : Str,
    splitWsAux (s.map (fun c => if isWs c then ' ' else c)) cur = splitWsAux s cur := by
  induction s with
  | nil => intro cur; rfl
  | cons c r ih =>
    intro cur
    have hs : isWs ' ' = true := by decide
    by_cases hc : isWs c = true
    · simp only [List.map_cons, hc, if_true, splitWsAux, hs]
      rw [ih]
    · rw [List.map_cons, if_neg hc]
      simp only [splitWsAux, if_neg hc]
      exact ih _

theorem splitWs_munge (s : Str) : splitWs (munge s) = splitWs s := by
  unfold splitWs munge
  rw [splitWsAux_map, splitWsAux_expand]

/-- chunks are not empty, are all white or without white space, and of two neighbours one is white -/
def Alternating : List Str → Prop
  | [] => True
  | [a] => a ≠ [] ∧ (blank a = true ∨ ∀ c ∈ a, isWs c = false)
  | a :: b :: r => a ≠ [] ∧ (blank a = true ∨ ∀ c ∈ a, isWs c = false) ∧ (blank a = true ↔ ¬ blank b = true) ∧
      Alternating (b :: r)

theorem Alternating.tail {a : Str} {r : List Str} (h : Alternating (a :: r)) : Alternating r := by
  cases r with
  | nil => trivial
  | cons b r => exact h.2.2.2

theorem Alternating.head {a : Str} {r : List Str} (h : Alternating (a :: r)) :
    a ≠ [] ∧ (blank a = true ∨ ∀ c ∈ a, isWs c = false) := by
  cases r with
  | nil => exact h
  | cons b r => exact ⟨h.1, h.2.1⟩

theorem alternating_chunks (s : Str) : Alternating (twChunks s) ∧ (twChunks s).flatten = s := by
  induction s with
  | nil => exact ⟨trivial, rfl⟩
  | cons c r ih =>
    obtain ⟨h1, h2⟩ := ih
    unfold twChunks
    cases hk : twChunks r with
    | nil =>
      rw [hk] at h2
      refine ⟨⟨by simp, ?_⟩, ?_⟩
      · by_cases hc : isWs c = true
        · left; simp [blank, hc]
        · right; simpa using hc
      · simp only [List.flatten_nil] at h2
        simp [← h2]
    | cons k ks =>
      rw [hk] at h1 h2
      obtain ⟨hne, hor⟩ := h1.head
      have hflat : c :: (k ++ ks.flatten) = c :: r := by rw [← h2]; rfl
      simp only
      by_cases hc : isWs c = true
      · by_cases hb : k.all isWs = true
        · rw [if_pos (by rw [hb, hc])]
          refine ⟨?_, by simpa using hflat⟩
          have hb' : blank (c :: k) = true := by simp only [blank, List.all_cons, hc, hb, Bool.and_self]
          cases ks with
          | nil => exact ⟨by simp, Or.inl hb'⟩
          | cons m ms => exact ⟨by simp, Or.inl hb', ⟨fun _ => h1.2.2.1.1 hb, fun _ => hb'⟩, h1.2.2.2⟩
        · rw [if_neg (by rw [hc]; exact hb)]
          refine ⟨?_, by simpa using hflat⟩
          have hb' : blank [c] = true := by simp [blank, hc]
          exact ⟨by simp, Or.inl hb', ⟨fun _ => hb, fun _ => hb'⟩, h1⟩
      · have hcf : isWs c = false := by simpa using hc
        have hnb : ∀ l, ¬ blank (c :: l) = true := by
          intro l; simp [blank, hcf]
        by_cases hb : k.all isWs = true
        · rw [if_neg (by rw [hcf, hb]; simp)]
          refine ⟨?_, by simpa using hflat⟩
          exact ⟨by simp, Or.inr (by simpa using hcf), ⟨fun h => absurd h (hnb _), fun h => absurd hb h⟩, h1⟩
        · rw [if_pos (by rw [hcf]; simpa using hb)]
          refine ⟨?_, by simpa using hflat⟩
          have hk' : ∀ x ∈ c :: k, isWs x = false := by
            intro x hx
            rcases List.mem_cons.1 hx with rfl | hx
            · exact hcf
            · exact hor.resolve_left hb x hx
          cases ks with
          | nil => exact ⟨by simp, Or.inr hk'⟩
          | cons m ms =>
            refine ⟨by simp, Or.inr hk', ⟨fun h => absurd h (hnb _), fun h => ?_⟩, h1.2.2.2⟩
            exact absurd (h1.2.2.1.2 h) hb

theorem blank_iff {s : Str} : blank s = true ↔ ∀ c ∈ s, isWs c = true := by simp [blank]

theorem splitWs_flatten {cs : List Str} (h : Alternating cs) : splitWs cs.flatten = cs.flatMap splitWs := by
  induction cs with
  | nil => simp [splitWs_nil]
  | cons a r ih =>
    rw [List.flatten_cons, List.flatMap_cons, ← ih h.tail]
    cases r with
    | nil => simp [splitWs_nil]
    | cons b r =>
      obtain ⟨hne, -, hiff, ht⟩ := h
      by_cases hb : blank a = true
      · rw [splitWs_blank_append (blank_iff.1 hb), splitWs_blank (blank_iff.1 hb), List.nil_append]
      · have hbb : blank b = true := by
          by_contra hn
          exact hb (hiff.2 hn)
        obtain ⟨c, b', hb'⟩ := List.exists_cons_of_ne_nil ht.head.1
        subst hb'
        refine splitWs_append (Or.inr (Or.inl ⟨c, b' ++ r.flatten, by simp, ?_⟩))
        exact blank_iff.1 hbb c (by simp)

/-! ### One line -/

theorem takeFit_append (width : Int) (cs : List Str) : ∀ len, (takeFit width cs len).1 ++ (takeFit width cs len).2 = cs := by
  induction cs with
  | nil => intro len; rfl
  | cons c r ih =>
    intro len
    unfold takeFit
    split
    · simp only [List.cons_append, ih]
    · rfl

theorem twLine_append (width : Int) (cs : List Str) : (twLine width cs).1 ++ (twLine width cs).2 = cs := by
  have h := takeFit_append width cs 0
  unfold twLine
  split
  · rename_i c r heq
    rw [heq] at h
    simpa using h
  · exact h

theorem twLine_progress (width : Int) {cs : List Str} (hne : cs ≠ []) : (twLine width cs).1 ≠ [] := by
  have h := takeFit_append width cs 0
  unfold twLine
  split
  · simp
  · rename_i hx
    intro he
    cases hp : takeFit width cs 0 with
    | mk a b =>
      rw [hp] at h he
      simp only at h he
      subst he
      cases b with
      | nil => exact hne (by simpa using h.symm)
      | cons c r => exact hx c r hp

theorem alternating_append {a b : List Str} (h : Alternating (a ++ b)) : Alternating a ∧ Alternating b := by
  induction a with
  | nil => exact ⟨trivial, h⟩
  | cons x r ih =>
    obtain ⟨i1, i2⟩ := ih h.tail
    refine ⟨?_, i2⟩
    cases r with
    | nil => exact h.head
    | cons y r => exact ⟨h.1, h.2.1, h.2.2.1, i1⟩

theorem dropEnd_words (l : List Str) : (dropEnd l).flatMap splitWs = l.flatMap splitWs := by
  unfold dropEnd
  cases h : l.getLast? with
  | none => rfl
  | some c =>
    simp only
    split
    · rename_i hb
      have hl : l = l.dropLast ++ [c] := by
        rw [List.getLast?_eq_some_iff] at h
        obtain ⟨ys, rfl⟩ := h
        simp
      conv_rhs => rw [hl]
      rw [List.flatMap_append]
      simp [splitWs_blank (blank_iff.1 hb)]
    · rfl

theorem dropEnd_prefix (l : List Str) : ∃ t, l = dropEnd l ++ t := by
  unfold dropEnd
  cases h : l.getLast? with
  | none => exact ⟨[], by simp⟩
  | some c =>
    simp only
    split
    · rw [List.getLast?_eq_some_iff] at h
      obtain ⟨ys, rfl⟩ := h
      exact ⟨[c], by simp⟩
    · exact ⟨[], by simp⟩

theorem dropStart_spec (b : Bool) (cs : List Str) (h : Alternating cs) :
    Alternating (dropStart b cs) ∧ (dropStart b cs).flatMap splitWs = cs.flatMap splitWs ∧
    (dropStart b cs).length ≤ cs.length := by
  unfold dropStart
  cases cs with
  | nil => exact ⟨trivial, rfl, le_refl _⟩
  | cons c r =>
    simp only
    split
    · rename_i hb
      have hb' : blank c = true := by
        revert hb; cases blank c <;> simp
      refine ⟨h.tail, ?_, by simp⟩
      rw [List.flatMap_cons, splitWs_blank (blank_iff.1 hb')]
      rfl
    · exact ⟨h, rfl, le_refl _⟩

/-- lines that have been dropped contain no words -/
theorem dropEnd_nil {l : List Str} (h : dropEnd l = []) : l.flatMap splitWs = [] := by
  rw [← dropEnd_words, h]; rfl

theorem line_words {indent : Str} {l : List Str} (hl : Alternating l)
    (hi : indent = [] ∨ ∃ a c, indent = a ++ [c] ∧ isWs c = true) :
    splitWs (indent ++ l.flatten) = splitWs indent ++ l.flatMap splitWs := by
  rw [← splitWs_flatten hl]
  apply splitWs_append
  rcases hi with h | h
  · exact Or.inr (Or.inr (Or.inl h))
  · exact Or.inl h

theorem chunk_words {l : List Str} (h : l.flatMap splitWs = []) : ∀ c ∈ l, blank c = true := by
  intro c hc
  rw [blank_iff, ← splitWs_eq_nil]
  simp only [List.flatMap_eq_nil_iff] at h
  exact h c hc

/-- a line that is kept has a word in it -/
theorem kept_has_word {l : List Str} (hl : Alternating l) (h : dropEnd l ≠ []) : l.flatMap splitWs ≠ [] := by
  intro hw
  have hb := chunk_words hw
  match l, hl with
  | [], _ => exact h rfl
  | [a], _ =>
    apply h
    simp [dropEnd, hb a (by simp)]
  | a :: b :: r, hl =>
    exact absurd (hb b (by simp)) (hl.2.2.1.1 (hb a (by simp)))

theorem twLoop_words (width : Int) {i s : Str} (hi : i = [] ∨ ∃ a c, i = a ++ [c] ∧ isWs c = true)
    (hs : ∀ c ∈ s, isWs c = true) : ∀ (fuel : Nat) (started : Bool) (cs : List Str), cs.length ≤ fuel → Alternating cs →
    (twLoop width i s fuel started cs).flatMap splitWs =
      if cs.flatMap splitWs = [] then [] else (if started then [] else splitWs i) ++ cs.flatMap splitWs := by
  intro fuel
  induction fuel with
  | zero =>
    intro started cs hl _
    have : cs = [] := List.eq_nil_of_length_eq_zero (by omega)
    subst this
    rfl
  | succ n ih =>
    intro started cs hl hcs
    unfold twLoop
    cases cs with
    | nil => rfl
    | cons c r =>
      simp only
      obtain ⟨d1, d2, d3⟩ := dropStart_spec started (c :: r) hcs
      have hcase : dropStart started (c :: r) = [] ∨ dropStart started (c :: r) ≠ [] := em _
      rcases hcase with hd | hd
      · have hw : (c :: r).flatMap splitWs = [] := by rw [← d2, hd]; rfl
        rw [hd]
        have hx : ∀ w, twLine w [] = ([], []) := fun _ => rfl
        rw [hx, if_pos hw]
        simp only [dropEnd, List.getLast?_nil, if_true]
        have := ih started [] (by simp) trivial
        rw [this]
        rfl
      · generalize hw : width - ((if started then s else i : Str).length : Int) = w
        have happ := twLine_append w (dropStart started (c :: r))
        have hprog := twLine_progress w hd
        generalize hx : twLine w (dropStart started (c :: r)) = x at happ hprog ⊢
        have halt := alternating_append (by rw [happ]; exact d1)
        have hlen : x.2.length ≤ n := by
          have h1 : x.1.length + x.2.length = (dropStart started (c :: r)).length := by
            rw [← happ, List.length_append]
          have h2 : 0 < x.1.length := List.length_pos_iff.2 hprog
          simp only [List.length_cons] at hl d3
          omega
        have hsum : (c :: r).flatMap splitWs = x.1.flatMap splitWs ++ x.2.flatMap splitWs := by
          rw [← d2, ← happ, List.flatMap_append]
        by_cases hline : dropEnd x.1 = []
        · rw [if_pos hline, ih started x.2 hlen halt.2, hsum, dropEnd_nil hline, List.nil_append]
        · rw [if_neg hline, List.flatMap_cons, ih true x.2 hlen halt.2]
          have hkept := kept_has_word halt.1 hline
          have hne : (c :: r).flatMap splitWs ≠ [] := by
            rw [hsum]; intro h
            exact hkept (List.append_eq_nil_iff.1 h).1
          rw [if_neg hne]
          obtain ⟨t, ht⟩ := dropEnd_prefix x.1
          have hal : Alternating (dropEnd x.1) := by
            have := halt.1
            rw [ht] at this
            exact (alternating_append this).1
          have hiw : splitWs ((if started then s else i) ++ (dropEnd x.1).flatten) =
              (if started then [] else splitWs i) ++ x.1.flatMap splitWs := by
            cases started with
            | true =>
              simp only [if_true, List.nil_append]
              rw [splitWs_blank_append hs, splitWs_flatten hal, dropEnd_words]
            | false =>
              simp only [Bool.false_eq_true, if_false]
              rw [line_words hal hi, dropEnd_words]
          rw [hiw, hsum]
          by_cases h2 : x.2.flatMap splitWs = []
          · rw [if_pos h2, h2]; simp
          · rw [if_neg h2]; simp

/-- **Wrapping keeps the words**, after those of the label; a text without words gives no lines. -/
theorem textWrap_words {width : Int} {i s t : Str} {ls : List Str} (hi : i = [] ∨ ∃ a c, i = a ++ [c] ∧ isWs c = true)
    (hs : ∀ c ∈ s, isWs c = true) (h : textWrap width i s t = .ok ls) :
    ls.flatMap splitWs = if splitWs t = [] then [] else splitWs i ++ splitWs t := by
  unfold textWrap at h
  split at h
  · cases h
  · cases h
    obtain ⟨h1, h2⟩ := alternating_chunks (munge t)
    rw [twLoop_words width hi hs _ false _ (le_refl _) h1]
    have hw : (twChunks (munge t)).flatMap splitWs = splitWs t := by
      rw [← splitWs_flatten h1, h2, splitWs_munge]
    rw [hw]
    rfl

/-! ### Width -/

theorem takeFit_fits (width : Int) (cs : List Str) : ∀ len : Nat, (len : Int) ≤ width →
    ((len + (takeFit width cs len).1.flatten.length : Nat) : Int) ≤ width := by
  induction cs with
  | nil => intro len h; simpa [takeFit] using h
  | cons c r ih =>
    intro len h
    unfold takeFit
    split
    · rename_i hc
      have := ih _ hc
      simp only [List.flatten_cons, List.length_append]
      rw [← Nat.add_assoc]
      exact this
    · simpa using h

/-- a line that is wider than `width` is one word after the indentation -/
theorem twLoop_width (width : Int) {i s : Str} : ∀ (fuel : Nat) (started : Bool) (cs : List Str), Alternating cs →
    ∀ l ∈ twLoop width i s fuel started cs, (l.length : Int) ≤ width ∨
      ∃ word, (∀ c ∈ word, isWs c = false) ∧ word ≠ [] ∧ (l = i ++ word ∨ l = s ++ word) := by
  intro fuel
  induction fuel with
  | zero => intro started cs _ l hl; simp [twLoop] at hl
  | succ n ih =>
    intro started cs hcs l hl
    unfold twLoop at hl
    cases cs with
    | nil => simp at hl
    | cons c r =>
      simp only at hl
      obtain ⟨d1, -, -⟩ := dropStart_spec started (c :: r) hcs
      generalize hw : width - ((if started then s else i : Str).length : Int) = w at hl
      have happ := twLine_append w (dropStart started (c :: r))
      have hfit : ((twLine w (dropStart started (c :: r))).1.flatten.length : Int) ≤ w ∨
          (∃ c', (twLine w (dropStart started (c :: r))).1 = [c']) ∨ (twLine w (dropStart started (c :: r))).1 = [] := by
        unfold twLine
        split
        · exact Or.inr (Or.inl ⟨_, rfl⟩)
        · rename_i hx
          cases hp : takeFit w (dropStart started (c :: r)) 0 with
          | mk a b =>
            by_cases hw0 : (0 : Int) ≤ w
            · have := takeFit_fits w (dropStart started (c :: r)) 0 hw0
              rw [hp] at this
              left
              simpa using this
            · have : (takeFit w (dropStart started (c :: r)) 0).1 = [] := by
                cases hds : dropStart started (c :: r) with
                | nil => rfl
                | cons y ys =>
                  unfold takeFit
                  rw [if_neg (by omega)]
              rw [hp] at this
              simp only at this
              subst this
              have h3 := takeFit_append w (dropStart started (c :: r)) 0
              rw [hp] at h3
              cases b with
              | nil => exact Or.inr (Or.inr rfl)
              | cons y ys => exact absurd hp (hx y ys)
      generalize hx : twLine w (dropStart started (c :: r)) = x at happ hfit hl
      have halt := alternating_append (by rw [happ]; exact d1)
      split at hl
      · exact ih _ _ halt.2 l hl
      · rename_i hline
        rcases List.mem_cons.1 hl with rfl | hl
        · obtain ⟨t, ht⟩ := dropEnd_prefix x.1
          rcases hfit with hf | ⟨c', hc'⟩ | hnil
          · left
            have : (dropEnd x.1).flatten.length ≤ x.1.flatten.length := by
              conv_rhs => rw [ht]
              simp
            rw [List.length_append]
            push_cast
            omega
          · right
            have hd : dropEnd x.1 = [c'] ∧ ¬ blank c' = true := by
              rw [hc'] at hline ⊢
              simp only [dropEnd, List.getLast?_singleton, List.dropLast_singleton] at hline ⊢
              split at hline
              · exact absurd rfl hline
              · rename_i hb; rw [if_neg hb]; exact ⟨rfl, hb⟩
            have ha : Alternating [c'] := by rw [← hc']; exact halt.1
            refine ⟨c', ha.2.resolve_left hd.2, ha.1, ?_⟩
            rw [hd.1]
            cases started
            · left; simp
            · right; simp
          · rw [hnil] at hline
            exact absurd rfl hline
        · exact ih _ _ halt.2 l hl

/-- **Lines are at most `width` wide**, unless they are a single word. -/
theorem textWrap_width {width : Int} {i s t : Str} {ls : List Str} (h : textWrap width i s t = .ok ls) :
    ∀ l ∈ ls, (l.length : Int) ≤ width ∨ ∃ word, (∀ c ∈ word, isWs c = false) ∧ word ≠ [] ∧ (l = i ++ word ∨ l = s ++ word) := by
  unfold textWrap at h
  split at h
  · cases h
  · cases h
    exact twLoop_width width _ _ _ (alternating_chunks _).1

theorem textWrap_total {width : Int} (hw : 0 < width) (i s t : Str) : ∃ ls, textWrap width i s t = .ok ls := by
  unfold textWrap
  rw [if_neg (by omega)]
  exact ⟨_, rfl⟩

end Cot
