import Verif.Spec.Placeholder
import Mathlib.Tactic.Tauto
/-
Hiding values behind placeholders and putting them back.
-/
namespace Cot

/-- replacement as a relation -/
inductive Repl (pat repl : Str) : Str → Str → Prop
  | nil : Repl pat repl [] []
  | hit {t o} : Repl pat repl t o → Repl pat repl (pat ++ t) (repl ++ o)
  | miss {c t o} : ¬ pat <+: c :: t → Repl pat repl t o → Repl pat repl (c :: t) (c :: o)

theorem replAux_repl (pat repl : Str) (hp : pat ≠ []) : ∀ n s, s.length ≤ n → Repl pat repl s (replAux pat repl n s)
  | 0, s, h => by
    have : s = [] := List.length_eq_zero_iff.1 (by omega)
    subst this; exact .nil
  | n + 1, [], _ => .nil
  | n + 1, c :: t, h => by
    unfold replAux
    by_cases hpre : pat.isPrefixOf (c :: t) = true
    · rw [if_pos hpre]
      obtain ⟨r, hr⟩ := List.isPrefixOf_iff_prefix.1 hpre
      have hd : (c :: t).drop pat.length = r := by rw [← hr]; simp
      rw [hd]
      have hl : r.length ≤ n := by
        have h1 := congrArg List.length hr
        have h2 : pat.length ≠ 0 := by simpa using hp
        simp only [List.length_append, List.length_cons] at h1 h; omega
      conv => arg 3; rw [← hr]
      exact .hit (replAux_repl pat repl hp n r hl)
    · rw [if_neg hpre]
      exact .miss (fun hh => hpre (List.isPrefixOf_iff_prefix.2 hh)) (replAux_repl pat repl hp n t (by simpa using h))

theorem Repl.unique {pat repl : Str} (hp : pat ≠ []) {s o o' : Str} (h : Repl pat repl s o) (h' : Repl pat repl s o') :
    o = o' := by
  induction h generalizing o' with
  | nil =>
    generalize hs : ([] : Str) = s at h'
    cases h' with
    | nil => rfl
    | hit _ => exact absurd (List.append_eq_nil_iff.1 hs.symm).1 hp
    | miss _ _ => cases hs
  | @hit t o _ ih =>
    generalize hs : pat ++ t = s at h'
    cases h' with
    | nil => exact absurd (List.append_eq_nil_iff.1 hs).1 hp
    | hit h2 => rw [ih (by rw [List.append_cancel_left hs]; exact h2)]
    | miss hn _ => exact absurd ⟨t, hs⟩ hn
  | @miss c t o hn _ ih =>
    generalize hs : c :: t = s at h'
    cases h' with
    | nil => cases hs
    | hit _ => exact absurd ⟨_, hs.symm⟩ hn
    | miss _ h2 =>
      cases hs
      rw [ih h2]

theorem replaceAll_eq {pat repl s o : Str} (hp : pat ≠ []) (h : Repl pat repl s o) : replaceAll pat repl s = o :=
  (replAux_repl pat repl hp s.length s (Nat.le_refl _)).unique hp h

/-! ### Texts with placeholders -/

inductive Ph | en | vq | rst | conn
deriving DecidableEq

def Ph.name : Ph → Str
  | .en => "EN".toList
  | .vq => "VQ".toList
  | .rst => "RST".toList
  | .conn => "CONN".toList

/-- the placeholder as it appears in a text -/
def Ph.text (k : Ph) : Str := '_' :: (k.name ++ ['_'])

inductive PTok | ch (c : Char) | ph (k : Ph)
deriving DecidableEq

def PTok.render : PTok → Str
  | .ch c => [c]
  | .ph k => k.text

def render (ts : List PTok) : Str := ts.flatMap PTok.render

def PTok.expand (vals : Ph → Option Str) : PTok → Str
  | .ch c => [c]
  | .ph k => (vals k).getD []

def expand (vals : Ph → Option Str) (ts : List PTok) : Str := ts.flatMap (PTok.expand vals)

/-- no underscore among the literal characters -/
def Clean (ts : List PTok) : Prop := ∀ c, PTok.ch c ∈ ts → c ≠ '_'

theorem Ph.name_mem (k : Ph) : k.name ∈ phNames := by cases k <;> decide
theorem Ph.name_chars (k : Ph) : ∀ c ∈ k.name, c ≠ '_' ∧ c ∈ "ENVQRSTCO".toList := by cases k <;> decide
theorem Ph.name_ne (k : Ph) : k.name ≠ [] := by cases k <;> decide
theorem Ph.name_inj {k l : Ph} (h : k.name = l.name) : k = l := by
  cases k <;> cases l <;> first | rfl | exact absurd h (by decide)

theorem render_chars (w : Str) : render (w.map PTok.ch) = w := by
  induction w with
  | nil => rfl
  | cons c w ih =>
    show c :: render (w.map PTok.ch) = _
    rw [ih]
theorem expand_chars (vals : Ph → Option Str) (w : Str) : expand vals (w.map PTok.ch) = w := by
  induction w with
  | nil => rfl
  | cons c w ih =>
    show c :: expand vals (w.map PTok.ch) = _
    rw [ih]
theorem render_append (a b : List PTok) : render (a ++ b) = render a ++ render b := List.flatMap_append
theorem expand_append (vals : Ph → Option Str) (a b : List PTok) : expand vals (a ++ b) = expand vals a ++ expand vals b :=
  List.flatMap_append

/-- a text without underscore at the beginning of a rendered text consists of literal characters -/
theorem prefix_lits {v : Str} (hv : '_' ∉ v) : ∀ {ts : List PTok}, v <+: render ts → ∃ r, ts = v.map PTok.ch ++ r := by
  induction v with
  | nil => intro ts _; exact ⟨ts, rfl⟩
  | cons c v ih =>
    intro ts h
    simp only [List.mem_cons, not_or] at hv
    cases ts with
    | nil =>
      have := List.prefix_nil.1 h
      cases this
    | cons t ts =>
      cases t with
      | ch d =>
        have h' : c :: v <+: d :: render ts := h
        rw [List.cons_prefix_cons] at h'
        obtain ⟨r, hr⟩ := ih hv.2 h'.2
        exact ⟨r, by rw [hr, h'.1]; rfl⟩
      | ph k =>
        have h' : c :: v <+: '_' :: (k.name ++ ['_'] ++ render ts) := h
        rw [List.cons_prefix_cons] at h'
        exact absurd h'.1.symm hv.1

/-- characters that a replacement passes over -/
theorem Repl.skip {pat repl : Str} : ∀ {w t o : Str}, (∀ a b, w = a ++ b → b ≠ [] → ¬ pat <+: b ++ t) →
    Repl pat repl t o → Repl pat repl (w ++ t) (w ++ o)
  | [], t, o, _, h => h
  | c :: w, t, o, hn, h => by
    refine .miss (hn [] (c :: w) rfl (by simp)) (Repl.skip (fun a b e hb => hn (c :: a) b (by rw [e]; rfl) hb) h)

theorem prefix_before {v b r : Str} (hv : '_' ∉ v) (h : v <+: b ++ ('_' :: r)) : v <+: b := by
  induction b generalizing v with
  | nil =>
    cases v with
    | nil => exact List.prefix_rfl
    | cons c v =>
      have h' : c :: v <+: '_' :: r := h
      rw [List.cons_prefix_cons] at h'
      exact absurd (by simp [h'.1]) hv
  | cons d b ih =>
    cases v with
    | nil => exact List.nil_prefix
    | cons c v =>
      have h' : c :: v <+: d :: (b ++ '_' :: r) := h
      rw [List.cons_prefix_cons] at h'
      rw [List.cons_prefix_cons]
      exact ⟨h'.1, ih (fun hm => hv (List.mem_cons_of_mem _ hm)) h'.2⟩

/-- hiding a value -/
theorem hide_step {vals : Ph → Option Str} {K : Ph} {v : Str} (hK : vals K = some v) (ht : TameVal v) :
    ∀ (n : Nat) (ts : List PTok), ts.length ≤ n → Clean ts →
      ∃ ts', Repl v K.text (render ts) (render ts') ∧ Clean ts' ∧ expand vals ts' = expand vals ts ∧
        (∀ k, PTok.ph k ∈ ts' → PTok.ph k ∈ ts ∨ k = K) ∧ ∀ c, PTok.ch c ∈ ts' → PTok.ch c ∈ ts
  | _, [], _, _ => ⟨[], .nil, (by intro c hc; cases hc), rfl, (by intro k hk; cases hk), (by intro k hk; cases hk)⟩
  | 0, t :: ts, h, _ => absurd h (by simp)
  | n + 1, .ph k :: ts, h, hc => by
    obtain ⟨ts', h1, h2, h3, h4, h5⟩ := hide_step hK ht n ts (by simpa using h) (fun c hm => hc c (List.mem_cons_of_mem _ hm))
    obtain ⟨hne, hu, ⟨d, hd1, hd2⟩⟩ := ht
    refine ⟨.ph k :: ts', ?_, ?_, ?_, ?_, ?_⟩
    · refine Repl.skip (w := k.text) ?_ h1
      intro a b e hb hpre
      obtain ⟨q, hq⟩ := hpre
      -- the first underscore after `b` starts bounds the value
      cases a with
      | nil =>
        simp only [List.nil_append] at e
        subst e
        cases v with
        | nil => exact hne rfl
        | cons c v =>
          have : c = '_' := by
            have := congrArg List.head? hq
            simpa [Ph.text] using this
          exact (hu c (by simp)).2 this
      | cons a0 a =>
        have e' : k.name ++ ['_'] = a ++ b := by
          unfold Ph.text at e
          exact (List.cons.inj e).2
        -- b = b0 ++ ['_'] with b0 a suffix of the name
        obtain ⟨b0, hb0⟩ : ∃ b0, b = b0 ++ ['_'] := by
          refine ⟨b.dropLast, ?_⟩
          have hl : b.getLast? = some '_' := by
            have := congrArg List.getLast? e'
            rw [List.getLast?_append_of_ne_nil _ hb] at this
            simpa using this.symm
          rw [List.getLast?_eq_some_getLast hb] at hl
          have := List.dropLast_append_getLast hb
          rw [Option.some.injEq] at hl
          rw [hl] at this; exact this.symm
        have hname : k.name = a ++ b0 := by
          rw [hb0, ← List.append_assoc] at e'
          exact List.append_cancel_right e'
        -- v is a prefix of b0
        rw [hb0] at hq
        have hvb : v <+: b0 :=
          prefix_before (fun hm => (hu '_' hm).2 rfl) (r := render ts) ⟨q, by rw [hq]; simp [render, List.flatMap]⟩
        exact hd2 ((k.name_chars d (by rw [hname]; exact List.mem_append_right _ (hvb.subset hd1))).2)
    · intro c hm
      rcases List.mem_cons.1 hm with hm | hm
      · cases hm
      · exact h2 c hm
    · show (vals k).getD [] ++ expand vals ts' = (vals k).getD [] ++ expand vals ts
      rw [h3]
    · intro l hl
      rcases List.mem_cons.1 hl with hl | hl
      · cases hl; exact Or.inl (by simp)
      · rcases h4 l hl with h | h
        · exact Or.inl (List.mem_cons_of_mem _ h)
        · exact Or.inr h
    · intro d hd
      rcases List.mem_cons.1 hd with hd | hd
      · cases hd
      · exact List.mem_cons_of_mem _ (h5 d hd)
  | n + 1, .ch c :: ts, h, hc => by
    by_cases hpre : v <+: render (.ch c :: ts)
    · have hv_ : '_' ∉ v := fun hm => (ht.2.1 '_' hm).2 rfl
      obtain ⟨r, hr⟩ := prefix_lits hv_ hpre
      have hl : r.length ≤ n := by
        have := congrArg List.length hr
        have hv0 : v.length ≠ 0 := by simpa using ht.1
        simp at this h; omega
      obtain ⟨ts', h1, h2, h3, h4, h5⟩ := hide_step hK ht n r hl
        (fun d hm => hc d (by rw [hr]; exact List.mem_append_right _ hm))
      refine ⟨.ph K :: ts', ?_, ?_, ?_, ?_, ?_⟩
      · rw [hr, render_append, render_chars]
        exact .hit h1
      · intro d hm
        rcases List.mem_cons.1 hm with hm | hm
        · cases hm
        · exact h2 d hm
      · rw [hr, expand_append, expand_chars]
        show (vals K).getD [] ++ expand vals ts' = _
        rw [h3, hK]; rfl
      · intro l hl'
        rcases List.mem_cons.1 hl' with hm | hm
        · cases hm; exact Or.inr rfl
        · rcases h4 l hm with h | h
          · exact Or.inl (by rw [hr]; exact List.mem_append_right _ h)
          · exact Or.inr h
      · intro d hd
        rcases List.mem_cons.1 hd with hd | hd
        · cases hd
        · rw [hr]; exact List.mem_append_right _ (h5 d hd)
    · obtain ⟨ts', h1, h2, h3, h4, h5⟩ := hide_step hK ht n ts (by simpa using h) (fun d hm => hc d (List.mem_cons_of_mem _ hm))
      refine ⟨.ch c :: ts', .miss hpre h1, ?_, ?_, ?_, ?_⟩
      · intro d hm
        rcases List.mem_cons.1 hm with hm | hm
        · cases hm; exact hc c (by simp)
        · exact h2 d hm
      · show c :: expand vals ts' = c :: expand vals ts
        rw [h3]
      · intro l hl
        rcases List.mem_cons.1 hl with hm | hm
        · cases hm
        · rcases h4 l hm with h | h
          · exact Or.inl (List.mem_cons_of_mem _ h)
          · exact Or.inr h
      · intro d hd
        rcases List.mem_cons.1 hd with hd | hd
        · cases hd; simp
        · exact List.mem_cons_of_mem _ (h5 d hd)

/-- the tokens after putting a value back -/
def putBack (K : Ph) (v : List PTok) (ts : List PTok) : List PTok :=
  ts.flatMap (fun t => if t = .ph K then v else [t])

theorem putBack_cons (K : Ph) (v : List PTok) (t : PTok) (ts : List PTok) :
    putBack K v (t :: ts) = (if t = .ph K then v else [t]) ++ putBack K v ts := rfl

/-- putting a value back -/
theorem show_step {vals : Ph → Option Str} {K : Ph} {v : List PTok} :
    ∀ (ts : List PTok), Clean ts → ¬ K.name <:+: expand vals ts →
      Repl K.text (render v) (render ts) (render (putBack K v ts))
  | [], _, _ => .nil
  | .ch c :: ts, hc, hx => by
    have hx' : ¬ K.name <:+: expand vals ts := fun h => hx (h.trans (List.suffix_cons c _).isInfix)
    have := show_step (v := v) ts (fun d hm => hc d (List.mem_cons_of_mem _ hm)) hx'
    rw [putBack_cons, if_neg (by simp)]
    refine Repl.miss (c := c) ?_ this
    intro h
    have h' : '_' :: (K.name ++ ['_']) <+: c :: render ts := h
    rw [List.cons_prefix_cons] at h'
    exact hc c (by simp) h'.1.symm
  | .ph k :: ts, hc, hx => by
    have hx' : ¬ K.name <:+: expand vals ts := fun h => hx (h.trans ⟨(vals k).getD [], [], by simp [expand, PTok.expand]⟩)
    have ih := show_step (v := v) ts (fun d hm => hc d (List.mem_cons_of_mem _ hm)) hx'
    rw [putBack_cons]
    by_cases hk : k = K
    · subst hk
      rw [if_pos rfl, render_append]
      exact .hit ih
    · rw [if_neg (by simpa using hk)]
      have hcl : Clean ts := fun d hm => hc d (List.mem_cons_of_mem _ hm)
      refine Repl.skip (w := k.text) ?_ ih
      intro a b e hb hpre
      cases a with
      | nil =>
        -- the whole placeholder: the names would agree
        simp only [List.nil_append] at e
        subst e
        have h' : '_' :: (K.name ++ ['_']) <+: '_' :: (k.name ++ ['_'] ++ render ts) := hpre
        rw [List.cons_prefix_cons] at h'
        obtain ⟨q, hq⟩ := h'.2
        have hnu : ∀ l : Ph, '_' ∉ l.name := fun l hm => (l.name_chars '_' hm).1 rfl
        have h2 : K.name ++ ('_' :: q) = k.name ++ ('_' :: render ts) := by
          simpa using hq
        have h3 : K.name = k.name := by
          have := congrArg (List.takeWhile (fun c => c != '_')) h2
          have hw : ∀ (l : Ph) (r : Str), (l.name ++ '_' :: r).takeWhile (fun c => c != '_') = l.name := by
            intro l r
            rw [List.takeWhile_append_of_pos]
            · simp
            · intro c hc
              simp only [bne_iff_ne, ne_eq]
              exact (l.name_chars c hc).1
          rwa [hw, hw] at this
        exact hk (Ph.name_inj h3).symm
      | cons a0 a =>
        have e' : k.name ++ ['_'] = a ++ b := by
          unfold Ph.text at e
          exact (List.cons.inj e).2
        cases b with
        | nil => exact hb rfl
        | cons b0 b =>
          have h' : '_' :: (K.name ++ ['_']) <+: b0 :: (b ++ render ts) := hpre
          rw [List.cons_prefix_cons] at h'
          obtain ⟨hb0, hpre'⟩ := h'
          subst hb0
          -- the underscore is the last one of the placeholder
          have hb' : b = [] := by
            by_contra hbn
            have hm : '_' ∈ k.name := by
              have h5 : b.getLast? = some '_' := by
                have := congrArg List.getLast? e'
                rw [List.getLast?_append_of_ne_nil _ (by simp), List.getLast?_cons,
                  List.getLast?_append_of_ne_nil _ (by simp)] at this
                cases b with
                | nil => exact absurd rfl hbn
                | cons x b => simpa [List.getLast?_cons] using this.symm
              have h6 : b = b.dropLast ++ ['_'] := by
                rw [List.getLast?_eq_some_getLast hbn, Option.some.injEq] at h5
                have := List.dropLast_append_getLast hbn
                rw [h5] at this; exact this.symm
              have h7 : k.name = a ++ '_' :: b.dropLast := by
                rw [h6] at e'
                have : k.name ++ ['_'] = (a ++ '_' :: b.dropLast) ++ ['_'] := by simpa using e'
                exact List.append_cancel_right this
              rw [h7]; simp
            exact (k.name_chars '_' hm).1 rfl
          subst hb'
          simp only [List.nil_append] at hpre'
          have hnu : '_' ∉ K.name := fun hm => (K.name_chars '_' hm).1 rfl
          obtain ⟨r, hr⟩ := prefix_lits hnu ((List.prefix_append _ _).trans hpre')
          refine hx' ⟨[], expand vals r, ?_⟩
          rw [hr, expand_append, expand_chars]; simp

theorem putBack_clean {K : Ph} {v : List PTok} (hv : Clean v) {ts : List PTok} (h : Clean ts) : Clean (putBack K v ts) := by
  intro c hm
  unfold putBack at hm
  rw [List.mem_flatMap] at hm
  obtain ⟨t, ht, hm⟩ := hm
  split at hm
  · exact hv c hm
  · rw [List.mem_singleton] at hm
    exact h c (hm ▸ ht)

theorem putBack_expand {vals : Ph → Option Str} {K : Ph} {v : List PTok} (hK : vals K = some (expand vals v)) (ts : List PTok) :
    expand vals (putBack K v ts) = expand vals ts := by
  induction ts with
  | nil => rfl
  | cons t ts ih =>
    rw [putBack_cons, expand_append, ih]
    by_cases ht : t = .ph K
    · subst ht
      rw [if_pos rfl]
      show _ = (vals K).getD [] ++ _
      rw [hK]; rfl
    · rw [if_neg ht]
      show expand vals [t] ++ _ = t.expand vals ++ expand vals ts
      simp [expand]

theorem putBack_ph {K : Ph} {v : List PTok} {ts : List PTok} {k : Ph} (h : PTok.ph k ∈ putBack K v ts) :
    (PTok.ph k ∈ ts ∧ k ≠ K) ∨ PTok.ph k ∈ v := by
  unfold putBack at h
  rw [List.mem_flatMap] at h
  obtain ⟨t, ht, hm⟩ := h
  split at hm
  · exact Or.inr hm
  · rename_i hne
    rw [List.mem_singleton] at hm
    subst hm
    exact Or.inl ⟨ht, fun e => hne (by rw [e])⟩

/-! ### The whole way -/

/-- hide one value, if it is known -/
def hideOne (k : Ph) : Option Str → Str → Str
  | none, s => s
  | some v, s => replaceAll v k.text s

/-- put one value back, if it is known -/
def showOne (k : Ph) : Option Str → Str → Str
  | none, s => s
  | some v, s => replaceAll k.text v s

/-- hide the known values behind their placeholders, in the order given -/
def hideAll (vals : Ph → Option Str) : List Ph → Str → Str
  | [], s => s
  | k :: ks, s => hideAll vals ks (hideOne k (vals k) s)

/-- put the known values back -/
def showAll (raw : Ph → Option Str) : List Ph → Str → Str
  | [], s => s
  | k :: ks, s => showAll raw ks (showOne k (raw k) s)

theorem hideAll_toks {vals : Ph → Option Str} :
    ∀ (ks : List Ph) (ts : List PTok), (∀ k ∈ ks, ∀ v, vals k = some v → TameVal v) → Clean ts →
      ∃ ts', hideAll vals ks (render ts) = render ts' ∧ Clean ts' ∧
      expand vals ts' = expand vals ts ∧
      (∀ k, PTok.ph k ∈ ts' → PTok.ph k ∈ ts ∨ (k ∈ ks ∧ ∃ v, vals k = some v)) ∧ ∀ c, PTok.ch c ∈ ts' → PTok.ch c ∈ ts
  | [], ts, _, hc => ⟨ts, rfl, hc, rfl, fun k hk => Or.inl hk, fun _ h => h⟩
  | K :: ks, ts, ht, hc => by
    unfold hideAll
    cases hv : vals K with
    | none =>
      obtain ⟨ts', h1, h2, h3, h4, h5⟩ := hideAll_toks ks ts (fun k hk => ht k (List.mem_cons_of_mem _ hk)) hc
      refine ⟨ts', h1, h2, h3, fun k hk => ?_, h5⟩
      rcases h4 k hk with h | ⟨h, h'⟩
      · exact Or.inl h
      · exact Or.inr ⟨List.mem_cons_of_mem _ h, h'⟩
    | some v =>
      have hT := ht K (by simp) v hv
      obtain ⟨t1, g1, g2, g3, g4, g5⟩ := hide_step hv hT ts.length ts (Nat.le_refl _) hc
      simp only [hideOne]
      rw [replaceAll_eq hT.1 g1]
      obtain ⟨ts', h1, h2, h3, h4, h5⟩ := hideAll_toks ks t1 (fun k hk => ht k (List.mem_cons_of_mem _ hk)) g2
      refine ⟨ts', h1, h2, h3.trans g3, fun k hk => ?_, fun c hc => g5 c (h5 c hc)⟩
      rcases h4 k hk with h | ⟨h, h'⟩
      · rcases g4 k h with h | rfl
        · exact Or.inl h
        · exact Or.inr ⟨by simp, v, hv⟩
      · exact Or.inr ⟨List.mem_cons_of_mem _ h, h'⟩

/-- what is put back for a placeholder only contains placeholders treated later -/
def Layered (raw : Ph → Option (List PTok)) : List Ph → Prop
  | [] => True
  | K :: ks => (∀ vt, raw K = some vt → ∀ k, PTok.ph k ∈ vt → k ∈ ks ∧ (raw k).isSome = true) ∧ Layered raw ks

theorem showAll_toks {vals : Ph → Option Str} {raw : Ph → Option (List PTok)} :
    ∀ (ks : List Ph) (ts : List PTok),
      (∀ k ∈ ks, ∀ vt, raw k = some vt → Clean vt ∧ vals k = some (expand vals vt)) → Layered raw ks →
      Clean ts → (∀ k ∈ phNames, ¬ k <:+: expand vals ts) → (∀ k, PTok.ph k ∈ ts → k ∈ ks ∧ (raw k).isSome = true) →
      showAll (fun k => (raw k).map render) ks (render ts) = expand vals ts
  | [], ts, _, _, hc, _, hph => by
    have hre : ∀ ts : List PTok, (∀ k, PTok.ph k ∉ ts) → render ts = expand vals ts := by
      intro ts
      induction ts with
      | nil => intro _; rfl
      | cons t ts ih =>
        intro h
        cases t with
        | ch c =>
          show c :: render ts = c :: expand vals ts
          rw [ih (fun k hk => h k (List.mem_cons_of_mem _ hk))]
        | ph k => exact absurd (by simp) (h k)
    exact hre ts (fun k hk => by have := (hph k hk).1; simp at this)
  | K :: ks, ts, hraw, hlay, hc, hx, hph => by
    unfold showAll
    cases hv : raw K with
    | none =>
      refine showAll_toks ks ts (fun k hk => hraw k (List.mem_cons_of_mem _ hk)) hlay.2 hc hx (fun k hk => ?_)
      obtain ⟨h1, h2⟩ := hph k hk
      rcases List.mem_cons.1 h1 with rfl | h1
      · rw [hv] at h2; cases h2
      · exact ⟨h1, h2⟩
    | some vt =>
      obtain ⟨hcl, he⟩ := hraw K (by simp) vt hv
      have g1 := show_step (v := vt) ts hc (hx K.name K.name_mem)
      simp only [Option.map_some, showOne]
      rw [replaceAll_eq (by simp [Ph.text]) g1]
      have ge := putBack_expand he ts
      rw [← ge]
      refine showAll_toks ks (putBack K vt ts) (fun k hk => hraw k (List.mem_cons_of_mem _ hk)) hlay.2
        (putBack_clean hcl hc) (by rw [ge]; exact hx) (fun k hk => ?_)
      rcases putBack_ph hk with ⟨h1, h2⟩ | h1
      · obtain ⟨h3, h4⟩ := hph k h1
        rcases List.mem_cons.1 h3 with rfl | h3
        · exact absurd rfl h2
        · exact ⟨h3, h4⟩
      · exact hlay.1 vt hv k h1

/-- a text without placeholders, as tokens -/
theorem clean_chars {x : Str} (hx : '_' ∉ x) : Clean (x.map PTok.ch) := by
  intro c hm
  rw [List.mem_map] at hm
  obtain ⟨d, hd, he⟩ := hm
  cases he
  rintro rfl; exact hx hd

/-- a text with hidden values, as tokens -/
theorem hide_toks {vals : Ph → Option Str} {ks : List Ph} (ht : ∀ k ∈ ks, ∀ v, vals k = some v → TameVal v) {x : Str}
    (hx : '_' ∉ x) : ∃ ts, hideAll vals ks x = render ts ∧ Clean ts ∧ expand vals ts = x ∧
      (∀ k, PTok.ph k ∈ ts → k ∈ ks ∧ ∃ v, vals k = some v) ∧ ∀ c, PTok.ch c ∈ ts → c ∈ x := by
  obtain ⟨t1, h1, h2, h3, h4, h5⟩ := hideAll_toks ks (x.map PTok.ch) ht (clean_chars hx)
  rw [render_chars] at h1
  rw [expand_chars] at h3
  refine ⟨t1, h1, h2, h3, fun k hk => ?_, fun c hc => ?_⟩
  · rcases h4 k hk with h | h
    · rw [List.mem_map] at h
      obtain ⟨d, -, he⟩ := h
      cases he
    · exact h
  · have h := h5 c hc
    rw [List.mem_map] at h
    obtain ⟨d, hd, he⟩ := h
    cases he; exact hd

theorem mem_render {ts : List PTok} {c : Char} (h : c ∈ render ts) :
    PTok.ch c ∈ ts ∨ c = '_' ∨ c ∈ "ENVQRSTCO".toList := by
  unfold render at h
  rw [List.mem_flatMap] at h
  obtain ⟨t, ht, hc⟩ := h
  cases t with
  | ch d =>
    have : c = d := by simpa [PTok.render] using hc
    rw [this]; exact Or.inl ht
  | ph k =>
    right
    have : c = '_' ∨ c ∈ k.name ∨ c = '_' := by simpa [PTok.render, Ph.text] using hc
    rcases this with h | h | h
    · exact Or.inl h
    · exact Or.inr (k.name_chars c h).2
    · exact Or.inl h

end Cot
