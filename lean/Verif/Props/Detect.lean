import Verif.Model.Detect
import Verif.Spec.Detect
import Verif.Props.Disks
/-
C104: packages are recognised by their names.
-/
namespace Cot

theorem isAlnumA_iff (c : Char) : isAlnumA c = true ↔ AsciiAlnum c := by
  unfold isAlnumA AsciiAlnum
  simp [or_assoc]

theorem mid_here {x y : Char} {r : Str} (h : (x = 'f' ∨ x = 'a') ∧ isAlnumA y = false) :
    StandsAt ('.' :: 'o' :: 'v' :: x :: y :: r) [] ['.', 'o', 'v', x] := by
  refine ⟨?_, y, r, rfl, ?_⟩
  · rcases h.1 with rfl | rfl
    · exact Or.inl rfl
    · exact Or.inr rfl
  · rw [← isAlnumA_iff, h.2]; decide

theorem standsAt_cons {c : Char} {t A ext : Str} : StandsAt (c :: t) (c :: A) ext ↔ StandsAt t A ext := by
  unfold StandsAt
  simp

theorem standsAt_nil_cons {c : Char} {t ext : Str} (h : StandsAt (c :: t) [] ext) :
    ∃ x y r, c :: t = '.' :: 'o' :: 'v' :: x :: y :: r ∧ (x = 'f' ∨ x = 'a') ∧ isAlnumA y = false ∧ ext = ['.', 'o', 'v', x] := by
  obtain ⟨he, y, B, hb, hy⟩ := h
  have hy' : isAlnumA y = false := by
    rw [← Bool.not_eq_true, isAlnumA_iff]; exact hy
  rcases he with rfl | rfl
  · exact ⟨'f', y, B, hb, Or.inl rfl, hy', rfl⟩
  · exact ⟨'a', y, B, hb, Or.inr rfl, hy', rfl⟩

/-- the search steps over a character where nothing stands -/
theorem mid_step {c : Char} {t : Str} : 
    (∃ ext, StandsAt (c :: t) [] ext ∧ midExtension (c :: t) = some ext) ∨
    ((∀ ext, ¬ StandsAt (c :: t) [] ext) ∧ midExtension (c :: t) = midExtension t) := by
  rw [midExtension]
  split
  · rename_i x y r heq
    split
    · rename_i h
      exact Or.inl ⟨_, heq ▸ mid_here h, rfl⟩
    · rename_i h
      refine Or.inr ⟨?_, rfl⟩
      intro ext hs
      obtain ⟨x', y', r', h1, h2, h3, -⟩ := standsAt_nil_cons hs
      rw [heq] at h1
      cases h1
      exact h ⟨h2, h3⟩
  · rename_i hno
    refine Or.inr ⟨?_, rfl⟩
    intro ext hs
    obtain ⟨x', y', r', h1, -⟩ := standsAt_nil_cons hs
    exact hno x' y' r' h1

theorem mid_some {s ext : Str} : midExtension s = some ext → FirstInside s ext := by
  induction s with
  | nil => intro h; cases h
  | cons c t ih =>
    intro h
    rcases mid_step (c := c) (t := t) with ⟨e, h1, h2⟩ | ⟨h1, h2⟩
    · rw [h2] at h; cases h
      exact ⟨[], h1, by simp⟩
    · rw [h2] at h
      obtain ⟨A, k1, k2⟩ := ih h
      refine ⟨c :: A, standsAt_cons.2 k1, ?_⟩
      intro A' e' h'
      cases A' with
      | nil => exact absurd h' (h1 e')
      | cons d A' =>
        have hd : d = c := by
          obtain ⟨-, y, B, hb, -⟩ := h'
          simp only [List.cons_append, List.cons.injEq] at hb
          exact hb.1.symm
        subst hd
        have := k2 A' e' (standsAt_cons.1 h')
        simp only [List.length_cons]; omega

theorem mid_none {s : Str} : midExtension s = none → ∀ A e, ¬ StandsAt s A e := by
  induction s with
  | nil =>
    rintro - A e ⟨he, y, B, hb, -⟩
    cases A <;> rcases he with rfl | rfl <;> simp at hb
  | cons c t ih =>
    intro h A e hs
    rcases mid_step (c := c) (t := t) with ⟨e', h1, h2⟩ | ⟨h1, h2⟩
    · rw [h2] at h; cases h
    · rw [h2] at h
      cases A with
      | nil => exact h1 e hs
      | cons d A =>
        have hd : d = c := by
          obtain ⟨-, y, B, hb, -⟩ := hs
          simp only [List.cons_append, List.cons.injEq] at hb
          exact hb.1.symm
        subst hd
        exact ih h A e (standsAt_cons.1 hs)

theorem standsAt_unique {s A e e' : Str} (h : StandsAt s A e) (h' : StandsAt s A e') : e = e' := by
  obtain ⟨h1, y, B, h2, -⟩ := h
  obtain ⟨h1', y', B', h2', -⟩ := h'
  rw [h2] at h2'
  simp only [List.append_assoc, List.append_cancel_left_eq] at h2'
  rcases h1 with rfl | rfl <;> rcases h1' with rfl | rfl <;> first | rfl | (simp at h2')

theorem standsAt_place {s A A' e e' : Str} (h : StandsAt s A e) (h' : StandsAt s A' e') (hl : A.length = A'.length) : A = A' := by
  obtain ⟨-, y, B, h2, -⟩ := h
  obtain ⟨-, y', B', h2', -⟩ := h'
  rw [h2] at h2'
  simp only [List.append_assoc] at h2'
  exact (List.append_inj h2' hl).1

theorem firstInside_unique {s e e' : Str} (h : FirstInside s e) (h' : FirstInside s e') : e = e' := by
  obtain ⟨A, h1, h2⟩ := h
  obtain ⟨A', h1', h2'⟩ := h'
  have := standsAt_place h1 h1' (Nat.le_antisymm (h2 _ _ h1') (h2' _ _ h1))
  subst this
  exact standsAt_unique h1 h1'

theorem pathExt_has {base ext : Str} (hs : '/' ∉ base) (hx : ext = ".ovf".toList ∨ ext = ".ova".toList ∨ ext = ".box".toList) :
    pathExt base = ext ↔ HasExtension base ext := by
  have hb : pathBase base = base := pathBase_of_noslash (a := []) hs (Or.inl rfl)
  obtain ⟨x, hxe, hxn, hxd⟩ : ∃ x, ext = '.' :: x ∧ x ≠ [] ∧ '.' ∉ x := by
    rcases hx with rfl | rfl | rfl
    · exact ⟨"ovf".toList, rfl, by decide, by decide⟩
    · exact ⟨"ova".toList, rfl, by decide, by decide⟩
    · exact ⟨"box".toList, rfl, by decide, by decide⟩
  subst hxe
  constructor
  · intro h
    unfold pathExt at h
    rw [hb] at h
    simp only at h
    refine ⟨hx, ?_⟩
    split at h
    · rename_i hm
      obtain ⟨u, v, huv, hv⟩ : ∃ u v, base.dropWhile (fun c => c == '.') = u ++ '.' :: v ∧ '.' ∉ v := by
        generalize base.dropWhile (fun c => c == '.') = l at hm ⊢
        induction l with
        | nil => cases hm
        | cons a r ih =>
          by_cases hr : '.' ∈ r
          · obtain ⟨u, v, h1, h2⟩ := ih hr
            exact ⟨a :: u, v, by rw [h1]; rfl, h2⟩
          · rcases List.mem_cons.1 hm with he | he
            · exact ⟨[], r, by rw [← he]; rfl, hr⟩
            · exact absurd he hr
      have hrev : (base.dropWhile (fun c => c == '.')).reverse.takeWhile (fun c => c != '.') = v.reverse := by
        rw [huv]
        have : (u ++ '.' :: v).reverse = v.reverse ++ '.' :: u.reverse := by simp
        rw [this, List.takeWhile_append_of_pos]
        · simp
        · intro c hc
          simp only [List.mem_reverse] at hc
          simp only [bne_iff_ne, ne_eq]
          rintro rfl
          exact hv hc
      rw [hrev, List.reverse_reverse] at h
      have hvx : v = x := by simpa using h
      subst hvx
      refine ⟨base.takeWhile (fun c => c == '.') ++ u, ?_, ?_⟩
      · rw [List.append_assoc, ← huv, List.takeWhile_append_dropWhile]
      · cases u with
        | nil =>
          exfalso
          have hh := List.head?_dropWhile_not (fun c => c == '.') base
          rw [huv] at hh
          simp at hh
        | cons a u =>
          refine ⟨a, by simp, ?_⟩
          have hh := List.head?_dropWhile_not (fun c => c == '.') base
          rw [huv] at hh
          simpa using hh
    · cases h
  · rintro ⟨-, stem, rfl, c, hc, hcd⟩
    exact pathExt_append ⟨c, hc, hcd⟩ (fun h => hs (by simp [h])) (fun h => hs (by simp [h])) hxd

/-- C104: what a path is taken for is what its last component says, and nothing else; the directories do not matter. -/
theorem C104_detect {p base : Str} (hb : LastComponent p base) (ext : Str) :
    (detectType p = .ok ext ↔ NameSays base ext) ∧
    ((∀ e, ¬ NameSays base e) → detectType p = .error .valueUnsupported) := by
  obtain ⟨hs, dir, hp, hd⟩ := hb
  have hbase : pathBase p = base := by
    rw [hp]
    refine pathBase_of_noslash hs _ ?_
    rcases hd with h | ⟨d, h⟩
    · exact Or.inl h
    · exact Or.inr (by rw [h]; simp)
  have key : ∀ e, detectType p = .ok e ↔ NameSays base e := by
    intro e
    unfold detectType
    rw [hbase]
    simp only
    split
    · rename_i hk
      have hx := (pathExt_has hs hk).1 rfl
      constructor
      · intro h; cases h; exact Or.inl hx
      · rintro (h | ⟨h, -⟩)
        · rw [(pathExt_has hs h.1).2 h]
        · exact absurd hx (h _)
    · rename_i hk
      have hno : ∀ e, ¬ HasExtension base e := by
        intro e he
        have := (pathExt_has hs he.1).2 he
        rw [this] at hk
        exact hk he.1
      cases hm : midExtension base with
      | none =>
        constructor
        · intro h; cases h
        · rintro (h | ⟨-, A, h, -⟩)
          · exact absurd h (hno e)
          · exact absurd h (mid_none hm A e)
      | some x =>
        constructor
        · intro h; cases h; exact Or.inr ⟨hno, mid_some hm⟩
        · rintro (h | ⟨-, h⟩)
          · exact absurd h (hno e)
          · rw [firstInside_unique h (mid_some hm)]
  refine ⟨key ext, fun hn => ?_⟩
  cases hdt : detectType p with
  | ok e => exact absurd ((key e).1 hdt) (hn e)
  | error e =>
    unfold detectType at hdt
    simp only at hdt
    split at hdt
    · cases hdt
    · split at hdt
      · cases hdt
      · cases hdt; rfl

/-- C104, opening: a package whose name says nothing is refused with the error for unusable packages, whatever is in the file;
one that is recognised is loaded, and then an unsupported value is that error too, so that no unsupported value is ever
reported as such. -/
theorem C104_factory {α : Type} {p base : Str} (hb : LastComponent p base) (make : Str → Except Err α) :
    ((∀ e, ¬ NameSays base e) → factory make p = .error .vmInitError) ∧
    ((∃ e, NameSays base e) → (∀ v, factory make p = .ok v ↔ make p = .ok v) ∧
      (∀ e, e ≠ .vmInitError → (factory make p = .error e ↔ make p = .error e ∧ e ≠ .valueUnsupported)) ∧
      (factory make p = .error .vmInitError ↔ make p = .error .vmInitError ∨ make p = .error .valueUnsupported)) := by
  constructor
  · intro hn
    unfold factory
    rw [(C104_detect hb []).2 hn]
    rfl
  · rintro ⟨e, he⟩
    unfold factory
    rw [(C104_detect hb e).1.2 he]
    simp only
    cases hm : make p with
    | ok v => simp
    | error x =>
      simp only [reduceCtorEq, implies_true, Except.error.injEq, true_and]
      unfold initError
      by_cases hx : x = .valueUnsupported
      · subst hx
        rw [if_pos rfl]
        simp only [reduceCtorEq, or_true]
        refine ⟨fun e he => ⟨fun h => absurd h.symm he, fun h => absurd h.1.symm h.2⟩, trivial⟩
      · rw [if_neg hx]
        simp only [hx, or_false]
        exact ⟨fun e _ => ⟨fun h => ⟨h, h ▸ hx⟩, fun h => h.1⟩, trivial⟩

/-- C104, the descriptor: an archive is unpacked, of a descriptor the file itself is taken and nothing is unpacked. -/
theorem C104_descriptor {W : Type} {p base ext : Str} (hb : LastComponent p base) (he : NameSays base ext)
    (untar : W → Str → Except Err Str × W) (w : W) :
    descriptorFrom untar p w = if ext = ".ovf".toList then (.ok p, w) else untar w p := by
  unfold descriptorFrom
  rw [(C104_detect hb ext).1.2 he]
  have hx : ext = ".ovf".toList ∨ ext = ".ova".toList ∨ ext = ".box".toList := by
    rcases he with h | ⟨-, A, h, -⟩
    · exact h.1
    · rcases h.1 with h | h
      · exact Or.inl h
      · exact Or.inr (Or.inl h)
  rcases hx with rfl | rfl | rfl <;> simp

/-- names that are recognised, and names that are not -/
example : detectType "/a.ovf/x.ova".toList = .ok ".ova".toList ∧ detectType "foo.ovf.20150101".toList = .ok ".ovf".toList ∧
    detectType "x.ova.ovf_1".toList = .ok ".ova".toList ∧ detectType "/a.ovf/x".toList = .error .valueUnsupported ∧
    detectType ".ovf".toList = .error .valueUnsupported ∧ detectType "x.OVA".toList = .error .valueUnsupported ∧
    detectType "x.box.1".toList = .error .valueUnsupported ∧ detectType "x.ovfs.1".toList = .error .valueUnsupported := by
  decide +kernel

example : LastComponent "/a.ovf/x.ova".toList "x.ova".toList ∧ NameSays "x.ova".toList ".ova".toList ∧
    LastComponent "foo.ovf.20150101".toList "foo.ovf.20150101".toList ∧ NameSays "foo.ovf.20150101".toList ".ovf".toList :=
  have h : LastComponent "foo.ovf.20150101".toList "foo.ovf.20150101".toList := ⟨by decide, [], rfl, Or.inl rfl⟩
  ⟨⟨by decide, "/a.ovf/".toList, rfl, Or.inr ⟨"/a.ovf".toList, rfl⟩⟩,
   Or.inl ⟨Or.inr (Or.inl rfl), "x".toList, rfl, 'x', by decide, by decide⟩, h, (C104_detect h _).1.1 (by decide +kernel)⟩

end Cot
