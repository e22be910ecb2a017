import Verif.Spec.XmlText
/-
Lemmas for C119, first part: what is written is taken apart again.
-/
namespace Cot

theorem takeWhile_stop {p : Char → Bool} {a r : Str} (ha : ∀ x ∈ a, p x = true) (hr : ∀ c t, r = c :: t → p c = false) :
    (a ++ r).takeWhile p = a := by
  rw [List.takeWhile_append_of_pos ha]
  cases r with
  | nil => simp
  | cons c t => rw [List.takeWhile_cons_of_neg (by rw [hr c t rfl]; decide)]; simp

theorem dropWhile_stop {p : Char → Bool} {a r : Str} (ha : ∀ x ∈ a, p x = true) (hr : ∀ c t, r = c :: t → p c = false) :
    (a ++ r).dropWhile p = r := by
  rw [List.dropWhile_append_of_pos ha]
  cases r with
  | nil => simp
  | cons c t => rw [List.dropWhile_cons_of_neg (by rw [hr c t rfl]; decide)]

/-- what stands for a character: itself or a reference -/
def StandsFor (raw : Char → Option Char) (piece : Str) (c : Char) : Prop :=
  (∃ x, piece = [x] ∧ x ≠ '&' ∧ raw x = some c) ∨ (∃ name, piece = '&' :: name ++ [';'] ∧ ';' ∉ name ∧ entity name = some c)

theorem decode_pieces {raw : Char → Option Char} {esc : Char → Str} : ∀ (s : Str), (∀ c ∈ s, StandsFor raw (esc c) c) →
    ∀ n, (s.flatMap esc).length ≤ n → decodeRefs raw n (s.flatMap esc) = some s
  | [], _, n, _ => by cases n <;> rfl
  | c :: s, h, n, hn => by
    have ih := decode_pieces s (fun x hx => h x (List.mem_cons_of_mem _ hx))
    rw [List.flatMap_cons] at hn ⊢
    rcases h c (List.mem_cons_self ..) with ⟨x, h1, h2, h3⟩ | ⟨name, h1, h2, h3⟩
    · rw [h1] at hn ⊢
      cases n with
      | zero => simp at hn
      | succ n =>
        show (if x = '&' then _ else _) = _
        rw [if_neg h2]
        show (match raw x, decodeRefs raw n (s.flatMap esc) with | some x, some s => some (x :: s) | _, _ => none) = _
        rw [h3, ih n (by simp at hn; simpa using hn)]
    · rw [h1] at hn ⊢
      cases n with
      | zero => simp at hn
      | succ n =>
        have e1 : (name ++ [';'] ++ s.flatMap esc).takeWhile (fun x => x != ';') = name := by
          rw [List.append_assoc]
          refine takeWhile_stop (fun x hx => ?_) ?_
          · simp only [bne_iff_ne, ne_eq]; rintro rfl; exact h2 hx
          · intro c t ht; simp at ht; simp [← ht.1]
        have e2 : (name ++ [';'] ++ s.flatMap esc).dropWhile (fun x => x != ';') = ';' :: s.flatMap esc := by
          rw [List.append_assoc]
          refine dropWhile_stop (fun x hx => ?_) ?_
          · simp only [bne_iff_ne, ne_eq]; rintro rfl; exact h2 hx
          · intro c t ht; simp at ht; simp [← ht.1]
        have e3 := ih n (by simp at hn ⊢; omega)
        show (if '&' = '&' then
          (match (name ++ [';'] ++ s.flatMap esc).dropWhile (fun x => x != ';') with
            | [] => none
            | _ :: r => match entity ((name ++ [';'] ++ s.flatMap esc).takeWhile (fun x => x != ';')), decodeRefs raw n r with
              | some x, some s => some (x :: s)
              | _, _ => none)
          else _) = _
        rw [if_pos rfl, e1, e2]
        simp only [h3, e3]

theorem entity_amp : entity "amp".toList = some '&' := by decide +kernel
theorem entity_lt : entity "lt".toList = some '<' := by decide +kernel
theorem entity_gt : entity "gt".toList = some '>' := by decide +kernel
theorem entity_quot : entity "quot".toList = some '"' := by decide +kernel
theorem entity_13 : entity "#13".toList = some '\r' := by decide +kernel
theorem entity_10 : entity "#10".toList = some '\n' := by decide +kernel
theorem entity_09 : entity "#09".toList = some '\t' := by decide +kernel

theorem escData_stands {c : Char} (h : xmlChar c = true) :
    StandsFor (fun c => if xmlChar c then some c else none) (escData c) c := by
  unfold escData
  split
  · rename_i e; exact Or.inr ⟨"amp".toList, rfl, by decide, e ▸ entity_amp⟩
  split
  · rename_i e; exact Or.inr ⟨"lt".toList, rfl, by decide, e ▸ entity_lt⟩
  split
  · rename_i e; exact Or.inr ⟨"gt".toList, rfl, by decide, e ▸ entity_gt⟩
  · rename_i e _ _; exact Or.inl ⟨c, rfl, e, if_pos h⟩

theorem escAttr_stands {py : EtVer} {c : Char} (h : xmlChar c = true) (h2 : py = .py27 → c ≠ '\t' ∧ c ≠ '\r') :
    StandsFor (fun c => if c = '<' then none else if xmlWs c then some ' ' else if xmlChar c then some c else none) (escAttr py c) c := by
  unfold escAttr
  split
  · rename_i e; exact Or.inr ⟨"amp".toList, rfl, by decide, e ▸ entity_amp⟩
  split
  · rename_i e; exact Or.inr ⟨"lt".toList, rfl, by decide, e ▸ entity_lt⟩
  split
  · rename_i e; exact Or.inr ⟨"gt".toList, rfl, by decide, e ▸ entity_gt⟩
  split
  · rename_i e; exact Or.inr ⟨"quot".toList, rfl, by decide, e ▸ entity_quot⟩
  split
  · rename_i e; exact Or.inr ⟨"#13".toList, rfl, by decide, e.1 ▸ entity_13⟩
  split
  · rename_i e; exact Or.inr ⟨"#10".toList, rfl, by decide, e ▸ entity_10⟩
  split
  · rename_i e; exact Or.inr ⟨"#09".toList, rfl, by decide, e.1 ▸ entity_09⟩
  · rename_i n1 n2 n3 n4 n5 n6 n7
    refine Or.inl ⟨c, rfl, n1, ?_⟩
    dsimp only
    rw [if_neg n2]
    by_cases hs : c = ' '
    · subst hs; decide +kernel
    · have hc : c ≠ '\t' ∧ c ≠ '\r' := by
        cases py with
        | py27 => exact h2 rfl
        | py3 => exact ⟨fun e => n7 ⟨e, rfl⟩, fun e => n5 ⟨e, rfl⟩⟩
      have hw : xmlWs c = false := by simp [xmlWs, hs, hc.1, hc.2, n6]
      rw [hw, if_neg (by decide), if_pos h]

theorem hasSub_gt : ∀ {s : Str}, '>' ∉ s → hasSub "]]>".toList s = false
  | [], _ => by decide +kernel
  | c :: t, h => by
    simp only [List.mem_cons, not_or] at h
    have ih := hasSub_gt h.2
    unfold hasSub
    rw [ih, Bool.or_false]
    rcases hb : "]]>".toList.isPrefixOf (c :: t) with _ | _
    · rfl
    · exfalso
      rw [List.isPrefixOf_iff_prefix] at hb
      have : '>' ∈ c :: t := hb.subset (by decide)
      simp only [List.mem_cons] at this
      rcases this with h1 | h1
      · exact h.1 h1
      · exact h.2 h1

theorem escData_mem {c x : Char} (h : x ∈ escData c) : x ≠ '<' ∧ x ≠ '>' ∧ (x = '\r' → c = '\r') := by
  have a1 : ∀ x ∈ "&amp;".toList, x ≠ '<' ∧ x ≠ '>' ∧ x ≠ '\r' := by decide
  have a2 : ∀ x ∈ "&lt;".toList, x ≠ '<' ∧ x ≠ '>' ∧ x ≠ '\r' := by decide
  have a3 : ∀ x ∈ "&gt;".toList, x ≠ '<' ∧ x ≠ '>' ∧ x ≠ '\r' := by decide
  unfold escData at h
  split at h
  · exact ⟨(a1 x h).1, (a1 x h).2.1, fun e => absurd e (a1 x h).2.2⟩
  split at h
  · exact ⟨(a2 x h).1, (a2 x h).2.1, fun e => absurd e (a2 x h).2.2⟩
  split at h
  · exact ⟨(a3 x h).1, (a3 x h).2.1, fun e => absurd e (a3 x h).2.2⟩
  · rename_i n1 n2 n3
    simp only [List.mem_singleton] at h
    subst h
    exact ⟨n2, n3, fun e => e⟩

theorem escAttr_mem {py : EtVer} {c x : Char} (h : x ∈ escAttr py c) : x ≠ '"' ∧ (x = '\r' → py = .py27 ∧ c = '\r') := by
  have a : ∀ x ∈ "&amp;&lt;&gt;&quot;&#13;&#10;&#09;".toList, x ≠ '"' ∧ x ≠ '\r' := by decide
  have b : ∀ l : Str, l ⊆ "&amp;&lt;&gt;&quot;&#13;&#10;&#09;".toList → x ∈ l →
      x ≠ '"' ∧ (x = '\r' → py = .py27 ∧ c = '\r') := fun l hl hx => ⟨(a x (hl hx)).1, fun e => absurd e (a x (hl hx)).2⟩
  unfold escAttr at h
  split at h
  · exact b _ (by decide) h
  split at h
  · exact b _ (by decide) h
  split at h
  · exact b _ (by decide) h
  split at h
  · exact b _ (by decide) h
  split at h
  · exact b _ (by decide) h
  split at h
  · exact b _ (by decide) h
  split at h
  · exact b _ (by decide) h
  · rename_i n1 n2 n3 n4 n5 n6 n7
    simp only [List.mem_singleton] at h
    subst h
    refine ⟨n4, fun e => ⟨?_, e⟩⟩
    cases py with
    | py27 => rfl
    | py3 => exact absurd ⟨e, rfl⟩ n5

theorem data_noLt {s : Str} : ∀ x ∈ s.flatMap escData, x ≠ '<' ∧ x ≠ '>' := by
  intro x hx
  obtain ⟨c, -, h⟩ := List.mem_flatMap.1 hx
  exact ⟨(escData_mem h).1, (escData_mem h).2.1⟩

theorem decodeData_esc {s : Str} (h : DataText s) : decodeData (s.flatMap escData) = some s := by
  unfold decodeData
  rw [hasSub_gt (fun hm => (data_noLt _ hm).2 rfl), if_neg (by decide)]
  exact decode_pieces s (fun c hc => escData_stands (h c hc).1) _ (Nat.le_refl _)

theorem decodeAttr_esc {py : EtVer} {s : Str} (h : AttrText py s) : decodeAttr (s.flatMap (escAttr py)) = some s := by
  unfold decodeAttr
  exact decode_pieces s (fun c hc => escAttr_stands (h c hc).1 (h c hc).2) _ (Nat.le_refl _)

/-- a name as it is written: possibly with prefix -/
def RawName (n : Str) : Prop := properName n = true ∧ ∀ c ∈ n, nameChar c = true

theorem nameChar_facts : nameChar '=' = false ∧ nameChar '>' = false ∧ nameChar ' ' = false ∧ nameChar '/' = false ∧ nameChar '<' = false := by
  decide +kernel

theorem rawName_head {n : Str} (h : RawName n) : ∃ c t, n = c :: t ∧ nameChar c = true := by
  cases n with
  | nil => exact absurd h.1 (by decide)
  | cons c t => exact ⟨c, t, rfl, h.2 c (List.mem_cons_self ..)⟩

theorem nameChar_ne {c d : Char} (h : nameChar c = true) (hd : nameChar d = false) : c ≠ d := by
  rintro rfl; rw [h] at hd; cases hd

theorem nameChar_notWs {c : Char} (h : nameChar c = true) : xmlWs c = false := by
  have h1 : nameChar ' ' = false := by decide +kernel
  have h2 : nameChar '\t' = false := by decide +kernel
  have h3 : nameChar '\n' = false := by decide +kernel
  have h4 : nameChar '\r' = false := by decide +kernel
  simp [xmlWs, nameChar_ne h h1, nameChar_ne h h2, nameChar_ne h h3, nameChar_ne h h4]

theorem lexAttrs_ser {py : EtVer} {ends : Bool} {rest : Str} : ∀ (as : List (Str × Str)),
    (∀ kv ∈ as, RawName kv.1 ∧ AttrText py kv.2) →
    ∀ n, as.length < n → lexAttrs n (as.flatMap (serAttr py) ++ ((if ends then " />".toList else ['>']) ++ rest)) = some (as, ends, rest)
  | [], _, n, hn => by
    cases n with
    | zero => exact absurd hn (Nat.lt_irrefl _)
    | succ n =>
      cases ends <;> rfl
  | (k, v) :: as, h, n, hn => by
    cases n with
    | zero => exact absurd hn (Nat.not_lt_zero _)
    | succ n =>
      have ih := lexAttrs_ser (ends := ends) (rest := rest) as (fun kv hkv => h kv (List.mem_cons_of_mem _ hkv)) n
        (by simp at hn; omega)
      obtain ⟨hk, hv⟩ := h (k, v) (List.mem_cons_self ..)
      generalize htail : (as.flatMap (serAttr py) ++ ((if ends then " />".toList else ['>']) ++ rest)) = T at ih
      have hs : ((k, v) :: as).flatMap (serAttr py) ++ ((if ends then " />".toList else ['>']) ++ rest) =
          ' ' :: (k ++ '=' :: '"' :: (v.flatMap (escAttr py) ++ '"' :: T)) := by
        rw [List.flatMap_cons, List.append_assoc, htail]
        simp [serAttr]
      rw [hs]
      obtain ⟨c, t, rfl, hc⟩ := rawName_head hk
      have f1 : (' ' :: ((c :: t) ++ '=' :: '"' :: (v.flatMap (escAttr py) ++ '"' :: T))).dropWhile xmlWs =
          (c :: t) ++ '=' :: '"' :: (v.flatMap (escAttr py) ++ '"' :: T) := by
        rw [List.dropWhile_cons_of_pos (by decide +kernel)]
        exact List.dropWhile_cons_of_neg (by rw [nameChar_notWs hc]; decide)
      have f2 : (' ' :: ((c :: t) ++ '=' :: '"' :: (v.flatMap (escAttr py) ++ '"' :: T))).takeWhile xmlWs ≠ [] := by
        rw [List.takeWhile_cons_of_pos (by decide +kernel)]; simp
      have f3 : ((c :: t) ++ '=' :: '"' :: (v.flatMap (escAttr py) ++ '"' :: T)).takeWhile nameChar = c :: t :=
        takeWhile_stop hk.2 (fun d r hd => by simp only [List.cons.injEq] at hd; rw [← hd.1]; exact nameChar_facts.1)
      have f4 : ((c :: t) ++ '=' :: '"' :: (v.flatMap (escAttr py) ++ '"' :: T)).dropWhile nameChar =
          '=' :: '"' :: (v.flatMap (escAttr py) ++ '"' :: T) :=
        dropWhile_stop hk.2 (fun d r hd => by simp only [List.cons.injEq] at hd; rw [← hd.1]; exact nameChar_facts.1)
      have hq : ∀ x ∈ v.flatMap (escAttr py), (x != '"') = true := by
        intro x hx
        obtain ⟨c, -, hc⟩ := List.mem_flatMap.1 hx
        simpa using (escAttr_mem hc).1
      have f5 : (v.flatMap (escAttr py) ++ '"' :: T).takeWhile (fun x => x != '"') = v.flatMap (escAttr py) :=
        takeWhile_stop hq (fun d r hd => by simp only [List.cons.injEq] at hd; rw [← hd.1]; rfl)
      have f6 : (v.flatMap (escAttr py) ++ '"' :: T).dropWhile (fun x => x != '"') = '"' :: T :=
        dropWhile_stop hq (fun d r hd => by simp only [List.cons.injEq] at hd; rw [← hd.1]; rfl)
      have f7 : ('=' :: '"' :: (v.flatMap (escAttr py) ++ '"' :: T)).dropWhile xmlWs = '=' :: '"' :: (v.flatMap (escAttr py) ++ '"' :: T) :=
        List.dropWhile_cons_of_neg (by decide +kernel)
      have f8 : ('"' :: (v.flatMap (escAttr py) ++ '"' :: T)).dropWhile xmlWs = '"' :: (v.flatMap (escAttr py) ++ '"' :: T) :=
        List.dropWhile_cons_of_neg (by decide +kernel)
      rw [lexAttrs, f1]
      rw [List.cons_append] at f3 f4 ⊢
      dsimp only
      rw [if_neg (nameChar_ne hc nameChar_facts.2.1), if_neg (nameChar_ne hc nameChar_facts.2.2.2.1)]
      rw [List.cons_append] at f2
      rw [if_neg f2, f3, if_neg (by rw [hk.1]; decide), f4, f7]
      dsimp only
      rw [if_neg (by decide), f8]
      dsimp only
      rw [if_neg (by decide), f6]
      dsimp only
      rw [f5, decodeAttr_esc hv, ih]

/-- the text is taken apart into these parts, whatever the fuel if there is enough -/
def LexTo (s : Str) (r : List XmlTok) : Prop := ∀ n, s.length ≤ n → lexXml n s = some r

/-- the text is empty or begins with a tag -/
def AtTag (s : Str) : Prop := ∀ c t, s = c :: t → c = '<'

theorem lexTo_nil : LexTo [] [] := by intro n _; cases n <;> rfl

theorem lexTo_data {s rest : Str} {r : List XmlTok} (hs : s ≠ []) (hd : DataText s) (ha : AtTag rest) (h : LexTo rest r) :
    LexTo (s.flatMap escData ++ rest) (.data s :: r) := by
  intro n hn
  have hp : ∀ x ∈ s.flatMap escData, (x != '<') = true := fun x hx => by simpa using (data_noLt x hx).1
  have hr : ∀ c t, rest = c :: t → (c != '<') = false := fun c t e => by simp [ha c t e]
  have e1 := takeWhile_stop (p := fun x => x != '<') hp hr
  have e2 := dropWhile_stop (p := fun x => x != '<') hp hr
  obtain ⟨c, t, hct⟩ : ∃ c t, s.flatMap escData = c :: t := by
    cases s with
    | nil => exact absurd rfl hs
    | cons a s =>
      rw [List.flatMap_cons]
      have : escData a ≠ [] := by unfold escData; split <;> [decide; split <;> [decide; split <;> [decide; simp]]]
      cases hx : escData a with
      | nil => exact absurd hx this
      | cons c t => exact ⟨c, t ++ _, rfl⟩
  have hc : c ≠ '<' := by
    have := hp c (by rw [hct]; exact List.mem_cons_self ..)
    simpa using this
  have hdec := decodeData_esc hd
  rw [hct] at e1 e2 hn hdec ⊢
  cases n with
  | zero => simp at hn
  | succ n =>
    rw [List.cons_append] at e1 e2 ⊢
    rw [lexXml.eq_def]
    dsimp only
    rw [if_pos hc, e1, e2, hdec, h n (by simp at hn; omega)]

theorem lexTo_stop {name rest : Str} {r : List XmlTok} (hn : RawName name) (h : LexTo rest r) :
    LexTo ('<' :: '/' :: name ++ '>' :: rest) (.stop name :: r) := by
  intro n hl
  cases n with
  | zero => simp at hl
  | succ n =>
    have e1 : (name ++ '>' :: rest).takeWhile nameChar = name :=
      takeWhile_stop hn.2 (fun d r hd => by simp only [List.cons.injEq] at hd; rw [← hd.1]; exact nameChar_facts.2.1)
    have e2 : (name ++ '>' :: rest).dropWhile nameChar = '>' :: rest :=
      dropWhile_stop hn.2 (fun d r hd => by simp only [List.cons.injEq] at hd; rw [← hd.1]; exact nameChar_facts.2.1)
    have e3 : ('>' :: rest).dropWhile xmlWs = '>' :: rest := List.dropWhile_cons_of_neg (by decide +kernel)
    show lexXml (n + 1) ('<' :: ('/' :: (name ++ '>' :: rest))) = _
    rw [lexXml.eq_def]
    dsimp only
    rw [if_neg (by decide)]
    rw [if_pos rfl, e2, e3]
    dsimp only
    rw [e1, if_neg (by simp [hn.1]), h n (by simp at hl; omega)]
    rfl

theorem flatMap_length {α : Type} (f : α → Str) (hf : ∀ a, 1 ≤ (f a).length) : ∀ l : List α, l.length ≤ (l.flatMap f).length
  | [] => Nat.zero_le _
  | a :: l => by
    have := flatMap_length f hf l
    have := hf a
    rw [List.flatMap_cons, List.length_append, List.length_cons]; omega

theorem lexTo_start {py : EtVer} {name rest : Str} {as : List (Str × Str)} {ends : Bool} {r : List XmlTok} (hn : RawName name)
    (ha : ∀ kv ∈ as, RawName kv.1 ∧ AttrText py kv.2) (h : LexTo rest r) :
    LexTo ('<' :: name ++ (as.flatMap (serAttr py) ++ ((if ends then " />".toList else ['>']) ++ rest))) (.start name as ends :: r) := by
  intro n hl
  cases n with
  | zero => simp at hl
  | succ n =>
    generalize hT : as.flatMap (serAttr py) ++ ((if ends then " />".toList else ['>']) ++ rest) = T at hl ⊢
    have hstop : ∀ c t, T = c :: t → nameChar c = false := by
      intro c t ht
      rw [ht] at hT
      cases as with
      | nil => cases ends <;> simp at hT <;> rw [← hT.1] <;> decide +kernel
      | cons a as => simp [serAttr] at hT; rw [← hT.1]; decide +kernel
    have e1 : (name ++ T).takeWhile nameChar = name := takeWhile_stop hn.2 hstop
    have e2 : (name ++ T).dropWhile nameChar = T := dropWhile_stop hn.2 hstop
    have hlen : as.length < (name ++ T).length := by
      obtain ⟨c, t, hc, -⟩ := rawName_head hn
      have h1 := flatMap_length (serAttr py) (fun a => by simp [serAttr]) as
      rw [List.length_append, ← hT, List.length_append, hc, List.length_cons]; omega
    have e3 := lexAttrs_ser (ends := ends) (rest := rest) as ha (name ++ T).length hlen
    rw [hT] at e3
    have hrest : rest.length ≤ n := by
      rw [← hT] at hl
      simp at hl; omega
    obtain ⟨c, t, hc, hcn⟩ := rawName_head hn
    have hslash : c ≠ '/' := nameChar_ne hcn nameChar_facts.2.2.2.1
    have hbang : c ≠ '!' := nameChar_ne hcn (by decide +kernel)
    have hq : c ≠ '?' := nameChar_ne hcn (by decide +kernel)
    show lexXml (n + 1) ('<' :: (name ++ T)) = _
    rw [lexXml.eq_def]
    dsimp only
    rw [if_neg (by decide)]
    generalize hnt : name ++ T = NT at e1 e2 e3
    have hNT : NT = c :: (t ++ T) := by rw [← hnt, hc]; rfl
    cases NT with
    | nil => cases hNT
    | cons d NT =>
      have hd : d = c := (List.cons.inj hNT).1
      subst hd
      dsimp only
      rw [if_neg hslash, if_neg hbang, if_neg hq, e1, if_neg (by rw [hn.1]; decide), e2, e3]
      dsimp only
      rw [h n hrest]
      rfl

end Cot
