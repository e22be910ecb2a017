import Verif.Lemmas.XmlTree
import Verif.Lemmas.Dict
import Verif.Lemmas.Digits
import Verif.Lemmas.HwBasic
import Verif.Props.NameHelper
/-
Lemmas for C119, third part: names get prefixes that are understood again.
-/
namespace Cot

theorem nsNumber_of {k : Nat} : nsNumber ("ns".toList ++ natStr k) = true := by
  show (decide (natStr k ≠ []) && (natStr k).all isDig) = true
  simp only [ne_eq, natStr_ne_nil, not_false_eq_true, decide_true, Bool.true_and, List.all_eq_true]
  exact isDig_natStr k

theorem nameChar_dig {c : Char} (h : isDig c = true) : nameChar c = true := by
  unfold nameChar; simp [h]

theorem xmlName_ns (k : Nat) : XmlName ("ns".toList ++ natStr k) := by
  refine ⟨rfl, ?_, ?_⟩
  · intro c hc
    rcases List.mem_append.1 hc with h | h
    · have : ∀ x ∈ "ns".toList, nameChar x = true := by decide +kernel
      exact this c h
    · exact nameChar_dig (isDig_natStr k c h)
  · intro h
    rcases List.mem_append.1 h with h | h
    · revert h; decide
    · exact absurd (isDig_natStr k _ h) (by decide)

theorem ns_ne_xml (k : Nat) : "ns".toList ++ natStr k ≠ "xml".toList := by
  intro h
  exact absurd (List.cons.inj h).1 (by decide)

theorem ns_ne_xmlns (k : Nat) : "ns".toList ++ natStr k ≠ "xmlns".toList := by
  intro h
  exact absurd (List.cons.inj h).1 (by decide)

/-- the URI of XML itself -/
abbrev xmlUri : Str := "http://www.w3.org/XML/1998/namespace".toList

/-- a URI and the prefix chosen for it -/
def Chosen (reg : List (Str × Str)) (n : Nat) (u p : Str) : Prop :=
  dget? reg u = some p ∨ (dget? reg u = none ∧ ∃ k, k < n ∧ p = "ns".toList ++ natStr k)

theorem GoodPrefixes.get {reg : List (Str × Str)} (g : GoodPrefixes reg) : dget? reg xmlUri = some "xml".toList :=
  dget?_of_mem g.uris g.hasXml

theorem Chosen.name {reg : List (Str × Str)} (g : GoodPrefixes reg) {n : Nat} {u p : Str} (h : Chosen reg n u p) :
    XmlName p ∧ p ≠ "xmlns".toList ∧ (u = xmlUri ↔ p = "xml".toList) := by
  rcases h with h | ⟨h, k, -, rfl⟩
  · have := dget?_mem h
    exact ⟨(g.names _ this).1, (g.names _ this).2.2, g.xml _ this⟩
  · refine ⟨xmlName_ns k, ns_ne_xmlns k, ?_, fun h' => absurd h' (ns_ne_xml k)⟩
    rintro rfl
    rw [g.get] at h; cases h

/-- what a name is written as -/
def WrittenAs (py : EtVer) (spaces : List (Str × Str)) (q w : Str) : Prop :=
  (XmlName q ∧ q ≠ "xmlns".toList ∧ w = q) ∨
  ∃ u l p, GoodUri py u ∧ XmlName l ∧ q = '{' :: u ++ '}' :: l ∧ w = p ++ ':' :: l ∧
    ((u, p) ∈ spaces ∨ (u = xmlUri ∧ p = "xml".toList)) ∧ XmlName p

/-- the tables while names are collected -/
structure TabInv (py : EtVer) (reg : List (Str × Str)) (t : NsTab) : Prop where
  uris : (dkeys t.spaces).Nodup
  prefixes : (t.spaces.map Prod.snd).Nodup
  chosen : ∀ u p, (u, p) ∈ t.spaces → Chosen reg t.spaces.length u p ∧ p ≠ "xml".toList ∧ GoodUri py u
  written : ∀ q w, dget? t.qnames q = some w → WrittenAs py t.spaces q w

theorem WrittenAs.mono {py : EtVer} {s s' : List (Str × Str)} {q w : Str} (h : WrittenAs py s q w) (hs : ∀ x ∈ s, x ∈ s') :
    WrittenAs py s' q w := by
  rcases h with h | ⟨u, l, p, h1, h2, h3, h4, h5 | h5, h6⟩
  · exact Or.inl h
  · exact Or.inr ⟨u, l, p, h1, h2, h3, h4, Or.inl (hs _ h5), h6⟩
  · exact Or.inr ⟨u, l, p, h1, h2, h3, h4, Or.inr h5, h6⟩

theorem splitQname_plain {q : Str} (h : XmlName q) : splitQname q = none := by
  cases q with
  | nil => rfl
  | cons c t =>
    have hc := h.2.1 c (List.mem_cons_self ..)
    have : c ≠ '{' := nameChar_ne hc (by decide +kernel)
    unfold splitQname
    split
    · rename_i heq; exact absurd (List.cons.inj heq).1 this
    · rfl

theorem xmlName_noBrace {l : Str} (h : XmlName l) : '}' ∉ l := by
  intro hm
  have := h.2.1 _ hm
  revert this; decide +kernel

theorem splitQname_full {u l : Str} (h : XmlName l) : splitQname ('{' :: u ++ '}' :: l) = some (.ok (u, l)) := by
  show (match beforeLast '}' (u ++ '}' :: l), afterLast '}' (u ++ '}' :: l) with
    | some u, some l => some (Except.ok (u, l))
    | _, _ => some (Except.error Err.valueError)) = _
  rw [afterLast_append _ _ (xmlName_noBrace h), beforeLast_append _ _ (xmlName_noBrace h)]

theorem xmlName_ne_nil {p : Str} (h : XmlName p) : p ≠ [] := by
  rintro rfl; exact absurd h.1 (by decide)

theorem nodup_snd_inj : ∀ {l : List (Str × Str)}, (l.map Prod.snd).Nodup → ∀ {a b p : Str}, (a, p) ∈ l → (b, p) ∈ l → a = b
  | [], _, _, _, _, h, _ => by cases h
  | (u, q) :: l, hn, a, b, p, h1, h2 => by
    simp only [List.map_cons, List.nodup_cons] at hn
    rcases List.mem_cons.1 h1 with e1 | m1
    · rcases List.mem_cons.1 h2 with e2 | m2
      · cases e1; cases e2; rfl
      · cases e1; exact absurd (List.mem_map_of_mem (f := Prod.snd) m2) hn.1
    · rcases List.mem_cons.1 h2 with e2 | m2
      · cases e2; exact absurd (List.mem_map_of_mem (f := Prod.snd) m1) hn.1
      · exact nodup_snd_inj hn.2 m1 m2

theorem useQname_spec {py : EtVer} {reg : List (Str × Str)} (g : GoodPrefixes reg) {t : NsTab} (hi : TabInv py reg t) {q : Str}
    (hq : XmlQName py q) : ∃ t', useQname reg t q = .ok t' ∧ TabInv py reg t' ∧ q ∈ dkeys t'.qnames ∧
      (∀ x ∈ dkeys t.qnames, x ∈ dkeys t'.qnames) := by
  unfold useQname
  split
  · rename_i h; exact ⟨t, rfl, hi, h, fun _ h => h⟩
  · rename_i hnew
    have hkeys : ∀ w, q ∈ dkeys (dset t.qnames q w) ∧ ∀ x ∈ dkeys t.qnames, x ∈ dkeys (dset t.qnames q w) := by
      intro w
      rw [dkeys_dset, if_neg hnew]
      exact ⟨by simp, fun x hx => List.mem_append_left _ hx⟩
    have hset : ∀ {w : Str} {s' : List (Str × Str)}, (∀ x ∈ t.spaces, x ∈ s') → WrittenAs py s' q w →
        ∀ a b, dget? (dset t.qnames q w) a = some b → WrittenAs py s' a b := by
      intro w s' hs hw a b hab
      rw [dget?_dset] at hab
      split at hab
      · cases hab; rename_i h; rw [← h]; exact hw
      · exact (hi.written a b hab).mono hs
    unfold addQname
    rcases hq with ⟨h1, h2⟩ | ⟨u, l, hu, hl, rfl⟩
    · rw [splitQname_plain h1]
      exact ⟨_, rfl, ⟨hi.uris, hi.prefixes, hi.chosen, hset (fun x hx => hx) (Or.inl ⟨h1, h2, rfl⟩)⟩, hkeys _⟩
    · rw [splitQname_full hl]
      dsimp only
      rcases hd : dget? t.spaces u with _ | p
      · dsimp only
        have hun : u ∉ dkeys t.spaces := dget?_eq_none.1 hd
        generalize hp : (dget? reg u).getD ("ns".toList ++ natStr t.spaces.length) = p
        have hch : Chosen reg (t.spaces.length + 1) u p := by
          rcases hr : dget? reg u with _ | p'
          · exact Or.inr ⟨hr, t.spaces.length, Nat.lt_succ_self _, by rw [← hp, hr]; rfl⟩
          · rw [hr] at hp; exact Or.inl (hr.trans (by rw [← hp]; rfl))
        have hname := hch.name g
        have hpre : prefixed p l = p ++ ':' :: l := by unfold prefixed; rw [if_pos (xmlName_ne_nil hname.1)]
        refine ⟨_, rfl, ?_, hkeys _⟩
        by_cases hx : p = "xml".toList
        · simp only [hx, ne_eq, not_true_eq_false, if_false]
          rw [hx] at hpre hname
          exact ⟨hi.uris, hi.prefixes, hi.chosen,
            hset (fun x hx => hx) (Or.inr ⟨u, l, _, hu, hl, rfl, hpre, Or.inr ⟨hname.2.2.2 rfl, rfl⟩, hname.1⟩)⟩
        · simp only [ne_eq, hx, not_false_eq_true, if_true]
          have hset' : dset t.spaces u p = t.spaces ++ [(u, p)] := dset_append hun p
          have hfresh : p ∉ t.spaces.map Prod.snd := by
            intro hm
            obtain ⟨⟨u', p'⟩, hm', he⟩ := List.mem_map.1 hm
            dsimp only at he; subst he
            have hne : u' ≠ u := by rintro rfl; exact hun (List.mem_map_of_mem hm')
            rcases (hi.chosen u' p' hm').1 with h1 | ⟨h1, k, hk, hpk⟩
            · rcases hch with h3 | ⟨h3, k', hk', hpk'⟩
              · exact hne (nodup_snd_inj g.prefixes (dget?_mem h1) (dget?_mem h3))
              · have := (g.names _ (dget?_mem h1)).2.1
                rw [show ((u', p').2 : Str) = p' from rfl, hpk', nsNumber_of] at this; cases this
            · rcases hr : dget? reg u with _ | p''
              · rw [hr] at hp
                have e : "ns".toList ++ natStr t.spaces.length = "ns".toList ++ natStr k := hp.trans hpk
                have := natStr_inj (List.append_cancel_left e)
                omega
              · rw [hr] at hp
                have e : p'' = p' := hp
                have := (g.names _ (dget?_mem hr)).2.1
                rw [show ((u, p'').2 : Str) = p'' from rfl, e, hpk, nsNumber_of] at this; cases this
          refine ⟨nodup_dset hi.uris, ?_, ?_, ?_⟩
          · rw [hset']
            simp only [List.map_append, List.map_cons, List.map_nil]
            exact List.nodup_append.2 ⟨hi.prefixes, by simp, by
              intro a ha b hb; simp only [List.mem_singleton] at hb; subst hb; rintro rfl; exact hfresh ha⟩
          · dsimp only
            rw [hset']
            intro u' p' hm
            simp only [List.length_append, List.length_singleton]
            rcases List.mem_append.1 hm with h | h
            · obtain ⟨c1, c2, c3⟩ := hi.chosen u' p' h
              refine ⟨?_, c2, c3⟩
              rcases c1 with c | ⟨c, k, hk, e⟩
              · exact Or.inl c
              · exact Or.inr ⟨c, k, by omega, e⟩
            · simp only [List.mem_singleton, Prod.mk.injEq] at h
              obtain ⟨rfl, rfl⟩ := h
              exact ⟨hch, hx, hu⟩
          · refine hset (fun x hx => by rw [hset']; exact List.mem_append_left _ hx) (Or.inr ⟨u, l, p, hu, hl, rfl, hpre, Or.inl ?_, hname.1⟩)
            rw [hset']; simp
      · dsimp only
        have hm := dget?_mem hd
        have hname := (hi.chosen u p hm).1.name g
        refine ⟨_, rfl, ⟨hi.uris, hi.prefixes, hi.chosen, hset (fun x hx => hx) (Or.inr ⟨u, l, p, hu, hl, rfl, ?_, Or.inl hm, hname.1⟩)⟩, hkeys _⟩
        unfold prefixed; rw [if_pos (xmlName_ne_nil hname.1)]

theorem collect_spec {py : EtVer} {reg : List (Str × Str)} (g : GoodPrefixes reg) : ∀ (names : List Str) (t : NsTab), TabInv py reg t →
    (∀ q ∈ names, XmlQName py q) → ∃ t', names.foldlM (useQname reg) t = .ok t' ∧ TabInv py reg t' ∧
      (∀ q ∈ names, q ∈ dkeys t'.qnames) ∧ (∀ x ∈ dkeys t.qnames, x ∈ dkeys t'.qnames)
  | [], t, hi, _ => ⟨t, rfl, hi, by simp, fun _ h => h⟩
  | q :: names, t, hi, h => by
    obtain ⟨t1, e1, i1, m1, k1⟩ := useQname_spec g hi (h q (List.mem_cons_self ..))
    obtain ⟨t2, e2, i2, m2, k2⟩ := collect_spec g names t1 i1 (fun x hx => h x (List.mem_cons_of_mem _ hx))
    refine ⟨t2, ?_, i2, ?_, fun x hx => k2 x (k1 x hx)⟩
    · rw [List.foldlM_cons, e1]; exact e2
    · intro x hx
      rcases List.mem_cons.1 hx with rfl | hx
      · exact k2 _ m1
      · exact m2 x hx

theorem tabInv_empty (py : EtVer) (reg : List (Str × Str)) : TabInv py reg ⟨[], []⟩ :=
  ⟨by simp [dkeys], by simp, by simp, by intro q w h; cases h⟩

/-! ### Reading the names again -/

/-- the namespaces in force after the declarations -/
def envOf (spaces : List (Str × Str)) : List (Str × Str) := (sortSpaces spaces).map (fun up => (up.2, up.1))

theorem insertSpace_perm (x : Str × Str) : ∀ l, (insertSpace x l).Perm (x :: l)
  | [] => List.Perm.refl _
  | y :: r => by
    unfold insertSpace
    split
    · exact List.Perm.refl _
    · exact ((insertSpace_perm x r).cons y).trans (List.Perm.swap x y r)

theorem sortSpaces_perm : ∀ l, (sortSpaces l).Perm l
  | [] => List.Perm.refl _
  | x :: l => (insertSpace_perm x _).trans ((sortSpaces_perm l).cons x)

theorem mem_sortSpaces {l : List (Str × Str)} {x : Str × Str} : x ∈ sortSpaces l ↔ x ∈ l := by
  exact (sortSpaces_perm l).mem_iff

theorem declares_decl {p : Str} : declares ("xmlns".toList ++ ':' :: p) = some p := by
  unfold declares
  rw [if_neg (by intro e; have := congrArg List.length e; simp at this)]
  have : startsWith ("xmlns".toList ++ ':' :: p) "xmlns:".toList = true := by
    show "xmlns:".toList.isPrefixOf ("xmlns:".toList ++ p) = true
    rw [List.isPrefixOf_iff_prefix]; exact List.prefix_append _ _
  rw [this]
  rfl

theorem declareAll_decls {py : EtVer} {as : List (Str × Str)} (has : ∀ kv ∈ as, declares kv.1 = none) :
    ∀ (l env : List (Str × Str)), (l.map Prod.snd).Nodup → (∀ up ∈ l, up.2 ∉ dkeys env) →
      (∀ up ∈ l, XmlName up.2 ∧ up.2 ≠ "xmlns".toList ∧ up.2 ≠ "xml".toList ∧ up.1 ≠ xmlUri ∧ GoodUri py up.1) →
      declareAll env (l.map (fun up => (if up.2 ≠ [] then "xmlns".toList ++ ':' :: up.2 else "xmlns".toList, up.1)) ++ as) =
        some (env ++ l.map (fun up => (up.2, up.1)))
  | [], env, _, _, _ => by
    rw [List.map_nil, List.nil_append, declareAll_none has]; simp
  | (u, p) :: l, env, hn, he, hg => by
    simp only [List.map_cons, List.nodup_cons] at hn
    obtain ⟨g1, g2, g3, g4, g5⟩ := hg (u, p) (List.mem_cons_self ..)
    dsimp only at g1 g2 g3 g4 g5
    have ih := declareAll_decls (py := py) has l (env ++ [(p, u)]) hn.2 (by
      intro up hup hm
      simp only [dkeys, List.map_append, List.map_cons, List.map_nil, List.mem_append, List.mem_singleton] at hm
      rcases hm with hm | hm
      · exact he up (List.mem_cons_of_mem _ hup) hm
      · exact hn.1 (hm ▸ List.mem_map_of_mem (f := Prod.snd) hup)) (fun up hup => hg up (List.mem_cons_of_mem _ hup))
    have hmay : mayDeclare p u = true := by
      unfold mayDeclare
      simp only [Bool.and_eq_true, Bool.not_eq_true', decide_eq_false_iff_not, decide_eq_true_eq]
      exact ⟨⟨⟨g5.2.1, g5.2.2.1⟩, ⟨fun h => absurd h g4, fun h => absurd h g3⟩⟩, g2⟩
    rw [List.map_cons, List.cons_append, declareAll]
    dsimp only
    rw [if_pos (xmlName_ne_nil g1), declares_decl]
    dsimp only
    rw [if_neg (by
      rintro (h | ⟨-, h | h | h⟩)
      · rw [hmay] at h; cases h
      · rw [g1.1] at h; cases h
      · exact g1.2.2 h
      · exact g5.1 h), dset_append (he (u, p) (List.mem_cons_self ..)), ih]
    simp

theorem spaces_good {py : EtVer} {reg : List (Str × Str)} (g : GoodPrefixes reg) {t : NsTab} (hi : TabInv py reg t) :
    ∀ up ∈ t.spaces, XmlName up.2 ∧ up.2 ≠ "xmlns".toList ∧ up.2 ≠ "xml".toList ∧ up.1 ≠ xmlUri ∧ GoodUri py up.1 := by
  rintro ⟨u, p⟩ h
  obtain ⟨c1, c2, c3⟩ := hi.chosen u p h
  obtain ⟨n1, n2, n3⟩ := c1.name g
  exact ⟨n1, n2, c2, fun e => c2 (n3.1 e), c3⟩

theorem xmlName_raw {n : Str} (h : XmlName n) : RawName n := ⟨h.1, h.2.1⟩

theorem rawName_prefixed {p l : Str} (hp : XmlName p) (hl : XmlName l) : RawName (p ++ ':' :: l) := by
  refine ⟨?_, ?_⟩
  · cases p with
    | nil => exact absurd hp.1 (by decide)
    | cons c t => exact hp.1
  · intro c hc
    rcases List.mem_append.1 hc with h | h
    · exact hp.2.1 c h
    · rcases List.mem_cons.1 h with rfl | h
      · decide +kernel
      · exact hl.2.1 c h

theorem takeWhile_colon {p r : Str} (h : ':' ∉ p) : (p ++ ':' :: r).takeWhile (fun x => x != ':') = p :=
  takeWhile_stop (fun x hx => by simp only [bne_iff_ne, ne_eq]; rintro rfl; exact h hx)
    (fun c t e => by rw [← (List.cons.inj e).1]; rfl)

theorem dropWhile_colon {p r : Str} (h : ':' ∉ p) : (p ++ ':' :: r).dropWhile (fun x => x != ':') = ':' :: r :=
  dropWhile_stop (fun x hx => by simp only [bne_iff_ne, ne_eq]; rintro rfl; exact h hx)
    (fun c t e => by rw [← (List.cons.inj e).1]; rfl)

theorem declares_plain {q : Str} (h : XmlName q) (hx : q ≠ "xmlns".toList) : declares q = none := by
  unfold declares
  rw [if_neg hx, if_neg]
  intro hs
  obtain ⟨r, hr⟩ := List.isPrefixOf_iff_prefix.1 hs
  exact h.2.2 (by rw [← hr]; simp)

theorem declares_prefixed {p l : Str} (hp : XmlName p) (hx : p ≠ "xmlns".toList) : declares (p ++ ':' :: l) = none := by
  unfold declares
  rw [if_neg (by
    intro e
    have : ':' ∈ "xmlns".toList := by rw [← e]; simp
    revert this; decide), if_neg]
  intro hs
  obtain ⟨r, hr⟩ := List.isPrefixOf_iff_prefix.1 hs
  have h1 := takeWhile_colon (r := l) hp.2.2
  rw [← hr] at h1
  have h2 : ("xmlns:".toList ++ r).takeWhile (fun x => x != ':') = "xmlns".toList := takeWhile_colon (p := "xmlns".toList) (r := r) (by decide)
  exact hx (h1.symm.trans h2)

theorem env_get {py : EtVer} {reg : List (Str × Str)} {t : NsTab} (hi : TabInv py reg t) {u p : Str}
    (h : (u, p) ∈ t.spaces) : dget? (envOf t.spaces) p = some u := by
  refine dget?_of_mem ?_ (List.mem_map.2 ⟨(u, p), mem_sortSpaces.2 h, rfl⟩)
  have : dkeys (envOf t.spaces) = (sortSpaces t.spaces).map Prod.snd := by simp [dkeys, envOf]
  rw [this]
  exact ((sortSpaces_perm t.spaces).map Prod.snd).nodup_iff.2 hi.prefixes

theorem env_default {py : EtVer} {reg : List (Str × Str)} (g : GoodPrefixes reg) {t : NsTab} (hi : TabInv py reg t) :
    dget? (envOf t.spaces) [] = none := by
  rw [dget?_eq_none]
  intro h
  obtain ⟨x, h1, h2⟩ := List.mem_map.1 h
  obtain ⟨up, h3, rfl⟩ := List.mem_map.1 h1
  exact xmlName_ne_nil (spaces_good g hi up (mem_sortSpaces.1 h3)).1 h2

theorem understood {py : EtVer} {reg : List (Str × Str)} (g : GoodPrefixes reg) {t : NsTab} (hi : TabInv py reg t) {names : List Str}
    (hn : ∀ q ∈ names, q ∈ dkeys t.qnames) : Understood t.written (envOf t.spaces) names := by
  intro q hq
  obtain ⟨w, hw⟩ := dget?_of_mem_dkeys (hn q hq)
  have hwr : t.written q = w := by unfold NsTab.written; rw [hw]; rfl
  rw [hwr]
  rcases hi.written q w hw with ⟨h1, h2, rfl⟩ | ⟨u, l, p, hu, hl, rfl, rfl, hp, hpn⟩
  · refine ⟨xmlName_raw h1, declares_plain h1 h2, ?_, ?_⟩
    · unfold resolve; rw [if_neg h1.2.2, if_pos rfl, env_default g hi]
    · unfold resolve; rw [if_neg h1.2.2, if_neg (by decide)]
  · have hx : p ≠ "xmlns".toList := by
      rcases hp with h | ⟨-, rfl⟩
      · exact (spaces_good g hi _ h).2.1
      · decide
    have hns : nsOfPrefix (envOf t.spaces) p = some u := by
      unfold nsOfPrefix
      rcases hp with h | ⟨rfl, rfl⟩
      · rw [if_neg (spaces_good g hi _ h).2.2.1, env_get hi h]
      · rw [if_pos rfl]
    have hr : ∀ b, resolve (envOf t.spaces) b (p ++ ':' :: l) = some ('{' :: u ++ '}' :: l) := by
      intro b
      unfold resolve
      rw [if_pos (by simp), takeWhile_colon hpn.2.2, dropWhile_colon hpn.2.2]
      dsimp only [List.drop]
      rw [if_neg (by simp [hpn.1, hl.1, hl.2.2]), hns]
    exact ⟨rawName_prefixed hpn hl, declares_prefixed hpn hx, hr _, hr _⟩

mutual
theorem writable_names {py : EtVer} : ∀ (e : Elem), XmlWritable py e → ∀ q ∈ e.names, XmlQName py q
  | .mk tag attrib text tail cs, h, q, hq => by
    simp only [XmlWritable] at h
    simp only [Elem.names, List.cons_append, List.mem_cons, List.mem_append] at hq
    rcases hq with rfl | hq | hq
    · exact h.1
    · obtain ⟨kv, h1, rfl⟩ := List.mem_map.1 hq
      exact (h.2.1 kv h1).1
    · exact writable_namesL cs h.2.2.2.2.2 q hq
theorem writable_namesL {py : EtVer} : ∀ (cs : List Elem), XmlWritableL py cs → ∀ q ∈ Elem.namesL cs, XmlQName py q
  | [], _, q, hq => by cases hq
  | e :: cs, h, q, hq => by
    simp only [XmlWritableL] at h
    simp only [Elem.namesL, List.mem_append] at hq
    rcases hq with hq | hq
    · exact writable_names e h.1 q hq
    · exact writable_namesL cs h.2 q hq
end

/-! ### No carriage returns -/

theorem rawName_noCr {n : Str} (h : RawName n) : '\r' ∉ n := by
  intro hm
  have := h.2 _ hm
  revert this; decide +kernel

theorem data_noCr {s : Str} (h : DataText s) : '\r' ∉ s.flatMap escData := by
  intro hm
  obtain ⟨c, hc, hx⟩ := List.mem_flatMap.1 hm
  exact (h c hc).2 ((escData_mem hx).2.2 rfl)

theorem attrs_noCr {py : EtVer} {as : List (Str × Str)} (h : ∀ kv ∈ as, RawName kv.1 ∧ AttrText py kv.2) : '\r' ∉ as.flatMap (serAttr py) := by
  intro hm
  obtain ⟨kv, hkv, hx⟩ := List.mem_flatMap.1 hm
  unfold serAttr at hx
  simp only [List.cons_append, List.mem_cons, List.mem_append, List.not_mem_nil, or_false] at hx
  rcases hx with hx | (hx | hx | hx | hx) | hx
  · revert hx; decide
  · exact rawName_noCr (h kv hkv).1 hx
  · revert hx; decide
  · revert hx; decide
  · obtain ⟨c, hc, hx⟩ := List.mem_flatMap.1 hx
    obtain ⟨e1, e2⟩ := (escAttr_mem hx).2 rfl
    exact (((h kv hkv).2 c hc).2 e1).2 e2
  · revert hx; decide

mutual
theorem ser_noCr {py : EtVer} {qn : Str → Str} : ∀ (e : Elem) (decls : List (Str × Str)), XmlWritable py e → (∀ q ∈ e.names, RawName (qn q)) →
    (∀ kv ∈ decls, RawName kv.1 ∧ AttrText py kv.2) → '\r' ∉ serElem py qn decls e
  | .mk tag attrib text tail cs, decls, hw, hn, hd => by
    simp only [XmlWritable] at hw
    obtain ⟨w1, w2, w3, w4, w5, w6⟩ := hw
    simp only [Elem.names] at hn
    have htag := rawName_noCr (hn tag (by simp))
    have has : ∀ kv ∈ decls ++ attrib.map (fun kv => (qn kv.1, kv.2)), RawName kv.1 ∧ AttrText py kv.2 := by
      intro kv hkv
      rcases List.mem_append.1 hkv with h1 | h1
      · exact hd kv h1
      · obtain ⟨kv', h2, rfl⟩ := List.mem_map.1 h1
        exact ⟨hn kv'.1 (by simp [dkeys]; exact Or.inr (Or.inl ⟨_, h2⟩)), (w2 kv' h2).2⟩
    have hk := sers_noCr (py := py) (qn := qn) cs w6 (fun q hq => hn q (by simp [hq]))
    have h1 := attrs_noCr has
    have h2 := data_noCr w4
    have h3 := data_noCr w5
    rw [serElem]
    split
    · have a1 : '\r' ∉ ['>'] := by decide
      intro hm
      simp only [List.cons_append, List.mem_cons, List.mem_append, List.not_mem_nil, or_false] at hm
      rcases hm with hm | hm
      · revert hm; decide
      · tauto
    · have a1 : '\r' ∉ " />".toList := by decide
      intro hm
      simp only [List.cons_append, List.mem_cons, List.mem_append] at hm
      rcases hm with hm | hm
      · revert hm; decide
      · tauto
theorem sers_noCr {py : EtVer} {qn : Str → Str} : ∀ (cs : List Elem), XmlWritableL py cs → (∀ q ∈ Elem.namesL cs, RawName (qn q)) →
    '\r' ∉ serElems py qn cs
  | [], _, _ => by rw [serElems]; simp
  | e :: cs, hw, hn => by
    simp only [XmlWritableL] at hw
    simp only [Elem.namesL] at hn
    rw [serElems, List.mem_append, not_or]
    exact ⟨ser_noCr (py := py) (qn := qn) e [] hw.1 (fun q hq => hn q (List.mem_append_left _ hq)) (by simp),
      sers_noCr (py := py) (qn := qn) cs hw.2 (fun q hq => hn q (List.mem_append_right _ hq))⟩
end

theorem unifyLines_id : ∀ {s : Str}, '\r' ∉ s → unifyLines s = s
  | [], _ => rfl
  | c :: t, h => by
    simp only [List.mem_cons, not_or] at h
    have ih := unifyLines_id h.2
    unfold unifyLines
    split
    · rename_i heq; exact absurd (List.cons.inj heq).1.symm h.1
    · rename_i heq; exact absurd (List.cons.inj heq).1.symm h.1
    · rename_i heq; obtain ⟨rfl, rfl⟩ := List.cons.inj heq; rw [ih]
    · rename_i heq; cases heq

theorem header_lex {s : Str} {r : List XmlTok} (hs : AtTag s) (h : LexTo s r) :
    LexTo ("<?xml version='1.0' encoding='utf-8'?>\n".toList ++ s) (.data "\n".toList :: r) := by
  have h1 : LexTo ("\n".toList ++ s) (.data "\n".toList :: r) :=
    lexTo_data (s := "\n".toList) (by decide) (by intro c hc; simp at hc; subst hc; decide +kernel) hs h
  intro n hn
  cases n with
  | zero => simp at hn
  | succ n =>
    have e : "<?xml version='1.0' encoding='utf-8'?>\n".toList ++ s =
        '<' :: '?' :: ("xml version='1.0' encoding='utf-8'?>".toList ++ ("\n".toList ++ s)) := rfl
    have ha : afterSub "?>".toList ("xml version='1.0' encoding='utf-8'?>".toList ++ ("\n".toList ++ s)) = some ("\n".toList ++ s) := rfl
    have hl : ("\n".toList ++ s).length ≤ n := by
      simp at hn ⊢; omega
    rw [e, lexXml.eq_def]
    dsimp only
    rw [if_neg (by decide), if_neg (by decide), if_neg (by decide), if_pos rfl, ha]
    exact h1 n hl

/-- the whole: what is written is read back -/
theorem treeText_read {py : EtVer} {reg : List (Str × Str)} (g : GoodPrefixes reg) {tag : Str} {attrib : List (Str × Str)} {text tail : Option Str}
    {cs : List Elem} (hw : XmlWritable py (.mk tag attrib text tail cs)) (ht : (tail.getD []).all xmlWs = true) :
    ∃ s, treeText py reg (.mk tag attrib text tail cs) = .ok s ∧ parseXml s = some (readBack (.mk tag attrib text none cs)) := by
  obtain ⟨t, e1, hi, hm, -⟩ := collect_spec g (Elem.mk tag attrib text tail cs).names ⟨[], []⟩ (tabInv_empty py reg)
    (writable_names _ hw)
  have hu := understood g hi hm
  refine ⟨_, by unfold treeText collectNames; rw [e1]; rfl, ?_⟩
  have hgood := spaces_good g hi
  have hdec : ∀ kv ∈ declarations t.spaces, ∃ up ∈ t.spaces, kv = ("xmlns".toList ++ ':' :: up.2, up.1) := by
    intro kv hkv
    obtain ⟨up, h1, rfl⟩ := List.mem_map.1 hkv
    have h2 := mem_sortSpaces.1 h1
    exact ⟨up, h2, by rw [if_pos (xmlName_ne_nil (hgood up h2).1)]⟩
  have hdok : ∀ kv ∈ declarations t.spaces, RawName kv.1 ∧ AttrText py kv.2 := by
    intro kv hkv
    obtain ⟨up, h1, rfl⟩ := hdec kv hkv
    exact ⟨rawName_prefixed ⟨by decide +kernel, by decide +kernel, by decide⟩ (hgood up h1).1, (hgood up h1).2.2.2.2.2.2.2⟩
  have hraw : ∀ q ∈ (Elem.mk tag attrib text tail cs).names, RawName (t.written q) := fun q hq => (hu q hq).1
  have hcr := ser_noCr _ (declarations t.spaces) hw hraw hdok
  have hlex := lexTo_elem _ (declarations t.spaces) [] [] hw hraw hdok (by intro c t h; cases h) lexTo_nil
  rw [List.append_nil, List.append_nil] at hlex
  have hall := header_lex (by have := atTag_elem (py := py) (qn := t.written) (d := declarations t.spaces) (Elem.mk tag attrib text tail cs) []; rwa [List.append_nil] at this) hlex
  unfold parseXml
  rw [unifyLines_id (by
    rw [List.mem_append, not_or]
    exact ⟨by decide, hcr⟩)]
  dsimp only
  rw [hall _ (Nat.le_refl _)]
  dsimp only
  have hua : Understood t.written (envOf t.spaces) (dkeys attrib) := fun q hq => hu q (by simp [Elem.names, hq])
  simp only [XmlWritable] at hw
  have hrawd : ∀ kv ∈ rawAttrs t.written attrib, declares kv.1 = none := by
    intro kv hkv
    obtain ⟨kv', h1, rfl⟩ := List.mem_map.1 hkv
    exact (hua kv'.1 (List.mem_map_of_mem h1)).2.1
  have hdd : ∀ kv ∈ declarations t.spaces, declares kv.1 ≠ none := by
    intro kv hkv
    obtain ⟨up, h1, rfl⟩ := hdec kv hkv
    dsimp only
    rw [declares_decl]; simp
  have hpre : ((sortSpaces t.spaces).map Prod.snd).Nodup := ((sortSpaces_perm t.spaces).map Prod.snd).nodup_iff.2 hi.prefixes
  have hde := declareAll_decls (py := py) hrawd (sortSpaces t.spaces) [] hpre (by simp [dkeys]) (fun up hup => hgood up (mem_sortSpaces.1 hup))
  rw [List.nil_append] at hde
  have hnd : (dkeys (declarations t.spaces ++ rawAttrs t.written attrib)).Nodup := by
    have e : dkeys (declarations t.spaces ++ rawAttrs t.written attrib) =
        dkeys (declarations t.spaces) ++ dkeys (rawAttrs t.written attrib) := by simp [dkeys]
    rw [e, List.nodup_append]
    refine ⟨?_, rawAttrs_nodup hua hw.2.2.1, ?_⟩
    · have e2 : dkeys (declarations t.spaces) = ((sortSpaces t.spaces).map Prod.snd).map (fun p => "xmlns".toList ++ ':' :: p) := by
        simp only [dkeys, declarations, List.map_map]
        refine List.map_congr_left (fun up hup => ?_)
        simp only [Function.comp_apply]
        rw [if_pos (xmlName_ne_nil (hgood up (mem_sortSpaces.1 hup)).1)]
      rw [e2]
      exact hpre.map (fun a b h => (List.cons.inj (List.append_cancel_left h)).2)
    · intro a ha b hb hab
      obtain ⟨kv, h1, rfl⟩ := List.mem_map.1 ha
      obtain ⟨kv', h2, rfl⟩ := List.mem_map.1 hb
      exact hdd kv h1 (hab ▸ hrawd kv' h2)
  have hrun := run_root (py := py) (decls := declarations t.spaces) (tail := tail) (text := text) (cs := cs) (by simp only [XmlWritable]; exact hw) hu hnd hdd hde ht
  rw [Builder.run]
  show (match (match (Builder.mk [] none).data "\n".toList with | none => none | some b' => b'.run _) with
    | some ⟨[], root⟩ => root | _ => none) = _
  have hd : (Builder.mk [] none).data "\n".toList = some (Builder.mk [] none) := by
    unfold Builder.data; dsimp only; rw [if_pos (by decide +kernel)]
  rw [hd]
  dsimp only
  rw [hrun]

end Cot
