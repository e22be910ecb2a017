import Verif.Lemmas.XmlText
/-
Lemmas for C119, second part: the tree is put together again.
-/
namespace Cot

/-- data, if there is any -/
def dataTok (s : Str) : List XmlTok := if s = [] then [] else [.data s]

/-- attributes as written -/
def rawAttrs (qn : Str → Str) (attrib : List (Str × Str)) : List (Str × Str) := attrib.map (fun kv => (qn kv.1, kv.2))

mutual
/-- the parts of a tree -/
def toks (qn : Str → Str) (decls : List (Str × Str)) : Elem → List XmlTok
  | .mk tag attrib text tail cs =>
    (if text.getD [] ≠ [] ∨ cs ≠ [] then
      .start (qn tag) (decls ++ rawAttrs qn attrib) false :: (dataTok (text.getD []) ++ (toksL qn cs ++ [.stop (qn tag)]))
    else [.start (qn tag) (decls ++ rawAttrs qn attrib) true]) ++ dataTok (tail.getD [])
/-- of the children -/
def toksL (qn : Str → Str) : List Elem → List XmlTok
  | [] => []
  | e :: r => toks qn [] e ++ toksL qn r
end

theorem lexTo_dataTok {s rest : Str} {r : List XmlTok} (hd : DataText s) (ha : AtTag rest) (h : LexTo rest r) :
    LexTo (s.flatMap escData ++ rest) (dataTok s ++ r) := by
  unfold dataTok
  split
  · rename_i e; subst e; exact h
  · rename_i e; exact lexTo_data e hd ha h

theorem atTag_lt (t : Str) : AtTag ('<' :: t) := fun _ _ h => ((List.cons.inj h).1).symm

theorem atTag_elem {py : EtVer} {qn : Str → Str} {d : List (Str × Str)} (e : Elem) (rest : Str) :
    AtTag (serElem py qn d e ++ rest) := by
  cases e with
  | mk tag attrib text tail cs => rw [serElem]; exact atTag_lt _

theorem atTag_elems {py : EtVer} {qn : Str → Str} (cs : List Elem) {rest : Str} (h : AtTag rest) :
    AtTag (serElems py qn cs ++ rest) := by
  cases cs with
  | nil => rw [serElems]; exact h
  | cons e r => rw [serElems, List.append_assoc]; exact atTag_elem e _

mutual
theorem lexTo_elem {py : EtVer} {qn : Str → Str} : ∀ (e : Elem) (decls : List (Str × Str)) (rest : Str) (r : List XmlTok), XmlWritable py e →
    (∀ q ∈ e.names, RawName (qn q)) → (∀ kv ∈ decls, RawName kv.1 ∧ AttrText py kv.2) → AtTag rest → LexTo rest r →
    LexTo (serElem py qn decls e ++ rest) (toks qn decls e ++ r)
  | .mk tag attrib text tail cs, decls, rest, r, hw, hn, hd, ha, h => by
    simp only [XmlWritable] at hw
    obtain ⟨w1, w2, w3, w4, w5, w6⟩ := hw
    simp only [Elem.names] at hn
    have htag : RawName (qn tag) := hn tag (by simp)
    have has : ∀ kv ∈ decls ++ rawAttrs qn attrib, RawName kv.1 ∧ AttrText py kv.2 := by
      intro kv hkv
      rcases List.mem_append.1 hkv with h1 | h1
      · exact hd kv h1
      · obtain ⟨kv', h2, rfl⟩ := List.mem_map.1 h1
        exact ⟨hn kv'.1 (by simp [dkeys]; exact Or.inr (Or.inl ⟨_, h2⟩)), (w2 kv' h2).2⟩
    have htail := lexTo_dataTok w5 ha h
    rw [serElem, toks]
    split
    · rename_i hc
      have hk := lexTo_elems (py := py) (qn := qn) cs _ _ w6 (fun q hq => hn q (by simp [hq])) (atTag_lt _) (lexTo_stop htag htail)
      have hd' := lexTo_dataTok w4 (atTag_elems cs (atTag_lt _)) hk
      have hs := lexTo_start (ends := false) htag has hd'
      simp only [rawAttrs, Bool.false_eq_true, if_false, List.append_assoc, List.cons_append, List.nil_append] at hs ⊢
      exact hs
    · rename_i hc
      have hs := lexTo_start (ends := true) htag has htail
      simp only [rawAttrs, if_true, List.append_assoc, List.cons_append, List.nil_append] at hs ⊢
      exact hs
theorem lexTo_elems {py : EtVer} {qn : Str → Str} : ∀ (cs : List Elem) (rest : Str) (r : List XmlTok), XmlWritableL py cs →
    (∀ q ∈ Elem.namesL cs, RawName (qn q)) → AtTag rest → LexTo rest r → LexTo (serElems py qn cs ++ rest) (toksL qn cs ++ r)
  | [], rest, r, _, _, _, h => by rw [serElems, toksL]; exact h
  | e :: cs, rest, r, hw, hn, ha, h => by
    simp only [XmlWritableL] at hw
    simp only [Elem.namesL] at hn
    have h1 := lexTo_elems (py := py) (qn := qn) cs rest r hw.2 (fun q hq => hn q (List.mem_append_right _ hq)) ha h
    have h2 := lexTo_elem (py := py) (qn := qn) e [] _ _ hw.1 (fun q hq => hn q (List.mem_append_left _ hq)) (by simp)
      (atTag_elems cs ha) h1
    rw [serElems, toksL, List.append_assoc, List.append_assoc]
    exact h2
end

/-! ### Building -/

theorem run_append (b : Builder) (ts us : List XmlTok) :
    b.run (ts ++ us) = match b.run ts with | none => none | some b' => b'.run us := by
  induction ts generalizing b with
  | nil => rfl
  | cons t ts ih =>
    rw [List.cons_append, Builder.run, Builder.run]
    cases b.step t with
    | none => rfl
    | some b' => exact ih b'

/-- the names written are understood again, given the namespaces in force -/
def Understood (qn : Str → Str) (env : List (Str × Str)) (names : List Str) : Prop :=
  ∀ q ∈ names, RawName (qn q) ∧ declares (qn q) = none ∧ resolve env true (qn q) = some q ∧ resolve env false (qn q) = some q

theorem Understood.inj {qn : Str → Str} {env : List (Str × Str)} {names : List Str} (h : Understood qn env names) {a b : Str}
    (ha : a ∈ names) (hb : b ∈ names) (e : qn a = qn b) : a = b := by
  have h1 := (h a ha).2.2.1
  rw [e, (h b hb).2.2.1] at h1
  exact (Option.some.inj h1).symm

theorem declareAll_none : ∀ {as env : List (Str × Str)}, (∀ kv ∈ as, declares kv.1 = none) → declareAll env as = some env
  | [], env, _ => rfl
  | (k, v) :: as, env, h => by
    rw [declareAll, h (k, v) (List.mem_cons_self ..)]
    exact declareAll_none (fun kv hkv => h kv (List.mem_cons_of_mem _ hkv))

theorem resolveAttrs_raw {qn : Str → Str} {env : List (Str × Str)} : ∀ {as : List (Str × Str)}, Understood qn env (dkeys as) →
    resolveAttrs env (rawAttrs qn as) = some as
  | [], _ => rfl
  | (k, v) :: as, h => by
    have hk := h k (by simp [dkeys])
    have ih : resolveAttrs env (rawAttrs qn as) = some as :=
      resolveAttrs_raw (fun q hq => h q (by simp only [dkeys, List.map_cons]; exact List.mem_cons_of_mem _ hq))
    show resolveAttrs env ((qn k, v) :: rawAttrs qn as) = _
    rw [resolveAttrs, hk.2.1]
    dsimp only
    rw [hk.2.2.2, ih]

theorem resolveAttrs_decls {env as : List (Str × Str)} : ∀ {ds : List (Str × Str)}, (∀ kv ∈ ds, declares kv.1 ≠ none) →
    resolveAttrs env (ds ++ as) = resolveAttrs env as
  | [], _ => rfl
  | (k, v) :: ds, h => by
    obtain ⟨p, hp⟩ := Option.ne_none_iff_exists'.1 (h (k, v) (List.mem_cons_self ..))
    rw [List.cons_append, resolveAttrs, hp]
    exact resolveAttrs_decls (fun kv hkv => h kv (List.mem_cons_of_mem _ hkv))

theorem rawAttrs_nodup {qn : Str → Str} {env : List (Str × Str)} {as : List (Str × Str)} (h : Understood qn env (dkeys as))
    (hn : (dkeys as).Nodup) : (dkeys (rawAttrs qn as)).Nodup := by
  have : dkeys (rawAttrs qn as) = (dkeys as).map qn := by simp [dkeys, rawAttrs]
  rw [this]
  exact hn.map_on (fun a ha b hb e => h.inj ha hb e)

theorem addTail_last (s : Str) (x : Elem) : ∀ k : List Elem, addTail (k ++ [x]) s = k ++ [x.setTail (some (x.tail.getD [] ++ s))]
  | [] => rfl
  | [e] => rfl
  | e :: f :: k => by
    have ih := addTail_last s x (f :: k)
    simp only [List.cons_append] at ih ⊢
    rw [addTail, ih]

theorem asRead_eq (t : Option Str) : asRead t = if t.getD [] = [] then none else some (t.getD []) := by
  unfold asRead
  split
  · rfl
  · cases t with
    | none => simp at *
    | some s => rfl

/-- data at the end of the text of an open element without children -/
theorem run_text {f : Open} {st : List Open} {rt : Option Elem} {r : List XmlTok} (s : Str) (h : f.kids = []) :
    (Builder.mk (f :: st) rt).run (dataTok s ++ r) = (Builder.mk ({ f with text := f.text ++ s } :: st) rt).run r := by
  unfold dataTok
  split
  · rename_i e; subst e; simp
  · rw [List.singleton_append, Builder.run]
    show (match (Builder.mk (f :: st) rt).data s with | none => none | some b' => b'.run r) = _
    rw [Builder.data]
    dsimp only
    rw [if_pos h]

/-- data after a child -/
theorem run_tail {f : Open} {st : List Open} {rt : Option Elem} {r : List XmlTok} (s : Str) (k : List Elem) (tag : Str)
    (attrib : List (Str × Str)) (text : Option Str) (cs : List Elem) :
    (Builder.mk ({ f with kids := k ++ [.mk tag attrib text none cs] } :: st) rt).run (dataTok s ++ r) =
      (Builder.mk ({ f with kids := k ++ [.mk tag attrib text (if s = [] then none else some s) cs] } :: st) rt).run r := by
  unfold dataTok
  split
  · rfl
  · rw [List.singleton_append, Builder.run]
    show (match (Builder.mk ({ f with kids := k ++ [.mk tag attrib text none cs] } :: st) rt).data s with
      | none => none | some b' => b'.run r) = _
    rw [Builder.data]
    dsimp only
    rw [if_neg (by simp), addTail_last]
    rfl

/-- the start of an element that declares no namespaces, inside another -/
theorem start_inner {qn : Str → Str} {f : Open} {st : List Open} {tag : Str} {attrib : List (Str × Str)} {rt : Option Elem}
    (hu : Understood qn f.env (tag :: dkeys attrib)) (hn : (dkeys attrib).Nodup) :
    (Builder.mk (f :: st) rt).start (qn tag) (rawAttrs qn attrib) =
      some ⟨⟨qn tag, f.env, tag, attrib, [], []⟩ :: f :: st, rt⟩ := by
  have hua : Understood qn f.env (dkeys attrib) := fun q hq => hu q (List.mem_cons_of_mem _ hq)
  have hd : declareAll f.env (rawAttrs qn attrib) = some f.env := by
    refine declareAll_none (fun kv hkv => ?_)
    obtain ⟨kv', h1, rfl⟩ := List.mem_map.1 hkv
    exact (hua kv'.1 (List.mem_map_of_mem h1)).2.1
  unfold Builder.start
  dsimp only
  rw [if_pos (rawAttrs_nodup hua hn), hd]
  dsimp only
  rw [(hu tag (List.mem_cons_self ..)).2.2.1, resolveAttrs_raw hua]
  dsimp only
  rw [if_pos hn]

theorem stop_inner {name : Str} {f g : Open} {st : List Open} {rt : Option Elem} (h : f.raw = name) :
    (Builder.mk (f :: g :: st) rt).stop name = some ⟨{ g with kids := g.kids ++ [f.close] } :: st, rt⟩ := by
  unfold Builder.stop
  dsimp only
  rw [if_neg (by simp [h])]

mutual
theorem run_elem {py : EtVer} {qn : Str → Str} : ∀ (e : Elem) (f : Open) (st : List Open) (rt : Option Elem) (r : List XmlTok),
    XmlWritable py e → Understood qn f.env e.names →
    (Builder.mk (f :: st) rt).run (toks qn [] e ++ r) = (Builder.mk ({ f with kids := f.kids ++ [readBack e] } :: st) rt).run r
  | .mk tag attrib text tail cs, f, st, rt, r, hw, hu => by
    simp only [XmlWritable] at hw
    obtain ⟨w1, w2, w3, w4, w5, w6⟩ := hw
    simp only [Elem.names] at hu
    have hu1 : Understood qn f.env (tag :: dkeys attrib) := fun q hq => hu q (by
      simp only [List.cons_append, List.mem_cons, List.mem_append] at hq ⊢
      rcases hq with h | h
      · exact Or.inl h
      · exact Or.inr (Or.inl h))
    have hu2 : Understood qn f.env (Elem.namesL cs) := fun q hq => hu q (by simp [hq])
    have hst := start_inner (st := st) (rt := rt) hu1 w3
    rw [toks, List.nil_append, readBack]
    split
    · rename_i hc
      rw [List.append_assoc, List.cons_append, Builder.run, Builder.step, hst]
      simp only [Bool.false_eq_true, if_false]
      rw [List.append_assoc, run_text _ rfl, List.append_assoc]
      rw [run_elems (py := py) (qn := qn) cs ⟨qn tag, f.env, tag, attrib, [] ++ text.getD [], []⟩ (f :: st) rt _ w6 hu2]
      rw [List.singleton_append, Builder.run, Builder.step, stop_inner rfl]
      dsimp only
      rw [Open.close, run_tail, asRead_eq, asRead_eq]
      simp
    · rename_i hc
      have hx : text.getD [] = [] := by
        by_contra h; exact hc (Or.inl h)
      have hcs : cs = [] := by
        by_contra h; exact hc (Or.inr h)
      subst hcs
      rw [List.append_assoc, List.singleton_append, Builder.run, Builder.step, hst]
      simp only [if_true]
      rw [stop_inner rfl]
      dsimp only
      rw [Open.close, run_tail, asRead_eq, asRead_eq, hx]
      simp [readBackL]
theorem run_elems {py : EtVer} {qn : Str → Str} : ∀ (cs : List Elem) (f : Open) (st : List Open) (rt : Option Elem) (r : List XmlTok),
    XmlWritableL py cs → Understood qn f.env (Elem.namesL cs) →
    (Builder.mk (f :: st) rt).run (toksL qn cs ++ r) = (Builder.mk ({ f with kids := f.kids ++ readBackL cs } :: st) rt).run r
  | [], f, st, rt, r, _, _ => by rw [toksL, readBackL]; simp
  | e :: cs, f, st, rt, r, hw, hu => by
    simp only [XmlWritableL] at hw
    simp only [Elem.namesL] at hu
    rw [toksL, List.append_assoc, run_elem (py := py) (qn := qn) e f st rt _ hw.1 (fun q hq => hu q (List.mem_append_left _ hq))]
    rw [run_elems (py := py) (qn := qn) cs { f with kids := f.kids ++ [readBack e] } st rt r hw.2
      (fun q hq => hu q (List.mem_append_right _ hq))]
    simp [readBackL]
end

/-- the root -/
theorem run_root {py : EtVer} {qn : Str → Str} {env decls : List (Str × Str)} {tag : Str} {attrib : List (Str × Str)} {text tail : Option Str}
    {cs : List Elem} (hw : XmlWritable py (.mk tag attrib text tail cs)) (hu : Understood qn env (Elem.mk tag attrib text tail cs).names)
    (hnd : (dkeys (decls ++ rawAttrs qn attrib)).Nodup) (hdd : ∀ kv ∈ decls, declares kv.1 ≠ none)
    (hde : declareAll [] (decls ++ rawAttrs qn attrib) = some env) (ht : (tail.getD []).all xmlWs = true) :
    (Builder.mk [] none).run (toks qn decls (.mk tag attrib text tail cs)) =
      some ⟨[], some (readBack (.mk tag attrib text none cs))⟩ := by
  simp only [XmlWritable] at hw
  obtain ⟨w1, w2, w3, w4, w5, w6⟩ := hw
  simp only [Elem.names] at hu
  have hua : Understood qn env (dkeys attrib) := fun q hq => hu q (by simp [hq])
  have hu2 : Understood qn env (Elem.namesL cs) := fun q hq => hu q (by simp [hq])
  have hst : (Builder.mk [] none).start (qn tag) (decls ++ rawAttrs qn attrib) = some ⟨[⟨qn tag, env, tag, attrib, [], []⟩], none⟩ := by
    unfold Builder.start
    dsimp only
    rw [if_pos hnd, hde]
    dsimp only
    rw [(hu tag (by simp)).2.2.1, resolveAttrs_decls hdd, resolveAttrs_raw hua]
    dsimp only
    rw [if_pos w3]
  have hend : ∀ x : Elem, (Builder.mk [] (some x)).run (dataTok (tail.getD [])) = some ⟨[], some x⟩ := by
    intro x
    unfold dataTok
    split
    · rfl
    · rw [Builder.run]
      show (match (Builder.mk [] (some x)).data (tail.getD []) with | none => none | some b' => b'.run []) = _
      rw [Builder.data]
      dsimp only
      rw [if_pos ht]
      rfl
  have hno : asRead none = none := rfl
  rw [toks, readBack, hno]
  split
  · rename_i hc
    rw [List.cons_append, Builder.run, Builder.step, hst]
    simp only [Bool.false_eq_true, if_false]
    rw [List.append_assoc, run_text _ rfl, List.append_assoc]
    rw [run_elems (py := py) (qn := qn) cs ⟨qn tag, env, tag, attrib, [] ++ text.getD [], []⟩ [] none _ w6 hu2]
    rw [List.singleton_append, Builder.run, Builder.step, Builder.stop]
    dsimp only
    rw [if_neg (by simp)]
    dsimp only
    rw [hend, Open.close, asRead_eq]
    simp
  · rename_i hc
    have hx : text.getD [] = [] := by
      by_contra h; exact hc (Or.inl h)
    have hcs : cs = [] := by
      by_contra h; exact hc (Or.inr h)
    subst hcs
    rw [List.singleton_append, Builder.run, Builder.step, hst]
    simp only [if_true]
    rw [Builder.stop]
    dsimp only
    rw [if_neg (by simp)]
    dsimp only
    rw [hend, Open.close, asRead_eq, hx]
    simp [readBackL]

end Cot
