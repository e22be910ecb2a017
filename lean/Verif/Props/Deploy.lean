import Verif.Model.Deploy
import Verif.Lemmas.Re2
import Verif.Lemmas.Units
import Verif.Lemmas.Str
import Verif.Lemmas.HwBasic
import Mathlib.Tactic.Tauto
import Verif.Spec.DataValidation
/-
C50 (serial connection strings) and C51 (arguments for ovftool).
-/
namespace Cot

/-! ### How the expressions match -/

theorem seq_first {a b : Re} {s : Str} {x z : Str × Caps} (h : (a.run s).head? = some x)
    (h2 : (b.run x.1).head? = some z) : ((Re.seq a b).run s).head? = some (z.1, x.2 ++ z.2) := by
  cases hr : a.run s with
  | nil => rw [hr] at h; cases h
  | cons y l =>
    rw [hr] at h
    cases h
    exact seq_head (l1 := []) hr (by simp) h2

theorem opt_first {c : Char} (t : Str) : ((Re.opt (.chr c)).run (c :: t)).head? = some (t, []) := by
  show (((Re.chr c).run (c :: t)) ++ Re.eps.run (c :: t)).head? = _
  simp [Re.chr, Re.run]

theorem opt_skip {c : Char} {t : Str} (h : t.head? ≠ some c) : ((Re.opt (.chr c)).run t).head? = some (t, []) := by
  show (((Re.chr c).run t) ++ Re.eps.run t).head? = _
  cases t with
  | nil => simp [Re.chr, Re.run]
  | cons d t =>
    have : d ≠ c := by simpa using h
    simp [Re.chr, Re.run, this]

theorem dot_all {n : Nat} {w : Str} (h : '\n' ∉ w) : ((Re.grp n (.star .dot)).run w).head? = some ([], [(n, w)]) := by
  have := run_grp_star_head (n := n) (p := fun x => x != '\n') (w := w) (t := [])
    (by intro c hc; simp only [bne_iff_ne, ne_eq]; rintro rfl; exact h hc) (by simp)
  rwa [List.append_nil] at this

/-- the end of a connection string: nothing, or a comma and the options -/
def optTail (o : Option Str) : Str := match o with | none => [] | some o => ',' :: o

theorem serialRe_rest {k v : Str} {o : Option Str} {t : Str} (hv : v ≠ []) (hs : ∀ c ∈ v, notSep c = true)
    (ho : ∀ x, o = some x → '\n' ∉ x) (hk : ((Re.grp 1 (.star (.cls isAZ))).run t).head? = some (k, [(1, t.take (t.length - k.length))]))
    (hc : ((Re.opt (.chr ':')).run k).head? = some (v ++ optTail o, [])) :
    reMatch serialRe t = some [(1, t.take (t.length - k.length)), (2, v), (3, o.getD [])] := by
  unfold reMatch serialRe
  simp only [Re.cat]
  have h3 : ((Re.seq (.opt (.chr ',')) (.seq (.grp 3 (.star .dot)) .eol)).run (optTail o)).head? = some ([], [(3, o.getD [])]) := by
    cases o with
    | none =>
      have := seq_first (opt_skip (c := ',') (t := optTail none) (by simp [optTail]))
        (seq_first (b := .eol) (dot_all (n := 3) (w := []) (by simp)) (z := ([], [])) rfl)
      simpa [optTail] using this
    | some o =>
      have := seq_first (opt_first (c := ',') o)
        (seq_first (b := .eol) (dot_all (n := 3) (w := o) (ho o rfl)) (z := ([], [])) rfl)
      simpa [optTail] using this
  have h2 := seq_first (run_grp_plus_head (n := 2) (p := notSep) (w := v) (t := optTail o) hv hs (by
    cases o with
    | none => simp [optTail]
    | some o => simp [optTail]; decide)) h3
  have h1 := seq_first hc h2
  have h0 := seq_first hk h1
  rw [h0]
  rfl

/-- `kind:value` and `kind:value,options` -/
theorem serialRe_kind {k v : Str} {o : Option Str} (hk : ∀ c ∈ k, isAZ c = true) (hv : v ≠ [])
    (hs : ∀ c ∈ v, notSep c = true) (ho : ∀ x, o = some x → '\n' ∉ x) :
    reMatch serialRe (k ++ ':' :: v ++ optTail o) = some [(1, k), (2, v), (3, o.getD [])] := by
  have := run_grp_star_head (n := 1) (p := isAZ) (w := k) (t := ':' :: (v ++ optTail o)) hk (by simp; decide)
  have e : (k ++ ':' :: (v ++ optTail o)).take ((k ++ ':' :: (v ++ optTail o)).length - (':' :: (v ++ optTail o)).length) = k := by
    simp
  have := serialRe_rest (t := k ++ ':' :: (v ++ optTail o)) (k := ':' :: (v ++ optTail o)) hv hs ho
    (by rw [e]; exact this) (opt_first _)
  rw [e] at this
  simpa using this

/-- `value` and `value,options`, where the value does not begin with a small letter or a colon -/
theorem serialRe_plain {v : Str} {o : Option Str} (hv : v ≠ []) (hs : ∀ c ∈ v, notSep c = true)
    (hb : ∀ c ∈ v.head?, isAZ c = false ∧ c ≠ ':') (ho : ∀ x, o = some x → '\n' ∉ x) :
    reMatch serialRe (v ++ optTail o) = some [(1, []), (2, v), (3, o.getD [])] := by
  obtain ⟨c, v', rfl⟩ := List.exists_cons_of_ne_nil hv
  have hb' := hb c rfl
  have := run_grp_star_head (n := 1) (p := isAZ) (w := []) (t := c :: v' ++ optTail o) (by simp) (by
    intro d hd
    simp only [List.cons_append, List.head?_cons, Option.mem_def, Option.some.injEq] at hd
    rw [← hd]; exact hb'.1)
  have e : (c :: v' ++ optTail o).take ((c :: v' ++ optTail o).length - (c :: v' ++ optTail o).length) = [] := by simp
  have := serialRe_rest (t := c :: v' ++ optTail o) (k := c :: v' ++ optTail o) hv hs ho
    (by rw [e]; exact this) (opt_skip (by simp only [List.cons_append, List.head?_cons, ne_eq, Option.some.injEq]; exact hb'.2))
  rwa [e] at this

/-- an option: a key, or a key and a value -/
def renderOption (kv : Str × Option Str) : Str := match kv.2 with | none => kv.1 | some v => kv.1 ++ '=' :: v

def GoodOption (kv : Str × Option Str) : Prop :=
  kv.1 ≠ [] ∧ '=' ∉ kv.1 ∧ ',' ∉ kv.1 ∧ ∀ v, kv.2 = some v → v ≠ [] ∧ ',' ∉ v ∧ '\n' ∉ v

theorem optionRe_spec {kv : Str × Option Str} (h : GoodOption kv) :
    reMatch optionRe (renderOption kv) = some [(1, kv.1), (2, kv.2.getD [])] := by
  obtain ⟨h1, h2, -, h4⟩ := h
  have hk : ∀ c ∈ kv.1, (fun c => c != '=') c = true := by
    intro c hc; simp only [bne_iff_ne, ne_eq]; rintro rfl; exact h2 hc
  unfold reMatch optionRe
  simp only [Re.cat]
  obtain ⟨k, v⟩ := kv
  cases v with
  | none =>
    have := seq_first (run_grp_plus_head (n := 1) (p := fun c => c != '=') (w := k) (t := []) h1 hk (by simp))
      (seq_first (opt_skip (c := '=') (t := []) (by simp)) (dot_all (n := 2) (w := []) (by simp)))
    rw [List.append_nil] at this
    simp only [renderOption]
    rw [this]
    rfl
  | some v =>
    have := seq_first (run_grp_plus_head (n := 1) (p := fun c => c != '=') (w := k) (t := '=' :: v) h1 hk (by simp))
      (seq_first (opt_first (c := '=') v) (dot_all (n := 2) (w := v) (h4 v rfl).2.2))
    simp only [renderOption]
    rw [this]
    rfl

/-- **C50 (options).** A comma-separated list of `key` and `key=value` entries is read as the dictionary with exactly
these entries, later ones taking the place of earlier ones. -/
theorem C50_options (es : List (Str × Option Str)) (h : ∀ e ∈ es, GoodOption e) :
    serialOptions (joinWith [','] (es.map renderOption)) = es.foldl (fun d e => dset d e.1 e.2) [] := by
  have hfold : ∀ (l : List (Str × Option Str)) (d : SerialOpts), (∀ e ∈ l, GoodOption e) →
      (l.map renderOption).foldl addOption d = l.foldl (fun d e => dset d e.1 e.2) d := by
    intro l
    induction l with
    | nil => intro d _; rfl
    | cons e l ih =>
      intro d hl
      simp only [List.map_cons, List.foldl_cons]
      rw [ih _ (fun x hx => hl x (List.mem_cons_of_mem _ hx))]
      congr 1
      have he := hl e (by simp)
      have hne : renderOption e ≠ [] := by
        unfold renderOption
        cases e.2 with
        | none => exact he.1
        | some v => simp
      unfold addOption
      rw [if_neg hne, optionRe_spec he]
      simp only [Caps.group, List.reverse_cons, List.reverse_nil, List.nil_append, List.cons_append]
      obtain ⟨k, v⟩ := e
      cases v with
      | none => rfl
      | some v =>
        have hv := (he.2.2.2 v rfl).1
        simp only [dget?, Option.getD_some]
        simp [hv]
  by_cases hes : es = []
  · subst hes; rfl
  unfold serialOptions
  rw [splitOnChar_join ',' _ (by simpa using hes)]
  · exact hfold es [] h
  · intro s hs
    rw [List.mem_map] at hs
    obtain ⟨e, he, rfl⟩ := hs
    obtain ⟨-, -, h3, h4⟩ := h e he
    unfold renderOption
    cases hv : e.2 with
    | none => exact h3
    | some v =>
      have := (h4 v hv).2.1
      simp [h3, this]

theorem fromCli_of_match {raw k v o : Str} (hne : strip raw ≠ [])
    (h : reMatch serialRe (strip raw) = some [(1, k), (2, v), (3, o)]) :
    fromCli (some raw) = match serialInit k v (serialOptions o) with | .error e => .error e | .ok c => .ok (some c) := by
  unfold fromCli
  simp only
  rw [if_neg hne, h]
  rfl

/-- **C50 (parsing).** `kind:value` and `kind:value,options`, and a bare value that does not begin with a small letter
or a colon, are taken apart at the separators; None and blank strings mean no connection. -/
theorem C50_parse (raw : Str) :
    fromCli none = .ok none ∧ (strip raw = [] → fromCli (some raw) = .ok none) ∧
    (∀ k v o, (∀ c ∈ k, 'a' ≤ c ∧ c ≤ 'z') → v ≠ [] → (∀ c ∈ v, c ≠ ' ' ∧ c ≠ '\t' ∧ c ≠ ',') → (∀ x, o = some x → '\n' ∉ x) →
      strip raw = k ++ ':' :: v ++ optTail o →
      fromCli (some raw) = match serialInit k v (serialOptions (o.getD [])) with | .error e => .error e | .ok c => .ok (some c)) ∧
    (∀ v o, v ≠ [] → (∀ c ∈ v, c ≠ ' ' ∧ c ≠ '\t' ∧ c ≠ ',') → (∀ c ∈ v.head?, ¬ ('a' ≤ c ∧ c ≤ 'z') ∧ c ≠ ':') →
      (∀ x, o = some x → '\n' ∉ x) → strip raw = v ++ optTail o →
      fromCli (some raw) = match serialInit [] v (serialOptions (o.getD [])) with | .error e => .error e | .ok c => .ok (some c)) := by
  have hsep : ∀ c : Char, (c ≠ ' ' ∧ c ≠ '\t' ∧ c ≠ ',') → notSep c = true := by
    intro c h
    unfold notSep
    simp [h.1, h.2.1, h.2.2]
  refine ⟨rfl, fun h => ?_, fun k v o hk hv hs ho e => ?_, fun v o hv hs hb ho e => ?_⟩
  · unfold fromCli
    simp only
    rw [if_pos h]
  · exact fromCli_of_match (by rw [e]; simp) (by
      rw [e]
      exact serialRe_kind (fun c hc => by unfold isAZ; simpa using hk c hc) hv (fun c hc => hsep c (hs c hc)) ho)
  · exact fromCli_of_match (by rw [e]; simp [hv]) (by
      rw [e]
      refine serialRe_plain hv (fun c hc => hsep c (hs c hc)) (fun c hc => ⟨?_, (hb c hc).2⟩) ho
      have := (hb c hc).1
      unfold isAZ
      rw [← Bool.not_eq_true]
      simpa using this)

/-! ### Values -/

theorem greedySuf_append {p : Char → Bool} {t : Str} : ∀ {w : Str}, (∀ c ∈ w, p c = true) →
    ∃ l, greedySuf p (w ++ t) = greedySuf p t ++ l
  | [], _ => ⟨[], by simp⟩
  | c :: w, h => by
    obtain ⟨l, hl⟩ := greedySuf_append (t := t) (w := w) (fun d hd => h d (by simp [hd]))
    refine ⟨l ++ [c :: (w ++ t)], ?_⟩
    simp only [List.cons_append, greedySuf, h c (by simp), if_true]
    rw [hl]; simp

theorem run_plus_head {p : Char → Bool} {w t : Str} (hw : w ≠ []) (h : ∀ c ∈ w, p c = true)
    (ht : ∀ c ∈ t.head?, p c = false) : ((Re.plus (.cls p)).run (w ++ t)).head? = some (t, []) := by
  obtain ⟨c, w', rfl⟩ := List.exists_cons_of_ne_nil hw
  have h1 : ((Re.cls p).run (c :: w' ++ t)).head? = some (w' ++ t, []) := by
    simp [Re.run, h c (by simp)]
  have h2 : ((Re.star (.cls p)).run (w' ++ t)).head? = some (t, []) := by
    rw [run_star_cls, List.head?_map, greedySuf_head ht (fun d hd => h d (by simp [hd]))]
    rfl
  exact seq_first h1 h2

theorem tcp_inner {h d : Str} (hn : '\n' ∉ h) (hd : Digits d) :
    ((Re.cat [.star .dot, .chr ':', .plus .dig]).run (h ++ ':' :: d)).head? = some ([], []) := by
  simp only [Re.cat]
  have hdot : ∀ c ∈ h, (fun x => x != '\n') c = true := by
    intro c hc; simp only [bne_iff_ne, ne_eq]; rintro rfl; exact hn hc
  obtain ⟨l, hl⟩ := greedySuf_append (p := fun x => x != '\n') (t := ':' :: d) hdot
  have hg : greedySuf (fun x => x != '\n') (':' :: d) = greedySuf (fun x => x != '\n') d ++ [':' :: d] := by
    rw [greedySuf, if_pos (by decide)]
  have hrun : (Re.star .dot).run (h ++ ':' :: d) =
      (greedySuf (fun x => x != '\n') d).map (fun r => (r, [])) ++ ((':' :: d, []) : Str × Caps) :: l.map (fun r => (r, [])) := by
    show (Re.star (.cls (fun x => x != '\n'))).run (h ++ ':' :: d) = _
    rw [run_star_cls, hl, hg]
    simp
  have hfin : ((Re.seq (.chr ':') (.plus .dig)).run (':' :: d)).head? = some ([], []) := by
    have h1 : ((Re.chr ':').run (':' :: d)).head? = some (d, []) := by simp [Re.chr, Re.run]
    have h2 := run_plus_head (p := isDig) (w := d) (t := []) hd.1 hd.2 (by simp)
    rw [List.append_nil] at h2
    exact seq_first h1 h2
  have := seq_head hrun (b := .seq (.chr ':') (.plus .dig)) (by
    intro y hy
    rw [List.mem_map] at hy
    obtain ⟨r, hr, rfl⟩ := hy
    obtain ⟨a, h1, -⟩ := mem_greedySuf.1 hr
    rw [List.eq_nil_iff_forall_not_mem]
    rintro ⟨x, m⟩ hx
    obtain ⟨t, h3, -⟩ := seq_chr.1 hx
    simp only at h3
    have : isDig ':' = true := hd.2 ':' (by rw [h1, h3]; simp)
    exact absurd this (by decide)) hfin
  exact this

theorem grp_head {n : Nat} {a : Re} {s : Str} {x : Str × Caps} (h : (a.run s).head? = some x) :
    ((Re.grp n a).run s).head? = some (x.1, x.2 ++ [(n, s.take (s.length - x.1.length))]) := by
  rw [show (Re.grp n a).run s = (a.run s).map (fun x => (x.1, x.2 ++ [(n, s.take (s.length - x.1.length))])) from rfl,
    List.head?_map, h]
  rfl

/-- **C50 (tcp and telnet values).** A value `host:port`, with up to two slashes before it, is accepted as
`host:port`.  (The host may be empty.) -/
theorem C50_tcp (h d sl : Str) (kind : Str) (hk : kind = "tcp".toList ∨ kind = "telnet".toList)
    (hn : '\n' ∉ h) (hd : Digits d) (hsl : sl = "//".toList ∨ (sl = [] ∨ sl = "/".toList) ∧ h.head? ≠ some '/') :
    serialValue kind (sl ++ h ++ ':' :: d) = .ok (h ++ ':' :: d) := by
  have hg : ((Re.grp 1 (Re.cat [.star .dot, .chr ':', .plus .dig])).run (h ++ ':' :: d)).head? =
      some ([], [(1, h ++ ':' :: d)]) := by
    have := grp_head (n := 1) (tcp_inner hn hd)
    rw [this]
    simp only [List.length_nil, Nat.sub_zero, List.take_length, List.nil_append]
  have hno : h.head? ≠ some '/' → (h ++ ':' :: d).head? ≠ some '/' := by
    intro hh
    cases h with
    | nil => simp
    | cons c h => simpa using hh
  have hm : reMatch tcpRe (sl ++ h ++ ':' :: d) = some [(1, h ++ ':' :: d)] := by
    unfold reMatch tcpRe
    rw [run_cat_cons _ _ (by simp), run_cat_cons _ _ (by simp)]
    have hcat : ∀ r : Re, Re.cat [r] = r := fun _ => rfl
    rw [hcat]
    rcases hsl with rfl | ⟨rfl | rfl, hh⟩
    · have := seq_first (opt_first (c := '/') ('/' :: (h ++ ':' :: d))) (seq_first (opt_first (c := '/') (h ++ ':' :: d)) hg)
      rw [show "//".toList ++ h ++ ':' :: d = '/' :: '/' :: (h ++ ':' :: d) by simp, this]
      rfl
    · have := seq_first (opt_skip (hno hh)) (seq_first (opt_skip (hno hh)) hg)
      rw [show [] ++ h ++ ':' :: d = h ++ ':' :: d by simp, this]
      rfl
    · have := seq_first (opt_first (c := '/') (h ++ ':' :: d)) (seq_first (opt_skip (hno hh)) hg)
      rw [show "/".toList ++ h ++ ':' :: d = '/' :: (h ++ ':' :: d) by simp, this]
      rfl
  unfold serialValue
  have hk1 : ¬ (kind = "device".toList ∨ kind = "file".toList ∨ kind = "pipe".toList) := by
    rcases hk with rfl | rfl <;> decide
  rw [if_neg hk1, if_pos hk, hm]
  rfl

/-- what is written after the value for these options -/
def optText (es : List (Str × Option Str)) : Str :=
  if es = [] then [] else ',' :: joinWith [','] (es.map renderOption)

/-- **C50 (acceptance).** `kind:value,options` with one of the five kinds is read as exactly this kind, value and
options (a later entry for a key taking the place of an earlier one): for a device or a pipe always, for a file exactly
if there is a datastore option, for tcp and telnet if the value has the form `host:port`, up to two slashes before it
being left out. -/
theorem C50_accepts (raw k v : Str) (es : List (Str × Option Str))
    (hv : v ≠ []) (hs : ∀ c ∈ v, c ≠ ' ' ∧ c ≠ '\t' ∧ c ≠ ',') (he : ∀ e ∈ es, GoodOption e ∧ '\n' ∉ e.1)
    (hraw : strip raw = k ++ ':' :: v ++ optText es) :
    (k = "device".toList ∨ k = "pipe".toList ∨ (k = "file".toList ∧ "datastore".toList ∈ es.map Prod.fst) →
      fromCli (some raw) = .ok (some ⟨k, v, es.foldl (fun d e => dset d e.1 e.2) []⟩)) ∧
    (k = "file".toList → "datastore".toList ∉ es.map Prod.fst → fromCli (some raw) = .error .invalidInput) ∧
    (∀ h d sl, (k = "tcp".toList ∨ k = "telnet".toList) → '\n' ∉ h → Digits d → v = sl ++ h ++ ':' :: d →
      (sl = "//".toList ∨ (sl = [] ∨ sl = "/".toList) ∧ h.head? ≠ some '/') →
      fromCli (some raw) = .ok (some ⟨k, h ++ ':' :: d, es.foldl (fun d e => dset d e.1 e.2) []⟩)) := by
  have hnl : '\n' ∉ joinWith [','] (es.map renderOption) := by
    have : ∀ L : List Str, (∀ s ∈ L, '\n' ∉ s) → '\n' ∉ joinWith [','] L := by
      intro L
      induction L with
      | nil => intro _; simp [joinWith]
      | cons a L ih =>
        intro hL
        cases L with
        | nil => simpa [joinWith] using hL a (by simp)
        | cons b L =>
          have h1 := hL a (by simp)
          have h2 := ih (fun s hs => hL s (List.mem_cons_of_mem _ hs))
          simp only [joinWith, List.mem_append, not_or]
          exact ⟨⟨h1, by decide⟩, h2⟩
    apply this
    intro s hs
    rw [List.mem_map] at hs
    obtain ⟨e, hm, rfl⟩ := hs
    obtain ⟨h1, h2⟩ := he e hm
    unfold renderOption
    cases hv : e.2 with
    | none => exact h2
    | some x =>
      have := (h1.2.2.2 x hv).2.2
      simp [h2, this]
  have hmain : ∀ k' : Str, (∀ c ∈ k', 'a' ≤ c ∧ c ≤ 'z') → k = k' → fromCli (some raw) =
      match serialInit k' v (es.foldl (fun d e => dset d e.1 e.2) []) with | .error e => .error e | .ok c => .ok (some c) := by
    rintro k' hk rfl
    by_cases hes : es = []
    · subst hes
      have := (C50_parse raw).2.2.1 k v none hk hv hs (by simp) (by rw [hraw]; simp [optText, optTail])
      rw [this]; rfl
    · have := (C50_parse raw).2.2.1 k v (some (joinWith [','] (es.map renderOption))) hk hv hs
        (by intro x hx; cases hx; exact hnl) (by rw [hraw]; simp [optText, optTail, hes])
      rw [this, Option.getD_some, C50_options es (fun e hm => (he e hm).1)]
  have hds : ∀ (L : List (Str × Option Str)) (d : SerialOpts) (x : Str),
      dget? (L.foldl (fun d e => dset d e.1 e.2) d) x = none ↔ x ∉ L.map Prod.fst ∧ dget? d x = none := by
    intro L
    induction L with
    | nil => intro d x; simp
    | cons e L ih =>
      intro d x
      rw [List.foldl_cons, ih]
      rw [dget?_dset]
      by_cases hx : x = e.1
      · subst hx; simp
      · have hx' : ¬ e.1 = x := fun h => hx h.symm
        simp [hx, hx']
  have hds' := hds es [] "datastore".toList
  refine ⟨?_, ?_, ?_⟩
  · rintro (hk | hk | ⟨hk, hd⟩)
    · rw [hmain _ (by decide) hk, hk]; rfl
    · rw [hmain _ (by decide) hk, hk]; rfl
    · rw [hmain _ (by decide) hk, hk]
      have : ¬ ("file".toList = "file".toList ∧ dget? (es.foldl (fun d e => dset d e.1 e.2) []) "datastore".toList = none) := by
        rw [hds']; tauto
      have hi : serialInit "file".toList v (es.foldl (fun d e => dset d e.1 e.2) []) =
          .ok ⟨"file".toList, v, es.foldl (fun d e => dset d e.1 e.2) []⟩ := by
        exact if_neg this
      rw [hi]
  · intro hk hd
    rw [hmain _ (by decide) hk]
    have : "file".toList = "file".toList ∧ dget? (es.foldl (fun d e => dset d e.1 e.2) []) "datastore".toList = none :=
      ⟨rfl, hds'.2 ⟨hd, rfl⟩⟩
    have hi : serialInit "file".toList v (es.foldl (fun d e => dset d e.1 e.2) []) = .error .invalidInput := by
      exact if_pos this
    rw [hi]
  · intro h d sl hk hn hd he' hsl
    have ht := C50_tcp h d sl k hk hn hd hsl
    rw [← he'] at ht
    have hkk : ∀ c ∈ k, 'a' ≤ c ∧ c ≤ 'z' := by rcases hk with rfl | rfl <;> decide
    rw [hmain k hkk rfl]
    have hkind : serialKind k = .ok k := by rcases hk with rfl | rfl <;> rfl
    have hnf : ¬ (k = "file".toList ∧ dget? (es.foldl (fun d e => dset d e.1 e.2) []) "datastore".toList = none) := by
      rcases hk with rfl | rfl <;> (rintro ⟨h, -⟩; exact absurd h (by decide))
    have hi : serialInit k v (es.foldl (fun d e => dset d e.1 e.2) []) =
        .ok ⟨k, h ++ ':' :: d, es.foldl (fun d e => dset d e.1 e.2) []⟩ := by
      unfold serialInit
      rw [hkind]
      simp only
      rw [ht]
      simp only
      rw [if_neg hnf]
    rw [hi]

theorem serialValue_sound {kind v x : Str} (h : serialValue kind v = .ok x) :
    ((kind = "device".toList ∨ kind = "file".toList ∨ kind = "pipe".toList) ∧ x = v) ∨
    ((kind = "tcp".toList ∨ kind = "telnet".toList) ∧ ∃ sl rest y d, v = sl ++ x ++ rest ∧ sl ∈ [[], "/".toList, "//".toList] ∧
      x = y ++ ':' :: d ∧ Digits d) := by
  unfold serialValue at h
  split at h
  · rename_i hk; cases h; exact Or.inl ⟨hk, rfl⟩
  · split at h
    · rename_i hk
      split at h
      · rename_i m hm
        cases h
        refine Or.inr ⟨hk, ?_⟩
        obtain ⟨r, hr⟩ := reMatch_some_mem hm
        unfold tcpRe at hr
        rw [run_cat_cons _ _ (by simp), run_cat_cons _ _ (by simp)] at hr
        have hcat : ∀ r : Re, Re.cat [r] = r := fun _ => rfl
        rw [hcat] at hr
        have hin : ∀ t r m, (r, m) ∈ (Re.grp 1 (Re.cat [.star .dot, .chr ':', .plus .dig])).run t →
            ∃ y d, t = y ++ ':' :: d ++ r ∧ Digits d ∧ m = [(1, y ++ ':' :: d)] := by
          intro t r m h
          obtain ⟨w, m0, h1, h2, h3⟩ := mem_run_grp.1 h
          simp only [Re.cat] at h2
          obtain ⟨y, t1, e1, -, h4⟩ := seq_star.1 h2
          obtain ⟨t2, e2, h5⟩ := seq_chr.1 h4
          obtain ⟨d, hd1, hd2, hd3, hd4⟩ := mem_run_plus_cls.1 h5
          simp only at hd2 hd4 h1 h3
          refine ⟨y, d, by rw [e1, e2, hd2]; simp, ⟨hd1, by simpa using hd3⟩, ?_⟩
          have : w = y ++ ':' :: d := by
            apply List.append_cancel_right (bs := r)
            rw [← h1, e1, e2, hd2]; simp
          rw [h3, hd4, this]; rfl
        have hg : ∀ y d : Str, (Caps.group [(1, y ++ ':' :: d)] 1).getD [] = y ++ ':' :: d := fun _ _ => rfl
        rcases seq_opt.1 hr with h1 | h1
        · obtain ⟨t1, e1, h1⟩ := seq_chr.1 h1
          rcases seq_opt.1 h1 with h2 | h2
          · obtain ⟨t2, e2, h2⟩ := seq_chr.1 h2
            obtain ⟨y, d, e3, hd, rfl⟩ := hin _ _ _ h2
            rw [hg]
            exact ⟨"//".toList, r, y, d, by rw [e1, e2, e3]; simp, by simp, rfl, hd⟩
          · obtain ⟨y, d, e3, hd, rfl⟩ := hin _ _ _ h2
            rw [hg]
            exact ⟨"/".toList, r, y, d, by rw [e1, e3]; simp, by simp, rfl, hd⟩
        · rcases seq_opt.1 h1 with h2 | h2
          · obtain ⟨t2, e2, h2⟩ := seq_chr.1 h2
            obtain ⟨y, d, e3, hd, rfl⟩ := hin _ _ _ h2
            rw [hg]
            exact ⟨"/".toList, r, y, d, by rw [e2, e3]; simp, by simp, rfl, hd⟩
          · obtain ⟨y, d, e3, hd, rfl⟩ := hin _ _ _ h2
            rw [hg]
            exact ⟨[], r, y, d, by rw [e3]; simp, by simp, rfl, hd⟩
      · cases h
    · cases h

/-- **C50 (soundness).** Every connection accepted from a string has one of the five kinds; a tcp or telnet value ends
in a colon and a port number; a file has a datastore option; and kind, value and options come from consecutive
parts of the string (an empty kind meaning "device"). -/
theorem C50_sound {raw : Str} {c : SerialConn} (h : fromCli (some raw) = .ok (some c)) :
    c.kind ∈ ["device".toList, "file".toList, "pipe".toList, "tcp".toList, "telnet".toList] ∧
    (c.kind = "tcp".toList ∨ c.kind = "telnet".toList → ∃ y d, c.value = y ++ ':' :: d ∧ Digits d) ∧
    (c.kind = "file".toList → ∃ x, dget? c.options "datastore".toList = some x) ∧
    ∃ k s1 v s2 o, strip raw = k ++ s1 ++ v ++ s2 ++ o ∧ (s1 = [] ∨ s1 = [':']) ∧ (s2 = [] ∨ s2 = [',']) ∧
      (c.kind = k ∨ k = [] ∧ c.kind = "device".toList) ∧ c.value <:+: v ∧
      (c.kind ≠ "tcp".toList → c.kind ≠ "telnet".toList → c.value = v) ∧ c.options = serialOptions o := by
  unfold fromCli at h
  simp only at h
  split at h
  · cases h
  · cases hm : reMatch serialRe (strip raw) with
    | none => rw [hm] at h; cases h
    | some m =>
      rw [hm] at h
      simp only at h
      -- the groups
      obtain ⟨r, hr⟩ := reMatch_some_mem hm
      have hgroups : ∃ k s1 v s2 o, strip raw = k ++ s1 ++ v ++ s2 ++ o ∧ (s1 = [] ∨ s1 = [':']) ∧ (s2 = [] ∨ s2 = [',']) ∧
          (∀ ch ∈ k, isAZ ch = true) ∧ m = [(1, k), (2, v), (3, o)] := by
        unfold serialRe at hr
        simp only [Re.cat] at hr
        obtain ⟨k, t1, m1, e1, hk, h1, rfl⟩ := seq_grp_star.1 hr
        have h23 : ∀ t r m, (r, m) ∈ (Re.seq (.opt (.chr ',')) (.seq (.grp 3 (.star .dot)) .eol)).run t →
            ∃ s2 o, t = s2 ++ o ∧ (s2 = [] ∨ s2 = [',']) ∧ m = [(3, o)] ∨ ∃ s2 o, t = s2 ++ o ++ ['\n'] ∧ (s2 = [] ∨ s2 = [',']) ∧ m = [(3, o)] := by
          intro t r m h
          rcases seq_opt.1 h with h | h
          · obtain ⟨t', e, h⟩ := seq_chr.1 h
            obtain ⟨o, t2, m2, e2, -, h', rfl⟩ := seq_grp_star.1 h
            obtain ⟨he, -, rfl⟩ := mem_eol.1 h'
            rcases he with rfl | rfl
            · exact ⟨[','], o, Or.inl ⟨by rw [e, e2]; simp, Or.inr rfl, rfl⟩⟩
            · exact ⟨[], [], Or.inr ⟨[','], o, by rw [e, e2]; simp, Or.inr rfl, rfl⟩⟩
          · obtain ⟨o, t2, m2, e2, -, h', rfl⟩ := seq_grp_star.1 h
            obtain ⟨he, -, rfl⟩ := mem_eol.1 h'
            rcases he with rfl | rfl
            · exact ⟨[], o, Or.inl ⟨by rw [e2]; simp, Or.inl rfl, rfl⟩⟩
            · exact ⟨[], [], Or.inr ⟨[], o, by rw [e2]; simp, Or.inl rfl, rfl⟩⟩
        have hlast : ∀ x : Str, strip raw ≠ x ++ ['\n'] := by
          intro x hx
          have hd : ∀ l : Str, ∀ ch ∈ (l.dropWhile isWs).head?, isWs ch = false := by
            intro l ch hch
            have hne : l.dropWhile isWs ≠ [] := by intro hh; rw [hh] at hch; cases hch
            have := List.head_dropWhile_not isWs hne
            rw [List.head?_eq_some_head hne] at hch
            cases hch; exact this
          unfold strip at hx
          have := hd ((raw.dropWhile isWs).reverse) '\n' (by
            rw [← List.reverse_reverse (List.dropWhile isWs (List.dropWhile isWs raw).reverse), hx]; simp)
          exact absurd this (by decide)
        have hv : ∀ t m, (r, m) ∈ (Re.seq (.grp 2 (.plus (.cls notSep))) (.seq (.opt (.chr ',')) (.seq (.grp 3 (.star .dot)) .eol))).run t →
            (∃ pre, strip raw = pre ++ t) →
            ∃ v s2 o, t = v ++ s2 ++ o ∧ (s2 = [] ∨ s2 = [',']) ∧ m = [(2, v), (3, o)] := by
          rintro t m h ⟨pre, hpre⟩
          obtain ⟨v, t2, m2, e2, -, -, h', rfl⟩ := seq_grp_plus.1 h
          obtain ⟨s2, o, h | ⟨s2, o, h, -, -⟩⟩ := h23 _ _ _ h'
          · obtain ⟨e3, hs2, rfl⟩ := h
            exact ⟨v, s2, o, by rw [e2, e3]; simp, hs2, rfl⟩
          · exact absurd (by rw [hpre, e2, h]; simp) (hlast (pre ++ (v ++ (s2 ++ o))))
        rcases seq_opt.1 h1 with h2 | h2
        · obtain ⟨t2, e2, h2⟩ := seq_chr.1 h2
          obtain ⟨v, s2, o, e3, hs2, rfl⟩ := hv _ _ h2 ⟨k ++ [':'], by rw [e1, e2]; simp⟩
          exact ⟨k, [':'], v, s2, o, by rw [e1, e2, e3]; simp, Or.inr rfl, hs2, hk, rfl⟩
        · obtain ⟨v, s2, o, e3, hs2, rfl⟩ := hv _ _ h2 ⟨k, e1⟩
          exact ⟨k, [], v, s2, o, by rw [e1, e3]; simp, Or.inl rfl, hs2, hk, rfl⟩
      obtain ⟨k, s1, v, s2, o, he, hs1, hs2, hk, rfl⟩ := hgroups
      have hg1 : (Caps.group [(1, k), (2, v), (3, o)] 1).getD [] = k := rfl
      have hg2 : (Caps.group [(1, k), (2, v), (3, o)] 2).getD [] = v := rfl
      have hg3 : (Caps.group [(1, k), (2, v), (3, o)] 3).getD [] = o := rfl
      rw [hg1, hg2, hg3] at h
      cases hi : serialInit k v (serialOptions o) with
      | error e => rw [hi] at h; cases h
      | ok c' =>
        rw [hi] at h
        cases h
        unfold serialInit at hi
        cases hvk : serialKind k with
        | error e => rw [hvk] at hi; cases hi
        | ok k' =>
          rw [hvk] at hi
          simp only at hi
          cases hvv : serialValue k' v with
          | error e => rw [hvv] at hi; cases hi
          | ok v' =>
            rw [hvv] at hi
            simp only at hi
            split at hi
            · cases hi
            · rename_i hds
              cases hi
              simp only
              have hkk : k' ∈ validKinds ∧ (k' = k ∨ k = [] ∧ k' = "device".toList) := by
                unfold serialKind at hvk
                simp only at hvk
                have hlow : lower k = k := by
                  unfold lower
                  conv_rhs => rw [← List.map_id k]
                  apply List.map_congr_left
                  intro ch hch
                  have := hk ch hch
                  unfold isAZ at this
                  simp only [Bool.and_eq_true, decide_eq_true_eq] at this
                  unfold lowerC
                  have h1 : 'a'.toNat ≤ ch.toNat := this.1
                  rw [if_neg]
                  · rfl
                  · rintro ⟨-, h2⟩
                    have h2' : ch.toNat ≤ 'Z'.toNat := h2
                    have : 'a'.toNat = 97 := rfl
                    have : 'Z'.toNat = 90 := rfl
                    omega
                rw [hlow] at hvk
                by_cases hk0 : k = []
                · rw [if_pos hk0] at hvk
                  rw [if_pos (by decide)] at hvk
                  injection hvk with hvk
                  subst hvk
                  exact ⟨by decide, Or.inr ⟨hk0, rfl⟩⟩
                · rw [if_neg hk0] at hvk
                  by_cases hin : k ∈ validKinds
                  · rw [if_pos hin] at hvk
                    injection hvk with hvk
                    subst hvk
                    exact ⟨hin, Or.inl rfl⟩
                  · rw [if_neg hin] at hvk
                    cases hvk
              have hval := serialValue_sound hvv
              refine ⟨hkk.1, ?_, ?_, k, s1, v, s2, o, he, hs1, hs2, hkk.2, ?_, ?_, rfl⟩
              · intro ht
                rcases hval with ⟨hx, -⟩ | ⟨-, sl, rest, y, d, -, -, e, hd⟩
                · exfalso
                  rcases ht with rfl | rfl <;> revert hx <;> decide
                · exact ⟨y, d, e, hd⟩
              · intro hf
                cases hdd : dget? (serialOptions o) "datastore".toList with
                | none => exact absurd ⟨hf, hdd⟩ hds
                | some x => exact ⟨x, rfl⟩
              · rcases hval with ⟨-, rfl⟩ | ⟨-, sl, rest, y, d, e, -, -, -⟩
                · exact List.infix_refl _
                · exact ⟨sl, rest, e.symm⟩
              · intro h1 h2
                rcases hval with ⟨-, rfl⟩ | ⟨hx, -⟩
                · rfl
                · rcases hx with hx | hx
                  · exact absurd hx h1
                  · exact absurd hx h2

example : fromCli (some "tcp:localhost:22,server,x=y".toList) =
    .ok (some { kind := "tcp".toList, value := "localhost:22".toList,
                options := [("server".toList, none), ("x".toList, some "y".toList)] }) := by rfl
example : fromCli (some " /dev/ttyS0\n".toList) =
    .ok (some { kind := "device".toList, value := "/dev/ttyS0".toList, options := [] }) := by rfl
example : fromCli (some "file:a.txt".toList) = .error .invalidInput := by rfl

/-- Text after the port number is dropped without a word. -/
theorem C50_trailing_fails : fromCli (some "tcp:host:22abc".toList) =
    .ok (some { kind := "tcp".toList, value := "host:22".toList, options := [] }) := by rfl

/-- The colon is optional, so that an unknown word can be read as a known kind and the rest of the word. -/
theorem C50_colon_fails : fromCli (some "pipe_".toList) =
    .ok (some { kind := "pipe".toList, value := "_".toList, options := [] }) := by rfl

/-- **C50 (lists).** The connections given for several ports are read in order, blank ones being left out, and ESXi
targets accept at most four. -/
theorem C50_list (L : List (Option Str)) (cs : List SerialConn) :
    serialConnections L = .ok cs ↔ ∃ rs : List (Option SerialConn), L.map fromCli = rs.map .ok ∧ cs = rs.flatMap Option.toList := by
  induction L generalizing cs with
  | nil =>
    constructor
    · intro h; cases h; exact ⟨[], rfl, rfl⟩
    · rintro ⟨rs, h1, rfl⟩
      cases rs with
      | nil => rfl
      | cons r rs => cases h1
  | cons s L ih =>
    unfold serialConnections
    cases hf : fromCli s with
    | error e =>
      constructor
      · intro h; cases h
      · rintro ⟨rs, h1, -⟩
        cases rs with
        | nil => cases h1
        | cons r rs => simp only [List.map_cons, List.cons.injEq] at h1; rw [hf] at h1; cases h1.1
    | ok r =>
      simp only
      cases hc : serialConnections L with
      | error e =>
        constructor
        · intro h; cases h
        · rintro ⟨rs, h1, rfl⟩
          cases rs with
          | nil => cases h1
          | cons r' rs =>
            simp only [List.map_cons, List.cons.injEq] at h1
            have := (ih (rs.flatMap Option.toList)).2 ⟨rs, h1.2, rfl⟩
            rw [hc] at this; cases this
      | ok cs' =>
        obtain ⟨rs, h1, h2⟩ := (ih cs').1 hc
        constructor
        · intro h
          cases h
          exact ⟨r :: rs, by simp [hf, h1], by simp [h2]⟩
        · rintro ⟨rs', h3, rfl⟩
          cases rs' with
          | nil => cases h3
          | cons r' rs' =>
            simp only [List.map_cons, List.cons.injEq] at h3
            rw [hf] at h3
            have hr : r = r' := by injection h3.1
            have := (ih (rs'.flatMap Option.toList)).2 ⟨rs', h3.2, rfl⟩
            rw [hc] at this
            injection this with this
            rw [this, hr]; simp

/-- **C50 (limit).** ESXi accepts at most four connections. -/
theorem C50_four (L : List (Option Str)) :
    esxiSerialConnections L = if 4 < L.length then .error .valueUnsupported else serialConnections L := rfl

/-- **C50 (ports).** The ports made on ESXi are one for each connection, in order: a device connection gives the
device, a tcp or telnet one the address `kind://value`, listening exactly if the option "server" is present.  A file or
pipe connection is an error. -/
theorem C50_ports (cs : List SerialConn) :
    (∀ bs, serialBackings cs = .ok bs → List.Forall₂ (fun (c : SerialConn) (b : Backing) =>
      (c.kind = "device".toList ∧ b = .device c.value) ∨
      ((c.kind = "tcp".toList ∨ c.kind = "telnet".toList) ∧ ∃ srv, b = .uri (c.kind ++ "://".toList ++ c.value) srv ∧
        (srv = true ↔ "server".toList ∈ dkeys c.options))) cs bs) ∧
    ((∃ bs, serialBackings cs = .ok bs) ↔ ∀ c ∈ cs, c.kind ∈ ["device".toList, "tcp".toList, "telnet".toList]) := by
  have hd : ∀ (o : SerialOpts), (dget? o "server".toList).isSome = true ↔ "server".toList ∈ dkeys o := by
    intro o
    constructor
    · intro h
      obtain ⟨x, hx⟩ := Option.isSome_iff_exists.1 h
      exact mem_dkeys_of_dget? hx
    · intro h
      obtain ⟨x, hx⟩ := dget?_of_mem_dkeys h
      rw [hx]; rfl
  induction cs with
  | nil =>
    refine ⟨?_, ?_⟩
    · intro bs h; cases h; exact List.Forall₂.nil
    · simp [serialBackings]
  | cons c cs ih =>
    unfold serialBackings serialBacking
    by_cases h1 : c.kind = "device".toList
    · rw [if_pos h1]
      simp only
      cases hr : serialBackings cs with
      | error e =>
        rw [hr] at ih
        refine ⟨fun bs h => (by cases h), ?_⟩
        simp only [reduceCtorEq, exists_false, false_iff]
        intro h
        have := ih.2.2 (fun x hx => h x (List.mem_cons_of_mem _ hx))
        simp at this
      | ok bs =>
        rw [hr] at ih
        refine ⟨fun bs' h => ?_, ?_⟩
        · cases h
          exact List.Forall₂.cons (Or.inl ⟨h1, rfl⟩) (ih.1 bs rfl)
        · refine ⟨fun _ x hx => ?_, fun _ => ⟨_, rfl⟩⟩
          rcases List.mem_cons.1 hx with rfl | hx
          · rw [h1]; simp
          · exact ih.2.1 ⟨bs, rfl⟩ x hx
    · rw [if_neg h1]
      by_cases h2 : c.kind = "telnet".toList ∨ c.kind = "tcp".toList
      · rw [if_pos h2]
        simp only
        cases hr : serialBackings cs with
        | error e =>
          rw [hr] at ih
          refine ⟨fun bs h => (by cases h), ?_⟩
          simp only [reduceCtorEq, exists_false, false_iff]
          intro h
          have := ih.2.2 (fun x hx => h x (List.mem_cons_of_mem _ hx))
          simp at this
        | ok bs =>
          rw [hr] at ih
          refine ⟨fun bs' h => ?_, ?_⟩
          · cases h
            exact List.Forall₂.cons (Or.inr ⟨h2.symm, _, rfl, hd _⟩) (ih.1 bs rfl)
          · refine ⟨fun _ x hx => ?_, fun _ => ⟨_, rfl⟩⟩
            rcases List.mem_cons.1 hx with rfl | hx
            · rcases h2 with h2 | h2 <;> rw [h2] <;> simp
            · exact ih.2.1 ⟨bs, rfl⟩ x hx
      · rw [if_neg h2]
        refine ⟨fun bs h => (by cases h), ?_⟩
        constructor
        · rintro ⟨bs, h⟩; cases h
        · intro h
          have := h c (by simp)
          simp only [List.mem_cons, List.not_mem_nil, or_false] at this
          rcases this with h | h | h
          · exact absurd h h1
          · exact absurd (Or.inr h) h2
          · exact absurd (Or.inl h) h2

/-- A pipe is accepted as a connection; that ESXi ports cannot be made for it is only found out when the machine has
been deployed already. -/
theorem C50_pipe_late_fails : ∃ c, esxiSerialConnections [some "pipe:/tmp/p".toList] = .ok [c] ∧
    serialBackings [c] = .error .notImplementedError := ⟨_, rfl, rfl⟩

/-! ### C51 -/

/-- **C51 (arguments).** The arguments for ovftool are the user's own, unchanged and in order, then the requested
options — profile, network mappings in order, name, power-on, datastore — each exactly once, then the package and the
target, last. -/
theorem C51_args (c : EsxiCmd) (args : List Str) (target : Str) :
    fixupArgs c args target = args ++
      (c.configuration.map (fun x => "--deploymentOption=".toList ++ x)).toList ++
      ((c.networkMap.getD []).map (fun n => "--net:".toList ++ n)) ++
      ["--name=".toList ++ c.vmName.getD (pathRoot (pathBase c.package))] ++
      (if c.powerOn then ["--powerOn".toList] else []) ++
      (c.datastore.map (fun x => "--datastore=".toList ++ x)).toList ++ [c.package, target] := by
  unfold fixupArgs
  cases c.configuration <;> cases c.networkMap <;> cases c.vmName <;> cases c.powerOn <;> cases c.datastore <;>
    simp

theorem fixup_mid (c : EsxiCmd) (a : List Str) (t : Str) :
    ∃ mid, fixupArgs c a t = a ++ mid ++ [c.package, t] ∧ mid.head? ≠ some "--X:injectOvfEnv".toList := by
  rw [C51_args]
  have h3 : ∀ (x y : Str) (o : List Str), y[2]? ≠ some 'X' → ((y ++ x) :: o).head? ≠ some "--X:injectOvfEnv".toList ∨ y.length ≤ 2 := by
    intro x y o hy
    by_cases hl : y.length ≤ 2
    · exact Or.inr hl
    · left
      intro h
      simp only [List.head?_cons, Option.some.injEq] at h
      have h2 : (y ++ x)[2]? = some 'X' := by rw [h]; rfl
      rw [List.getElem?_append_left (by omega)] at h2
      exact hy h2
  refine ⟨(c.configuration.map (fun x => "--deploymentOption=".toList ++ x)).toList ++
    ((c.networkMap.getD []).map (fun n => "--net:".toList ++ n)) ++
    ["--name=".toList ++ c.vmName.getD (pathRoot (pathBase c.package))] ++
    (if c.powerOn then ["--powerOn".toList] else []) ++
    (c.datastore.map (fun x => "--datastore=".toList ++ x)).toList, by simp only [List.append_assoc], ?_⟩
  cases c.configuration with
  | some x => exact (h3 x "--deploymentOption=".toList _ (by decide)).resolve_right (by decide)
  | none =>
    cases c.networkMap.getD [] with
    | nil => exact (h3 _ "--name=".toList _ (by decide)).resolve_right (by decide)
    | cons n L => exact (h3 n "--net:".toList _ (by decide)).resolve_right (by decide)

/-- **C51 (run).** What is passed to ovftool ends in the package and the address built from user, password and
locator; and environment properties are passed on exactly if the package has any, the target is a plain host, the
tool is recent enough and the machine is to be started — otherwise the user is asked, and a refusal ends the
program. -/
theorem C51_run (c : EsxiCmd) (user password locator : Str) (userArgs : List Str) (hasProps viaCenter newTool agrees : Bool) :
    (∀ args, esxiArgs c user password locator userArgs hasProps viaCenter newTool agrees = .ok args →
      ∃ mid, args = userArgs ++ mid ++ [c.package, "vi://".toList ++ user ++ ":".toList ++ password ++ "@".toList ++ locator] ∧
        (mid.head? = some "--X:injectOvfEnv".toList ↔
          hasProps = true ∧ viaCenter = false ∧ newTool = true ∧ c.powerOn = true)) ∧
    (esxiArgs c user password locator userArgs hasProps viaCenter newTool agrees = .error .systemExit ↔
      hasProps = true ∧ viaCenter = false ∧ (newTool = false ∨ c.powerOn = false) ∧ agrees = false) := by
  have hfix := fixup_mid c
  unfold esxiArgs
  simp only
  by_cases h1 : hasProps = true ∧ viaCenter = false
  · rw [if_pos h1]
    by_cases h2 : newTool = false ∨ c.powerOn = false
    · rw [if_pos h2]
      cases ha : agrees with
      | false =>
        rw [if_pos rfl]
        exact ⟨fun args h => (by cases h), ⟨fun _ => ⟨h1.1, h1.2, h2, rfl⟩, fun _ => rfl⟩⟩
      | true =>
        rw [if_neg (by decide)]
        refine ⟨fun args h => ?_, ⟨fun h => (by cases h), fun h => (by cases h.2.2.2)⟩⟩
        cases h
        obtain ⟨mid, e1, e2⟩ := hfix userArgs ("vi://".toList ++ user ++ ":".toList ++ password ++ "@".toList ++ locator)
        refine ⟨mid, e1, ⟨fun hh => absurd hh e2, ?_⟩⟩
        rintro ⟨-, -, g1, g2⟩
        rcases h2 with h2 | h2
        · rw [g1] at h2; cases h2
        · rw [g2] at h2; cases h2
    · rw [if_neg h2]
      refine ⟨fun args h => ?_, ⟨fun h => (by cases h), fun h => absurd h.2.2.1 h2⟩⟩
      cases h
      obtain ⟨mid, e1, -⟩ := hfix (userArgs ++ ["--X:injectOvfEnv".toList])
        ("vi://".toList ++ user ++ ":".toList ++ password ++ "@".toList ++ locator)
      refine ⟨"--X:injectOvfEnv".toList :: mid, by rw [e1]; simp, ⟨fun _ => ⟨h1.1, h1.2, ?_, ?_⟩, fun _ => rfl⟩⟩
      · cases newTool with
        | true => rfl
        | false => exact absurd (Or.inl rfl) h2
      · cases hp : c.powerOn with
        | true => rfl
        | false => exact absurd (Or.inr hp) h2
  · rw [if_neg h1]
    refine ⟨fun args h => ?_, ⟨fun h => (by cases h), fun h => absurd ⟨h.1, h.2.1⟩ h1⟩⟩
    cases h
    obtain ⟨mid, e1, e2⟩ := hfix userArgs ("vi://".toList ++ user ++ ":".toList ++ password ++ "@".toList ++ locator)
    exact ⟨mid, e1, ⟨fun hh => absurd hh e2, fun hh => absurd ⟨hh.1, hh.2.1⟩ h1⟩⟩

/-- **C51 (network maps).** A list of network mappings is accepted, and kept as it is, exactly if each has the form
`network=target` with neither part empty. -/
theorem C51_network_map (L L' : List Str) :
    setNetworkMap L = .ok L' ↔ L' = L ∧ ∀ s ∈ L, ∃ n t, s = n ++ '=' :: t ∧ n ≠ [] ∧ '=' ∉ n ∧ t ≠ [] := by
  have hone : ∀ s, networkMapOk s = true ↔ ∃ n t, s = n ++ '=' :: t ∧ n ≠ [] ∧ '=' ∉ n ∧ t ≠ [] := by
    intro s
    obtain ⟨w, t, e, h1, h2⟩ := split_pred (fun c => c != '=') s
    have htw : s.takeWhile (fun c => c != '=') = w ∧ s.dropWhile (fun c => c != '=') = t := by
      have := split_pred_unique (p := fun c => c != '=') (w := s.takeWhile (fun c => c != '='))
        (t := s.dropWhile (fun c => c != '=')) (w' := w) (t' := t) (by rw [List.takeWhile_append_dropWhile, e])
        (fun c hc => (List.all_eq_true.1 (List.all_takeWhile (p := fun c => c != '=') (l := s))) c hc)
        (by
          intro c hc
          have hne : s.dropWhile (fun c => c != '=') ≠ [] := by intro h; rw [h] at hc; cases hc
          have := List.head_dropWhile_not (fun c => c != '=') hne
          rw [List.head?_eq_some_head hne] at hc
          cases hc; exact this) h1 h2
      exact this
    unfold networkMapOk
    simp only [htw.1, htw.2, decide_eq_true_eq]
    constructor
    · rintro ⟨g1, g2, g3⟩
      obtain ⟨c, t', rfl⟩ := List.exists_cons_of_ne_nil g1
      have hc : c = '=' := by simpa using h2 c rfl
      subst hc
      refine ⟨w, t', e, g2, ?_, g3⟩
      intro hm
      have := h1 _ hm
      simp at this
    · rintro ⟨n, t', e', g1, g2, g3⟩
      have := split_pred_unique (p := fun c => c != '=') (w := w) (t := t) (w' := n) (t' := '=' :: t')
        (by rw [← e, e']) h1 h2 (by intro c hc; simp only [bne_iff_ne, ne_eq]; rintro rfl; exact g2 hc) (by simp)
      rw [this.1, this.2]
      exact ⟨by simp, g1, g3⟩
  unfold setNetworkMap
  by_cases h : L.all networkMapOk = true
  · rw [if_pos h]
    rw [List.all_eq_true] at h
    constructor
    · intro hh; cases hh; exact ⟨rfl, fun s hs => (hone s).1 (h s hs)⟩
    · rintro ⟨rfl, -⟩; rfl
  · rw [if_neg h]
    constructor
    · intro hh; cases hh
    · rintro ⟨-, hh⟩
      exact absurd (List.all_eq_true.2 (fun s hs => (hone s).2 (hh s hs))) h

example : fixupArgs ⟨some "4CPU".toList, some ["a=b".toList], none, "/x/foo.ova".toList, true, none⟩ ["--overwrite".toList] "vi://h".toList =
    ["--overwrite".toList, "--deploymentOption=4CPU".toList, "--net:a=b".toList, "--name=foo".toList, "--powerOn".toList,
      "/x/foo.ova".toList, "vi://h".toList] := by rfl
example : setNetworkMap ["VM Network=net=1".toList] = .ok ["VM Network=net=1".toList] := by rfl

end Cot
