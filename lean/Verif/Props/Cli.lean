import Verif.Spec.Cli
import Verif.Lemmas.TextWrap
import Verif.Props.Ui
import Verif.Props.Version
import Verif.Props.InfoFiles
/-
C103: what commands are given.  C105: usage texts and examples.
-/
namespace Cot

/-! ### C103 -/

theorem flattenArgs_many {α : Type} (ls : List (List α)) : flattenArgs (ls.map .many) = some (ls.flatten.map .one) := by
  induction ls with
  | nil => rfl
  | cons l r ih => simp [flattenArgs, ih]

theorem flattenArgs_one {α : Type} {l : List (ArgElem α)} (h : ∃ x, .one x ∈ l) : flattenArgs l = none := by
  induction l with
  | nil => obtain ⟨x, hx⟩ := h; cases hx
  | cons a r ih =>
    cases a with
    | one x => rfl
    | many y =>
      obtain ⟨x, hx⟩ := h
      rcases List.mem_cons.1 hx with hx | hx
      · cases hx
      · rw [flattenArgs, ih ⟨x, hx⟩]; rfl

/-- C103, repeated options: an option that was given several times, with several values each time, is one list of all values in
the order given; every other argument is as it was parsed. -/
theorem C103_flatten {α : Type} :
    (∀ ls : List (List α), cleanArg (.list (ls.map .many)) = .list (ls.flatten.map .one)) ∧
    (∀ l : List (ArgElem α), (∃ x, .one x ∈ l) → cleanArg (.list l) = .list l) ∧
    (∀ x : α, cleanArg (.one x) = .one x) ∧ cleanArg (α := α) .absent = .absent := by
  refine ⟨?_, ?_, fun _ => rfl, rfl⟩
  · intro ls
    unfold cleanArg
    simp only [flattenArgs_many]
  · intro l h
    unfold cleanArg
    simp only [flattenArgs_one h]

/-- C103, the arguments of a command are all parsed arguments but the three that are for the program itself. -/
theorem C103_dict {α : Type} {args d : List (Str × ArgVal α)} (h : argsToDict args = .ok d) :
    ∀ a v, (a, v) ∈ d ↔ a ∉ ["_verbosity".toList, "_force".toList, "_subcommand".toList] ∧ ∃ v0, (a, v0) ∈ args ∧ v = cleanArg v0 := by
  unfold argsToDict at h
  split at h
  · cases h
    intro a v
    simp only [List.mem_map, List.mem_filter, decide_eq_true_eq, Prod.mk.injEq, Prod.exists, List.mem_cons, List.not_mem_nil,
      or_false, not_or]
    constructor
    · rintro ⟨x, y, ⟨h1, h2⟩, rfl, rfl⟩; exact ⟨h2, y, h1, rfl⟩
    · rintro ⟨h2, y, h1, rfl⟩; exact ⟨a, y, ⟨h1, h2⟩, rfl, rfl⟩
  · cases h

theorem Sets.append {α S : Type} {set : S → Str → ArgVal α → Except Err S} {s s' s'' : S} {a b : List (Str × ArgVal α)}
    (h : Sets set s a s') (h' : Sets set s' b s'') : Sets set s (a ++ b) s'' := by
  induction h with
  | nil => exact h'
  | cons h1 _ ih => exact .cons h1 (ih h')

theorem setLoop_spec {α S : Type} {set : S → Str → ArgVal α → Except Err S} {keep : Str → Bool} {name : Str → Str} :
    ∀ {d : List (Str × ArgVal α)} {s s' : S} {r : Except Err Unit}, setLoop set keep name d s = (r, s') →
      ∃ done rest, done ++ rest = (d.filter (fun kv => keep kv.1 && decide (Given kv.2))).map (fun kv => (name kv.1, kv.2)) ∧
        Sets set s done s' ∧ ((r = .ok () ∧ rest = []) ∨
          ∃ e a v rest', r = .error e ∧ rest = (a, v) :: rest' ∧ set s' a v = .error e) := by
  intro d
  induction d with
  | nil => intro s s' r h; cases h; exact ⟨[], [], rfl, .nil, Or.inl ⟨rfl, rfl⟩⟩
  | cons kv t ih =>
    intro s s' r h
    obtain ⟨a, v⟩ := kv
    unfold setLoop at h
    split at h
    · rename_i hk
      cases v with
      | absent =>
        obtain ⟨done, rest, h1, h2, h3⟩ := ih h
        exact ⟨done, rest, by rw [h1, List.filter_cons_of_neg (by
          intro hh; rw [Bool.and_eq_true, decide_eq_true_eq] at hh; exact hh.2)], h2, h3⟩
      | one x =>
        simp only at h
        have hf : ((a, ArgVal.one x) :: t).filter (fun kv => keep kv.1 && decide (Given kv.2)) =
            (a, .one x) :: t.filter (fun kv => keep kv.1 && decide (Given kv.2)) :=
          List.filter_cons_of_pos (by rw [Bool.and_eq_true, decide_eq_true_eq]; exact ⟨hk, trivial⟩)
        rw [hf]
        cases hs : set s (name a) (.one x) with
        | error e =>
          rw [hs] at h; cases h
          exact ⟨[], _, rfl, .nil, Or.inr ⟨e, _, _, _, rfl, rfl, hs⟩⟩
        | ok s1 =>
          rw [hs] at h
          obtain ⟨done, rest, h1, h2, h3⟩ := ih h
          exact ⟨(name a, .one x) :: done, rest, by simp [h1], .cons hs h2, h3⟩
      | list x =>
        simp only at h
        have hf : ((a, ArgVal.list x) :: t).filter (fun kv => keep kv.1 && decide (Given kv.2)) =
            (a, .list x) :: t.filter (fun kv => keep kv.1 && decide (Given kv.2)) :=
          List.filter_cons_of_pos (by rw [Bool.and_eq_true, decide_eq_true_eq]; exact ⟨hk, trivial⟩)
        rw [hf]
        cases hs : set s (name a) (.list x) with
        | error e =>
          rw [hs] at h; cases h
          exact ⟨[], _, rfl, .nil, Or.inr ⟨e, _, _, _, rfl, rfl, hs⟩⟩
        | ok s1 =>
          rw [hs] at h
          obtain ⟨done, rest, h1, h2, h3⟩ := ih h
          exact ⟨(name a, .list x) :: done, rest, by simp [h1], .cons hs h2, h3⟩
    · rename_i hk
      obtain ⟨done, rest, h1, h2, h3⟩ := ih h
      exact ⟨done, rest, by rw [h1, List.filter_cons_of_neg (by simp [hk])], h2, h3⟩

theorem mandatory_iff (a : Str) : (a.head?.map isUpperA).getD false = true ↔ Mandatory a := by
  unfold Mandatory isUpperA
  cases a with
  | nil => simp
  | cons c t => simp

/-- C103, the attributes: whatever the order of the arguments, the mandatory ones that were given are set first and then the
others that were given, each once; what was not given is not touched.  When one is refused, that is the result, and none after
it is set. -/
theorem C103_set {α S : Type} {set : S → Str → ArgVal α → Except Err S} {d : List (Str × ArgVal α)} {s s' : S}
    {r : Except Err Unit} (h : setAttributes set d s = (r, s')) :
    ∃ done rest, done ++ rest = Assignments d ∧ Sets set s done s' ∧
      ((r = .ok () ∧ rest = []) ∨ ∃ e a v rest', r = .error e ∧ rest = (a, v) :: rest' ∧ set s' a v = .error e) := by
  have e1 : (d.filter (fun kv => (kv.1.head?.map isUpperA).getD false && decide (Given kv.2))).map (fun kv => (lower kv.1, kv.2)) =
      (d.filter (fun kv => decide (Mandatory kv.1 ∧ Given kv.2))).map (fun kv => (lower kv.1, kv.2)) := by
    congr 1
    apply List.filter_congr
    intro kv _
    rw [Bool.eq_iff_iff, Bool.and_eq_true, mandatory_iff, decide_eq_true_eq, decide_eq_true_eq]
  have e2 : (d.filter (fun kv => (decide (kv.1 ≠ "instance".toList) && !(kv.1.head?.map isUpperA).getD false) &&
      decide (Given kv.2))).map (fun kv => (id kv.1, kv.2)) =
      d.filter (fun kv => decide (¬ Mandatory kv.1 ∧ kv.1 ≠ "instance".toList ∧ Given kv.2)) := by
    simp only [id_eq, Prod.mk.eta, List.map_id']
    apply List.filter_congr
    intro kv _
    rw [Bool.eq_iff_iff, Bool.and_eq_true, Bool.and_eq_true, decide_eq_true_eq, decide_eq_true_eq, decide_eq_true_eq,
      Bool.not_eq_true', ← Bool.not_eq_true, mandatory_iff]
    tauto
  unfold setAttributes at h
  cases h1 : setLoop set (fun a => (a.head?.map isUpperA).getD false) lower d s with
  | mk r1 s1 =>
    rw [h1] at h
    obtain ⟨done, rest, k1, k2, k3⟩ := setLoop_spec h1
    rw [e1] at k1
    cases r1 with
    | error e =>
      cases h
      rcases k3 with ⟨k3, -⟩ | ⟨e', a, v, rest', k3, k4, k5⟩
      · cases k3
      · cases k3
        refine ⟨done, rest ++ d.filter (fun kv => decide (¬ Mandatory kv.1 ∧ kv.1 ≠ "instance".toList ∧ Given kv.2)), ?_, k2, Or.inr ⟨e, a, v, _, rfl, by rw [k4]; rfl, k5⟩⟩
        rw [← List.append_assoc, k1]
        rfl
    | ok u =>
      simp only at h
      rcases k3 with ⟨-, k3⟩ | ⟨e', a, v, rest', k3, -⟩
      · subst k3
        rw [List.append_nil] at k1
        obtain ⟨done', rest', m1, m2, m3⟩ := setLoop_spec h
        rw [e2] at m1
        refine ⟨done ++ done', rest', ?_, k2.append m2, m3⟩
        rw [List.append_assoc, m1, k1]
        rfl
      · cases k3

/-- C103, no question is ever put to somebody who is not there: unless both input and output are a terminal, questions and
selections are answered by their defaults, without reading any input. -/
theorem C103_noninteractive {force stdin stdout : Bool} (h : stdin = false ∨ stdout = false) (opts : List Str) (dflt : Str)
    (inp : List Str) : confirm (impliedForce force stdin stdout) inp = some (true, inp) ∧
      chooseFromList (impliedForce force stdin stdout) opts dflt inp = some (dflt, inp) := by
  have : impliedForce force stdin stdout = true := by
    unfold impliedForce
    rcases h with rfl | rfl <;> simp
  rw [this]
  exact ⟨rfl, rfl⟩

/-! ### C105, groups -/

theorem takeDrop (p : Char → Bool) (s : Str) : s.takeWhile p ++ s.dropWhile p = s := List.takeWhile_append_dropWhile

/-- what a splitter does with a text that is not empty -/
def Splitter (g : Str → Option (Str × Str)) : Prop :=
  ∀ c t, (∀ x r, g (c :: t) = some (x, r) → x ≠ [] ∧ x ++ r = c :: t) ∧ (g (c :: t) = none → isWs c = true)

theorem findGroups_interleaved {g : Str → Option (Str × Str)} (hg : Splitter g) :
    ∀ (n : Nat) (s : Str), s.length ≤ n → Interleaved (findGroups g n s) s := by
  intro n
  induction n with
  | zero => intro s h; cases s with
    | nil => exact .nil
    | cons c t => simp at h
  | succ n ih =>
    intro s h
    cases s with
    | nil => exact .nil
    | cons c t =>
      unfold findGroups
      cases hs : g (c :: t) with
      | none => exact .blank ((hg c t).2 hs) (ih t (by simpa using h))
      | some x =>
        obtain ⟨x, r⟩ := x
        obtain ⟨h1, h2⟩ := (hg c t).1 x r hs
        simp only
        rw [← h2]
        refine .group h1 (ih r ?_)
        have hl := congrArg List.length h2
        simp only [List.length_append, List.length_cons] at hl h
        have : 0 < x.length := List.length_pos_iff.2 h1
        omega

theorem wordGroup_some {s x r : Str} (h : wordGroup s = some (x, r)) : x ≠ [] ∧ x ++ r = s := by
  unfold wordGroup at h
  split at h
  · cases h
  · rename_i hn; cases h; exact ⟨hn, takeDrop _ _⟩

theorem wordGroup_none {c : Char} {t : Str} (h : wordGroup (c :: t) = none) : isWs c = true := by
  unfold wordGroup at h
  split at h
  · rename_i hn
    by_contra hc
    rw [List.takeWhile_cons_of_pos (by simp [nonWs, hc])] at hn
    cases hn
  · cases h

theorem closedGroup_some {close : Char} {s x r : Str} (h : closedGroup close s = some (x, r)) : x ++ r = s := by
  unfold closedGroup at h
  simp only at h
  split at h
  · cases h
  · rename_i y r' hy
    split at h
    · cases h
      have := takeDrop (fun c => c != close && c != '\n') s
      rw [hy] at this
      rw [List.append_assoc, List.cons_append, takeDrop, this]
    · cases h

theorem dashGroup_some {s x r : Str} (h : dashGroup s = some (x, r)) : x ≠ [] ∧ x ++ r = s := by
  unfold dashGroup at h
  split at h
  · rename_i t
    simp only at h
    split at h
    · cases h
      refine ⟨by simp, ?_⟩
      simp only [List.cons_append, List.append_assoc, takeDrop]
    · cases h
  · cases h

theorem openGroup_some {s x r : Str} (h : openGroup s = some (x, r)) : x ≠ [] ∧ x ++ r = s := by
  unfold openGroup at h
  split at h
  · cases hc : closedGroup ')' _ with
    | none => rw [hc] at h; cases h
    | some y => rw [hc] at h; cases h; exact ⟨by simp, by rw [List.cons_append, closedGroup_some (x := y.1) (r := y.2) hc]⟩
  · cases hc : closedGroup ']' _ with
    | none => rw [hc] at h; cases h
    | some y => rw [hc] at h; cases h; exact ⟨by simp, by rw [List.cons_append, closedGroup_some (x := y.1) (r := y.2) hc]⟩
  · cases h

theorem usageGroup_splitter : Splitter usageGroup := by
  intro c t
  unfold usageGroup
  cases ho : openGroup (c :: t) with
  | some x => exact ⟨fun y r h => (by cases h; exact openGroup_some ho), fun h => (by cases h)⟩
  | none =>
    cases hd : dashGroup (c :: t) with
    | some x => exact ⟨fun y r h => (by cases h; exact dashGroup_some hd), fun h => (by cases h)⟩
    | none => exact ⟨fun y r h => wordGroup_some h, fun h => wordGroup_none h⟩

theorem paramGroup_splitter : Splitter paramGroup := by
  intro c t
  unfold paramGroup
  split
  · rename_i t' heq
    simp only
    split
    · rename_i r hr
      split
      · refine ⟨fun y r' h => ?_, fun h => (by cases h)⟩
        cases h
        refine ⟨by simp, ?_⟩
        rw [heq]
        have := takeDrop nonWs t'
        rw [hr] at this
        simp only [List.cons_append, List.append_assoc, takeDrop, this]
      · exact ⟨fun y r h => wordGroup_some h, fun h => wordGroup_none h⟩
    · exact ⟨fun y r h => wordGroup_some h, fun h => wordGroup_none h⟩
  · exact ⟨fun y r h => wordGroup_some h, fun h => wordGroup_none h⟩

theorem lineOf_snoc (start : Str) (p : List Str) (g : Str) : lineOf start p ++ ' ' :: g = lineOf start (p ++ [g]) := by
  simp [lineOf]

theorem wrapGroups_spec (width : Nat) (indent : Str) : ∀ (gs : List Str) (start : Str) (p : List Str),
    ∃ (q : List Str) (more : List (List Str)), gs = q ++ more.flatten ∧ (∀ m ∈ more, m ≠ []) ∧
      wrapGroups width indent (lineOf start p) gs = lineOf start (p ++ q) :: more.map (lineOf indent) ∧
      (q = [] ∨ (lineOf start (p ++ q)).length ≤ width) ∧
      (∀ m ∈ more, (lineOf indent m).length ≤ width ∨ m.length = 1) ∧
      List.IsChain (fun a b => ∀ g, b.2.head? = some g → width ≤ (lineOf a.1 a.2).length + g.length)
        ((start, p ++ q) :: more.map (fun m => (indent, m))) := by
  intro gs
  induction gs with
  | nil => intro start p; exact ⟨[], [], rfl, by simp, by simp [wrapGroups], Or.inl rfl, by simp, by simp⟩
  | cons g gs ih =>
    intro start p
    unfold wrapGroups
    split
    · have hl : indent ++ ' ' :: g = lineOf indent [g] := by simp [lineOf]
      rw [hl]
      obtain ⟨q, more, h1, h2, h3, h4, h5, h6⟩ := ih indent [g]
      refine ⟨[], ([g] ++ q) :: more, by simp [h1], ?_, by rw [h3]; simp, Or.inl rfl, ?_, ?_⟩
      · intro m hm
        rcases List.mem_cons.1 hm with rfl | hm
        · simp
        · exact h2 m hm
      · intro m hm
        rcases List.mem_cons.1 hm with rfl | hm
        · rcases h4 with rfl | h4
          · exact Or.inr rfl
          · exact Or.inl h4
        · exact h5 m hm
      · rw [List.append_nil, List.map_cons]
        refine List.IsChain.cons_cons ?_ h6
        intro g' hg'
        cases hg'
        assumption
    · rename_i hlt
      rw [lineOf_snoc]
      obtain ⟨q, more, h1, h2, h3, h4, h5, h6⟩ := ih start (p ++ [g])
      refine ⟨g :: q, more, by simp [h1], h2, by rw [h3]; simp, Or.inr ?_, h5, by simpa using h6⟩
      rcases h4 with rfl | h4
      · rw [← lineOf_snoc]
        simp only [List.length_append, List.length_cons]
        omega
      · simpa using h4

theorem usageLines_spec {width : Nat} {sub usage : Str} {block : List Str} (h : usageLines width sub usage = .ok block) :
    Distributed width sub (usageGroups usage) block := by
  unfold usageLines at h
  split at h
  · cases h
  · rename_i hne
    simp only [Except.ok.injEq] at h
    have hmax : Longest (usageGroups usage) (maxLen (usageGroups usage)) := maxLen_spec _
    have hind : ∃ k, (if (usagePrefix sub).length + maxLen (usageGroups usage) ≥ width then List.replicate 5 ' '
      else List.replicate (usagePrefix sub).length ' ') = List.replicate k ' ' ∧
        ((k = (usagePrefix sub).length ∧ ∀ g ∈ usageGroups usage, (usagePrefix sub).length + g.length < width) ∨
         (k = 5 ∧ ∃ g ∈ usageGroups usage, width ≤ (usagePrefix sub).length + g.length)) := by
      split
      · rename_i hw
        refine ⟨_, rfl, Or.inr ⟨rfl, ?_⟩⟩
        rcases hmax.2 with h0 | ⟨g, hg, hl⟩
        · obtain ⟨g, hg⟩ := List.exists_mem_of_ne_nil _ hne
          exact ⟨g, hg, by omega⟩
        · exact ⟨g, hg, by omega⟩
      · rename_i hw
        refine ⟨_, rfl, Or.inl ⟨rfl, ?_⟩⟩
        intro g hg
        have := hmax.1 g hg
        omega
    obtain ⟨k, hk, hk'⟩ := hind
    rw [hk] at h
    obtain ⟨q, more, h1, h2, h3, h4, h5, h6⟩ := wrapGroups_spec width (List.replicate k ' ') (usageGroups usage) (usagePrefix sub) []
    have hp : lineOf (usagePrefix sub) [] = usagePrefix sub := by simp [lineOf]
    rw [hp, h] at h3
    rw [List.nil_append] at h3 h4 h6
    exact ⟨q, more, k, h1, h2, hk', h3, h4.symm, h5, h6⟩

theorem usageGroups_interleaved (u : Str) : Interleaved (usageGroups u) u :=
  findGroups_interleaved usageGroup_splitter _ u (Nat.le_refl _)

theorem usageBlocks_spec {width : Nat} {sub : Str} : ∀ {us : List Str} {bs : List (List Str)}, usageBlocks width sub us = .ok bs →
    List.Forall₂ (fun u b => Distributed width sub (usageGroups u) b) us bs := by
  intro us
  induction us with
  | nil => intro bs h; cases h; exact .nil
  | cons u r ih =>
    intro bs h
    unfold usageBlocks at h
    cases h1 : usageLines width sub u with
    | error e => rw [h1] at h; cases h
    | ok b =>
      rw [h1] at h; simp only at h
      cases h2 : usageBlocks width sub r with
      | error e => rw [h2] at h; cases h
      | ok bs' => rw [h2] at h; cases h; exact .cons (usageLines_spec h1) (ih h2)

/-- C105, usage: the text for a command is the line about help followed by, for each usage string, its parameters in their order,
none lost, added or broken, on lines that fit the terminal as far as the parameters themselves do. -/
theorem C105_usage {width : Nat} {sub text : Str} {usages : List Str} (h : fillUsage width sub usages = .ok text) :
    ∃ blocks, List.Forall₂ (UsageBlock width sub) usages blocks ∧
      text = joinWith ['\n'] (("\n  cot ".toList ++ sub ++ " --help".toList) :: blocks.flatten) := by
  unfold fillUsage at h
  cases hb : usageBlocks width sub usages with
  | error e => rw [hb] at h; cases h
  | ok bs => rw [hb] at h; cases h; 
             exact ⟨bs, (usageBlocks_spec hb).imp (fun u b h => ⟨_, usageGroups_interleaved u, h⟩), rfl⟩

theorem interleaved_nil {s : Str} (h : Interleaved [] s) : ∀ c ∈ s, isWs c = true := by
  generalize hg : ([] : List Str) = gs at h
  induction h with
  | nil => simp
  | blank hc _ ih => intro c hm; rcases List.mem_cons.1 hm with rfl | hm
                     · exact hc
                     · exact ih hg c hm
  | group _ _ _ => cases hg

theorem C105_usage_ok {width : Nat} {sub : Str} {usages : List Str} (h : ∀ u ∈ usages, ∃ c ∈ u, isWs c = false) :
    ∃ text, fillUsage width sub usages = .ok text := by
  have : ∃ bs, usageBlocks width sub usages = .ok bs := by
    induction usages with
    | nil => exact ⟨[], rfl⟩
    | cons u r ih =>
      obtain ⟨bs, hbs⟩ := ih (fun x hx => h x (by simp [hx]))
      have hne : usageGroups u ≠ [] := by
        intro he
        have hi := usageGroups_interleaved u
        rw [he] at hi
        obtain ⟨c, hc, hw⟩ := h u (by simp)
        rw [interleaved_nil hi c hc] at hw
        cases hw
      unfold usageBlocks usageLines
      rw [if_neg hne]
      simp only [hbs]
      exact ⟨_, rfl⟩
  obtain ⟨bs, hbs⟩ := this
  unfold fillUsage
  rw [hbs]
  exact ⟨_, rfl⟩

theorem head_blank_or_nil {r : Str} (hr : ∀ c, r.head? = some c → isWs c = true) : ∀ c, r.head? = some c → nonWs c = false := by
  intro c hc
  simp [nonWs, hr c hc]

theorem closedGroup_item {close : Char} {x r : Str} (hx : ∀ c ∈ x, c ≠ close ∧ c ≠ '\n') (hc : isWs close = false)
    (hr : ∀ c, r.head? = some c → isWs c = true) : closedGroup close (x ++ close :: r) = some (x ++ [close], r) := by
  have h1 := takeWhile_run (p := fun c => c != close && c != '\n') (d := x) (r := close :: r)
    (fun c h => by have := hx c h; simp [this]) (fun c h => by cases h; simp)
  have h2 := takeWhile_run (p := fun c => c == close) (d := []) (r := r) (fun c h => by cases h) (fun c h => by
    have := hr c h
    by_contra hh
    simp only [beq_iff_eq, Bool.not_eq_false] at hh
    subst hh
    rw [hc] at this; cases this)
  rw [List.nil_append] at h2
  unfold closedGroup
  simp only [h1.1, h1.2, if_true, h2.1, h2.2]

theorem usageGroup_item {it r : Str} (h : UsageItem it) (hr : ∀ c, r.head? = some c → isWs c = true) :
    usageGroup (it ++ r) = some (it, r) := by
  cases h with
  | word hne hw hh =>
    cases it with
    | nil => exact absurd rfl hne
    | cons c t =>
      obtain ⟨n1, n2, n3⟩ := hh c rfl
      have hrun := takeWhile_run (p := nonWs) (d := c :: t) (r := r) (fun x hx => by simp [nonWs, hw x hx]) (head_blank_or_nil hr)
      have ho : openGroup (c :: t ++ r) = none := by
        rw [List.cons_append]
        unfold openGroup
        split
        · rename_i heq; cases heq; exact absurd rfl n1
        · rename_i heq; cases heq; exact absurd rfl n2
        · rfl
      have hd : dashGroup (c :: t ++ r) = none := by
        rw [List.cons_append]
        unfold dashGroup
        split
        · rename_i heq; cases heq; exact absurd rfl n3
        · rfl
      unfold usageGroup
      rw [ho, hd]
      simp only
      unfold wordGroup
      rw [hrun.1, hrun.2, if_neg hne]
  | @option a b ha hb hwa hwb =>
    have r1 := takeWhile_run (p := nonWs) (d := a) (r := ' ' :: b ++ r) (fun x hx => by simp [nonWs, hwa x hx])
      (fun c hc => by cases hc; rfl)
    have r2 := takeWhile_run (p := isWs) (d := [' ']) (r := b ++ r) (fun x hx => by rw [List.mem_singleton.1 hx]; rfl)
      (fun c hc => by
        cases b with
        | nil => exact absurd rfl hb
        | cons y b => cases hc; exact hwb _ (by simp))
    have r3 := takeWhile_run (p := nonWs) (d := b) (r := r) (fun x hx => by simp [nonWs, hwb x hx]) (head_blank_or_nil hr)
    have e : '-' :: a ++ ' ' :: b ++ r = '-' :: (a ++ (' ' :: b ++ r)) := by simp
    have e2 : ' ' :: b ++ r = [' '] ++ (b ++ r) := rfl
    rw [e]
    unfold usageGroup openGroup dashGroup
    simp only [r1.1, r1.2]
    rw [e2]
    simp only [r2.1, r2.2, r3.1, r3.2]
    rw [if_pos ⟨ha, by simp, hb⟩]
    simp
  | @brackets x hx =>
    have e : '[' :: x ++ [']'] ++ r = '[' :: (x ++ ']' :: r) := by simp
    rw [e]
    unfold usageGroup openGroup
    simp only [closedGroup_item hx (by decide) hr]
    rfl
  | @parens x hx =>
    have e : '(' :: x ++ [')'] ++ r = '(' :: (x ++ ')' :: r) := by simp
    rw [e]
    unfold usageGroup openGroup
    simp only [closedGroup_item hx (by decide) hr]
    rfl

theorem UsageItem.ne_nil {it : Str} (h : UsageItem it) : it ≠ [] := by
  cases h with
  | word h _ _ => exact h
  | option _ _ _ _ => simp
  | brackets _ => simp
  | parens _ => simp

theorem usageGroup_blank (t : Str) : usageGroup (' ' :: t) = none := by
  unfold usageGroup openGroup dashGroup wordGroup
  simp [nonWs, show isWs ' ' = true from rfl]

theorem findGroups_items : ∀ {items : List Str}, (∀ it ∈ items, UsageItem it) → ∀ (n : Nat), (joinWith [' '] items).length ≤ n →
    findGroups usageGroup n (joinWith [' '] items) = items := by
  intro items
  induction items with
  | nil => intro _ n _; cases n <;> rfl
  | cons it r ih =>
    intro h n hn
    have hit := h it (by simp)
    obtain ⟨c, t, hct⟩ := List.exists_cons_of_ne_nil hit.ne_nil
    cases r with
    | nil =>
      have hg := usageGroup_item hit (r := []) (by simp)
      rw [List.append_nil] at hg
      simp only [joinWith] at hn ⊢
      rw [hct] at hn hg ⊢
      cases n with
      | zero => simp at hn
      | succ n =>
        unfold findGroups
        rw [hg]
        cases n <;> rfl
    | cons it2 r2 =>
      have hj : joinWith [' '] (it :: it2 :: r2) = it ++ ' ' :: joinWith [' '] (it2 :: r2) := by simp [joinWith]
      have hg := usageGroup_item hit (r := ' ' :: joinWith [' '] (it2 :: r2)) (fun c hc => by cases hc; rfl)
      rw [hj] at hn ⊢
      rw [hct, List.cons_append] at hg
      simp only [hct, List.cons_append, List.length_cons, List.length_append] at hn ⊢
      match n, hn with
      | n + 1, hn =>
        unfold findGroups
        rw [hg]
        simp only
        match n, hn with
        | n + 1, hn =>
          unfold findGroups
          rw [usageGroup_blank]
          simp only
          rw [ih (fun x hx => h x (by simp [hx])) n (by omega)]

/-- C105, what is a parameter: a usage string made of words, options with a value and texts in (simple) brackets or parentheses is
divided into just these; none of them is broken. -/
theorem C105_items_partial {width : Nat} {sub : Str} {usages : List (List Str)} (h : ∀ items ∈ usages, items ≠ [] ∧ ∀ it ∈ items, UsageItem it) :
    ∃ blocks, List.Forall₂ (Distributed width sub) usages blocks ∧ fillUsage width sub (usages.map (joinWith [' '])) =
      .ok (joinWith ['\n'] (("\n  cot ".toList ++ sub ++ " --help".toList) :: blocks.flatten)) := by
  have : ∃ bs, usageBlocks width sub (usages.map (joinWith [' '])) = .ok bs ∧ List.Forall₂ (Distributed width sub) usages bs := by
    induction usages with
    | nil => exact ⟨[], rfl, .nil⟩
    | cons u r ih =>
      obtain ⟨bs, hbs, hf⟩ := ih (fun x hx => h x (by simp [hx]))
      obtain ⟨hne, hi⟩ := h u (by simp)
      have hg : usageGroups (joinWith [' '] u) = u := findGroups_items hi _ (Nat.le_refl _)
      have hl : ∃ b, usageLines width sub (joinWith [' '] u) = .ok b := by
        unfold usageLines
        rw [hg, if_neg hne]
        exact ⟨_, rfl⟩
      obtain ⟨b, hb⟩ := hl
      have hs := usageLines_spec hb
      rw [hg] at hs
      refine ⟨b :: bs, ?_, .cons hs hf⟩
      rw [List.map_cons]
      unfold usageBlocks
      rw [hb, hbs]
  obtain ⟨bs, hbs, hf⟩ := this
  refine ⟨bs, hf, ?_⟩
  unfold fillUsage
  rw [hbs]

/-! ### C105, examples -/

theorem splitWs_lineOf {start : Str} (hs : ∀ c ∈ start, isWs c = true) (p : List Str) :
    splitWs (lineOf start p) = p.flatMap splitWs := by
  unfold lineOf
  rw [splitWs_blank_append hs]
  induction p with
  | nil => simp [splitWs_nil]
  | cons g r ih =>
    rw [List.flatMap_cons, List.cons_append, splitWs_cons_ws (by rfl), List.flatMap_cons]
    rw [splitWs_append, ih]
    cases r with
    | nil => right; right; right; rfl
    | cons g' r' => right; left; exact ⟨' ', _, rfl, rfl⟩

theorem wordGroup_words {s x r : Str} (h : wordGroup s = some (x, r)) :
    (splitWs x).length ≤ 2 ∧ ∀ c, r.head? = some c → isWs c = true := by
  unfold wordGroup at h
  split at h
  · cases h
  · rename_i hn
    cases h
    refine ⟨?_, fun c hc => ?_⟩
    · rw [splitWs_word hn (fun c hc => by simpa [nonWs] using mem_run hc)]; simp
    · simpa [nonWs] using run_head (p := nonWs) s c hc

theorem paramGroup_words {s x r : Str} (h : paramGroup s = some (x, r)) :
    (splitWs x).length ≤ 2 ∧ ∀ c, r.head? = some c → isWs c = true := by
  unfold paramGroup at h
  split at h
  · rename_i t
    simp only at h
    split at h
    · rename_i r' hr
      split at h
      · rename_i hab
        cases h
        refine ⟨?_, fun c hc => ?_⟩
        · rw [splitWs_sep (by rfl), splitWs_word (by simp), splitWs_word hab.2 (fun c hc => by simpa [nonWs] using mem_run hc)]
          · simp
          · intro c hc
            rcases List.mem_cons.1 hc with rfl | hc
            · rfl
            · simpa [nonWs] using mem_run hc
        · simpa [nonWs] using run_head (p := nonWs) r' c hc
      · exact wordGroup_words h
    · exact wordGroup_words h
  · exact wordGroup_words h

theorem findGroups_words : ∀ (n : Nat) (s : Str), s.length ≤ n →
    (findGroups paramGroup n s).flatMap splitWs = splitWs s ∧ ∀ g ∈ findGroups paramGroup n s, (splitWs g).length ≤ 2 := by
  intro n
  induction n with
  | zero => intro s h; cases s with
    | nil => simp [findGroups, splitWs_nil]
    | cons c t => simp at h
  | succ n ih =>
    intro s h
    cases s with
    | nil => simp [findGroups, splitWs_nil]
    | cons c t =>
      unfold findGroups
      cases hs : paramGroup (c :: t) with
      | none =>
        rw [splitWs_cons_ws ((paramGroup_splitter c t).2 hs)]
        exact ih t (by simpa using h)
      | some x =>
        obtain ⟨x, r⟩ := x
        obtain ⟨h1, h2⟩ := (paramGroup_splitter c t).1 x r hs
        obtain ⟨h3, h4⟩ := paramGroup_words hs
        have hl := congrArg List.length h2
        simp only [List.length_append, List.length_cons] at hl h
        have : 0 < x.length := List.length_pos_iff.2 h1
        obtain ⟨i1, i2⟩ := ih r (by omega)
        simp only
        refine ⟨?_, ?_⟩
        · rw [List.flatMap_cons, i1, ← h2, splitWs_append]
          cases r with
          | nil => right; right; right; rfl
          | cons y r => right; left; exact ⟨y, r, rfl, h4 y rfl⟩
        · intro g hg
          rcases List.mem_cons.1 hg with rfl | hg
          · exact h3
          · exact i2 g hg

theorem continued_cons {r ws : List Str} (body : Str) (h : Continued r ws) :
    Continued ((body ++ " \\".toList) :: r) (splitWs body ++ ws) := by
  cases r with
  | nil => exact h.elim
  | cons x r => exact ⟨body, ws, rfl, rfl, h⟩

theorem wrapParams_spec (width : Nat) : ∀ (gs : List Str), (∀ g ∈ gs, (splitWs g).length ≤ 2) → ∀ (start : Str) (p : List Str),
    (∀ c ∈ start, isWs c = true) → ((lineOf start p).length + 4 ≤ width ∨ (p.flatMap splitWs).length ≤ 2) →
    Continued (wrapParams width (lineOf start p) gs) ((p ++ gs).flatMap splitWs) ∧
    ∀ l ∈ wrapParams width (lineOf start p) gs, l.length + 2 ≤ width ∨ (splitWs l).length ≤ 3 := by
  intro gs
  induction gs with
  | nil =>
    intro _ start p hs hp
    unfold wrapParams
    refine ⟨by rw [List.append_nil]; exact splitWs_lineOf hs p, fun l hl => ?_⟩
    rw [List.mem_singleton.1 hl, splitWs_lineOf hs]
    omega
  | cons g gs ih =>
    intro hg start p hs hp
    have hg' := hg g (by simp)
    have ih := ih (fun x hx => hg x (by simp [hx]))
    unfold wrapParams
    split
    · have hl : "       ".toList ++ ' ' :: g = lineOf "       ".toList [g] := by simp [lineOf]
      rw [hl]
      obtain ⟨i1, i2⟩ := ih "       ".toList [g] (by decide) (Or.inr (by simpa using hg'))
      refine ⟨?_, fun l hl => ?_⟩
      · have := continued_cons (lineOf start p) i1
        rw [splitWs_lineOf hs] at this
        simpa using this
      · rcases List.mem_cons.1 hl with rfl | hl
        · have : splitWs (lineOf start p ++ " \\".toList) = p.flatMap splitWs ++ ["\\".toList] := by
            rw [show lineOf start p ++ " \\".toList = lineOf start p ++ ' ' :: ['\\'] from rfl, splitWs_sep (by rfl),
              splitWs_lineOf hs]
            rfl
          rw [this]
          simp only [List.length_append, show " \\".toList.length = 2 from rfl, List.length_cons, List.length_nil]
          omega
        · exact i2 l hl
    · rw [lineOf_snoc]
      have := ih start (p ++ [g]) hs (Or.inl (by
        rw [← lineOf_snoc]
        simp only [List.length_append, List.length_cons]
        omega))
      simpa using this

theorem exampleLines_spec (width : Nat) (ex : Str) : ExampleBlock width ex (exampleLines width ex) := by
  unfold exampleLines
  split
  · exact Or.inl ⟨by assumption, rfl⟩
  · right
    obtain ⟨h1, h2⟩ := findGroups_words ex.length ex (Nat.le_refl _)
    have := wrapParams_spec width (exampleParams ex) h2 "   ".toList [] (by decide) (Or.inr (by simp))
    have e : lineOf "   ".toList [] = "   ".toList := rfl
    rw [e, List.nil_append] at this
    refine ⟨by omega, ?_, this.2⟩
    have h3 := this.1
    unfold exampleParams at h3 ⊢
    rw [h1] at h3
    exact h3

theorem examplesLoop_spec (wrap : Str → List Str) (width : Nat) : ∀ (l : List (Str × Str)) (b : Bool),
    examplesLoop wrap width l b =
      (if b ∨ l = [] then [] else [[]]) ++
      ((l.map (fun de => wrap de.1 ++ [[]] ++ exampleLines width de.2)).intersperse [[]]).flatten := by
  intro l
  induction l with
  | nil => intro b; simp [examplesLoop]
  | cons de r ih =>
    intro b
    obtain ⟨d, e⟩ := de
    unfold examplesLoop
    rw [ih false]
    cases r with
    | nil => cases b <;> simp
    | cons x r => cases b <;> simp

/-- C105, examples: the text is the heading, and for each example its description, an empty line and the lines of the example,
with an empty line between two of them. -/
theorem C105_examples_partial (wrap : Str → List Str) (width : Nat) (l : List (Str × Str)) :
    ∃ blocks, List.Forall₂ (fun de b => ExampleBlock width de.2 b) l blocks ∧
      fillExamples wrap width l = joinWith ['\n'] ("Examples:".toList ::
        ((List.zipWith (fun de b => wrap de.1 ++ [[]] ++ b) l blocks).intersperse [[]]).flatten) := by
  refine ⟨l.map (fun de => exampleLines width de.2), ?_, ?_⟩
  · induction l with
    | nil => exact .nil
    | cons de r ih => exact .cons (exampleLines_spec _ _) ih
  · unfold fillExamples
    rw [examplesLoop_spec]
    simp [List.zipWith_map_right, List.zipWith_self]

/-! ### C105, where it does not hold -/

/-- a text in brackets that has brackets inside is taken apart, although the code means to keep it together -/
theorem C105_nested_fails :
    usageGroups "[-a A [-b B] [-c C]]".toList = ["[-a A [-b B]".toList, "[-c C]]".toList] ∧
    fillUsage 40 "edit-x".toList ["PACKAGE [-a A [-b B] [-c C]]".toList] =
      .ok ("\n  cot edit-x --help\n  cot <opts> edit-x PACKAGE [-a A [-b B]\n                    [-c C]]").toList := by
  constructor <;> decide +kernel

/-- a quoted value with a blank in it is broken, so that what is shown does something else than the example when it is entered:
the value has a backslash, a line break and blanks in it -/
theorem C105_quoted_fails :
    exampleLines 50 "cot edit-product input.ovf --version \"Version 15.4(2) of today\"".toList =
      ["    cot edit-product input.ovf \\".toList, "        --version \"Version 15.4(2) of today\"".toList] ∧
    exampleLines 42 "cot edit-product input.ovf --version \"Version 15.4(2) of today\"".toList =
      ["    cot edit-product input.ovf \\".toList, "        --version \"Version 15.4(2) of \\".toList,
       "        today\"".toList] := by
  constructor <;> decide +kernel

/-- a usage string without any parameter is refused -/
theorem C105_blank_fails (width : Nat) (sub : Str) : fillUsage width sub [" ".toList] = .error .valueError := by rfl

/-! ### Examples -/

example : argsToDict [("_verbosity".toList, .one 1), ("_force".toList, .one 0), ("_subcommand".toList, .one 0),
    ("PACKAGE".toList, .one 5), ("cpus".toList, .absent), ("nics".toList, .list [.many [1, 2], .many [], .many [3]])] =
    .ok [("PACKAGE".toList, .one 5), ("cpus".toList, .absent), ("nics".toList, .list [.one 1, .one 2, .one 3])] := by rfl

/-- a command that refuses to be told of CPUs -/
def exSet (s : List Str) (a : Str) (_ : ArgVal Nat) : Except Err (List Str) :=
  if a = "cpus".toList then .error .valueError else .ok (s ++ [a])

example : setAttributes exSet [("memory".toList, .one 3), ("PACKAGE".toList, .one 5), ("x".toList, .absent), ("cpus".toList, .one 2),
    ("nics".toList, .one 1)] [] = (.error .valueError, ["package".toList, "memory".toList]) := by rfl

example : Assignments [("memory".toList, .one 3), ("PACKAGE".toList, .one 5), ("x".toList, .absent), ("cpus".toList, .one 2)] =
    [("package".toList, .one 5), ("memory".toList, .one 3), ("cpus".toList, ArgVal.one 2)] := by rfl

example : ∀ it ∈ ["PACKAGE".toList, "[-o OUTPUT]".toList, "-f FILE".toList, "(-a | -b)".toList], UsageItem it := by
  intro it h
  simp only [List.mem_cons, List.not_mem_nil, or_false] at h
  rcases h with rfl | rfl | rfl | rfl
  · exact .word (by decide) (by decide) (by decide)
  · exact .brackets (x := "-o OUTPUT".toList) (by decide)
  · exact .option (a := "f".toList) (b := "FILE".toList) (by decide) (by decide) (by decide) (by decide)
  · exact .parens (x := "-a | -b".toList) (by decide)

example : fillUsage 40 "add-file".toList ["FILE PACKAGE [-o OUTPUT] [-f FILE_ID]".toList] =
    .ok "\n  cot add-file --help\n  cot <opts> add-file FILE PACKAGE\n                      [-o OUTPUT]\n                      [-f FILE_ID]".toList := by
  decide +kernel

end Cot
