import Verif.Props.InfoSections
/-
C92: what `cot info` tells about networks and NICs.
-/
namespace Cot

/-! ### Networks -/

theorem allNames_spec : ∀ {l : List (Option Str)} {names : List Str}, allNames l = .ok names → l = names.map some := by
  intro l
  induction l with
  | nil => intro names h; cases h; rfl
  | cons a r ih =>
    intro names h
    cases a with
    | none => cases h
    | some n =>
      unfold allNames at h
      split at h
      · cases h
      · rename_i l' hl
        cases h
        rw [ih hl]
        rfl

theorem allNames_total : ∀ {l : List (Option Str)}, (∀ o ∈ l, ∃ n, o = some n) → ∃ names, allNames l = .ok names := by
  intro l
  induction l with
  | nil => intro _; exact ⟨[], rfl⟩
  | cons a r ih =>
    intro h
    obtain ⟨n, rfl⟩ := h a (by simp)
    obtain ⟨l', hl⟩ := ih (fun o ho => h o (by simp [ho]))
    exact ⟨n :: l', by unfold allNames; rw [hl]⟩

theorem networkLines_spec {w : InfoWorld} {vb : Verbosity} {maxN maxD : Nat} {n d : Str} {ls : List Str}
    {tr : Bool} {md : Int} (htr : tr = true ↔ (maxN + maxD + 6 : Int) ≥ w.width ∧ vb ≠ .verbose)
    (hmd : tr = true → md = w.width - 6 - maxN) (hd : d.length ≤ maxD) (h : networkLines w tr maxN md n d = .ok ls) :
    (d = [] → ls.flatMap splitWs = splitWs n) ∧
    (d ≠ [] → ∃ t, ShownDesc w.width maxN vb d t ∧
      ls.flatMap splitWs = splitWs n ++ splitWs ("\"".toList ++ t ++ "\"".toList)) := by
  have hpad : ∀ t : Str, splitWs (padR maxN n ++ "  \"".toList ++ t ++ "\"".toList) =
      splitWs n ++ splitWs ("\"".toList ++ t ++ "\"".toList) := by
    intro t
    have : padR maxN n ++ "  \"".toList ++ t ++ "\"".toList = (padR maxN n ++ "  ".toList) ++ ("\"".toList ++ t ++ "\"".toList) := by
      simp
    rw [this, splitWs_append (Or.inl ⟨padR maxN n ++ " ".toList, ' ', by simp, isWs_space⟩),
      splitWs_append_blank (by decide), splitWs_padR]
  unfold networkLines at h
  refine ⟨?_, ?_⟩
  · intro he
    rw [if_pos he] at h
    cases h
    rw [List.flatMap_cons, List.flatMap_nil, List.append_nil, splitWs_two]
  · intro he
    rw [if_neg he] at h
    have hdpos : 0 < d.length := List.length_pos_iff.2 he
    split at h
    · rename_i hc
      obtain ⟨ht, hlen⟩ := hc
      have htr := htr.1 ht
      rw [hmd ht] at h hlen
      cases h
      refine ⟨sliceTo d (w.width - 6 - maxN - 3) ++ "...".toList, Or.inr ⟨htr.2, by omega, ?_⟩, ?_⟩
      · unfold sliceTo
        split
        · rename_i hk
          exact ⟨_, by omega, rfl, fun _ => by omega⟩
        · rename_i hk
          exact ⟨_, by omega, rfl, fun _ => by omega⟩
      · rw [← hpad]
        simp only [List.flatMap_cons, List.flatMap_nil, List.append_nil, List.append_assoc]
        rw [splitWs_two]
        rfl
    · rename_i hc
      refine ⟨d, Or.inl ⟨?_, rfl⟩, ?_⟩
      · by_cases hv : vb = .verbose
        · exact Or.inl hv
        · right
          by_contra hlt
          have ht : tr = true := htr.2 ⟨by omega, hv⟩
          apply hc
          refine ⟨ht, ?_⟩
          rw [hmd ht]
          omega
      · rw [textWrap_blank (by decide) (blank_spaces _) h, hpad]

theorem networksLoop_spec {w : InfoWorld} {v : Ver} {vb : Verbosity} {maxN maxD : Nat} {tr : Bool} {md : Int}
    (htr : tr = true ↔ (maxN + maxD + 6 : Int) ≥ w.width ∧ vb ≠ .verbose)
    (hmd : tr = true → md = w.width - 6 - maxN) : ∀ {nets : List Elem} {names ls : List Str},
    nets.map (fun n => n.get (networkName v)) = names.map some →
    (∀ e ∈ nets, (firstText e (networkDesc v)).length ≤ maxD) →
    networksLoop w tr maxN md
      (names.zip (nets.map (fun n => findText n (networkDesc v)))) = .ok ls →
    ∃ blocks : List (List Str), ls = blocks.flatten ∧ List.Forall₂ (NetworkRows w.width maxN v vb) nets blocks := by
  intro nets
  induction nets with
  | nil =>
    intro names ls hn _ h
    cases names with
    | nil => cases h; exact ⟨[], rfl, List.Forall₂.nil⟩
    | cons a r => cases hn
  | cons e r ih =>
    intro names ls hn hd h
    cases names with
    | nil => cases hn
    | cons n ns =>
      rw [List.map_cons, List.map_cons, List.cons.injEq] at hn
      rw [List.map_cons, List.zip_cons_cons] at h
      unfold networksLoop at h
      obtain ⟨x, h1, h⟩ := bind_ok_inv h
      obtain ⟨y, h2, h⟩ := bind_ok_inv h
      cases h
      obtain ⟨blocks, rfl, hf⟩ := ih hn.2 (fun e he => hd e (by simp [he])) h2
      rw [findText_childText] at h1
      have := networkLines_spec htr hmd (hd e (by simp)) h1
      exact ⟨x :: blocks, rfl, List.Forall₂.cons ⟨n, hn.1, this⟩ hf⟩

/-- **C92 (networks).** If there is a network section, each of its networks is told in order: the name and, if there is
one, the description, cut with an ellipsis only where it does not fit beside the names and `--verbose` is not given. -/
theorem C92_networks {w : InfoWorld} {vm : InfoVM} {vb : Verbosity} {lines : List Str}
    (h : infoNetworks w vm vb = .ok lines) :
    (findAllChildren vm.envelope (netSecTag vm.env.ver) (netSecAttrib vm.env.ver) = [] ∧ lines = []) ∨
    ∃ (s : Elem) (longest : Nat) (head : Str) (blocks : List (List Str)),
      findAllChildren vm.envelope (netSecTag vm.env.ver) (netSecAttrib vm.env.ver) = [s] ∧
      Longest ((s.children.filter (fun e => e.tag == networkTag vm.env.ver)).map
        (fun e => (e.get (networkName vm.env.ver)).getD [])) longest ∧
      lines = head :: blocks.flatten ∧ splitWs head = ["Networks:".toList] ∧
      List.Forall₂ (NetworkRows w.width longest vm.env.ver vb)
        (s.children.filter (fun e => e.tag == networkTag vm.env.ver)) blocks := by
  unfold infoNetworks at h
  simp only at h
  split at h
  · cases h
  · rename_i hs
    cases h
    exact Or.inl ⟨findChild_none.1 hs, rfl⟩
  · rename_i s hs
    right
    have hfa : findAllChildren s (networkTag vm.env.ver) [] = s.children.filter (fun e => e.tag == networkTag vm.env.ver) := by
      unfold findAllChildren attribMatch
      simp
    rw [hfa] at h
    split at h
    · cases h
    · rename_i names hn
      have hn := allNames_spec hn
      split at h
      · cases h
      · split at h
        · cases h
        · rename_i l hl
          cases h
          have hm := (maxLen_spec (((s.children.filter (fun e => e.tag == networkTag vm.env.ver)).map
            (fun n => findText n (networkDesc vm.env.ver))).map noneStr)).1
          obtain ⟨blocks, rfl, hf⟩ := networksLoop_spec (vb := vb) (by rw [Bool.and_eq_true, decide_eq_true_eq, decide_eq_true_eq]) (fun x => if_pos x) hn (by
            intro e he
            unfold firstText
            rw [← findText_childText]
            cases ht : findText e (networkDesc vm.env.ver) with
            | none => exact Nat.zero_le _
            | some t =>
              refine hm t ?_
              rw [List.mem_map]
              exact ⟨some t, List.mem_map.2 ⟨e, he, ht⟩, rfl⟩) hl
          refine ⟨s, maxLen names, _, blocks, findChild_some.1 hs, ?_, rfl, by decide, hf⟩
          have e1 : (s.children.filter (fun e => e.tag == networkTag vm.env.ver)).map
              (fun e => (e.get (networkName vm.env.ver)).getD []) = names := by
            have := congrArg (List.map (fun o : Option Str => o.getD [])) hn
            rw [List.map_map, List.map_map] at this
            simpa [Function.comp_def] using this
          rw [e1]
          exact maxLen_spec names

/-! ### NICs -/

theorem valueAt_eq {env : Env} {hw : Hw} {k n : Str} {it : Item} (hk : dget? hw k = some it) :
    valueAt env hw k n = it.getValue env n none := by
  unfold valueAt
  rw [hk]

theorem nicName_spec {env : Env} {hw : Hw} {k : Str} {it : Item} (hk : dget? hw k = some it) {name : Str}
    (h : nicName env hw k = .ok name) :
    (∃ x, it.getValue env (elementName env.ver) none = .ok (some x) ∧ name = env.valStr x) ∨
     (it.getValue env (elementName env.ver) none = .ok none ∧ ∃ i, it.getValue env (instanceId env.ver) none = .ok i ∧
       name = "<instance ".toList ++ valText env i ++ ">".toList) := by
  unfold nicName at h
  rw [valueAt_eq hk, valueAt_eq hk] at h
  split at h
  · cases h
  · rename_i n hn
    cases h
    exact Or.inl ⟨n, hn, rfl⟩
  · rename_i hn
    split at h
    · cases h
    · rename_i i hi
      cases h
      exact Or.inr ⟨hn, i, hi, rfl⟩

theorem nicDesc_spec {w : InfoWorld} {env : Env} {hw : Hw} {vb : Verbosity} {k : Str} {it : Item} (hk : dget? hw k = some it)
    {desc : List Str} (h : nicDesc w env hw vb k = .ok desc) :
    (vb ≠ .verbose → desc = []) ∧
    (vb = .verbose →
      (∃ x, it.getValue env itemDescription none = .ok (some x) ∧ desc.flatMap splitWs = splitWs (env.valStr x)) ∨
      (it.getValue env itemDescription none = .ok none ∧
       ((∃ x, it.getValue env "Caption".toList none = .ok (some x) ∧ desc.flatMap splitWs = splitWs (env.valStr x)) ∨
        (it.getValue env "Caption".toList none = .ok none ∧ desc = [])))) := by
  unfold nicDesc at h
  refine ⟨fun hv => ?_, fun hv => ?_⟩
  · rw [if_neg hv] at h
    cases h
    rfl
  · rw [if_pos hv] at h
    unfold nicText at h
    rw [valueAt_eq hk, valueAt_eq hk] at h
    cases hd : it.getValue env itemDescription none with
    | error e => rw [hd] at h; cases h
    | ok o =>
      rw [hd] at h
      cases o with
      | some x => exact Or.inl ⟨x, rfl, textWrap_blank (by decide) (by decide) h⟩
      | none =>
        simp only at h
        refine Or.inr ⟨rfl, ?_⟩
        change (match it.getValue env "Caption".toList none with
          | .error e => Except.error e
          | .ok none => .ok []
          | .ok (some d) => textWrap w.width "    ".toList "    ".toList (env.valStr d)) = .ok desc at h
        cases hc : it.getValue env "Caption".toList none with
        | error e => rw [hc] at h; cases h
        | ok o =>
          rw [hc] at h
          cases o with
          | some x => exact Or.inl ⟨x, rfl, textWrap_blank (by decide) (by decide) h⟩
          | none => cases h; exact Or.inr ⟨rfl, rfl⟩

theorem plain_connection (env : Env) : Plain env connection := by
  unfold Plain elementName
  cases env.ver <;> decide

theorem nicsLoop_spec {w : InfoWorld} {env : Env} {hw : Hw} {vb : Verbosity} {maxN : Nat} (wf : HwWF env hw) :
    ∀ {ids : List Str} {ls : List Str}, (∀ k ∈ ids, ∃ it, dget? hw k = some it) →
    nicsLoop w env hw vb maxN ids = .ok ls →
    ∃ blocks : List (List Str), ls = blocks.flatten ∧ List.Forall₂ (NicRows env hw vb) ids blocks := by
  intro ids
  induction ids with
  | nil => intro ls _ h; cases h; exact ⟨[], rfl, List.Forall₂.nil⟩
  | cons k r ih =>
    intro ls hk h
    unfold nicsLoop at h
    obtain ⟨net, h1, h⟩ := bind_ok_inv h
    obtain ⟨name, h2, h⟩ := bind_ok_inv h
    obtain ⟨desc, h3, h⟩ := bind_ok_inv h
    obtain ⟨rest, h4, h⟩ := bind_ok_inv h
    cases h
    obtain ⟨blocks, rfl, hf⟩ := ih (fun x hx => hk x (by simp [hx])) h4
    obtain ⟨it, hit⟩ := hk k (by simp)
    rw [valueAt_eq hit] at h1
    have hov := onlyValue_spec (wf.items k it (dget?_mem hit)) (plain_connection env) (by decide) h1
    obtain ⟨d1, d2⟩ := nicDesc_spec hit h3
    refine ⟨_ :: blocks, rfl, List.Forall₂.cons ⟨it, _, name, valText env net, desc, hit, rfl, hov, nicName_spec hit h2, ?_, d1, d2⟩ hf⟩
    rw [List.append_assoc, List.append_assoc, splitWs_two]
    have e1 : padR maxN name ++ (" : ".toList ++ valText env net) = padR maxN name ++ ' ' :: (":".toList ++ ' ' :: valText env net) := by
      simp
    rw [e1, splitWs_space, splitWs_padR, splitWs_space]
    rfl

/-- **C92 (NICs).** Unless `--brief` is given, each Ethernet device of the package is told, in the order of the instance
identifiers: its name, its network and, with `--verbose`, its description. -/
theorem C92_nics {w : InfoWorld} {vm : InfoVM} {vb : Verbosity} {lines : List Str} (wf : HwWF vm.env vm.pkg.hw)
    (h : infoNics w vm vb = .ok lines) :
    (vb = .brief → lines = []) ∧
    (vb ≠ .brief → ∃ ids : List Str, ids.Sublist (naturalSort (dkeys vm.pkg.hw)) ∧
      (∀ k, k ∈ ids ↔ ∃ it, dget? vm.pkg.hw k = some it ∧ OfType it "10".toList) ∧
      (ids = [] → lines = []) ∧
      (ids ≠ [] → ∃ (head : Str) (blocks : List (List Str)), lines = head :: blocks.flatten ∧
        splitWs head = splitWs "NICs and Associated Networks:".toList ∧
        List.Forall₂ (NicRows vm.env vm.pkg.hw vb) ids blocks)) := by
  unfold infoNics at h
  refine ⟨fun hv => ?_, fun hv => ?_⟩
  · rw [if_pos hv] at h
    cases h
    rfl
  · rw [if_neg hv] at h
    split at h
    · cases h
    · rename_i ids hids
      have hm : ∀ k, k ∈ ids ↔ ∃ it, dget? vm.pkg.hw k = some it ∧ OfType it "10".toList := by
        intro k
        rw [findAll_mem (by simp) hids]
        constructor
        · rintro ⟨it, h1, h2, -⟩
          rcases h2 with h2 | ⟨code, e1, e2⟩
          · cases h2
          · have : code = "10".toList := Except.ok.inj (e1.symm.trans (by rfl))
            subst this
            exact ⟨it, h1, e2⟩
        · rintro ⟨it, h1, h2⟩
          exact ⟨it, h1, Or.inr ⟨_, rfl, h2⟩, by simp, by simp⟩
      refine ⟨ids, (filterE_mem hids).2, hm, fun hn => ?_, fun hn => ?_⟩
      · rw [if_pos hn] at h
        cases h
        rfl
      · rw [if_neg hn] at h
        split at h
        · cases h
        · rename_i names hnames
          split at h
          · cases h
          · rename_i l hl
            cases h
            obtain ⟨blocks, rfl, hf⟩ := nicsLoop_spec wf (fun k hk => by
              obtain ⟨it, h1, -⟩ := (hm k).1 hk
              exact ⟨it, h1⟩) hl
            exact ⟨_, blocks, rfl, rfl, hf⟩

/-! ### These sections are told -/

theorem networksLoop_total {w : InfoWorld} {tr : Bool} {maxN : Nat} {maxD : Int} (hw : 0 < w.width) :
    ∀ L : List (Str × Option Str), ∃ ls, networksLoop w tr maxN maxD L = .ok ls := by
  intro L
  induction L with
  | nil => exact ⟨[], rfl⟩
  | cons a r ih =>
    obtain ⟨n, d⟩ := a
    obtain ⟨rest, hr⟩ := ih
    obtain ⟨x, hx⟩ : ∃ x, networkLines w tr maxN maxD n (d.getD []) = .ok x := by
      unfold networkLines
      split
      · exact ⟨_, rfl⟩
      · split
        · exact ⟨_, rfl⟩
        · exact textWrap_total hw _ _ _
    exact ⟨x ++ rest, by unfold networksLoop; simp only [hx, hr, bind, Except.bind]⟩

theorem getValue_plain_total {env : Env} {it : Item} {n : Str} (hp : Plain env n) : ∃ o, it.getValue env n none = .ok o :=
  ⟨_, getValue_plain hp none⟩

/-- **C92 (nothing is in the way).** On a terminal with at least one column, the networks are told if the network
section, if there is one, has networks and all of them have names; and the NICs are told if their names and descriptions
can be read. -/
theorem C92_completes_partial {w : InfoWorld} {vm : InfoVM} (vb : Verbosity) (hw : 0 < w.width)
    (h1 : findAllChildren vm.envelope (netSecTag vm.env.ver) (netSecAttrib vm.env.ver) = [] ∨
      ∃ s n r, findAllChildren vm.envelope (netSecTag vm.env.ver) (netSecAttrib vm.env.ver) = [s] ∧
        s.children.filter (fun e => e.tag == networkTag vm.env.ver) = n :: r ∧
        ∀ e ∈ n :: r, ∃ x, e.get (networkName vm.env.ver) = some x)
    (h2 : ∀ k it, dget? vm.pkg.hw k = some it → OfType it "10".toList →
      (∃ o, it.getValue vm.env (elementName vm.env.ver) none = .ok o) ∧
      (∃ o, it.getValue vm.env itemDescription none = .ok o)) :
    (∃ ls, infoNetworks w vm vb = .ok ls) ∧ (∃ ls, infoNics w vm vb = .ok ls) := by
  constructor
  · unfold infoNetworks
    simp only
    rcases h1 with h1 | ⟨s, n, r, h1, h3, h4⟩
    · rw [findChild_none.2 h1]
      exact ⟨_, rfl⟩
    · rw [findChild_some.2 h1]
      simp only
      have hfa : findAllChildren s (networkTag vm.env.ver) [] = n :: r := by
        rw [← h3]
        unfold findAllChildren attribMatch
        simp
      rw [hfa]
      obtain ⟨names, hn⟩ := allNames_total (l := (n :: r).map (fun n => n.get (networkName vm.env.ver))) (by
        intro o ho
        obtain ⟨e, he, rfl⟩ := List.mem_map.1 ho
        exact h4 e he)
      rw [hn]
      simp only
      have hne : names ≠ [] := by
        intro e
        have := allNames_spec hn
        rw [e] at this
        cases this
      rw [if_neg hne]
      generalize hL : names.zip ((n :: r).map (fun n => findText n (networkDesc vm.env.ver))) = L
      generalize (decide ((maxLen names + maxLen (((n :: r).map (fun n => findText n (networkDesc vm.env.ver))).map noneStr) + 6 : Int) ≥
        w.width) && decide (vb ≠ .verbose)) = tr
      obtain ⟨ls, hl⟩ := networksLoop_total hw (tr := tr) (maxN := maxLen names) (maxD := if tr = true then w.width - 6 - maxLen names
        else maxLen (((n :: r).map (fun n => findText n (networkDesc vm.env.ver))).map noneStr)) L
      rw [hl]
      exact ⟨_, rfl⟩
  · unfold infoNics
    split
    · exact ⟨_, rfl⟩
    · obtain ⟨ids, hids⟩ := findAllItems_ok (env := vm.env) (hw := vm.pkg.hw) (rt := "ethernet".toList) (code := "10".toList) rfl
      rw [hids]
      simp only
      split
      · exact ⟨_, rfl⟩
      · have hm : ∀ k ∈ ids, ∃ it, dget? vm.pkg.hw k = some it ∧ OfType it "10".toList := by
          intro k hk
          obtain ⟨it, h1, h2, -⟩ := (findAll_mem (by simp) hids k).1 hk
          rcases h2 with h2 | ⟨code, e1, e2⟩
          · cases h2
          · have : code = "10".toList := Except.ok.inj (e1.symm.trans (by rfl))
            subst this
            exact ⟨it, h1, e2⟩
        have hn : ∀ L : List Str, (∀ k ∈ L, ∃ it, dget? vm.pkg.hw k = some it ∧ OfType it "10".toList) →
            ∃ names, nicNames vm.env vm.pkg.hw L = .ok names := by
          intro L
          induction L with
          | nil => intro _; exact ⟨[], rfl⟩
          | cons k r ih =>
            intro h
            obtain ⟨rest, hr⟩ := ih (fun x hx => h x (by simp [hx]))
            obtain ⟨it, e1, e2⟩ := h k (by simp)
            obtain ⟨⟨o, ho⟩, -⟩ := h2 k it e1 e2
            exact ⟨_, by unfold nicNames; rw [valueAt_eq e1, ho, hr]; rfl⟩
        have hl : ∀ (m : Nat) (L : List Str), (∀ k ∈ L, ∃ it, dget? vm.pkg.hw k = some it ∧ OfType it "10".toList) →
            ∃ ls, nicsLoop w vm.env vm.pkg.hw vb m L = .ok ls := by
          intro m L
          induction L with
          | nil => intro _; exact ⟨[], rfl⟩
          | cons k r ih =>
            intro h
            obtain ⟨rest, hr⟩ := ih (fun x hx => h x (by simp [hx]))
            obtain ⟨it, e1, e2⟩ := h k (by simp)
            obtain ⟨⟨o, ho⟩, d, hd⟩ := h2 k it e1 e2
            obtain ⟨c, hc⟩ := getValue_plain_total (it := it) (plain_connection vm.env)
            obtain ⟨i, hi⟩ := getValue_plain_total (it := it) (plain_iid vm.env)
            have hcap : ∃ x, it.getValue vm.env caption none = .ok x := by
              by_cases he : caption = elementName vm.env.ver
              · rw [he]; exact ⟨o, ho⟩
              · exact getValue_plain_total ⟨he, by decide⟩
            obtain ⟨x, hx⟩ := hcap
            have hname : ∃ n, nicName vm.env vm.pkg.hw k = .ok n := by
              unfold nicName
              rw [valueAt_eq e1, valueAt_eq e1, ho, hi]
              cases o <;> exact ⟨_, rfl⟩
            obtain ⟨n, hn⟩ := hname
            have hdesc : ∃ ds, nicDesc w vm.env vm.pkg.hw vb k = .ok ds := by
              unfold nicDesc nicText
              rw [valueAt_eq e1, valueAt_eq e1, hd, hx]
              split
              · cases d with
                | some y => exact textWrap_total hw _ _ _
                | none => cases x with
                  | some y => exact textWrap_total hw _ _ _
                  | none => exact ⟨_, rfl⟩
              · exact ⟨_, rfl⟩
            obtain ⟨ds, hds⟩ := hdesc
            exact ⟨_, by unfold nicsLoop; rw [valueAt_eq e1, hc, hn, hds, hr]; rfl⟩
        obtain ⟨names, hn⟩ := hn ids hm
        rw [hn]
        obtain ⟨ls, hl⟩ := hl (max (maxLen names) 13) ids hm
        simp only [hl]
        exact ⟨_, rfl⟩

/-! ### Examples and failures -/

example : infoWords (infoNetworks exInfoWorld exSecVM .normal) = (none,
    [["Networks:".toList], splitWs "VM Network \"The VM network\"".toList, ["other".toList]]) := by decide +kernel

/-- on a narrow terminal -/
example : infoWords (infoNetworks { exInfoWorld with width := 28 } exSecVM .normal) = (none,
    [["Networks:".toList], splitWs "VM Network \"The VM ne...\"".toList, ["other".toList]]) := by decide +kernel

example : infoWords (infoNics exInfoWorld exSecVM .verbose) = (none,
    [splitWs "NICs and Associated Networks:".toList, splitWs "<instance 11> : None".toList, splitWs "<instance 12> : None".toList,
     splitWs "eth 0 : VM Network".toList, splitWs "the first one".toList]) := by decide +kernel

/-- The hypotheses of `C92_nics` and `C92_completes_partial` are met. -/
example (vb : Verbosity) : HwWF exSecVM.env exSecVM.pkg.hw ∧ (∃ ls, infoNetworks exInfoWorld exSecVM vb = .ok ls) ∧
    (∃ ls, infoNics exInfoWorld exSecVM vb = .ok ls) := by
  refine ⟨exSecHw_wf, C92_completes_partial vb (by decide) (Or.inr ⟨_, _, _, rfl, rfl, ?_⟩) ?_⟩
  · intro e he
    rcases he with _ | ⟨_, _ | ⟨_, h⟩⟩
    · exact ⟨_, rfl⟩
    · exact ⟨_, rfl⟩
    · cases h
  · have : ∀ kv ∈ exSecHw, (kv.2.getValue exEnv (elementName .v1) none).isOk ∧ (kv.2.getValue exEnv itemDescription none).isOk := by
      decide +kernel
    intro k it h _
    obtain ⟨h1, h2⟩ := this (k, it) (dget?_mem h)
    have ok : ∀ r : Except Err (Option Val), r.isOk = true → ∃ o, r = .ok o := by
      intro r hr
      cases r with
      | ok o => exact ⟨o, rfl⟩
      | error e => cases hr
    exact ⟨ok _ h1, ok _ h2⟩

def exInfoNetSec (nets : List Elem) : Elem := .mk "env".toList [] none none [.mk (netSecTag .v1) [] none none nets]

/-- **C92 fails** for a network section without networks: a ValueError instead of the package's description. -/
theorem C92_no_networks_fails : infoNetworks exInfoWorld { exSecVM with envelope := exInfoNetSec [] } .normal = .error .valueError :=
  infoWords_error (by decide +kernel)

/-- **C92 fails** for a network without name: a TypeError. -/
theorem C92_no_name_fails : infoNetworks exInfoWorld { exSecVM with envelope := exInfoNetSec [.mk (networkTag .v1) [] none none []] }
    .normal = .error .typeError := infoWords_error (by decide +kernel)

/-- a NIC that is connected to one network in profile x and to another in profile y -/
def exTwoNets : Item :=
  { props := [("InstanceID".toList, [(.str "1".toList, {pX, pY})]), ("ResourceType".toList, [(.str "10".toList, {pX, pY})]),
      ("ElementName".toList, [(.str "eth0".toList, {pX, pY})]),
      ("Connection".toList, [(.str "A".toList, {pX}), (.str "B".toList, {pY})])], ns := rasd, modified := false }

/-- **C92 fails** for a NIC that is connected to different networks in different profiles: the text is "None". -/
theorem C92_profile_networks_fails : ∃ lines, infoNics exInfoWorld { exSecVM with
    pkg := { exSecVM.pkg with hw := [("1".toList, exTwoNets)] } } .normal = .ok lines ∧
    lines.map splitWs = [splitWs "NICs and Associated Networks:".toList, splitWs "eth0 : None".toList] ∧
    Reads (exTwoNets.tab connection) pX (.str "A".toList) :=
  let ⟨ls, h1, h2⟩ := infoWords_ok (r := infoNics exInfoWorld { exSecVM with
    pkg := { exSecVM.pkg with hw := [("1".toList, exTwoNets)] } } .normal)
    (ws := [splitWs "NICs and Associated Networks:".toList, splitWs "eth0 : None".toList]) (by decide +kernel)
  ⟨ls, h1, h2, Or.inl ⟨{pX}, by decide +kernel, by decide⟩⟩

end Cot
