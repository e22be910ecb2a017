import Verif.Spec.ValidateHw
import Verif.Lemmas.EditRun
import Verif.Lemmas.Package
import Verif.Props.Platform
import Verif.Props.PrettyBytes
/-
C88: the check of the hardware of every profile against the limits of the platform.
-/
namespace Cot

/-! ### What a profile has -/

theorem itemUnder_spec {env : Env} {hw : Hw} {rt code : Str} {p : Prof} {r : Option Item}
    (hc : resourceCode rt = .ok code) (hne : rt ≠ []) (h : itemUnder env hw rt p = .ok r) :
    match r with
    | none => ∀ it, ¬ DeviceUnder env hw code p it
    | some it => DeviceUnder env hw code p it ∧ ∀ it', DeviceUnder env hw code p it' → it' = it := by
  unfold itemUnder findItem at h
  cases hf : findAllItems env hw (some rt) [] [p] with
  | error e => rw [hf] at h; cases h
  | ok ids =>
    have hm := findAll_mem (by simp) hf
    have hm' : ∀ id, id ∈ ids ↔ ∃ it, dget? hw id = some it ∧ OfType it code ∧ it.hasProfile env p = true := by
      intro id
      rw [hm id]
      constructor
      · rintro ⟨it, h1, h2, h3, -⟩
        rcases h2 with h2 | ⟨c, hc', h2⟩
        · exact absurd h2 hne
        · rw [hc] at hc'; cases hc'
          exact ⟨it, h1, h2, h3 p (by simp)⟩
      · rintro ⟨it, h1, h2, h3⟩
        exact ⟨it, h1, Or.inr ⟨code, hc, h2⟩, by simpa using h3, by simp⟩
    rw [hf] at h
    match ids, hm', h with
    | [], hm', h =>
      cases h
      rintro it ⟨⟨id, h1⟩, h2, h3⟩
      have := (hm' id).2 ⟨it, h1, h2, h3⟩
      simp at this
    | [k], hm', h =>
      simp only at h
      obtain ⟨it, h1, h2, h3⟩ := (hm' k).1 (by simp)
      rw [h1] at h
      cases h
      refine ⟨⟨⟨k, h1⟩, h2, h3⟩, ?_⟩
      rintro it' ⟨⟨id, g1⟩, g2, g3⟩
      have := (hm' id).2 ⟨it', g1, g2, g3⟩
      simp only [List.mem_singleton] at this
      subst this
      rw [h1] at g1
      exact (Option.some.inj g1).symm

theorem reads_of_getValue {env : Env} {it : Item} {n : Str} {p : Prof} (hp : Plain env n) (wf : ItemWF env it)
    {r : Option Val} (h : it.getValue env n (some {p}) = .ok r) :
    (∀ v, r = some v ↔ Reads (it.tab n) p v) := by
  rw [getValue_plain hp] at h
  cases h
  intro v
  show getScan {p} (it.tab n) none = some v ↔ _
  rw [getScan_spec (wf.tab n) (by simp)]
  simp

theorem foldl_union_mem {α : Type} [DecidableEq α] (x : α) : ∀ (ls : List (List α)) (acc : List α),
    x ∈ ls.foldl (fun res l => res ++ l.filter (fun x => x ∉ res)) acc ↔ x ∈ acc ∨ ∃ l ∈ ls, x ∈ l := by
  intro ls
  induction ls with
  | nil => intro acc; simp
  | cons l ls ih =>
    intro acc
    rw [List.foldl_cons, ih]
    simp only [List.mem_append, List.mem_filter, decide_not, Bool.not_eq_eq_eq_not, Bool.not_true,
      decide_eq_false_iff_not, List.mem_cons]
    constructor
    · rintro ((h | ⟨h, -⟩) | ⟨l', h1, h2⟩)
      · exact Or.inl h
      · exact Or.inr ⟨l, Or.inl rfl, h⟩
      · exact Or.inr ⟨l', Or.inr h1, h2⟩
    · rintro (h | ⟨l', rfl | h1, h2⟩)
      · exact Or.inl (Or.inl h)
      · by_cases hx : x ∈ acc
        · exact Or.inl (Or.inl hx)
        · exact Or.inl (Or.inr ⟨h2, hx⟩)
      · exact Or.inr ⟨l', h1, h2⟩

theorem mem_listUnion {α : Type} [DecidableEq α] (x : α) (ls : List (List α)) :
    x ∈ listUnion ls ↔ ∃ l ∈ ls, x ∈ l := by
  unfold listUnion
  rw [foldl_union_mem]
  simp

theorem mem_subtypes {env : Env} {it : Item} (wf : ItemWF env it) (t : Str) :
    t ∈ it.getAllSubtypes ↔ ∃ l S, (Val.tup l, S) ∈ it.tab resourceSubType ∧ t ∈ l := by
  unfold Item.getAllSubtypes
  rw [mem_listUnion]
  constructor
  · rintro ⟨l, hl, ht⟩
    obtain ⟨v, hv, rfl⟩ := List.mem_map.1 hl
    obtain ⟨⟨v', S⟩, hm, rfl⟩ := List.mem_map.1 hv
    have := (wf.typed resourceSubType v' S hm).2 rfl
    cases v' with
    | str s => simp [Val.isTup] at this
    | tup l => exact ⟨l, S, hm, ht⟩
  · rintro ⟨l, S, hm, ht⟩
    exact ⟨l, List.mem_map.2 ⟨.tup l, List.mem_map.2 ⟨_, hm, rfl⟩, rfl⟩, ht⟩

theorem subtypesOf_spec {env : Env} {hw : Hw} {rt code : Str} (wf : HwWF env hw) (hc : resourceCode rt = .ok code)
    {l : List Str} (h : subtypesOf env hw rt = .ok l) (t : Str) :
    t ∈ l ↔ ∃ id it ts S, dget? hw id = some it ∧ OfType it code ∧ (Val.tup ts, S) ∈ it.tab resourceSubType ∧ t ∈ ts := by
  unfold subtypesOf at h
  cases hf : findAllItems env hw (some rt) [] [] with
  | error e => rw [hf] at h; cases h
  | ok ids =>
    rw [hf] at h
    cases h
    obtain ⟨-, -, hm⟩ := typeIds_mem wf hc hf
    rw [mem_listUnion]
    constructor
    · rintro ⟨l, hl, ht⟩
      obtain ⟨id, hid, rfl⟩ := List.mem_map.1 hl
      obtain ⟨it, h1, h2⟩ := (hm id).1 hid
      rw [h1] at ht
      obtain ⟨ts, S, h3, h4⟩ := (mem_subtypes (wf.items id it (dget?_mem h1)) t).1 ht
      exact ⟨id, it, ts, S, h1, h2, h3, h4⟩
    · rintro ⟨id, it, ts, S, h1, h2, h3, h4⟩
      refine ⟨it.getAllSubtypes, List.mem_map.2 ⟨id, (hm id).2 ⟨it, h1, h2⟩, by rw [h1]⟩, ?_⟩
      exact (mem_subtypes (wf.items id it (dget?_mem h1)) t).2 ⟨ts, S, h3, h4⟩

theorem subtypesOf_total (env : Env) (hw : Hw) : ∃ l, subtypesOf env hw "ethernet".toList = .ok l := by
  obtain ⟨ids, hids⟩ := findAllItems_ok (env := env) (hw := hw) (rt := "ethernet".toList) (code := "10".toList) (by rfl)
  unfold subtypesOf
  rw [hids]
  exact ⟨_, rfl⟩

theorem itemCount_spec {env : Env} {hw : Hw} {rt code : Str} (wf : HwWF env hw) (hc : resourceCode rt = .ok code)
    {p : Prof} {n : Nat} (h : itemCount env hw rt p = .ok n) : n = countOf env hw code p := by
  unfold itemCount at h
  cases hd : itemCounts env hw rt [p] with
  | error e => rw [hd] at h; cases h
  | ok d =>
    rw [hd] at h
    cases h
    exact itemCounts_countOf wf hc (by simp [allProfilesIfEmpty]) hd (by simp [allProfilesIfEmpty])

/-! ### The run as a list of checks -/

theorem validateHw_error {plat : Plat} {k : HwKind} {seen : ValCache} {v : Int} {e : Err}
    (h : (validateHw plat k seen v).1 = .error e) : e = .valueUnsupported ∨ e = .valueTooLow ∨ e = .valueTooHigh := by
  have hb : ∀ e, (validateBase plat k seen v).1 = .error e → e = .valueTooLow ∨ e = .valueTooHigh := by
    intro e he
    unfold validateBase at he
    split at he
    · cases he
    · simp only at he
      split at he
      · cases he; exact Or.inl rfl
      · split at he
        · cases he; exact Or.inr rfl
        · cases he
  unfold validateHw at h
  simp only at h
  split at h
  · split at h
    · exact Or.inr (hb e h)
    · cases h; exact Or.inl rfl
  · exact Or.inr (hb e h)

theorem validateNicTypes_error {plat : Plat} {e : Err} : ∀ {l : List Str}, validateNicTypes plat l = .error e →
    e = .valueUnsupported := by
  intro l
  induction l with
  | nil => intro h; cases h
  | cons t r ih =>
    intro h
    unfold validateNicTypes validateNicType at h
    split at h
    · rename_i he
      split at he
      · cases he
      · cases he; cases h; rfl
    · exact ih h

/-- one check -/
def runCheck (plat : Plat) (types : List Str) (s : VhSt) : HwWarning → VhSt
  | .value p k v => match (validateHw plat k s.seen v).1 with
    | .ok _ => { s with seen := (validateHw plat k s.seen v).2 }
    | .error _ => ⟨(validateHw plat k s.seen v).2, false, s.warnings ++ [.value p k v]⟩
  | .nicTypes p => match validateNicTypes plat types with
    | .ok _ => s
    | .error _ => ⟨s.seen, false, s.warnings ++ [.nicTypes p]⟩

theorem vhCheck_eq (plat : Plat) (types : List Str) (p : Prof) (k : HwKind) (v : Int) (s : VhSt) :
    vhCheck plat p k v s = .ok (runCheck plat types s (.value p k v)) := by
  unfold vhCheck vhNote runCheck
  cases h : (validateHw plat k s.seen v).1 with
  | ok u => simp only [h]
  | error e => simp only [h, if_pos (validateHw_error h)]

theorem vhNic_eq (plat : Plat) (types : List Str) (p : Prof) (s : VhSt) :
    vhNote (.nicTypes p) (validateNicTypes plat types) s = .ok (runCheck plat types s (.nicTypes p)) := by
  unfold vhNote runCheck
  cases h : validateNicTypes plat types with
  | ok u => simp only
  | error e => simp only [if_pos (Or.inl (validateNicTypes_error h))]

/-- the checks that are made for a profile -/
def CheckOf (env : Env) (py : PyVer) (hw : Hw) (p : Prof) (c : HwWarning) : Prop :=
  (∃ v, c = .value p .cpus v ∧ HasCpus env hw p v) ∨
  (∃ z, c = .value p .memory (megabytesOf py z) ∧ HasMemory env hw p z) ∨
  c = .value p .nicCount (countOf env hw "10".toList p) ∨ c = .nicTypes p

theorem plain_vq (env : Env) : Plain env virtualQuantity := by
  constructor
  · cases env.ver <;> decide
  · decide

theorem plain_au (env : Env) : Plain env allocationUnits := by
  constructor
  · cases env.ver <;> decide
  · decide

theorem vhCpus_inv {env : Env} {plat : Plat} {hw : Hw} {p : Prof} {s s' : VhSt} (wf : HwWF env hw) (types : List Str)
    (h : vhCpus env plat hw p s = .ok s') :
    ∃ cs : List HwWarning, s' = cs.foldl (runCheck plat types) s ∧ ∀ c, c ∈ cs ↔ ∃ v, c = .value p .cpus v ∧ HasCpus env hw p v := by
  unfold vhCpus at h
  obtain ⟨r, hr, h⟩ := bind_ok_inv h
  have hs := itemUnder_spec (code := "3".toList) (by rfl) (by decide) hr
  cases r with
  | none =>
    cases h
    refine ⟨[], rfl, ?_⟩
    intro c
    simp only [List.not_mem_nil, false_iff]
    rintro ⟨v, -, it, t, hd, -⟩
    exact hs it hd
  | some it =>
    simp only at h
    obtain ⟨⟨⟨id, hid⟩, ht, hp⟩, huniq⟩ := hs
    obtain ⟨q, hq, h⟩ := bind_ok_inv h
    obtain ⟨v, hv, h⟩ := bind_ok_inv h
    rw [vhCheck_eq plat types] at h
    cases h
    have hread := reads_of_getValue (plain_vq env) (wf.items id it (dget?_mem hid)) hq
    refine ⟨[.value p .cpus v], rfl, ?_⟩
    intro c
    rw [List.mem_singleton]
    have hv' : ∃ t, q = some (.str t) ∧ pyInt t = some v := by
      unfold pyIntVal intOrErr at hv
      split at hv
      · rename_i t
        split at hv
        · rename_i z hz
          cases hv
          exact ⟨t, rfl, hz⟩
        · cases hv
      · cases hv
    obtain ⟨t, rfl, htv⟩ := hv'
    constructor
    · rintro rfl
      exact ⟨v, rfl, it, t, ⟨⟨id, hid⟩, ht, hp⟩, (hread _).1 rfl, htv⟩
    · rintro ⟨w, rfl, it', t', hd, hr', hw'⟩
      have := huniq it' hd
      subst this
      have := (hread _).2 hr'
      cases this
      rw [htv] at hw'
      cases hw'
      rfl

theorem memBytes_spec {env : Env} {it : Item} {p : Prof} {z : Int} (wf : ItemWF env it) (h : memBytes env it p = .ok z) :
    ∃ s, Reads (it.tab virtualQuantity) p (.str s) ∧
      ((∃ u, Reads (it.tab allocationUnits) p (.str u) ∧ programmaticBytesToInt s u = .ok z) ∨
       ((∀ u, ¬ Reads (it.tab allocationUnits) p u) ∧ pyInt s = some z)) := by
  unfold memBytes at h
  obtain ⟨q, hq, h⟩ := bind_ok_inv h
  obtain ⟨u, hu, h⟩ := bind_ok_inv h
  have rq := reads_of_getValue (plain_vq env) wf hq
  have ru := reads_of_getValue (plain_au env) wf hu
  simp only at h
  cases q with
  | none => simp only at h; split at h <;> cases h
  | some q =>
    cases q with
    | tup l => simp only at h; split at h <;> cases h
    | str s =>
      refine ⟨s, (rq _).1 rfl, ?_⟩
      simp only at h
      cases u with
      | none =>
        right
        refine ⟨?_, ?_⟩
        · intro u' hu'
          have := (ru u').2 hu'
          cases this
        · unfold programmaticBytesToInt intOrErr at h
          rw [if_pos rfl] at h
          split at h
          · rename_i z' hz; cases h; exact hz
          · cases h
      | some u =>
        cases u with
        | str u => exact Or.inl ⟨u, (ru _).1 rfl, h⟩
        | tup l =>
          exfalso
          have hr := (ru (.tup l)).1 rfl
          have hne : allocationUnits ≠ resourceSubType := by decide
          rcases hr with ⟨S, hm, _⟩ | ⟨_, S, hm, _⟩ <;> exact hne ((wf.typed _ _ _ hm).1 rfl)

theorem hasMemory_unique {env : Env} {it : Item} {p : Prof} (wf : ItemWF env it) {z z' : Int} {s s' : Str}
    (h1 : Reads (it.tab virtualQuantity) p (.str s)) (h2 : Reads (it.tab virtualQuantity) p (.str s'))
    (k1 : (∃ u, Reads (it.tab allocationUnits) p (.str u) ∧ programmaticBytesToInt s u = .ok z) ∨
       ((∀ u, ¬ Reads (it.tab allocationUnits) p u) ∧ pyInt s = some z))
    (k2 : (∃ u, Reads (it.tab allocationUnits) p (.str u) ∧ programmaticBytesToInt s' u = .ok z') ∨
       ((∀ u, ¬ Reads (it.tab allocationUnits) p u) ∧ pyInt s' = some z')) : z = z' := by
  have := (wf.tab virtualQuantity).reads_functional h1 h2
  cases this
  rcases k1 with ⟨u, ku, kz⟩ | ⟨kn, kz⟩
  · rcases k2 with ⟨u', ku', kz'⟩ | ⟨kn', _⟩
    · have := (wf.tab allocationUnits).reads_functional ku ku'
      cases this
      rw [kz] at kz'
      exact Except.ok.inj kz'
    · exact absurd ku (kn' _)
  · rcases k2 with ⟨u', ku', _⟩ | ⟨_, kz'⟩
    · exact absurd ku' (kn _)
    · rw [kz] at kz'; exact Option.some.inj kz'

theorem vhMemory_inv {env : Env} {py : PyVer} {plat : Plat} {hw : Hw} {p : Prof} {s s' : VhSt} (wf : HwWF env hw)
    (types : List Str) (h : vhMemory env py plat hw p s = .ok s') :
    ∃ cs : List HwWarning, s' = cs.foldl (runCheck plat types) s ∧
      ∀ c, c ∈ cs ↔ ∃ z, c = .value p .memory (megabytesOf py z) ∧ HasMemory env hw p z := by
  unfold vhMemory at h
  obtain ⟨r, hr, h⟩ := bind_ok_inv h
  have hs := itemUnder_spec (code := "4".toList) (by rfl) (by decide) hr
  cases r with
  | none =>
    cases h
    refine ⟨[], rfl, ?_⟩
    intro c
    simp only [List.not_mem_nil, false_iff]
    rintro ⟨v, -, it, t, hd, -⟩
    exact hs it hd
  | some it =>
    simp only at h
    obtain ⟨⟨⟨id, hid⟩, ht, hp⟩, huniq⟩ := hs
    obtain ⟨z, hz, h⟩ := bind_ok_inv h
    rw [vhCheck_eq plat types] at h
    cases h
    have wfi := wf.items id it (dget?_mem hid)
    obtain ⟨t, h1, h2⟩ := memBytes_spec wfi hz
    refine ⟨[.value p .memory (megabytesOf py z)], rfl, ?_⟩
    intro c
    rw [List.mem_singleton]
    constructor
    · rintro rfl
      exact ⟨z, rfl, it, t, ⟨⟨id, hid⟩, ht, hp⟩, h1, h2⟩
    · rintro ⟨w, rfl, it', t', hd, hr', hw'⟩
      have := huniq it' hd
      subst this
      rw [hasMemory_unique wfi h1 hr' h2 hw']

theorem vhProfile_inv {env : Env} {py : PyVer} {plat : Plat} {hw : Hw} {p : Prof} {s s' : VhSt} (wf : HwWF env hw)
    {types : List Str} (hty : subtypesOf env hw "ethernet".toList = .ok types)
    (h : vhProfile env py plat hw p s = .ok s') :
    ∃ cs : List HwWarning, s' = cs.foldl (runCheck plat types) s ∧ ∀ c, c ∈ cs ↔ CheckOf env py hw p c := by
  unfold vhProfile at h
  obtain ⟨s1, h1, h⟩ := bind_ok_inv h
  obtain ⟨s2, h2, h⟩ := bind_ok_inv h
  obtain ⟨n, h3, h⟩ := bind_ok_inv h
  obtain ⟨s3, h4, h⟩ := bind_ok_inv h
  obtain ⟨ty, h5, h⟩ := bind_ok_inv h
  rw [hty] at h5
  cases h5
  rw [vhCheck_eq plat types] at h4
  rw [vhNic_eq] at h
  cases h4
  cases h
  obtain ⟨c1, rfl, m1⟩ := vhCpus_inv wf types h1
  obtain ⟨c2, rfl, m2⟩ := vhMemory_inv wf types h2
  have hn := itemCount_spec (code := "10".toList) wf (by rfl) h3
  refine ⟨c1 ++ c2 ++ [.value p .nicCount n, .nicTypes p], by simp only [List.foldl_append, List.foldl_cons, List.foldl_nil], ?_⟩
  intro c
  simp only [List.mem_append, m1, m2, List.mem_cons, List.not_mem_nil, or_false]
  rw [hn]
  exact or_assoc

theorem vhLoop_inv {env : Env} {py : PyVer} {plat : Plat} {hw : Hw} (wf : HwWF env hw) {types : List Str}
    (hty : subtypesOf env hw "ethernet".toList = .ok types) : ∀ {L : List Prof} {s s' : VhSt},
    vhLoop env py plat hw L s = .ok s' →
    ∃ cs : List HwWarning, s' = cs.foldl (runCheck plat types) s ∧ ∀ c, c ∈ cs ↔ ∃ p ∈ L, CheckOf env py hw p c := by
  intro L
  induction L with
  | nil => intro s s' h; cases h; exact ⟨[], rfl, by simp⟩
  | cons p r ih =>
    intro s s' h
    unfold vhLoop at h
    cases hp : vhProfile env py plat hw p s with
    | error e => rw [hp] at h; cases h
    | ok s1 =>
      rw [hp] at h
      obtain ⟨c1, rfl, m1⟩ := vhProfile_inv wf hty hp
      obtain ⟨c2, rfl, m2⟩ := ih h
      refine ⟨c1 ++ c2, by rw [List.foldl_append], ?_⟩
      intro c
      simp only [List.mem_append, m1, m2, List.mem_cons, exists_eq_or_imp]

/-! ### What the checks find -/

/-- passes the check, after these earlier calls -/
def Passes (plat : Plat) (types : List Str) (calls : List (HwKind × Int)) : HwWarning → Prop
  | .value _ k v => Supported plat k v ∨ ((k, v) ∈ calls ∧ ¬ ListsCpus plat k)
  | .nicTypes _ => ∀ t ∈ types, NicSupported plat t

/-- two warnings about the same thing: the same number of the same kind, whatever the profile -/
def SameFinding : HwWarning → HwWarning → Prop
  | .value _ k v, .value _ k' v' => k = k' ∧ v = v'
  | .nicTypes p, .nicTypes p' => p = p'
  | _, _ => False

theorem passes_iff (plat : Plat) (calls : List (HwKind × Int)) (k : HwKind) (v : Int) :
    (validateHw plat k (afterCalls plat calls) v).1 = .ok () ↔
      Supported plat k v ∨ ((k, v) ∈ calls ∧ ¬ ListsCpus plat k) := by
  obtain ⟨h1, h2⟩ := C37_history plat calls k v
  by_cases hs : Supported plat k v
  · exact ⟨fun _ => Or.inl hs, fun _ => h1 hs⟩
  · rw [h2 hs]
    constructor
    · exact Or.inr
    · rintro (h | h)
      · exact absurd h hs
      · exact h

theorem runChecks_spec (plat : Plat) (types : List Str) : ∀ (cs : List HwWarning) (calls : List (HwKind × Int)) (s : VhSt),
    s.seen = afterCalls plat calls →
    ((cs.foldl (runCheck plat types) s).ok = true ↔ s.ok = true ∧ ∀ c ∈ cs, Passes plat types calls c) ∧
    (∀ w ∈ s.warnings, w ∈ (cs.foldl (runCheck plat types) s).warnings) ∧
    (∀ w ∈ (cs.foldl (runCheck plat types) s).warnings, w ∈ s.warnings ∨ (w ∈ cs ∧ ¬ Passes plat types calls w)) ∧
    (∀ c ∈ cs, ¬ Passes plat types calls c → ∃ w ∈ (cs.foldl (runCheck plat types) s).warnings, SameFinding c w) := by
  intro cs
  induction cs with
  | nil => intro calls s _; simp
  | cons c r ih =>
    intro calls s hs
    rw [List.foldl_cons]
    cases c with
    | nicTypes p =>
      have hn := (C37_nic_types plat types).1
      by_cases hp : ∀ t ∈ types, NicSupported plat t
      · have hrun : runCheck plat types s (.nicTypes p) = s := by
          unfold runCheck; rw [hn.2 hp]
        rw [hrun]
        obtain ⟨i1, i2, i3, i4⟩ := ih calls s hs
        refine ⟨?_, i2, ?_, ?_⟩
        · rw [i1]; simp only [List.mem_cons, forall_eq_or_imp]
          exact ⟨fun h => ⟨h.1, hp, h.2⟩, fun h => ⟨h.1, h.2.2⟩⟩
        · intro w hw
          rcases i3 w hw with h | h
          · exact Or.inl h
          · exact Or.inr ⟨List.mem_cons_of_mem _ h.1, h.2⟩
        · intro c hc hnp
          rcases List.mem_cons.1 hc with rfl | hc
          · exact absurd hp hnp
          · exact i4 c hc hnp
      · have hrun : runCheck plat types s (.nicTypes p) = ⟨s.seen, false, s.warnings ++ [.nicTypes p]⟩ := by
          unfold runCheck
          cases hv : validateNicTypes plat types with
          | ok u => exact absurd (hn.1 hv) hp
          | error e => rfl
        rw [hrun]
        obtain ⟨i1, i2, i3, i4⟩ := ih calls ⟨s.seen, false, s.warnings ++ [.nicTypes p]⟩ hs
        refine ⟨?_, ?_, ?_, ?_⟩
        · rw [i1]
          constructor
          · intro h; exact absurd h.1 (by simp)
          · intro h; exact absurd (h.2 (.nicTypes p) (by simp)) hp
        · intro w hw; exact i2 w (List.mem_append_left _ hw)
        · intro w hw
          rcases i3 w hw with h | h
          · rcases List.mem_append.1 h with h | h
            · exact Or.inl h
            · rw [List.mem_singleton] at h
              subst h
              exact Or.inr ⟨by simp, hp⟩
          · exact Or.inr ⟨List.mem_cons_of_mem _ h.1, h.2⟩
        · intro c hc hnp
          rcases List.mem_cons.1 hc with rfl | hc
          · exact ⟨.nicTypes p, i2 _ (by simp), rfl⟩
          · exact i4 c hc hnp
    | value p k v =>
      have hv := passes_iff plat calls k v
      have hseen : (validateHw plat k s.seen v).2 = afterCalls plat ((k, v) :: calls) := by rw [hs]; rfl
      rw [← hs] at hv
      by_cases hp : Supported plat k v ∨ ((k, v) ∈ calls ∧ ¬ ListsCpus plat k)
      · have hrun : runCheck plat types s (.value p k v) = { s with seen := (validateHw plat k s.seen v).2 } := by
          unfold runCheck; simp only [hv.2 hp]
        rw [hrun]
        have hpass : ∀ c, Passes plat types ((k, v) :: calls) c ↔ Passes plat types calls c := by
          intro c
          cases c with
          | nicTypes q => exact Iff.rfl
          | value q j w =>
            show (_ ∨ _) ↔ (_ ∨ _)
            rw [List.mem_cons, Prod.mk.injEq]
            constructor
            · rintro (h | ⟨⟨rfl, rfl⟩ | h, hl⟩)
              · exact Or.inl h
              · rcases hp with hp | hp
                · exact Or.inl hp
                · exact Or.inr ⟨hp.1, hl⟩
              · exact Or.inr ⟨h, hl⟩
            · rintro (h | ⟨h, hl⟩)
              · exact Or.inl h
              · exact Or.inr ⟨Or.inr h, hl⟩
        obtain ⟨i1, i2, i3, i4⟩ := ih ((k, v) :: calls) { s with seen := (validateHw plat k s.seen v).2 } hseen
        simp only [hpass] at i1 i3 i4
        refine ⟨?_, i2, ?_, ?_⟩
        · rw [i1]; simp only [List.mem_cons, forall_eq_or_imp]
          exact ⟨fun h => ⟨h.1, hp, h.2⟩, fun h => ⟨h.1, h.2.2⟩⟩
        · intro w hw
          rcases i3 w hw with h | h
          · exact Or.inl h
          · exact Or.inr ⟨List.mem_cons_of_mem _ h.1, h.2⟩
        · intro c hc hnp
          rcases List.mem_cons.1 hc with rfl | hc
          · exact absurd hp hnp
          · exact i4 c hc hnp
      · have hrun : runCheck plat types s (.value p k v) =
            ⟨(validateHw plat k s.seen v).2, false, s.warnings ++ [.value p k v]⟩ := by
          unfold runCheck
          cases he : (validateHw plat k s.seen v).1 with
          | ok u => exact absurd (hv.1 he) hp
          | error e => simp only [he]
        rw [hrun]
        have hpass : ∀ c, Passes plat types calls c → Passes plat types ((k, v) :: calls) c := by
          intro c
          cases c with
          | nicTypes q => exact id
          | value q j w =>
            rintro (h | ⟨h, hl⟩)
            · exact Or.inl h
            · exact Or.inr ⟨List.mem_cons_of_mem _ h, hl⟩
        obtain ⟨i1, i2, i3, i4⟩ := ih ((k, v) :: calls)
          ⟨(validateHw plat k s.seen v).2, false, s.warnings ++ [.value p k v]⟩ hseen
        refine ⟨?_, ?_, ?_, ?_⟩
        · rw [i1]
          constructor
          · intro h; exact absurd h.1 (by simp)
          · intro h; exact absurd (h.2 (.value p k v) (by simp)) hp
        · intro w hw; exact i2 w (List.mem_append_left _ hw)
        · intro w hw
          rcases i3 w hw with h | h
          · rcases List.mem_append.1 h with h | h
            · exact Or.inl h
            · rw [List.mem_singleton] at h
              subst h
              exact Or.inr ⟨by simp, hp⟩
          · exact Or.inr ⟨List.mem_cons_of_mem _ h.1, fun hh => h.2 (hpass _ hh)⟩
        · intro c hc hnp
          rcases List.mem_cons.1 hc with rfl | hc
          · exact ⟨.value p k v, i2 _ (by simp), rfl, rfl⟩
          · by_cases hnp' : Passes plat types ((k, v) :: calls) c
            · cases c with
              | nicTypes q => exact absurd hnp' hnp
              | value q j w =>
                rcases hnp' with h | ⟨h, hl⟩
                · exact absurd (Or.inl h) hnp
                · rcases List.mem_cons.1 h with h | h
                  · cases h
                    exact ⟨.value p k v, i2 _ (by simp), rfl, rfl⟩
                  · exact absurd (Or.inr ⟨h, hl⟩) hnp
            · exact i4 c hc hnp'

theorem mem_profIds {env : Env} {p : Prof} : p ∈ profIds env ↔ IsProfile env p := by
  unfold profIds IsProfile
  split
  · rename_i h; simp [h]
  · rename_i h; simp [h, eq_comm]

/-- megabytes are whole MiB, rounded down; rounding in floating point makes no difference to any limit -/
theorem supported_megabytes (plat : Plat) (py : PyVer) (z : Int) :
    Supported plat .memory (megabytesOf py z) ↔ Supported plat .memory (z / 2 ^ 20) := by
  have key : ∀ a b : Int, (a = b ∨ (a ≤ 0 ∧ b ≤ 0) ∨ (32769 ≤ a ∧ 32769 ≤ b)) →
      (Supported plat .memory a ↔ Supported plat .memory b) := by
    intro a b h
    rcases h with rfl | h | h
    · exact Iff.rfl
    · cases plat <;> simp only [Supported] <;> constructor <;> intro hh <;> omega
    · cases plat <;> simp only [Supported] <;> constructor <;> intro hh <;> omega
  apply key
  unfold megabytesOf
  cases py with
  | py2 => left; norm_num
  | py3 =>
    cases z with
    | ofNat n =>
      simp only
      by_cases hs : n < 2 ^ 53
      · left
        rw [roundDouble_small hs]
        simp only [Int.ofNat_eq_natCast]
        omega
      · right; right
        have h1 : 2 ^ 53 ≤ roundDouble n := by
          have := roundDouble_mono (Nat.le_of_not_lt hs)
          rwa [roundDouble_of_fits ⟨1, 53, by norm_num, by norm_num⟩] at this
        simp only [Int.ofNat_eq_natCast]
        omega
    | negSucc n =>
      right; left
      simp only
      omega

/-- **C88 (result).** For a package just read (no value has been asked about before): when the check comes to an end, it
says that the hardware is sane exactly if, in every profile of the package, the number of CPUs, the memory, the number
of NICs and the types of the NICs are within what the platform supports. -/
theorem C88_result {env : Env} {py : PyVer} {plat : Plat} {hw : Hw} {b : Bool} {ws : List HwWarning} (wf : HwWF env hw)
    (h : validateHardware env py plat hw (afterCalls plat []) = .ok (b, ws)) :
    b = true ↔ ∀ p, IsProfile env p → Fits env plat hw p := by
  unfold validateHardware at h
  cases hl : vhLoop env py plat hw (profIds env) ⟨afterCalls plat [], true, []⟩ with
  | error e => rw [hl] at h; cases h
  | ok s =>
    rw [hl] at h
    cases h
    obtain ⟨types, hty⟩ := subtypesOf_total env hw
    obtain ⟨cs, rfl, hcs⟩ := vhLoop_inv wf hty hl
    have hsub := fun t => subtypesOf_spec (code := "10".toList) wf (by rfl) hty t
    rw [(runChecks_spec plat types cs [] _ rfl).1]
    simp only [true_and, hcs]
    constructor
    · intro hall p hp
      have hp' := mem_profIds.2 hp
      refine ⟨?_, ?_, ?_, ?_⟩
      · intro v hv
        rcases hall (.value p .cpus v) ⟨p, hp', Or.inl ⟨v, rfl, hv⟩⟩ with h | h
        · exact h
        · simp at h
      · intro z hz
        rcases hall (.value p .memory _) ⟨p, hp', Or.inr (Or.inl ⟨z, rfl, hz⟩)⟩ with h | h
        · exact (supported_megabytes plat py z).1 h
        · simp at h
      · rcases hall _ ⟨p, hp', Or.inr (Or.inr (Or.inl rfl))⟩ with h | h
        · exact h
        · simp at h
      · intro t ht
        exact hall _ ⟨p, hp', Or.inr (Or.inr (Or.inr rfl))⟩ t ((hsub t).2 ht)
    · rintro hall c ⟨p, hp, hc⟩
      obtain ⟨f1, f2, f3, f4⟩ := hall p (mem_profIds.1 hp)
      rcases hc with ⟨v, rfl, hv⟩ | ⟨z, rfl, hz⟩ | rfl | rfl
      · exact Or.inl (f1 v hv)
      · exact Or.inl ((supported_megabytes plat py z).2 (f2 z hz))
      · exact Or.inl f3
      · exact fun t ht => f4 t ((hsub t).1 ht)

/-- **C88 (warnings).** Every warning is about something the platform does not support, in a profile of the package
that has it; and everything that is not supported in some profile is warned about at least once.  (`SameFinding`:
the same number of the same kind of hardware.) -/
theorem C88_warnings_partial {env : Env} {py : PyVer} {plat : Plat} {hw : Hw} {b : Bool} {ws : List HwWarning} (wf : HwWF env hw)
    (h : validateHardware env py plat hw (afterCalls plat []) = .ok (b, ws)) :
    (∀ p k v, .value p k v ∈ ws → IsProfile env p ∧ ¬ Supported plat k v ∧
      ((k = .cpus ∧ HasCpus env hw p v) ∨ (k = .memory ∧ ∃ z, HasMemory env hw p z ∧ v = megabytesOf py z) ∨
       (k = .nicCount ∧ v = countOf env hw "10".toList p))) ∧
    (∀ p, .nicTypes p ∈ ws → IsProfile env p ∧ ∃ t, NicTypeIn hw t ∧ ¬ NicSupported plat t) ∧
    (∀ p v, IsProfile env p → HasCpus env hw p v → ¬ Supported plat .cpus v → ∃ q, .value q .cpus v ∈ ws) ∧
    (∀ p z, IsProfile env p → HasMemory env hw p z → ¬ Supported plat .memory (z / 2 ^ 20) →
      ∃ q, .value q .memory (megabytesOf py z) ∈ ws) ∧
    (∀ p, IsProfile env p → ¬ Supported plat .nicCount (countOf env hw "10".toList p) →
      ∃ q, .value q .nicCount (countOf env hw "10".toList p) ∈ ws) ∧
    (∀ p t, IsProfile env p → NicTypeIn hw t → ¬ NicSupported plat t → .nicTypes p ∈ ws) := by
  unfold validateHardware at h
  cases hl : vhLoop env py plat hw (profIds env) ⟨afterCalls plat [], true, []⟩ with
  | error e => rw [hl] at h; cases h
  | ok s =>
    rw [hl] at h
    cases h
    obtain ⟨types, hty⟩ := subtypesOf_total env hw
    obtain ⟨cs, rfl, hcs⟩ := vhLoop_inv wf hty hl
    have hsub := fun t => subtypesOf_spec (code := "10".toList) wf (by rfl) hty t
    obtain ⟨-, -, r3, r4⟩ := runChecks_spec plat types cs [] ⟨afterCalls plat [], true, []⟩ rfl
    have r3' : ∀ w ∈ (cs.foldl (runCheck plat types) ⟨afterCalls plat [], true, []⟩).warnings,
        (∃ p, IsProfile env p ∧ CheckOf env py hw p w) ∧ ¬ Passes plat types [] w := by
      intro w hw
      rcases r3 w hw with h | ⟨h1, h2⟩
      · simp at h
      · obtain ⟨p, hp, hc⟩ := (hcs w).1 h1
        exact ⟨⟨p, mem_profIds.1 hp, hc⟩, h2⟩
    have hval : ∀ p k v, IsProfile env p → CheckOf env py hw p (.value p k v) → ¬ Supported plat k v →
        ∃ q, .value q k v ∈ (cs.foldl (runCheck plat types) ⟨afterCalls plat [], true, []⟩).warnings := by
      intro p k v hp hc hn
      obtain ⟨w, hw, hf⟩ := r4 (.value p k v) ((hcs _).2 ⟨p, mem_profIds.2 hp, hc⟩) (by
        rintro (h | h)
        · exact hn h
        · simp at h)
      cases w with
      | nicTypes q => exact absurd hf (by simp [SameFinding])
      | value q j w =>
        obtain ⟨rfl, rfl⟩ := hf
        exact ⟨q, hw⟩
    refine ⟨?_, ?_, ?_, ?_, ?_, ?_⟩
    · intro p k v hw
      obtain ⟨⟨p', hp', hc⟩, hn⟩ := r3' _ hw
      have hn' : ¬ Supported plat k v := fun hh => hn (Or.inl hh)
      rcases hc with ⟨v', he, hv⟩ | ⟨z, he, hz⟩ | he | he
      · cases he; exact ⟨hp', hn', Or.inl ⟨rfl, hv⟩⟩
      · cases he; exact ⟨hp', hn', Or.inr (Or.inl ⟨rfl, z, hz, rfl⟩)⟩
      · cases he; exact ⟨hp', hn', Or.inr (Or.inr ⟨rfl, rfl⟩)⟩
      · cases he
    · intro p hw
      obtain ⟨⟨p', hp', hc⟩, hn⟩ := r3' _ hw
      rcases hc with ⟨v', he, hv⟩ | ⟨z, he, hz⟩ | he | he
      · cases he
      · cases he
      · cases he
      · cases he
        refine ⟨hp', ?_⟩
        by_contra hcon
        apply hn
        intro t ht
        by_contra hns
        exact hcon ⟨t, (hsub t).1 ht, hns⟩
    · intro p v hp hv hn
      exact hval p .cpus v hp (Or.inl ⟨v, rfl, hv⟩) hn
    · intro p z hp hz hn
      exact hval p .memory _ hp (Or.inr (Or.inl ⟨z, rfl, hz⟩)) (fun hh => hn ((supported_megabytes plat py z).1 hh))
    · intro p hp hn
      exact hval p .nicCount _ hp (Or.inr (Or.inr (Or.inl rfl))) hn
    · intro p t hp ht hn
      obtain ⟨w, hw, hf⟩ := r4 (.nicTypes p) ((hcs _).2 ⟨p, mem_profIds.2 hp, Or.inr (Or.inr (Or.inr rfl))⟩)
        (fun hh => hn (hh t ((hsub t).2 ht)))
      cases w with
      | value q j w => exact absurd hf (by simp [SameFinding])
      | nicTypes q =>
        have : p = q := hf
        subst this
        exact hw

theorem itemUnder_total {env : Env} {hw : Hw} {rt code : Str} {p : Prof} (wf : HwWF env hw)
    (hc : resourceCode rt = .ok code) (hne : rt ≠ [])
    (hone : ∀ id id' it it', dget? hw id = some it → dget? hw id' = some it' → OfType it code →
      OfType it' code → it.hasProfile env p = true → it'.hasProfile env p = true → id = id') :
    ∃ r, itemUnder env hw rt p = .ok r := by
  obtain ⟨ids, hids⟩ := findAll_total (env := env) (hw := hw) (rt := some rt) (props := []) (P := [p])
    (fun s hs => by cases hs; exact ⟨code, hc⟩) (by simp)
  have hm := findAll_mem (by simp) hids
  have hm' : ∀ id ∈ ids, ∃ it, dget? hw id = some it ∧ OfType it code ∧ it.hasProfile env p = true := by
    intro id hid
    obtain ⟨it, h1, h2, h3, -⟩ := (hm id).1 hid
    rcases h2 with h2 | ⟨c, hc', h2⟩
    · exact absurd h2 hne
    · rw [hc] at hc'; cases hc'
      exact ⟨it, h1, h2, h3 p (by simp)⟩
  have hnd : ids.Nodup := by
    unfold findAllItems at hids
    exact (filterE_mem hids).2.nodup ((naturalSort_perm (dkeys hw)).nodup_iff.2 wf.keys)
  unfold itemUnder findItem
  rw [hids]
  match ids, hm', hnd with
  | [], _, _ => exact ⟨none, rfl⟩
  | [k], hm', _ =>
    obtain ⟨it, h1, -⟩ := hm' k (by simp)
    simp only [h1]
    exact ⟨some it, rfl⟩
  | a :: b :: t, hm', hnd =>
    exfalso
    obtain ⟨it, h1, h2, h3⟩ := hm' a (by simp)
    obtain ⟨it', g1, g2, g3⟩ := hm' b (by simp)
    have := hone a b it it' h1 g1 h2 g2 h3 g3
    subst this
    simp at hnd

theorem getValue_of_reads {env : Env} {it : Item} {n : Str} {p : Prof} (hp : Plain env n) (wf : ItemWF env it) {v : Val}
    (h : Reads (it.tab n) p v) : it.getValue env n (some {p}) = .ok (some v) := by
  rw [getValue_plain hp]
  congr 1
  show getScan {p} (it.tab n) none = some v
  rw [getScan_spec (wf.tab n) (by simp)]
  simpa using h

theorem vhProfile_total {env : Env} {py : PyVer} {plat : Plat} {hw : Hw} {p : Prof} (wf : HwWF env hw)
    (hp : PlainHardware env hw p) (s : VhSt) : ∃ s', vhProfile env py plat hw p s = .ok s' := by
  have hcpu : ∃ s', vhCpus env plat hw p s = .ok s' := by
    obtain ⟨r, hr⟩ := itemUnder_total (rt := "cpu".toList) (code := "3".toList) wf (by rfl) (by decide) hp.cpuIds
    have hs := itemUnder_spec (code := "3".toList) (by rfl) (by decide) hr
    unfold vhCpus
    rw [hr]
    cases r with
    | none => exact ⟨s, rfl⟩
    | some it =>
      obtain ⟨hd, huniq⟩ := hs
      obtain ⟨v, it', t, hd', ht, hv⟩ := hp.cpus it hd
      have := huniq it' hd'
      subst this
      obtain ⟨⟨id, hid⟩, -, -⟩ := hd
      have hg := getValue_of_reads (plain_vq env) (wf.items id it' (dget?_mem hid)) ht
      refine ⟨runCheck plat [] s (.value p .cpus v), ?_⟩
      show (do let x ← it'.getValue env virtualQuantity (some {p}); let v ← pyIntVal x; vhCheck plat p .cpus v s) = _
      rw [hg]
      show (do let v ← pyIntVal (some (.str t)); vhCheck plat p .cpus v s) = _
      have : pyIntVal (some (.str t)) = .ok v := by simp only [pyIntVal, intOrErr, hv]
      rw [this]
      exact vhCheck_eq plat [] p .cpus v s
  obtain ⟨s1, h1⟩ := hcpu
  have hmem : ∃ s', vhMemory env py plat hw p s1 = .ok s' := by
    obtain ⟨r, hr⟩ := itemUnder_total (rt := "memory".toList) (code := "4".toList) wf (by rfl) (by decide) hp.memIds
    have hs := itemUnder_spec (code := "4".toList) (by rfl) (by decide) hr
    unfold vhMemory
    rw [hr]
    cases r with
    | none => exact ⟨s1, rfl⟩
    | some it =>
      obtain ⟨hd, huniq⟩ := hs
      obtain ⟨z, it', t, hd', ht, hz⟩ := hp.memory it hd
      have := huniq it' hd'
      subst this
      obtain ⟨⟨id, hid⟩, -, -⟩ := hd
      have wfi := wf.items id it' (dget?_mem hid)
      have hg := getValue_of_reads (plain_vq env) wfi ht
      have hb : memBytes env it' p = .ok z := by
        unfold memBytes
        rw [hg]
        rcases hz with ⟨u, hu, hz⟩ | ⟨hu, hz⟩
        · have hgu := getValue_of_reads (plain_au env) wfi hu
          show (do let u ← it'.getValue env allocationUnits (some {p}); _) = _
          rw [hgu]
          exact hz
        · have hgu : it'.getValue env allocationUnits (some {p}) = .ok none := by
            rw [getValue_plain (plain_au env)]
            congr 1
            show getScan {p} (it'.tab allocationUnits) none = none
            cases hsc : getScan {p} (it'.tab allocationUnits) none with
            | none => rfl
            | some v =>
              rw [getScan_spec (wfi.tab _) (by simp)] at hsc
              exact absurd (hsc p (by simp)) (hu v)
          show (do let u ← it'.getValue env allocationUnits (some {p}); _) = _
          rw [hgu]
          show programmaticBytesToInt t [] = _
          unfold programmaticBytesToInt intOrErr
          rw [if_pos rfl, hz]
      refine ⟨runCheck plat [] s1 (.value p .memory (megabytesOf py z)), ?_⟩
      show (do let z ← memBytes env it' p; vhCheck plat p .memory (megabytesOf py z) s1) = _
      rw [hb]
      exact vhCheck_eq plat [] p .memory _ s1
  obtain ⟨s2, h2⟩ := hmem
  obtain ⟨types, hty⟩ := subtypesOf_total env hw
  obtain ⟨n, hn⟩ : ∃ n, itemCount env hw "ethernet".toList p = .ok n := by
    obtain ⟨ids, hids⟩ := findAllItems_ok (env := env) (hw := hw) (rt := "ethernet".toList) (code := "10".toList) (by rfl)
    unfold itemCount itemCounts
    rw [hids]
    exact ⟨_, rfl⟩
  unfold vhProfile
  rw [h1]
  show ∃ s', (do
    let s ← vhMemory env py plat hw p s1
    let n ← itemCount env hw "ethernet".toList p
    let s ← vhCheck plat p .nicCount n s
    let types ← subtypesOf env hw "ethernet".toList
    vhNote (.nicTypes p) (validateNicTypes plat types) s) = Except.ok s'
  rw [h2]
  show ∃ s', (do
    let n ← itemCount env hw "ethernet".toList p
    let s ← vhCheck plat p .nicCount n s2
    let types ← subtypesOf env hw "ethernet".toList
    vhNote (.nicTypes p) (validateNicTypes plat types) s) = Except.ok s'
  rw [hn]
  show ∃ s', (do
    let s ← vhCheck plat p .nicCount n s2
    let types ← subtypesOf env hw "ethernet".toList
    vhNote (.nicTypes p) (validateNicTypes plat types) s) = Except.ok s'
  rw [vhCheck_eq plat types, hty]
  exact ⟨_, vhNic_eq plat types p _⟩

/-- **C88 (completes).** If in every profile the processors and the memory are stated properly, the check comes to an
end, whatever has been asked before and however bad the values are: it never stops a descriptor from being written. -/
theorem C88_completes_partial {env : Env} {py : PyVer} {plat : Plat} {hw : Hw} (wf : HwWF env hw)
    (hp : ∀ p, IsProfile env p → PlainHardware env hw p) (seen : ValCache) :
    ∃ r, validateHardware env py plat hw seen = .ok r := by
  have hl : ∀ (L : List Prof), (∀ p ∈ L, PlainHardware env hw p) → ∀ s, ∃ s', vhLoop env py plat hw L s = .ok s' := by
    intro L
    induction L with
    | nil => intro _ s; exact ⟨s, rfl⟩
    | cons p r ih =>
      intro hL s
      obtain ⟨s1, h1⟩ := vhProfile_total (py := py) (plat := plat) wf (hL p (by simp)) s
      obtain ⟨s2, h2⟩ := ih (fun q hq => hL q (by simp [hq])) s1
      refine ⟨s2, ?_⟩
      unfold vhLoop
      rw [h1]
      exact h2
  obtain ⟨s, hs⟩ := hl (profIds env) (fun p h => hp p (mem_profIds.1 h)) ⟨seen, true, []⟩
  unfold validateHardware
  rw [hs]
  exact ⟨_, rfl⟩

end Cot
