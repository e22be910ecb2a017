import Verif.Spec.Names
import Verif.Lemmas.Dict
import Verif.Lemmas.ItemOps
import Verif.Lemmas.XmlLens
import Verif.Model.EnvProps
import Verif.Model.EditProperties
import Verif.Model.EditHardware
import Verif.Model.Info
import Verif.Props.Packages
import Verif.Props.NameHelper
/-
C106: the names used in a document are those of its OVF version, whatever was looked up before.
C107: which descriptors are opened.
-/
namespace Cot

/-! ### The lookup without its cache -/

/-- the namespace part of a name -/
def pureSpace (v : Ver) (n : Str) : Option Str := (dget? (nsm v) (lower n)).map braced

/-- what a lookup gives if nothing is cached -/
def pureName (v : Ver) (n : Str) : Option Str :=
  match dget? (itemWords v) n with
  | some w => some w
  | none => match pureSpace v n with
    | some s => some s
    | none =>
      if n = "EPASD".toList ∨ n = "SASD".toList then pureSpace v "RASD".toList
      else match dget? (rawTags v) n with
        | none => none
        | some (ns, tag) => (pureSpace v ns).map (· ++ tag)

/-- what is cached is what a lookup would give -/
def Honest (c : Caches) : Prop := ∀ v n w, dget? (c.of v) n = some w → pureName v n = some w

theorem Caches.of_put (c : Caches) (v u : Ver) (n w : Str) :
    (c.put v n w).of u = if u = v then dset (c.of v) n w else c.of u := by
  cases v <;> cases u <;> rfl

theorem Honest.put {c : Caches} (h : Honest c) {v : Ver} {n w : Str} (hw : pureName v n = some w) :
    Honest (c.put v n w) := by
  intro u m x hx
  rw [Caches.of_put] at hx
  by_cases hu : u = v
  · subst hu
    rw [if_pos rfl, dget?_dset] at hx
    by_cases hm : n = m
    · subst hm
      rw [if_pos rfl] at hx
      cases hx
      exact hw
    · rw [if_neg hm] at hx
      exact h u m x hx
  · rw [if_neg hu] at hx
    exact h u m x hx

/-- the namespaces are found at the first attempt -/
theorem getName_space {c : Caches} (h : Honest c) (fuel : Nat) {v : Ver} {n s : Str} (hi : dget? (itemWords v) n = none)
    (hs : pureSpace v n = some s) :
    (getName (fuel + 1) c v n).1 = .ok s ∧ Honest (getName (fuel + 1) c v n).2 := by
  have hp : pureName v n = some s := by
    unfold pureName
    rw [hi, hs]
  unfold getName
  rw [hi]
  dsimp only
  cases hc : dget? (c.of v) n with
  | some w =>
    have := h v n w hc
    rw [hp] at this
    cases this
    exact ⟨rfl, h⟩
  | none =>
    unfold pureSpace at hs
    cases hn : dget? (nsm v) (lower n) with
    | none => rw [hn] at hs; cases hs
    | some u =>
      rw [hn] at hs
      cases hs
      exact ⟨rfl, h.put hp⟩

theorem raw_spaces : ∀ v, ∀ r ∈ rawTags v, dget? (itemWords v) r.2.1 = none ∧ (pureSpace v r.2.1).isSome := by
  intro v
  cases v <;> decide +kernel

theorem rasd_space : ∀ v, dget? (itemWords v) "RASD".toList = none ∧ (pureSpace v "RASD".toList).isSome := by
  intro v
  cases v <;> decide +kernel

/-- a lookup with honest caches gives the pure name, and the caches stay honest -/
theorem nameOf_pure {c : Caches} (h : Honest c) (v : Ver) (n : Str) :
    (nameOf c v n).1 = (match pureName v n with | some s => .ok s | none => .error .attributeError) ∧
      Honest (nameOf c v n).2 := by
  unfold nameOf getName
  cases hi : dget? (itemWords v) n with
  | some w =>
    have hp : pureName v n = some w := by unfold pureName; rw [hi]
    rw [hp]
    exact ⟨rfl, h⟩
  | none =>
    dsimp only
    cases hc : dget? (c.of v) n with
    | some w =>
      rw [h v n w hc]
      exact ⟨rfl, h⟩
    | none =>
      dsimp only
      cases hn : dget? (nsm v) (lower n) with
      | some u =>
        have hp : pureName v n = some (braced u) := by
          unfold pureName pureSpace
          rw [hi, hn]
          rfl
        rw [hp]
        exact ⟨rfl, h.put hp⟩
      | none =>
        dsimp only
        have hps : pureSpace v n = none := by unfold pureSpace; rw [hn]; rfl
        by_cases hs : n = "EPASD".toList ∨ n = "SASD".toList
        · rw [if_pos hs]
          obtain ⟨r1, r2⟩ := rasd_space v
          obtain ⟨s, r2⟩ := Option.isSome_iff_exists.1 r2
          have hp : pureName v n = some s := by
            unfold pureName
            rw [hi, hps]
            dsimp only
            rw [if_pos hs, r2]
          obtain ⟨g1, g2⟩ := getName_space h 0 r1 r2
          rcases hg : getName (0 + 1) c v "RASD".toList with ⟨r, c'⟩
          rw [hg] at g1 g2
          cases g1
          rw [hp]
          exact ⟨rfl, g2.put hp⟩
        · rw [if_neg hs]
          cases hr : dget? (rawTags v) n with
          | none =>
            have hp : pureName v n = none := by
              unfold pureName
              rw [hi, hps]
              dsimp only
              rw [if_neg hs, hr]
            rw [hp]
            exact ⟨rfl, h⟩
          | some x =>
            obtain ⟨ns, tag⟩ := x
            dsimp only
            obtain ⟨r1, r2⟩ := raw_spaces v _ (dget?_mem hr)
            obtain ⟨s, r2⟩ := Option.isSome_iff_exists.1 r2
            have hp : pureName v n = some (s ++ tag) := by
              unfold pureName
              rw [hi, hps]
              dsimp only
              rw [if_neg hs, hr]
              change (pureSpace v ns).map _ = _
              have r2' : pureSpace v ns = some s := r2
              rw [r2']
              rfl
            obtain ⟨g1, g2⟩ := getName_space h 0 r1 r2
            change (getName (0 + 1) c v ns).1 = _ at g1
            change Honest (getName (0 + 1) c v ns).2 at g2
            rcases hg : getName (0 + 1) c v ns with ⟨r, c'⟩
            rw [hg] at g1 g2
            cases g1
            rw [hp]
            exact ⟨rfl, g2.put hp⟩

theorem LookedUp.honest {c : Caches} (h : LookedUp c) : Honest c := by
  induction h with
  | none =>
    intro v n w hw
    cases v <;> cases hw
  | next v name _ ih => exact (nameOf_pure ih v name).2

/-! ### The tables and the schema -/

/-- the rows of `ovfNames` for a version, in the shape of the program's table -/
def ovfRows (v : Ver) : List (Str × (Str × Str)) :=
  ovfNames.map (fun r => (r.1.toList, "OVF".toList, (match v with | .v0 => r.2.1 | .v1 => r.2.2.1 | .v2 => r.2.2.2).toList))

def wordRows (v : Ver) : List (Str × Str) :=
  itemVocabulary.map (fun r => (r.1.toList, (match v with | .v0 => r.2.1 | _ => r.2.2).toList))

def spaceRows (v : Ver) : List (Str × Str) :=
  (("ovf", schemaUri v) :: otherSpaces v).map (fun r => (r.1.toList, r.2.toList))

theorem raw_table : ∀ v,
    (∀ r ∈ rawTags v, r ∈ ovfRows v ∨ r = ("VIRTUAL_SYSTEM_TYPE".toList, "VSSD".toList, "VirtualSystemType".toList)) ∧
    (∀ r ∈ ovfRows v, dget? (rawTags v) r.1 = some r.2) ∧
    dget? (rawTags v) "VIRTUAL_SYSTEM_TYPE".toList = some ("VSSD".toList, "VirtualSystemType".toList) := by
  intro v
  cases v <;> decide +kernel

theorem word_table : ∀ v,
    (∀ r ∈ itemWords v, r ∈ wordRows v ∨ (v = .v0 ∧ r = ("BUS_NUMBER".toList, "BusNumber".toList))) ∧
    (∀ r ∈ wordRows v, dget? (itemWords v) r.1 = some r.2) ∧
    (v = .v0 → dget? (itemWords v) "BUS_NUMBER".toList = some "BusNumber".toList) := by
  intro v
  cases v <;> decide +kernel

theorem space_table : ∀ v, (∀ r ∈ nsm v, r ∈ spaceRows v) ∧ (∀ r ∈ spaceRows v, dget? (nsm v) r.1 = some r.2) := by
  intro v
  cases v <;> decide +kernel

/-- no name is of two kinds -/
theorem kinds_apart : ∀ v, (∀ r ∈ itemWords v, lower r.1 ∉ dkeys (nsm v)) ∧
    (∀ r ∈ rawTags v, lower r.1 ∉ dkeys (nsm v) ∧ r.1 ∉ dkeys (itemWords v) ∧
      r.1 ≠ "EPASD".toList ∧ r.1 ≠ "SASD".toList) ∧
    "EPASD".toList ∉ dkeys (itemWords v) ∧ "SASD".toList ∉ dkeys (itemWords v) ∧
    (v ≠ .v2 → lower "EPASD".toList ∉ dkeys (nsm v) ∧ lower "SASD".toList ∉ dkeys (nsm v)) := by
  intro v
  cases v <;> decide +kernel

theorem braced_eq (s : Str) : braced s = "{".toList ++ s ++ "}".toList := rfl

theorem space_facts : ∀ v, pureSpace v "OVF".toList = some (braced (schemaUri v).toList) ∧
    pureSpace v "VSSD".toList = some (braced vssdUri.toList) ∧
    pureSpace v "RASD".toList = some (braced rasdUri.toList) ∧
    (v = .v2 → (pureSpace v "EPASD".toList).isSome ∧ (pureSpace v "SASD".toList).isSome) := by
  intro v
  cases v <;> decide +kernel

theorem pureName_iff (v : Ver) (n s : Str) : pureName v n = some s ↔ NameIs v n s := by
  constructor
  · intro h
    unfold pureName at h
    cases hi : dget? (itemWords v) n with
    | some w =>
      rw [hi] at h
      cases h
      rcases (word_table v).1 _ (dget?_mem hi) with hm | ⟨hv, hm⟩
      · obtain ⟨r, hr, hr2⟩ := List.mem_map.1 hm
        obtain ⟨a, b, c⟩ := r
        cases hr2
        exact NameIs.word hr
      · cases hm
        exact NameIs.bus hv
    | none =>
      rw [hi] at h
      dsimp only at h
      cases hs : pureSpace v n with
      | some u =>
        rw [hs] at h
        cases h
        unfold pureSpace at hs
        cases hn : dget? (nsm v) (lower n) with
        | none => rw [hn] at hs; cases hs
        | some uri =>
          rw [hn] at hs
          cases hs
          obtain ⟨r, hr, hr2⟩ := List.mem_map.1 ((space_table v).1 _ (dget?_mem hn))
          obtain ⟨a, b⟩ := r
          have e1 := congrArg Prod.fst hr2
          have e2 := congrArg Prod.snd hr2
          dsimp only at e1 e2
          rw [← e2, braced_eq]
          exact NameIs.space hr e1.symm
      | none =>
        rw [hs] at h
        dsimp only at h
        by_cases he : n = "EPASD".toList ∨ n = "SASD".toList
        · rw [if_pos he, (space_facts v).2.2.1] at h
          cases h
          refine NameIs.shared (fun hv => ?_) he
          obtain ⟨f1, f2⟩ := (space_facts v).2.2.2 hv
          rcases he with rfl | rfl
          · rw [hs] at f1; cases f1
          · rw [hs] at f2; cases f2
        · rw [if_neg he] at h
          cases hr : dget? (rawTags v) n with
          | none => rw [hr] at h; cases h
          | some x =>
            obtain ⟨ns, tag⟩ := x
            rw [hr] at h
            dsimp only at h
            rcases (raw_table v).1 _ (dget?_mem hr) with hm | hm
            · obtain ⟨r, hr3, hr2⟩ := List.mem_map.1 hm
              obtain ⟨a, b, c, d⟩ := r
              cases hr2
              rw [(space_facts v).1] at h
              cases h
              exact NameIs.ovf hr3
            · cases hm
              rw [(space_facts v).2.1] at h
              cases h
              exact NameIs.vst
  · intro h
    have rawCase : ∀ (ns tag : Str) (u : Str), dget? (rawTags v) n = some (ns, tag) → pureSpace v ns = some u →
        pureName v n = some (u ++ tag) := by
      intro ns tag u h1 h2
      obtain ⟨k1, k2, k3, k4⟩ := (kinds_apart v).2.1 _ (dget?_mem h1)
      unfold pureName
      rw [dget?_eq_none.2 k2]
      dsimp only
      have : pureSpace v n = none := by
        unfold pureSpace
        rw [dget?_eq_none.2 k1]
        rfl
      rw [this]
      dsimp only
      rw [if_neg (by rintro (h | h) <;> contradiction), h1]
      dsimp only
      rw [h2]
      rfl
    cases h with
    | ovf hm =>
      have h1 := (raw_table v).2.1 _ (List.mem_map_of_mem hm)
      exact rawCase _ _ _ h1 (space_facts v).1
    | vst =>
      rw [rawCase _ _ _ (raw_table v).2.2 (space_facts v).2.1]
      exact congrArg some (by decide +kernel)
    | word hm =>
      have h1 := (word_table v).2.1 _ (List.mem_map_of_mem hm)
      unfold pureName
      dsimp only at h1
      rw [h1]
      rfl
    | bus hv =>
      unfold pureName
      rw [(word_table v).2.2 hv]
    | @space _ p u hm hl =>
      have h1 : dget? (nsm v) (lower n) = some u.toList := by
        rw [hl]
        exact (space_table v).2 _ (List.mem_map_of_mem (f := fun r : String × String => (r.1.toList, r.2.toList)) hm)
      have h2 : dget? (itemWords v) n = none := by
        cases hi : dget? (itemWords v) n with
        | none => rfl
        | some w =>
          have h3 := (kinds_apart v).1 _ (dget?_mem hi)
          rw [← dget?_eq_none, h1] at h3
          cases h3
      unfold pureName pureSpace
      rw [h2, h1]
      rfl
    | shared hv he =>
      obtain ⟨_, _, k3, k4, k5⟩ := kinds_apart v
      obtain ⟨k5, k6⟩ := k5 hv
      have h1 : dget? (itemWords v) n = none := dget?_eq_none.2 (by rcases he with rfl | rfl <;> assumption)
      have h2 : pureSpace v n = none := by
        unfold pureSpace
        rw [dget?_eq_none.2 (by rcases he with rfl | rfl <;> assumption)]
        rfl
      unfold pureName
      rw [h1, h2]
      dsimp only
      rw [if_pos he, (space_facts v).2.2.1]
      rfl

/-- **C106**: however many names were looked up before, in documents of whatever versions, a lookup in a document of version
`v` gives `s` exactly if the schema of that version says so, and fails as an unknown attribute exactly if the schema has
no such name. -/
theorem C106_history {c : Caches} (h : LookedUp c) (v : Ver) (name : Str) :
    (∀ s, (nameOf c v name).1 = .ok s ↔ NameIs v name s) ∧
    ((nameOf c v name).1 = .error .attributeError ↔ ∀ s, ¬ NameIs v name s) ∧
    ∀ e, (nameOf c v name).1 = .error e → e = .attributeError := by
  rw [(nameOf_pure h.honest v name).1]
  cases hp : pureName v name with
  | some x =>
    refine ⟨fun s => ?_, ?_, fun e he => by cases he⟩
    · rw [← pureName_iff, hp]
      simp
    · simp only [reduceCtorEq, false_iff, not_forall, not_not]
      exact ⟨x, (pureName_iff v name x).1 hp⟩
  | none =>
    refine ⟨fun s => ?_, ?_, fun e he => by cases he; rfl⟩
    · rw [← pureName_iff, hp]
      simp
    · simp only [true_iff]
      intro s hs
      rw [← pureName_iff, hp] at hs
      cases hs

/-- names are unambiguous -/
theorem C106_unique {v : Ver} {name s t : Str} (h1 : NameIs v name s) (h2 : NameIs v name t) : s = t := by
  rw [← pureName_iff] at h1 h2
  rw [h1] at h2
  exact Option.some.inj h2

/-- lookups in documents of three versions, one after the other -/
example : ∃ c, LookedUp c ∧ c.c0 ≠ [] ∧ c.c1 ≠ [] ∧ c.c2 ≠ [] ∧
    (nameOf c .v2 "SASD".toList).1 ≠ (nameOf c .v1 "SASD".toList).1 ∧
    (nameOf c .v0 "PROP_VALUE".toList).1 ≠ (nameOf c .v1 "PROP_VALUE".toList).1 ∧
    (nameOf c .v1 "BUS_NUMBER".toList).1 = .error .attributeError ∧
    (nameOf c .v1 "Ovf".toList).1 = .ok "{http://schemas.dmtf.org/ovf/envelope/1}".toList :=
  ⟨_, .next .v2 "FILE".toList (.next .v1 "FILE".toList (.next .v0 "FILE".toList .none)), by decide +kernel, by decide +kernel,
    by decide +kernel, by decide +kernel, by decide +kernel, by decide +kernel, by decide +kernel⟩

end Cot
