import Verif.Lemmas.EhCommand
import Verif.Props.EditHardware
import Verif.Props.EditHardwareNetworks
/-
C123: what the command line asks edit-hardware for is what is done.
-/
namespace Cot

variable {c : EhCtx} {f : EhFiles}

/-- the value is a list of texts, and these are stored -/
abbrev IsTexts (v : ArgVal ArgAtom) (x : Option (List Str)) : Prop :=
  ∃ ts : List Str, v = .list (ts.map (fun t => .one (.text t))) ∧ x = some ts

/-- the value is a list of texts, and what they are converted to is stored -/
abbrev IsConverted (R : List Str → List Str → Prop) (v : ArgVal ArgAtom) (x : Option (List Str)) : Prop :=
  ∃ ts us : List Str, v = .list (ts.map (fun t => .one (.text t))) ∧ R ts us ∧ x = some us

/-- the value is a number, and is stored -/
abbrev IsCount (v : ArgVal ArgAtom) (x : Option Nat) : Prop := ∃ n : Nat, v = .one (.int n) ∧ x = some n

theorem asked_texts {k : ArgType} {R : Str → Str → Prop} (hR : ∀ s t, ReadsAs k s (.text t) → R s t) {given : List (List Str)}
    {v : ArgVal ArgAtom} (hv : Reaches (.values k) given v) {x : Option (List Str)}
    (h : (v = .absent ∧ x = none) ∨ (Given v ∧ IsTexts v x)) :
    AskedList R given x := by
  rcases hv with ⟨h1, rfl⟩ | ⟨h1, as, h2, rfl⟩
  · rcases h with ⟨-, h⟩ | ⟨h, -⟩
    · exact .inl ⟨h1, h⟩
    · exact h.elim
  · rcases h with ⟨h, -⟩ | ⟨-, ts, h3, h4⟩
    · cases h
    · rw [list_one_inj h3] at h2
      exact .inr ⟨h1, ts, forall₂_texts hR h2, h4⟩

theorem forall₂_same {ss ts : List Str} (h : ss.Forall₂ (ReadsAs .text) (ts.map ArgAtom.text)) : ss = ts := by
  have := forall₂_texts (R := Eq) (fun s t hst => by
    have : (ArgAtom.text t) = .text s := hst
    cases this
    rfl) h
  exact List.forall₂_eq_eq_eq ▸ this

theorem asked_conv {R : List Str → List Str → Prop} {given : List (List Str)} {v : ArgVal ArgAtom} (hv : Reaches (.values .text) given v)
    {x : Option (List Str)} (h : (v = .absent ∧ x = none) ∨
      (Given v ∧ IsConverted R v x)) :
    (given = [] ∧ x = none) ∨ (given ≠ [] ∧ ∃ l, R given.flatten l ∧ x = some l) := by
  rcases hv with ⟨h1, rfl⟩ | ⟨h1, as, h2, rfl⟩
  · rcases h with ⟨-, h⟩ | ⟨h, -⟩
    · exact .inl ⟨h1, h⟩
    · exact h.elim
  · rcases h with ⟨h, -⟩ | ⟨-, ts, us, h3, h4, h5⟩
    · cases h
    · rw [list_one_inj h3] at h2
      rw [forall₂_same h2]
      exact .inr ⟨h1, us, h4, h5⟩

theorem flatten_filter (p : Str → Bool) (ls : List (List Str)) : (ls.map (·.filter p)).flatten = ls.flatten.filter p := by
  induction ls with
  | nil => rfl
  | cons a r ih => rw [List.map_cons, List.flatten_cons, List.flatten_cons, List.filter_append, ih]

theorem asked_filtered {T : List (List Str × Str)} {given : List (List Str)} {x : Option (List Str)}
    (h : (given = [] ∧ x = none) ∨ (given ≠ [] ∧ ∃ l, List.Forall₂ (FirstMatch T) (given.flatten.filter (fun t => decide (t ≠ []))) l ∧ x = some l)) :
    AskedList (FirstMatch T) (given.map (·.filter (fun t => decide (t ≠ [])))) x := by
  rcases h with ⟨h1, h2⟩ | ⟨h1, l, h2, h3⟩
  · exact .inl ⟨by simp [h1], h2⟩
  · exact .inr ⟨by simpa using h1, l, by rw [flatten_filter]; exact h2, h3⟩

theorem asked_count {given : List (List Str)} {v : ArgVal ArgAtom} (hv : Reaches (.value .nonNegative) given v) {x : Option Nat}
    (h : (v = .absent ∧ x = none) ∨ (Given v ∧ IsCount v x)) : AskedNumber 0 given (x.map Int.ofNat) := by
  rcases hv with ⟨h1, rfl⟩ | ⟨s, a, h1, h2, rfl⟩
  · rcases h with ⟨-, h⟩ | ⟨h, -⟩
    · exact .inl ⟨h1, by rw [h]; rfl⟩
    · exact h.elim
  · rcases h with ⟨h, -⟩ | ⟨-, n, h3, h4⟩
    · cases h
    · cases h3
      obtain ⟨i, hi, h5, h6⟩ := h2
      cases hi
      exact .inr ⟨s, n, h1, h5, h6, by rw [h4]; rfl⟩

theorem eh_page : ∀ m ∈ commandPages, m.names = ["edit-hardware".toList] → m = editHardwarePage := by decide +kernel

/-- what the attributes are after the command line has been handed over -/
theorem request_of {us : List ArgUse} (hus : ∀ u ∈ us, u.opt ∈ editHardwareParser.opts) {d : List (Str × ArgVal ArgAtom)}
    (hopt : ∀ q ∈ editHardwarePage.options, q.takes ≠ .prints → ∃ v, Reaches q.takes (givenWith q us) v ∧ Assigned d q.sets v)
    {seen : ValCache} {st : EhCmd} (h : Sets (ehSetattr c f) { seen := seen } (Assignments d) st) : EhAsks us st.req := by
  have get : ∀ (q : DocOption) (fl : String), q ∈ editHardwarePage.options → q.takes ≠ .prints →
      (∀ o ∈ editHardwareParser.opts, (∃ g ∈ q.flags, g ∈ o.flags) ↔ fl.toList ∈ o.flags) →
      ∃ v, Reaches q.takes (withFlag fl us) v ∧ Assigned d q.sets v := by
    intro q fl hq hn hf
    rw [← withFlag_eq hus hf]
    exact hopt q hq hn
  constructor
  · obtain ⟨v, h1, h2⟩ := get ⟨["-p".toList, "--profiles".toList], .values .noSpace, "profiles".toList⟩ "--profiles" (by decide +kernel)
      (by decide) (by decide +kernel)
    refine asked_texts (k := .noSpace) ?_ h1 (assigned_value (R := IsTexts) (F := fun s => s.req.profiles) ?_ ?_ h h2)
    · rintro s t ⟨t', h, h'⟩
      cases h
      exact h'
    · intro s s' b v hb hs
      exact (ehSetattr_keeps hs).2.2.1 hb
    · intro s s' v hs
      rw [ehSetattr_named (by rfl)] at hs
      obtain ⟨ts, e1, rfl⟩ := setTexts_ok hs
      exact ⟨ts, e1, rfl⟩
  · obtain ⟨v, h1, h2⟩ := get ⟨["--delete-all-other-profiles".toList], .flag, "delete_all_other_profiles".toList⟩ "--delete-all-other-profiles"
      (by decide +kernel) (by decide) (by decide +kernel)
    have h1 : v = .one (.truth (decide (withFlag "--delete-all-other-profiles" us ≠ []))) := h1
    have := assigned_value (F := fun s => s.req.deleteOthers) (R := fun v x => v = .one (.truth x)) (c := c) (f := f) ?_ ?_ h h2
    · rcases this with ⟨h3, -⟩ | ⟨-, h3⟩
      · rw [h1] at h3; cases h3
      · rw [h1] at h3
        simp only [ArgVal.one.injEq, ArgAtom.truth.injEq] at h3
        rw [← h3]
        simp
    · intro s s' b v hb hs
      exact (ehSetattr_keeps hs).2.2.2.1 hb
    · intro s s' v hs
      rw [ehSetattr_named (by rfl)] at hs
      unfold setDelete at hs
      split at hs
      · cases hs; rfl
      · cases hs
  · obtain ⟨v, h1, h2⟩ := get ⟨["-v".toList, "--virtual-system-type".toList], .values .noSpace, "virtual_system_type".toList⟩
      "--virtual-system-type" (by decide +kernel) (by decide) (by decide +kernel)
    refine asked_texts (k := .noSpace) ?_ h1 (assigned_value (R := IsTexts) (F := fun s => s.req.systemTypes) ?_ ?_ h h2)
    · rintro s t ⟨t', h, h'⟩
      cases h
      exact h'
    · intro s s' b v hb hs
      exact (ehSetattr_keeps hs).2.2.2.2.1 hb
    · intro s s' v hs
      rw [ehSetattr_named (by rfl)] at hs
      obtain ⟨ts, e1, rfl⟩ := setTexts_ok hs
      exact ⟨ts, e1, rfl⟩
  · obtain ⟨v, h1, h2⟩ := get ⟨["-c".toList, "--cpus".toList], .value .positive, "cpus".toList⟩ "--cpus" (by decide +kernel) (by decide)
      (by decide +kernel)
    have := assigned_value (F := fun s => s.req.cpus) (R := fun v x => ∃ n : Int, v = .one (.int n) ∧ x = some n) (c := c) (f := f) ?_ ?_ h h2
    · rcases h1 with ⟨h1, rfl⟩ | ⟨s, a, h1, h3, rfl⟩
      · rcases this with ⟨-, h⟩ | ⟨h, -⟩
        · exact .inl ⟨h1, h⟩
        · exact h.elim
      · rcases this with ⟨h, -⟩ | ⟨-, n, h4, h5⟩
        · cases h
        · cases h4
          obtain ⟨i, hi, h6, h7⟩ := h3
          cases hi
          exact .inr ⟨s, n, h1, h6, h7, h5⟩
    · intro s s' b v hb hs
      exact (ehSetattr_keeps hs).2.2.2.2.2.1 hb
    · intro s s' v hs
      rw [ehSetattr_named (by rfl)] at hs
      unfold setCpusNum at hs
      split at hs
      · split at hs
        · cases hs
        · split at hs
          · cases hs
          · cases hs
            exact ⟨_, rfl, rfl⟩
      · cases hs
  · obtain ⟨v, h1, h2⟩ := get ⟨["-m".toList, "--memory".toList], .value .text, "memory".toList⟩ "--memory" (by decide +kernel) (by decide)
      (by decide +kernel)
    have := assigned_value (F := fun s => s.req.memory) (R := fun v x => ∃ (s : Str) (m : Nat), v = .one (.text s) ∧ MemoryMeans s m ∧ x = some m)
      (c := c) (f := f) ?_ ?_ h h2
    · rcases h1 with ⟨h1, rfl⟩ | ⟨s, a, h1, h3, rfl⟩
      · rcases this with ⟨-, h⟩ | ⟨h, -⟩
        · exact .inl ⟨h1, h⟩
        · exact h.elim
      · rcases this with ⟨h, -⟩ | ⟨-, s', m, h4, h5, h6⟩
        · cases h
        · cases h4
          have h3 : ArgAtom.text s' = .text s := h3
          cases h3
          exact .inr ⟨s, m, h1, h5, h6⟩
    · intro s s' b v hb hs
      exact (ehSetattr_keeps hs).2.2.2.2.2.2.1 hb
    · intro s s' v hs
      rw [ehSetattr_named (by rfl)] at hs
      unfold setMemoryText at hs
      split at hs
      · rename_i t
        split at hs
        · cases hs
        · rename_i n seen' hn
          cases hs
          refine ⟨t, n, rfl, memoryMeans_iff.1 ?_, rfl⟩
          unfold setMemoryArg at hn
          split at hn
          · cases hn
          · rename_i m hm
            split at hn
            · cases hn
            · cases hn
              exact hm
      · cases hs
  · obtain ⟨v, h1, h2⟩ := get ⟨["-n".toList, "--nics".toList], .value .nonNegative, "nics".toList⟩ "--nics" (by decide +kernel) (by decide)
      (by decide +kernel)
    refine asked_count h1 (assigned_value (R := IsCount) (F := fun s => s.req.nics) ?_ ?_ h h2)
    · intro s s' b v hb hs
      exact (ehSetattr_keeps hs).2.2.2.2.2.2.2.1 hb
    · intro s s' v hs
      rw [ehSetattr_named (by rfl)] at hs
      obtain ⟨n, e1, seen', rfl⟩ := setCountNum_ok hs
      exact ⟨n, e1, rfl⟩
  · obtain ⟨v, h1, h2⟩ := get ⟨["--nic-types".toList], .values .text, "nic_types".toList⟩ "--nic-types" (by decide +kernel) (by decide)
      (by decide +kernel)
    refine asked_conv (R := fun a b => List.Forall₂ (FirstMatch nicWords) a b) h1 (assigned_value (R := IsConverted (fun a b => List.Forall₂ (FirstMatch nicWords) a b)) (F := fun s => s.req.nicTypes) ?_ ?_ h h2)
    · intro s s' b v hb hs
      exact (ehSetattr_keeps hs).2.2.2.2.2.2.2.2.1 hb
    · intro s s' v hs
      rw [ehSetattr_named (by rfl)] at hs
      obtain ⟨ts, us, e1, e2, rfl⟩ := setConverted_ok hs
      exact ⟨ts, us, e1, ((C82_nic_types ts us).1 e2).1, rfl⟩
  · obtain ⟨v, h1, h2⟩ := get ⟨["-M".toList, "--mac-addresses-list".toList], .values .mac, "mac_addresses_list".toList⟩ "--mac-addresses-list"
      (by decide +kernel) (by decide) (by decide +kernel)
    refine asked_texts (k := .mac) ?_ h1 (assigned_value (R := IsTexts) (F := fun s => s.req.macs) ?_ ?_ h h2)
    · rintro s t ⟨t', h, h'⟩
      cases h
      exact h'
    · intro s s' b v hb hs
      exact (ehSetattr_keeps hs).2.2.2.2.2.2.2.2.2.2.2.2.1 hb
    · intro s s' v hs
      rw [ehSetattr_named (by rfl)] at hs
      obtain ⟨ts, e1, rfl⟩ := setTexts_ok hs
      exact ⟨ts, e1, rfl⟩
  · obtain ⟨v, h1, h2⟩ := get ⟨["-N".toList, "--nic-networks".toList], .values .text, "nic_networks".toList⟩ "--nic-networks"
      (by decide +kernel) (by decide) (by decide +kernel)
    refine asked_texts (k := .text) ?_ h1 (assigned_value (R := IsTexts) (F := fun s => s.req.networks) ?_ ?_ h h2)
    · intro s t h
      cases (show ArgAtom.text t = .text s from h)
      rfl
    · intro s s' b v hb hs
      exact (ehSetattr_keeps hs).2.2.2.2.2.2.2.2.2.2.1 hb
    · intro s s' v hs
      rw [ehSetattr_named (by rfl)] at hs
      obtain ⟨ts, e1, rfl⟩ := setTexts_ok hs
      exact ⟨ts, e1, rfl⟩
  · obtain ⟨v, h1, h2⟩ := get ⟨["--network-descriptions".toList], .values .text, "network_descriptions".toList⟩ "--network-descriptions"
      (by decide +kernel) (by decide) (by decide +kernel)
    refine asked_texts (k := .text) ?_ h1 (assigned_value (R := IsTexts) (F := fun s => s.req.descriptions) ?_ ?_ h h2)
    · intro s t h
      cases (show ArgAtom.text t = .text s from h)
      rfl
    · intro s s' b v hb hs
      exact (ehSetattr_keeps hs).2.2.2.2.2.2.2.2.2.2.2.1 hb
    · intro s s' v hs
      rw [ehSetattr_named (by rfl)] at hs
      obtain ⟨ts, e1, rfl⟩ := setTexts_ok hs
      exact ⟨ts, e1, rfl⟩
  · obtain ⟨v, h1, h2⟩ := get ⟨["--nic-names".toList], .values .text, "nic_names".toList⟩ "--nic-names"
      (by decide +kernel) (by decide) (by decide +kernel)
    refine asked_texts (k := .text) ?_ h1 (assigned_value (R := IsTexts) (F := fun s => s.req.nicNames) ?_ ?_ h h2)
    · intro s t h
      cases (show ArgAtom.text t = .text s from h)
      rfl
    · intro s s' b v hb hs
      exact (ehSetattr_keeps hs).2.2.2.2.2.2.2.2.2.1 hb
    · intro s s' v hs
      rw [ehSetattr_named (by rfl)] at hs
      obtain ⟨ts, e1, rfl⟩ := setTexts_ok hs
      exact ⟨ts, e1, rfl⟩
  · obtain ⟨v, h1, h2⟩ := get ⟨["-s".toList, "--serial-ports".toList], .value .nonNegative, "serial_ports".toList⟩ "--serial-ports"
      (by decide +kernel) (by decide) (by decide +kernel)
    refine asked_count h1 (assigned_value (R := IsCount) (F := fun s => s.req.serialPorts) ?_ ?_ h h2)
    · intro s s' b v hb hs
      exact (ehSetattr_keeps hs).2.2.2.2.2.2.2.2.2.2.2.2.2.1 hb
    · intro s s' v hs
      rw [ehSetattr_named (by rfl)] at hs
      obtain ⟨n, e1, seen', rfl⟩ := setCountNum_ok hs
      exact ⟨n, e1, rfl⟩
  · obtain ⟨v, h1, h2⟩ := get ⟨["-S".toList, "--serial-connectivity".toList], .values .text, "serial_connectivity".toList⟩ "--serial-connectivity"
      (by decide +kernel) (by decide) (by decide +kernel)
    refine asked_texts (k := .text) ?_ h1 (assigned_value (R := IsTexts) (F := fun s => s.req.serialConn) ?_ ?_ h h2)
    · intro s t h
      cases (show ArgAtom.text t = .text s from h)
      rfl
    · intro s s' b v hb hs
      exact (ehSetattr_keeps hs).2.2.2.2.2.2.2.2.2.2.2.2.2.2.1 hb
    · intro s s' v hs
      rw [ehSetattr_named (by rfl)] at hs
      obtain ⟨ts, e1, rfl⟩ := setTexts_ok hs
      exact ⟨ts, e1, rfl⟩
  · obtain ⟨v, h1, h2⟩ := get ⟨["--scsi-subtypes".toList], .values .text, "scsi_subtypes".toList⟩ "--scsi-subtypes" (by decide +kernel) (by decide)
      (by decide +kernel)
    refine asked_filtered (asked_conv (R := fun a b => List.Forall₂ (FirstMatch scsiWords) (a.filter (fun t => decide (t ≠ []))) b) h1
      (assigned_value (R := IsConverted (fun a b => List.Forall₂ (FirstMatch scsiWords) (a.filter (fun t => decide (t ≠ []))) b)) (F := fun s => s.req.scsi) ?_ ?_ h h2))
    · intro s s' b v hb hs
      exact (ehSetattr_keeps hs).2.2.2.2.2.2.2.2.2.2.2.2.2.2.2.1 hb
    · intro s s' v hs
      rw [ehSetattr_named (by rfl)] at hs
      obtain ⟨ts, us, e1, e2, rfl⟩ := setConverted_ok hs
      exact ⟨ts, us, e1, (C82_controller_types ts us).1.1 e2, rfl⟩
  · obtain ⟨v, h1, h2⟩ := get ⟨["--ide-subtypes".toList], .values .text, "ide_subtypes".toList⟩ "--ide-subtypes" (by decide +kernel) (by decide)
      (by decide +kernel)
    refine asked_filtered (asked_conv (R := fun a b => List.Forall₂ (FirstMatch ideWords) (a.filter (fun t => decide (t ≠ []))) b) h1
      (assigned_value (R := IsConverted (fun a b => List.Forall₂ (FirstMatch ideWords) (a.filter (fun t => decide (t ≠ []))) b)) (F := fun s => s.req.ide) ?_ ?_ h h2))
    · intro s s' b v hb hs
      exact (ehSetattr_keeps hs).2.2.2.2.2.2.2.2.2.2.2.2.2.2.2.2 hb
    · intro s s' v hs
      rw [ehSetattr_named (by rfl)] at hs
      obtain ⟨ts, us, e1, e2, rfl⟩ := setConverted_ok hs
      exact ⟨ts, us, e1, (C82_controller_types ts us).2.1 e2, rfl⟩

/-- where the package comes from and where it goes -/
theorem places_of {us : List ArgUse} (hus : ∀ u ∈ us, u.opt ∈ editHardwareParser.opts) {ws : List Str} (hlen : ws.length = 1)
    {d : List (Str × ArgVal ArgAtom)}
    (hopt : ∀ q ∈ editHardwarePage.options, q.takes ≠ .prints → ∃ v, Reaches q.takes (givenWith q us) v ∧ Assigned d q.sets v)
    (hpos : ∀ (i : Nat) (a x : Str), editHardwarePage.words[i]? = some a → ws[i]? = some x → Assigned d (lower a) (.one (.text x)))
    {seen : ValCache} {st : EhCmd} (h : Sets (ehSetattr c f) { seen := seen } (Assignments d) st) :
    (∃ p, ws = [p] ∧ st.package = some p ∧ f.opens p = .ok ()) ∧ AskedOutput (withFlag "--output" us) st.output ∧
      ∀ x, st.output = some x → f.agrees x = .ok () := by
  constructor
  · obtain ⟨p, rfl⟩ : ∃ p, ws = [p] := by
      match ws, hlen with
      | [p], _ => exact ⟨p, rfl⟩
    have := assigned_value (F := fun s => s.package) (a := "package".toList)
      (R := fun v x => ∃ p : Str, v = .one (.text p) ∧ x = some p ∧ f.opens p = .ok ()) (c := c) (f := f) ?_ ?_ h
      (hpos 0 "PACKAGE".toList p rfl rfl)
    · rcases this with ⟨h, -⟩ | ⟨-, p', h1, h2, h3⟩
      · cases h
      · cases h1
        exact ⟨p, rfl, h2, h3⟩
    · intro s s' b v hb hs
      exact (ehSetattr_keeps hs).1 hb
    · intro s s' v hs
      rw [ehSetattr_named (by rfl)] at hs
      unfold ehSetPackage at hs
      split at hs
      · split at hs
        · cases hs
        · rename_i u hu
          cases hs
          exact ⟨_, rfl, rfl, hu⟩
      · cases hs
  · obtain ⟨v, h1, h2⟩ := hopt ⟨["-o".toList, "--output".toList], .value .text, "output".toList⟩ (by decide +kernel) (by decide)
    rw [withFlag_eq hus (fl := "--output") (by decide +kernel)] at h1
    have := assigned_value (F := fun s => s.output) (R := fun v x => ∃ p : Str, v = .one (.text p) ∧ x = some p ∧ f.agrees p = .ok ())
      (c := c) (f := f) ?_ ?_ h h2
    · rcases h1 with ⟨h1, rfl⟩ | ⟨s, a, h1, h3, rfl⟩
      · rcases this with ⟨-, h⟩ | ⟨h, -⟩
        · have h : st.output = none := h
          exact ⟨.inl ⟨h1, h⟩, by intro x hx; rw [h] at hx; cases hx⟩
        · exact h.elim
      · rcases this with ⟨h, -⟩ | ⟨-, p, h4, h5, h6⟩
        · cases h
        · cases h4
          cases (show ArgAtom.text p = .text s from h3)
          refine ⟨.inr ⟨_, h1, h5⟩, fun x hx => ?_⟩
          rw [h5] at hx
          cases hx
          exact h6
    · intro s s' b v hb hs
      exact (ehSetattr_keeps hs).2.1 hb
    · intro s s' v hs
      rw [ehSetattr_named (by rfl)] at hs
      unfold ehSetOutput at hs
      split at hs
      · split at hs
        · cases hs
        · rename_i u hu
          cases hs
          exact ⟨_, rfl, rfl, hu⟩
      · cases hs

theorem eh_plain : PlainCommand exHwCmd := exPlain

/-- **C123.** If a command line for edit-hardware is carried out on a package, then it was carried out as the request that its options
state, in whatever order and spelling: the last number of each count, all values of each list in their order with their kinds checked, the
memory in megabytes, the known types under their full names, and nothing where no option was given.  The package is the one named on the
command line, which could be opened, and the output is that of the last `--output`, which was agreed to. -/
theorem C123_request_partial {g l : List Str} {gus us : List ArgUse} {ws : List Str} (hg : CmdLine mainParser g gus [])
    (hl : CmdLine editHardwareParser l us ws) (hp : ∀ u ∈ gus ++ us, ¬ OnlyPrints u.opt) (ha : ClearFor mainParser l) {cmd : EhCmd} {s s' : EhSt}
    (h : ehMain c f (g ++ "edit-hardware".toList :: l) s = .ok (cmd, s')) :
    (∃ q seen, EhAsks us q ∧ editHardware c q { s with seen := seen } = .ok s') ∧
      (∃ p, ws = [p] ∧ cmd.package = some p ∧ f.opens p = .ok ()) ∧ AskedOutput (withFlag "--output" us) cmd.output ∧
      ∀ x, cmd.output = some x → f.agrees x = .ok () := by
  have hP := optsOkB_sound (cot_tables exHwCmd eh_plain.1).1
  have hus : ∀ u ∈ us, u.opt ∈ editHardwareParser.opts := fun u hu => (uses_ok (fun o ho => (hP.opts o ho).norest) hl u hu).1
  by_cases hok : NoConflict gus ∧ RightLine editHardwareParser us ws
  · obtain ⟨m, hm, hn, ns, d, h1, h2, h3, h4⟩ := C121_reaches_partial eh_plain (.inl rfl) hg hl hp ha hok.1 hok.2
    obtain rfl := eh_page m hm hn
    unfold ehMain at h
    rw [show cotParse (g ++ "edit-hardware".toList :: l) = .ok ns from h1] at h
    dsimp only at h
    rw [h2] at h
    dsimp only at h
    cases hs : setAttributes (ehSetattr c f) d { seen := s.seen } with
    | mk r st =>
      rw [hs] at h
      obtain ⟨done, rest, e1, e2, e3⟩ := C103_set hs
      rcases e3 with ⟨rfl, rfl⟩ | ⟨e, a, v, rest', rfl, -, -⟩
      · rw [List.append_nil] at e1
        subst e1
        dsimp only at h
        cases hr : editHardware c st.req { s with seen := st.seen } with
        | error e => rw [hr] at h; cases h
        | ok s2 =>
          rw [hr] at h
          cases h
          exact ⟨⟨_, _, request_of hus h3 e2, hr⟩, places_of hus hok.2.1 h3 h4 e2⟩
      · cases h
  · have := (C120_means_partial eh_plain (.inl rfl) hg hl hp ha).2 hok
    unfold ehMain at h
    rw [show cotParse (g ++ "edit-hardware".toList :: l) = .error .usage from this] at h
    cases h

/-- **C123.** So after `cot … edit-hardware … --nics N …` every profile that was named, or every profile and the default if none was, has
exactly `N` NICs, where `N` is what the last `--nics` says; likewise for serial ports. -/
theorem C123_counts_partial {g l : List Str} {gus us : List ArgUse} {ws : List Str} (hg : CmdLine mainParser g gus [])
    (hl : CmdLine editHardwareParser l us ws) (hp : ∀ u ∈ gus ++ us, ¬ OnlyPrints u.opt) (ha : ClearFor mainParser l) {cmd : EhCmd} {s s' : EhSt}
    {env env' : Env} (hst : ∀ q seen, EhAsks us q → EhStart c q env { s with seen := seen })
    (h : ehMain c f (g ++ "edit-hardware".toList :: l) s = .ok (cmd, s')) (he : curEnv c s'.envl = .ok env') :
    ∃ L : Option (List Str), AskedList (fun s t => Padded s t ∧ ∀ c ∈ t, isWs c = false) (withFlag "--profiles" us) L ∧
      (withFlag "--nics" us ≠ [] → ∃ x n, (withFlag "--nics" us).getLast? = some [x] ∧ Numeral x n ∧ 0 ≤ n ∧
        ∀ p ∈ allProfilesIfEmpty env' ((L.getD []).map some), (countOf env' s'.hw "10".toList p : Int) = n) ∧
      (withFlag "--serial-ports" us ≠ [] → ∃ x n, (withFlag "--serial-ports" us).getLast? = some [x] ∧ Numeral x n ∧ 0 ≤ n ∧
        ∀ p ∈ allProfilesIfEmpty env' ((L.getD []).map some), (countOf env' s'.hw "21".toList p : Int) = n) := by
  obtain ⟨⟨q, seen, hq, hrun⟩, -⟩ := C123_request_partial hg hl hp ha h
  obtain ⟨k1, k2⟩ := C79_counts (hst q seen hq) hrun he
  refine ⟨q.profiles, hq.profiles, ?_, ?_⟩
  · intro hne
    rcases hq.nics with ⟨h0, -⟩ | ⟨x, n, h1, h2, h3, h4⟩
    · exact absurd h0 hne
    · refine ⟨x, n, h1, h2, h3, fun p hp => ?_⟩
      obtain ⟨m, hm, rfl⟩ := Option.map_eq_some_iff.1 h4
      rw [k1 m hm p hp]
      rfl
  · intro hne
    rcases hq.serialPorts with ⟨h0, -⟩ | ⟨x, n, h1, h2, h3, h4⟩
    · exact absurd h0 hne
    · refine ⟨x, n, h1, h2, h3, fun p hp => ?_⟩
      obtain ⟨m, hm, rfl⟩ := Option.map_eq_some_iff.1 h4
      rw [k2 m hm p hp]
      rfl

/-! ### Nothing else stands in the way -/

theorem sets_all {S α : Type} {set : S → Str → ArgVal α → Except Err S} {l : List (Str × ArgVal α)}
    (h : ∀ a v, (a, v) ∈ l → ∀ s, ∃ s', set s a v = .ok s') (s : S) : ∀ done rest s' e a v rest', done ++ rest = l → Sets set s done s' →
      rest = (a, v) :: rest' → set s' a v ≠ .error e := by
  intro done rest s' e a v rest' h1 _ h3 h4
  obtain ⟨s2, hs⟩ := h a v (by rw [← h1, h3]; simp) s'
  rw [hs] at h4
  cases h4

theorem ehCheck_insists (hask : ∀ a, c.ask a = true) (k : HwKind) (seen : ValCache) (v : Int) : ∃ seen', ehCheck c k seen v = .ok seen' := by
  unfold ehCheck
  have : ehValidate c (.badValue k v) (validateHw c.plat k seen v).1 = .ok () := by
    rw [ehValidate_ok]
    rcases validateHw_errors c.plat k seen v with h | h
    · exact .inl h
    · exact .inr ⟨h, hask _⟩
  rw [this]
  exact ⟨_, rfl⟩

theorem setTexts_some (F : EhReq → List Str → EhReq) (st : EhCmd) (ts : List Str) :
    ∃ st', setTexts F st (.list (ts.map (fun t => .one (.text t)))) = .ok st' := by
  unfold setTexts
  dsimp only
  rw [argTexts_ok.2 rfl]
  exact ⟨_, rfl⟩

theorem setConverted_some {G : List Str → Except Err (List Str)} (F : EhReq → List Str → EhReq) (st : EhCmd) {ts us : List Str}
    (h : G ts = .ok us) : ∃ st', setConverted G F st (.list (ts.map (fun t => .one (.text t)))) = .ok st' := by
  unfold setConverted
  dsimp only
  rw [argTexts_ok.2 rfl]
  dsimp only
  rw [h]
  exact ⟨_, rfl⟩

theorem setCountNum_some (hask : ∀ a, c.ask a = true) (k : HwKind) (F : EhReq → Nat → EhReq) (st : EhCmd) {n : Int} (h : 0 ≤ n) :
    ∃ st', setCountNum c k F st (.one (.int n)) = .ok st' := by
  unfold setCountNum
  dsimp only
  rw [if_neg (by omega)]
  obtain ⟨seen, hs⟩ := ehCheck_insists hask k st.seen n
  rw [hs]
  exact ⟨_, rfl⟩

/-- kinds of values that are texts -/
def TextKind (k : ArgType) : Prop := ∀ s a, ReadsAs k s a → ∃ t, a = .text t

theorem reaches_texts {k : ArgType} (hk : TextKind k) {given : List (List Str)} {v : ArgVal ArgAtom} (h : Reaches (.values k) given v)
    (hg : Given v) : ∃ ts : List Str, v = .list (ts.map (fun t => .one (.text t))) ∧ given.flatten.Forall₂ (ReadsAs k) (ts.map ArgAtom.text) := by
  rcases h with ⟨-, rfl⟩ | ⟨-, as, h2, rfl⟩
  · exact hg.elim
  · have : ∀ (ss : List Str) (as : List ArgAtom), ss.Forall₂ (ReadsAs k) as → ∃ ts : List Str, as = ts.map ArgAtom.text := by
      intro ss as h
      induction h with
      | nil => exact ⟨[], rfl⟩
      | cons h _ ih =>
        obtain ⟨t, rfl⟩ := hk _ _ h
        obtain ⟨ts, rfl⟩ := ih
        exact ⟨t :: ts, rfl⟩
    obtain ⟨ts, rfl⟩ := this _ _ h2
    exact ⟨ts, by rw [List.map_map]; rfl, h2⟩

/-- **C123.** A command line of options that fit together, with the package, is carried out as its request whenever the package can be
opened, the output is agreed to, the user insists on values that the platform does not support, the memory is a size, and the types of
NICs and controllers are known. -/
theorem C123_runs_partial {g l : List Str} {gus us : List ArgUse} {ws : List Str} (hg : CmdLine mainParser g gus [])
    (hl : CmdLine editHardwareParser l us ws) (hp : ∀ u ∈ gus ++ us, ¬ OnlyPrints u.opt) (ha : ClearFor mainParser l) (hnc : NoConflict gus)
    (hr : RightLine editHardwareParser us ws) (hask : ∀ a, c.ask a = true) (hopen : ∀ p ∈ ws, f.opens p = .ok ())
    (hagree : ∀ x, (withFlag "--output" us).getLast? = some [x] → f.agrees x = .ok ())
    (hmem : ∀ x, (withFlag "--memory" us).getLast? = some [x] → ∃ m, MemoryMeans x m)
    (hnic : ∀ x ∈ (withFlag "--nic-types" us).flatten, ∃ t, FirstMatch nicWords x t)
    (hscsi : ∀ x ∈ (withFlag "--scsi-subtypes" us).flatten, x ≠ [] → ∃ t, FirstMatch scsiWords x t)
    (hide : ∀ x ∈ (withFlag "--ide-subtypes" us).flatten, x ≠ [] → ∃ t, FirstMatch ideWords x t) (s : EhSt) :
    ∃ q seen cmd, EhAsks us q ∧ ehMain c f (g ++ "edit-hardware".toList :: l) s =
      (editHardware c q { s with seen := seen }).map (fun s' => (cmd, s')) := by
  have hP := optsOkB_sound (cot_tables exHwCmd eh_plain.1).1
  have hus : ∀ u ∈ us, u.opt ∈ editHardwareParser.opts := fun u hu => (uses_ok (fun o ho => (hP.opts o ho).norest) hl u hu).1
  obtain ⟨m, hm, hn, ns, d, h1, h2, h3, h4⟩ := C121_reaches_partial eh_plain (.inl rfl) hg hl hp ha hnc hr
  obtain rfl := eh_page m hm hn
  have get : ∀ (q : DocOption) (fl : String), q ∈ editHardwarePage.options → q.takes ≠ .prints →
      (∀ o ∈ editHardwareParser.opts, (∃ g ∈ q.flags, g ∈ o.flags) ↔ fl.toList ∈ o.flags) →
      ∀ v, (q.sets, v) ∈ Assignments d → Reaches q.takes (withFlag fl us) v ∧ Given v := by
    intro q fl hq hn hf v hv
    rw [← withFlag_eq hus hf]
    obtain ⟨w, k1, k2⟩ := h3 q hq hn
    obtain ⟨rfl, k3⟩ := (k2 v).1 hv
    exact ⟨k1, k3⟩
  have known : ∀ (T : List (List Str × Str)) (ss : List Str), (∀ x ∈ ss, ∃ t, FirstMatch T x t) → ∃ us, List.Forall₂ (FirstMatch T) ss us := by
    intro T ss h
    induction ss with
    | nil => exact ⟨[], .nil⟩
    | cons x ss ih =>
      obtain ⟨t, ht⟩ := h x List.mem_cons_self
      obtain ⟨us, hu⟩ := ih (fun y hy => h y (List.mem_cons_of_mem _ hy))
      exact ⟨t :: us, .cons ht hu⟩
  have kt : TextKind .text := fun s a h => ⟨s, h⟩
  have kn : TextKind .noSpace := fun s a h => by obtain ⟨t, h, -⟩ := h; exact ⟨t, h⟩
  have km : TextKind .mac := fun s a h => by obtain ⟨t, h, -⟩ := h; exact ⟨t, h⟩
  have all : ∀ a v, (a, v) ∈ Assignments d → ∀ s, ∃ s', ehSetattr c f s a v = .ok s' := by
    intro a v hv st
    unfold ehSetattr
    cases hgt : dget? (ehSetters c f) a with
    | none => exact ⟨st, rfl⟩
    | some gt =>
      dsimp only
      have hmem' := dget?_mem hgt
      unfold ehSetters at hmem'
      simp only [List.mem_cons, List.not_mem_nil, or_false, Prod.mk.injEq] at hmem'
      rcases hmem' with ⟨rfl, rfl⟩ | ⟨rfl, rfl⟩ | ⟨rfl, rfl⟩ | ⟨rfl, rfl⟩ | ⟨rfl, rfl⟩ | ⟨rfl, rfl⟩ | ⟨rfl, rfl⟩ | ⟨rfl, rfl⟩ | ⟨rfl, rfl⟩ |
        ⟨rfl, rfl⟩ | ⟨rfl, rfl⟩ | ⟨rfl, rfl⟩ | ⟨rfl, rfl⟩ | ⟨rfl, rfl⟩ | ⟨rfl, rfl⟩ | ⟨rfl, rfl⟩ | ⟨rfl, rfl⟩
      · have hlen : ws.length = 1 := hr.1
        obtain ⟨p, rfl⟩ : ∃ p, ws = [p] := by
          match ws, hlen with
          | [p], _ => exact ⟨p, rfl⟩
        obtain ⟨rfl, -⟩ := (h4 0 "PACKAGE".toList p rfl rfl v).1 hv
        unfold ehSetPackage
        dsimp only
        rw [hopen p List.mem_cons_self]
        exact ⟨_, rfl⟩
      · obtain ⟨k1, k2⟩ := get ⟨["-o".toList, "--output".toList], .value .text, "output".toList⟩ "--output" (by decide +kernel) (by decide)
          (by decide +kernel) v hv
        rcases k1 with ⟨-, rfl⟩ | ⟨x, a, e1, e2, rfl⟩
        · exact k2.elim
        · obtain rfl : a = .text x := e2
          unfold ehSetOutput
          dsimp only
          rw [hagree x e1]
          exact ⟨_, rfl⟩
      · obtain ⟨k1, k2⟩ := get ⟨["-p".toList, "--profiles".toList], .values .noSpace, "profiles".toList⟩ "--profiles" (by decide +kernel)
          (by decide) (by decide +kernel) v hv
        obtain ⟨ts, rfl, -⟩ := reaches_texts kn k1 k2
        exact setTexts_some _ _ _
      · obtain ⟨k1, -⟩ := get ⟨["--delete-all-other-profiles".toList], .flag, "delete_all_other_profiles".toList⟩ "--delete-all-other-profiles"
          (by decide +kernel) (by decide) (by decide +kernel) v hv
        have k1 : v = .one (.truth (decide (withFlag "--delete-all-other-profiles" us ≠ []))) := k1
        subst k1
        exact ⟨_, rfl⟩
      · obtain ⟨k1, k2⟩ := get ⟨["-v".toList, "--virtual-system-type".toList], .values .noSpace, "virtual_system_type".toList⟩
          "--virtual-system-type" (by decide +kernel) (by decide) (by decide +kernel) v hv
        obtain ⟨ts, rfl, -⟩ := reaches_texts kn k1 k2
        exact setTexts_some _ _ _
      · obtain ⟨k1, k2⟩ := get ⟨["-c".toList, "--cpus".toList], .value .positive, "cpus".toList⟩ "--cpus" (by decide +kernel) (by decide)
          (by decide +kernel) v hv
        rcases k1 with ⟨-, rfl⟩ | ⟨x, a, e1, ⟨n, rfl, -, hn⟩, rfl⟩
        · exact k2.elim
        · unfold setCpusNum
          dsimp only
          rw [if_neg (by omega)]
          obtain ⟨seen, hs⟩ := ehCheck_insists hask .cpus st.seen n
          rw [hs]
          exact ⟨_, rfl⟩
      · obtain ⟨k1, k2⟩ := get ⟨["-m".toList, "--memory".toList], .value .text, "memory".toList⟩ "--memory" (by decide +kernel) (by decide)
          (by decide +kernel) v hv
        rcases k1 with ⟨-, rfl⟩ | ⟨x, a, e1, e2, rfl⟩
        · exact k2.elim
        · obtain rfl : a = .text x := e2
          obtain ⟨m, hm⟩ := hmem x e1
          unfold setMemoryText setMemoryArg
          dsimp only
          rw [memoryMeans_iff.2 hm]
          obtain ⟨seen, hs⟩ := ehCheck_insists hask .memory st.seen m
          dsimp only
          rw [hs]
          exact ⟨_, rfl⟩
      · obtain ⟨k1, k2⟩ := get ⟨["-n".toList, "--nics".toList], .value .nonNegative, "nics".toList⟩ "--nics" (by decide +kernel) (by decide)
          (by decide +kernel) v hv
        rcases k1 with ⟨-, rfl⟩ | ⟨x, a, e1, ⟨n, rfl, -, hn⟩, rfl⟩
        · exact k2.elim
        · exact setCountNum_some hask _ _ _ hn
      · obtain ⟨k1, k2⟩ := get ⟨["--nic-types".toList], .values .text, "nic_types".toList⟩ "--nic-types" (by decide +kernel) (by decide)
          (by decide +kernel) v hv
        obtain ⟨ts, rfl, hf⟩ := reaches_texts kt k1 k2
        obtain ⟨us', hu⟩ := known nicWords ts (by rw [← forall₂_same hf]; exact hnic)
        exact setConverted_some _ _ ((C82_nic_types ts us').2 ⟨hu, .inr (hask _)⟩)
      · obtain ⟨k1, k2⟩ := get ⟨["--nic-names".toList], .values .text, "nic_names".toList⟩ "--nic-names"
          (by decide +kernel) (by decide) (by decide +kernel) v hv
        obtain ⟨ts, rfl, -⟩ := reaches_texts kt k1 k2
        exact setTexts_some _ _ _
      · obtain ⟨k1, k2⟩ := get ⟨["-N".toList, "--nic-networks".toList], .values .text, "nic_networks".toList⟩ "--nic-networks"
          (by decide +kernel) (by decide) (by decide +kernel) v hv
        obtain ⟨ts, rfl, -⟩ := reaches_texts kt k1 k2
        exact setTexts_some _ _ _
      · obtain ⟨k1, k2⟩ := get ⟨["--network-descriptions".toList], .values .text, "network_descriptions".toList⟩ "--network-descriptions"
          (by decide +kernel) (by decide) (by decide +kernel) v hv
        obtain ⟨ts, rfl, -⟩ := reaches_texts kt k1 k2
        exact setTexts_some _ _ _
      · obtain ⟨k1, k2⟩ := get ⟨["-M".toList, "--mac-addresses-list".toList], .values .mac, "mac_addresses_list".toList⟩ "--mac-addresses-list"
          (by decide +kernel) (by decide) (by decide +kernel) v hv
        obtain ⟨ts, rfl, -⟩ := reaches_texts km k1 k2
        exact setTexts_some _ _ _
      · obtain ⟨k1, k2⟩ := get ⟨["-s".toList, "--serial-ports".toList], .value .nonNegative, "serial_ports".toList⟩ "--serial-ports"
          (by decide +kernel) (by decide) (by decide +kernel) v hv
        rcases k1 with ⟨-, rfl⟩ | ⟨x, a, e1, ⟨n, rfl, -, hn⟩, rfl⟩
        · exact k2.elim
        · exact setCountNum_some hask _ _ _ hn
      · obtain ⟨k1, k2⟩ := get ⟨["-S".toList, "--serial-connectivity".toList], .values .text, "serial_connectivity".toList⟩
          "--serial-connectivity" (by decide +kernel) (by decide) (by decide +kernel) v hv
        obtain ⟨ts, rfl, -⟩ := reaches_texts kt k1 k2
        exact setTexts_some _ _ _
      · obtain ⟨k1, k2⟩ := get ⟨["--scsi-subtypes".toList], .values .text, "scsi_subtypes".toList⟩ "--scsi-subtypes" (by decide +kernel) (by decide)
          (by decide +kernel) v hv
        obtain ⟨ts, rfl, hf⟩ := reaches_texts kt k1 k2
        obtain ⟨us', hu⟩ := known scsiWords (ts.filter (fun t => decide (t ≠ []))) (by
          rw [← forall₂_same hf]
          intro x hx
          rw [List.mem_filter, decide_eq_true_eq] at hx
          exact hscsi x hx.1 hx.2)
        exact setConverted_some _ _ ((C82_controller_types ts us').1.2 hu)
      · obtain ⟨k1, k2⟩ := get ⟨["--ide-subtypes".toList], .values .text, "ide_subtypes".toList⟩ "--ide-subtypes" (by decide +kernel) (by decide)
          (by decide +kernel) v hv
        obtain ⟨ts, rfl, hf⟩ := reaches_texts kt k1 k2
        obtain ⟨us', hu⟩ := known ideWords (ts.filter (fun t => decide (t ≠ []))) (by
          rw [← forall₂_same hf]
          intro x hx
          rw [List.mem_filter, decide_eq_true_eq] at hx
          exact hide x hx.1 hx.2)
        exact setConverted_some _ _ ((C82_controller_types ts us').2.2 hu)
  cases hs : setAttributes (ehSetattr c f) d { seen := s.seen } with
  | mk r st =>
    obtain ⟨done, rest, e1, e2, e3⟩ := C103_set hs
    rcases e3 with ⟨rfl, rfl⟩ | ⟨e, a, v, rest', rfl, e4, e5⟩
    · rw [List.append_nil] at e1
      subst e1
      refine ⟨st.req, st.seen, st, request_of hus h3 e2, ?_⟩
      unfold ehMain
      rw [show cotParse (g ++ "edit-hardware".toList :: l) = .ok ns from h1]
      dsimp only
      rw [h2]
      dsimp only
      rw [hs]
      dsimp only
      cases editHardware c st.req { s with seen := st.seen } <;> rfl
    · exact absurd e5 (sets_all all _ done rest st e a v rest' e1 e2 e4)

/-- **C123.** A command line that says nothing but the package, and perhaps the output, is refused. -/
theorem C123_nothing_partial {g l : List Str} {gus us : List ArgUse} {ws : List Str} (hg : CmdLine mainParser g gus [])
    (hl : CmdLine editHardwareParser l us ws) (hp : ∀ u ∈ gus ++ us, ¬ OnlyPrints u.opt) (ha : ClearFor mainParser l)
    (hno : ∀ u ∈ us, "--output".toList ∈ u.opt.flags) (s : EhSt) (r : EhCmd × EhSt) : ehMain c f (g ++ "edit-hardware".toList :: l) s ≠ .ok r := by
  intro h
  obtain ⟨⟨q, seen, hq, hrun⟩, -⟩ := C123_request_partial hg hl hp ha h
  have hP := optsOkB_sound (cot_tables exHwCmd eh_plain.1).1
  have hus : ∀ u ∈ us, u.opt ∈ editHardwareParser.opts := fun u hu => (uses_ok (fun o ho => (hP.opts o ho).norest) hl u hu).1
  have none : ∀ fl : String, (∀ o ∈ editHardwareParser.opts, "--output".toList ∈ o.flags → fl.toList ∉ o.flags) → withFlag fl us = [] := by
    intro fl hf
    unfold withFlag
    rw [List.map_eq_nil_iff, List.filter_eq_nil_iff]
    intro u hu
    simpa using hf u.opt (hus u hu) (hno u hu)
  have lst : ∀ {R : Str → Str → Prop} {x : Option (List Str)}, AskedList R [] x → x = .none := by
    rintro R x (⟨-, h⟩ | ⟨h, -⟩)
    · exact h
    · exact absurd rfl h
  have num : ∀ {k : Int} {x : Option Int}, AskedNumber k [] x → x = .none := by
    rintro k x (⟨-, h⟩ | ⟨s, n, h, -⟩)
    · exact h
    · cases h
  obtain ⟨q1, q2, q3, q4, q5, q6, q7, q8, q9, q10, q11, q12, q13, q14, q15⟩ := hq
  rw [none "--profiles" (by decide +kernel)] at q1
  rw [none "--delete-all-other-profiles" (by decide +kernel)] at q2
  rw [none "--virtual-system-type" (by decide +kernel)] at q3
  rw [none "--cpus" (by decide +kernel)] at q4
  rw [none "--memory" (by decide +kernel)] at q5
  rw [none "--nics" (by decide +kernel)] at q6
  rw [none "--nic-types" (by decide +kernel)] at q7
  rw [none "--mac-addresses-list" (by decide +kernel)] at q8
  rw [none "--nic-networks" (by decide +kernel)] at q9
  rw [none "--network-descriptions" (by decide +kernel)] at q10
  rw [none "--nic-names" (by decide +kernel)] at q11
  rw [none "--serial-ports" (by decide +kernel)] at q12
  rw [none "--serial-connectivity" (by decide +kernel)] at q13
  rw [none "--scsi-subtypes" (by decide +kernel)] at q14
  rw [none "--ide-subtypes" (by decide +kernel)] at q15
  have hq : q = {} := by
    cases q
    simp only [EhReq.mk.injEq]
    refine ⟨lst q1, by simpa using q2, lst q3, num q4, ?_, by simpa using num q6, lst q7, lst q8, lst q9, lst q10, lst q11, by simpa using num q12,
      lst q13, lst q14, lst q15⟩
    rcases q5 with ⟨-, h⟩ | ⟨s, m, h, -⟩
    · exact h
    · cases h
  subst hq
  rw [C76_refuses] at hrun
  cases hrun

/-! ### Examples -/

/-- a package that opens, and an output that nobody minds -/
def exEhFiles : EhFiles := ⟨fun _ => .ok (), fun _ => .ok ()⟩

/-- `cot -f edit-hardware a.ovf --nic-names x y --nic-na z --nics=2 -o b.ovf` is carried out as the request for two NICs and three names -/
example (s : EhSt) : ∃ q seen cmd, q.nics = some 2 ∧ q.nicNames = some ["x".toList, "y".toList, "z".toList] ∧ q.cpus = none ∧
    ehMain exEhCtx exEhFiles (["-f".toList] ++ "edit-hardware".toList ::
      ["a.ovf".toList, "--nic-names".toList, "x".toList, "y".toList, "--nic-na".toList, "z".toList, "--nics".toList ++ '=' :: "2".toList,
        "-o".toList, "b.ovf".toList]) s = (editHardware exEhCtx q { s with seen := seen }).map (fun s' => (cmd, s')) := by
  obtain ⟨q, seen, cmd, hq, hrun⟩ := C123_runs_partial (c := exEhCtx) (f := exEhFiles) exGlobal (exLine "2".toList) (exPrints _) (exClear _ (.inl rfl))
    (by simp [NoConflict]) exRight (fun _ => rfl) (fun _ _ => rfl) (fun _ _ => rfl) (by intro x hx; cases hx) (by intro x hx; cases hx)
    (by intro x hx; cases hx) (by intro x hx; cases hx) s
  refine ⟨q, seen, cmd, ?_, ?_, ?_, hrun⟩
  · rcases hq.nics with ⟨h, -⟩ | ⟨x, n, h1, h2, h0, h3⟩
    · cases h
    · have : x = "2".toList := by
        have h1 : some ["2".toList] = some [x] := h1
        simp only [Option.some.injEq, List.cons.injEq, and_true] at h1
        exact h1.symm
      subst this
      have k1 : argAtom exNics "2".toList = .ok (.int 2) := by decide +kernel
      have k2 := (argAtom_iff exNics "2".toList (.int n)).2 ⟨⟨n, rfl, h2, h0⟩, by intro cs h; cases h⟩
      rw [k1] at k2
      cases k2
      obtain ⟨m, hm, hm2⟩ := Option.map_eq_some_iff.1 h3
      cases hm2
      exact hm
  · rcases hq.nicNames with ⟨h, -⟩ | ⟨-, l, h1, h2⟩
    · cases h
    · rw [h2, ← (List.forall₂_eq_eq_eq ▸ h1 : _ = l)]
      rfl
  · rcases hq.cpus with ⟨-, h⟩ | ⟨x, n, h1, -⟩
    · exact h
    · cases h1

end Cot
