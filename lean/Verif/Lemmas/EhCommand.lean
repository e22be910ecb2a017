import Verif.Spec.EhCommand
import Verif.Model.EhCommand
import Verif.Props.EditHardwareArgs
import Verif.Props.Wildcard
import Verif.Props.Manual
/-
The attributes of the command edit-hardware after the command line has been handed over.
-/
namespace Cot

variable {c : EhCtx} {f : EhFiles}

/-- an attribute that only its own assignment changes -/
theorem sets_keep {S α β : Type} {set : S → Str → ArgVal α → Except Err S} {F : S → β} {a : Str}
    (hk : ∀ s s' b v, b ≠ a → set s b v = .ok s' → F s' = F s) {s s' : S} {l : List (Str × ArgVal α)} (h : Sets set s l s')
    (hl : ∀ x, (a, x) ∉ l) : F s' = F s := by
  induction h with
  | nil => rfl
  | @cons s s1 s2 b v r h1 _ ih =>
    rw [ih (fun x hx => hl x (List.mem_cons_of_mem _ hx))]
    exact hk _ _ b v (fun e => hl v (e ▸ List.mem_cons_self)) h1

theorem sets_last {S α β : Type} {set : S → Str → ArgVal α → Except Err S} {F : S → β} {a : Str} {R : ArgVal α → β → Prop}
    (hk : ∀ s s' b v, b ≠ a → set s b v = .ok s' → F s' = F s) (hr : ∀ s s' v, set s a v = .ok s' → R v (F s'))
    {s s' : S} {l : List (Str × ArgVal α)} (h : Sets set s l s') {v : ArgVal α} (hv : ∀ x, (a, x) ∈ l → x = v) (hm : (a, v) ∈ l) :
    R v (F s') := by
  induction h with
  | nil => cases hm
  | @cons s s1 s2 b w r h1 h2 ih =>
    by_cases hrest : (a, v) ∈ r
    · exact ih (fun x hx => hv x (List.mem_cons_of_mem _ hx)) hrest
    · rcases List.mem_cons.1 hm with he | he
      · cases he
        rw [sets_keep hk h2 (fun x hx => hrest (hv x (List.mem_cons_of_mem _ hx) ▸ hx))]
        exact hr _ _ _ h1
      · exact absurd he hrest

/-- what an attribute is after all assignments -/
theorem assigned_value {β : Type} {F : EhCmd → β} {a : Str} {R : ArgVal ArgAtom → β → Prop}
    (hk : ∀ s s' b v, b ≠ a → ehSetattr c f s b v = .ok s' → F s' = F s) (hr : ∀ s s' v, ehSetattr c f s a v = .ok s' → R v (F s'))
    {d : List (Str × ArgVal ArgAtom)} {s s' : EhCmd} (h : Sets (ehSetattr c f) s (Assignments d) s') {v : ArgVal ArgAtom} (hv : Assigned d a v) :
    (v = .absent ∧ F s' = F s) ∨ (Given v ∧ R v (F s')) := by
  by_cases hg : Given v
  · exact .inr ⟨hg, sets_last hk hr h (fun x hx => ((hv x).1 hx).1) ((hv v).2 ⟨rfl, hg⟩)⟩
  · refine .inl ⟨?_, sets_keep hk h (fun x hx => hg ((hv x).1 hx).2)⟩
    cases v with
    | absent => rfl
    | one x => exact absurd trivial hg
    | list l => exact absurd trivial hg

/-- every attribute is set by its own name only -/
theorem ehSetattr_keeps {s s' : EhCmd} {b : Str} {v : ArgVal ArgAtom} (h : ehSetattr c f s b v = .ok s') :
    (b ≠ "package".toList → s'.package = s.package) ∧ (b ≠ "output".toList → s'.output = s.output) ∧
    (b ≠ "profiles".toList → s'.req.profiles = s.req.profiles) ∧
    (b ≠ "delete_all_other_profiles".toList → s'.req.deleteOthers = s.req.deleteOthers) ∧
    (b ≠ "virtual_system_type".toList → s'.req.systemTypes = s.req.systemTypes) ∧
    (b ≠ "cpus".toList → s'.req.cpus = s.req.cpus) ∧ (b ≠ "memory".toList → s'.req.memory = s.req.memory) ∧
    (b ≠ "nics".toList → s'.req.nics = s.req.nics) ∧ (b ≠ "nic_types".toList → s'.req.nicTypes = s.req.nicTypes) ∧
    (b ≠ "nic_names".toList → s'.req.nicNames = s.req.nicNames) ∧ (b ≠ "nic_networks".toList → s'.req.networks = s.req.networks) ∧
    (b ≠ "network_descriptions".toList → s'.req.descriptions = s.req.descriptions) ∧
    (b ≠ "mac_addresses_list".toList → s'.req.macs = s.req.macs) ∧ (b ≠ "serial_ports".toList → s'.req.serialPorts = s.req.serialPorts) ∧
    (b ≠ "serial_connectivity".toList → s'.req.serialConn = s.req.serialConn) ∧
    (b ≠ "scsi_subtypes".toList → s'.req.scsi = s.req.scsi) ∧ (b ≠ "ide_subtypes".toList → s'.req.ide = s.req.ide) := by
  unfold ehSetattr at h
  cases hg : dget? (ehSetters c f) b with
  | none =>
    rw [hg] at h
    cases h
    simp
  | some g =>
    rw [hg] at h
    dsimp only at h
    have hm := dget?_mem hg
    unfold ehSetters at hm
    simp only [List.mem_cons, List.not_mem_nil, or_false, Prod.mk.injEq] at hm
    rcases hm with ⟨rfl, rfl⟩ | ⟨rfl, rfl⟩ | ⟨rfl, rfl⟩ | ⟨rfl, rfl⟩ | ⟨rfl, rfl⟩ | ⟨rfl, rfl⟩ | ⟨rfl, rfl⟩ | ⟨rfl, rfl⟩ | ⟨rfl, rfl⟩ |
      ⟨rfl, rfl⟩ | ⟨rfl, rfl⟩ | ⟨rfl, rfl⟩ | ⟨rfl, rfl⟩ | ⟨rfl, rfl⟩ | ⟨rfl, rfl⟩ | ⟨rfl, rfl⟩ | ⟨rfl, rfl⟩
    all_goals
      simp only [ehSetPackage, ehSetOutput, setTexts, setDelete, setCpusNum, setMemoryText, setCountNum, setConverted] at h
      repeat' split at h
      all_goals cases h
      all_goals refine ⟨?_, ?_, ?_, ?_, ?_, ?_, ?_, ?_, ?_, ?_, ?_, ?_, ?_, ?_, ?_, ?_, ?_⟩ <;> intro hne <;> first | rfl | exact absurd rfl hne

theorem ehSetattr_named {a : Str} {g : EhCmd → ArgVal ArgAtom → Except Err EhCmd} (hg : dget? (ehSetters c f) a = some g) (s : EhCmd)
    (v : ArgVal ArgAtom) : ehSetattr c f s a v = g s v := by
  unfold ehSetattr
  rw [hg]

theorem argTexts_ok {l : List (ArgElem ArgAtom)} {ts : List Str} : argTexts l = .ok ts ↔ l = ts.map (fun t => .one (.text t)) := by
  induction l generalizing ts with
  | nil => cases ts <;> simp [argTexts]
  | cons x l ih =>
    cases x with
    | many y => cases ts <;> simp [argTexts]
    | one y =>
      cases y with
      | int n => cases ts <;> simp [argTexts]
      | truth b => cases ts <;> simp [argTexts]
      | text t =>
        simp only [argTexts]
        cases hr : argTexts l with
        | error e =>
          cases ts with
          | nil => simp
          | cons t' ts =>
            simp only [List.map_cons, List.cons.injEq, reduceCtorEq, false_iff, not_and]
            intro _ h
            rw [ih.2 h] at hr
            cases hr
        | ok l' =>
          obtain rfl := ih.1 hr
          cases ts with
          | nil => simp
          | cons t' ts =>
            simp only [Except.ok.injEq, List.cons.injEq, List.map_cons, ArgElem.one.injEq, ArgAtom.text.injEq]
            constructor
            · rintro ⟨rfl, rfl⟩; exact ⟨rfl, rfl⟩
            · rintro ⟨rfl, h⟩
              refine ⟨rfl, ?_⟩
              have := ih.2 h
              rw [hr] at this
              exact Except.ok.inj this

theorem setTexts_ok {F : EhReq → List Str → EhReq} {s s' : EhCmd} {v : ArgVal ArgAtom} (h : setTexts F s v = .ok s') :
    ∃ ts : List Str, v = .list (ts.map (fun t => .one (.text t))) ∧ s' = { s with req := F s.req ts } := by
  unfold setTexts at h
  split at h
  · split at h
    · cases h
    · rename_i ts ht
      cases h
      exact ⟨ts, by rw [argTexts_ok.1 ht], rfl⟩
  · cases h

theorem setConverted_ok {G : List Str → Except Err (List Str)} {F : EhReq → List Str → EhReq} {s s' : EhCmd} {v : ArgVal ArgAtom}
    (h : setConverted G F s v = .ok s') :
    ∃ ts us : List Str, v = .list (ts.map (fun t => .one (.text t))) ∧ G ts = .ok us ∧ s' = { s with req := F s.req us } := by
  unfold setConverted at h
  split at h
  · split at h
    · cases h
    · rename_i ts ht
      split at h
      · cases h
      · rename_i us hu
        cases h
        exact ⟨ts, us, by rw [argTexts_ok.1 ht], hu, rfl⟩
  · cases h

theorem setCountNum_ok {k : HwKind} {F : EhReq → Nat → EhReq} {s s' : EhCmd} {v : ArgVal ArgAtom} (h : setCountNum c k F s v = .ok s') :
    ∃ n : Nat, v = .one (.int n) ∧ ∃ seen, s' = { s with seen := seen, req := F s.req n } := by
  unfold setCountNum at h
  split at h
  · split at h
    · cases h
    · rename_i n hn
      split at h
      · cases h
      · cases h
        obtain ⟨m, rfl⟩ := Int.eq_ofNat_of_zero_le (by omega : 0 ≤ n)
        exact ⟨m, rfl, _, rfl⟩
  · cases h

theorem memoryMeans_iff {s : Str} {m : Nat} : parseMemory s = .ok m ↔ MemoryMeans s m := by
  constructor
  · intro h
    by_cases hm : ∃ n u, IsMemory s n u
    · obtain ⟨n, u, hn⟩ := hm
      rw [C34_memory hn] at h
      split at h
      · cases h
      · rename_i h0
        refine ⟨n, u, hn, h0, ?_⟩
        have := (Except.ok.inj h).symm
        cases u <;> exact this
    · rw [C34_rejects hm] at h
      cases h
  · rintro ⟨n, u, hn, h0, rfl⟩
    rw [C34_memory hn, if_neg h0]
    cases u <;> rfl

/-! ### The flags -/

/-- in the parser of edit-hardware one flag tells the option -/
theorem withFlag_eq {us : List ArgUse} (hus : ∀ u ∈ us, u.opt ∈ editHardwareParser.opts) {d : DocOption} {fl : String}
    (hd : ∀ o ∈ editHardwareParser.opts, (∃ g ∈ d.flags, g ∈ o.flags) ↔ fl.toList ∈ o.flags) : givenWith d us = withFlag fl us := by
  unfold givenWith withFlag
  congr 1
  apply List.filter_congr
  intro u hu
  rw [decide_eq_decide]
  exact hd u.opt (hus u hu)

theorem forall₂_texts {k : ArgType} {R : Str → Str → Prop} (hR : ∀ s t, ReadsAs k s (.text t) → R s t) {ss ts : List Str}
    (h : ss.Forall₂ (ReadsAs k) (ts.map ArgAtom.text)) : ss.Forall₂ R ts := by
  rw [List.forall₂_map_right_iff] at h
  exact h.imp (fun s t => hR s t)

theorem list_one_inj {as : List ArgAtom} {ts : List Str}
    (h : (ArgVal.list (as.map ArgElem.one) : ArgVal ArgAtom) = .list (ts.map (fun t => .one (.text t)))) : as = ts.map ArgAtom.text := by
  simp only [ArgVal.list.injEq] at h
  have : ts.map (fun t => ArgElem.one (ArgAtom.text t)) = (ts.map ArgAtom.text).map ArgElem.one := by rw [List.map_map]; rfl
  rw [this] at h
  exact (List.map_injective_iff.2 (fun a b hab => by cases hab; rfl)) h

end Cot
