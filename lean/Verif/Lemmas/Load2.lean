import Verif.Lemmas.Load
import Verif.Lemmas.HwBasic
/-
Loading a hardware section: it amounts to loading the elements of each instance by themselves.
-/
namespace Cot

/-- the item elements are added to -/
def startItem (hw : Hw) (id : Str) : Item := (dget? hw id).getD emptyItem

/-- the elements of one instance -/
def ofId (v : Ver) (id : Str) (els : List Elem) : List Elem := els.filter (fun e => decide (itemId v e = some id))

/-- an element that loading can make sense of: not an Item, or one with an InstanceID and with known profiles -/
def Loadable (env : Env) (e : Elem) : Prop :=
  namespaceForItemTag env.ver e.tag = none ∨
  ∃ id, itemId env.ver e = some id ∧ ∀ p ∈ elemNames env.ver e, p ∈ env.configProfiles

theorem itemId_of_ns {v : Ver} {e : Elem} (h : namespaceForItemTag v e.tag = none) : itemId v e = none := by
  unfold itemId; rw [h]

theorem loadOne_inv {env : Env} {hw hw' : Hw} {e : Elem} (h : loadOne env hw e = .ok hw') :
    (namespaceForItemTag env.ver e.tag = none ∧ hw' = hw) ∨
    ∃ id it', itemId env.ver e = some id ∧ (∀ p ∈ elemNames env.ver e, p ∈ env.configProfiles) ∧
      (startItem hw id).addItem env e = .ok it' ∧ hw' = dset hw id it' := by
  unfold loadOne at h
  cases hn : namespaceForItemTag env.ver e.tag with
  | none => rw [hn] at h; cases h; exact Or.inl ⟨rfl, rfl⟩
  | some ns =>
    right
    rw [hn] at h
    simp only at h
    cases hf : e.children.find? (fun c => c.tag == ns ++ instanceId env.ver) with
    | none => rw [hf] at h; cases h
    | some c =>
      rw [hf] at h
      simp only at h
      cases ht : c.text with
      | none => rw [ht] at h; cases h
      | some id =>
        rw [ht] at h
        simp only at h
        by_cases hp : ∃ p ∈ elemNames env.ver e, p ∉ env.configProfiles
        · rw [if_pos hp] at h; cases h
        · rw [if_neg hp] at h
          have hid : itemId env.ver e = some id := by unfold itemId; rw [hn]; simp only [hf, ht]
          have hp' : ∀ p ∈ elemNames env.ver e, p ∈ env.configProfiles := by
            intro p hpm; by_contra hc; exact hp ⟨p, hpm, hc⟩
          cases hd : dget? hw id with
          | none =>
            rw [hd] at h
            simp only at h
            cases ha : emptyItem.addItem env e with
            | error x => rw [ha] at h; cases h
            | ok it' => rw [ha] at h; cases h; exact ⟨id, it', hid, hp', by unfold startItem; rw [hd]; exact ha, rfl⟩
          | some it =>
            rw [hd] at h
            simp only at h
            cases ha : it.addItem env e with
            | error x => rw [ha] at h; cases x <;> cases h
            | ok it' => rw [ha] at h; cases h; exact ⟨id, it', hid, hp', by unfold startItem; rw [hd]; exact ha, rfl⟩

theorem loadOne_ok {env : Env} {hw : Hw} {e : Elem} {id : Str} {it' : Item} (hid : itemId env.ver e = some id)
    (hp : ∀ p ∈ elemNames env.ver e, p ∈ env.configProfiles) (ha : (startItem hw id).addItem env e = .ok it') :
    loadOne env hw e = .ok (dset hw id it') := by
  unfold itemId at hid
  unfold loadOne
  cases hn : namespaceForItemTag env.ver e.tag with
  | none => rw [hn] at hid; cases hid
  | some ns =>
    rw [hn] at hid
    simp only at hid ⊢
    cases hf : e.children.find? (fun c => c.tag == ns ++ instanceId env.ver) with
    | none => rw [hf] at hid; cases hid
    | some c =>
      rw [hf] at hid
      simp only at hid ⊢
      rw [hid]
      simp only
      rw [if_neg (by rintro ⟨p, h1, h2⟩; exact h2 (hp p h1))]
      unfold startItem at ha
      cases hd : dget? hw id with
      | none => rw [hd] at ha; simp only [Option.getD_none] at ha; simp only [ha]
      | some it => rw [hd] at ha; simp only [Option.getD_some] at ha; simp only [ha]

theorem startItem_dset (hw : Hw) (id id' : Str) (it : Item) :
    startItem (dset hw id it) id' = if id = id' then it else startItem hw id' := by
  unfold startItem
  rw [dget?_dset]
  split <;> rfl

theorem ofId_cons (v : Ver) (id : Str) (e : Elem) (r : List Elem) :
    ofId v id (e :: r) = if itemId v e = some id then e :: ofId v id r else ofId v id r := by
  unfold ofId
  rw [List.filter_cons]
  by_cases h : itemId v e = some id
  · rw [if_pos h, if_pos (by simp [h])]
  · rw [if_neg h, if_neg (by simp [h])]

/-- what loading has done, per instance -/
theorem loadLoop_inv {env : Env} : ∀ (els : List Elem) {hw hw' : Hw}, loadLoop env els hw = .ok hw' →
    (∀ e ∈ els, Loadable env e) ∧
    (∀ id, addItems env (ofId env.ver id els) (startItem hw id) = .ok (startItem hw' id)) ∧
    (∀ id, id ∈ dkeys hw' ↔ id ∈ dkeys hw ∨ ∃ e ∈ els, itemId env.ver e = some id) ∧
    ((dkeys hw).Nodup → (dkeys hw').Nodup)
  | [], hw, hw', h => by
    simp only [loadLoop, Except.ok.injEq] at h
    subst h
    exact ⟨by simp, fun id => rfl, by simp, id⟩
  | e :: r, hw, hw', h => by
    rw [loadLoop] at h
    cases h1 : loadOne env hw e with
    | error x => rw [h1] at h; cases h
    | ok hw1 =>
      rw [h1] at h
      simp only at h
      obtain ⟨g1, g2, g3, g4⟩ := loadLoop_inv r h
      rcases loadOne_inv h1 with ⟨hn, rfl⟩ | ⟨id0, it', hid, hp, ha, rfl⟩
      · have hno := itemId_of_ns hn
        refine ⟨?_, ?_, ?_, g4⟩
        · rw [List.forall_mem_cons]; exact ⟨Or.inl hn, g1⟩
        · intro id; rw [ofId_cons, if_neg (by rw [hno]; simp)]; exact g2 id
        · intro id; rw [g3]; simp [hno]
      · refine ⟨?_, ?_, ?_, fun hnd => g4 (nodup_dset hnd)⟩
        · rw [List.forall_mem_cons]; exact ⟨Or.inr ⟨id0, hid, hp⟩, g1⟩
        · intro id
          have := g2 id
          rw [startItem_dset] at this
          rw [ofId_cons]
          by_cases he : id0 = id
          · subst he
            rw [if_pos rfl] at this
            rw [if_pos hid, addItems, ha]; exact this
          · rw [if_neg he] at this
            rw [if_neg (by rw [hid]; simpa using he)]; exact this
        · intro id
          rw [g3, dkeys_dset]
          by_cases hin : id0 ∈ dkeys hw
          · rw [if_pos hin]
            constructor
            · rintro (h | ⟨e', h1, h2⟩)
              · exact Or.inl h
              · exact Or.inr ⟨e', List.mem_cons_of_mem _ h1, h2⟩
            · rintro (h | ⟨e', h1, h2⟩)
              · exact Or.inl h
              · rcases List.mem_cons.1 h1 with rfl | h1
                · rw [hid] at h2; cases h2; exact Or.inl hin
                · exact Or.inr ⟨e', h1, h2⟩
          · rw [if_neg hin, List.mem_append, List.mem_singleton]
            constructor
            · rintro ((h | rfl) | ⟨e', h1, h2⟩)
              · exact Or.inl h
              · exact Or.inr ⟨e, by simp, hid⟩
              · exact Or.inr ⟨e', List.mem_cons_of_mem _ h1, h2⟩
            · rintro (h | ⟨e', h1, h2⟩)
              · exact Or.inl (Or.inl h)
              · rcases List.mem_cons.1 h1 with rfl | h1
                · rw [hid] at h2; cases h2; exact Or.inl (Or.inr rfl)
                · exact Or.inr ⟨e', h1, h2⟩

/-- loading succeeds if it does for each instance -/
theorem loadLoop_ok {env : Env} : ∀ (els : List Elem) (hw : Hw), (∀ e ∈ els, Loadable env e) →
    (∀ id, ∃ it', addItems env (ofId env.ver id els) (startItem hw id) = .ok it') →
    ∃ hw', loadLoop env els hw = .ok hw'
  | [], hw, _, _ => ⟨hw, rfl⟩
  | e :: r, hw, h1, h2 => by
    rw [List.forall_mem_cons] at h1
    rw [loadLoop]
    rcases h1.1 with hn | ⟨id0, hid, hp⟩
    · have : loadOne env hw e = .ok hw := by unfold loadOne; rw [hn]
      rw [this]
      refine loadLoop_ok r hw h1.2 (fun id => ?_)
      have := h2 id
      rw [ofId_cons, if_neg (by rw [itemId_of_ns hn]; simp)] at this
      exact this
    · obtain ⟨it', h3⟩ := h2 id0
      rw [ofId_cons, if_pos hid, addItems] at h3
      cases ha : (startItem hw id0).addItem env e with
      | error x => rw [ha] at h3; cases h3
      | ok it1 =>
        rw [ha] at h3
        simp only at h3
        rw [loadOne_ok hid hp ha]
        refine loadLoop_ok r _ h1.2 (fun id => ?_)
        rw [startItem_dset]
        by_cases he : id0 = id
        · subst he; rw [if_pos rfl]; exact ⟨it', h3⟩
        · rw [if_neg he]
          have := h2 id
          rw [ofId_cons, if_neg (by rw [hid]; simpa using he)] at this
          exact this

theorem addItems_wf {env : Env} : ∀ (els : List Elem) {it it' : Item}, ItemWF env it →
    addItems env els it = .ok it' → ItemWF env it'
  | [], it, it', wf, h => by simp only [addItems, Except.ok.injEq] at h; subst h; exact wf
  | e :: r, it, it', wf, h => by
    rw [addItems] at h
    cases ha : it.addItem env e with
    | error x => rw [ha] at h; cases h
    | ok it1 =>
      rw [ha] at h
      obtain ⟨_, _, _, _, w, _⟩ := addItem_inv wf ha
      exact addItems_wf r w h

theorem addItems_id {env : Env} {id : Str} (hne : id ≠ []) : ∀ (els : List Elem) {it it' : Item}, ItemWF env it →
    (∀ e ∈ els, itemId env.ver e = some id) → addItems env els it = .ok it' →
    els ≠ [] ∨ (∃ S, it.tab (instanceId env.ver) = [(.str id, S)]) → ∃ S, it'.tab (instanceId env.ver) = [(.str id, S)]
  | [], it, it', wf, _, h, hh => by
    simp only [addItems, Except.ok.injEq] at h; subst h
    rcases hh with hh | hh
    · exact absurd rfl hh
    · exact hh
  | e :: r, it, it', wf, hid, h, _ => by
    rw [addItems] at h
    rw [List.forall_mem_cons] at hid
    cases ha : it.addItem env e with
    | error x => rw [ha] at h; cases h
    | ok it1 =>
      rw [ha] at h
      obtain ⟨w, hS⟩ := addItem_id wf hid.1 hne ha
      exact addItems_id hne r w hid.2 h (Or.inr hS)

theorem ofId_ids {v : Ver} {id : Str} {els : List Elem} : ∀ e ∈ ofId v id els, itemId v e = some id := by
  intro e he
  simpa using (List.mem_filter.1 he).2

end Cot
