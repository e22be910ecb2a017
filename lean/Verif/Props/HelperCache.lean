import Verif.Model.HelperCache
import Mathlib.Data.List.Basic
/-
C112: what COT believes about a helper program.
-/
namespace Cot

variable {V : Type}

/-- the program was found at `p` at the time of one of these views -/
def SeenAt (vs : List (HcView V)) (p : Str) : Prop := ∃ v ∈ vs, v.found = some p ∨ v.foundAfter = some p

/-- what holds of the object after these views -/
structure HcInv (vs : List (HcView V)) (o : HcObj V) : Prop where
  path : ∀ p, o.path = some p → SeenAt vs p ∧ o.installed = some true
  installed : o.installed = some true → o.path ≠ none
  absent : o.installed = some false → ∃ v ∈ vs, v.found = none
  version : ∀ x, o.version = some x → o.installed = some true ∧ ∃ v ∈ vs, v.says = .ok x

theorem SeenAt.mono {vs ws : List (HcView V)} {p : Str} (h : SeenAt vs p) (hs : vs ⊆ ws) : SeenAt ws p := by
  obtain ⟨v, hv, h⟩ := h
  exact ⟨v, hs hv, h⟩

theorem HcInv.mono {vs ws : List (HcView V)} {o : HcObj V} (h : HcInv vs o) (hs : vs ⊆ ws) : HcInv ws o :=
  ⟨fun p hp => ⟨(h.path p hp).1.mono hs, (h.path p hp).2⟩, h.installed,
    fun ha => by obtain ⟨v, hv, hh⟩ := h.absent ha; exact ⟨v, hs hv, hh⟩,
    fun x hx => ⟨(h.version x hx).1, by obtain ⟨v, hv, hh⟩ := (h.version x hx).2; exact ⟨v, hs hv, hh⟩⟩⟩

theorem HcInv.askPath {vs : List (HcView V)} {o : HcObj V} (h : HcInv vs o) {f : Option Str}
    (hf : ∀ p, f = some p → SeenAt vs p) : HcInv vs (o.askPath f).2 ∧ (o.askPath f).1 = (o.askPath f).2.path ∧
      (f ≠ none → (o.askPath f).1 ≠ none) ∧ (o.path ≠ none → (o.askPath f).2 = o) ∧
      (f = none → (o.askPath f).2 = o) ∧ (o.askPath f).2.version = o.version := by
  unfold HcObj.askPath
  cases hp : o.path with
  | some p => exact ⟨h, hp.symm, by simp, by simp, by simp, rfl⟩
  | none =>
    cases f with
    | none => exact ⟨h, hp.symm, by simp, by simp, by simp, rfl⟩
    | some p =>
      refine ⟨⟨?_, by simp, by simp, ?_⟩, rfl, by simp, by simp, by simp, rfl⟩
      · rintro q hq
        cases hq
        exact ⟨hf p rfl, rfl⟩
      · intro x hx
        exact ⟨rfl, (h.version x hx).2⟩

theorem HcInv.askInstalled {vs : List (HcView V)} {o : HcObj V} (h : HcInv vs o) {v : HcView V} (hv : v ∈ vs) :
    HcInv vs (o.askInstalled v).2 ∧ (o.askInstalled v).2.installed = some (o.askInstalled v).1 ∧
      (o.installed = some true → (o.askInstalled v).1 = true ∧ (o.askInstalled v).2 = o) ∧
      (o.installed ≠ some false → v.found ≠ none → (o.askInstalled v).1 = true) ∧
      (o.askInstalled v).2.version = o.version := by
  unfold HcObj.askInstalled
  cases hi : o.installed with
  | some b => exact ⟨h, hi, by simp, by intro hb _; cases b <;> simp_all, rfl⟩
  | none =>
    obtain ⟨h1, h2, h3, -, h5, h6⟩ := h.askPath (f := v.found) (fun p hp => ⟨v, hv, Or.inl hp⟩)
    rcases hp : o.askPath v.found with ⟨p, o'⟩
    rw [hp] at h1 h2 h3 h5 h6
    dsimp only at h1 h2 h3 h5 h6 ⊢
    refine ⟨?_, by simp, by simp, fun _ hf => ?_, h6⟩
    · cases p with
      | some q =>
        refine ⟨?_, by simp [← h2], by simp, ?_⟩
        · intro r hr
          exact ⟨(h1.path r hr).1, rfl⟩
        · intro x hx
          exact ⟨rfl, (h1.version x hx).2⟩
      | none =>
        have hf : v.found = none := by
          by_contra hc
          exact h3 hc rfl
        refine ⟨?_, by simp, fun _ => ⟨v, hv, hf⟩, ?_⟩
        · intro r hr
          have hr' : o'.path = some r := hr
          rw [← h2] at hr'
          cases hr'
        · intro x hx
          have ho := h5 hf
          subst ho
          have := (h1.version x hx).1
          rw [hi] at this
          cases this
    · cases p with
      | some q => rfl
      | none => exact absurd rfl (h3 hf)

theorem HcInv.install {vs : List (HcView V)} {o : HcObj V} (h : HcInv vs o) {v : HcView V} (hv : v ∈ vs) :
    HcInv vs (o.install v).2 ∧ ((o.install v).1 = .ok () → (o.install v).2.installed = some true) ∧
      (o.installed = some true → o.install v = (.ok (), o)) ∧ (o.install v).2.version = o.version := by
  unfold HcObj.install
  obtain ⟨h1, h2, h3, -, h4⟩ := h.askInstalled hv
  rcases hi : o.askInstalled v with ⟨b, o1⟩
  rw [hi] at h1 h2 h3 h4
  dsimp only at h1 h2 h3 h4
  cases b with
  | true => exact ⟨h1, fun _ => h2, fun ht => by rw [(h3 ht).2], h4⟩
  | false =>
    dsimp only
    have hno : ¬ o.installed = some true := fun ht => by have := (h3 ht).1; cases this
    split
    · exact ⟨h1, by simp, fun ht => absurd ht hno, h4⟩
    · cases hin : v.inst with
      | error e => exact ⟨h1, by simp, fun ht => absurd ht hno, h4⟩
      | ok u =>
        dsimp only
        obtain ⟨g1, g2, -, -, -, g6⟩ := h1.askPath (f := v.foundAfter) (fun p hp => ⟨v, hv, Or.inr hp⟩)
        rcases hp : o1.askPath v.foundAfter with ⟨p, o2⟩
        rw [hp] at g1 g2 g6
        dsimp only at g1 g2 g6
        cases p with
        | some q => exact ⟨g1, fun _ => (g1.path q g2.symm).2, fun ht => absurd ht hno, g6.trans h4⟩
        | none => exact ⟨g1, by simp, fun ht => absurd ht hno, g6.trans h4⟩

theorem HcInv.ready {vs : List (HcView V)} {o : HcObj V} (h : HcInv vs o) {v : HcView V} (hv : v ∈ vs) :
    HcInv vs (o.ready v).2 ∧ ((o.ready v).1 = .ok () → (o.ready v).2.installed = some true) ∧
      (v.found ≠ none → (o.ready v).1 = .ok ()) ∧ (o.installed = some true → o.ready v = (.ok (), o)) ∧
      (o.ready v).2.version = o.version := by
  unfold HcObj.ready
  obtain ⟨h1, h2, h3, h4, -, h6⟩ := h.askPath (f := v.found) (fun p hp => ⟨v, hv, Or.inl hp⟩)
  rcases hp : o.askPath v.found with ⟨p, o1⟩
  rw [hp] at h1 h2 h3 h4 h6
  dsimp only at h1 h2 h3 h4 h6
  cases p with
  | some q => exact ⟨h1, fun _ => (h1.path q h2.symm).2, fun _ => rfl, fun ht => by rw [h4 (h.installed ht)], h6⟩
  | none =>
    obtain ⟨g1, g2, -, g4⟩ := h1.install hv
    refine ⟨g1, g2, fun hf => absurd rfl (h3 hf), fun ht => ?_, g4.trans h6⟩
    have := h4 (h.installed ht)
    subst this
    exact absurd h2.symm (h.installed ht)

theorem HcInv.askVersion {vs : List (HcView V)} {o : HcObj V} (h : HcInv vs o) {v : HcView V} (hv : v ∈ vs) :
    HcInv vs (o.askVersion v).2 ∧ (∀ x, (o.askVersion v).1 = .ok (some x) → (o.askVersion v).2.version = some x) ∧
      (∀ x, o.version = some x → o.askVersion v = (.ok (some x), o)) ∧
      (o.installed = some true → (o.askVersion v).2.installed = some true) := by
  unfold HcObj.askVersion
  obtain ⟨h1, h2, h3, -, h4⟩ := h.askInstalled hv
  rcases hi : o.askInstalled v with ⟨b, o1⟩
  rw [hi] at h1 h2 h3 h4
  dsimp only at h1 h2 h3 h4
  cases b with
  | false =>
    refine ⟨h1, fun x hx => by simpa using hx, fun x hx => ?_, fun ht => by have := (h3 ht).1; cases this⟩
    have := (h3 (h.version x hx).1).1
    cases this
  | true =>
    dsimp only
    cases hver : o1.version with
    | some x =>
      refine ⟨h1, fun y hy => by cases hy; exact hver, fun y hy => ?_, fun _ => h2⟩
      rw [← h4, hver] at hy
      cases hy
      rw [(h3 (h.version x (by rw [← h4]; exact hver)).1).2]
    | none =>
      dsimp only
      obtain ⟨-, -, -, g4, -⟩ := h1.ready hv
      rw [g4 h2]
      dsimp only
      have hno : ∀ x, ¬ o.version = some x := by
        intro x hx
        rw [← h4, hver] at hx
        cases hx
      cases hs : v.says with
      | error e =>
        dsimp only
        exact ⟨h1, fun x hx => by simp at hx, fun x hx => absurd hx (hno x), fun _ => h2⟩
      | ok x =>
        dsimp only
        refine ⟨⟨h1.path, h1.installed, h1.absent, ?_⟩, fun y hy => by cases hy; rfl, fun x hx => absurd hx (hno x), fun _ => h2⟩
        intro y hy
        cases hy
        exact ⟨h2, v, hv, hs⟩

theorem HcInv.step {vs : List (HcView V)} {o : HcObj V} (h : HcInv vs o) {q : HcOp × HcView V} (hq : q.2 ∈ vs) :
    HcInv vs (o.step q) ∧ (o.installed = some true → (o.step q).installed = some true) ∧
      (∀ x, o.version = some x → (o.step q).version = some x) ∧ (∀ p, o.path = some p → (o.step q).path = some p) := by
  obtain ⟨op, v⟩ := q
  dsimp only at hq
  have hkeep : ∀ (o' : HcObj V), (o.installed = some true → o' = o) → (∀ p, o.path = some p → o'.path = some p) := by
    intro o' ho p hp
    rw [ho (h.path p hp).2]
    exact hp
  have hver : ∀ (o' : HcObj V), (o.installed = some true → o' = o) → (∀ x, o.version = some x → o'.version = some x) := by
    intro o' ho x hx
    rw [ho (h.version x hx).1]
    exact hx
  have main : ∀ (o' : HcObj V), HcInv vs o' → (o.installed = some true → o' = o) →
      HcInv vs o' ∧ (o.installed = some true → o'.installed = some true) ∧
      (∀ x, o.version = some x → o'.version = some x) ∧ (∀ p, o.path = some p → o'.path = some p) :=
    fun o' h1 h2 => ⟨h1, fun ht => by rw [h2 ht]; exact ht, hver o' h2, hkeep o' h2⟩
  cases op with
  | path =>
    obtain ⟨h1, -, -, h4, -⟩ := h.askPath (f := v.found) (fun p hp => ⟨v, hq, Or.inl hp⟩)
    exact main _ h1 (fun ht => h4 (h.installed ht))
  | installed =>
    obtain ⟨h1, -, h3, -⟩ := h.askInstalled hq
    exact main _ h1 (fun ht => (h3 ht).2)
  | install =>
    obtain ⟨h1, -, h3, -⟩ := h.install hq
    exact main _ h1 (fun ht => by show (o.install v).2 = o; rw [h3 ht])
  | ready =>
    obtain ⟨h1, -, -, h3, -⟩ := h.ready hq
    exact main _ h1 (fun ht => by show (o.ready v).2 = o; rw [h3 ht])
  | version =>
    obtain ⟨h1, -, h3, h4⟩ := h.askVersion hq
    refine ⟨h1, h4, fun x hx => ?_, fun p hp => ?_⟩
    · show (o.askVersion v).2.version = some x
      rw [h3 x hx]; exact hx
    · have ht := (h.path p hp).2
      show (o.askVersion v).2.path = some p
      unfold HcObj.askVersion
      obtain ⟨g1, g2, g3, -⟩ := h.askInstalled hq
      rcases hi : o.askInstalled v with ⟨b, o1⟩
      rw [hi] at g3
      obtain ⟨e1, e2⟩ := g3 ht
      dsimp only at e1 e2
      subst e1 e2
      dsimp only
      cases hver : o1.version with
      | some x => exact hp
      | none =>
        dsimp only
        rw [(h.ready hq).2.2.2.1 ht]
        cases v.says <;> exact hp

theorem hcInv_foldl : ∀ (qs : List (HcOp × HcView V)) (vs : List (HcView V)) (o : HcObj V), HcInv vs o → qs.map Prod.snd ⊆ vs →
    HcInv vs (qs.foldl HcObj.step o) ∧ (o.installed = some true → (qs.foldl HcObj.step o).installed = some true) ∧
      (∀ x, o.version = some x → (qs.foldl HcObj.step o).version = some x) ∧
      (∀ p, o.path = some p → (qs.foldl HcObj.step o).path = some p)
  | [], vs, o, h, _ => ⟨h, fun h => h, fun _ h => h, fun _ h => h⟩
  | q :: r, vs, o, h, hs => by
    obtain ⟨s1, s2, s3, s4⟩ := h.step (q := q) (hs (by simp))
    obtain ⟨r1, r2, r3, r4⟩ := hcInv_foldl r vs (o.step q) s1 (fun v hv => hs (by
      simp only [List.map_cons, List.mem_cons]; exact Or.inr hv))
    exact ⟨r1, fun ht => r2 (s2 ht), fun x hx => r3 x (s3 x hx), fun p hp => r4 p (s4 p hp)⟩

theorem hcInv_after (qs : List (HcOp × HcView V)) (vs : List (HcView V)) (hs : qs.map Prod.snd ⊆ vs) : HcInv vs (HcObj.after qs) :=
  (hcInv_foldl qs vs {} ⟨by simp, by simp, by simp, by simp⟩ hs).1

/-- **C112 (found).** After any questions `qs`, at any time `v`: a path that COT gives for the program is one at which the
program was found, then or earlier; a program that is found now is reported with a path; and calling the program does not try
to install it then. -/
theorem C112_path (qs : List (HcOp × HcView V)) (v : HcView V) :
    (∀ p, ((HcObj.after qs).askPath v.found).1 = some p → SeenAt (qs.map Prod.snd ++ [v]) p) ∧
    (v.found ≠ none → ((HcObj.after qs).askPath v.found).1 ≠ none) ∧
    (v.found ≠ none → ∃ o, (HcObj.after qs).ready v = (.ok (), o) ∧ o.path ≠ none) := by
  have hi := hcInv_after qs (qs.map Prod.snd ++ [v]) (by simp)
  obtain ⟨h1, h2, h3, -⟩ := hi.askPath (f := v.found) (fun p hp => ⟨v, by simp, Or.inl hp⟩)
  refine ⟨fun p hp => ?_, h3, fun hf => ?_⟩
  · rw [h2] at hp
    exact (h1.path p hp).1
  · obtain ⟨g1, g2, g3, -⟩ := hi.ready (v := v) (by simp)
    have hok := g3 hf
    exact ⟨_, Prod.ext hok rfl, g1.installed (g2 hok)⟩

/-- **C112 (installed).** COT says that the program is installed only if it was found at some time, and it says so as long
as it runs from then on.  It says that it is not only if the program was not found at that time or before. -/
theorem C112_installed_partial (qs rs : List (HcOp × HcView V)) (v u : HcView V) :
    (((HcObj.after qs).askInstalled v).1 = true → ∃ p, SeenAt (qs.map Prod.snd ++ [v]) p) ∧
    (((HcObj.after qs).askInstalled v).1 = true → ((HcObj.after (qs ++ (.installed, v) :: rs)).askInstalled u).1 = true) ∧
    (((HcObj.after qs).askInstalled v).1 = false → ∃ w ∈ qs.map Prod.snd ++ [v], w.found = none) := by
  have hi := hcInv_after qs (qs.map Prod.snd ++ [v]) (by simp)
  obtain ⟨h1, h2, h3, -⟩ := hi.askInstalled (v := v) (by simp)
  refine ⟨fun ht => ?_, fun ht => ?_, fun hf => ?_⟩
  · rw [ht] at h2
    have := h1.installed h2
    obtain ⟨p, hp⟩ := Option.ne_none_iff_exists'.1 this
    exact ⟨p, (h1.path p hp).1⟩
  · have hj := hcInv_after qs (qs.map Prod.snd ++ v :: (rs.map Prod.snd ++ [u])) (by simp)
    obtain ⟨k1, k2, -⟩ := hj.askInstalled (v := v) (by simp)
    rw [ht] at k2
    have hall := hcInv_foldl rs (qs.map Prod.snd ++ v :: (rs.map Prod.snd ++ [u])) _ k1 (by
      intro x hx; simp only [List.mem_append, List.mem_cons]; exact Or.inr (Or.inr (Or.inl hx)))
    have he : HcObj.after (qs ++ (.installed, v) :: rs) = rs.foldl HcObj.step ((HcObj.after qs).askInstalled v).2 := by
      unfold HcObj.after
      rw [List.foldl_append, List.foldl_cons]
      rfl
    rw [he]
    exact ((hall.1.askInstalled (v := u) (by simp)).2.2.1 (hall.2.1 k2)).1
  · rw [hf] at h2
    exact h1.absent h2

/-- **C112 (install).** `install()` does nothing if the program is known to be there; if it succeeds then the program was
found, and COT says from then on that it is installed. -/
theorem C112_install (qs rs : List (HcOp × HcView V)) (v u : HcView V) :
    ((HcObj.after qs).installed = some true → (HcObj.after qs).install v = (.ok (), HcObj.after qs)) ∧
    (((HcObj.after qs).install v).1 = .ok () → (∃ p, SeenAt (qs.map Prod.snd ++ [v]) p) ∧
      ((HcObj.after (qs ++ (.install, v) :: rs)).askInstalled u).1 = true) := by
  have hj := hcInv_after qs (qs.map Prod.snd ++ [v]) (by simp)
  obtain ⟨k1, k2, k3, -⟩ := hj.install (v := v) (by simp)
  refine ⟨k3, fun hok => ⟨?_, ?_⟩⟩
  · obtain ⟨p, hp⟩ := Option.ne_none_iff_exists'.1 (k1.installed (k2 hok))
    exact ⟨p, (k1.path p hp).1⟩
  · have hm : HcInv (qs.map Prod.snd ++ v :: (rs.map Prod.snd ++ [u])) ((HcObj.after qs).install v).2 :=
      k1.mono (by intro x hx; simp only [List.mem_append, List.mem_cons, List.not_mem_nil, or_false] at hx ⊢; tauto)
    have hall := hcInv_foldl rs (qs.map Prod.snd ++ v :: (rs.map Prod.snd ++ [u])) _ hm (by
      intro x hx; simp only [List.mem_append, List.mem_cons]; exact Or.inr (Or.inr (Or.inl hx)))
    have he : HcObj.after (qs ++ (.install, v) :: rs) = rs.foldl HcObj.step ((HcObj.after qs).install v).2 := by
      unfold HcObj.after
      rw [List.foldl_append, List.foldl_cons]
      rfl
    rw [he]
    exact ((hall.1.askInstalled (v := u) (by simp)).2.2.1 (hall.2.1 (k2 hok))).1

/-- **C112 (version).** A version that COT gives is what the program said at some time at which it was known to be there; it
is asked once, and all further answers are the same. -/
theorem C112_version (qs rs : List (HcOp × HcView V)) (v u : HcView V) (x : V) (h : ((HcObj.after qs).askVersion v).1 = .ok (some x)) :
    (∃ w ∈ qs.map Prod.snd ++ [v], w.says = .ok x) ∧ (∃ p, SeenAt (qs.map Prod.snd ++ [v]) p) ∧
    ((HcObj.after (qs ++ (.version, v) :: rs)).askVersion u).1 = .ok (some x) := by
  have hj := hcInv_after qs (qs.map Prod.snd ++ [v]) (by simp)
  obtain ⟨k1, k2, k3, k4⟩ := hj.askVersion (v := v) (by simp)
  have hx := k2 x h
  refine ⟨(k1.version x hx).2, ?_, ?_⟩
  · obtain ⟨p, hp⟩ := Option.ne_none_iff_exists'.1 (k1.installed (k1.version x hx).1)
    exact ⟨p, (k1.path p hp).1⟩
  · have hm : HcInv (qs.map Prod.snd ++ v :: (rs.map Prod.snd ++ [u])) ((HcObj.after qs).askVersion v).2 :=
      k1.mono (by intro x hx; simp only [List.mem_append, List.mem_cons, List.not_mem_nil, or_false] at hx ⊢; tauto)
    have hall := hcInv_foldl rs (qs.map Prod.snd ++ v :: (rs.map Prod.snd ++ [u])) _ hm (by
      intro x hx; simp only [List.mem_append, List.mem_cons]; exact Or.inr (Or.inr (Or.inl hx)))
    have he : HcObj.after (qs ++ (.version, v) :: rs) = rs.foldl HcObj.step ((HcObj.after qs).askVersion v).2 := by
      unfold HcObj.after
      rw [List.foldl_append, List.foldl_cons]
      rfl
    rw [he]
    have := (hall.1.askVersion (v := u) (by simp)).2.2.1 x (hall.2.2.1 x hx)
    rw [this]

/-- **C112 (no version).** A program that is said not to be installed has no version; to ask for it is not an error. -/
theorem C112_no_version (qs : List (HcOp × HcView V)) (v : HcView V) (h : ((HcObj.after qs).askInstalled v).1 = false) :
    ((HcObj.after qs).askVersion v).1 = .ok none := by
  have hi := hcInv_after qs (qs.map Prod.snd ++ [v]) (by simp)
  obtain ⟨h1, h2, -⟩ := hi.askInstalled (v := v) (by simp)
  unfold HcObj.askVersion
  generalize (HcObj.after qs).askInstalled v = r at h h1 h2
  obtain ⟨b, o⟩ := r
  simp only at h h1 h2
  subst h
  dsimp only
  cases hv : o.version with
  | none => rfl
  | some x =>
    have := (h1.version x hv).1
    rw [h2] at this
    cases this

/-- it is so at the beginning, when the program is not found -/
example : ((HcObj.after []).askInstalled (⟨none, true, .ok (), none, .ok 0⟩ : HcView Nat)).1 = false := rfl

/-- non-vacuity: absent, installed by COT, then asked for the version twice -/
def exHc (f g : Option Str) (n : Nat) : HcView Nat := ⟨f, true, .ok (), g, .ok n⟩

example : ((HcObj.after [(.installed, exHc none none 0)]).install (exHc none (some "/usr/bin/x".toList) 0)).1 = .ok () ∧
    ((HcObj.after [(.installed, exHc none none 0), (.install, exHc none (some "/usr/bin/x".toList) 0)]).askVersion
      (exHc (some "/usr/bin/x".toList) none 7)).1 = .ok (some 7) ∧
    ((HcObj.after [(.installed, exHc none none 0), (.install, exHc none (some "/usr/bin/x".toList) 0),
      (.version, exHc (some "/usr/bin/x".toList) none 7)]).askVersion (exHc none none 9)).1 = .ok (some 7) := ⟨rfl, rfl, rfl⟩

/-- **C112 fails** for programs that appear later: once COT has looked for the program in vain, it keeps saying that it is not
installed, although the program is there now; and `install()` installs it again. -/
theorem C112_stale_fails : ∃ (q : HcOp × HcView Nat) (v : HcView Nat), v.found = some "/usr/bin/mkisofs".toList ∧
    ((HcObj.after [q]).askInstalled v).1 = false ∧ v.inst = .error .helperError ∧
    ((HcObj.after [q]).install v).1 = .error .helperError :=
  ⟨(.installed, exHc none none 0), ⟨some "/usr/bin/mkisofs".toList, true, .error .helperError, none, .ok 0⟩, rfl, rfl, rfl, rfl⟩

end Cot
