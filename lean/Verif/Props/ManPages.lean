import Verif.Spec.InstallHelpers
import Verif.Props.Calls
import Verif.Props.Disks
import Verif.Lemmas.PathAbs
import Verif.Lemmas.Dict
/-
C99: the manual pages.
-/
namespace Cot

variable {W : Type}

theorem cmp_iff (fs : ManFs W) (w : W) (a b : Str) : fs.cmp w a b = true ↔ SameFile fs w a b := by
  unfold ManFs.cmp SameFile
  generalize fs.sig w a = x
  generalize fs.sig w b = y
  obtain ⟨r1, s1, m1⟩ := x
  obtain ⟨r2, s2, m2⟩ := y
  cases r1
  · simp
  · cases r2
    · simp
    · rw [if_neg (by simp)]
      simp only [FileSig.mk.injEq, true_and]
      by_cases hs : s1 = s2
      · by_cases hm : m1 = m2
        · simp [hs, hm]
        · simp [hs, hm]
      · simp [hs]

/-- **C99 (verification).** --verify-only says that the pages are installed and need no update exactly if every page is in
its place. -/
theorem C99_verify (fs : ManFs W) (docs manDir : Str) (w : W) (pages : List Str) :
    verifyManpages fs docs manDir w pages = (true, "already installed, no updates needed".toList) ↔
      ∀ p ∈ pages, InPlace fs docs manDir w p := by
  induction pages with
  | nil => simp [verifyManpages]
  | cons p r ih =>
    rw [verifyManpages, List.forall_mem_cons]
    show (if fs.pathExists w (sectionDir manDir p) = false then _ else if fs.pathExists w (pagePlace manDir p) = true then
      if fs.cmp w (pathJoin docs p) (pagePlace manDir p) = true then _ else _ else _) = _ ↔ _
    unfold InPlace at ih ⊢
    cases h1 : fs.pathExists w (sectionDir manDir p) with
    | false => simp
    | true =>
      rw [if_neg (by simp)]
      cases h2 : fs.pathExists w (pagePlace manDir p) with
      | false => simp
      | true =>
        rw [if_pos rfl]
        cases h3 : fs.cmp w (pathJoin docs p) (pagePlace manDir p) with
        | false =>
          have : ¬ SameFile fs w (pathJoin docs p) (pagePlace manDir p) := by rw [← cmp_iff, h3]; simp
          simp [this]
        | true =>
          rw [if_pos rfl, ih]
          have := (cmp_iff _ _ _ _).1 h3
          simp [this]

/-- **C99 (copying).** A file is copied the ordinary way; only if that fails, with sudo. -/
theorem C99_copy (fs : ManFs W) (w : W) (s d : Str) :
    (∀ w', fs.copy w s d = (true, w') → fs.copyFile w s d = (.ok (), w')) ∧
    (∀ w' x w'', fs.copy w s d = (false, w') → fs.exec w' ["sudo".toList, "cp".toList, s, d] = (x, w'') →
      (fs.copyFile w s d).2 = w'' ∧
      ((∃ out, x = .exit 0 out) → (fs.copyFile w s d).1 = .ok ()) ∧
      ((¬ ∃ out, x = .exit 0 out) → (fs.copyFile w s d).1 = .error (if x = .osError 2 then .helperNotFound else .ioError))) := by
  constructor
  · intro w' h
    unfold ManFs.copyFile
    rw [h]
  · intro w' x w'' h hx
    have hc : fs.call w' ["sudo".toList, "cp".toList, s, d] =
        ((checkCall fs.exec true false ["sudo".toList, "cp".toList, s, d] ⟨w', []⟩).1, w'') ∧
        CmdOutcome true ["sudo".toList, "cp".toList, s, d] x (checkCall fs.exec true false ["sudo".toList, "cp".toList, s, d] ⟨w', []⟩).1 := by
      have key := (C95_call (ex := fs.exec) (require := true) (retry := false) (cmd := ["sudo".toList, "cp".toList, s, d])
        (s := ⟨w', []⟩) (by simp)).2 (by simp)
      unfold ManFs.call
      generalize checkCall fs.exec true false ["sudo".toList, "cp".toList, s, d] ⟨w', []⟩ = q at key ⊢
      obtain ⟨r, t⟩ := q
      simp only at key ⊢
      rw [hx] at key
      exact ⟨by rw [key.1], key.2⟩
    obtain ⟨h1, h2⟩ := hc
    generalize (checkCall fs.exec true false ["sudo".toList, "cp".toList, s, d] ⟨w', []⟩).1 = r at h1 h2
    unfold ManFs.copyFile
    rw [h]
    simp only [h1]
    rcases h2 with ⟨hf, rfl⟩ | ⟨hf, e, rfl, hb⟩
    · refine ⟨rfl, fun _ => rfl, fun hn => absurd ?_ hn⟩
      cases x with
      | exit c out => rcases hf with rfl | hf
                      · exact ⟨out, rfl⟩
                      · cases hf
      | osError n => cases hf
    · have hn : ¬ ∃ out, x = .exit 0 out := by
        rintro ⟨out, rfl⟩
        exact hf (Or.inl rfl)
      cases x with
      | exit c out =>
        have he : e = .helperError := hb
        subst he
        exact ⟨rfl, fun h => absurd h hn, fun _ => by simp⟩
      | osError n =>
        rcases hb with ⟨rfl, rfl⟩ | ⟨rfl, -, rfl⟩ | ⟨h2, -, rfl⟩
        · exact ⟨rfl, fun h => absurd h hn, fun _ => by simp⟩
        · exact ⟨rfl, fun h => absurd h hn, fun _ => by simp⟩
        · exact ⟨rfl, fun h => absurd h hn, fun _ => by simp [h2]⟩

/-- **C99 (directories).** An existing directory is left alone, something else under that name is a RuntimeError; a missing
directory is created the ordinary way, and only if that fails with sudo. -/
theorem C99_mkdir (fs : ManFs W) (w : W) (d : Str) :
    (fs.isDir w d = true → fs.mkdir w d = (.ok (), w)) ∧
    (fs.isDir w d = false → fs.pathExists w d = true → fs.mkdir w d = (.error .runtimeError, w)) ∧
    (fs.isDir w d = false → fs.pathExists w d = false →
      (∀ w', fs.makedirs w d = (true, w') → fs.mkdir w d = (.ok (), w')) ∧
      (∀ w' x w'', fs.makedirs w d = (false, w') →
        fs.exec w' ["sudo".toList, "mkdir".toList, "-p".toList, "-m".toList, "755".toList, d] = (x, w'') →
        (fs.mkdir w d).2 = w'' ∧
        ((∃ out, x = .exit 0 out) → (fs.mkdir w d).1 = .ok ()) ∧
        ((¬ ∃ out, x = .exit 0 out) →
          (fs.mkdir w d).1 = .error (if x = .osError 2 then .helperNotFound else .ioError)))) := by
  refine ⟨fun h => by unfold ManFs.mkdir; rw [if_pos h], fun h h' => by unfold ManFs.mkdir; rw [if_neg (by simp [h]), if_pos h'], ?_⟩
  intro h h'
  have hm : fs.mkdir w d = match fs.makedirs w d with
    | (true, w') => (.ok (), w')
    | (false, w') => match fs.call w' ["sudo".toList, "mkdir".toList, "-p".toList, "-m".toList, "755".toList, d] with
      | (.ok _, w'') => (.ok (), w'')
      | (.error .helperError, w'') => (.error .ioError, w'')
      | (.error e, w'') => (.error e, w'') := by
    conv => lhs; unfold ManFs.mkdir
    rw [if_neg (by simp [h]), if_neg (by simp [h'])]
    rfl
  refine ⟨fun w' hw => by rw [hm, hw], ?_⟩
  intro w' x w'' hw hx
  rw [hm, hw]
  simp only
  generalize hcmd : ["sudo".toList, "mkdir".toList, "-p".toList, "-m".toList, "755".toList, d] = cmd at hx
  have hc : fs.call w' cmd = ((checkCall fs.exec true false cmd ⟨w', []⟩).1, w'') ∧
      CmdOutcome true cmd x (checkCall fs.exec true false cmd ⟨w', []⟩).1 := by
    have key := (C95_call (ex := fs.exec) (require := true) (retry := false) (cmd := cmd)
      (s := ⟨w', []⟩) (by rw [← hcmd]; simp)).2 (by simp)
    unfold ManFs.call
    generalize checkCall fs.exec true false cmd ⟨w', []⟩ = q at key ⊢
    obtain ⟨r, t⟩ := q
    simp only at key ⊢
    rw [hx] at key
    exact ⟨by rw [key.1], key.2⟩
  obtain ⟨h1, h2⟩ := hc
  generalize (checkCall fs.exec true false cmd ⟨w', []⟩).1 = r at h1 h2
  rw [h1]
  rcases h2 with ⟨hf, rfl⟩ | ⟨hf, e, rfl, hb⟩
  · refine ⟨rfl, fun _ => rfl, fun hn => absurd ?_ hn⟩
    cases x with
    | exit c out => rcases hf with rfl | hf
                    · exact ⟨out, rfl⟩
                    · cases hf
    | osError n => cases hf
  · have hn : ¬ ∃ out, x = .exit 0 out := by
      rintro ⟨out, rfl⟩
      exact hf (Or.inl rfl)
    cases x with
    | exit c out =>
      have he : e = .helperError := hb
      subst he
      exact ⟨rfl, fun h => absurd h hn, fun _ => by simp⟩
    | osError n =>
      rcases hb with ⟨rfl, rfl⟩ | ⟨rfl, -, rfl⟩ | ⟨h2, -, rfl⟩
      · exact ⟨rfl, fun h => absurd h hn, fun _ => by simp⟩
      · exact ⟨rfl, fun h => absurd h hn, fun _ => by simp⟩
      · exact ⟨rfl, fun h => absurd h hn, fun _ => by simp [h2]⟩

/-- files are kept, and directories are -/
def AllKept (fs : ManFs W) (P : Str → Prop) (w w' : W) : Prop :=
  (∀ p, P p → FileKept fs w w' p) ∧ ∀ q, fs.isDir w q = true → fs.isDir w' q = true

theorem AllKept.refl (fs : ManFs W) (P : Str → Prop) (w : W) : AllKept fs P w w :=
  ⟨fun _ _ => ⟨fun h => ⟨h, rfl, rfl⟩, fun h => h⟩, fun _ h => h⟩

theorem AllKept.trans {fs : ManFs W} {P : Str → Prop} {a b c : W} (h1 : AllKept fs P a b) (h2 : AllKept fs P b c) :
    AllKept fs P a c := by
  refine ⟨fun p hp => ⟨fun he => ?_, fun he => (h1.1 p hp).2 ((h2.1 p hp).2 he)⟩, fun q hq => h2.2 q (h1.2 q hq)⟩
  obtain ⟨e1, s1, c1⟩ := (h1.1 p hp).1 he
  obtain ⟨e2, s2, c2⟩ := (h2.1 p hp).1 e1
  exact ⟨e2, by rw [s2, s1], by rw [c2, c1]⟩

theorem AllKept.weaken {fs : ManFs W} {P Q : Str → Prop} {a b : W} (h : AllKept fs P a b) (hq : ∀ p, Q p → P p) :
    AllKept fs Q a b := ⟨fun p hp => h.1 p (hq p hp), h.2⟩

theorem mkdir_spec {fs : ManFs W} (L : FileLaws fs) {w w' : W} {d : Str} {r : Except Err Unit} (h : fs.mkdir w d = (r, w')) :
    AllKept fs (fun _ => True) w w' ∧ (r = .ok () → fs.isDir w' d = true) := by
  obtain ⟨c1, c2, c3⟩ := C99_mkdir fs w d
  cases hd : fs.isDir w d with
  | true => rw [c1 hd] at h; cases h; exact ⟨.refl _ _ _, fun _ => hd⟩
  | false =>
    cases he : fs.pathExists w d with
    | true => rw [c2 hd he] at h; cases h; exact ⟨.refl _ _ _, fun h => by cases h⟩
    | false =>
      obtain ⟨d1, d2⟩ := c3 hd he
      generalize hm : fs.makedirs w d = q
      obtain ⟨b, w1⟩ := q
      have k1 : AllKept fs (fun _ => True) w w1 := by
        have := L.mkKeeps (.plain hm)
        exact ⟨fun p _ => this.1 p, this.2⟩
      cases b with
      | true =>
        rw [d1 w1 hm] at h
        cases h
        exact ⟨k1, fun _ => L.mkDone (.plain hm)⟩
      | false =>
        generalize hx : fs.exec w1 ["sudo".toList, "mkdir".toList, "-p".toList, "-m".toList, "755".toList, d] = q
        obtain ⟨x, w2⟩ := q
        obtain ⟨e1, e2, e3⟩ := d2 w1 x w2 hm hx
        rw [h] at e1 e2 e3
        subst e1
        by_cases hs : ∃ out, x = .exit 0 out
        · have st : MkStep fs d true w1 w' := .sudo hx (by simp [hs])
          have := L.mkKeeps st
          exact ⟨k1.trans ⟨fun p _ => this.1 p, this.2⟩, fun _ => L.mkDone st⟩
        · have st : MkStep fs d false w1 w' := .sudo hx (by simp [hs])
          have := L.mkKeeps st
          refine ⟨k1.trans ⟨fun p _ => this.1 p, this.2⟩, fun hr => ?_⟩
          have := e3 hs
          simp only at this
          rw [hr] at this
          cases this

theorem copyFile_spec {fs : ManFs W} (L : FileLaws fs) {w w' : W} {s d : Str} {r : Except Err Unit} (hsd : s ≠ d)
    (h : fs.copyFile w s d = (r, w')) :
    AllKept fs (fun p => p ≠ d) w w' ∧ (r = .ok () → RegularAt fs w s →
      RegularAt fs w' d ∧ (fs.sig w' d).size = (fs.sig w s).size ∧ fs.content w' d = fs.content w s) := by
  obtain ⟨d1, d2⟩ := C99_copy fs w s d
  generalize hm : fs.copy w s d = q
  obtain ⟨b, w1⟩ := q
  have k1 : AllKept fs (fun p => p ≠ d) w w1 := L.cpKeeps (.plain hm)
  cases b with
  | true =>
    rw [d1 w1 hm] at h
    cases h
    exact ⟨k1, fun _ => L.cpDone (.plain hm)⟩
  | false =>
    generalize hx : fs.exec w1 ["sudo".toList, "cp".toList, s, d] = q
    obtain ⟨x, w2⟩ := q
    obtain ⟨e1, e2, e3⟩ := d2 w1 x w2 hm hx
    rw [h] at e1 e2 e3
    subst e1
    by_cases hs : ∃ out, x = .exit 0 out
    · have st : CpStep fs s d true w1 w' := .sudo hx (by simp [hs])
      refine ⟨k1.trans (L.cpKeeps st), fun _ he => ?_⟩
      obtain ⟨f1, f2, f3⟩ := (k1.1 s hsd).1 he
      have := L.cpDone st f1
      rw [f2, f3] at this
      exact this
    · have st : CpStep fs s d false w1 w' := .sudo hx (by simp [hs])
      refine ⟨k1.trans (L.cpKeeps st), fun hr => ?_⟩
      have := e3 hs
      simp only at this
      rw [hr] at this
      cases this

/-- what is asked of the pages: plain file names, all different, whose originals are regular files outside the target -/
structure PagesFit (fs : ManFs W) (docs manDir : Str) (w : W) (pages : List Str) : Prop where
  plain : ∀ p ∈ pages, '/' ∉ p
  distinct : pages.Nodup
  there : ∀ p ∈ pages, RegularAt fs w (pathJoin docs p)
  outside : ∀ p ∈ pages, ∀ q ∈ pages, pathJoin docs p ≠ pagePlace manDir q

/-- the page is in place; with the same contents unless it was taken to be the same before -/
def Placed (fs : ManFs W) (docs manDir : Str) (w0 w : W) (p : Str) : Prop :=
  fs.isDir w (sectionDir manDir p) = true ∧ fs.pathExists w (pagePlace manDir p) = true ∧
  SameFile fs w (pathJoin docs p) (pagePlace manDir p) ∧
  (fs.content w (pathJoin docs p) = fs.content w (pagePlace manDir p) ∨
    (fs.pathExists w0 (pagePlace manDir p) = true ∧ SameFile fs w0 (pathJoin docs p) (pagePlace manDir p)))

theorem installManpage_spec {fs : ManFs W} (L : FileLaws fs) {docs manDir p : Str} {w w' : W} {r : Except Err (Bool × Bool)}
    (hp : '/' ∉ p) (hs : pathJoin docs p ≠ pagePlace manDir p) (h : installManpage fs (pathJoin docs p) manDir w = (r, w')) :
    AllKept fs (fun q => q ≠ pagePlace manDir p) w w' ∧
    (∀ x, r = .ok x → RegularAt fs w (pathJoin docs p) →
      ∃ w1, AllKept fs (fun _ => True) w w1 ∧ Placed fs docs manDir w1 w' p) := by
  unfold installManpage at h
  rw [pathBase_join hp] at h
  have e1 : manDest manDir p = sectionDir manDir p := rfl
  have e2 : pathJoin (sectionDir manDir p) p = pagePlace manDir p := rfl
  simp only [e1, e2] at h
  generalize hm : fs.mkdir w (sectionDir manDir p) = q at h
  obtain ⟨r1, w1⟩ := q
  obtain ⟨k1, g1⟩ := mkdir_spec L hm
  cases r1 with
  | error e =>
    cases h
    exact ⟨k1.weaken (fun _ _ => trivial), fun x hx => by cases hx⟩
  | ok u =>
    simp only at h
    split at h
    · rename_i hc
      cases h
      exact ⟨k1.weaken (fun _ _ => trivial), fun x _ he => ⟨_, k1, g1 rfl, hc.1, (cmp_iff _ _ _ _).1 hc.2,
        Or.inr ⟨hc.1, (cmp_iff _ _ _ _).1 hc.2⟩⟩⟩
    · generalize hcp : fs.copyFile w1 (pathJoin docs p) (pagePlace manDir p) = q at h
      obtain ⟨r2, w2⟩ := q
      obtain ⟨k2, g2⟩ := copyFile_spec L hs hcp
      have kk := (k1.weaken (Q := fun q => q ≠ pagePlace manDir p) (fun _ _ => trivial)).trans k2
      cases r2 with
      | error e => cases h; exact ⟨kk, fun x hx => by cases hx⟩
      | ok u =>
        cases h
        refine ⟨kk, fun x _ he => ⟨w1, k1, ?_⟩⟩
        obtain ⟨f1, f2, f3⟩ := (k1.1 _ trivial).1 he
        obtain ⟨a1, a3, a4⟩ := g2 rfl f1
        obtain ⟨b1, b2, b3⟩ := (k2.1 _ hs).1 f1
        exact ⟨k2.2 _ (g1 rfl), a1.1, ⟨b1.2, a1.2, by rw [a3, b2], Or.inl (by rw [a4, b3])⟩, Or.inl (by rw [a4, b3])⟩

theorem Placed.keep {fs : ManFs W} {docs manDir : Str} {w0 w w' : W} {p : Str} {P : Str → Prop}
    (h : Placed fs docs manDir w0 w p) (hk : AllKept fs P w w') (h1 : P (pathJoin docs p)) (h2 : P (pagePlace manDir p))
    (hs : fs.pathExists w (pathJoin docs p) = true) : Placed fs docs manDir w0 w' p := by
  obtain ⟨a, b, c, d⟩ := h
  obtain ⟨s1, s2, s3⟩ := (hk.1 _ h1).1 ⟨hs, c.1⟩
  obtain ⟨t1, t2, t3⟩ := (hk.1 _ h2).1 ⟨b, c.2.1⟩
  refine ⟨hk.2 _ a, t1.1, ?_, ?_⟩
  · unfold SameFile
    rw [s2, s3, t2, t3]
    exact c
  · rw [s3, t3]
    exact d

theorem pagePlace_ne {manDir p q : Str} (hp : '/' ∉ p) (hq : '/' ∉ q) (h : p ≠ q) : pagePlace manDir p ≠ pagePlace manDir q := by
  intro he
  have := congrArg pathBase he
  unfold pagePlace at this
  rw [pathBase_join hp, pathBase_join hq] at this
  exact h this

theorem installPages_spec {fs : ManFs W} (L : FileLaws fs) {docs manDir : Str} : ∀ {pages : List Str} {w w' : W} {a b : Bool}
    {x : Bool × Bool}, PagesFit fs docs manDir w pages → installPages fs docs manDir pages a b w = (.ok x, w') →
    AllKept fs (fun q => ∀ p ∈ pages, q ≠ pagePlace manDir p) w w' ∧
    ∀ p ∈ pages, ∃ w1, AllKept fs (fun q => ∀ p' ∈ pages, p' ≠ p → q ≠ pagePlace manDir p') w w1 ∧
      Placed fs docs manDir w1 w' p := by
  intro pages
  induction pages with
  | nil =>
    intro w w' a b x _ h
    cases h
    exact ⟨.refl _ _ _, by simp⟩
  | cons p r ih =>
    intro w w' a b x F h
    rw [installPages] at h
    generalize hi : installManpage fs (pathJoin docs p) manDir w = q at h
    obtain ⟨ri, w2⟩ := q
    cases ri with
    | error e => cases h
    | ok y =>
      obtain ⟨y1, y2⟩ := y
      simp only at h
      obtain ⟨k1, g1⟩ := installManpage_spec L (F.plain p (by simp)) (F.outside p (by simp) p (by simp)) hi
      obtain ⟨w1, m1, pl⟩ := g1 _ rfl (F.there p (by simp))
      have F2 : PagesFit fs docs manDir w2 r :=
        { plain := fun q hq => F.plain q (by simp [hq])
          distinct := (List.nodup_cons.1 F.distinct).2
          there := fun q hq => ((k1.1 _ (F.outside q (by simp [hq]) p (by simp))).1 (F.there q (by simp [hq]))).1
          outside := fun q hq q' hq' => F.outside q (by simp [hq]) q' (by simp [hq']) }
      obtain ⟨k2, g2⟩ := ih F2 h
      have notin : p ∉ r := (List.nodup_cons.1 F.distinct).1
      refine ⟨(k1.weaken (fun q hq => hq p (by simp))).trans (k2.weaken (fun q hq p' hp' => hq p' (by simp [hp']))), ?_⟩
      intro q hq
      rcases List.mem_cons.1 hq with rfl | hq
      · refine ⟨w1, m1.weaken (fun _ _ => trivial), pl.keep k2 ?_ ?_ ?_⟩
        · exact fun p' hp' => F.outside q (by simp) p' (by simp [hp'])
        · intro p' hp'
          exact pagePlace_ne (F.plain q (by simp)) (F.plain p' (by simp [hp'])) (fun e => notin (e ▸ hp'))
        · exact ((k1.1 _ (F.outside q (by simp) q (by simp))).1 (F.there q (by simp))).1.1
      · obtain ⟨w3, m3, pl3⟩ := g2 q hq
        have hpq : p ≠ q := fun e => notin (e ▸ hq)
        refine ⟨w3, ?_, pl3⟩
        refine (k1.weaken (fun q' hq' => hq' p (by simp) hpq)).trans (m3.weaken (fun q' hq' p' hp' => hq' p' (by simp [hp'])))

theorem installManpages_inv {fs : ManFs W} {text : Err → Str} {docs manDir : Str} {pages : List Str} {w w' : W} {msg : Str}
    (h : installManpages fs text docs manDir pages w = (.ok (true, msg), w')) :
    ∃ x, installPages fs docs manDir pages false false w = (.ok x, w') := by
  unfold installManpages at h
  generalize hi : installPages fs docs manDir pages false false w = q at h
  obtain ⟨r, w2⟩ := q
  cases r with
  | error e =>
    simp only at h
    split at h <;> simp at h
  | ok x =>
    obtain ⟨x1, x2⟩ := x
    simp only [Prod.mk.injEq] at h
    obtain ⟨-, rfl⟩ := h
    exact ⟨_, rfl⟩

/-- **C99 (installation).** If installing the pages is reported as a success, every page is in its place afterwards, in an
existing directory; --verify-only will say so. -/
theorem C99_install {fs : ManFs W} (L : FileLaws fs) {text : Err → Str} {docs manDir : Str} {pages : List Str} {w w' : W}
    {msg : Str} (F : PagesFit fs docs manDir w pages)
    (h : installManpages fs text docs manDir pages w = (.ok (true, msg), w')) :
    (∀ p ∈ pages, fs.isDir w' (sectionDir manDir p) = true ∧ InPlace fs docs manDir w' p) ∧
    verifyManpages fs docs manDir w' pages = (true, "already installed, no updates needed".toList) := by
  obtain ⟨x, hi⟩ := installManpages_inv h
  have key : ∀ p ∈ pages, fs.isDir w' (sectionDir manDir p) = true ∧ InPlace fs docs manDir w' p := by
    intro p hp
    obtain ⟨w1, -, a, b, c, -⟩ := (installPages_spec L F hi).2 p hp
    exact ⟨a, L.dirExists _ _ a, b, c⟩
  exact ⟨key, (C99_verify _ _ _ _ _).2 (fun p hp => (key p hp).2)⟩

/-- **C99 (contents).** A page that was missing or different has the contents of the original afterwards; no other file is
touched. -/
theorem C99_contents_partial {fs : ManFs W} (L : FileLaws fs) {text : Err → Str} {docs manDir : Str} {pages : List Str} {w w' : W}
    {msg : Str} (F : PagesFit fs docs manDir w pages)
    (h : installManpages fs text docs manDir pages w = (.ok (true, msg), w')) :
    (∀ p ∈ pages, ¬ (fs.pathExists w (pagePlace manDir p) = true ∧ SameFile fs w (pathJoin docs p) (pagePlace manDir p)) →
      fs.content w' (pagePlace manDir p) = fs.content w (pathJoin docs p)) ∧
    (∀ q, (∀ p ∈ pages, q ≠ pagePlace manDir p) → RegularAt fs w q →
      RegularAt fs w' q ∧ fs.sig w' q = fs.sig w q ∧ fs.content w' q = fs.content w q) := by
  obtain ⟨x, hi⟩ := installManpages_inv h
  obtain ⟨K, G⟩ := installPages_spec L F hi
  refine ⟨?_, fun q hq hr => (K.1 q hq).1 hr⟩
  intro p hp hdiff
  obtain ⟨w1, k1, -, -, -, d⟩ := G p hp
  have hsrc := (K.1 (pathJoin docs p) (fun q hq => F.outside p hp q hq)).1 (F.there p hp)
  rcases d with d | ⟨he, d⟩
  · rw [← d, hsrc.2.2]
  · exfalso
    apply hdiff
    have s := (k1.1 (pathJoin docs p) (fun q hq _ => F.outside p hp q hq)).1 (F.there p hp)
    have hk := k1.1 (pagePlace manDir p) (fun q hq hqp => pagePlace_ne (F.plain p hp) (F.plain q hq) (fun e => hqp e.symm))
    have hreg := hk.2 ⟨he, d.2.1⟩
    have t := hk.1 hreg
    refine ⟨hreg.1, ?_⟩
    unfold SameFile at d ⊢
    rw [s.2.1, s.2.2, t.2.1, t.2.2] at d
    exact d

/-- **C99 (again).** If all pages are in place nothing is changed, and the command says so. -/
theorem C99_again {fs : ManFs W} {text : Err → Str} {docs manDir : Str} {pages : List Str} {w : W} (hne : pages ≠ [])
    (hplain : ∀ p ∈ pages, '/' ∉ p) (h : ∀ p ∈ pages, fs.isDir w (sectionDir manDir p) = true ∧ InPlace fs docs manDir w p) :
    installManpages fs text docs manDir pages w = (.ok (true, "already installed, no updates needed".toList), w) := by
  have one : ∀ p ∈ pages, installManpage fs (pathJoin docs p) manDir w = (.ok (true, false), w) := by
    intro p hp
    unfold installManpage
    rw [pathBase_join (hplain p hp)]
    have e1 : manDest manDir p = sectionDir manDir p := rfl
    have e2 : pathJoin (sectionDir manDir p) p = pagePlace manDir p := rfl
    simp only [e1, e2]
    obtain ⟨h1, -, h3, h4⟩ := h p hp
    rw [(C99_mkdir fs w _).1 h1]
    simp only
    rw [if_pos ⟨h3, (cmp_iff _ _ _ _).2 h4⟩]
  have all : ∀ (l : List Str) (a : Bool), (∀ p ∈ l, p ∈ pages) → installPages fs docs manDir l a false w =
      (.ok (a || !l.isEmpty, false), w) := by
    intro l
    induction l with
    | nil => intro a _; simp [installPages]
    | cons p r ih =>
      intro a hl
      rw [installPages, one p (hl p (by simp))]
      simp only
      rw [show (false || false) = false from rfl, ih _ (fun q hq => hl q (by simp [hq]))]
      simp
  unfold installManpages
  rw [all pages false (fun _ h => h)]
  cases pages with
  | nil => exact absurd rfl hne
  | cons a r => rfl

theorem pathDir_split {A base : Str} (h : '/' ∉ base) (h1 : A ≠ []) (h2 : A.getLast? ≠ some '/') :
    pathDir (A ++ '/' :: base) = A := by
  unfold pathDir
  simp only [pathHead_split h]
  have hna : ¬ ((A ++ ['/']).all (fun c => c == '/')) = true := by
    intro hall
    rw [List.all_append, Bool.and_eq_true] at hall
    apply h2
    rw [List.getLast?_eq_getLast_of_ne_nil h1]
    have := List.all_eq_true.1 hall.1 _ (List.getLast_mem h1)
    simpa using this
  rw [if_neg hna]
  rw [List.reverse_append]
  show ((['/'] ++ A.reverse).dropWhile (fun c => c == '/')).reverse = A
  have : A.reverse.dropWhile (fun c => c == '/') = A.reverse := by
    cases hr : A.reverse with
    | nil => rfl
    | cons c t =>
      have hl : A.getLast? = some c := by rw [← List.head?_reverse, hr]; rfl
      rw [List.dropWhile_cons, if_neg]
      simp only [beq_iff_eq]
      rintro rfl
      exact h2 hl
  rw [List.singleton_append, List.dropWhile_cons, if_pos (by simp), this, List.reverse_reverse]

theorem pathBase_split {A base : Str} (h : '/' ∉ base) : pathBase (A ++ '/' :: base) = base := by
  have := pathBase_join (dir := A ++ ['/']) h
  unfold pathJoin at this
  rw [if_neg, if_pos (Or.inr (by simp))] at this
  · simpa using this
  · cases base with
    | nil => simp
    | cons c t => simp only [List.head?_cons, Option.some.injEq]; rintro rfl; simp at h

/-- **C99 (where).** For a program PREFIX/bin/NAME the pages belong to PREFIX/man; for a program in a directory of another name
they belong to /usr/local/man. -/
theorem C99_where {A name : Str} (hn : '/' ∉ name) (h1 : A ≠ []) (h2 : A.getLast? ≠ some '/') :
    guessManpath (A ++ "/bin/".toList ++ name) = A ++ "/man".toList ∧
    ∀ d, '/' ∉ d → d ≠ [] → d ≠ "bin".toList → guessManpath (A ++ '/' :: d ++ '/' :: name) = "/usr/local/man".toList := by
  have dir : ∀ d : Str, '/' ∉ d → d ≠ [] → pathDir ((A ++ '/' :: d) ++ '/' :: name) = A ++ '/' :: d := by
    intro d hd hne
    refine pathDir_split hn (by simp) ?_
    rw [List.getLast?_append, List.getLast?_cons, List.getLast?_eq_getLast_of_ne_nil hne]
    simp only [Option.getD_some, Option.some_or, ne_eq, Option.some.injEq]
    intro e
    exact hd (e ▸ List.getLast_mem hne)
  constructor
  · have hb : '/' ∉ "bin".toList := by decide
    have : A ++ "/bin/".toList ++ name = (A ++ '/' :: "bin".toList) ++ '/' :: name := by simp
    rw [this]
    unfold guessManpath
    rw [dir _ hb (by decide)]
    simp only
    rw [if_pos (pathBase_split hb), pathDir_split hb h1 h2]
    unfold pathJoin
    rw [if_neg (by decide), if_neg (by rintro (h | h); exact h1 h; exact h2 h)]
    rfl
  · intro d hd hne hdb
    unfold guessManpath
    rw [dir d hd hne]
    simp only
    rw [pathBase_split hd, if_neg hdb]

/-! ### Examples and failures -/

/-- a small machine: regular files (path, contents, time) and directories; root may write anywhere, others only under /home -/
structure ExMachine where
  files : List (Str × Str × Nat)
  dirs : List Str

def exFileAt (w : ExMachine) (p : Str) : Option (Str × Nat) := dget? w.files p

def exCopyTo (w : ExMachine) (s d : Str) : Bool × ExMachine :=
  match exFileAt w s with
  | none => (false, w)
  | some (c, _) => if w.dirs.contains d then (false, w) else (true, { w with files := dset w.files d (c, 99) })

def exMkTo (w : ExMachine) (d : Str) : Bool × ExMachine :=
  if (exFileAt w d).isSome then (false, w) else (true, { w with dirs := d :: w.dirs })

def exManFs : ManFs ExMachine where
  pathExists w p := (exFileAt w p).isSome || w.dirs.contains p
  isDir w p := w.dirs.contains p && (exFileAt w p).isNone
  sig w p := match exFileAt w p with
    | some (c, t) => ⟨true, c.length, t⟩
    | none => ⟨false, 0, 0⟩
  content w p := match exFileAt w p with
    | some (c, _) => c
    | none => []
  makedirs w d := if "/home/".toList.isPrefixOf d then exMkTo w d else (false, w)
  copy w s d := if "/home/".toList.isPrefixOf d then exCopyTo w s d else (false, w)
  exec w c := match c with
    | [_, _, _, _, _, d] => if (exMkTo w d).1 then (.exit 0 [], (exMkTo w d).2) else (.exit 1 [], w)
    | [_, _, s, d] => if (exCopyTo w s d).1 then (.exit 0 [], (exCopyTo w s d).2) else (.exit 1 [], w)
    | _ => (.exit 1 [], w)

theorem exRegular (w : ExMachine) (p : Str) : RegularAt exManFs w p ↔ (exFileAt w p).isSome = true := by
  unfold RegularAt exManFs
  simp only
  cases exFileAt w p with
  | none => simp
  | some x => simp

theorem exKept {w w' : ExMachine} {p : Str} (h : exFileAt w' p = exFileAt w p) : FileKept exManFs w w' p := by
  refine ⟨fun hr => ⟨by rw [exRegular] at hr ⊢; rw [h]; exact hr, by simp only [exManFs, h], by simp only [exManFs, h]⟩,
    fun hr => by rw [exRegular] at hr ⊢; rw [← h]; exact hr⟩

theorem exMk_spec {w w' : ExMachine} {d : Str} {b : Bool} (h : exMkTo w d = (b, w')) :
    w'.files = w.files ∧ (∀ q ∈ w.dirs, q ∈ w'.dirs) ∧ (b = true → d ∈ w'.dirs ∧ exFileAt w' d = none) := by
  unfold exMkTo at h
  split at h
  · cases h
    exact ⟨rfl, fun q hq => hq, fun h => by cases h⟩
  · rename_i hn
    cases h
    refine ⟨rfl, fun q hq => by simp [hq], fun _ => ⟨by simp, ?_⟩⟩
    have : exFileAt w d = none := by simpa using hn
    exact this

theorem exCp_spec {w w' : ExMachine} {s d : Str} {b : Bool} (h : exCopyTo w s d = (b, w')) :
    w'.dirs = w.dirs ∧ (∀ p, p ≠ d → exFileAt w' p = exFileAt w p) ∧ (b = false → w' = w) ∧
    (b = true → d ∉ w.dirs ∧ ∃ c t, exFileAt w s = some (c, t) ∧ exFileAt w' d = some (c, 99)) := by
  unfold exCopyTo at h
  cases hs : exFileAt w s with
  | none =>
    rw [hs] at h
    cases h
    exact ⟨rfl, fun _ _ => rfl, fun _ => rfl, fun h => by cases h⟩
  | some x =>
    obtain ⟨c, t⟩ := x
    rw [hs] at h
    simp only at h
    split at h
    · cases h
      exact ⟨rfl, fun _ _ => rfl, fun _ => rfl, fun h => by cases h⟩
    · rename_i hn
      cases h
      refine ⟨rfl, fun p hp => ?_, (fun h => by cases h), fun _ => ⟨by simpa using hn, c, t, rfl, ?_⟩⟩
      · unfold exFileAt
        simp only
        rw [dget?_dset, if_neg (fun e => hp e.symm)]
      · unfold exFileAt
        simp only
        rw [dget?_dset, if_pos rfl]

theorem exFileLaws : FileLaws exManFs := by
  have mk : ∀ {d b w w'}, MkStep exManFs d b w w' → w'.files = w.files ∧ (∀ q ∈ w.dirs, q ∈ w'.dirs) ∧
      (b = true → d ∈ w'.dirs ∧ exFileAt w' d = none) := by
    rintro d b w w' (h | ⟨h, hb⟩)
    · simp only [exManFs] at h
      split at h
      · exact exMk_spec h
      · cases h; exact ⟨rfl, fun _ h => h, fun h => by cases h⟩
    · rename_i x
      simp only [exManFs] at h
      split at h
      · rename_i hs
        cases h
        have := exMk_spec (w := w) (d := d) (b := true) (w' := (exMkTo w d).2) (by rw [← hs])
        exact ⟨this.1, this.2.1, fun _ => this.2.2 rfl⟩
      · cases h
        refine ⟨rfl, fun _ h => h, fun h => ?_⟩
        obtain ⟨out, ho⟩ := hb.1 h
        simp at ho
  have cp : ∀ {s d b w w'}, CpStep exManFs s d b w w' → w'.dirs = w.dirs ∧ (∀ p, p ≠ d → exFileAt w' p = exFileAt w p) ∧
      (∃ b', (b' = false → w' = w) ∧ (b = true → b' = true) ∧
      (b' = true → d ∉ w.dirs ∧ ∃ c t, exFileAt w s = some (c, t) ∧ exFileAt w' d = some (c, 99))) := by
    rintro s d b w w' (h | ⟨h, hb⟩)
    · simp only [exManFs] at h
      split at h
      · obtain ⟨h1, h2, h3⟩ := exCp_spec h
        exact ⟨h1, h2, b, h3.1, fun h => h, h3.2⟩
      · cases h; exact ⟨rfl, fun _ _ => rfl, false, fun _ => rfl, fun h => h, fun h => by cases h⟩
    · rename_i x
      simp only [exManFs] at h
      split at h
      · rename_i hs
        cases h
        have := exCp_spec (w := w) (s := s) (d := d) (b := true) (w' := (exCopyTo w s d).2) (by rw [← hs])
        exact ⟨this.1, this.2.1, true, (fun h => by cases h), fun _ => rfl, this.2.2.2⟩
      · cases h
        refine ⟨rfl, fun _ _ => rfl, false, fun _ => rfl, fun h => ?_, fun h => by cases h⟩
        obtain ⟨out, ho⟩ := hb.1 h
        simp at ho
  constructor
  · intro w d h
    simp only [exManFs, Bool.and_eq_true] at h
    simp only [exManFs, Bool.or_eq_true]
    exact Or.inr h.1
  · intro d w w' h
    obtain ⟨-, -, h3⟩ := mk h
    obtain ⟨h4, h5⟩ := h3 rfl
    simp [exManFs, h4, h5]
  · intro d b w w' h
    obtain ⟨h1, h2, -⟩ := mk h
    have hf : ∀ p, exFileAt w' p = exFileAt w p := fun p => by unfold exFileAt; rw [h1]
    refine ⟨fun p => exKept (hf p), fun q hq => ?_⟩
    simp only [exManFs, Bool.and_eq_true, hf] at hq ⊢
    exact ⟨by simpa using h2 q (by simpa using hq.1), hq.2⟩
  · intro s d w w' h hr
    obtain ⟨-, -, b', -, hb, h3⟩ := cp h
    obtain ⟨-, c, t, h4, h5⟩ := h3 (hb rfl)
    refine ⟨by rw [exRegular, h5]; rfl, ?_, ?_⟩ <;> simp only [exManFs, h4, h5]
  · intro s d b w w' h
    obtain ⟨h1, h2, b', h3, -, h4⟩ := cp h
    refine ⟨fun p hp => exKept (h2 p hp), fun q hq => ?_⟩
    simp only [exManFs, Bool.and_eq_true] at hq ⊢
    rw [h1]
    refine ⟨hq.1, ?_⟩
    cases b' with
    | false => rw [h3 rfl]; exact hq.2
    | true =>
      have hqd : q ≠ d := by
        rintro rfl
        exact (h4 rfl).1 (by simpa using hq.1)
      rw [h2 q hqd]
      exact hq.2

def exManPages : List Str := ["cot.1".toList, "cot-info.1".toList]
def exManWorld : ExMachine := ⟨[("/cot/man/cot.1".toList, "COT".toList, 5), ("/cot/man/cot-info.1".toList, "INFO".toList, 5),
  ("/usr/man/man1/cot.1".toList, "old".toList, 3)], ["/usr/man".toList]⟩

theorem exPagesFit : PagesFit exManFs "/cot/man".toList "/usr/man".toList exManWorld exManPages where
  plain := by decide
  distinct := by decide
  there := by
    intro p hp
    rw [exRegular]
    revert p
    decide
  outside := by decide

/-- here sudo is needed; the old page is replaced, the other one added -/
example : ∃ w', installManpages exManFs (fun _ => []) "/cot/man".toList "/usr/man".toList exManPages exManWorld =
      (.ok (true, "successfully updated in /usr/man".toList), w') ∧
    verifyManpages exManFs "/cot/man".toList "/usr/man".toList w' exManPages = (true, "already installed, no updates needed".toList) ∧
    exManFs.content w' "/usr/man/man1/cot.1".toList = "COT".toList ∧
    installManpages exManFs (fun _ => []) "/cot/man".toList "/usr/man".toList exManPages w' =
      (.ok (true, "already installed, no updates needed".toList), w') := by
  refine ⟨_, rfl, ?_⟩
  have h := C99_install exFileLaws (text := fun _ => []) exPagesFit rfl
  exact ⟨h.2, (C99_contents_partial exFileLaws (text := fun _ => []) exPagesFit rfl).1 "cot.1".toList (by decide)
      (fun hh => absurd ((cmp_iff _ _ _ _).2 hh.2) (by decide)), C99_again (by decide) (by decide) h.1⟩

example : guessManpath "/usr/local/bin/cot".toList = "/usr/local/man".toList := rfl
example : guessManpath "/opt/cot/bin/cot".toList = "/opt/cot/man".toList := rfl
example : guessManpath "/root/COT/cli.py".toList = "/usr/local/man".toList := rfl

/-- **C99 (limits).** A page is taken to be up to date although its contents are different, if size and time of modification
are the same. -/
theorem C99_same_stamp_fails : ∃ w : ExMachine,
    verifyManpages exManFs "/cot/man".toList "/usr/man".toList w ["cot.1".toList] =
      (true, "already installed, no updates needed".toList) ∧
    exManFs.content w "/cot/man/cot.1".toList ≠ exManFs.content w "/usr/man/man1/cot.1".toList :=
  ⟨⟨[("/cot/man/cot.1".toList, "COT".toList, 5), ("/usr/man/man1/cot.1".toList, "old".toList, 5)], ["/usr/man/man1".toList]⟩,
    rfl, by decide⟩

/-- **C99 (limits).** If something that is not a directory is in the way, the failure is not reported: the command ends with a
RuntimeError. -/
theorem C99_in_the_way_fails : ∃ w : ExMachine,
    (installManpages exManFs (fun _ => []) "/cot/man".toList "/usr/man".toList ["cot.1".toList] w).1 = .error .runtimeError :=
  ⟨⟨[("/cot/man/cot.1".toList, "COT".toList, 5), ("/usr/man/man1".toList, [], 5)], ["/usr/man".toList]⟩, rfl⟩

end Cot
