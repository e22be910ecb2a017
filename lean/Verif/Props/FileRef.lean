import Verif.Model.FileRef
import Mathlib.Tactic.Push
/-
C48: references to files notice changes.
-/
namespace Cot

/-- the digest function works for the algorithm of the reference, if it has one -/
def Digests (digest : Str → List UInt8 → Except Err Str) (algo : Option Str) : Prop :=
  ∀ a, algo = some a → ∀ b, ∃ c, digest a b = .ok c

/-- the same size and, if the reference has an algorithm, the same checksum -/
def LooksSame (digest : Str → List UInt8 → Except Err Str) (algo : Option Str) (b b0 : List UInt8) : Prop :=
  b.length = b0.length ∧ ∀ a, algo = some a → digest a b = digest a b0

/-- the reference has recorded what the content `b0` looks like -/
def Recorded (digest : Str → List UInt8 → Except Err Str) (r : FRef) (b0 : List UInt8) : Prop :=
  r.force = false ∧ r.size = some b0.length ∧ ∀ a, r.algo = some a → ∃ c, r.sum = some c ∧ digest a b0 = .ok c

theorem content_congr {r r' : FRef} (h1 : r'.inTar = r.inTar) (h2 : r'.container = r.container)
    (h3 : r'.filename = r.filename) (w : Fs) : r'.content w = r.content w := by
  unfold FRef.content; rw [h1, h2, h3]

theorem exists_of_content {r : FRef} {w : Fs} {b : List UInt8} (h : r.content w = .ok b) :
    r.exists_ w = (.ok true, r) := by
  unfold FRef.content at h
  unfold FRef.exists_
  split at h
  · rename_i ht
    rw [if_pos ht]
    cases hw : w.tar r.container with
    | none => rw [hw] at h; cases h
    | some ms =>
      rw [hw] at h
      simp only at h ⊢
      cases hm : getMember ms r.filename with
      | none => rw [hm] at h; cases h
      | some b' => rfl
  · rename_i ht
    rw [if_neg ht]
    cases hw : w.file (pathJoin r.container r.filename) with
    | none => rw [hw] at h; cases h
    | some b' => rfl

theorem readSize_fresh {r : FRef} {w : Fs} {b : List UInt8} (h : r.content w = .ok b)
    (hf : r.size = none ∨ r.force = true) : r.readSize w = (.ok b.length, { r with size := some b.length }) := by
  unfold FRef.readSize
  rw [h]
  obtain ⟨i, c, f, a, s, n, fo⟩ := r
  cases n <;> cases fo <;> simp_all

theorem readSize_cached {r : FRef} {n : Nat} (w : Fs) (h : r.size = some n) (hf : r.force = false) :
    r.readSize w = (.ok n, r) := by
  unfold FRef.readSize
  rw [h, hf]

theorem readSum_none (digest : Str → List UInt8 → Except Err Str) {r : FRef} (w : Fs) (h : r.algo = none) :
    r.readSum digest w = (.ok none, r) := by
  unfold FRef.readSum; rw [h]

theorem readSum_fresh {digest : Str → List UInt8 → Except Err Str} {r : FRef} {w : Fs} {b : List UInt8} {a c : Str}
    (h : r.content w = .ok b) (ha : r.algo = some a) (hc : digest a b = .ok c)
    (hf : r.sum = none ∨ r.force = true) : r.readSum digest w = (.ok (some c), { r with sum := some c }) := by
  unfold FRef.readSum
  rw [h, ha]
  obtain ⟨i, co, f, a, s, n, fo⟩ := r
  cases s <;> cases fo <;> simp_all

theorem readSum_cached (digest : Str → List UInt8 → Except Err Str) {r : FRef} {a c : Str} (w : Fs)
    (ha : r.algo = some a) (h : r.sum = some c) (hf : r.force = false) :
    r.readSum digest w = (.ok (some c), r) := by
  unfold FRef.readSum
  rw [ha, h, hf]

/-- what a reference looks like after a re-check of content `b` -/
def Rechecked (digest : Str → List UInt8 → Except Err Str) (r : FRef) (b : List UInt8) (r' : FRef) : Prop :=
  r'.inTar = r.inTar ∧ r'.container = r.container ∧ r'.filename = r.filename ∧ r'.algo = r.algo ∧
  r'.force = true ∧ r'.size = some b.length ∧ ∀ a, r.algo = some a → ∃ c, r'.sum = some c ∧ digest a b = .ok c

theorem recheck_spec {digest : Str → List UInt8 → Except Err Str} {r : FRef} {w : Fs} {b : List UInt8}
    (hd : Digests digest r.algo) (h : r.content w = .ok b) (n : Nat) (c : Option Str) :
    ∃ r', r.recheck digest w n c = (.ok (decide (b.length = n) &&
        (decide ((∀ a, r.algo = some a → (digest a b).toOption = c) ∧ (r.algo = none → c = none)) || decide (c = none))), r') ∧
      Rechecked digest r b r' := by
  have h1 : ({ r with force := true } : FRef).content w = .ok b := by rw [← h]; exact content_congr rfl rfl rfl w
  unfold FRef.recheck
  rw [exists_of_content h1]
  simp only
  rw [readSize_fresh h1 (Or.inr rfl)]
  obtain ⟨i, co, f, al, s, sz, fo⟩ := r
  simp only at *
  have h2 : (FRef.mk i co f al s (some b.length) true).content w = .ok b := by
    rw [← h]; exact content_congr rfl rfl rfl w
  cases al with
  | none =>
    rw [readSum_none digest w rfl]
    refine ⟨FRef.mk i co f none s (some b.length) true, ?_, rfl, rfl, rfl, rfl, rfl, rfl, fun a h => by cases h⟩
    simp only [reduceCtorEq, false_implies, implies_true, true_and, true_implies]
    cases c <;> rfl
  | some a =>
    obtain ⟨d, hdg⟩ := hd a rfl b
    rw [readSum_fresh h2 rfl hdg (Or.inr rfl)]
    refine ⟨FRef.mk i co f (some a) (some d) (some b.length) true, ?_, rfl, rfl, rfl, rfl, rfl, rfl, fun a' h' => ?_⟩
    · simp [hdg, Except.toOption]
    · cases h'
      exact ⟨d, rfl, hdg⟩

theorem recorded_refresh {digest : Str → List UInt8 → Except Err Str} {r : FRef} {b0 : List UInt8} (w : Fs)
    (hr : Recorded digest r b0) :
    r.refresh digest w = r.recheck digest w b0.length (match r.algo with | none => none | some _ => r.sum) := by
  obtain ⟨hf, hs, hc⟩ := hr
  unfold FRef.refresh
  rw [readSize_cached w hs hf]
  simp only
  cases ha : r.algo with
  | none => rw [readSum_none digest w ha]
  | some a =>
    obtain ⟨c, h1, h2⟩ := hc a ha
    rw [readSum_cached digest w ha h1 hf]
    simp only [h1]

/-- **C48 (first re-check).** When a reference has recorded what a file looked like, re-checking it says whether the
file still looks the same, and records what it looks like now. -/
theorem C48_refresh_partial {digest : Str → List UInt8 → Except Err Str} {r : FRef} {w : Fs} {b0 b : List UInt8}
    (hr : Recorded digest r b0) (hd : Digests digest r.algo) (h : r.content w = .ok b) :
    ∃ ok r', r.refresh digest w = (.ok ok, r') ∧ (ok = true ↔ LooksSame digest r.algo b b0) ∧ Rechecked digest r b r' := by
  rw [recorded_refresh w hr]
  obtain ⟨r', e, h'⟩ := recheck_spec hd h b0.length (match r.algo with | none => none | some _ => r.sum)
  refine ⟨_, r', e, ?_, h'⟩
  unfold LooksSame
  cases ha : r.algo with
  | none => simp
  | some a =>
    obtain ⟨c, h1, h2⟩ := hr.2.2 a ha
    obtain ⟨d, h3⟩ := hd a ha b
    simp [h1, h2, h3, Except.toOption]

/-- **C48 (missing file).** Re-checking such a reference when the file is gone returns False. -/
theorem C48_missing_partial {digest : Str → List UInt8 → Except Err Str} {r : FRef} {w : Fs} {b0 : List UInt8}
    (hr : Recorded digest r b0)
    (hm : (r.inTar = false ∧ w.file (pathJoin r.container r.filename) = none) ∨
      (r.inTar = true ∧ ∃ ms, w.tar r.container = some ms ∧ ∀ m ∈ ms, m.1 ≠ r.filename ∧ normpath m.1 ≠ r.filename)) :
    (r.refresh digest w).1 = .ok false := by
  rw [recorded_refresh w hr]
  unfold FRef.recheck
  have : ({ r with force := true } : FRef).exists_ w = (.ok false, { r with force := true }) := by
    unfold FRef.exists_
    rcases hm with ⟨h1, h2⟩ | ⟨h1, ms, h2, h3⟩
    · simp [h1, h2]
    · have e1 : getMember ms r.filename = none := by
        unfold getMember
        rw [List.find?_eq_none.2]
        · rfl
        · intro m hm
          simpa using (h3 m (List.mem_reverse.1 hm)).1
      have e2 : ms.find? (fun m => decide (normpath m.1 = r.filename)) = none := by
        rw [List.find?_eq_none]
        intro m hm
        simpa using (h3 m hm).2
      simp [h1, h2, e1, e2]
  rw [this]

/-- reading does not disturb what is recorded -/
theorem read_recorded {digest : Str → List UInt8 → Except Err Str} {r : FRef} {b0 : List UInt8}
    (hr : Recorded digest r b0) (x : FRead × Fs) : r.read digest x = r := by
  unfold FRef.read
  cases hx : x.1 with
  | size => simp only; rw [readSize_cached x.2 hr.2.1 hr.1]
  | sum =>
    simp only
    cases ha : r.algo with
    | none => rw [readSum_none digest x.2 ha]
    | some a =>
      obtain ⟨c, h1, -⟩ := hr.2.2 a ha
      rw [readSum_cached digest x.2 ha h1 hr.1]

theorem exists_content {r r' : FRef} {w : Fs} (h : r.exists_ w = (.ok true, r')) :
    (∃ b, r'.content w = .ok b) ∧ r' = { r with filename := r'.filename } ∧ (r.inTar = false → r' = r) := by
  unfold FRef.exists_ at h
  by_cases ht : r.inTar = true
  · rw [if_pos ht] at h
    cases hw : w.tar r.container with
    | none => rw [hw] at h; cases h
    | some ms =>
      rw [hw] at h
      simp only at h
      cases hm : getMember ms r.filename with
      | some b =>
        rw [hm] at h
        cases h
        refine ⟨⟨b, ?_⟩, rfl, fun hh => absurd (ht.symm.trans hh) (by decide)⟩
        unfold FRef.content
        simp only [ht, hw, hm, if_true]
      | none =>
        rw [hm] at h
        simp only at h
        cases hf : ms.find? (fun m => decide (normpath m.1 = r.filename)) with
        | none => rw [hf] at h; cases h
        | some m =>
          rw [hf] at h
          cases h
          refine ⟨?_, rfl, fun hh => absurd (ht.symm.trans hh) (by decide)⟩
          have hmem := List.mem_of_find?_eq_some hf
          unfold FRef.content
          simp only
          rw [if_pos ht, hw]
          simp only
          unfold getMember
          cases hg : ms.reverse.find? (fun m' => decide (m'.1 = m.1)) with
          | none =>
            rw [List.find?_eq_none] at hg
            exact absurd (decide_eq_true rfl) (hg m (List.mem_reverse.2 hmem))
          | some m' => exact ⟨m'.2, rfl⟩
  · rw [if_neg ht] at h
    cases hw : w.file (pathJoin r.container r.filename) with
    | none => rw [hw] at h; cases h
    | some b =>
      rw [hw] at h
      cases h
      refine ⟨⟨b, ?_⟩, rfl, fun _ => rfl⟩
      unfold FRef.content
      rw [if_neg ht, hw]

/-- **C48 (construction).** A reference made with an expected size and, if it has an algorithm, an expected checksum
records what the file looks like at that moment; the user is warned exactly if it differs from what was expected. -/
theorem C48_create {digest : Str → List UInt8 → Except Err Str} {w : Fs} {dir name : Str} {algo c : Option Str} {n : Str}
    {r : FRef} {ws : List FWarn} (hd : Digests digest algo) (hc : algo ≠ none → c ≠ none) (hn : algo = none → c = none)
    (h : FRef.create digest w dir name algo c (some n) = .ok (r, ws)) :
    ∃ b0, r.content w = .ok b0 ∧ Recorded digest r b0 ∧ r.algo = algo ∧
      (FWarn.size ∈ ws ↔ pyInt n ≠ some (b0.length : Int)) ∧
      (FWarn.checksum ∈ ws ↔ ∃ a x, algo = some a ∧ c = some x ∧ digest a b0 ≠ .ok x) := by
  have hi : ∃ t p, FRef.init digest w t p name algo c (some n) = .ok (r, ws) := by
    unfold FRef.create at h
    simp only at h
    split at h
    · exact ⟨_, _, h⟩
    · split at h
      · split at h
        · exact ⟨_, _, h⟩
        · cases h
      · cases h
  obtain ⟨t, p, hi⟩ := hi
  unfold FRef.init at hi
  simp only at hi
  generalize hr0 : (FRef.mk t (makeAbs w p) (normpath name) algo none none false) = r0 at hi
  have hf0 : r0.force = false ∧ r0.sum = none ∧ r0.size = none ∧ r0.algo = algo := by subst hr0; exact ⟨rfl, rfl, rfl, rfl⟩
  rcases hex : r0.exists_ w with ⟨ok, r1⟩
  rw [hex] at hi
  cases ok with
  | error e => cases hi
  | ok ok =>
    cases ok with
    | false => cases hi
    | true =>
      simp only at hi
      obtain ⟨⟨b, hb⟩, hr1, -⟩ := exists_content hex
      have hf1 : r1.force = false ∧ r1.sum = none ∧ r1.size = none ∧ r1.algo = algo := by rw [hr1]; exact hf0
      clear hr1 hex hf0 hr0
      unfold FRef.compare at hi
      cases ha : algo with
      | none =>
        have hcn := hn ha
        rw [hcn] at hi
        simp only at hi
        rw [readSize_fresh hb (Or.inl hf1.2.2.1)] at hi
        simp only at hi
        cases hp : pyInt n with
        | none => rw [hp] at hi; cases hi
        | some k =>
          rw [hp] at hi
          cases hi
          refine ⟨b, by rw [← hb]; exact content_congr rfl rfl rfl w,
            ⟨hf1.1, rfl, fun a h' => ?_⟩, by simp only; rw [hf1.2.2.2, ha], ?_, ?_⟩
          · simp only at h'; rw [hf1.2.2.2, ha] at h'; cases h'
          · by_cases hk : (b.length : Int) = k
            · simp [hk]
            · simp [hk, Ne.symm hk]
          · by_cases hk : (b.length : Int) = k <;> simp [hk]
      | some a =>
        obtain ⟨x, hx⟩ : ∃ x, c = some x := by
          cases hcc : c with
          | none => exact absurd hcc (hc (by rw [ha]; simp))
          | some x => exact ⟨x, rfl⟩
        obtain ⟨d, hdg⟩ := hd a ha b
        rw [hx] at hi
        simp only at hi
        rw [readSum_fresh hb (by rw [hf1.2.2.2, ha]) hdg (Or.inl hf1.2.1)] at hi
        simp only at hi
        rw [readSize_fresh (r := { r1 with sum := some d }) (b := b) (by rw [← hb]; exact content_congr rfl rfl rfl w) (Or.inl hf1.2.2.1)] at hi
        simp only at hi
        cases hp : pyInt n with
        | none => rw [hp] at hi; cases hi
        | some k =>
          rw [hp] at hi
          cases hi
          refine ⟨b, by rw [← hb]; exact content_congr rfl rfl rfl w,
            ⟨hf1.1, rfl, fun a' h' => ?_⟩, by simp only; rw [hf1.2.2.2, ha], ?_, ?_⟩
          · simp only at h'; rw [hf1.2.2.2, ha] at h'; cases h'
            exact ⟨d, rfl, hdg⟩
          · by_cases hk : (b.length : Int) = k
            · by_cases hdx : d = x <;> simp [hk, hdx]
            · by_cases hdx : d = x <;> simp [hk, hdx, Ne.symm hk]
          · by_cases hk : (b.length : Int) = k
            · by_cases hdx : d = x <;> simp [hk, hdx, hdg, hx]
            · by_cases hdx : d = x <;> simp [hk, hdx, hdg, hx]

/-- **C48 (history).** After any reads of size and checksum, at any times and whatever happened to the file in the
meantime, the first re-check compares the file with what it was when the reference was made. -/
theorem C48_history_partial {digest : Str → List UInt8 → Except Err Str} {w0 w : Fs} {dir name : Str}
    {algo c : Option Str} {n : Str} {r : FRef} {ws : List FWarn} (hd : Digests digest algo)
    (hc : algo ≠ none → c ≠ none) (hn : algo = none → c = none)
    (h : FRef.create digest w0 dir name algo c (some n) = .ok (r, ws)) (reads : List (FRead × Fs)) {b : List UInt8}
    (hb : r.content w = .ok b) :
    ∃ b0 ok r', r.content w0 = .ok b0 ∧ (reads.foldl (FRef.read digest) r).refresh digest w = (.ok ok, r') ∧
      (ok = true ↔ LooksSame digest algo b b0) := by
  obtain ⟨b0, h1, h2, h3, -, -⟩ := C48_create hd hc hn h
  have hr : reads.foldl (FRef.read digest) r = r := by
    induction reads with
    | nil => rfl
    | cons x l ih => rw [List.foldl_cons, read_recorded h2 x]; exact ih
  rw [hr]
  obtain ⟨ok, r', e, hok, -⟩ := C48_refresh_partial h2 (by rw [h3]; exact hd) hb
  rw [h3] at hok
  exact ⟨b0, ok, r', h1, e, hok⟩

/-- a reference all of whose reads are fresh -/
theorem read_force {digest : Str → List UInt8 → Except Err Str} {r : FRef} (hf : r.force = true) (x : FRead × Fs) :
    let r' := r.read digest x
    r'.force = true ∧ r'.algo = r.algo ∧ r'.inTar = r.inTar ∧ r'.container = r.container ∧ r'.filename = r.filename := by
  intro r'
  show (r.read digest x).force = true ∧ _
  have : r' = r.read digest x := rfl
  rw [this]
  unfold FRef.read
  cases x.1 with
  | size =>
    simp only
    unfold FRef.readSize
    split
    · exact ⟨hf, rfl, rfl, rfl, rfl⟩
    · split <;> exact ⟨hf, rfl, rfl, rfl, rfl⟩
  | sum =>
    simp only
    unfold FRef.readSum
    split
    · exact ⟨hf, rfl, rfl, rfl, rfl⟩
    · split
      · exact ⟨hf, rfl, rfl, rfl, rfl⟩
      · split
        · exact ⟨hf, rfl, rfl, rfl, rfl⟩
        · split <;> exact ⟨hf, rfl, rfl, rfl, rfl⟩

/-- **C48 (fresh).** After a re-check (successful or not, of a file with any content), every read of size or checksum,
in every later history, gives the value of the file at the moment of the read. -/
theorem C48_fresh {digest : Str → List UInt8 → Except Err Str} {r r' : FRef} {w : Fs} {ok : Bool}
    (h : r.refresh digest w = (.ok ok, r')) (reads : List (FRead × Fs)) {w' : Fs} {b : List UInt8}
    (hb : r'.content w' = .ok b) :
    ((reads.foldl (FRef.read digest) r').readSize w').1 = .ok b.length ∧
    ∀ a c, r'.algo = some a → digest a b = .ok c →
      ((reads.foldl (FRef.read digest) r').readSum digest w').1 = .ok (some c) := by
  have hf : r'.force = true := by
    unfold FRef.refresh at h
    split at h
    · cases h
    · split at h
      · cases h
      · unfold FRef.recheck at h
        split at h
        · cases h
        · rename_i r2 he
          cases h
          have : ∀ (q q' : FRef) w x, q.exists_ w = (x, q') → q'.force = q.force := by
            intro q q' w x hh
            unfold FRef.exists_ at hh
            split at hh
            · split at hh
              · cases hh; rfl
              · split at hh
                · cases hh; rfl
                · split at hh <;> cases hh <;> rfl
            · cases hh; rfl
          exact this _ _ _ _ he
        · rename_i r2 he
          have h2 : r2.force = true := by
            obtain ⟨-, e, -⟩ := exists_content he
            rw [e]
          split at h
          · cases h
          · rename_i r3 he3
            have h3 : r3.force = true := by
              have := (read_force (digest := digest) h2 (.size, w)).1
              unfold FRef.read at this
              simp only at this
              rw [he3] at this; exact this
            split at h
            · cases h
            · rename_i r4 he4
              cases h
              have := (read_force (digest := digest) h3 (.sum, w)).1
              unfold FRef.read at this
              simp only at this
              rw [he4] at this; exact this
  clear h
  induction reads generalizing r' with
  | nil =>
    simp only [List.foldl_nil]
    refine ⟨by rw [readSize_fresh hb (Or.inr hf)], fun a c ha hc => by rw [readSum_fresh hb ha hc (Or.inr hf)]⟩
  | cons x l ih =>
    obtain ⟨h1, h2, h3, h4, h5⟩ := read_force (digest := digest) hf x
    rw [List.foldl_cons]
    have := ih (r' := r'.read digest x) (by rw [← hb]; exact content_congr h3 h4 h5 w') h1
    rw [h2] at this
    exact this

/-! ### What goes wrong -/

def fsWith (content : Option (List UInt8)) : Fs where
  cwd := "/".toList
  file := fun p => if p = "/d/f".toList then content else none
  isDir := fun p => decide (p = "/d".toList)
  tar := fun _ => none

/-- a toy digest: the content itself, one character per byte -/
def toyDigest : Str → List UInt8 → Except Err Str := fun _ b => .ok (b.map (fun x => Char.ofNat x.toNat))

def exRef : FRef :=
  { inTar := false, container := "/d".toList, filename := "f".toList, algo := some "sha1".toList,
    sum := some (["A"].flatMap String.toList), size := some 1, force := false }

example : FRef.create toyDigest (fsWith (some [65])) "/d".toList "./f".toList (some "sha1".toList)
    (some "A".toList) (some "1".toList) = .ok (exRef, []) := by rfl
example : FRef.create toyDigest (fsWith (some [66, 66])) "/d".toList "f".toList (some "sha1".toList)
    (some "A".toList) (some "1".toList) = .ok ({ exRef with sum := some "BB".toList, size := some 2 }, [.checksum, .size]) := by rfl
example : Recorded toyDigest exRef [65] := ⟨rfl, rfl, fun _ _ => ⟨_, rfl, rfl⟩⟩
example : Digests toyDigest (some "sha1".toList) := fun _ _ _ => ⟨_, rfl⟩
example : (exRef.refresh toyDigest (fsWith (some [66]))).1 = .ok false := by rfl
example : (exRef.refresh toyDigest (fsWith (some [65]))).1 = .ok true := by rfl
example : (exRef.refresh toyDigest (fsWith none)).1 = .ok false := by rfl

/-- A reference made without expected values has recorded nothing, so its first re-check cannot notice a change. -/
theorem C48_unread_fails : ∃ r, FRef.create toyDigest (fsWith (some [65])) "/d".toList "f".toList
      (some "sha1".toList) none none = .ok (r, []) ∧
    (r.refresh toyDigest (fsWith (some [66, 66]))).1 = .ok true := ⟨_, rfl, rfl⟩

/-- A second re-check never notices a change, because by then even the "previous" values are read afresh. -/
theorem C48_second_fails : ∃ r, exRef.refresh toyDigest (fsWith (some [65])) = (.ok true, r) ∧
    (r.refresh toyDigest (fsWith (some [66, 66]))).1 = .ok true := ⟨_, rfl, rfl⟩

/-- And if the file has disappeared, a second re-check raises an error instead of returning False. -/
theorem C48_second_missing_fails : ∃ r, exRef.refresh toyDigest (fsWith (some [65])) = (.ok true, r) ∧
    (r.refresh toyDigest (fsWith none)).1 = .error .ioError := ⟨_, rfl, rfl⟩

end Cot
