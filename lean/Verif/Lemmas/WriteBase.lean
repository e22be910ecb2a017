import Verif.Spec.Write
import Verif.Lemmas.PathNorm
import Verif.Lemmas.Refresh
import Verif.Lemmas.Manifest
/-
Running computations that change files; what is kept by changes elsewhere.
-/
namespace Cot

variable {l : Lib} {α β : Type}

theorem absName_cwd {w w' : Fs} (h : w'.cwd = w.cwd) (p : Str) : absName w' p = absName w p := by
  unfold absName; rw [h]

@[simp] theorem put_cwd (w : Fs) (p : Str) (b : List UInt8) : (w.put l p b).cwd = w.cwd := rfl
@[simp] theorem put_isDir (w : Fs) (p : Str) (b : List UInt8) : (w.put l p b).isDir = w.isDir := rfl

theorem put_file (w : Fs) (p q : Str) (b : List UInt8) :
    (w.put l p b).file q = if absName w q = absName w p then some b else w.file q := rfl
theorem put_tar (w : Fs) (p q : Str) (b : List UInt8) :
    (w.put l p b).tar q = if absName w q = absName w p then l.unpack b else w.tar q := rfl

theorem applyAll_cwd (cs : List Change) : ∀ w : Fs, (applyAll l w cs).cwd = w.cwd := by
  induction cs with
  | nil => intro w; rfl
  | cons c cs ih => intro w; exact (ih (w.put l c.1 c.2)).trans rfl

theorem applyAll_isDir (cs : List Change) : ∀ w : Fs, (applyAll l w cs).isDir = w.isDir := by
  induction cs with
  | nil => intro w; rfl
  | cons c cs ih => intro w; exact (ih (w.put l c.1 c.2)).trans rfl

theorem absName_applyAll (w : Fs) (cs : List Change) (p : Str) : absName (applyAll l w cs) p = absName w p :=
  absName_cwd (applyAll_cwd cs w) p

theorem applyAll_append (w : Fs) (cs ds : List Change) : applyAll l w (cs ++ ds) = applyAll l (applyAll l w cs) ds := by
  unfold applyAll; rw [List.foldl_append]

theorem applyAll_cons (w : Fs) (c : Change) (cs : List Change) :
    applyAll l w (c :: cs) = applyAll l (w.put l c.1 c.2) cs := rfl

theorem applyAll_nil (w : Fs) : applyAll l w [] = w := rfl

/-- a file that is not written stays as it is -/
theorem applyAll_other {q : Str} : ∀ {cs : List Change} {w : Fs}, (∀ c ∈ cs, absName w c.1 ≠ absName w q) →
    (applyAll l w cs).file q = w.file q ∧ (applyAll l w cs).tar q = w.tar q
  | [], w, _ => ⟨rfl, rfl⟩
  | c :: cs, w, h => by
    rw [applyAll_cons]
    obtain ⟨h1, h2⟩ := applyAll_other (cs := cs) (w := w.put l c.1 c.2) (q := q) (fun x hx => h x (by simp [hx]))
    have hc := h c (by simp)
    rw [h1, h2, put_file, put_tar, if_neg (Ne.symm hc), if_neg (Ne.symm hc)]
    exact ⟨rfl, rfl⟩

/-! ### Does -/

/-- the computation ends well, with this result and these changes -/
def Does (x : WM l α) (w : Fs) (a : α) (cs : List Change) : Prop := x w = (.ok a, cs)

theorem Does.bind {x : WM l α} {f : α → WM l β} {w : Fs} {a : α} {b : β} {cs ds : List Change}
    (h1 : Does x w a cs) (h2 : Does (f a) (applyAll l w cs) b ds) : Does (x >>= f) w b (cs ++ ds) := by
  unfold Does at *
  show WM.bind x f w = _
  unfold WM.bind
  rw [h1]
  simp only [h2]

theorem Does.pure (a : α) (w : Fs) : Does (Pure.pure a : WM l α) w a [] := rfl
theorem Does.write (p : Str) (b : List UInt8) (w : Fs) : Does (WM.write p b : WM l Unit) w () [(p, b)] := rfl
theorem Does.read {f : Fs → Except Err α} {w : Fs} {a : α} (h : f w = .ok a) : Does (WM.read f : WM l α) w a [] := by
  unfold Does WM.read; rw [h]

/-- `Does.bind` after a read -/
theorem Does.bindRead {g : Fs → Except Err α} {f : α → WM l β} {w : Fs} {a : α} {b : β} {ds : List Change}
    (h1 : g w = .ok a) (h2 : Does (f a) w b ds) : Does (WM.read g >>= f) w b ds := by
  have := Does.bind (f := f) (Does.read (l := l) h1) (by rw [applyAll_nil]; exact h2)
  simpa using this

/-- `Does.bind` after a write -/
theorem Does.bindWrite {p : Str} {c : List UInt8} {f : Unit → WM l β} {w : Fs} {b : β} {ds : List Change}
    (h2 : Does (f ()) (w.put l p c) b ds) : Does (WM.write p c >>= f) w b ((p, c) :: ds) :=
  Does.bind (f := f) (Does.write p c w) h2

theorem Does.bindPure {x : WM l α} {f : α → β} {w : Fs} {a : α} {cs : List Change} (h : Does x w a cs) :
    Does (x >>= fun a => Pure.pure (f a)) w (f a) cs := by
  have := Does.bind (f := fun a => (Pure.pure (f a) : WM l β)) h (Does.pure (f a) _)
  simpa using this

/-! ### Where computations write, however they end -/

/-- all the changes are at such paths -/
def Only (P : Str → Prop) (x : WM l α) : Prop := ∀ w, ∀ c ∈ (x w).2, P c.1

theorem Only.bind {P : Str → Prop} {x : WM l α} {f : α → WM l β} (h1 : Only P x) (h2 : ∀ a, Only P (f a)) :
    Only P (x >>= f) := by
  intro w c hc
  change c ∈ (WM.bind x f w).2 at hc
  unfold WM.bind at hc
  have h1w := h1 w
  cases hx : x w with
  | mk o cs =>
    rw [hx] at hc h1w
    cases o with
    | error e => exact h1w c hc
    | ok a =>
      rcases List.mem_append.1 hc with hc | hc
      · exact h1w c hc
      · exact h2 a _ c hc

theorem Only.pure {P : Str → Prop} (a : α) : Only P (Pure.pure a : WM l α) := fun _ _ h => (nomatch h)
theorem Only.read {P : Str → Prop} (f : Fs → Except Err α) : Only P (WM.read f : WM l α) := fun _ _ h => (nomatch h)
theorem Only.write {P : Str → Prop} {p : Str} (b : List UInt8) (h : P p) : Only P (WM.write p b : WM l Unit) := by
  intro w c hc
  rcases List.mem_singleton.1 hc with rfl
  exact h
theorem Only.mono {P Q : Str → Prop} {x : WM l α} (h : Only P x) (hPQ : ∀ p, P p → Q p) : Only Q x :=
  fun w c hc => hPQ _ (h w c hc)

/-! ### References whose content is known -/

/-- the reference leads to this content, and what it remembers is right -/
structure Held (v : Ver) (sum : List UInt8 → Str) (w : Fs) (h : Str) (r : FRef) (b : List UInt8) : Prop where
  name : PlainName h
  algo : r.algo = some (checksumAlgo v)
  abs : r.container.head? = some '/'
  norm : normpath r.filename = h
  disk : r.inTar = false → r.filename = h ∧ normpath (pathJoin r.container h) = pathJoin r.container h
  last : r.filename.getLast? ≠ some '/'
  cont : r.content w = .ok b
  fresh : r.force = false → ∀ c, r.sum = some c → c = sum b
  freshSize : r.force = false → ∀ n, r.size = some n → n = b.length

/-- the file on disk in which the content is -/
def FRef.place (r : FRef) (w : Fs) : Str := absName w (if r.inTar then r.container else pathJoin r.container r.filename)

theorem place_cwd {w w' : Fs} (h : w'.cwd = w.cwd) (r : FRef) : r.place w' = r.place w := absName_cwd h _

theorem content_put {r : FRef} {w : Fs} {p : Str} {b : List UInt8} (h : r.place w ≠ absName w p) :
    r.content (w.put l p b) = r.content w := by
  unfold FRef.place at h
  unfold FRef.content
  by_cases ht : r.inTar = true
  · rw [if_pos ht] at h
    rw [if_pos ht, if_pos ht, put_tar, if_neg h]
  · rw [if_neg ht] at h
    rw [if_neg ht, if_neg ht, put_file, if_neg h]

theorem Held.put {v : Ver} {sum : List UInt8 → Str} {w : Fs} {h : Str} {r : FRef} {b b' : List UInt8} {p : Str}
    (H : Held v sum w h r b) (hp : r.place w ≠ absName w p) : Held v sum (w.put l p b') h r b :=
  { H with cont := by rw [content_put hp]; exact H.cont }

theorem Held.kept {v : Ver} {sum : List UInt8 → Str} {h : Str} {r : FRef} {b : List UInt8} :
    ∀ {cs : List Change} {w : Fs}, Held v sum w h r b → (∀ c ∈ cs, r.place w ≠ absName w c.1) →
    Held v sum (applyAll l w cs) h r b
  | [], _, H, _ => H
  | c :: cs, w, H, hp => by
    rw [applyAll_cons]
    exact Held.kept (H.put (hp c (by simp))) (fun x hx => hp x (by simp [hx]))

theorem plain_last {n : Str} (h : PlainName n) : n.getLast? ≠ some '/' := fun hc => h.2.2.2 (List.mem_of_mem_getLast? hc)

/-- two references to the same thing -/
def SameRef (r r' : FRef) : Prop := r'.inTar = r.inTar ∧ r'.container = r.container ∧ r'.filename = r.filename

theorem SameRef.refl (r : FRef) : SameRef r r := ⟨rfl, rfl, rfl⟩
theorem SameRef.trans {a b c : FRef} (h : SameRef a b) (h' : SameRef b c) : SameRef a c :=
  ⟨h'.1.trans h.1, h'.2.1.trans h.2.1, h'.2.2.trans h.2.2⟩
theorem SameRef.place {r r' : FRef} (h : SameRef r r') (w : Fs) : r'.place w = r.place w := by
  unfold FRef.place; rw [h.1, h.2.1, h.2.2]
theorem SameRef.content {r r' : FRef} (h : SameRef r r') (w : Fs) : r'.content w = r.content w := by
  unfold FRef.content; rw [h.1, h.2.1, h.2.2]

theorem Held.readSum {v : Ver} {digest : Str → List UInt8 → Except Err Str} {sum : List UInt8 → Str}
    (hd : ∀ b, digest (checksumAlgo v) b = .ok (sum b)) {w : Fs} {h : Str} {r : FRef} {b : List UInt8}
    (H : Held v sum w h r b) :
    ∃ r', r.readSum digest w = (.ok (some (sum b)), r') ∧ Held v sum w h r' b ∧ SameRef r r' := by
  unfold FRef.readSum
  rw [H.algo]
  simp only
  split
  · rename_i c hs hf
    rw [H.fresh hf c hs]
    exact ⟨r, rfl, H, SameRef.refl r⟩
  · rw [H.cont]
    simp only [hd]
    refine ⟨_, rfl, ?_, rfl, rfl, rfl⟩
    exact { H with
      algo := rfl
      fresh := fun _ c hc => by cases hc; rfl }

theorem Held.readSize {v : Ver} {sum : List UInt8 → Str} {w : Fs} {h : Str} {r : FRef} {b : List UInt8}
    (H : Held v sum w h r b) : ∃ r', r.readSize w = (.ok b.length, r') := by
  unfold FRef.readSize
  split
  · rename_i n hs hf
    rw [H.freshSize hf n hs]
    exact ⟨r, rfl⟩
  · rw [H.cont]
    exact ⟨_, rfl⟩

end Cot
