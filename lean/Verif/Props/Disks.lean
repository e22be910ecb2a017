import Verif.Spec.Disks
import Verif.Lemmas.Re
import Verif.Lemmas.Units
import Verif.Lemmas.EnvProps
import Verif.Lemmas.Re2
/-
C47, C52, C61, C62: disk images.
-/
namespace Cot

theorem pickBest_some {α : Type} {conf : α → Except Err Nat} : ∀ {hs : List α} {best : Option α} {n : Nat} {h : α},
    pickBest conf hs best n = .ok (some h) ↔
      (best = some h ∧ ∀ x ∈ hs, ∃ j, conf x = .ok j ∧ j ≤ n) ∨
      (∃ pre post k, hs = pre ++ h :: post ∧ conf h = .ok k ∧ n < k ∧
        (∀ x ∈ pre, ∃ j, conf x = .ok j ∧ j < k) ∧ (∀ x ∈ post, ∃ j, conf x = .ok j ∧ j ≤ k))
  | [], best, n, h => by simp [pickBest]
  | c :: r, best, n, h => by
    rw [pickBest]
    cases hc : conf c with
    | error e =>
      simp only [reduceCtorEq, false_iff, not_or]
      refine ⟨?_, ?_⟩
      · rintro ⟨-, hx⟩
        obtain ⟨j, hj, -⟩ := hx c (by simp)
        rw [hc] at hj; cases hj
      · rintro ⟨pre, post, k, e1, e2, -, e3, -⟩
        cases pre with
        | nil => cases e1; rw [hc] at e2; cases e2
        | cons a pre =>
          cases e1
          obtain ⟨j, hj, -⟩ := e3 c (by simp)
          rw [hc] at hj; cases hj
    | ok k =>
      simp only
      by_cases hk : k > n
      · rw [if_pos hk, pickBest_some]
        constructor
        · rintro (⟨h1, h2⟩ | ⟨pre, post, k', e1, e2, e3, e4, e5⟩)
          · cases h1
            exact Or.inr ⟨[], r, k, rfl, hc, hk, by simp, h2⟩
          · refine Or.inr ⟨c :: pre, post, k', by rw [e1]; rfl, e2, by omega, ?_, e5⟩
            intro x hx
            rcases List.mem_cons.1 hx with rfl | hx
            · exact ⟨k, hc, e3⟩
            · exact e4 x hx
        · rintro (⟨-, h2⟩ | ⟨pre, post, k', e1, e2, e3, e4, e5⟩)
          · obtain ⟨j, hj, hle⟩ := h2 c (by simp)
            rw [hc] at hj; cases hj; omega
          · cases pre with
            | nil =>
              cases e1
              rw [hc] at e2; cases e2
              exact Or.inl ⟨rfl, e5⟩
            | cons a pre =>
              cases e1
              obtain ⟨j, hj, hlt⟩ := e4 c (by simp)
              rw [hc] at hj; cases hj
              exact Or.inr ⟨pre, post, k', rfl, e2, hlt, fun x hx => e4 x (List.mem_cons_of_mem _ hx), e5⟩
      · rw [if_neg hk, pickBest_some]
        constructor
        · rintro (⟨h1, h2⟩ | ⟨pre, post, k', e1, e2, e3, e4, e5⟩)
          · refine Or.inl ⟨h1, ?_⟩
            intro x hx
            rcases List.mem_cons.1 hx with rfl | hx
            · exact ⟨k, hc, by omega⟩
            · exact h2 x hx
          · refine Or.inr ⟨c :: pre, post, k', by rw [e1]; rfl, e2, e3, ?_, e5⟩
            intro x hx
            rcases List.mem_cons.1 hx with rfl | hx
            · exact ⟨k, hc, by omega⟩
            · exact e4 x hx
        · rintro (⟨h1, h2⟩ | ⟨pre, post, k', e1, e2, e3, e4, e5⟩)
          · exact Or.inl ⟨h1, fun x hx => h2 x (List.mem_cons_of_mem _ hx)⟩
          · cases pre with
            | nil =>
              cases e1
              rw [hc] at e2; cases e2; omega
            | cons a pre =>
              cases e1
              exact Or.inr ⟨pre, post, k', rfl, e2, e3, fun x hx => e4 x (List.mem_cons_of_mem _ hx), e5⟩

theorem pickBest_none {α : Type} {conf : α → Except Err Nat} : ∀ {hs : List α} {n : Nat},
    pickBest conf hs none n = .ok none ↔ ∀ x ∈ hs, ∃ j, conf x = .ok j ∧ j ≤ n
  | [], n => by simp [pickBest]
  | c :: r, n => by
    rw [pickBest]
    cases hc : conf c with
    | error e =>
      simp only [reduceCtorEq, false_iff]
      intro hx
      obtain ⟨j, hj, -⟩ := hx c (by simp)
      rw [hc] at hj; cases hj
    | ok k =>
      simp only
      by_cases hk : k > n
      · rw [if_pos hk]
        constructor
        · intro h
          exfalso
          have : ∀ {hs : List α} {b : α} {m : Nat}, pickBest conf hs (some b) m ≠ .ok none := by
            intro hs
            induction hs with
            | nil => intro b m h; cases h
            | cons x l ih =>
              intro b m h
              rw [pickBest] at h
              cases hx : conf x with
              | error e => rw [hx] at h; cases h
              | ok j =>
                rw [hx] at h
                simp only at h
                split at h
                · exact ih h
                · exact ih h
          exact this h
        · intro h
          obtain ⟨j, hj, hle⟩ := h c (by simp)
          rw [hc] at hj; cases hj; omega
      · rw [if_neg hk, pickBest_none]
        constructor
        · intro h x hx
          rcases List.mem_cons.1 hx with rfl | hx
          · exact ⟨k, hc, by omega⟩
          · exact h x hx
        · exact fun h x hx => h x (List.mem_cons_of_mem _ hx)

/-- **C47 (any handlers).** Whatever the handlers and their confidences: a handler is chosen exactly when it is the
first one with maximal confidence and that is not zero; none is chosen exactly when all report zero. -/
theorem C47_best {α : Type} (conf : α → Except Err Nat) (hs : List α) :
    (∀ h, pickBest conf hs none 0 = .ok (some h) ↔ Picks conf hs h) ∧
    (pickBest conf hs none 0 = .ok none ↔ ∀ x ∈ hs, conf x = .ok 0) := by
  constructor
  · intro h
    rw [pickBest_some]
    simp only [reduceCtorEq, false_and, false_or]
    rfl
  · rw [pickBest_none]
    constructor
    · intro h x hx
      obtain ⟨j, hj, hle⟩ := h x hx
      rw [hj, Nat.le_zero.1 hle]
    · exact fun h x hx => ⟨0, h x hx, Nat.le_refl _⟩

/-- **C47.** `from_file` gives the format that is first among those with maximal confidence; it reports an unsupported
file exactly when every format reports zero confidence; a missing file is an IOError. -/
theorem C47_from_file (w : DiskWorld) (path : Str) :
    (w.pathExists path = false → fromFile w path = .error .ioError) ∧
    (w.pathExists path = true → ∀ f, fromFile w path = .ok f ↔
      Picks (fileIsType w path) [DiskFmt.iso, DiskFmt.qcow2, DiskFmt.raw, DiskFmt.vmdk] f) ∧
    (w.pathExists path = true → (∀ f, fileIsType w path f = .ok 0) → fromFile w path = .error .notImplementedError) := by
  refine ⟨?_, ?_, ?_⟩
  · intro h; unfold fromFile; rw [if_pos h]
  · intro h f
    rw [← (C47_best (fileIsType w path) [DiskFmt.iso, DiskFmt.qcow2, DiskFmt.raw, DiskFmt.vmdk]).1 f]
    unfold fromFile diskClasses
    rw [if_neg (by rw [h]; simp)]
    cases pickBest (fileIsType w path) [DiskFmt.iso, DiskFmt.qcow2, DiskFmt.raw, DiskFmt.vmdk] none 0 with
    | error e => simp [pickResult]
    | ok o => cases o <;> simp [pickResult]
  · intro h h0
    unfold fromFile
    rw [if_neg (by rw [h]; simp), (C47_best (fileIsType w path) diskClasses).2.2 (fun x _ => h0 x)]
    rfl

theorem fileFormatRe_some {x post : Str} (h1 : ∀ c ∈ x, isWs c = false) (h2 : ∀ c ∈ post.head?, isWs c = true) :
    reMatch fileFormatRe ("file format: ".toList ++ (x ++ post)) = some [(1, x)] := by
  unfold reMatch fileFormatRe
  rw [run_seq_lit, run_grp_star_head (w := x) (t := post)]
  · rfl
  · intro c hc; simp [h1 c hc]
  · intro c hc; simp [h2 c hc]

theorem fileFormatRe_none {s : Str} (h : ∀ t, s ≠ "file format: ".toList ++ t) : reMatch fileFormatRe s = none := by
  rw [reMatch_none]
  rintro ⟨r, m⟩ hx
  unfold fileFormatRe at hx
  rw [seq_lit] at hx
  obtain ⟨t, ht, -⟩ := hx
  exact h t ht

theorem reports_search {out x : Str} (h : ReportsFormat out x) : reSearch fileFormatRe out = some [(1, x)] := by
  obtain ⟨pre, post, rfl, h1, h2, h3⟩ := h
  rw [List.append_assoc, List.append_assoc]
  apply reSearch_eq (fileFormatRe_some h1 h2)
  intro pre' t' e hl
  apply fileFormatRe_none
  rintro t rfl
  have := h3 pre' t (by rw [List.append_assoc, List.append_assoc, e]; simp)
  omega

/-- what the output says is determined by it -/
theorem reports_exists (out : Str) : (∃ x, ReportsFormat out x) ∨ reSearch fileFormatRe out = none := by
  cases hs : reSearch fileFormatRe out with
  | none => exact Or.inr rfl
  | some m =>
    left
    obtain ⟨pre, t, e, h1, h2⟩ := reSearch_some hs
    by_cases ht : ∃ t', t = "file format: ".toList ++ t'
    · obtain ⟨t', rfl⟩ := ht
      obtain ⟨x, post, rfl, k1, k2⟩ := split_pred (fun c => !isWs c) t'
      refine ⟨x, pre, post, by rw [e]; simp, fun c hc => by simpa using k1 c hc, fun c hc => by simpa using k2 c hc, ?_⟩
      intro pre' post' e'
      apply h2 pre' ("file format: ".toList ++ post') (by rw [e']; simp)
      obtain ⟨y, post2, rfl, k1, k2⟩ := split_pred (fun c => !isWs c) post'
      rw [fileFormatRe_some (fun c hc => by simpa using k1 c hc) (fun c hc => by simpa using k2 c hc)]
      simp
    · push Not at ht
      rw [fileFormatRe_none ht] at h1
      cases h1

theorem magicAt_iff (b : List Nat) (off : Nat) :
    magicAt b off = true ↔ (b.drop off).take 5 = [67, 68, 48, 48, 49] := by
  unfold magicAt
  rw [decide_eq_true_eq]
  generalize hl : (b.drop off).take 5 = l
  have hlen : l.length ≤ 5 := by rw [← hl, List.length_take]; omega
  constructor
  · intro h
    have hf : (l.filter (fun x => decide (x < 128))).length = 5 := by
      have := congrArg List.length h
      rw [List.length_map] at this
      exact this
    have hsub := List.filter_sublist (p := fun x => decide (x < 128)) (l := l)
    have hle := hsub.length_le
    have heq : l.filter (fun x => decide (x < 128)) = l := hsub.eq_of_length (by omega)
    rw [heq] at h
    have hsmall : ∀ x ∈ l, x < 128 := by
      intro x hx
      rw [← heq] at hx
      simpa using (List.mem_filter.1 hx).2
    have h2 : (l.map Char.ofNat).map Char.toNat = [67, 68, 48, 48, 49] := by rw [h]; rfl
    rw [List.map_map] at h2
    have h3 : l.map (Char.toNat ∘ Char.ofNat) = l.map id := by
      apply List.map_congr_left
      intro x hx
      have := hsmall x hx
      show (Char.ofNat x).toNat = x
      unfold Char.ofNat
      rw [dif_pos (by left; omega)]
      rfl
    rw [h3, List.map_id] at h2
    exact h2
  · intro h
    rw [h]
    decide

/-- the confidences for a file qemu-img calls `x`, with confidence `i` of being an ISO image -/
def confOf (x : Str) (i k : Nat) : DiskFmt → Except Err Nat
  | .iso => .ok i
  | .raw => .ok (if x = DiskFmt.raw.name then k else 0)
  | f => .ok (if x = f.name then 100 else 0)

/-- **C47 (the formats COT knows).** With qemu-img and isoinfo working, the result is: ISO if the file looks like an
ISO image; otherwise the format qemu-img reports, if it is one of the supported ones. -/
theorem C47_kinds (w : DiskWorld) (path out x : Str) (he : w.pathExists path = true)
    (hq : w.qemuInfo path = .ok out) (hr : ReportsFormat out x)
    (hi : ∀ e, w.isoinfo path = .error e → e = .helperError) :
    (LooksIso w path → fromFile w path = .ok .iso) ∧
    (¬ LooksIso w path → x = "qcow2".toList → fromFile w path = .ok .qcow2) ∧
    (¬ LooksIso w path → x = "raw".toList → fromFile w path = .ok .raw) ∧
    (¬ LooksIso w path → x = "vmdk".toList → fromFile w path = .ok .vmdk) ∧
    (¬ LooksIso w path → x ≠ "qcow2".toList → x ≠ "raw".toList → x ≠ "vmdk".toList →
      fromFile w path = .error .notImplementedError) := by
  have hne : ¬ w.pathExists path = false := by rw [he]; simp
  have hqt : ∀ f, qemuIsType w f path = .ok (if x = f.name then 100 else 0) := by
    intro f
    unfold qemuIsType
    rw [if_neg hne, hq]
    simp only
    rw [reports_search hr]
    simp only [Caps.group, List.reverse_cons, List.reverse_nil, List.nil_append, dget?, if_true, Option.some.injEq]
  have hraw : ∃ k, (k = 60 ∨ k = 10) ∧ rawIsType w path = .ok (if x = DiskFmt.raw.name then k else 0) := by
    unfold rawIsType
    rw [hqt]
    by_cases hx : x = DiskFmt.raw.name
    · rw [if_pos hx]
      simp only [if_true]
      split
      · exact ⟨60, Or.inl rfl, rfl⟩
      · exact ⟨10, Or.inr rfl, rfl⟩
    · rw [if_neg hx]
      exact ⟨60, Or.inl rfl, by rw [if_neg hx]; rfl⟩
  have hiso : (LooksIso w path → isoIsType w path = .ok 100) ∧ (¬ LooksIso w path → isoIsType w path = .ok 0) := by
    unfold isoIsType LooksIso
    rw [if_neg hne]
    cases hb : w.hasIsoinfo with
    | true =>
      simp only [if_true, true_and, reduceCtorEq, false_and, or_false]
      constructor
      · rintro ⟨o, ho⟩; rw [ho]
      · intro hno
        cases ho : w.isoinfo path with
        | ok o => exact absurd ⟨o, ho⟩ hno
        | error e => rw [hi e ho]
    | false =>
      simp only [Bool.false_eq_true, if_false, false_and, true_and, false_or, Bool.or_eq_true, magicAt_iff]
      constructor
      · rintro ⟨off, h1, h2⟩
        rw [if_pos]
        rcases h1 with rfl | rfl | rfl
        · exact Or.inl (Or.inl h2)
        · exact Or.inl (Or.inr h2)
        · exact Or.inr h2
      · intro h
        rw [if_neg]
        rintro ((h2 | h2) | h2)
        · exact h ⟨_, Or.inl rfl, h2⟩
        · exact h ⟨_, Or.inr (Or.inl rfl), h2⟩
        · exact h ⟨_, Or.inr (Or.inr rfl), h2⟩
  obtain ⟨k, hk, hraw⟩ := hraw
  have hrun : ∀ i, isoIsType w path = .ok i → fromFile w path = pickResult (pickBest (confOf x i k) diskClasses none 0) := by
    intro i hi
    unfold fromFile
    rw [if_neg hne]
    have : fileIsType w path = confOf x i k := by
      funext f
      cases f
      · exact hi
      · exact hqt _
      · exact hraw
      · exact hqt _
    rw [this]
  refine ⟨?_, ?_, ?_, ?_, ?_⟩
  · intro hl
    rw [hrun 100 (hiso.1 hl)]
    have h1 : ∀ (P : Prop) [Decidable P] (a : Nat), a ≤ 100 → ¬ (if P then a else 0) > 100 := by
      intro P _ a ha; split <;> omega
    simp only [diskClasses, pickBest, confOf]
    rw [if_pos (by omega), if_neg (h1 _ _ (by omega)), if_neg (h1 _ _ (by omega)), if_neg (h1 _ _ (by omega))]
    rfl
  · intro hl hx
    subst hx
    rw [hrun 0 (hiso.2 hl)]
    rcases hk with rfl | rfl <;> rfl
  · intro hl hx
    subst hx
    rw [hrun 0 (hiso.2 hl)]
    rcases hk with rfl | rfl <;> rfl
  · intro hl hx
    subst hx
    rw [hrun 0 (hiso.2 hl)]
    rcases hk with rfl | rfl <;> rfl
  · intro hl h1 h2 h3
    rw [hrun 0 (hiso.2 hl)]
    rw [(C47_best (confOf x 0 k) diskClasses).2.2]
    · rfl
    · intro f _
      cases f
      · rfl
      · exact congrArg _ (if_neg h1)
      · exact congrArg _ (if_neg h2)
      · exact congrArg _ (if_neg h3)

/-- a file qemu-img calls raw, with and without an ISO identifier -/
def exDiskWorld (isoish : Bool) : DiskWorld where
  pathExists := fun _ => true
  qemuInfo := fun _ => .ok "image: a.iso\nfile format: raw\nvirtual size: 8 (8 bytes)".toList
  hasIsoinfo := true
  isoinfo := fun _ => if isoish then .ok [] else .error .helperError
  bytes := fun _ => []

example : fromFile (exDiskWorld true) "a.iso".toList = .ok .iso ∧ fromFile (exDiskWorld false) "a.iso".toList = .ok .raw ∧
    ReportsFormat "image: a.iso\nfile format: raw\nvirtual".toList "raw".toList := by
  refine ⟨by decide +kernel, by decide +kernel, "image: a.iso\n".toList, "\nvirtual".toList, by decide, by decide, by decide, ?_⟩
  intro pre' post' h
  by_contra hc
  have hlen : pre'.length ≤ 12 := by simp at hc; omega
  have : ∀ n, n ≤ 12 → ("image: a.iso\nfile format: raw\nvirtual".toList.drop n).take 13 ≠ "file format: ".toList := by decide
  apply this pre'.length hlen
  rw [h]
  simp

/-! ### C52 -/

theorem roundDouble_lower (n : Nat) : n ≤ roundDouble n + 2 ^ (Nat.log2 n + 1 - 53) := by
  unfold roundDouble
  simp only
  split
  · exact Nat.le_add_right _ _
  · have h := Nat.div_add_mod n (2 ^ (Nat.log2 n + 1 - 53))
    have hr : n % 2 ^ (Nat.log2 n + 1 - 53) < 2 ^ (Nat.log2 n + 1 - 53) := Nat.mod_lt _ (by positivity)
    generalize n % 2 ^ (Nat.log2 n + 1 - 53) = r at h hr
    generalize n / 2 ^ (Nat.log2 n + 1 - 53) = q at h
    generalize 2 ^ (Nat.log2 n + 1 - 53) = E at h hr
    have hq : ∀ q', q ≤ q' → n ≤ q' * E + E := by
      intro q' hq'
      have : q * E ≤ q' * E := Nat.mul_le_mul_right _ hq'
      have h2 : E * q = q * E := Nat.mul_comm _ _
      omega
    split
    · exact hq _ (by omega)
    · split
      · exact hq _ (by omega)
      · exact hq _ (by omega)

theorem roundDouble_upper (n : Nat) : roundDouble n ≤ n + 2 ^ (Nat.log2 n + 1 - 53) := by
  unfold roundDouble
  simp only
  split
  · exact Nat.le_add_right _ _
  · have h := Nat.div_add_mod n (2 ^ (Nat.log2 n + 1 - 53))
    generalize n % 2 ^ (Nat.log2 n + 1 - 53) = r at h
    generalize n / 2 ^ (Nat.log2 n + 1 - 53) = q at h
    generalize 2 ^ (Nat.log2 n + 1 - 53) = E at h
    have h2 : E * q = q * E := Nat.mul_comm _ _
    split
    · rw [Nat.add_mul]; omega
    · split
      · rw [Nat.add_mul]; omega
      · omega

theorem ulp_le {n k : Nat} (h : n < 2 ^ (k + 53)) : 2 ^ (Nat.log2 n + 1 - 53) ≤ 2 ^ k := by
  apply Nat.pow_le_pow_right (by norm_num)
  by_cases hn : n = 0
  · subst hn; simp
  · have := (Nat.log2_lt hn).2 h
    omega

/-- **C52 (capacity).** The image made for the given files is at least as large as all of them together: on Python 2
for all sizes; on Python 3, where the computation is in floating point, for totals below 2^70 bytes. -/
theorem C52_capacity_partial (total : Nat) :
    total < rawCapacityMB .py2 total * 2 ^ 20 ∧
    (total < 2 ^ 70 → total < rawCapacityMB .py3 total * 2 ^ 20) := by
  constructor
  · unfold rawCapacityMB
    simp only
    omega
  · intro h
    unfold rawCapacityMB
    simp only
    have h1 := roundDouble_lower total
    have h2 := roundDouble_upper total
    have u1 : 2 ^ (Nat.log2 total + 1 - 53) ≤ 2 ^ 17 := ulp_le (k := 17) h
    generalize hr : roundDouble total = r at *
    have h3 := roundDouble_lower (r + 8 * 1024 * 1024)
    have u2 : 2 ^ (Nat.log2 (r + 8 * 1024 * 1024) + 1 - 53) ≤ 2 ^ 18 := ulp_le (k := 18) (by norm_num at *; omega)
    generalize roundDouble (r + 8 * 1024 * 1024) = r2 at *
    norm_num at *
    omega

/-- Beyond that (a zettabyte is 2^70 bytes) rounding can make the image too small. -/
theorem C52_capacity_huge_fails : rawCapacityMB .py3 (2 ^ 77 + 2 ^ 24) * 2 ^ 20 < 2 ^ 77 + 2 ^ 24 := by decide +kernel

/-- **C52 (commands).** Creating a raw image from files formats it once, with that capacity, and then copies each
file once, in the order given, under its base name. -/
theorem C52_commands (py : PyVer) (path : Str) (files : List (Str × Nat)) (h : files ≠ []) :
    ∃ ops, rawCreate py path files none = .ok ops ∧
      ops = .call "fatdisk".toList [path, "format".toList, "size".toList,
        natStr (rawCapacityMB py (files.map Prod.snd).sum) ++ "M".toList, "fat32".toList] ::
        files.map (fun f => .call "fatdisk".toList [path, "fileadd".toList, f.1, pathBase f.1]) := by
  unfold rawCreate
  rw [if_neg h]
  exact ⟨_, rfl, rfl⟩

/-- **C52 (estimate).** The space asked for beforehand covers the files themselves and falls short of the image by
less than 8 MiB plus one (on Python 2: at most by 8 MiB). -/
theorem C52_estimate_partial (total : Nat) :
    (total : Int) ≤ configDiskEstimate false total ∧ (total : Int) ≤ configDiskEstimate true total ∧
    (rawCapacityMB .py2 total * 2 ^ 20 : Int) ≤ configDiskEstimate false total + 8 * 2 ^ 20 := by
  unfold configDiskEstimate rawCapacityMB
  simp only [Bool.false_eq_true, if_false, if_true]
  have e : ((8 : Nat) <<< 20) = 8388608 := by decide
  rw [e]
  push_cast
  refine ⟨?_, ?_, ?_⟩
  · have := Int.emod_nonneg (8388608 - (total : Int)) (show (8388608 : Int) ≠ 0 by decide)
    omega
  · omega
  · omega

/-- **C52 (estimate).** What is asked for is the size of the files for a CD, and otherwise the smallest multiple of 8 MiB
that holds them. -/
theorem C52_estimate (total : Nat) : configDiskEstimate true total = total ∧
    (8 * 2 ^ 20 : Int) ∣ configDiskEstimate false total ∧
    ∀ k : Int, (8 * 2 ^ 20 : Int) ∣ k → (total : Int) ≤ k → configDiskEstimate false total ≤ k := by
  unfold configDiskEstimate
  simp only [Bool.false_eq_true, if_false, if_true]
  have e : ((8 : Nat) <<< 20) = 8388608 := by decide
  rw [e]
  push_cast
  refine ⟨trivial, ?_, ?_⟩
  · norm_num
    omega
  · intro k hk ht
    omega

/-- It does fall short: files of exactly 8 MiB are estimated at 8 MiB, but the image made has 16 MiB. -/
theorem C52_estimate_fails : configDiskEstimate false (8 * 2 ^ 20) = 8 * 2 ^ 20 ∧
    rawCapacityMB .py3 (8 * 2 ^ 20) * 2 ^ 20 = 16 * 2 ^ 20 ∧ rawCapacityMB .py2 (8 * 2 ^ 20) * 2 ^ 20 = 16 * 2 ^ 20 := by
  decide +kernel

example : rawCapacityMB .py3 5000000 = 12 ∧ rawCapacityMB .py2 5000000 = 8 := by decide +kernel

/-! ### C62: what is read from the helpers' output -/

theorem byteCountRe_some {d post : Str} (hd : Digits d) :
    reMatch byteCountRe (d ++ " bytes".toList ++ post) = some [(1, d)] := by
  apply reMatch_eq_of
  · refine ⟨post, ?_⟩
    unfold byteCountRe
    simp only [Re.dig, seq_grp_plus]
    refine ⟨d, " bytes".toList ++ post, [], by simp, hd.1, hd.2, mem_run_lit.2 ⟨rfl, rfl⟩, rfl⟩
  · intro x m' hx
    unfold byteCountRe at hx
    simp only [Re.dig, seq_grp_plus] at hx
    obtain ⟨w, t, m2, h1, h2, h3, h4, rfl⟩ := hx
    obtain ⟨h5, h6⟩ := mem_run_lit.1 h4
    simp only at h5 h6
    subst h6
    have := split_pred_unique (p := isDig) (w := d) (t := " bytes".toList ++ post) (w' := w) (t' := t)
      (by rw [← h1]; simp) hd.2 (by simp; decide) h3 (by rw [h5]; simp; decide)
    rw [this.1]

/-- **C62 (capacity).** The capacity of an image is the number printed directly before the first " bytes" that
follows a number in the output of `qemu-img info`; without one it is an error. -/
theorem C62_capacity (out : Str) :
    (∀ pre d post, out = pre ++ d ++ " bytes".toList ++ post → Digits d →
      (∀ pre' d' post', out = pre' ++ d' ++ " bytes".toList ++ post' → Digits d' → pre.length ≤ pre'.length) →
      qemuCapacity out = .ok d) ∧
    ((∀ pre d post, Digits d → out ≠ pre ++ d ++ " bytes".toList ++ post) → qemuCapacity out = .error .runtimeError) := by
  have hmatch : ∀ t m, reMatch byteCountRe t = some m → ∃ d post, Digits d ∧ t = d ++ " bytes".toList ++ post := by
    intro t m h
    obtain ⟨x, hx⟩ := reMatch_some_mem h
    unfold byteCountRe at hx
    simp only [Re.dig, seq_grp_plus] at hx
    obtain ⟨w, t', m2, h1, h2, h3, h4, -⟩ := hx
    obtain ⟨h5, -⟩ := mem_run_lit.1 h4
    exact ⟨w, x, ⟨h2, h3⟩, by rw [h1, h5]; simp⟩
  constructor
  · intro pre d post e hd hmin
    unfold qemuCapacity
    have : reSearch byteCountRe out = some [(1, d)] := by
      rw [e, List.append_assoc, List.append_assoc]
      apply reSearch_eq
      · rw [← List.append_assoc]; exact byteCountRe_some hd
      · intro pre' t' e' hl
        cases hm : reMatch byteCountRe t' with
        | none => rfl
        | some m =>
          obtain ⟨d', post', hd', rfl⟩ := hmatch _ _ hm
          have := hmin pre' d' post' (by rw [e, List.append_assoc, List.append_assoc, e']; simp) hd'
          omega
    rw [this]
    rfl
  · intro h
    unfold qemuCapacity
    cases hs : reSearch byteCountRe out with
    | none => rfl
    | some m =>
      obtain ⟨pre, t, e, h1, -⟩ := reSearch_some hs
      obtain ⟨d, post, hd, rfl⟩ := hmatch _ _ h1
      exact absurd (by rw [e]; simp) (h pre d post hd)

example : qemuCapacity "virtual size: 1.0K (1024 bytes)\ndisk size: 4 bytes".toList = .ok "1024".toList := by rfl

/-- **C62 (create).** Creating an image never runs anything when a file already exists at the path, when the path is
empty, or when neither files nor a capacity are given. -/
theorem C62_create (w : DiskWorld) (path : Str) (files : Option (List (Str × Nat))) (capacity : Option Str)
    (mk : List (Str × Nat) → Except Err (List DiskOp)) (ops : List DiskOp)
    (h : createFile w path files capacity mk = .ok ops) :
    path ≠ [] ∧ w.pathExists path = false ∧ (capacity ≠ none ∨ files ≠ none) ∧ mk (files.getD []) = .ok ops := by
  unfold createFile at h
  split at h
  · cases h
  · split at h
    · cases h
    · split at h
      · cases h
      · rename_i h1 h2 h3
        refine ⟨h1, by simpa using h2, ?_, h⟩
        by_cases hc : capacity = none
        · exact Or.inr (fun hf => h3 ⟨hc, hf⟩)
        · exact Or.inl hc

/-- **C52 (CD-ROM).** An ISO image is made by a single command, which names the image and then lists every file, in
the order given; without files nothing is run. -/
theorem C52_iso (path : Str) (files : List Str) (sub maker : Str) :
    (files = [] → isoCreate path files sub maker = .error .runtimeError) ∧
    (files ≠ [] → ∃ opts, isoCreate path files sub maker = .ok [.call maker (opts ++ files)] ∧
      ∃ pre post, opts = pre ++ ["-output".toList, path] ++ post ∧
        ("-r".toList ∈ post ↔ sub = "rockridge".toList) ∧
        (pre = if maker = "xorriso".toList then ["-as".toList, "mkisofs".toList] else [])) := by
  constructor
  · intro h; unfold isoCreate; rw [if_pos h]
  · intro h
    refine ⟨(if maker = "xorriso".toList then ["-as".toList, "mkisofs".toList] else []) ++ ["-output".toList, path] ++
      (["-full-iso9660-filenames".toList, "-iso-level".toList, "2".toList, "-allow-lowercase".toList] ++
        (if sub = "rockridge".toList then ["-r".toList] else [])), ?_, _, _, rfl, ?_, rfl⟩
    · unfold isoCreate
      rw [if_neg h]
      by_cases hm : maker = "xorriso".toList
      · simp only [if_pos hm, List.cons_append, List.nil_append]
      · simp only [if_neg hm, List.cons_append, List.nil_append]
    · by_cases hs : sub = "rockridge".toList
      · rw [if_pos hs]
        exact ⟨fun _ => hs, fun _ => by decide⟩
      · rw [if_neg hs]
        exact ⟨fun hh => absurd hh (by decide), fun hh => absurd hh hs⟩

example : isoCreate "/a.iso".toList ["/x/cfg".toList] "rockridge".toList "xorriso".toList =
    .ok [.call "xorriso".toList ["-as".toList, "mkisofs".toList, "-output".toList, "/a.iso".toList,
      "-full-iso9660-filenames".toList, "-iso-level".toList, "2".toList, "-allow-lowercase".toList, "-r".toList,
      "/x/cfg".toList]] := by rfl

/-! ### C61: converting images -/

theorem pathBase_of_noslash {b : Str} (h : '/' ∉ b) (a : Str) (ha : a = [] ∨ a.getLast? = some '/') :
    pathBase (a ++ b) = b := by
  unfold pathBase
  rw [List.reverse_append, List.takeWhile_append_of_pos]
  · have : a.reverse.takeWhile (fun c => c != '/') = [] := by
      rcases ha with rfl | ha
      · rfl
      · rw [← List.head?_reverse] at ha
        cases hr : a.reverse with
        | nil => rfl
        | cons c t =>
          rw [hr] at ha
          simp only [List.head?_cons, Option.some.injEq] at ha
          simp [ha]
    rw [this]; simp
  · intro c hc
    rw [List.mem_reverse] at hc
    simp only [bne_iff_ne, ne_eq]
    rintro rfl
    exact h hc

theorem pathBase_join {dir b : Str} (h : '/' ∉ b) : pathBase (pathJoin dir b) = b := by
  unfold pathJoin
  have h1 : ¬ b.head? = some '/' := by
    intro hh
    cases b with
    | nil => cases hh
    | cons c t => simp only [List.head?_cons, Option.some.injEq] at hh; exact h (by simp [hh])
  rw [if_neg h1]
  split
  · rename_i hd; exact pathBase_of_noslash h dir hd
  · have := pathBase_of_noslash h (dir ++ ['/']) (Or.inr (by simp))
    simpa using this

theorem noslash_base (p : Str) : '/' ∉ pathBase p := by
  unfold pathBase
  intro h
  rw [List.mem_reverse] at h
  have := (List.all_eq_true.1 (List.all_takeWhile (p := fun c => c != '/') (l := p.reverse))) _ h
  simp at this

theorem noslash_root (p : Str) : '/' ∉ pathRoot (pathBase p) := by
  intro h
  exact noslash_base p (List.mem_of_mem_take h)

theorem pathExt_append {r e : Str} (hr : ∃ c ∈ r, c ≠ '.') (hs : '/' ∉ r) (he : '/' ∉ e) (hd : '.' ∉ e) :
    pathExt (r ++ '.' :: e) = '.' :: e := by
  have hb : pathBase (r ++ '.' :: e) = r ++ '.' :: e :=
    pathBase_of_noslash (a := []) (by simp [hs, he]) (Or.inl rfl)
  unfold pathExt
  simp only [hb]
  obtain ⟨c, hc, hne⟩ := hr
  have hdw : ∃ r', (r ++ '.' :: e).dropWhile (fun c => c == '.') = r' ++ '.' :: e := by
    clear hs hb
    induction r with
    | nil => cases hc
    | cons a t ih =>
      by_cases ha : a = '.'
      · subst ha
        simp only [List.cons_append, List.dropWhile_cons, beq_self_eq_true, if_true]
        apply ih
        simpa [hne] using hc
      · exact ⟨a :: t, by simp [ha]⟩
  obtain ⟨r', hr'⟩ := hdw
  rw [hr', if_pos (by simp)]
  rw [List.reverse_append, List.reverse_cons, List.append_assoc, List.takeWhile_append_of_pos]
  · simp
  · intro c hc
    rw [List.mem_reverse] at hc
    simp only [bne_iff_ne, ne_eq]
    rintro rfl
    exact hd hc

theorem pathRoot_append {r e : Str} (hr : ∃ c ∈ r, c ≠ '.') (hs : '/' ∉ r) (he : '/' ∉ e) (hd : '.' ∉ e) :
    pathRoot (r ++ '.' :: e) = r := by
  have hb : pathBase (r ++ '.' :: e) = r ++ '.' :: e :=
    pathBase_of_noslash (a := []) (by simp [hs, he]) (Or.inl rfl)
  have hx : pathExt (r ++ '.' :: e) = '.' :: e := pathExt_append hr hs he hd
  unfold pathRoot
  rw [hx]
  simp

/-- the second conversion puts its output beside the first's, under the same name -/
theorem outputPath_again {dir p e : Str} (ext : Str) (hr : ∃ c ∈ pathRoot (pathBase p), c ≠ '.')
    (he : '/' ∉ e) (hd : '.' ∉ e) :
    outputPath dir (outputPath dir p ('.' :: e)) ext = outputPath dir p ext := by
  unfold outputPath
  rw [pathBase_join (b := pathRoot (pathBase p) ++ '.' :: e) (by
    have := noslash_root p; simp [this, he])]
  rw [pathRoot_append hr (noslash_root p) he hd]

theorem make_spec (w : ConvWorld) (h : List DiskOp) (op : DiskOp) (out : Str) (f : DiskFmt) :
    (w.make h op out f).2 = op :: h ∧
    ∀ i, (w.make h op out f).1 = .ok i → i.path = out ∧ i.fmt = f := by
  unfold ConvWorld.make ConvWorld.run
  cases w.fails h op with
  | some e => exact ⟨rfl, fun i hi => by cases hi⟩
  | none =>
    refine ⟨rfl, ?_⟩
    simp only
    intro i hi
    unfold ConvWorld.open at hi
    split at hi
    · cases hi
    · split at hi
      · cases hi
      · cases hi; exact ⟨rfl, rfl⟩

theorem thenRemove_spec (w : ConvWorld) (r : Except Err Image × List DiskOp) (t : Str) :
    (w.thenRemove r t).2 = .remove t :: r.2 ∧ ∀ i, (w.thenRemove r t).1 = .ok i → r.1 = .ok i := by
  unfold ConvWorld.thenRemove ConvWorld.run
  cases w.fails r.2 (.remove t) with
  | some e => exact ⟨rfl, fun i hi => by cases hi⟩
  | none => exact ⟨rfl, fun i hi => hi⟩

/-- nothing was done and it failed, or one command writing `out` was run, making an image of format `f` if it works -/
def OneStep (h : List DiskOp) (out : Str) (f : DiskFmt) (r : Except Err Image × List DiskOp) : Prop :=
  (r.2 = h ∧ ∃ e, r.1 = .error e) ∨
  (∃ op, r.2 = op :: h ∧ op.changes = [out] ∧ ∀ i, r.1 = .ok i → i.path = out ∧ i.fmt = f)

theorem make_oneStep (w : ConvWorld) (h : List DiskOp) (op : DiskOp) (out : Str) (f : DiskFmt)
    (hc : op.changes = [out]) : OneStep h out f (w.make h op out f) :=
  Or.inr ⟨op, (make_spec w h op out f).1, hc, (make_spec w h op out f).2⟩

theorem rawFrom_spec (w : ConvWorld) (h : List DiskOp) (img : Image) (dir : Str) :
    OneStep h (outputPath dir img.path ".img".toList) .raw (rawFrom w h img dir) := by
  unfold rawFrom
  simp only
  split
  · exact Or.inl ⟨rfl, _, rfl⟩
  · exact make_oneStep _ _ _ _ _ rfl
  · split
    · exact Or.inl ⟨rfl, _, rfl⟩
    · split
      · exact make_oneStep _ _ _ _ _ rfl
      · exact make_oneStep _ _ _ _ _ rfl

/-- one step, or two steps by way of the image `temp`, which is then removed -/
def Steps (h : List DiskOp) (temp out : Str) (f : DiskFmt) (r : Except Err Image × List DiskOp) : Prop :=
  OneStep h out f r ∨
  (∃ op e, r.2 = op :: h ∧ op.changes = [temp] ∧ r.1 = .error e) ∨
  (∃ op r', op.changes = [temp] ∧ OneStep (op :: h) out f r' ∧ r.2 = .remove temp :: r'.2 ∧
    ∀ i, r.1 = .ok i → r'.1 = .ok i)

theorem vmdkStep_raw (w : ConvWorld) (again : List DiskOp → Image → Except Err Image × List DiskOp)
    (h : List DiskOp) (img : Image) (dir sub : Str) (hf : img.fmt = .raw) :
    OneStep h (outputPath dir img.path ".vmdk".toList) .vmdk (vmdkStep w again h img dir sub) := by
  unfold vmdkStep
  simp only
  split
  · split
    · exact Or.inl ⟨rfl, _, rfl⟩
    · split
      · rw [if_neg (by simp [hf])]
        exact make_oneStep _ _ _ _ _ rfl
      · exact make_oneStep _ _ _ _ _ rfl
  · exact make_oneStep _ _ _ _ _ rfl

theorem qcow2Step_raw (w : ConvWorld) (again : List DiskOp → Image → Except Err Image × List DiskOp)
    (h : List DiskOp) (img : Image) (dir : Str) (hf : img.fmt = .raw) :
    OneStep h (outputPath dir img.path ".qcow2".toList) .qcow2 (qcow2Step w again h img dir) := by
  have : needsNewQemu img = .ok false := by
    unfold needsNewQemu; rw [if_neg (by rw [hf]; decide)]
  unfold qcow2Step
  simp only [this]
  exact make_oneStep _ _ _ _ _ rfl

/-- the two-step case, for either target -/
theorem twoSteps {w : ConvWorld} {h : List DiskOp} {img : Image} {dir ext : Str} {f : DiskFmt}
    {again : List DiskOp → Image → Except Err Image × List DiskOp}
    (hr : ∃ c ∈ pathRoot (pathBase img.path), c ≠ '.')
    (ha : ∀ h' temp, temp.fmt = .raw → OneStep h' (outputPath dir temp.path ext) f (again h' temp))
    (g : Err → Err) :
    Steps h (outputPath dir img.path ".img".toList) (outputPath dir img.path ext) f
      (match rawFrom w h img dir with
        | (.error e, h') => (.error (g e), h')
        | (.ok temp, h') => w.thenRemove (again h' temp) temp.path) := by
  have hs := rawFrom_spec w h img dir
  generalize rawFrom w h img dir = r at hs
  obtain ⟨r1, r2⟩ := r
  cases r1 with
  | error e =>
    rcases hs with ⟨h1, -⟩ | ⟨op, h1, h2, -⟩
    · exact Or.inl (Or.inl ⟨h1, _, rfl⟩)
    · exact Or.inr (Or.inl ⟨op, _, h1, h2, rfl⟩)
  | ok temp =>
    rcases hs with ⟨-, e, he⟩ | ⟨op, h1, h2, h3⟩
    · cases he
    · obtain ⟨h4, h5⟩ := h3 temp rfl
      simp only at h1
      subst h1
      have h6 := ha (op :: h) temp h5
      have hp : outputPath dir temp.path ext = outputPath dir img.path ext := by
        rw [h4]; exact outputPath_again ext hr (by decide) (by decide)
      rw [hp] at h6
      refine Or.inr (Or.inr ⟨op, _, h2, h6, ?_, (thenRemove_spec _ _ _).2⟩)
      simp only
      rw [(thenRemove_spec _ _ _).1, h4]

theorem vmdkFrom_spec (w : ConvWorld) (h : List DiskOp) (img : Image) (dir sub : Str)
    (hr : ∃ c ∈ pathRoot (pathBase img.path), c ≠ '.') :
    Steps h (outputPath dir img.path ".img".toList) (outputPath dir img.path ".vmdk".toList) .vmdk
      (vmdkFrom w h img dir sub) := by
  unfold vmdkFrom
  rw [vmdkStep]
  split
  · split
    · exact Or.inl (Or.inl ⟨rfl, _, rfl⟩)
    · split
      · split
        · exact twoSteps (again := fun h' temp => vmdkStep w _ h' temp dir sub) hr
            (fun h' temp ht => vmdkStep_raw w _ h' temp dir sub ht) id
        · exact Or.inl (make_oneStep _ _ _ _ _ rfl)
      · exact Or.inl (make_oneStep _ _ _ _ _ rfl)
  · exact Or.inl (make_oneStep _ _ _ _ _ rfl)

theorem qcow2From_spec (w : ConvWorld) (h : List DiskOp) (img : Image) (dir : Str)
    (hr : ∃ c ∈ pathRoot (pathBase img.path), c ≠ '.') :
    Steps h (outputPath dir img.path ".img".toList) (outputPath dir img.path ".qcow2".toList) .qcow2
      (qcow2From w h img dir) := by
  unfold qcow2From
  rw [qcow2Step]
  split
  · exact Or.inl (Or.inl ⟨rfl, _, rfl⟩)
  · exact Or.inl (make_oneStep _ _ _ _ _ rfl)
  · split
    · exact Or.inl (Or.inl ⟨rfl, _, rfl⟩)
    · split
      · exact twoSteps (again := fun h' temp => qcow2Step w _ h' temp dir) hr
          (fun h' temp ht => qcow2Step_raw w _ h' temp dir ht) (fun _ => .attributeError)
      · exact Or.inl (make_oneStep _ _ _ _ _ rfl)

/-- what a caller sees of a conversion to `f` at `out` with scratch image `temp` -/
def ConvertedTo (temp out : Str) (f : DiskFmt) (r : Except Err Image × List DiskOp) : Prop :=
  (∀ i, r.1 = .ok i → i.fmt = f ∧ i.path = out ∧ ∃ op ∈ r.2, out ∈ op.changes) ∧
  (∀ op ∈ r.2, ∀ p ∈ op.changes, p = out ∨ p = temp) ∧
  (temp ≠ out → (∃ op ∈ r.2, temp ∈ op.changes) →
    r.2.head? = some (.remove temp) ∨ ∃ op e, r.2 = [op] ∧ r.1 = .error e)

theorem Steps.converted {temp out : Str} {f : DiskFmt} {r : Except Err Image × List DiskOp}
    (h : Steps [] temp out f r) : ConvertedTo temp out f r := by
  rcases h with (⟨h1, e, he⟩ | ⟨op, h1, h2, h3⟩) | ⟨op, e, h1, h2, h3⟩ | ⟨op, r', h1, h2, h3, h4⟩
  · refine ⟨fun i hi => (by rw [he] at hi; cases hi), ?_, ?_⟩ <;> rw [h1] <;> simp
  · refine ⟨fun i hi => ⟨(h3 i hi).2, (h3 i hi).1, op, by simp [h1], by simp [h2]⟩, ?_, ?_⟩
    · rw [h1]; simp [h2]
    · rw [h1]
      rintro hne ⟨op', hop, hc⟩
      simp only [List.mem_singleton] at hop
      subst hop
      rw [h2] at hc
      simp only [List.mem_singleton] at hc
      exact absurd hc hne
  · refine ⟨fun i hi => (by rw [h3] at hi; cases hi), ?_, ?_⟩
    · rw [h1]; simp [h2]
    · intro _ _
      exact Or.inr ⟨op, e, h1, h3⟩
  · refine ⟨fun i hi => ?_, ?_, ?_⟩
    · rcases h2 with ⟨-, e, he⟩ | ⟨op2, h5, h6, h7⟩
      · rw [h4 i hi] at he; cases he
      · exact ⟨(h7 i (h4 i hi)).2, (h7 i (h4 i hi)).1, op2, by simp [h3, h5], by simp [h6]⟩
    · rw [h3]
      rcases h2 with ⟨h5, -⟩ | ⟨op2, h5, h6, -⟩
      · rw [h5]
        have hc : (DiskOp.remove temp).changes = [temp] := rfl
        simp only [List.mem_cons, List.not_mem_nil, or_false, forall_eq_or_imp, forall_eq, hc, h1]
        exact ⟨Or.inr trivial, Or.inr trivial⟩
      · rw [h5]
        have hc : (DiskOp.remove temp).changes = [temp] := rfl
        simp only [List.mem_cons, List.not_mem_nil, or_false, forall_eq_or_imp, forall_eq, hc, h1, h6]
        exact ⟨Or.inr trivial, Or.inl trivial, Or.inr trivial⟩
    · intro _ _
      exact Or.inl (by rw [h3]; rfl)

/-- **C61 (convert).** Converting an image: on success the result has the requested format and lies in the requested
directory under the input's name with the format's extension, written by one of the commands run; no command
writes or removes anything but that file and a scratch file with extension `.img` beside it; and if the scratch
file was made it is removed at the end, whatever happened in between, unless making it is what failed.
(`hr`: the input's name has something before its extension.) -/
theorem C61_convert_partial (w : ConvWorld) (img : Image) (fmt dir : Str) (sub : Option Str)
    (hr : ∃ c ∈ pathRoot (pathBase img.path), c ≠ '.') :
    let at_ := fun ext : String => pathJoin dir (pathRoot (pathBase img.path) ++ ext.toList)
    (fmt = "vmdk".toList ∧ ConvertedTo (at_ ".img") (at_ ".vmdk") .vmdk (convertTo w [] img fmt dir sub)) ∨
    (fmt = "qcow2".toList ∧ ConvertedTo (at_ ".img") (at_ ".qcow2") .qcow2 (convertTo w [] img fmt dir sub)) ∨
    (fmt = "raw".toList ∧ ConvertedTo (at_ ".img") (at_ ".img") .raw (convertTo w [] img fmt dir sub)) ∨
    (fmt ∉ ["vmdk".toList, "qcow2".toList, "raw".toList] ∧ convertTo w [] img fmt dir sub = (.error .notImplementedError, [])) := by
  intro at_
  by_cases h1 : fmt = "vmdk".toList
  · subst h1
    exact Or.inl ⟨rfl, (vmdkFrom_spec w [] img dir _ hr).converted⟩
  by_cases h2 : fmt = "qcow2".toList
  · subst h2
    exact Or.inr (Or.inl ⟨rfl, (qcow2From_spec w [] img dir hr).converted⟩)
  by_cases h3 : fmt = "raw".toList
  · subst h3
    exact Or.inr (Or.inr (Or.inl ⟨rfl, (show Steps [] _ _ _ _ from Or.inl (rawFrom_spec w [] img dir)).converted⟩))
  refine Or.inr (Or.inr (Or.inr ⟨by simp only [List.mem_cons, List.not_mem_nil, or_false, not_or]; exact ⟨h1, h2, h3⟩, ?_⟩))
  by_cases h4 : fmt = "iso".toList
  · subst h4; rfl
  · have : classForFormat fmt = none := by
      unfold classForFormat
      rw [List.find?_eq_none]
      intro f _
      simp only [decide_eq_true_eq]
      cases f
      · exact fun h => h4 h.symm
      · exact fun h => h2 h.symm
      · exact fun h => h3 h.symm
      · exact fun h => h1 h.symm
    unfold convertTo
    rw [this]

/-- **C61 (adding a disk).** Before a disk goes into a package, only hard disks that are not yet stream-optimized
VMDKs are converted; anything else is used as it is and no command is run; a converted disk is a VMDK in the
working directory. -/
theorem C61_if_needed (w : ConvWorld) (img : Image) (kind dir : Str)
    (hr : ∃ c ∈ pathRoot (pathBase img.path), c ≠ '.') :
    (kind ≠ "harddisk".toList → convertIfNeeded w img kind dir = (.ok img, [])) ∧
    (img.fmt = .vmdk → img.subformat = .ok (some "streamOptimized".toList) →
      convertIfNeeded w img kind dir = (.ok img, [])) ∧
    (kind = "harddisk".toList → (img.fmt = .vmdk → ∃ s, img.subformat = .ok s ∧ s ≠ some "streamOptimized".toList) →
      ConvertedTo (pathJoin dir (pathRoot (pathBase img.path) ++ ".img".toList))
        (pathJoin dir (pathRoot (pathBase img.path) ++ ".vmdk".toList)) .vmdk (convertIfNeeded w img kind dir)) := by
  refine ⟨fun h => ?_, fun h1 h2 => ?_, fun h1 h2 => ?_⟩
  · unfold convertIfNeeded; rw [if_pos h]
  · have : needsNewQemu img = .ok true := by
      unfold needsNewQemu; rw [if_pos h1, h2]; rfl
    unfold convertIfNeeded; rw [this]
    split <;> rfl
  · have : needsNewQemu img = .ok false := by
      unfold needsNewQemu
      split
      · rename_i hf
        obtain ⟨s, e1, e2⟩ := h2 hf
        rw [e1]; exact congrArg _ (decide_eq_false e2)
      · rfl
    unfold convertIfNeeded
    rw [this, if_neg (fun h => h h1)]
    exact (vmdkFrom_spec w [] img dir _ hr).converted

/-- a machine with vmdktool and an old qemu-img, where every command works -/
def oldQemu : ConvWorld where
  fails := fun _ _ => none
  select := fun _ _ => .ok "vmdktool".toList
  pathExists := fun _ _ => true

def exQcow : Image := { path := "/d/foo.qcow2".toList, fmt := .qcow2, subformat := .ok none }

example : convertTo oldQemu [] exQcow "vmdk".toList "/d".toList (some "streamOptimized".toList) =
    (.ok { path := "/d/foo.vmdk".toList, fmt := .vmdk, subformat := .ok none },
     [.remove "/d/foo.img".toList,
      .call "vmdktool".toList ["-z9".toList, "-v".toList, "/d/foo.vmdk".toList, "/d/foo.img".toList],
      .call "qemu-img".toList ["convert".toList, "-O".toList, "raw".toList, "/d/foo.qcow2".toList, "/d/foo.img".toList]]) := by
  rfl

example : ∃ c ∈ pathRoot (pathBase exQcow.path), c ≠ '.' := ⟨'f', by decide +kernel, by decide⟩

/-- So a conversion does not leave all other files alone: an unrelated `foo.img` beside the output is overwritten
and then deleted, although the name of the output is `foo.vmdk`. -/
theorem C61_neighbour_fails : ¬ ∀ (w : ConvWorld) (img : Image) (dir : Str) (sub : Option Str) (p : Str),
    p ≠ outputPath dir img.path ".vmdk".toList →
    ∀ op ∈ (convertTo w [] img "vmdk".toList dir sub).2, p ∉ op.changes := by
  intro h
  exact h oldQemu exQcow "/d".toList (some "streamOptimized".toList) "/d/foo.img".toList (by decide +kernel)
    (.remove "/d/foo.img".toList) (List.mem_cons_self ..) (by decide +kernel)

end Cot
