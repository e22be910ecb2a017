import Verif.Lemmas.Manifest
import Verif.Lemmas.Units
/-
C22 (capacity units round trip), C23 (largest exact unit), C24 (manifests), C25 (archive sizes).
-/
namespace Cot

/-! ### C22, C23: capacity units -/

/-- a value that the units conversion returned, read back -/
def ReadsBack (py : PyVer) (n : Nat) : Prop :=
  ∃ fuel value unit, intBytesToUnits py fuel n = some (.ok (value, unit)) ∧
    programmaticBytesToInt value unit = .ok n

theorem intBytesToUnits_of_loop {py : PyVer} {fuel n s v : Nat} (h : unitsLoop py fuel 0 n = some (.ok (s, v))) :
    intBytesToUnits py fuel n =
      some (.ok (natStr v, if s = 0 then "byte".toList else "byte * 2^".toList ++ natStr s)) := by
  unfold intBytesToUnits; rw [h]

theorem readback_value (v s : Nat) :
    programmaticBytesToInt (natStr v) (if s = 0 then "byte".toList else "byte * 2^".toList ++ natStr s) =
      .ok ((v : Int) * 2 ^ s) := by
  have hnum : Numeral (natStr v) (v : Int) := pyInt_iff.1 (pyInt_natStr v)
  split
  · rename_i h; subst h; rw [programmatic_byte hnum]; simp
  · exact programmatic_power hnum s

theorem readsBack_of_loop {py : PyVer} {n : Nat}
    (h : ∃ fuel s' v', unitsLoop py fuel 0 n = some (.ok (s', v')) ∧ ∃ k, s' = 0 + 10 * k ∧ n = v' * 1024 ^ k) :
    ReadsBack py n := by
  obtain ⟨fuel, s', v', h1, k, h2, h3⟩ := h
  refine ⟨fuel, _, _, intBytesToUnits_of_loop h1, ?_⟩
  rw [readback_value, h2, h3, Nat.zero_add, pow_mul]
  norm_num

/-- **C22** on Python 2 (integer division): every positive byte count survives. -/
theorem C22_roundtrip_py2_partial (n : Nat) (h : 0 < n) : ReadsBack .py2 n := by
  obtain ⟨s', v', h1, -, k, h2, h3⟩ := unitsLoop_py2 (fuel := n + 1) (shift := 0) h (by omega)
  exact readsBack_of_loop ⟨n + 1, s', v', h1, k, h2, h3⟩

theorem unitsLoop_fuel_mono {py : PyVer} : ∀ {f f' s v : Nat} {x}, f ≤ f' → unitsLoop py f s v = some x →
    unitsLoop py f' s v = some x
  | 0, _, _, _, _, _, h => by simp [unitsLoop] at h
  | f + 1, 0, _, _, _, hle, _ => by omega
  | f + 1, f' + 1, s, v, x, hle, h => by
    unfold unitsLoop at h ⊢
    split
    · rename_i hm
      rw [if_pos hm] at h
      cases hd : div1024 py v with
      | error e => rw [hd] at h; simpa using h
      | ok w => rw [hd] at h; exact unitsLoop_fuel_mono (by omega) h
    · rename_i hm
      rw [if_neg hm] at h
      exact h

/-- **C22** on Python 3, exactly: a positive byte count (below the float range) survives iff it is not a
multiple of 1024 or has at most 53 significant bits. -/
theorem C22_roundtrip_py3_exact (n : Nat) (h : 0 < n) (hb : n < 2 ^ 1024) :
    ReadsBack .py3 n ↔ (1024 ∣ n → Fits53 n) := by
  constructor
  · rintro ⟨fuel, value, unit, h1, h2⟩ hd
    have hm : n % 1024 = 0 := Nat.mod_eq_zero_of_dvd hd
    -- the first division
    cases fuel with
    | zero => simp [intBytesToUnits, unitsLoop] at h1
    | succ fuel =>
      unfold intBytesToUnits at h1
      cases hl : unitsLoop .py3 (fuel + 1) 0 n with
      | none => rw [hl] at h1; cases h1
      | some r =>
        cases r with
        | error e => rw [hl] at h1; cases h1
        | ok sv =>
          obtain ⟨s, v⟩ := sv
          rw [hl] at h1
          simp only [Option.some.injEq, Except.ok.injEq, Prod.mk.injEq] at h1
          obtain ⟨rfl, rfl⟩ := h1
          rw [readback_value] at h2
          simp only [Except.ok.injEq] at h2
          have hl' := hl
          unfold unitsLoop at hl'
          rw [if_pos hm] at hl'
          cases hdv : div1024 .py3 n with
          | error e => rw [hdv] at hl'; cases hl'
          | ok w =>
            rw [hdv] at hl'
            simp only at hl'
            have hw : w = roundDouble (n / 1024) ∧ w < 2 ^ 1024 := by
              simp only [div1024] at hdv
              split at hdv
              · rename_i hlt; cases hdv; exact ⟨rfl, hlt⟩
              · cases hdv
            have hfw : Fits53 w := hw.1 ▸ fits_roundDouble _
            by_cases hw0 : w = 0
            · -- impossible: then the loop never ends
              exfalso
              subst hw0
              have hz : ∀ f s, unitsLoop .py3 f s 0 = none := by
                intro f
                induction f with
                | zero => intro s; rfl
                | succ f ih =>
                  intro s
                  unfold unitsLoop
                  rw [if_pos (by norm_num)]
                  have : div1024 .py3 0 = .ok 0 := div1024_py3_fits ⟨0, 0, by norm_num, by simp⟩ (by positivity) rfl
                  rw [this]
                  exact ih _
              rw [hz] at hl'; cases hl'
            · obtain ⟨s', v', h3, -, k, h4, h5⟩ := unitsLoop_py3 (fuel := max fuel (w + 1)) (shift := 0 + 10)
                (v := w) (by omega) (by omega) hw.2 (fun _ => hfw)
              have h6 := unitsLoop_fuel_mono (le_max_left fuel (w + 1)) hl'
              rw [h3] at h6
              simp only [Option.some.injEq, Except.ok.injEq, Prod.mk.injEq] at h6
              obtain ⟨rfl, rfl⟩ := h6
              have hn : n = v' * 2 ^ s' := by exact_mod_cast h2.symm
              have : n = w * 1024 := by
                rw [hn, h5, h4, Nat.pow_add, Nat.pow_mul]
                norm_num
                ring
              rw [this]
              exact fits_mul_1024 hfw
  · intro hf
    obtain ⟨s', v', h1, -, k, h2, h3⟩ := unitsLoop_py3 (fuel := n + 1) (shift := 0) h (by omega) hb
      (fun hm => hf (Nat.dvd_of_mod_eq_zero hm))
    exact readsBack_of_loop ⟨n + 1, s', v', h1, k, h2, h3⟩

/-- **C22** for realistic sizes: on either Python, every byte count from 1 to 8 EiB survives.  The full
property (every count) fails; see `C22_zero_fails` and `C22_large_fails`. -/
theorem C22_roundtrip_partial (py : PyVer) (n : Nat) (h : 0 < n) (hb : n ≤ 2 ^ 63) : ReadsBack py n := by
  cases py with
  | py2 => exact C22_roundtrip_py2_partial n h
  | py3 =>
    rw [C22_roundtrip_py3_exact n h (lt_of_le_of_lt hb (Nat.pow_lt_pow_right (by norm_num) (by norm_num)))]
    rintro ⟨m, rfl⟩
    rw [Nat.mul_comm]
    have : (1024 : Nat) = 2 ^ 10 := by norm_num
    rw [this] at hb ⊢
    have h63 : (2 : Nat) ^ 63 = 2 ^ 10 * 2 ^ 53 := by norm_num
    rw [h63] at hb
    exact fits_of_le (Nat.le_of_mul_le_mul_left hb (by norm_num))

/-- C22 fails for 0: the loop never ends, on either Python. -/
theorem C22_zero_fails (py : PyVer) : ∀ fuel, intBytesToUnits py fuel 0 = none := by
  intro fuel
  have : ∀ f s, unitsLoop py f s 0 = none := by
    intro f
    induction f with
    | zero => intro s; rfl
    | succ f ih =>
      intro s
      unfold unitsLoop
      rw [if_pos (by norm_num)]
      have : div1024 py 0 = .ok 0 := by
        cases py with
        | py2 => rfl
        | py3 => exact div1024_py3_fits ⟨0, 0, by norm_num, by simp⟩ (by positivity) rfl
      rw [this]
      exact ih _
  unfold intBytesToUnits
  rw [this]

/-- C22 fails on Python 3 for the first count that a double cannot hold: it comes back as another
number. -/
theorem C22_large_fails : intBytesToUnits .py3 10 (1024 * (2 ^ 53 + 1)) =
      some (.ok ("8".toList, "byte * 2^60".toList)) ∧
    programmaticBytesToInt "8".toList "byte * 2^60".toList = .ok (1024 * 2 ^ 53 : Int) := by
  constructor
  · decide +kernel
  · have := programmatic_power (base := "8".toList) (z := 8) (pyInt_iff.1 rfl) 60
    rw [show "byte * 2^60".toList = "byte * 2^".toList ++ natStr 60 from rfl, this]
    norm_num

/-- The unit strings: `byte * 2^k` multiplies by `2^k`, a unit word (in any letter case) by the power of
1024 it names, `byte` and no unit by one. -/
theorem C22_units {base : Str} {z : Int} (hb : Numeral base z) :
    (∀ k, programmaticBytesToInt base ("byte * 2^".toList ++ natStr k) = .ok (z * 2 ^ k)) ∧
    (∀ i u, unitWords[i]? = some (lower u) → programmaticBytesToInt base u = .ok (z * 1024 ^ i)) ∧
    programmaticBytesToInt base "byte".toList = .ok z ∧ programmaticBytesToInt base [] = .ok z := by
  refine ⟨programmatic_power hb, fun i u h => programmatic_word hb i h, programmatic_byte hb, ?_⟩
  unfold programmaticBytesToInt
  simp [intOrErr, pyInt_iff.2 hb]

/-- A quantity that is no numeral is refused, whatever the units, and every refusal is a ValueError. -/
theorem C22_refused (base units : Str) :
    ((∀ z, ¬ Numeral base z) → programmaticBytesToInt base units = .error .valueError) ∧
    (∀ e, programmaticBytesToInt base units = .error e → e = .valueError) := by
  have hi : ∀ e, intOrErr base = .error e → e = .valueError := by
    intro e h; unfold intOrErr at h; split at h <;> cases h; rfl
  have hn : (∀ z, ¬ Numeral base z) → intOrErr base = .error .valueError := by
    intro h; unfold intOrErr
    cases hp : pyInt base with
    | none => rfl
    | some z => exact absurd (pyInt_iff.1 hp) (h z)
  unfold programmaticBytesToInt
  constructor
  · intro h
    rw [hn h]
    split
    · rfl
    · split
      · rfl
      · split
        · split <;> rfl
        · rfl
  · intro e h
    split at h
    · exact hi e h
    · split at h
      · split at h
        · rename_i h2; cases h; exact hi _ h2
        · cases h
      · split at h
        · split at h
          · cases h; rfl
          · split at h
            · rename_i h2; cases h; exact hi _ h2
            · cases h
        · exact hi e h

example : programmaticBytesToInt "1.5".toList "byte * 2^30".toList = .error .valueError := by decide +kernel

example : ReadsBack .py3 (512 * 2 ^ 20) := C22_roundtrip_partial .py3 _ (by norm_num) (by norm_num)
example : intBytesToUnits .py3 5 2147483648 = some (.ok ("2".toList, "byte * 2^30".toList)) ∧
    intBytesToUnits .py3 5 134217729 = some (.ok ("134217729".toList, "byte".toList)) ∧
    programmaticBytesToInt "512".toList "MegaBytes".toList = .ok 536870912 := by decide +kernel

/-- **C23.** For every positive count (on Python 3: with at most 53 significant bits if it is a multiple
of 1024), the result is the numeral of `n / 1024^k` with the unit `2^(10k)`, where `1024^k` is the
largest power of 1024 dividing `n`. -/
theorem C23_largest_unit (py : PyVer) (n : Nat) (h : 0 < n)
    (hpy : py = .py3 → n < 2 ^ 1024 ∧ (1024 ∣ n → Fits53 n)) :
    ∃ k fuel, 1024 ^ k ∣ n ∧ ¬ 1024 ^ (k + 1) ∣ n ∧ intBytesToUnits py fuel n =
      some (.ok (natStr (n / 1024 ^ k), if k = 0 then "byte".toList else "byte * 2^".toList ++ natStr (10 * k))) := by
  have hloop : ∃ s' v', unitsLoop py (n + 1) 0 n = some (.ok (s', v')) ∧ v' % 1024 ≠ 0 ∧
      ∃ k, s' = 0 + 10 * k ∧ n = v' * 1024 ^ k := by
    cases py with
    | py2 => exact unitsLoop_py2 h (by omega)
    | py3 =>
      obtain ⟨h1, h2⟩ := hpy rfl
      exact unitsLoop_py3 h (by omega) h1 (fun hm => h2 (Nat.dvd_of_mod_eq_zero hm))
  obtain ⟨s', v', h1, h2, k, h3, h4⟩ := hloop
  have hpos : 0 < 1024 ^ k := by positivity
  refine ⟨k, n + 1, ⟨v', by rw [h4, Nat.mul_comm]⟩, ?_, ?_⟩
  · rintro ⟨w, hw⟩
    rw [h4, Nat.pow_succ, Nat.mul_assoc, Nat.mul_comm] at hw
    have : v' = 1024 * w := Nat.eq_of_mul_eq_mul_left hpos hw
    apply h2
    rw [this]
    exact Nat.mul_mod_right _ _
  · have hv : n / 1024 ^ k = v' := by rw [h4, Nat.mul_div_cancel _ hpos]
    rw [intBytesToUnits_of_loop h1, hv, h3, Nat.zero_add]
    by_cases hk : k = 0
    · subst hk; rfl
    · rw [if_neg hk, if_neg (by omega)]

example : ∃ k fuel, 1024 ^ k ∣ 5 * 2 ^ 40 ∧ ¬ 1024 ^ (k + 1) ∣ 5 * 2 ^ 40 ∧ intBytesToUnits .py3 fuel (5 * 2 ^ 40) =
      some (.ok (natStr (5 * 2 ^ 40 / 1024 ^ k),
        if k = 0 then "byte".toList else "byte * 2^".toList ++ natStr (10 * k))) :=
  C23_largest_unit .py3 _ (by norm_num) (fun _ => ⟨by
    exact lt_trans (b := 2 ^ 64) (by norm_num) (Nat.pow_lt_pow_right (by norm_num) (by norm_num)),
    fun _ => ⟨5, 40, by norm_num, rfl⟩⟩)

/-! ### C24: manifests -/

theorem linesOf_split {text : Str} {ls : List Str} (h : LinesOf text ls) : splitOnChar '\n' text = ls := by
  obtain ⟨h1, h2, rfl⟩ := h
  exact splitOnChar_join '\n' ls h1 h2

/-- C24, parsing: a file name is given an algorithm and a checksum iff some line of the text says so and
no later line is about the same file. -/
theorem C24_parse_manifest {text : Str} {ls : List Str} (h : LinesOf text ls) (name algo sum : Str) :
    dget? (parseManifest text) name = some (algo, sum) ↔
      ∃ pre line post, ls = pre ++ line :: post ∧ IsManifestLine line algo name sum ∧
        ∀ l ∈ post, ∀ a s, ¬ IsManifestLine l a name s := by
  unfold parseManifest
  rw [linesOf_split h, parseManifestLines_get ls [] name algo sum h.2.1]
  simp

theorem dset_new {κ ν : Type} [DecidableEq κ] {d : List (κ × ν)} {k : κ} {v : ν} (h : k ∉ dkeys d) :
    dset d k v = d ++ [(k, v)] := by
  induction d with
  | nil => rfl
  | cons e t ih =>
    obtain ⟨k', v'⟩ := e
    simp only [dkeys, List.map_cons, List.mem_cons, not_or] at h
    simp only [dset, if_neg (Ne.symm h.1)]
    rw [ih h.2]; rfl

theorem parse_generated (algo : Str) (ha : Alnum algo) : ∀ (files : List (Str × Str))
    (acc : List (Str × Str × Str)), (∀ f ∈ files, FileName f.1 ∧ LowerHex f.2) →
    (files.map Prod.fst).Nodup → (∀ f ∈ files, f.1 ∉ dkeys acc) →
    parseManifestLines (files.map (fun f => upper algo ++ "(".toList ++ f.1 ++ ")= ".toList ++ f.2) ++ [[]]) acc =
      acc ++ files.map (fun f => (f.1, upper algo, f.2))
  | [], acc, _, _, _ => by simp [parseManifestLines]
  | f :: t, acc, hf, hnd, hacc => by
    obtain ⟨hn, hs⟩ := hf f (by simp)
    have hline := manifestLine_is ha hn hs
    have hnl : '\n' ∉ upper algo ++ "(".toList ++ f.1 ++ ")= ".toList ++ f.2 := by
      simp only [List.mem_append, not_or]
      refine ⟨⟨⟨⟨?_, by decide⟩, hn.2⟩, by decide⟩, ?_⟩
      · intro hm; exact absurd ((upper_alnum ha).2 _ hm) (by decide)
      · intro hm; exact absurd (hs.2 _ hm) (by decide)
    simp only [List.map_cons, List.cons_append, List.nodup_cons] at hnd ⊢
    rw [parseManifestLines_cons_some hnl hline, dset_new (hacc f (by simp)),
      parse_generated algo ha t _ (fun g hg => hf g (by simp [hg])) hnd.2 ?_]
    · simp
    · intro g hg
      simp only [dkeys, List.map_append, List.map_cons, List.map_nil, List.mem_append, List.mem_singleton, not_or]
      refine ⟨hacc g (by simp [hg]), ?_⟩
      intro he
      exact hnd.1 (List.mem_map.2 ⟨g, hg, he⟩)

/-- **C24.** Parsing the manifest generated for any list of distinct, non-empty, single-line file names
with their (lower-case hexadecimal) checksums gives exactly those files, in order, each with the
algorithm and checksum written. -/
theorem C24_manifest_roundtrip (algo : Str) (files : List (Str × Str)) (ha : Alnum algo)
    (hf : ∀ f ∈ files, FileName f.1 ∧ LowerHex f.2) (hnd : (files.map Prod.fst).Nodup) :
    parseManifest (manifestText algo files) = files.map (fun f => (f.1, upper algo, f.2)) := by
  unfold parseManifest
  rw [manifestText_lines algo files ha hf, parse_generated algo ha files [] hf hnd (by simp [dkeys])]
  simp

/-- a manifest with an awkward file name -/
def exFiles : List (Str × Str) := [("a.ovf".toList, "0123af".toList), ("x)= 00 (y".toList, "ff".toList)]

example : parseManifest (manifestText "sha1".toList exFiles) =
    [("a.ovf".toList, "SHA1".toList, "0123af".toList), ("x)= 00 (y".toList, "SHA1".toList, "ff".toList)] := by
  decide +kernel
example : ∀ f ∈ exFiles, FileName f.1 ∧ LowerHex f.2 := by
  intro f hf
  simp only [exFiles, List.mem_cons, List.not_mem_nil, or_false] at hf
  rcases hf with rfl | rfl
  · exact ⟨⟨by decide, by decide⟩, by decide, by decide⟩
  · exact ⟨⟨by decide, by decide⟩, by decide, by decide⟩

/-! ### C25: archive sizes -/

/-- **C25**, entries: `tar_entry_size(n)` is the least multiple of 512 with room for the header and the
data. -/
theorem C25_tar_entry_size (n : Int) : LeastMultiple 512 (512 + n) (tarEntrySize n) := by
  unfold LeastMultiple tarEntrySize
  refine ⟨by omega, by omega, ?_⟩
  intro z hz hle
  omega

theorem leastMultiple_unique {k y x x' : Int} (h : LeastMultiple k y x) (h' : LeastMultiple k y x') : x = x' :=
  le_antisymm (h.2.2 x' h'.1 h'.2.1) (h'.2.2 x h.1 h.2.1)

theorem filesSizeOf_eq : ∀ (files : List (Str × Int)) (n : Int),
    filesSizeOf files n = n + (files.map (fun f => tarEntrySize f.2)).sum
  | [], n => by simp [filesSizeOf]
  | f :: t, n => by
    obtain ⟨h, s⟩ := f
    simp only [filesSizeOf, filesSizeOf_eq t, List.map_cons, List.sum_cons]; ring

theorem manifestSizeOf_eq (v2 : Bool) : ∀ (files : List (Str × Int)) (n : Int),
    manifestSizeOf v2 files n = n + (files.map (fun f => (if v2 then 76 else 50) + (f.1.length : Int))).sum
  | [], n => by simp [manifestSizeOf]
  | f :: t, n => by
    obtain ⟨h, s⟩ := f
    simp only [manifestSizeOf, manifestSizeOf_eq v2 t, List.map_cons, List.sum_cons]; ring

/-- **C25**, whole archive: the predicted size is the size of a TAR archive holding the descriptor, the
referenced files, and a manifest with one line (one byte more than needed) per referenced file. -/
theorem C25_predicted_size_partial (xmlLen : Int) (v2 : Bool) (files : List (Str × Int)) :
    TarSize (xmlLen :: files.map Prod.snd ++
        [(files.map (fun f => (if v2 then 76 else 50) + (f.1.length : Int))).sum])
      (predictedOutputSize xmlLen v2 files) := by
  refine ⟨tarEntrySize xmlLen :: files.map (fun f => tarEntrySize f.2) ++
    [tarEntrySize (files.map (fun f => (if v2 then 76 else 50) + (f.1.length : Int))).sum], ?_, ?_⟩
  · rw [List.cons_append, List.cons_append]
    refine List.Forall₂.cons (C25_tar_entry_size _) ?_
    refine List.rel_append ?_ (List.Forall₂.cons (C25_tar_entry_size _) List.Forall₂.nil)
    induction files with
    | nil => exact List.Forall₂.nil
    | cons f t ih => exact List.Forall₂.cons (C25_tar_entry_size _) ih
  · have e : (tarEntrySize xmlLen :: files.map (fun f => tarEntrySize f.2) ++
        [tarEntrySize (files.map (fun f => (if v2 then 76 else 50) + (f.1.length : Int))).sum]).sum + 1024 =
        filesSizeOf files (tarEntrySize xmlLen) + tarEntrySize (manifestSizeOf v2 files 0) + 1024 := by
      rw [filesSizeOf_eq, manifestSizeOf_eq, List.sum_append, List.sum_cons, List.sum_singleton, Int.zero_add]
    rw [e]
    unfold predictedOutputSize LeastMultiple
    simp only
    generalize filesSizeOf files (tarEntrySize xmlLen) + tarEntrySize (manifestSizeOf v2 files 0) + 1024 = n
    refine ⟨by omega, by omega, ?_⟩
    intro z hz hle
    omega

/-- C25, how far off it can be: if the manifest written is at most 10 kiB longer than predicted, the
archive written is at most one 10 kiB record longer than predicted; if the manifest is no longer than
predicted, neither is the archive. -/
theorem C25_predicted_size_bound (xmlLen : Int) (v2 : Bool) (files : List (Str × Int)) (m total : Int)
    (h : TarSize (xmlLen :: files.map Prod.snd ++ [m]) total) :
    (m ≤ (files.map (fun f => (if v2 then 76 else 50) + (f.1.length : Int))).sum + 10240 →
      total ≤ predictedOutputSize xmlLen v2 files + 10240) ∧
    (m ≤ (files.map (fun f => (if v2 then 76 else 50) + (f.1.length : Int))).sum →
      total ≤ predictedOutputSize xmlLen v2 files) := by
  obtain ⟨entries, h1, h2, h3, h4⟩ := h
  have key : ∀ (l : List Int) (es : List Int), List.Forall₂ (fun s e => LeastMultiple 512 (512 + s) e) l es →
      es = l.map tarEntrySize := by
    intro l es h
    induction h with
    | nil => rfl
    | cons hd _ ih => rw [List.map_cons, ← ih, leastMultiple_unique hd (C25_tar_entry_size _)]
  rw [key _ _ h1] at h4
  have e : ((xmlLen :: files.map Prod.snd ++ [m]).map tarEntrySize).sum =
      filesSizeOf files (tarEntrySize xmlLen) + tarEntrySize m := by
    rw [filesSizeOf_eq, List.map_append, List.map_cons, List.map_map, List.sum_append, List.sum_cons]
    simp [Function.comp_def]
  rw [e] at h4
  have hp : predictedOutputSize xmlLen v2 files = (filesSizeOf files (tarEntrySize xmlLen) +
      tarEntrySize ((files.map (fun f => (if v2 then 76 else 50) + (f.1.length : Int))).sum) + 1024) +
      (10240 - (filesSizeOf files (tarEntrySize xmlLen) +
      tarEntrySize ((files.map (fun f => (if v2 then 76 else 50) + (f.1.length : Int))).sum) + 1024)) % 10240 := by
    unfold predictedOutputSize
    rw [manifestSizeOf_eq, Int.zero_add]
  generalize predictedOutputSize xmlLen v2 files = P at hp ⊢
  generalize (files.map (fun f => (if v2 then 76 else 50) + (f.1.length : Int))).sum = M at hp ⊢
  generalize filesSizeOf files (tarEntrySize xmlLen) = F at hp h4
  unfold tarEntrySize at hp h4
  constructor
  · intro hm
    exact h4 _ (by omega) (by omega)
  · intro hm
    exact h4 _ (by omega) (by omega)

/-- The number of bytes of the manifest that is really written. -/
def manifestBytes (algo : Str) (files : List (Str × Str)) : Int := (manifestText algo files).length

/-- C25 fails for the archive that is really written: the line about the descriptor itself is not
counted.  A package with a 8192-byte descriptor and no files is predicted to need 10240 bytes and
takes 20480. -/
theorem C25_predicted_size_fails :
    predictedOutputSize 8192 false [] = 10240 ∧
    manifestBytes "sha1".toList [("a.ovf".toList, "0123456789012345678901234567890123456789".toList)] = 54 ∧
    TarSize [8192, 54] 20480 := by
  refine ⟨by decide, by decide +kernel, [8704, 1024], ?_, ?_⟩
  · exact List.Forall₂.cons (C25_tar_entry_size 8192) (List.Forall₂.cons (C25_tar_entry_size 54) List.Forall₂.nil)
  · refine ⟨by decide, by decide, ?_⟩
    intro z hz hle
    simp only [List.sum_cons, List.sum_nil] at hle
    omega

example : tarEntrySize 513 = 1536 ∧ predictedOutputSize 3000 true [("disk.vmdk".toList, 70000)] = 81920 := by decide

end Cot
