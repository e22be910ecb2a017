import Verif.Spec.ImageFiles
import Verif.Model.ImageFiles
import Verif.Lemmas.Info
import Verif.Lemmas.EnvProps
import Verif.Lemmas.Re
import Verif.Props.Packages
/-
C114: which files COT says are in a disk image.
-/
namespace Cot

theorem columns_words {ws : List Str} {l : Str} (h : Columns ws l) : splitWs l = ws := by
  induction h with
  | blank h => exact splitWs_blank h
  | last hs hne hw => rw [splitWs_blank_append hs, splitWs_word hne hw]
  | word hs hne hw hc _ ih => rw [List.append_assoc, splitWs_blank_append hs, splitWs_sep hc, splitWs_word hne hw, ih]; rfl

/-- **C114 (FAT).** The names reported for a raw image are those that `fatdisk` lists, in its order. -/
theorem C114_fat_partial {lines : List Str} {names : List (Option Str)} (h : List.Forall₂ FatLine lines names) (hne : lines ≠ [])
    (hnl : ∀ l ∈ lines, '\n' ∉ l) : rawFiles (joinWith ['\n'] lines) = names.filterMap id := by
  unfold rawFiles
  rw [splitOnChar_join '\n' lines hne hnl]
  clear hne hnl
  induction h with
  | nil => rfl
  | @cons l o ls os hl _ ih =>
    rw [List.filterMap_cons, List.filterMap_cons, ih]
    cases hl with
    | blank hb =>
      rw [splitWs_blank hb]
      simp
    | total =>
      rename_i t
      have : startsWith ("Listed".toList ++ t) "Listed".toList = true := List.isPrefixOf_iff_prefix.2 (List.prefix_append _ _)
      rw [this]; rfl
    | file hcol hno =>
      have : startsWith l "Listed".toList = false := by
        cases hh : startsWith l "Listed".toList with
        | false => rfl
        | true => exact absurd (List.isPrefixOf_iff_prefix.1 hh) hno
      rw [columns_words hcol, this]; rfl

theorem isoFiles_line {rr : Bool} {l : Str} {o : Option Str} (h : IsoLine rr l o) :
    (if l.head? ≠ some '/' then none
     else if rr = false ∧ hasSub ";1".toList l = true then some (((lower l).take (l.length - 2)).drop 1)
     else some (l.drop 1)) = o := by
  cases h with
  | other h =>
    rw [if_pos]
    intro hh
    cases l with
    | nil => cases hh
    | cons c t => simp only [List.head?_cons, Option.some.injEq] at hh; exact h t (by rw [hh])
  | rockRidge => rw [if_neg (by simp), if_neg (by simp)]; rfl
  | directory hp =>
    rename_i p
    have : hasSub ";1".toList ('/' :: p) = false := by
      cases hh : hasSub ";1".toList ('/' :: p) with
      | false => rfl
      | true =>
        exfalso
        rcases List.infix_cons_iff.1 ((hasSub_iff _ _).1 hh) with ⟨t, ht⟩ | h
        · cases ht
        · exact hp h
    rw [if_neg (by simp), if_neg (by rw [this]; simp)]; rfl
  | file hp =>
    rename_i p
    have : hasSub ";1".toList ('/' :: p ++ ";1".toList) = true := (hasSub_iff _ _).2 ⟨'/' :: p, [], by simp⟩
    rw [if_neg (by simp), if_pos ⟨rfl, this⟩]
    congr 1
    have e1 : ('/' :: p ++ ";1".toList).length - 2 = (lower ('/' :: p)).length := by
      simp [lower]
    have e2 : lower ('/' :: p ++ ";1".toList) = lower ('/' :: p) ++ ";1".toList := by
      unfold lower; rw [List.map_append]; rfl
    rw [e1, e2, List.take_left]
    rfl

/-- **C114 (ISO).** The paths reported for an ISO image are those that `isoinfo` lists, in its order: as they are if the image
has Rock Ridge names, otherwise in lower case and without the version number. -/
theorem C114_iso_partial {rr : Bool} {lines : List Str} {names : List (Option Str)} (h : List.Forall₂ (IsoLine rr) lines names)
    (hne : lines ≠ []) (hnl : ∀ l ∈ lines, '\n' ∉ l) (info : Str) (hrr : rr = true ↔ FoundRockRidge info) :
    isoContents info (joinWith ['\n'] lines) = names.filterMap id := by
  have key : decide (isoSubformat info = "rockridge".toList) = rr := by
    have hs : (reSearch rockRidgeRe info).isSome = true ↔ FoundRockRidge info := by
      have hm : ∀ t, (reMatch rockRidgeRe t).isSome = true ↔ ∃ between after, t = "Rock Ridge".toList ++ between ++ "found".toList ++ after ∧
          '\n' ∉ between := by
        intro t
        rw [reMatch_isSome]
        unfold rockRidgeRe Re.dot
        constructor
        · rintro ⟨x, hx⟩
          obtain ⟨y, hy, z, hz, rfl⟩ := mem_run_seq.1 hx
          obtain ⟨e1, -⟩ := mem_run_lit.1 hy
          obtain ⟨u, hu, w, hw, rfl⟩ := mem_run_seq.1 hz
          obtain ⟨a, e2, ha, -⟩ := mem_run_star_cls.1 hu
          obtain ⟨e3, -⟩ := mem_run_lit.1 hw
          refine ⟨a, w.1, ?_, ?_⟩
          · rw [e1, e2, e3]; simp only [List.append_assoc]
          · intro hn
            have := List.all_eq_true.1 ha _ hn
            simp at this
        · rintro ⟨b, a, rfl, hb⟩
          refine ⟨(a, []), mem_run_seq.2 ⟨(b ++ ("found".toList ++ a), []), ?_, (a, []), ?_, rfl⟩⟩
          · exact mem_run_lit.2 ⟨by simp only [List.append_assoc], rfl⟩
          · refine mem_run_seq.2 ⟨("found".toList ++ a, []), mem_run_star_cls.2 ⟨b, rfl, ?_, rfl⟩, (a, []), mem_run_lit.2 ⟨rfl, rfl⟩, rfl⟩
            rw [List.all_eq_true]
            intro c hc
            have : c ≠ '\n' := fun e => hb (e ▸ hc)
            simpa using this
      have hsearch : ∀ t : Str, (reSearch rockRidgeRe t).isSome = true ↔ ∃ pre suf, t = pre ++ suf ∧ (reMatch rockRidgeRe suf).isSome = true := by
        intro t
        induction t with
        | nil =>
          have h0 : reSearch rockRidgeRe [] = reMatch rockRidgeRe [] := by simp [reSearch]
          rw [h0]
          constructor
          · intro h; exact ⟨[], [], rfl, h⟩
          · rintro ⟨pre, suf, e, h⟩
            obtain ⟨-, rfl⟩ := List.append_eq_nil_iff.1 e.symm
            exact h
        | cons c t ih =>
          rw [reSearch]
          cases hr : reMatch rockRidgeRe (c :: t) with
          | some m => exact ⟨fun _ => ⟨[], c :: t, rfl, by rw [hr]; rfl⟩, fun _ => rfl⟩
          | none =>
            dsimp only
            rw [ih]
            constructor
            · rintro ⟨pre, suf, rfl, h⟩; exact ⟨c :: pre, suf, rfl, h⟩
            · rintro ⟨pre, suf, e, h⟩
              cases pre with
              | nil => rw [List.nil_append] at e; subst e; rw [hr] at h; cases h
              | cons d pre =>
                rw [List.cons_append, List.cons.injEq] at e
                exact ⟨pre, suf, e.2, h⟩
      rw [hsearch]
      unfold FoundRockRidge
      constructor
      · rintro ⟨pre, suf, rfl, h⟩
        obtain ⟨b, a, rfl, hb⟩ := (hm _).1 h
        exact ⟨pre, b, a, by simp only [List.append_assoc], hb⟩
      · rintro ⟨pre, b, a, rfl, hb⟩
        exact ⟨pre, _, by simp only [List.append_assoc]; rfl, (hm _).2 ⟨b, a, by simp only [List.append_assoc], hb⟩⟩
    unfold isoSubformat
    rw [← hs] at hrr
    cases rr with
    | true => rw [if_pos (hrr.1 rfl)]; exact decide_eq_true rfl
    | false =>
      rw [if_neg (fun h => absurd (hrr.2 h) (by decide))]
      decide
  unfold isoContents isoFiles
  rw [key, splitOnChar_join '\n' lines hne hnl]
  clear hne hnl key hrr
  induction h with
  | nil => rfl
  | cons hl _ ih => rw [List.filterMap_cons, List.filterMap_cons, ih, isoFiles_line hl]; rfl

/-! ### Cases -/

/-- the listing of raw.py:36-37 -/
example : List.Forall₂ FatLine ["-----aD        13706       2016 Aug 04 input.ovf".toList, "Listed 1 entry".toList, []]
    [some "input.ovf".toList, none, none] := by
  have w : ∀ {w r s : Str} {ws : List Str}, (∀ c ∈ s, isWs c = true) → w ≠ [] → (∀ c ∈ w, isWs c = false) → Columns ws r →
      Columns (w :: ws) (s ++ w ++ ' ' :: r) := fun h1 h2 h3 h4 => .word h1 h2 h3 (by decide) h4
  refine .cons (.file (attrs := "-----aD".toList) (size := "13706".toList) (year := "2016".toList) (month := "Aug".toList)
    (day := "04".toList) ?_ (by decide)) (.cons (FatLine.total (l := " 1 entry".toList)) (.cons (.blank (by simp)) .nil))
  exact w (s := []) (by decide) (by decide) (by decide) (w (s := "       ".toList) (by decide) (by decide) (by decide)
    (w (s := "      ".toList) (by decide) (by decide) (by decide) (w (s := []) (by decide) (by decide) (by decide)
      (w (s := []) (by decide) (by decide) (by decide) (.last (s := []) (by decide) (by decide) (by decide))))))

/-- the listing of iso.py:61-64 -/
example : List.Forall₂ (IsoLine false) ["Setting input-charset to 'UTF-8'".toList, "/IOSXR_CONFIG.TXT;1".toList, "/SUB".toList, []]
    [none, some "iosxr_config.txt".toList, some "SUB".toList, none] ∧ ¬ FoundRockRidge "NO Rock Ridge present".toList := by
  refine ⟨.cons (.other (by intro p h; cases h)) (.cons ?_ (.cons (.directory (by decide)) (.cons (.other (by intro p h; cases h)) .nil))), ?_⟩
  · exact IsoLine.file (p := "IOSXR_CONFIG.TXT".toList) (by decide)
  · rintro ⟨a, b, c, h, -⟩
    have : 'u' ∈ "NO Rock Ridge present".toList := by rw [h]; simp
    exact absurd this (by decide)

/-- The full claim would be that every file in the image is reported by its name.  **C114 fails** for names with blanks on
raw images, of which only the first word is reported, ... -/
theorem C114_blank_fails : rawFiles "-----aD 5 2016 Aug 04 my config.txt\nListed 1 entry\n".toList = ["my".toList] := by decide +kernel

/-- ... and for names with capital letters on ISO images without Rock Ridge, even for images that COT makes itself (which
keep lower case letters, iso.py:99-100), so that two files can get the same name. -/
theorem C114_case_fails : isoContents "NO Rock Ridge present".toList "/Config.txt;1\n/config.txt;1\n".toList =
    ["config.txt".toList, "config.txt".toList] := by decide +kernel

end Cot
