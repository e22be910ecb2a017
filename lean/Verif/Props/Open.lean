import Verif.Lemmas.OpenCheck
/-
C75: what the user is told when a package is opened.
-/
namespace Cot

variable {l : Lib}

theorem manifestIs_iff {w : Fs} {path base : Str} (hcl : Clear w path) {b : List UInt8} {t : Str}
    (hb : HoldsFile w path (pathRoot base ++ ".mf".toList) b) (ht : l.dec b = some t) {ls : List Str} :
    ManifestIs l w path base ls ↔ ls = splitOnChar '\n' t := by
  constructor
  · rintro ⟨b', t', h1, h2, h3⟩
    have := HoldsFile.unique hcl hb h1
    subst this
    rw [ht] at h2
    cases h2
    exact (linesOf_split h3).symm
  · rintro rfl
    exact ⟨b, t, hb, ht, linesOf_any t⟩

theorem lists_iff {w : Fs} {path base : Str} (hcl : Clear w path) {b : List UInt8} {t : Str}
    (hb : HoldsFile w path (pathRoot base ++ ".mf".toList) b) (ht : l.dec b = some t) {n s : Str} :
    Lists l w path base n s ↔ ∃ a, dget? (parseManifest t) n = some (a, s) := by
  unfold Lists
  simp only [manifestIs_iff hcl hb ht]
  constructor
  · rintro ⟨pre, line, post, a, h1, h2⟩
    exact ⟨a, (C24_parse_manifest (linesOf_any t) n a s).2 ⟨pre, line, post, h1.symm, h2⟩⟩
  · rintro ⟨a, h⟩
    obtain ⟨pre, line, post, h1, h2⟩ := (C24_parse_manifest (linesOf_any t) n a s).1 h
    exact ⟨pre, line, post, a, h1.symm, h2⟩

/-- what `openFiles` works with: the lines of the manifest and what they say -/
theorem openFiles_parts {digest : Str → List UInt8 → Except Err Str} {w : Fs} {v : Ver} {input descriptor : Str}
    {refs : Elem} {fs : List (Str × FRef)} {cs : List Complaint}
    (hp : Place w (inputPath w input descriptor)) (hcl : Clear w (inputPath w input descriptor))
    (h : openFiles l digest w v input descriptor refs = .ok (fs, cs)) :
    ∃ (mf : List (Str × Str × Str)) (bad : List Str) (d : FRef × List FWarn) (cs' : List Complaint),
      (∀ n s, Lists l w (inputPath w input descriptor) (pathBase descriptor) n s ↔ (dget? mf n).map Prod.snd = some s) ∧
      (∀ x, x ∈ bad ↔ (∃ ls, ManifestIs l w (inputPath w input descriptor) (pathBase descriptor) ls ∧ x ∈ ls) ∧ x ≠ [] ∧
        ∀ a n s, ¬ IsManifestLine x a n s) ∧
      FRef.create digest w (inputPath w input descriptor) (pathBase descriptor) (some (checksumAlgo v))
        ((dget? mf (pathBase descriptor)).map Prod.snd) none = .ok d ∧
      checkFiles digest w (checksumAlgo v) (inputPath w input descriptor) mf (describedFiles v refs) = .ok (fs, cs') ∧
      cs = bad.map Complaint.badLine ++ compareLists (pathBase descriptor) (dkeys (describedFiles v refs)) (dkeys mf) ++
        d.2.map (Complaint.differs (pathBase descriptor)) ++ cs' := by
  unfold openFiles at h
  generalize inputPath w input descriptor = path at *
  simp only [bind, Except.bind] at h
  have fin : ∀ (text : Option Str), readManifest l digest w path (pathRoot (pathBase descriptor) ++ ".mf".toList) = .ok text →
      ∃ d cs', FRef.create digest w path (pathBase descriptor) (some (checksumAlgo v))
          ((dget? ((text.map parseManifest).getD []) (pathBase descriptor)).map Prod.snd) none = .ok d ∧
        checkFiles digest w (checksumAlgo v) path ((text.map parseManifest).getD []) (describedFiles v refs) = .ok (fs, cs') ∧
        cs = ((text.map badLines).getD []).map Complaint.badLine ++
          compareLists (pathBase descriptor) (dkeys (describedFiles v refs)) (dkeys ((text.map parseManifest).getD [])) ++
          d.2.map (Complaint.differs (pathBase descriptor)) ++ cs' := by
    intro text ht
    rw [ht] at h
    simp only at h
    cases hd : FRef.create digest w path (pathBase descriptor) (some (checksumAlgo v))
        ((dget? ((text.map parseManifest).getD []) (pathBase descriptor)).map Prod.snd) none with
    | error e => rw [hd] at h; cases h
    | ok d =>
      rw [hd] at h
      simp only at h
      cases hc : checkFiles digest w (checksumAlgo v) path ((text.map parseManifest).getD []) (describedFiles v refs) with
      | error e => rw [hc] at h; cases h
      | ok x =>
        rw [hc] at h
        cases h
        exact ⟨d, x.2, rfl, rfl, rfl⟩
  rcases readManifest_cases (l := l) (digest := digest) (n := pathRoot (pathBase descriptor) ++ ".mf".toList) hp hcl with
    ⟨h1, h2⟩ | ⟨b, h1, h2⟩
  · obtain ⟨d, cs', e1, e2, e3⟩ := fin none h2
    refine ⟨_, _, d, cs', ?_, ?_, e1, e2, e3⟩
    · intro n s
      simp only [Option.map_none, Option.getD_none, dget?_nil, reduceCtorEq, iff_false]
      rintro ⟨pre, line, post, a, ⟨b, t, hb, -⟩, -⟩
      exact h1 ⟨b, hb⟩
    · intro x
      simp only [Option.map_none, Option.getD_none, List.not_mem_nil, false_iff]
      rintro ⟨⟨ls, ⟨b, t, hb, -⟩, -⟩, -⟩
      exact h1 ⟨b, hb⟩
  · cases ht : l.dec b with
    | none =>
      rw [ht] at h2
      simp only at h2
      rw [h2] at h
      cases h
    | some t =>
      rw [ht] at h2
      obtain ⟨d, cs', e1, e2, e3⟩ := fin (some t) h2
      refine ⟨_, _, d, cs', ?_, ?_, e1, e2, e3⟩
      · intro n s
        rw [lists_iff hcl h1 ht]
        simp only [Option.map_some, Option.getD_some]
        cases dget? (parseManifest t) n with
        | none => simp
        | some y => obtain ⟨a, s'⟩ := y; simp
      · intro x
        simp only [Option.map_some, Option.getD_some, mem_badLines, manifestIs_iff hcl h1 ht, exists_eq_left]

theorem checkFiles_no_value {digest : Str → List UInt8 → Except Err Str} {w : Fs} {algo path : Str}
    {mf : List (Str × Str × Str)} : ∀ {d : List (Option Str × Option Str)} {x : List (Str × FRef) × List Complaint},
    checkFiles digest w algo path mf d = .ok x → ∀ {h : Str} {size : Option Str}, (some h, size) ∈ d →
    FRef.create digest w path h (some algo) ((dget? mf h).map Prod.snd) size ≠ .error .valueError
  | (none, _) :: t, x, h, _, _, _, _ => by
    unfold checkFiles at h
    cases h
  | (some k, size) :: t, x, h, k', size', hm, he => by
    unfold checkFiles at h
    rcases List.mem_cons.1 hm with hm | hm
    · cases hm
      rw [he] at h
      cases h
    · have : ∃ y, checkFiles digest w algo path mf t = .ok y := by
        cases hr : checkFiles digest w algo path mf t with
        | ok y => exact ⟨y, rfl⟩
        | error e =>
          rw [hr] at h
          split at h <;> cases h
      obtain ⟨y, hy⟩ := this
      exact checkFiles_no_value hy hm he

theorem place_of_create {digest : Str → List UInt8 → Except Err Str} {w : Fs} {path n : Str} {a c s : Option Str}
    {x : FRef × List FWarn} (ha : path.head? = some '/') (h : FRef.create digest w path n a c s = .ok x) : Place w path := by
  refine ⟨ha, ?_⟩
  have hm : makeAbs w path = path := by unfold makeAbs; rw [if_pos ha]
  unfold FRef.create at h
  simp only [hm] at h
  split at h
  · rename_i h1; exact Or.inl h1
  · split at h
    · rename_i h1
      split at h
      · rename_i h2; exact Or.inr ⟨h1, h2⟩
      · cases h
    · cases h

theorem openFiles_place {digest : Str → List UInt8 → Except Err Str} {w : Fs} {v : Ver} {input descriptor : Str}
    {refs : Elem} {x : List (Str × FRef) × List Complaint} (ha : (inputPath w input descriptor).head? = some '/')
    (h : openFiles l digest w v input descriptor refs = .ok x) : Place w (inputPath w input descriptor) := by
  unfold openFiles at h
  generalize inputPath w input descriptor = path at *
  simp only [bind, Except.bind] at h
  split at h
  · cases h
  · split at h
    · cases h
    · rename_i hd
      exact place_of_create ha hd

/-- **C75.** Whenever a package is opened, the user is told, and told only:
that a file of the References section does not exist; that the content of the descriptor or of a file does not have the
checksum that the manifest gives it; that a file does not have the size that its entry gives it; that the manifest lists a
file that is not part of the package; if the manifest lists anything, that it does not list a file of the package or the
descriptor; and which lines of the manifest make no sense. -/
theorem C75_complaints {digest : Str → List UInt8 → Except Err Str} {sum : List UInt8 → Str} {w : Fs} {v : Ver}
    {input descriptor path base : Str} {refs : Elem} {fs : List (Str × FRef)} {cs : List Complaint}
    (hd : ∀ b, digest (checksumAlgo v) b = .ok (sum b))
    (hpath : path = inputPath w input descriptor) (habs : path.head? = some '/') (hbase : base = pathBase descriptor)
    (hcl : Clear w path) (h : openFiles l digest w v input descriptor refs = .ok (fs, cs)) (x : Complaint) :
    x ∈ cs ↔ match x with
      | .missing n => n ∈ namedFiles v refs ∧ ¬ ∃ b, HoldsFile w path n b
      | .differs n .checksum => (n = base ∨ n ∈ namedFiles v refs) ∧
          ∃ b s, HoldsFile w path n b ∧ Lists l w path base n s ∧ sum b ≠ s
      | .differs n .size => ∃ b s, HoldsFile w path n b ∧ SaysSize v refs n (some s) ∧ pyInt s ≠ some (b.length : Int)
      | .extra n => (∃ s, Lists l w path base n s) ∧ n ≠ base ∧ n ∉ namedFiles v refs
      | .unlisted n => ∃ k, n = some k ∧ k ∈ namedFiles v refs ∧ (¬ ∃ s, Lists l w path base k s) ∧
          ∃ k' s, Lists l w path base k' s
      | .noDescriptor => (¬ ∃ s, Lists l w path base base s) ∧ ∃ k s, Lists l w path base k s
      | .badLine y => (∃ ls, ManifestIs l w path base ls ∧ y ∈ ls) ∧ y ≠ [] ∧ ∀ a n s, ¬ IsManifestLine y a n s := by
  subst hpath hbase
  have hp : Place w (inputPath w input descriptor) := openFiles_place habs h
  obtain ⟨mf, bad, d, cs', m1, m2, e1, e2, rfl⟩ := openFiles_parts hp hcl h
  generalize inputPath w input descriptor = path at *
  obtain ⟨c1, c2, c3⟩ := checkFiles_exact e2
  have hkeys : ∀ k, k ∈ dkeys mf ↔ ∃ s, Lists l w path (pathBase descriptor) k s := by
    intro k
    simp only [m1]
    constructor
    · intro hk
      cases hg : dget? mf k with
      | none => exact absurd hk (dget?_eq_none.1 hg)
      | some y => exact ⟨y.2, rfl⟩
    · rintro ⟨s, hs⟩
      by_contra hk
      rw [dget?_eq_none.2 hk] at hs
      cases hs
  have hne : dkeys mf = [] ↔ ¬ ∃ k s, Lists l w path (pathBase descriptor) k s := by
    constructor
    · rintro he ⟨k, hk⟩
      have := (hkeys k).2 hk
      rw [he] at this
      cases this
    · intro hn
      rw [List.eq_nil_iff_forall_not_mem]
      intro k hk
      exact hn ⟨k, (hkeys k).1 hk⟩
  have hcmp : x ∈ compareLists (pathBase descriptor) (dkeys (describedFiles v refs)) (dkeys mf) ↔
      (∃ k s, Lists l w path (pathBase descriptor) k s) ∧
      ((∃ n, x = .extra n ∧ (∃ s, Lists l w path (pathBase descriptor) n s) ∧ n ≠ pathBase descriptor ∧ n ∉ namedFiles v refs) ∨
       (∃ n, x = .unlisted (some n) ∧ n ∈ namedFiles v refs ∧ ¬ ∃ s, Lists l w path (pathBase descriptor) n s) ∨
       (x = .noDescriptor ∧ ¬ ∃ s, Lists l w path (pathBase descriptor) (pathBase descriptor) s)) := by
    unfold compareLists
    by_cases he : dkeys mf = []
    · rw [if_pos he]
      simp only [List.not_mem_nil, false_iff]
      exact fun hh => hne.1 he hh.1
    · rw [if_neg he]
      have hsome := not_not.1 (fun hn => he (hne.2 hn))
      simp only [List.mem_append, List.mem_map, List.mem_filter, Bool.and_eq_true, decide_eq_true_eq]
      simp only [hsome, true_and]
      constructor
      · rintro ((⟨n, ⟨h1, h2, h3⟩, rfl⟩ | ⟨n, ⟨h1, h2⟩, rfl⟩) | h1)
        · exact Or.inl ⟨n, rfl, (hkeys n).1 h1, h2, fun hh => h3 (mem_described.2 hh)⟩
        · cases n with
          | none => exact absurd h1 c3
          | some n =>
            refine Or.inr (Or.inl ⟨n, rfl, mem_described.1 h1, fun hh => h2 ?_⟩)
            exact ⟨n, (hkeys n).2 hh, rfl⟩
        · split at h1
          · cases h1
          · rename_i hb
            exact Or.inr (Or.inr ⟨List.mem_singleton.1 h1, fun hh => hb ((hkeys _).2 hh)⟩)
      · rintro (⟨n, rfl, h1, h2, h3⟩ | ⟨n, rfl, h1, h2⟩ | ⟨rfl, h1⟩)
        · exact Or.inl (Or.inl ⟨n, ⟨(hkeys n).2 h1, h2, fun hh => h3 (mem_described.1 hh)⟩, rfl⟩)
        · refine Or.inl (Or.inr ⟨some n, ⟨mem_described.2 h1, ?_⟩, rfl⟩)
          rintro ⟨k, hk, hh⟩
          cases hh
          exact h2 ((hkeys n).1 hk)
        · rw [if_neg (fun hh => h1 ((hkeys _).1 hh))]
          exact Or.inr (by simp)
  have hdesc : ∃ b, HoldsFile w path (pathBase descriptor) b ∧ (FWarn.checksum ∈ d.2 ↔
      ∃ s, Lists l w path (pathBase descriptor) (pathBase descriptor) s ∧ s ≠ sum b) ∧ FWarn.size ∉ d.2 := by
    rcases create_checked hd (h := pathBase descriptor) hp hcl ((dget? mf (pathBase descriptor)).map Prod.snd) none with
      ⟨-, g⟩ | ⟨b, g1, ⟨⟨s, g2, -⟩, -⟩ | ⟨-, r, ws, g2, -, g3, g4⟩⟩
    · rw [e1] at g; cases g
    · cases g2
    · rw [e1] at g2
      cases g2
      refine ⟨b, g1, ?_, ?_⟩
      · rw [g3]; simp only [m1]
      · rw [g4]; rintro ⟨s, hs, -⟩; cases hs
  -- one file
  have hfile : x ∈ cs' ↔ (∃ n, x = .missing n ∧ n ∈ namedFiles v refs ∧ ¬ ∃ b, HoldsFile w path n b) ∨
      (∃ n, x = .differs n .checksum ∧ n ∈ namedFiles v refs ∧
        ∃ b s, HoldsFile w path n b ∧ Lists l w path (pathBase descriptor) n s ∧ sum b ≠ s) ∨
      (∃ n, x = .differs n .size ∧ ∃ b s, HoldsFile w path n b ∧ SaysSize v refs n (some s) ∧ pyInt s ≠ some (b.length : Int)) := by
    rw [c1]
    constructor
    · rintro ⟨n, size, h1, ⟨rfl, h2⟩ | ⟨r, ws, y, h2, h3, rfl⟩⟩
      · refine Or.inl ⟨n, rfl, mem_described.1 (mem_dkeys.2 ⟨_, h1⟩), ?_⟩
        rcases create_checked hd (h := n) hp hcl ((dget? mf n).map Prod.snd) size with
          ⟨g, -⟩ | ⟨b, g1, ⟨-, g2⟩ | ⟨-, r, ws, g2, -⟩⟩
        · exact g
        · rw [h2] at g2; cases g2
        · rw [h2] at g2; cases g2
      · rcases create_checked hd (h := n) hp hcl ((dget? mf n).map Prod.snd) size with
          ⟨-, g⟩ | ⟨b, g1, ⟨-, g2⟩ | ⟨-, r', ws', g2, -, g3, g4⟩⟩
        · rw [h2] at g; cases g
        · rw [h2] at g2; cases g2
        · rw [h2] at g2
          cases g2
          cases y with
          | checksum =>
            obtain ⟨s, g5, g6⟩ := g3.1 h3
            exact Or.inr (Or.inl ⟨n, rfl, mem_described.1 (mem_dkeys.2 ⟨_, h1⟩), b, s, g1, (m1 n s).2 g5, Ne.symm g6⟩)
          | size =>
            obtain ⟨s, rfl, g6⟩ := g4.1 h3
            exact Or.inr (Or.inr ⟨n, rfl, b, s, g1, describedFiles_get.1 h1, g6⟩)
    · have look : ∀ n size, (some n, size) ∈ describedFiles v refs → ∀ b, HoldsFile w path n b →
          ∃ r ws, FRef.create digest w path n (some (checksumAlgo v)) ((dget? mf n).map Prod.snd) size = .ok (r, ws) ∧
            (FWarn.checksum ∈ ws ↔ ∃ s, (dget? mf n).map Prod.snd = some s ∧ s ≠ sum b) ∧
            (FWarn.size ∈ ws ↔ ∃ s, size = some s ∧ pyInt s ≠ some (b.length : Int)) := by
        intro n size hn b hb
        rcases create_checked hd (h := n) hp hcl ((dget? mf n).map Prod.snd) size with
          ⟨g, -⟩ | ⟨b', g1, ⟨-, g2⟩ | ⟨-, r', ws', g2, -, g3, g4⟩⟩
        · exact absurd ⟨b, hb⟩ g
        · exact absurd g2 (checkFiles_no_value e2 hn)
        · have := HoldsFile.unique hcl hb g1
          subst this
          exact ⟨r', ws', g2, g3, g4⟩
      rintro (⟨n, rfl, h1, h2⟩ | ⟨n, rfl, h1, b, s, h2, h3, h4⟩ | ⟨n, rfl, b, s, h2, h3, h4⟩)
      · obtain ⟨size, hs⟩ := mem_dkeys.1 (mem_described.2 h1)
        refine ⟨n, size, hs, Or.inl ⟨rfl, ?_⟩⟩
        rcases create_checked hd (h := n) hp hcl ((dget? mf n).map Prod.snd) size with ⟨-, g⟩ | ⟨b, g, -⟩
        · exact g
        · exact absurd ⟨b, g⟩ h2
      · obtain ⟨size, hs⟩ := mem_dkeys.1 (mem_described.2 h1)
        obtain ⟨r, ws, g1, g2, -⟩ := look n size hs b h2
        exact ⟨n, size, hs, Or.inr ⟨r, ws, .checksum, g1, g2.2 ⟨s, (m1 n s).1 h3, Ne.symm h4⟩, rfl⟩⟩
      · have hs := describedFiles_get.2 h3
        obtain ⟨r, ws, g1, -, g2⟩ := look n (some s) hs b h2
        exact ⟨n, some s, hs, Or.inr ⟨r, ws, .size, g1, g2.2 ⟨s, rfl, h4⟩, rfl⟩⟩
  obtain ⟨bd, hbd, hd1, hd2⟩ := hdesc
  rw [List.mem_append, List.mem_append, List.mem_append, hcmp, hfile, List.mem_map, List.mem_map]
  cases x with
  | missing n => simp
  | extra n => 
    simp
    intro s hs _ _
    exact ⟨_, _, hs⟩
  | unlisted n =>
    constructor
    · rintro (((⟨_, _, h⟩ | ⟨h1, ⟨_, h, _⟩ | ⟨n, h, h2, h3⟩ | ⟨h, _⟩⟩) | ⟨_, _, h⟩) | ⟨_, h, _⟩ | ⟨_, h, _⟩ | ⟨_, h, _⟩)
      all_goals cases h
      exact ⟨n, rfl, h2, h3, h1⟩
    · rintro ⟨k, rfl, h1, h2, h3⟩
      exact Or.inl (Or.inl (Or.inr ⟨h3, Or.inr (Or.inl ⟨k, rfl, h1, h2⟩)⟩))
  | noDescriptor => simp [and_comm]
  | badLine y => simp [m2]
  | differs n y =>
    cases y with
    | checksum =>
      constructor
      · rintro (((⟨_, _, h⟩ | ⟨_, ⟨_, h, _⟩ | ⟨n, h, _⟩ | ⟨h, _⟩⟩) | ⟨_, h1, h⟩) | ⟨_, h, _⟩ | ⟨_, h, h1, h2⟩ | ⟨_, h, _⟩)
        all_goals cases h
        · obtain ⟨s, h2, h3⟩ := hd1.1 h1
          exact ⟨Or.inl rfl, bd, s, hbd, h2, Ne.symm h3⟩
        · exact ⟨Or.inr h1, h2⟩
      · rintro ⟨rfl | h1, b, s, h2, h3, h4⟩
        · have := HoldsFile.unique hcl hbd h2
          subst this
          exact Or.inl (Or.inr ⟨_, hd1.2 ⟨s, h3, Ne.symm h4⟩, rfl⟩)
        · exact Or.inr (Or.inr (Or.inl ⟨n, rfl, h1, b, s, h2, h3, h4⟩))
    | size =>
      simp [hd2]

/-- **C75, silence.** The user is told nothing exactly if every file of the package exists, sizes and checksums are as
stated, and the manifest, unless it lists nothing, lists the descriptor and the files of the package and nothing else. -/
theorem C75_silent_partial {digest : Str → List UInt8 → Except Err Str} {sum : List UInt8 → Str} {w : Fs} {v : Ver}
    {input descriptor path base : Str} {refs : Elem} {fs : List (Str × FRef)} {cs : List Complaint}
    (hd : ∀ b, digest (checksumAlgo v) b = .ok (sum b))
    (hpath : path = inputPath w input descriptor) (habs : path.head? = some '/') (hbase : base = pathBase descriptor)
    (hcl : Clear w path) (h : openFiles l digest w v input descriptor refs = .ok (fs, cs)) :
    cs = [] ↔
      (∀ n ∈ namedFiles v refs, ∃ b, HoldsFile w path n b) ∧
      (∀ n b s, HoldsFile w path n b → SaysSize v refs n (some s) → pyInt s = some (b.length : Int)) ∧
      (∀ n b s, n = base ∨ n ∈ namedFiles v refs → HoldsFile w path n b → Lists l w path base n s → sum b = s) ∧
      ((∃ k s, Lists l w path base k s) → ∀ n, (∃ s, Lists l w path base n s) ↔ n = base ∨ n ∈ namedFiles v refs) ∧
      (∀ ls, ManifestIs l w path base ls → ∀ y ∈ ls, y = [] ∨ ∃ a n s, IsManifestLine y a n s) := by
  have H := C75_complaints hd hpath habs hbase hcl h
  constructor
  · rintro rfl
    refine ⟨fun n hn => ?_, fun n b s h1 h2 => ?_, fun n b s h1 h2 h3 => ?_, fun hk n => ⟨fun hn => ?_, fun hn => ?_⟩,
      fun ls h1 y hy => ?_⟩
    · by_contra hb
      exact absurd ((H (.missing n)).2 ⟨hn, hb⟩) (by simp)
    · by_contra hb
      exact absurd ((H (.differs n .size)).2 ⟨b, s, h1, h2, hb⟩) (by simp)
    · by_contra hb
      exact absurd ((H (.differs n .checksum)).2 ⟨h1, b, s, h2, h3, hb⟩) (by simp)
    · by_contra hb
      simp only [not_or] at hb
      exact absurd ((H (.extra n)).2 ⟨hn, hb.1, hb.2⟩) (by simp)
    · by_contra hb
      rcases hn with rfl | hn
      · exact absurd ((H .noDescriptor).2 ⟨hb, hk⟩) (by simp)
      · exact absurd ((H (.unlisted (some n))).2 ⟨n, rfl, hn, hb, hk⟩) (by simp)
    · by_contra hb
      simp only [not_or] at hb
      exact absurd ((H (.badLine y)).2 ⟨⟨ls, h1, hy⟩, hb.1, fun a n s hh => hb.2 ⟨a, n, s, hh⟩⟩) (by simp)
  · rintro ⟨h1, h2, h3, h4, h5⟩
    rw [List.eq_nil_iff_forall_not_mem]
    intro x hx
    have hx := (H x).1 hx
    cases x with
    | missing n => exact hx.2 (h1 n hx.1)
    | extra n =>
      obtain ⟨⟨s, hs⟩, g1, g2⟩ := hx
      rcases (h4 ⟨n, s, hs⟩ n).1 ⟨s, hs⟩ with g | g
      · exact g1 g
      · exact g2 g
    | unlisted n =>
      obtain ⟨k, -, g1, g2, g3⟩ := hx
      exact g2 ((h4 g3 k).2 (Or.inr g1))
    | noDescriptor => exact hx.1 ((h4 hx.2 base).2 (Or.inl rfl))
    | badLine y =>
      obtain ⟨⟨ls, g1, g2⟩, g3, g4⟩ := hx
      rcases h5 ls g1 y g2 with g | ⟨a, n, s, g⟩
      · exact g3 g
      · exact g4 a n s g
    | differs n y =>
      cases y with
      | checksum =>
        obtain ⟨g1, b, s, g2, g3, g4⟩ := hx
        exact g4 (h3 n b s g1 g2 g3)
      | size =>
        obtain ⟨b, s, g2, g3, g4⟩ := hx
        exact g4 (h2 n b s g2 g3)

/-- **C75, what is remembered.** After opening, the package knows exactly those files of the References section that
exist, and each is read with the content that was found. -/
theorem C75_files {digest : Str → List UInt8 → Except Err Str} {sum : List UInt8 → Str} {w : Fs} {v : Ver}
    {input descriptor path : Str} {refs : Elem} {fs : List (Str × FRef)} {cs : List Complaint}
    (hd : ∀ b, digest (checksumAlgo v) b = .ok (sum b))
    (hpath : path = inputPath w input descriptor) (habs : path.head? = some '/')
    (hcl : Clear w path) (h : openFiles l digest w v input descriptor refs = .ok (fs, cs)) (n : Str) :
    (n ∈ dkeys fs ↔ n ∈ namedFiles v refs ∧ ∃ b, HoldsFile w path n b) ∧
    ∀ r, (n, r) ∈ fs → ∀ b, HoldsFile w path n b → r.content w = .ok b := by
  subst hpath
  have hp := openFiles_place habs h
  obtain ⟨mf, bad, d, cs', m1, m2, e1, e2, -⟩ := openFiles_parts hp hcl h
  generalize inputPath w input descriptor = path at *
  obtain ⟨c1, c2, c3⟩ := checkFiles_exact e2
  refine ⟨⟨fun hn => ?_, ?_⟩, fun r hr b hb => ?_⟩
  · obtain ⟨r, hr⟩ := mem_dkeys.1 hn
    obtain ⟨size, ws, g1, g2⟩ := (c2 n r).1 hr
    refine ⟨mem_described.1 (mem_dkeys.2 ⟨_, g1⟩), ?_⟩
    rcases create_checked hd (h := n) hp hcl ((dget? mf n).map Prod.snd) size with ⟨-, g⟩ | ⟨b, g, -⟩
    · rw [g2] at g; cases g
    · exact ⟨b, g⟩
  · rintro ⟨hn, b, hb⟩
    obtain ⟨size, hs⟩ := mem_dkeys.1 (mem_described.2 hn)
    rcases create_checked hd (h := n) hp hcl ((dget? mf n).map Prod.snd) size with
      ⟨g, -⟩ | ⟨b', g1, ⟨-, g2⟩ | ⟨-, r', ws', g2, -⟩⟩
    · exact absurd ⟨b, hb⟩ g
    · exact absurd g2 (checkFiles_no_value e2 hs)
    · exact mem_dkeys.2 ⟨r', (c2 n r').2 ⟨size, ws', hs, g2⟩⟩
  · obtain ⟨size, ws, g1, g2⟩ := (c2 n r).1 hr
    rcases create_checked hd (h := n) hp hcl ((dget? mf n).map Prod.snd) size with
      ⟨g, -⟩ | ⟨b', f1, ⟨-, f2⟩ | ⟨-, r', ws', f2, f3, -⟩⟩
    · exact absurd ⟨b, hb⟩ g
    · rw [g2] at f2; cases f2
    · rw [g2] at f2
      cases f2
      have := HoldsFile.unique hcl hb f1
      subst this
      exact f3

theorem HoldsFile.place {w : Fs} {path n : Str} {b : List UInt8} (ha : path.head? = some '/') (h : HoldsFile w path n b) :
    Place w path := by
  refine ⟨ha, ?_⟩
  cases h with
  | disk d _ => exact Or.inl d
  | tar _ f t => exact Or.inr ⟨f, by rw [t]; rfl⟩

/-- **C75, success.** Opening gets through exactly if the descriptor is where it belongs, the manifest, if there is one,
is text, every File entry has a name, and the stated sizes of existing files are numbers.  Damaged and missing files do
not prevent it. -/
theorem C75_opens {digest : Str → List UInt8 → Except Err Str} {sum : List UInt8 → Str} {w : Fs} {v : Ver}
    {input descriptor path base : Str} {refs : Elem} (hd : ∀ b, digest (checksumAlgo v) b = .ok (sum b))
    (hpath : path = inputPath w input descriptor) (habs : path.head? = some '/') (hbase : base = pathBase descriptor)
    (hcl : Clear w path) :
    (∃ x, openFiles l digest w v input descriptor refs = .ok x) ↔
      (∃ b, HoldsFile w path base b) ∧ (∀ b, HoldsFile w path (pathRoot base ++ ".mf".toList) b → l.dec b ≠ none) ∧
      (∀ e ∈ refs.children, e.tag = fileTag v → e.get (fileHref v) ≠ none) ∧
      (∀ n b s, HoldsFile w path n b → SaysSize v refs n (some s) → pyInt s ≠ none) := by
  subst hpath hbase
  constructor
  · rintro ⟨⟨fs, cs⟩, h⟩
    have hp := openFiles_place habs h
    obtain ⟨mf, bad, d, cs', m1, m2, e1, e2, -⟩ := openFiles_parts hp hcl h
    obtain ⟨c1, c2, c3⟩ := checkFiles_exact e2
    refine ⟨?_, ?_, ?_, ?_⟩
    · rcases create_checked hd (h := pathBase descriptor) hp hcl ((dget? mf (pathBase descriptor)).map Prod.snd) none with
        ⟨-, g⟩ | ⟨b, g, -⟩
      · rw [e1] at g; cases g
      · exact ⟨b, g⟩
    · intro b hb hn
      unfold openFiles at h
      simp only [bind, Except.bind] at h
      rcases readManifest_cases (l := l) (digest := digest) (n := pathRoot (pathBase descriptor) ++ ".mf".toList) hp hcl with
        ⟨h1, h2⟩ | ⟨b', h1, h2⟩
      · exact h1 ⟨b, hb⟩
      · have := HoldsFile.unique hcl hb h1
        subst this
        rw [hn] at h2
        simp only at h2
        rw [h2] at h
        cases h
    · intro e he ht hn
      exact c3 (none_described.2 ⟨e, he, ht, hn⟩)
    · intro n b s hb hs hi
      have hs' := describedFiles_get.2 hs
      rcases create_checked hd (h := n) hp hcl ((dget? mf n).map Prod.snd) (some s) with
        ⟨g, -⟩ | ⟨b', -, ⟨-, f2⟩ | ⟨f1, -⟩⟩
      · exact g ⟨b, hb⟩
      · exact checkFiles_no_value e2 hs' f2
      · exact f1 s rfl hi
  · rintro ⟨⟨b, hb⟩, h2, h3, h4⟩
    have hp := hb.place habs
    have hm : ∃ t, readManifest l digest w (inputPath w input descriptor) (pathRoot (pathBase descriptor) ++ ".mf".toList) =
        .ok t := by
      rcases readManifest_cases (l := l) (digest := digest) (n := pathRoot (pathBase descriptor) ++ ".mf".toList) hp hcl with
        ⟨-, g⟩ | ⟨b', g1, g2⟩
      · exact ⟨_, g⟩
      · cases ht : l.dec b' with
        | none => exact absurd ht (h2 b' g1)
        | some t => rw [ht] at g2; exact ⟨_, g2⟩
    obtain ⟨t, ht⟩ := hm
    unfold openFiles
    generalize inputPath w input descriptor = path at *
    simp only [bind, Except.bind, ht]
    have h5 : ∃ d, FRef.create digest w path (pathBase descriptor) (some (checksumAlgo v))
        ((dget? ((t.map parseManifest).getD []) (pathBase descriptor)).map Prod.snd) none = .ok d := by
      rcases create_checked hd (h := pathBase descriptor) hp hcl
        ((dget? ((t.map parseManifest).getD []) (pathBase descriptor)).map Prod.snd) none with
        ⟨g, -⟩ | ⟨b', -, ⟨⟨s, f1, -⟩, -⟩ | ⟨-, r, ws, f1, -⟩⟩
      · exact absurd ⟨b, hb⟩ g
      · cases f1
      · exact ⟨_, f1⟩
    obtain ⟨d, hd'⟩ := h5
    simp only [hd']
    obtain ⟨x, hx⟩ := checkFiles_succeeds (digest := digest) (w := w) (algo := checksumAlgo v) (path := path)
      (mf := (t.map parseManifest).getD []) (d := describedFiles v refs)
      (fun hn => by
        obtain ⟨e, g1, g2, g3⟩ := none_described.1 hn
        exact h3 e g1 g2 g3)
      (fun n size hs => by
        rcases create_checked hd (h := n) hp hcl ((dget? ((t.map parseManifest).getD []) n).map Prod.snd) size with
          ⟨-, g⟩ | ⟨b', g, ⟨⟨s, rfl, f2⟩, -⟩ | ⟨-, r, ws, f1, -⟩⟩
        · exact Or.inl g
        · exact absurd f2 (h4 n b' s g (describedFiles_get.1 hs))
        · exact Or.inr ⟨_, f1⟩)
    simp only [hx]
    exact ⟨_, rfl⟩

end Cot
