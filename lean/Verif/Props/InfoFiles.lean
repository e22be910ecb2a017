import Verif.Lemmas.Info
import Verif.Lemmas.Package
import Verif.Props.InfoProfiles
import Verif.Props.InjectConfigCases
/-
C90: what `cot info` tells about files and disks.
-/
namespace Cot

theorem positions_entries (f : Elem → Bool) : ∀ (l : List Elem) (n : Nat),
    List.Forall₂ (fun i e => ∃ j, i = n + j ∧ l[j]? = some e) (positions f l n) (l.filter f) := by
  intro l
  induction l with
  | nil => intro n; exact .nil
  | cons a r ih =>
    intro n
    have h := (ih (n + 1)).imp (S := fun i e => ∃ j, i = n + j ∧ (a :: r)[j]? = some e) (by
      rintro i e ⟨j, rfl, hj⟩
      exact ⟨j + 1, by omega, by simpa using hj⟩)
    unfold positions
    by_cases ha : f a = true
    · rw [if_pos ha, List.filter_cons_of_pos ha]
      exact .cons ⟨0, rfl, rfl⟩ h
    · rw [if_neg ha, List.filter_cons_of_neg ha]
      exact h

theorem positions_at (f : Elem → Bool) (l : List Elem) :
    List.Forall₂ (fun i e => l[i]? = some e) (positions f l 0) (l.filter f) :=
  (positions_entries f l 0).imp (by rintro i e ⟨j, rfl, h⟩; simpa using h)

theorem attrOf_at {cs : List Elem} {i : Nat} {e : Elem} (h : cs[i]? = some e) (key : Str) : attrOf cs i key = e.get key := by
  simp [attrOf, h]

theorem resMap_codes : (resMap.map Prod.snd).Nodup := by decide +kernel

theorem hardwareType_spec {env : Env} {it : Item} (wf : ItemWF env it) : TypeName it (it.hardwareType env) := by
  unfold Item.hardwareType
  cases hr : it.getRaw resourceType none with
  | none =>
    refine Or.inr ⟨?_, rfl⟩
    intro code hc
    rw [getRaw_none_eq.2 hc] at hr
    cases hr
  | some v =>
    obtain ⟨S, hS⟩ := getRaw_none_eq.1 hr
    have hv : ∃ x, v = .str x := by
      cases v with
      | str x => exact ⟨x, rfl⟩
      | tup l =>
        have := (wf.typed resourceType (.tup l) S (by rw [hS]; simp)).1 rfl
        exact absurd this (by decide)
    obtain ⟨code, rfl⟩ := hv
    refine Or.inl ⟨code, ⟨S, hS⟩, ?_⟩
    simp only
    split
    · rename_i kv hf
      have h1 := List.find?_some hf
      have h2 := List.mem_of_find?_eq_some hf
      simp only [decide_eq_true_eq, Val.str.injEq] at h1
      subst h1
      exact Or.inl h2
    · rename_i hf
      refine Or.inr ⟨?_, rfl⟩
      intro n hn
      have := List.find?_eq_none.1 hf _ hn
      simp at this

theorem onlyValue_spec {env : Env} {it : Item} (wf : ItemWF env it) {n : Str} (hp : Plain env n) (hs : n ≠ resourceSubType)
    {r : Option Val} (h : it.getValue env n none = .ok r) : OnlyValue (it.tab n) (valText env r) := by
  rw [getValue_plain hp] at h
  cases h
  cases hr : it.getRaw n none with
  | none =>
    refine Or.inr ⟨?_, rfl⟩
    intro x S hx
    rw [getRaw_none_eq.2 ⟨S, hx⟩] at hr
    cases hr
  | some v =>
    obtain ⟨S, hS⟩ := getRaw_none_eq.1 hr
    cases v with
    | str x => exact Or.inl ⟨S, hS⟩
    | tup l => exact absurd ((wf.typed n (.tup l) S (by rw [hS]; simp)).1 rfl) hs

theorem findParent_none {env : Env} {hw : Hw} {k : Str} {it : Item} (wf : HwWF env hw) (hk : dget? hw k = some it)
    (h : findParent env hw (some k) = .ok none) : ∀ c ci, ChildOf it c → dget? hw c = some ci → ¬ InDefault env ci := by
  intro c ci h1 h2 h3
  rw [findParent_complete wf hk h1 h2 h3] at h
  cases h

theorem deviceInfo_spec {env : Env} {hw : Hw} {k : Str} {it : Item} {text : Str} (wf : HwWF env hw)
    (hk : dget? hw k = some it) (h : deviceInfo env hw (some k) = .ok text) : Describes env hw it text := by
  have wfi := wf.items k it (dget?_mem hk)
  unfold deviceInfo at h
  simp only [hk] at h
  obtain ⟨c, hc, h⟩ := bind_ok_inv h
  cases c with
  | none =>
    simp only [bind, Except.bind] at h
    cases hb : it.getValue env addressOnParent none with
    | error e => rw [hb] at h; cases h
    | ok b =>
      rw [hb] at h
      cases h
      refine ⟨_, _, _, _, hardwareType_spec wfi, onlyValue_spec wfi (plain_aop env) (by decide) hb,
        Or.inr ⟨findParent_none wf hk hc, rfl, rfl⟩, ?_⟩
      simp [List.append_assoc]
  | some c =>
    obtain ⟨k', it', ci, hk', hit', hci, hd, hch⟩ := findParent_some wf hc
    cases hk'
    have : it' = it := Option.some.inj (hit'.symm.trans hk)
    subst this
    simp only [hci] at h
    simp only [bind, Except.bind] at h
    cases ha : ci.getValue env address none with
    | error e => rw [ha] at h; cases h
    | ok a =>
      rw [ha] at h
      simp only at h
      cases hb : it'.getValue env addressOnParent none with
      | error e => rw [hb] at h; cases h
      | ok b =>
        rw [hb] at h
        cases h
        have wfc := wf.items c ci (dget?_mem hci)
        refine ⟨_, _, _, _, hardwareType_spec wfi, onlyValue_spec wfi (plain_aop env) (by decide) hb,
          Or.inl ⟨c, ci, _, hch, hci, hd, hardwareType_spec wfc, rfl, onlyValue_spec wfc (plain_address env) (by decide) ha⟩, ?_⟩
        simp [List.append_assoc]

theorem deviceCell_spec {env : Env} {hw : Hw} {new old : Str} {id : Option Str} {k : Option Str} {text : Str}
    (wf : HwWF env hw) (hk : itemFromRef env hw new old id = .ok k) (h : deviceInfo env hw k = .ok text) :
    ∃ s, id = some s ∧ DeviceCell env hw (fun it => Mapped it (new ++ s) ∨ Mapped it (old ++ s)) text := by
  cases k with
  | none =>
    obtain ⟨s, hs, hno⟩ := itemFromRef_none hk
    cases h
    exact ⟨s, hs, Or.inl ⟨hno, rfl⟩⟩
  | some k =>
    obtain ⟨s, it, hs, h1, h2, h3⟩ := itemFromRef_some hk
    exact ⟨s, hs, Or.inr ⟨k, it, h1, h2, h3, deviceInfo_spec wf h1 h⟩⟩

theorem maxLen_spec (l : List Str) : Longest l (maxLen l) := by
  have key : ∀ (l : List Str) (m : Nat), m ≤ l.foldl (fun m s => max m s.length) m ∧
      (∀ s ∈ l, s.length ≤ l.foldl (fun m s => max m s.length) m) ∧
      (l.foldl (fun m s => max m s.length) m = m ∨ ∃ s ∈ l, s.length = l.foldl (fun m s => max m s.length) m) := by
    intro l
    induction l with
    | nil => intro m; simp
    | cons a r ih =>
      intro m
      obtain ⟨h1, h2, h3⟩ := ih (max m a.length)
      simp only [List.foldl_cons]
      refine ⟨by omega, ?_, ?_⟩
      · intro s hs
        rcases List.mem_cons.1 hs with rfl | hs
        · omega
        · exact h2 s hs
      · rcases h3 with h3 | ⟨s, hs, he⟩
        · rcases Nat.le_total m a.length with hm | hm
          · right; exact ⟨a, by simp, by rw [h3]; omega⟩
          · left; rw [h3]; omega
        · exact Or.inr ⟨s, by simp [hs], he⟩
  obtain ⟨-, h2, h3⟩ := key l 0
  exact ⟨h2, h3⟩

theorem nameCell_spec (width : Int) (hrefs : List Str) (href : Str) :
    ∃ name, ShownName width (maxLen hrefs) href name ∧ nameCell (nameWidth width hrefs) href = "  ".toList ++ name := by
  obtain ⟨room, hroom⟩ : ∃ room : Nat, (room : Int) = max (min (maxLen hrefs : Int) (width - 43)) 18 :=
    ⟨(max (min (maxLen hrefs : Int) (width - 43)) 18).toNat, by omega⟩
  have hnw : nameWidth width hrefs = room + 2 := by unfold nameWidth; omega
  have h18 : 18 ≤ room := by omega
  unfold nameCell
  rw [hnw]
  simp only
  by_cases hl : ("  ".toList ++ href).length > room + 2
  · rw [if_pos hl]
    have hl' : room < href.length := by
      rw [List.length_append] at hl
      have : ("  ".toList).length = 2 := rfl
      omega
    refine ⟨href.take (room - 3) ++ "...".toList, ⟨room, hroom, Or.inr ⟨hl', rfl⟩⟩, ?_⟩
    rw [show room + 2 - 3 = (room - 3) + 2 by omega, ← List.append_assoc]
    rfl
  · rw [if_neg hl]
    have hl' : href.length ≤ room := by
      rw [List.length_append] at hl
      have : ("  ".toList).length = 2 := rfl
      omega
    exact ⟨href, ⟨room, hroom, Or.inl ⟨hl', rfl⟩⟩, rfl⟩

theorem splitWs_fileRow (nw : Nat) {href name : Str} (hc : nameCell nw href = "  ".toList ++ name) (x : FileInfo) :
    splitWs (fileRow nw href x) = splitWs name ++ splitWs x.size ++ splitWs x.capacity ++ splitWs (x.device.take 20) := by
  unfold fileRow
  rw [hc]
  split
  · rw [splitWs_diskLine, splitWs_two]
  · rename_i h
    have h1 : x.capacity = [] := by by_contra hn; exact h (Or.inl hn)
    have h2 : x.device = [] := by by_contra hn; exact h (Or.inr hn)
    rw [splitWs_fileLine, splitWs_two, h1, h2]
    simp [splitWs_nil]

theorem idLines_spec {x : FileInfo} {fid : Str} {did : Option Str} (h1 : x.fileId = some fid)
    (h2 : did = none ∧ x.diskId = some [] ∨ did = x.diskId) :
    ∃ l1 ls, idLines x = l1 :: ls ∧ splitWs l1 = ["File".toList, "ID:".toList] ++ splitWs fid ∧
      ls.map splitWs = diskIdWords did := by
  have hdd : ∀ d : Str, splitWs ("    Disk ID: ".toList ++ d) = ["Disk".toList, "ID:".toList] ++ splitWs d :=
    fun d => splitWs_space "    Disk ID:".toList d
  have hff : ∀ d : Str, splitWs ("    File ID: ".toList ++ d) = ["File".toList, "ID:".toList] ++ splitWs d :=
    fun d => splitWs_space "    File ID:".toList d
  unfold idLines
  rw [h1]
  refine ⟨_, _, rfl, hff fid, ?_⟩
  rcases h2 with ⟨rfl, h2⟩ | rfl
  · rw [h2]; rfl
  · cases hx : x.diskId with
    | none => rfl
    | some d =>
      simp only [diskIdWords]
      split
      · rfl
      · rw [List.map_singleton, hdd]

theorem sizeCell_spec {w : InfoWorld} {o : Option Str} {size : Str} (h : sizeCell w o = .ok size) :
    (o = none ∧ size = []) ∨
      ∃ s, o = some s ∧ ((s ≠ [] ∧ ∀ c ∈ s, isDig c = true) → SizeText (digitsVal s) size) := by
  cases o with
  | none => cases h; exact Or.inl ⟨rfl, rfl⟩
  | some s =>
    refine Or.inr ⟨s, rfl, ?_⟩
    intro hd n hn
    simp only [sizeCell, prettyText] at h
    rw [if_pos hd] at h
    have : digitsVal s = n := by exact_mod_cast hn
    rw [← this]
    exact h

theorem capCell_spec {w : InfoWorld} {v : Ver} {p : Pkg} {j : Nat} {d : Elem} {cap : Str} (hj : p.diskList[j]? = some d)
    (h : capCell w v p j = .ok cap) : ∃ z, capacityOf v d = .ok z ∧ SizeText z cap := by
  unfold capCell at h
  rw [hj] at h
  simp only at h
  cases hz : capacityOf v d with
  | error e => rw [hz] at h; cases h
  | ok z => rw [hz] at h; exact ⟨z, rfl, prettyInt_spec h⟩

theorem fileInfo_spec {w : InfoWorld} {vm : InfoVM} {i : Nat} {e : Elem} {x : FileInfo} (wf : HwWF vm.env vm.pkg.hw)
    (hi : vm.pkg.refs.children[i]? = some e) (h : fileInfo w vm.env vm.pkg i = .ok x) :
    ∃ (fid : Str) (did : Option Str), e.get (fileId vm.env.ver) = some fid ∧ x.fileId = some fid ∧
      (did = none ∧ x.diskId = some [] ∨ did = x.diskId) ∧
      ((e.get (fileSize vm.env.ver) = none ∧ x.size = []) ∨
       ∃ s, e.get (fileSize vm.env.ver) = some s ∧ ((s ≠ [] ∧ ∀ c ∈ s, isDig c = true) → SizeText (digitsVal s) x.size)) ∧
      ((∃ d z, d ∈ vm.pkg.diskList ∧ DiskWith vm.env.ver (diskFileRef vm.env.ver) fid d ∧ capacityOf vm.env.ver d = .ok z ∧
          SizeText z x.capacity ∧ d.get (diskId vm.env.ver) = did ∧
          ∃ y, did = some y ∧ DeviceCell vm.env vm.pkg.hw (fun it => UsesDisk vm.env.ver it y) x.device) ∨
       ((∀ d ∈ vm.pkg.diskList, ¬ DiskWith vm.env.ver (diskFileRef vm.env.ver) fid d) ∧ x.capacity = [] ∧ did = none ∧
          DeviceCell vm.env vm.pkg.hw (fun it => UsesFile vm.env.ver it fid) x.device)) := by
  unfold fileInfo at h
  simp only [attrOf_at hi] at h
  obtain ⟨size, hsize, h⟩ := bind_ok_inv h
  have hs := sizeCell_spec hsize
  obtain ⟨o, ho, h⟩ := bind_ok_inv h
  cases o with
  | none =>
    simp only at h
    obtain ⟨k, hk, h⟩ := bind_ok_inv h
    obtain ⟨dev, hdev, h⟩ := bind_ok_inv h
    cases h
    simp only [findItemFromFile, attrOf_at hi] at hk
    obtain ⟨fid, hfid, hcell⟩ := deviceCell_spec wf hk hdev
    refine ⟨fid, none, hfid, hfid, Or.inl ⟨rfl, rfl⟩, hs, Or.inr ⟨?_, rfl, rfl, hcell⟩⟩
    rw [hfid] at ho
    unfold findDiskFromFileId at ho
    intro d hd
    unfold Pkg.diskList at hd
    cases hds : vm.pkg.disks with
    | none => rw [hds] at hd; cases hd
    | some ds =>
      rw [hds] at ho hd
      exact findPos_none.1 ho d hd
  | some j =>
    simp only at h
    obtain ⟨cap, hcap, h⟩ := bind_ok_inv h
    obtain ⟨k, hk, h⟩ := bind_ok_inv h
    obtain ⟨dev, hdev, h⟩ := bind_ok_inv h
    cases h
    have hpos : ∃ fid d, e.get (fileId vm.env.ver) = some fid ∧ vm.pkg.diskList[j]? = some d ∧
        DiskWith vm.env.ver (diskFileRef vm.env.ver) fid d := by
      unfold findDiskFromFileId at ho
      cases hfid : e.get (fileId vm.env.ver) with
      | none => rw [hfid] at ho; cases ho
      | some fid =>
        rw [hfid] at ho
        cases hds : vm.pkg.disks with
        | none => rw [hds] at ho; cases ho
        | some ds =>
          rw [hds] at ho
          obtain ⟨⟨d, h1, h2⟩, -⟩ := findPos_some.1 ho
          refine ⟨fid, d, rfl, ?_, h2⟩
          unfold Pkg.diskList
          rw [hds]
          exact h1
    obtain ⟨fid, d, hfid, hd, hdw⟩ := hpos
    obtain ⟨z, hz1, hz2⟩ := capCell_spec hd hcap
    simp only [findItemFromDisk] at hk
    obtain ⟨did, hdid, hcell⟩ := deviceCell_spec wf hk hdev
    rw [attrOf_at hd] at hdid
    refine ⟨fid, some did, hfid, hfid, Or.inr ?_, hs, Or.inl ⟨d, z, List.mem_of_getElem? hd, hdw, hz1, hz2, hdid, did, rfl, hcell⟩⟩
    simp only [attrOf_at hd, hdid]

theorem filesLoop_spec {w : InfoWorld} {vm : InfoVM} {vb : Verbosity} {hrefs : List Str} (wf : HwWF vm.env vm.pkg.hw) :
    ∀ {is : List Nat} {es : List Elem} {lines : List Str},
    List.Forall₂ (fun i e => vm.pkg.refs.children[i]? = some e) is es →
    filesLoop w vm.env vm.pkg vb (nameWidth w.width hrefs) is = .ok lines →
    ∃ blocks : List (List Str), lines = blocks.flatten ∧
      List.Forall₂ (FileRows w.width (maxLen hrefs) vm vb) es blocks := by
  intro is es lines hf
  induction hf generalizing lines with
  | nil => intro h; cases h; exact ⟨[], rfl, .nil⟩
  | @cons i e is es hi hf ih =>
    intro h
    unfold filesLoop at h
    obtain ⟨x, hx, h⟩ := bind_ok_inv h
    obtain ⟨href, hh, h⟩ := bind_ok_inv h
    obtain ⟨rest, hr, h⟩ := bind_ok_inv h
    obtain ⟨blocks, rfl, hb⟩ := ih hr
    cases h
    refine ⟨_ :: blocks, (List.flatten_cons).symm, .cons ?_ hb⟩
    have hhref : e.get (fileHref vm.env.ver) = some href := by
      rw [attrOf_at hi] at hh
      cases hg : e.get (fileHref vm.env.ver) with
      | none => rw [hg] at hh; cases hh
      | some y => rw [hg] at hh; cases hh; rfl
    obtain ⟨name, hname, hcell⟩ := nameCell_spec w.width hrefs href
    obtain ⟨fid, did, h1, h2, h3, h4, h5⟩ := fileInfo_spec wf hi hx
    refine ⟨fid, href, name, x.size, x.capacity, x.device, _, did, h1, hhref, hname, h4, h5,
      splitWs_fileRow _ hcell x, ?_, ?_⟩
    · intro hv; rw [if_neg hv]
    · intro hv
      rw [if_pos hv]
      obtain ⟨l1, ls, g1, g2, g3⟩ := idLines_spec h2 h3
      exact ⟨l1, ls, by rw [g1], g2, g3⟩

theorem disksLoop_spec {w : InfoWorld} {vm : InfoVM} {nw : Nat} (wf : HwWF vm.env vm.pkg.hw)
    (hids : ∀ e ∈ fileEntries vm.env.ver vm.pkg, e.get (fileId vm.env.ver) ≠ none) :
    ∀ {is : List Nat} {es : List Elem} {lines : List Str},
    List.Forall₂ (fun i e => vm.pkg.diskList[i]? = some e) is es →
    disksLoop w vm.env vm.pkg nw is = .ok lines →
    List.Forall₂ (PlaceholderRow vm) (es.filter (fun d => decide (∀ f ∈ d.get (diskFileRef vm.env.ver),
      ∀ e ∈ fileEntries vm.env.ver vm.pkg, e.get (fileId vm.env.ver) ≠ some f))) lines := by
  intro is es lines hf
  induction hf generalizing lines with
  | nil => intro h; cases h; exact .nil
  | @cons j d is es hj hf ih =>
    intro h
    unfold disksLoop at h
    obtain ⟨o, ho, h⟩ := bind_ok_inv h
    rw [attrOf_at hj] at ho
    cases o with
    | some i =>
      simp only at h
      obtain ⟨⟨e, he, h1, h2⟩, -⟩ := findPos_some.1 ho
      have hm : e ∈ fileEntries vm.env.ver vm.pkg := by
        unfold fileEntries
        rw [List.mem_filter]
        exact ⟨List.mem_of_getElem? he, by simpa using h1⟩
      rw [List.filter_cons_of_neg]
      · exact ih h
      · simp only [decide_eq_true_eq, not_forall]
        cases hg : d.get (diskFileRef vm.env.ver) with
        | none => rw [hg] at h2; exact absurd h2 (hids e hm)
        | some f => exact ⟨f, rfl, e, hm, by simp [h2, hg]⟩
    | none =>
      simp only at h
      obtain ⟨cap, hcap, h⟩ := bind_ok_inv h
      obtain ⟨k, hk, h⟩ := bind_ok_inv h
      obtain ⟨dev, hdev, h⟩ := bind_ok_inv h
      obtain ⟨rest, hr, h⟩ := bind_ok_inv h
      cases h
      rw [List.filter_cons_of_pos]
      · refine .cons ?_ (ih hr)
        obtain ⟨z, hz1, hz2⟩ := capCell_spec hj hcap
        simp only [findItemFromDisk] at hk
        obtain ⟨did, hdid, hcell⟩ := deviceCell_spec wf hk hdev
        rw [attrOf_at hj] at hdid
        refine ⟨z, cap, dev, did, hz1, hz2, hdid, hcell, ?_⟩
        rw [splitWs_diskLine]
        rfl
      · simp only [decide_eq_true_eq]
        intro f hf e he hfe
        unfold fileEntries at he
        rw [List.mem_filter] at he
        refine findPos_none.1 ho e he.1 ⟨by simpa using he.2, ?_⟩
        rw [hfe, hf]

theorem hrefsOf_spec {v : Ver} {p : Pkg} : ∀ {is : List Nat} {es : List Elem} {l : List Str},
    List.Forall₂ (fun i e => p.refs.children[i]? = some e) is es → hrefsOf v p is = .ok l →
    l = es.map (fun e => (e.get (fileHref v)).getD []) := by
  intro is es l hf
  induction hf generalizing l with
  | nil => intro h; cases h; rfl
  | @cons i e is es hi hf ih =>
    intro h
    unfold hrefsOf at h
    rw [attrOf_at hi] at h
    cases hg : e.get (fileHref v) with
    | none => rw [hg] at h; cases h
    | some x =>
      rw [hg] at h
      simp only at h
      cases hr : hrefsOf v p is with
      | error e => rw [hr] at h; cases h
      | ok l' =>
        rw [hr] at h
        cases h
        simp [hg, ih hr]

theorem forall₂_nil_iff {α β : Type} {R : α → β → Prop} {a : List α} {b : List β} (h : List.Forall₂ R a b) :
    a = [] ↔ b = [] := by cases h <;> simp

theorem forall₂_left {α β : Type} {R : α → β → Prop} {a : List α} {b : List β} (h : List.Forall₂ R a b) :
    ∀ x ∈ a, ∃ y ∈ b, R x y := by
  induction h with
  | nil => intro x hx; cases hx
  | cons h1 _ ih =>
    intro x hx
    rcases List.mem_cons.1 hx with rfl | hx
    · exact ⟨_, by simp, h1⟩
    · obtain ⟨y, hy, hr⟩ := ih x hx
      exact ⟨y, by simp [hy], hr⟩

/-- **C90 (files and disks).** What `cot info` prints about files and disks is nothing if the package has none; else a
heading, then for each File in order its name (cut if the terminal is too narrow), its size, the capacity of the Disk on
it, and the device that uses it (and if asked the identifiers), and then for each Disk that is on none of the Files a
line with its capacity and the device that uses it. -/
theorem C90_files {w : InfoWorld} {vm : InfoVM} {vb : Verbosity} {lines : List Str} (wf : HwWF vm.env vm.pkg.hw)
    (h : infoFiles w vm vb = .ok lines) :
    (fileEntries vm.env.ver vm.pkg = [] ∧ diskEntries vm.env.ver vm.pkg = [] ∧ lines = []) ∨
    ((fileEntries vm.env.ver vm.pkg ≠ [] ∨ diskEntries vm.env.ver vm.pkg ≠ []) ∧
      ∃ (longest : Nat) (head rule : Str) (blocks : List (List Str)) (rows : List Str),
        Longest ((fileEntries vm.env.ver vm.pkg).map (fun e => (e.get (fileHref vm.env.ver)).getD [])) longest ∧
        lines = head :: rule :: (blocks.flatten ++ rows) ∧
        splitWs head = splitWs "Files and Disks: File Size Capacity Device".toList ∧
        List.Forall₂ (FileRows w.width longest vm vb) (fileEntries vm.env.ver vm.pkg) blocks ∧
        List.Forall₂ (PlaceholderRow vm) (placeholders vm.env.ver vm.pkg) rows) := by
  have hf := positions_at (fun e => e.tag == fileTag vm.env.ver) vm.pkg.refs.children
  have hd := positions_at (fun e => e.tag == diskTag vm.env.ver) vm.pkg.diskList
  have hf0 : filePositions vm.env.ver vm.pkg = [] ↔ fileEntries vm.env.ver vm.pkg = [] := forall₂_nil_iff hf
  have hd0 : diskPositions vm.env.ver vm.pkg = [] ↔ diskEntries vm.env.ver vm.pkg = [] := forall₂_nil_iff hd
  unfold infoFiles at h
  simp only at h
  split at h
  · rename_i hn
    cases h
    exact Or.inl ⟨hf0.1 hn.1, hd0.1 hn.2, rfl⟩
  · rename_i hn
    obtain ⟨hrefs, h1, h⟩ := bind_ok_inv h
    obtain ⟨a, h2, h⟩ := bind_ok_inv h
    obtain ⟨b, h3, h⟩ := bind_ok_inv h
    cases h
    refine Or.inr ⟨?_, ?_⟩
    · rw [hf0, hd0] at hn
      by_contra hc
      exact hn ⟨by by_contra x; exact hc (Or.inl x), by by_contra x; exact hc (Or.inr x)⟩
    obtain ⟨blocks, rfl, hb⟩ := filesLoop_spec wf hf h2
    have hids : ∀ e ∈ fileEntries vm.env.ver vm.pkg, e.get (fileId vm.env.ver) ≠ none := by
      intro e he
      obtain ⟨b, -, fid, -, -, -, -, -, -, -, h1, -⟩ := forall₂_left hb e he
      rw [h1]; simp
    have hrows := disksLoop_spec wf hids hd h3
    have hm := maxLen_spec hrefs
    rw [hrefsOf_spec hf h1] at hm hb
    refine ⟨_, _, _, blocks, b, hm, rfl, ?_, hb, hrows⟩
    rw [splitWs_diskLine]
    decide

theorem findParent_total {env : Env} {hw : Hw} {k : Str} {it : Item} (wf : HwWF env hw) (hk : dget? hw k = some it) :
    ∃ c, findParent env hw (some k) = .ok c := by
  by_cases h : ∃ c ci, ChildOf it c ∧ dget? hw c = some ci ∧ InDefault env ci
  · obtain ⟨c, ci, h1, h2, h3⟩ := h
    exact ⟨_, findParent_complete wf hk h1 h2 h3⟩
  · refine ⟨none, ?_⟩
    unfold findParent valueAt
    simp only [hk, getValue_plain (plain_parent env)]
    cases hv : it.getRaw parentName none with
    | none => rfl
    | some v =>
      simp only
      have wfi := wf.items k it (dget?_mem hk)
      obtain ⟨S, hS⟩ := getRaw_none_eq.1 hv
      refine findItem_absent (by simp) (by intro kv hkv; simp at hkv; subst hkv; exact plain_iid env) ?_
      rintro c ci hc ⟨-, g3, g4⟩
      obtain ⟨T, hT⟩ := getRaw_none_eq.1 (g4 (instanceId env.ver, some v) (by simp))
      simp only at hT
      have := wf.ident c ci (dget?_mem hc) v T (by rw [hT]; simp)
      subst this
      exact h ⟨c, ci, ⟨S, hS⟩, hc, g3⟩

theorem deviceInfo_total {env : Env} {hw : Hw} {k : Str} {it : Item} (wf : HwWF env hw) (hk : dget? hw k = some it) :
    ∃ text, deviceInfo env hw (some k) = .ok text := by
  obtain ⟨c, hc⟩ := findParent_total wf hk
  unfold deviceInfo
  simp only [hk, hc, bind, Except.bind]
  cases c with
  | none =>
    simp only [getValue_plain (plain_aop env)]
    exact ⟨_, rfl⟩
  | some c =>
    obtain ⟨k', it', ci, hk', hit', hci, hd, hch⟩ := findParent_some wf hc
    simp only [hci, getValue_plain (plain_aop env), getValue_plain (plain_address env)]
    exact ⟨_, rfl⟩

theorem device_total {env : Env} {hw : Hw} {new old s : Str} (wf : HwWF env hw)
    (h : OneDevice env hw (fun it => Mapped it (new ++ s) ∨ Mapped it (old ++ s))) :
    ∃ k text, itemFromRef env hw new old (some s) = .ok k ∧ deviceInfo env hw k = .ok text := by
  by_cases hex : ∃ k it, dget? hw k = some it ∧ InDefault env it ∧ (Mapped it (new ++ s) ∨ Mapped it (old ++ s))
  · obtain ⟨k, it, h1, h2, h3⟩ := hex
    obtain ⟨text, ht⟩ := deviceInfo_total wf h1
    exact ⟨some k, text, itemFromRef_complete wf.keys h1 h2 h3 (fun k' it' g1 g2 g3 => h k' k it' it g1 h1 g2 h2 g3 h3), ht⟩
  · exact ⟨none, [], itemFromRef_absent (fun k it h1 h2 h3 => hex ⟨k, it, h1, h2, h3⟩), rfl⟩

theorem capCell_total {w : InfoWorld} {v : Ver} {p : Pkg} {j : Nat} {d : Elem} {z : Int} (hj : p.diskList[j]? = some d)
    (hz : capacityOf v d = .ok z) (hb : z < 1023 * 2 ^ 80) : ∃ cap, capCell w v p j = .ok cap := by
  unfold capCell
  simp only [hj, hz]
  exact prettyInt_total w hb

theorem findPos_total {cs : List Elem} {tag key f : Str} (h : Distinct cs tag key) : ∃ o, findPos cs tag key (some f) = .ok o := by
  cases hp : findPos cs tag key (some f) with
  | ok o => exact ⟨o, rfl⟩
  | error e =>
    obtain ⟨-, i, j, x, y, hne, hx, hy, ⟨h1, h2⟩, h3, h4⟩ := findPos_error.1 hp
    exact absurd (h i j x y f hx hy h1 h3 h2 h4) hne

theorem disk_entry {v : Ver} {p : Pkg} {j : Nat} {d : Elem} (hj : p.diskList[j]? = some d) (ht : d.tag = diskTag v) :
    d ∈ diskEntries v p := by
  unfold diskEntries
  rw [List.mem_filter]
  exact ⟨List.mem_of_getElem? hj, by simpa using ht⟩

theorem fileInfo_total {w : InfoWorld} {env : Env} {p : Pkg} {i : Nat} {e : Elem} (wf : HwWF env p.hw)
    (hp : PlainFiles env p) (hi : p.refs.children[i]? = some e) (ht : e.tag = fileTag env.ver) :
    ∃ x, fileInfo w env p i = .ok x := by
  have he : e ∈ fileEntries env.ver p := by
    unfold fileEntries
    rw [List.mem_filter]
    exact ⟨List.mem_of_getElem? hi, by simpa using ht⟩
  obtain ⟨fid, href, h1, h2, h3, h4⟩ := hp.files e he
  have hsize : ∃ s, sizeCell w (e.get (fileSize env.ver)) = .ok s := by
    cases hg : e.get (fileSize env.ver) with
    | none => exact ⟨[], rfl⟩
    | some s =>
      obtain ⟨g1, g2, g3⟩ := h3 s hg
      simp only [sizeCell, prettyText]
      rw [if_pos ⟨g1, g2⟩]
      exact C87_accepted g3
  obtain ⟨size, hsize⟩ := hsize
  unfold fileInfo
  simp only [attrOf_at hi, hsize, bind, Except.bind]
  have hdisk : ∃ o, findDiskFromFileId env.ver p (e.get (fileId env.ver)) = .ok o ∧
      ∀ j, o = some j → ∃ d, p.diskList[j]? = some d ∧ d.tag = diskTag env.ver := by
    rw [h1]
    unfold findDiskFromFileId
    have hdr := hp.diskRefs
    unfold Pkg.diskList at hdr ⊢
    cases hds : p.disks with
    | none => exact ⟨none, rfl, by simp⟩
    | some ds =>
      rw [hds] at hdr
      obtain ⟨o, ho⟩ := findPos_total (f := fid) hdr
      refine ⟨o, ho, ?_⟩
      rintro j rfl
      obtain ⟨⟨d, g1, g2, -⟩, -⟩ := findPos_some.1 ho
      exact ⟨d, g1, g2⟩
  obtain ⟨o, ho, hoj⟩ := hdisk
  rw [ho]
  cases o with
  | none =>
    simp only [findItemFromFile, attrOf_at hi, h1]
    obtain ⟨k, text, hk, htx⟩ := device_total (new := hostFileRef env.ver) (old := oldFileRef) wf h4
    simp only [hk, htx]
    exact ⟨_, rfl⟩
  | some j =>
    obtain ⟨d, hj, hdt⟩ := hoj j rfl
    obtain ⟨did, z, g1, g2, g3, g4⟩ := hp.disks d (disk_entry hj hdt)
    obtain ⟨cap, hcap⟩ := capCell_total (w := w) hj g2 g3
    obtain ⟨k, text, hk, htx⟩ := device_total (new := hostDiskRef env.ver) (old := oldDiskRef) wf g4
    simp only [findItemFromDisk, attrOf_at hj, g1, hcap, hk, htx]
    exact ⟨_, rfl⟩

/-- **C90 (completes).** Files and disks are told without an error if they are stated properly: every File has an
identifier and a name, and its size, if it has one, is a number; every Disk has an identifier and a capacity; no two
Files have the same identifier, no two Disks are on the same File, no two devices use the same File or Disk; and no size
exceeds 1023 YiB. -/
theorem C90_completes_partial {w : InfoWorld} {vm : InfoVM} {vb : Verbosity} (wf : HwWF vm.env vm.pkg.hw)
    (hp : PlainFiles vm.env vm.pkg) : ∃ lines, infoFiles w vm vb = .ok lines := by
  have hfm : ∀ i ∈ filePositions vm.env.ver vm.pkg, ∃ e, vm.pkg.refs.children[i]? = some e ∧ e.tag = fileTag vm.env.ver := by
    intro i hi
    obtain ⟨j, e, rfl, h1, h2⟩ := mem_positions.1 hi
    exact ⟨e, by simpa using h1, by simpa using h2⟩
  have hdm : ∀ i ∈ diskPositions vm.env.ver vm.pkg, ∃ e, vm.pkg.diskList[i]? = some e ∧ e.tag = diskTag vm.env.ver := by
    intro i hi
    obtain ⟨j, e, rfl, h1, h2⟩ := mem_positions.1 hi
    exact ⟨e, by simpa using h1, by simpa using h2⟩
  have fent : ∀ {i : Nat} {e : Elem}, vm.pkg.refs.children[i]? = some e → e.tag = fileTag vm.env.ver →
      e ∈ fileEntries vm.env.ver vm.pkg := by
    intro i e hi ht
    unfold fileEntries
    rw [List.mem_filter]
    exact ⟨List.mem_of_getElem? hi, by simpa using ht⟩
  have H1 : ∀ is : List Nat, (∀ i ∈ is, ∃ e, vm.pkg.refs.children[i]? = some e ∧ e.tag = fileTag vm.env.ver) →
      ∃ l, hrefsOf vm.env.ver vm.pkg is = .ok l := by
    intro is
    induction is with
    | nil => intro _; exact ⟨[], rfl⟩
    | cons i r ih =>
      intro h
      obtain ⟨l, hl⟩ := ih (fun x hx => h x (by simp [hx]))
      obtain ⟨e, hi, ht⟩ := h i (by simp)
      obtain ⟨fid, href, -, h2, -⟩ := hp.files e (fent hi ht)
      unfold hrefsOf
      simp only [attrOf_at hi, h2, hl]
      exact ⟨_, rfl⟩
  have H2 : ∀ (nw : Nat) (is : List Nat), (∀ i ∈ is, ∃ e, vm.pkg.refs.children[i]? = some e ∧ e.tag = fileTag vm.env.ver) →
      ∃ l, filesLoop w vm.env vm.pkg vb nw is = .ok l := by
    intro nw is
    induction is with
    | nil => intro _; exact ⟨[], rfl⟩
    | cons i r ih =>
      intro h
      obtain ⟨l, hl⟩ := ih (fun x hx => h x (by simp [hx]))
      obtain ⟨e, hi, ht⟩ := h i (by simp)
      obtain ⟨fid, href, -, h2, -⟩ := hp.files e (fent hi ht)
      obtain ⟨x, hx⟩ := fileInfo_total (w := w) wf hp hi ht
      unfold filesLoop
      simp only [attrOf_at hi, h2, hl, hx, needText, bind, Except.bind]
      exact ⟨_, rfl⟩
  have H3 : ∀ (nw : Nat) (is : List Nat), (∀ i ∈ is, ∃ e, vm.pkg.diskList[i]? = some e ∧ e.tag = diskTag vm.env.ver) →
      ∃ l, disksLoop w vm.env vm.pkg nw is = .ok l := by
    intro nw is
    induction is with
    | nil => intro _; exact ⟨[], rfl⟩
    | cons j r ih =>
      intro h
      obtain ⟨l, hl⟩ := ih (fun x hx => h x (by simp [hx]))
      obtain ⟨d, hj, ht⟩ := h j (by simp)
      obtain ⟨did, z, g1, g2, g3, g4⟩ := hp.disks d (disk_entry hj ht)
      obtain ⟨cap, hcap⟩ := capCell_total (w := w) hj g2 g3
      obtain ⟨k, text, hk, htx⟩ := device_total (new := hostDiskRef vm.env.ver) (old := oldDiskRef) wf g4
      have ho : ∃ o, findPos vm.pkg.refs.children (fileTag vm.env.ver) (fileId vm.env.ver) (d.get (diskFileRef vm.env.ver)) = .ok o := by
        cases hg : d.get (diskFileRef vm.env.ver) with
        | some f => exact findPos_total hp.fileIds
        | none =>
          refine ⟨none, findPos_none.2 ?_⟩
          rintro e he ⟨he1, he2⟩
          obtain ⟨i, hi⟩ := List.getElem?_of_mem he
          obtain ⟨fid, href, h1, -⟩ := hp.files e (fent hi he1)
          rw [h1] at he2
          cases he2
      obtain ⟨o, ho⟩ := ho
      unfold disksLoop
      simp only [attrOf_at hj, ho, bind, Except.bind]
      cases o with
      | some i => exact ⟨l, hl⟩
      | none =>
        simp only [findItemFromDisk, attrOf_at hj, g1, hcap, hk, htx, hl]
        exact ⟨_, rfl⟩
  unfold infoFiles
  simp only
  split
  · exact ⟨[], rfl⟩
  · obtain ⟨hrefs, e1⟩ := H1 _ hfm
    obtain ⟨a, e2⟩ := H2 (nameWidth w.width hrefs) _ hfm
    obtain ⟨b, e3⟩ := H3 (nameWidth w.width hrefs) _ hdm
    simp only [e1, e2, e3, bind, Except.bind]
    exact ⟨_, rfl⟩

/-! ### Examples -/

def exInfoIc : InfoVM := { exInfoVM with pkg := exIcPkg }

/-- a File with a hard disk on it, and a placeholder disk -/
example : infoWords (infoFiles exInfoWorld exInfoIc .verbose) = (none,
    [splitWs "Files and Disks: File Size Capacity Device".toList,
     splitWs "--------- --------- --------------------".toList,
     splitWs "d.vmdk 10 B 1000 B harddisk @ IDE 1:0".toList,
     splitWs "File ID: vmdk".toList,
     splitWs "Disk ID: vmdisk1".toList,
     splitWs "(disk placeholder) -- 1000 B harddisk @ SCSI 0:3".toList]) := by decide +kernel

theorem mapped_iff {it : Item} {s : Str} : Mapped it s ↔ (it.tab hostResource).map Prod.fst = [.str s] := by
  unfold Mapped
  constructor
  · rintro ⟨S, h⟩; rw [h]; rfl
  · intro h
    match hT : it.tab hostResource, h with
    | [(v, S)], h =>
      simp only [List.map_cons, List.map_nil, List.cons.injEq, and_true] at h
      exact ⟨S, by rw [h]⟩

/-- the hypotheses of `C90_completes_partial` are met -/
theorem exIcPkg_plain : PlainFiles exEnv exIcPkg := by
  have one : ∀ (new old s : Str), (∀ kv ∈ exIcHw, ∀ kw ∈ exIcHw,
      ((kv.2.tab hostResource).map Prod.fst = [.str (new ++ s)] ∨ (kv.2.tab hostResource).map Prod.fst = [.str (old ++ s)]) →
      ((kw.2.tab hostResource).map Prod.fst = [.str (new ++ s)] ∨ (kw.2.tab hostResource).map Prod.fst = [.str (old ++ s)]) →
      kv.1 = kw.1) → OneDevice exEnv exIcHw (fun it => Mapped it (new ++ s) ∨ Mapped it (old ++ s)) := by
    intro new old s h k k' it it' g1 g2 _ _ g3 g4
    simp only [mapped_iff] at g3 g4
    exact h (k, it) (dget?_mem g1) (k', it') (dget?_mem g2) g3 g4
  have hfe : fileEntries exEnv.ver exIcPkg = [exFileE "vmdk".toList "d.vmdk".toList "10".toList] := rfl
  have hde : diskEntries exEnv.ver exIcPkg = [exDiskE "vmdisk1".toList "vmdk".toList "1000".toList,
       .mk (diskTag .v1) [(diskId .v1, "vmdisk2".toList), (diskCapacity .v1, "1000".toList)] none none []] := rfl
  refine ⟨?_, ?_, ?_, ?_⟩
  · intro e he
    rw [hfe, List.mem_singleton] at he
    subst he
    refine ⟨"vmdk".toList, "d.vmdk".toList, rfl, rfl, ?_, one _ _ _ (by decide +kernel)⟩
    intro s hs
    have : s = "10".toList := (Option.some.inj hs).symm
    subst this
    exact ⟨by decide, by decide, by decide +kernel⟩
  · intro d hd
    rw [hde] at hd
    simp only [List.mem_cons, List.not_mem_nil, or_false] at hd
    rcases hd with rfl | rfl
    · exact ⟨"vmdisk1".toList, 1000, rfl, rfl, by norm_num, one _ _ _ (by decide +kernel)⟩
    · exact ⟨"vmdisk2".toList, 1000, rfl, rfl, by norm_num, one _ _ _ (by decide +kernel)⟩
  · rw [distinct_iff]; decide +kernel
  · rw [distinct_iff]; decide +kernel

example (vb : Verbosity) : ∃ lines, infoFiles exInfoWorld exInfoIc vb = .ok lines :=
  C90_completes_partial exIcHw_wf exIcPkg_plain

/-! ### What goes wrong -/

/-- **C90 fails** for a device that exists only under a profile: the disk is shown as if no device used it. -/
theorem C90_profile_device_fails : ∃ (lines : List Str) (it : Item), HwWF exInfoVM.env exInfoVM.pkg.hw ∧
    infoFiles exInfoWorld exInfoVM .normal = .ok lines ∧
    lines.map splitWs = [splitWs "Files and Disks: File Size Capacity Device".toList,
      splitWs "--------- --------- --------------------".toList, splitWs "d.vmdk 1 KiB 1 GiB".toList] ∧
    dget? exInfoVM.pkg.hw "6".toList = some it ∧ it.hasProfile exEnv pX = true ∧ UsesDisk .v1 it "vmdisk1".toList := by
  obtain ⟨ls, h1, h2⟩ := infoWords_ok (r := infoFiles exInfoWorld exInfoVM .normal)
    (ws := [splitWs "Files and Disks: File Size Capacity Device".toList,
      splitWs "--------- --------- --------------------".toList, splitWs "d.vmdk 1 KiB 1 GiB".toList]) (by decide +kernel)
  exact ⟨ls, itemIn {pX} exInfoDisk, exInfoHw_wf, h1, h2, rfl, by decide +kernel, Or.inl ⟨{pX}, rfl⟩⟩

/-- **C90 fails** for a File without identifier: a TypeError instead of a list. -/
theorem C90_no_id_fails : infoFiles exInfoWorld { exInfoVM with pkg := { exInfoVM.pkg with
    refs := .mk (ovfTag .v1 "References".toList) [] none none [.mk (fileTag .v1) [(fileHref .v1, "a.iso".toList)] none none []] } }
    .normal = .error .typeError := infoWords_error (by decide +kernel)

/-- **C90 fails** for a File without href: a TypeError. -/
theorem C90_no_href_fails : infoFiles exInfoWorld { exInfoVM with pkg := { exInfoVM.pkg with
    refs := .mk (ovfTag .v1 "References".toList) [] none none [.mk (fileTag .v1) [(fileId .v1, "a".toList)] none none []] } }
    .normal = .error .typeError := infoWords_error (by decide +kernel)

/-- **C90 fails** for two Disks on one File (which OVF allows): a LookupError. -/
theorem C90_two_disks_fails : infoFiles exInfoWorld { exInfoVM with pkg := { exInfoVM.pkg with
    disks := some (.mk (diskSecTag .v1) [] none none [exDiskE "vmdisk1".toList "vmdk".toList "1000".toList,
      exDiskE "vmdisk2".toList "vmdk".toList "1000".toList]) } } .normal = .error .lookupError :=
  infoWords_error (by decide +kernel)

end Cot
