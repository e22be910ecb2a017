import Verif.Props.Commands
/-
C125: what the command line asks edit-properties for is what is done.
-/
namespace Cot

variable {f : EhFiles} {lines : Str → Option (List Str)}

def propsCmd : SubCommand :=
  ⟨"edit-properties".toList, ["set-properties".toList, "edit-environment".toList, "set-environment".toList], editPropertiesParser⟩

theorem props_plain : PlainCommand propsCmd := by
  refine ⟨?_, ?_, ?_, ?_⟩ <;> decide +kernel

theorem props_page : ∀ m ∈ commandPages, m.names = propsCmd.title :: propsCmd.aliases → m = editPropertiesPage := by decide +kernel

/-- every attribute of edit-properties is set by its own name only -/
theorem propSetters_keep {b : Str} {g : Setter PropReq} (hm : (b, g) ∈ propSetters lines) {q q' : PropReq} {v : ArgVal ArgAtom}
    (h : g q v = .ok q') :
    (b ≠ "config_file".toList → q'.config = q.config) ∧ (b ≠ "properties".toList → q'.props = q.props) ∧
    (b ≠ "labels".toList → q'.labels = q.labels) ∧ (b ≠ "descriptions".toList → q'.descs = q.descs) ∧
    (b ≠ "user_configurable".toList → q'.uc = q.uc) ∧ (b ≠ "transports".toList → q'.transports = q.transports) := by
  unfold propSetters at hm
  simp only [List.mem_cons, List.not_mem_nil, or_false, Prod.mk.injEq] at hm
  rcases hm with ⟨rfl, rfl⟩ | ⟨rfl, rfl⟩ | ⟨rfl, rfl⟩ | ⟨rfl, rfl⟩ | ⟨rfl, rfl⟩ | ⟨rfl, rfl⟩
  · obtain ⟨s, x, -, -, rfl⟩ := storeTextVia_ok h
    refine ⟨?_, ?_, ?_, ?_, ?_, ?_⟩ <;> intro hne <;> first | rfl | exact absurd rfl hne
  · obtain ⟨s, x, -, -, rfl⟩ := storeListVia_ok h
    refine ⟨?_, ?_, ?_, ?_, ?_, ?_⟩ <;> intro hne <;> first | rfl | exact absurd rfl hne
  · obtain ⟨s, x, -, -, rfl⟩ := storeListVia_ok h
    refine ⟨?_, ?_, ?_, ?_, ?_, ?_⟩ <;> intro hne <;> first | rfl | exact absurd rfl hne
  · obtain ⟨s, x, -, -, rfl⟩ := storeListVia_ok h
    refine ⟨?_, ?_, ?_, ?_, ?_, ?_⟩ <;> intro hne <;> first | rfl | exact absurd rfl hne
  · obtain ⟨s, -, rfl⟩ := storeTruth_ok h
    refine ⟨?_, ?_, ?_, ?_, ?_, ?_⟩ <;> intro hne <;> first | rfl | exact absurd rfl hne
  · obtain ⟨s, x, -, -, rfl⟩ := storeListVia_ok h
    refine ⟨?_, ?_, ?_, ?_, ?_, ?_⟩ <;> intro hne <;> first | rfl | exact absurd rfl hne

/-- a list that is converted, after the command line has been handed over -/
theorem Handed.list {Q β : Type} {setters : List (Str × Setter Q)} {q : Q} {P : ArgParser} {m : ManPage} {us : List ArgUse} {ws : List Str}
    {cmd : PkgCmd Q} {d : List (Str × ArgVal ArgAtom)} (h : Handed f setters q P m us ws cmd d) {flags : List Str} {a : Str} (fl : String)
    (ho : ⟨flags, .values .text, a⟩ ∈ m.options) (hfl : ∀ x ∈ P.opts, (∃ g ∈ flags, g ∈ x.flags) ↔ fl.toList ∈ x.flags)
    (F : Q → β) (G : Q → β → Q) (H : List Str → Except Err β) (h1 : a ≠ "package".toList) (h2 : a ≠ "output".toList)
    (hg : dget? setters a = some (storeListVia H G))
    (hk : ∀ b g', (b, g') ∈ setters → b ≠ a → ∀ q v q', g' q v = .ok q' → F q' = F q) (hG : ∀ q x, F (G q x) = x) (h0 : H [] = .ok (F q)) :
    H (allGiven fl us) = .ok (F cmd.req) := by
  obtain ⟨v, e1, e2⟩ := h.option (R := fun v x => ∃ ts : List Str, v = .list (ts.map (fun t => .one (.text t))) ∧ H ts = .ok x) ho (by simp) hfl
    h1 h2 hg hk (by
    intro q v q' hq
    obtain ⟨ts, x, e, hx, rfl⟩ := storeListVia_ok hq
    exact ⟨ts, e, by rw [hG, hx]⟩)
  exact reached_list (R := fun ts x => H ts = .ok x) e1 h0 e2

theorem mapE_forall₂ {α β : Type} {g : α → Except Err β} {l : List α} {r : List β} (h : mapE g l = .ok r) :
    l.Forall₂ (fun x y => g x = .ok y) r := by
  induction l generalizing r with
  | nil => cases h; exact .nil
  | cons x l ih =>
    simp only [mapE] at h
    cases hx : g x with
    | error e => rw [hx] at h; cases h
    | ok y =>
      rw [hx] at h
      dsimp only at h
      cases hl : mapE g l with
      | error e => rw [hl] at h; cases h
      | ok r' =>
        rw [hl] at h
        cases h
        exact .cons hx (ih hl)

theorem transportFor_iff (s t : Str) : (dget? knownTransports s).getD s = t ↔ TransportFor s t := by
  have key := C44_known [s]
  unfold cliTransports at key
  simp only [List.map_cons, List.map_nil, List.cons.injEq, and_true] at key
  rw [key]
  unfold TransportFor transportNames
  by_cases h1 : s = "iso".toList
  · subst h1
    rw [if_pos rfl]
    constructor
    · rintro rfl; exact .inl (by decide +kernel)
    · rintro (h | ⟨h, -⟩)
      · simp only [List.mem_cons, Prod.mk.injEq, List.not_mem_nil, or_false] at h
        rcases h with ⟨-, rfl⟩ | ⟨h, -⟩ | ⟨h, -⟩
        · rfl
        · exact absurd h (by decide +kernel)
        · exact absurd h (by decide +kernel)
      · exact absurd (by decide +kernel) h
  rw [if_neg h1]
  by_cases h2 : s = "vmware".toList
  · subst h2
    rw [if_pos rfl]
    constructor
    · rintro rfl; exact .inl (by decide +kernel)
    · rintro (h | ⟨h, -⟩)
      · simp only [List.mem_cons, Prod.mk.injEq, List.not_mem_nil, or_false] at h
        rcases h with ⟨h, -⟩ | ⟨-, rfl⟩ | ⟨h, -⟩
        · exact absurd h (by decide +kernel)
        · rfl
        · exact absurd h (by decide +kernel)
      · exact absurd (by decide +kernel) h
  rw [if_neg h2]
  by_cases h3 : s = "ibm".toList
  · subst h3
    rw [if_pos rfl]
    constructor
    · rintro rfl; exact .inl (by decide +kernel)
    · rintro (h | ⟨h, -⟩)
      · simp only [List.mem_cons, Prod.mk.injEq, List.not_mem_nil, or_false] at h
        rcases h with ⟨h, -⟩ | ⟨h, -⟩ | ⟨-, rfl⟩
        · exact absurd h (by decide +kernel)
        · exact absurd h (by decide +kernel)
        · rfl
      · exact absurd (by decide +kernel) h
  rw [if_neg h3]
  have hno : s ∉ List.map Prod.fst [("iso".toList, "iso".toList), ("vmware".toList, "com.vmware.guestInfo".toList),
      ("ibm".toList, "http://www.ibm.com/xmlns/ovf/transport/filesystem/etc/ovf-transport".toList)] := by
    simp only [List.map_cons, List.map_nil, List.mem_cons, List.not_mem_nil, or_false, not_or]
    exact ⟨h1, h2, h3⟩
  constructor
  · rintro rfl; exact .inr ⟨hno, rfl⟩
  · rintro (h | ⟨-, rfl⟩)
    · exact absurd (List.mem_map_of_mem (f := Prod.fst) h) hno
    · rfl

theorem props_ask {us : List ArgUse} {ws : List Str} {cmd : PkgCmd PropReq} {d : List (Str × ArgVal ArgAtom)}
    (h : Handed f (propSetters lines) {} editPropertiesParser editPropertiesPage us ws cmd d) : PropAsks lines us cmd.req := by
  constructor
  · obtain ⟨v, e1, e2⟩ := h.option (o := ⟨["-c".toList, "--config-file".toList], .value .text, "config_file".toList⟩) (fl := "--config-file")
      (F := fun q => q.config) (R := fun v x => ∃ (s : Str) (y : List Str), v = .one (.text s) ∧ lines s = some y ∧ x = some y) (by decide +kernel) (by decide) (by decide +kernel)
      (by decide) (by decide) rfl (fun b g hb hne q v q' hq => (propSetters_keep hb hq).1 hne) (by
        intro q v q' hq
        obtain ⟨s, x, e, hx, rfl⟩ := storeTextVia_ok hq
        refine ⟨s, x, e, ?_, rfl⟩
        unfold setConfigLines at hx
        split at hx
        · cases hx
        · rename_i hl
          cases hx
          exact hl)
    rcases reached_text (R := fun s y => lines s = some y) e1 e2 with ⟨e3, e4⟩ | ⟨s, y, e3, -, e5, e6⟩
    · exact .inl ⟨e3, e4⟩
    · exact .inr ⟨s, y, e3, e5, e6⟩
  · have := h.list (flags := ["-p".toList, "--properties".toList]) (a := "properties".toList) "--properties" (by decide +kernel) (by decide +kernel)
      (fun q => q.props) _ _ (by decide) (by decide) rfl (fun b g hb hne q v q' hq => (propSetters_keep hb hq).2.1 hne) (fun _ _ => rfl) rfl
    exact (mapE_forall₂ this).imp (fun s p hp hnl => (C33_unambiguous hnl _ _ _).1 hp)
  · have := h.list (flags := ["-l".toList, "--labels".toList]) (a := "labels".toList) "--labels" (by decide +kernel) (by decide +kernel)
      (fun q => q.labels) _ _ (by decide) (by decide) rfl (fun b g hb hne q v q' hq => (propSetters_keep hb hq).2.2.1 hne) (fun _ _ => rfl) rfl
    exact (Except.ok.inj this).symm
  · have := h.list (flags := ["-d".toList, "--descriptions".toList]) (a := "descriptions".toList) "--descriptions" (by decide +kernel)
      (by decide +kernel) (fun q => q.descs) _ _ (by decide) (by decide) rfl (fun b g hb hne q v q' hq => (propSetters_keep hb hq).2.2.2.1 hne)
      (fun _ _ => rfl) rfl
    exact (Except.ok.inj this).symm
  · obtain ⟨v, e1, e2⟩ := h.option (o := ⟨["-u".toList, "--user-configurable".toList], .maybeTruth, "user_configurable".toList⟩)
      (fl := "--user-configurable") (F := fun q => q.uc) (R := fun v x => ∃ b : Bool, v = .one (.truth b) ∧ x = some b)
      (by decide +kernel) (by decide) (by decide +kernel)
      (by decide) (by decide) rfl (fun b g hb hne q v q' hq => (propSetters_keep hb hq).2.2.2.2.1 hne) (by
        intro q v q' hq
        obtain ⟨b, e, rfl⟩ := storeTruth_ok hq
        exact ⟨b, e, rfl⟩)
    rcases e1 with ⟨e1, rfl⟩ | ⟨e1, rfl⟩ | ⟨s, a, e1, e3, rfl⟩
    · rcases e2 with ⟨-, e2⟩ | ⟨e2, -⟩
      · exact .inl ⟨e1, e2⟩
      · exact e2.elim
    · rcases e2 with ⟨e2, -⟩ | ⟨-, b, e2, e4⟩
      · cases e2
      · cases e2
        exact .inr (.inl ⟨e1, e4⟩)
    · rcases e2 with ⟨e2, -⟩ | ⟨-, b, e2, e4⟩
      · cases e2
      · cases e2
        refine .inr (.inr ⟨s, b, e1, ?_, e4⟩)
        rcases e3 with ⟨h1, h2⟩ | ⟨h1, h2⟩
        · cases h1; exact h2
        · cases h1; exact h2
  · have := h.list (flags := ["-t".toList, "--transports".toList]) (a := "transports".toList) "--transports" (by decide +kernel)
      (by decide +kernel) (fun q => q.transports) _ _ (by decide) (by decide) rfl
      (fun b g hb hne q v q' hq => (propSetters_keep hb hq).2.2.2.2.2 hne) (fun _ _ => rfl) rfl
    have := Except.ok.inj this
    rw [← this]
    unfold cliTransports
    rw [List.forall₂_map_right_iff, List.forall₂_same]
    exact fun s _ => (transportFor_iff s _).1 rfl

/-- **C125 (edit-properties).** If `cot … edit-properties …` (under any of its names) is carried out on a package, then it was carried out
as the request that its options state: the properties of all `--properties` in order, each taken apart as the manual says, with the labels,
descriptions, transports and the configuration file that were given.  The package is the one named on the command line, the output that of
the last `--output`. -/
theorem C125_properties_partial {v : Ver} {ask : Str → Bool} {force : Bool} {inp : List Str} {name : Str}
    (hn : name = propsCmd.title ∨ name ∈ propsCmd.aliases) {g l : List Str} {gus us : List ArgUse} {ws : List Str}
    (hg : CmdLine mainParser g gus []) (hl : CmdLine editPropertiesParser l us ws) (hp : ∀ u ∈ gus ++ us, ¬ OnlyPrints u.opt)
    (ha : ClearFor mainParser l) {vs vs' : Elem} {hws hws' : Option Elem} {cmd : PkgCmd PropReq}
    (h : propsMain f lines v ask force inp (g ++ name :: l) vs hws = some (.ok (cmd, vs', hws'))) :
    (∃ p, ws = [p] ∧ PkgPlaces f us p cmd) ∧
      ∃ q, PropAsks lines us q ∧ editProperties v ask force inp q vs hws = some (.ok (vs', hws')) := by
  unfold propsMain at h
  cases hc : pkgCommand f (propSetters lines) {} (g ++ name :: l) with
  | error e => rw [hc] at h; cases h
  | ok cmd' =>
    rw [hc] at h
    dsimp only at h
    cases hr : editProperties v ask force inp cmd'.req vs hws with
    | none => rw [hr] at h; cases h
    | some r =>
      cases r with
      | error e => rw [hr] at h; cases h
      | ok r =>
        rw [hr] at h
        cases h
        obtain ⟨d, hd⟩ := handed props_plain props_page hn hg hl hp ha hc
        obtain ⟨p, rfl⟩ := one_word hd rfl
        exact ⟨⟨p, rfl, hd.places (i := 0) rfl rfl (by decide +kernel) (by decide +kernel)⟩, cmd.req, props_ask hd, hr⟩

theorem forall₂_at {α β : Type} {R : α → β → Prop} {l : List α} {r : List β} (h : l.Forall₂ R r) {i : Nat} {a : α} (hi : l[i]? = some a) :
    ∃ b, r[i]? = some b ∧ R a b := by
  induction h generalizing i with
  | nil => cases hi
  | @cons x y l r h1 _ ih =>
    cases i with
    | zero => cases hi; exact ⟨y, rfl, h1⟩
    | succ i => exact ih hi

/-- the last change made to a property -/
theorem changes_last {v : Ver} {uc : Option Bool} {es : List PropEntry} {o o' : Option Elem} (h : Changes v uc es o o')
    {pre : List PropEntry} {e : PropEntry} (hes : es = pre ++ [e]) : ∃ p o1, o' = some p ∧ OneChange v uc e o1 p := by
  subst hes
  induction pre generalizing o with
  | nil =>
    cases h with
    | cons h1 h2 =>
      cases h2
      exact ⟨_, _, rfl, h1⟩
  | cons a r ih =>
    cases h with
    | cons h1 h2 => exact ih h2

/-- **C125 (edit-properties).** So if `KEY=VALUE+TYPE` is the last property for KEY on the command line, then the package has afterwards a
property KEY with this value, in the form that its type demands, with the type if one was given, with the label and description in the same
place on the command line, and open to the user as the last `--user-configurable` says. -/
theorem C125_value_partial {v : Ver} (hv : v ≠ .v0) {ask : Str → Bool} {force : Bool} {inp : List Str} {name : Str}
    (hn : name = propsCmd.title ∨ name ∈ propsCmd.aliases) {g l : List Str} {gus us : List ArgUse} {ws : List Str}
    (hg : CmdLine mainParser g gus []) (hl : CmdLine editPropertiesParser l us ws) (hp : ∀ u ∈ gus ++ us, ¬ OnlyPrints u.opt)
    (ha : ClearFor mainParser l) {vs vs' : Elem} (hw : PropsWF v vs) {hws hws' : Option Elem} {cmd : PkgCmd PropReq}
    (h : propsMain f lines v ask force inp (g ++ name :: l) vs hws = some (.ok (cmd, vs', hws')))
    (hnl : ∀ s ∈ allGiven "--properties" us, '\n' ∉ s) {before after : List Str} {s k x : Str} {t : Option Str}
    (hs : allGiven "--properties" us = before ++ s :: after) (hk : IsProperty s k (some x) t)
    (hlast : ∀ s' ∈ after, ∀ x t, ¬ IsProperty s' k x t) :
    ∃ p, PropIs v vs' k p ∧
      (∃ w, p.get (valueAttr v) = some w ∧ Converts (typeOf v p) x w ∧ Obeys (typeOf v p) (qualOf v p) w) ∧
      (∀ ty, t = some ty → typeOf v p = ty) ∧
      (∀ lb, (allGiven "--labels" us)[before.length]? = some lb → TextIs p (ovfTag v "Label".toList) (some lb)) ∧
      (∀ ds, (allGiven "--descriptions" us)[before.length]? = some ds → TextIs p (ovfTag v "Description".toList) (some ds)) ∧
      ((withFlag "--user-configurable" us).getLast? = some [] → p.get (confAttr v) = some "true".toList) ∧
      (∀ (w : Str) (b : Bool), (withFlag "--user-configurable" us).getLast? = some [w] → lower w ∈ (if b then trueWords else falseWords) →
        p.get (confAttr v) = some (if b then "true".toList else "false".toList)) := by
  obtain ⟨-, q, hq, hr⟩ := C125_properties_partial hn hg hl hp ha h
  have at_ : ∀ (i : Nat) (s' : Str), (allGiven "--properties" us)[i]? = some s' →
      ∃ pr, q.props[i]? = some pr ∧ parseProperty s' = .ok (pr.1, pr.2.1, pr.2.2) := by
    intro i s' hi
    obtain ⟨pr, e1, e2⟩ := forall₂_at hq.props hi
    have hn := hnl s' (List.mem_of_getElem? hi)
    exact ⟨pr, e1, (C33_unambiguous hn _ _ _).2 (e2 hn)⟩
  have hmid : q.props[before.length]? = some (k, some x, t) := by
    have hi : (allGiven "--properties" us)[before.length]? = some s := by rw [hs]; simp
    obtain ⟨⟨k', x', t'⟩, e1, e2⟩ := at_ _ s hi
    rw [(C33_unambiguous (hnl s (List.mem_of_getElem? hi)) _ _ _).2 hk] at e2
    cases e2
    exact e1
  have hne : q.props ≠ [] := by intro h0; rw [h0] at hmid; cases hmid
  obtain ⟨vs1, es, -, -, -, hE, hch, -⟩ := C84_properties hv hw (.inr (.inl hne)) hr
  obtain ⟨o, o', -, k2, k3⟩ := hch k
  have hlt : before.length < es.length := by rw [hE.1]; exact (List.getElem?_eq_some_iff.1 hmid).1
  obtain ⟨e, he⟩ : ∃ e, es[before.length]? = some e := ⟨_, List.getElem?_eq_getElem hlt⟩
  obtain ⟨a1, a2, a3⟩ := hE.2 _ _ he
  rw [hmid] at a1
  simp only [Option.some.injEq, Prod.mk.injEq] at a1
  obtain ⟨b1, b2, b3⟩ := a1
  have hsplit : es = es.take before.length ++ e :: es.drop (before.length + 1) := by
    obtain ⟨hlt, rfl⟩ := List.getElem?_eq_some_iff.1 he
    rw [List.cons_getElem_drop_succ, List.take_append_drop]
  have hdrop : (es.drop (before.length + 1)).filter (fun e => decide (e.key = k)) = [] := by
    rw [List.filter_eq_nil_iff]
    intro e' he' hkey
    have hkey : e'.key = k := of_decide_eq_true hkey
    obtain ⟨j, hj⟩ := List.mem_iff_getElem?.1 he'
    rw [List.getElem?_drop] at hj
    obtain ⟨c1, -, -⟩ := hE.2 _ _ hj
    have hjlt : before.length + 1 + j < (allGiven "--properties" us).length := by
      rw [hq.props.length_eq]
      exact (List.getElem?_eq_some_iff.1 c1).1
    obtain ⟨pr, d1, d2⟩ := at_ _ _ (List.getElem?_eq_getElem hjlt)
    rw [c1] at d1
    cases d1
    have hmem : (allGiven "--properties" us)[before.length + 1 + j]? = after[j]? := by
      rw [hs, List.getElem?_append_right (by omega)]
      rw [show before.length + 1 + j - before.length = j + 1 by omega]
      rfl
    rw [List.getElem?_eq_getElem hjlt] at hmem
    have hn := hnl _ (List.getElem_mem hjlt)
    have := (C33_unambiguous hn _ _ _).1 d2
    dsimp only at this
    rw [hkey] at this
    exact hlast _ (List.mem_of_getElem? hmem.symm) _ _ this
  have hfil : es.filter (fun e => decide (e.key = k)) = (es.take before.length).filter (fun e => decide (e.key = k)) ++ [e] := by
    conv_lhs => rw [hsplit]
    rw [List.filter_append, List.filter_cons_of_pos (by simp [← b1]), hdrop]
  obtain ⟨p, o1, rfl, hone⟩ := changes_last k3 hfil
  refine ⟨p, k2, hone.given x b2.symm, ?_, ?_, ?_, ?_, ?_⟩
  · intro ty ht
    unfold typeOf
    rw [hone.type, ← b3, ht]
    rfl
  · intro lb hlb
    exact hone.label.1 lb (by rw [a2, hq.labels, hlb])
  · intro ds hds
    exact hone.desc.1 ds (by rw [a3, hq.descs, hds])
  · intro hu
    rcases hq.uc with ⟨h1, -⟩ | ⟨-, h2⟩ | ⟨w, b, h1, -⟩
    · rw [h1] at hu; cases hu
    · rw [hone.conf, h2]
    · rw [h1] at hu; cases hu
  · intro w b hu hb
    rcases hq.uc with ⟨h1, -⟩ | ⟨h1, -⟩ | ⟨w', b', h1, h2, h3⟩
    · rw [h1] at hu; cases hu
    · rw [h1] at hu; cases hu
    · rw [h1] at hu
      cases hu
      have hdis : ∀ y ∈ trueWords, y ∉ falseWords := by decide +kernel
      have : b' = b := by
        cases b <;> cases b'
        · rfl
        · exact absurd hb (hdis _ h2)
        · exact absurd h2 (hdis _ hb)
        · rfl
      subst this
      rw [hone.conf, h3]
      cases b' <;> rfl

end Cot
