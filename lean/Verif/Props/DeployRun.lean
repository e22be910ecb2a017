import Verif.Spec.DeployRun
import Verif.Props.Deploy
import Verif.Props.Ui
import Verif.Props.Calls
import Verif.Props.Packages
import Verif.Props.Version
import Verif.Props.NatSort
import Verif.Props.InfoProfiles
import Verif.Lemmas.EditRun
/-
C101: what `deploy ... esxi` does.  C102: what it does on the server.
-/
namespace Cot

variable {W : Type}

/-! ### Consent and profile -/

theorem dieUnless_ok {force : Bool} {inp rest : List Str} : dieUnless force inp = (.ok (), rest) ↔ Agrees force inp rest := by
  unfold dieUnless confirmOrDie Agrees
  cases force with
  | true =>
    rw [C58_force]
    simp [eq_comm]
  | false =>
    simp only [Bool.false_eq_true, false_and, true_and, false_or]
    have key := C58_confirm inp
    cases hc : confirm false inp with
    | none =>
      simp only [Prod.mk.injEq, reduceCtorEq, false_and, false_iff]
      rintro ⟨sk, line, h1, h2, h3⟩
      have := (key true rest).2 ⟨sk, line, h1, h2, Or.inl ⟨rfl, h3⟩⟩
      rw [hc] at this; cases this
    | some x =>
      obtain ⟨b, r⟩ := x
      cases b with
      | true =>
        simp only [Prod.mk.injEq, true_and]
        constructor
        · rintro rfl
          obtain ⟨sk, line, h1, h2, h3⟩ := (key true r).1 hc
          rcases h3 with ⟨-, h3⟩ | ⟨h3, -⟩
          · exact ⟨sk, line, h1, h2, h3⟩
          · cases h3
        · rintro ⟨sk, line, h1, h2, h3⟩
          have := (key true rest).2 ⟨sk, line, h1, h2, Or.inl ⟨rfl, h3⟩⟩
          rw [hc] at this; cases this; rfl
      | false =>
        simp only [Prod.mk.injEq, reduceCtorEq, false_and, false_iff]
        rintro ⟨sk, line, h1, h2, h3⟩
        have := (key true rest).2 ⟨sk, line, h1, h2, Or.inl ⟨rfl, h3⟩⟩
        rw [hc] at this; cases this

theorem dieUnless_error {force : Bool} {inp rest : List Str} {e : Err} (h : dieUnless force inp = (.error e, rest)) :
    e = .systemExit ∧ ∀ r, ¬ Agrees force inp r := by
  refine ⟨?_, fun r hr => ?_⟩
  · unfold dieUnless confirmOrDie at h
    cases hc : confirm force inp with
    | none => rw [hc] at h; cases h; rfl
    | some x =>
      rw [hc] at h
      obtain ⟨b, r⟩ := x
      cases b <;> cases h
      rfl
  · rw [← dieUnless_ok, h] at hr; cases hr

/-- C101, the profile: a requested one is used as it is; without a request it is the only one declared, or the first one with
--force, or the one that the user selects; a package without profiles is deployed without one. -/
theorem C101_profile {force : Bool} {env : Env} {conf p : Prof} {inp rest : List Str}
    (h : deployProfile force env conf inp = (.ok p, rest)) : ChosenProfile force env.configProfiles conf inp p rest := by
  unfold deployProfile at h
  cases conf with
  | some x => cases h; exact .requested
  | none =>
    simp only at h
    match hp : env.configProfiles with
    | [] => rw [hp] at h; cases h; exact .nothing rfl
    | [x] => rw [hp] at h; cases h; exact .only rfl
    | x :: y :: r =>
      rw [hp] at h
      simp only at h
      cases hc : chooseFromList force (x :: y :: r) x inp with
      | none => rw [hc] at h; cases h
      | some z =>
        obtain ⟨z, rest'⟩ := z
        rw [hc] at h
        simp only at h
        split at h
        · rename_i hz
          cases h
          cases force with
          | true =>
            obtain ⟨h1, h2⟩ := (C41_listed _ _ _ _ _ _ hc).2 rfl
            subst h1; subst h2
            exact .first rfl rfl
          | false =>
            refine .selected (dflt := x) rfl (by simp) rfl hz ?_
            intro hw
            exact (C41_choose_partial _ _ _ hw _ _).1 hc
        · cases h

/-! ### Serial connections -/

theorem serialCode : resourceCode "serial".toList = .ok "21".toList := by decide +kernel

theorem serialItems {env : Env} {hw : Hw} {p : Prof} {ids : List Str} (hk : (dkeys hw).Nodup)
    (h : findAllItems env hw (some "serial".toList) [] [p] = .ok ids) : SerialPorts env hw p ids := by
  unfold findAllItems at h
  obtain ⟨h1, h2⟩ := filterE_mem h
  refine ⟨(naturalSort_nodup hk).sublist h2, ?_, ?_⟩
  · exact ((naturalSort_sorted _).sublist h2).imp (fun {a b} hab => (natLe_iff a b).1 hab)
  · intro id
    rw [h1, (naturalSort_perm (dkeys hw)).mem_iff]
    have hm : ∀ it : Item, itemMatch env it (some "serial".toList) [] [p] = .ok true ↔
        OfType it "21".toList ∧ it.hasProfile env p = true := by
      intro it
      unfold itemMatch typeMatch
      simp only [if_neg (resourceCode_ne serialCode).1, serialCode, ← getRaw_none_iff]
      by_cases hr : it.getRaw resourceType none = some (.str "21".toList)
      · rw [decide_eq_true hr]
        cases hp : it.hasProfile env p <;> simp [hp, hr, propsMatch]
      · rw [decide_eq_false hr]
        exact ⟨fun h => (by cases h), fun h => absurd h.1 hr⟩
    constructor
    · rintro ⟨ha, hb⟩
      obtain ⟨it, hit⟩ := dget?_of_mem_dkeys ha
      rw [hit] at hb
      exact ⟨it, hit, (hm it).1 hb⟩
    · rintro ⟨it, hit, hb⟩
      refine ⟨mem_dkeys_of_dget? hit, ?_⟩
      rw [hit]
      exact (hm it).2 hb

theorem address_value {env : Env} {it : Item} {v : Option Val} (h : it.getValue env address none = .ok v) :
    v = it.getRaw address none := by
  have hn : ¬ (address = elementName env.ver ∨ address = itemDescription) := by
    rintro (h | h)
    · cases hv : env.ver <;> rw [hv] at h <;> revert h <;> decide
    · revert h; decide
  unfold Item.getValue Item.replaceWildcards at h
  cases hr : it.getRaw address none with
  | none => rw [hr] at h; cases h; rfl
  | some x =>
    rw [hr] at h
    simp only [if_neg hn, ite_self] at h
    cases h; rfl

theorem serialAddresses_conns {env : Env} {hw : Hw} : ∀ {ids : List Str} {l : List (Option Str)} {cs : List SerialConn},
    serialAddresses env hw ids = .ok l → serialConnections l = .ok cs →
      l.length = ids.length ∧ ∃ rs, List.Forall₂ (PortConnection hw) ids rs ∧ cs = rs.flatMap Option.toList := by
  intro ids
  induction ids with
  | nil => intro l cs h h'; cases h; cases h'; exact ⟨rfl, [], .nil, rfl⟩
  | cons id r ih =>
    intro l cs h h'
    unfold serialAddresses at h
    cases hi : dget? hw id with
    | none => rw [hi] at h; cases h
    | some it =>
      rw [hi] at h; simp only at h
      cases hv : it.getValue env address none with
      | error e => rw [hv] at h; cases h
      | ok v =>
        rw [hv] at h; simp only at h
        cases ha : addressText v with
        | error e => rw [ha] at h; cases h
        | ok a =>
          rw [ha] at h; simp only at h
          cases hs : serialAddresses env hw r with
          | error e => rw [hs] at h; cases h
          | ok l' =>
            rw [hs] at h; cases h
            unfold serialConnections at h'
            cases hc : fromCli a with
            | error e => rw [hc] at h'; cases h'
            | ok c =>
              rw [hc] at h'; simp only at h'
              cases hcs : serialConnections l' with
              | error e => rw [hcs] at h'; cases h'
              | ok cs' =>
                rw [hcs] at h'; cases h'
                obtain ⟨i1, rs, i2, i3⟩ := ih hs hcs
                refine ⟨by simp [i1], c :: rs, .cons ⟨it, hi, ?_⟩ i2, by simp [i3]⟩
                have hv' := address_value hv
                unfold Item.getRaw at hv'
                simp only at hv'
                match ht : it.tab address with
                | [] =>
                  rw [ht] at hv'; subst hv'; cases ha; cases hc
                  exact Or.inr ⟨by simp, rfl⟩
                | [(x, S)] =>
                  rw [ht] at hv'; simp only at hv'; subst hv'
                  cases x with
                  | str t => cases ha; exact Or.inl ⟨t, S, rfl, hc⟩
                  | tup t => cases ha
                | x :: y :: z =>
                  rw [ht] at hv'; simp only at hv'; subst hv'; cases ha; cases hc
                  exact Or.inr ⟨by simp, rfl⟩

/-- C101, the connections: those given are used, as they are; without any, those of the serial ports that the package has in
the profile, in natural order of the ports, which must not be more than four. -/
theorem C101_connections {env : Env} {hw : Hw} {p : Prof} {given cs : List SerialConn} (wf : HwWF env hw)
    (h : deploySerial env hw p given = .ok cs) : UsedConnections env hw p given cs := by
  unfold deploySerial at h
  split at h
  · rename_i hg; cases h; exact Or.inl ⟨hg, rfl⟩
  · rename_i hg
    refine Or.inr ⟨by simpa using hg, ?_⟩
    unfold serialConnectivity at h
    cases hf : findAllItems env hw (some "serial".toList) [] [p] with
    | error e => rw [hf] at h; cases h
    | ok ids =>
      rw [hf] at h; simp only at h
      cases hs : serialAddresses env hw ids with
      | error e => rw [hs] at h; cases h
      | ok l =>
        rw [hs] at h; simp only at h
        unfold esxiSerialConnections at h
        split at h
        · cases h
        · rename_i hl
          obtain ⟨h1, rs, h2, h3⟩ := serialAddresses_conns hs h
          exact ⟨ids, rs, serialItems wf.keys hf, by omega, h2, h3⟩

/-- C101, the ports: it goes on with more connections than the package has serial ports in the profile only if the user agrees;
otherwise no question is asked. -/
theorem C101_count {force : Bool} {env : Env} {hw : Hw} {p : Prof} {cs : List SerialConn} {inp rest : List Str} (wf : HwWF env hw)
    (h : deployCount force env hw p cs inp = (.ok (), rest)) :
    (cs.length ≤ countOf env hw "21".toList p ∧ rest = inp) ∨
    (countOf env hw "21".toList p < cs.length ∧ Agrees force inp rest) := by
  unfold deployCount at h
  cases hd : itemCounts env hw "serial".toList [p] with
  | error e => rw [hd] at h; cases h
  | ok d =>
    rw [hd] at h; simp only at h
    have hc : d p = countOf env hw "21".toList p :=
      itemCounts_countOf wf serialCode (by simp [allProfilesIfEmpty]) hd (by simp [allProfilesIfEmpty])
    rw [hc] at h
    split at h
    · rename_i hl; exact Or.inr ⟨hl, dieUnless_ok.1 h⟩
    · rename_i hl; cases h; exact Or.inl ⟨by omega, rfl⟩

/-! ### The server -/

theorem findMachine_some {name : Str} : ∀ {l : List Str} {k i : Nat}, findMachine name l k = some i →
    ∃ j, i = k + j ∧ FirstNamed l name j := by
  intro l
  induction l with
  | nil => intro k i h; cases h
  | cons n r ih =>
    intro k i h
    unfold findMachine at h
    split at h
    · rename_i hn; cases h; exact ⟨0, rfl, by simp [hn], by simp⟩
    · rename_i hn
      obtain ⟨j, rfl, h1, h2⟩ := ih h
      refine ⟨j + 1, by omega, by simpa using h1, ?_⟩
      intro m hm
      cases m with
      | zero => simpa using hn
      | succ m => simpa using h2 m (by omega)

theorem findMachine_mem {name : Str} : ∀ {l : List Str} {k : Nat}, name ∈ l → ∃ i, findMachine name l k = some i := by
  intro l
  induction l with
  | nil => intro k h; cases h
  | cons n r ih =>
    intro k h
    unfold findMachine
    split
    · exact ⟨_, rfl⟩
    · rename_i hn
      exact ih ((List.mem_cons.1 h).resolve_left (fun e => hn e.symm))

/-- the events of an attempt to connect -/
theorem vsEnter_spec {vs : VSphere W} {force : Bool} {server user pw : Str} {s s' : DeploySt W} {r : Except Err Unit}
    (h : vsEnter vs force server user pw s = (r, s')) :
    s'.ps.log = s.ps.log ∧ (r = .ok () ∨ ∃ e, r = .error e) ∧
    ((s'.verify = s.verify ∧ s'.evs = s.evs ++ [.connect server s.verify]) ∨
     (s'.verify = s.verify ∧ (∃ e, r = .error e) ∧ (∀ x, ¬ Agrees force s.inp x) ∧
        s'.evs = s.evs ++ [.connect server s.verify, .question server]) ∨
     (s'.verify = false ∧ Agrees force s.inp s'.inp ∧
        s'.evs = s.evs ++ [.connect server s.verify, .question server, .connect server false])) := by
  unfold vsEnter at h
  split at h
  · cases h; exact ⟨rfl, Or.inl rfl, Or.inl ⟨rfl, rfl⟩⟩
  · cases h; exact ⟨rfl, Or.inr ⟨_, rfl⟩, Or.inl ⟨rfl, rfl⟩⟩
  · split at h
    · rename_i hd
      cases h
      exact ⟨rfl, Or.inr ⟨_, rfl⟩, Or.inr (Or.inl ⟨rfl, ⟨_, rfl⟩, (dieUnless_error hd).2, rfl⟩)⟩
    · rename_i hd
      have ha := dieUnless_ok.1 hd
      split at h
      · cases h; exact ⟨rfl, Or.inl rfl, Or.inr (Or.inr ⟨rfl, ha, rfl⟩)⟩
      · cases h; exact ⟨rfl, Or.inr ⟨_, rfl⟩, Or.inr (Or.inr ⟨rfl, ha, rfl⟩)⟩

theorem vsBody_spec {vs : VSphere W} {name : Str} {cs : List SerialConn} {s s' : DeploySt W} {r : Except Err Unit}
    (h : vsBody vs name cs s = (r, s')) :
    s'.ps.log = s.ps.log ∧ s'.verify = s.verify ∧
    ((s'.evs = s.evs ∧ ∃ e, r = .error e) ∨
     (∃ i bs, FirstNamed (vs.machines s.ps.w) name i ∧ List.Forall₂ PortFor cs bs ∧ s'.evs = s.evs ++ [.reconfigure i bs] ∧
       r = (vs.reconfig s.ps.w i bs).1)) := by
  unfold vsBody at h
  split at h
  · cases h; exact ⟨rfl, rfl, Or.inl ⟨rfl, _, rfl⟩⟩
  · rename_i i hi
    split at h
    · cases h; exact ⟨rfl, rfl, Or.inl ⟨rfl, _, rfl⟩⟩
    · rename_i bs hb
      cases h
      obtain ⟨j, hj, hn⟩ := findMachine_some hi
      have : i = j := by omega
      subst this
      exact ⟨rfl, rfl, Or.inr ⟨i, bs, hn, (C50_ports cs).1 bs hb, rfl, rfl⟩⟩

/-- C102, what is done on the server to set the serial ports, for every server and every answer.  All ports are set by one
request, for the first machine with the name, and the connection is closed afterwards; if that is not to be, nothing is changed
and the result is an error.  A connection that was made is always closed.  A connection without verification of the
certificate is made only if that had been accepted before, or after the user has been asked and has agreed. -/
theorem C102_ports_partial {vs : VSphere W} {force : Bool} {server user pw name : Str} {cs : List SerialConn} {s s' : DeploySt W}
    {r : Except Err Unit} (h : fixupPorts vs force server user pw name cs s = (r, s')) :
    s'.ps.log = s.ps.log ∧
    ∃ entry rest, s'.evs = s.evs ++ entry ++ rest ∧
      ((entry = [.connect server s.verify] ∧ s'.verify = s.verify) ∨
       (entry = [.connect server s.verify, .question server] ∧ s'.verify = s.verify ∧ rest = [] ∧ ∀ x, ¬ Agrees force s.inp x) ∨
       (entry = [.connect server s.verify, .question server, .connect server false] ∧ s'.verify = false ∧
          ∃ x, Agrees force s.inp x)) ∧
      ((rest = [] ∧ ∃ e, r = .error e) ∨
       (rest = [.disconnect] ∧ ∃ e, r = .error e) ∨
       (∃ w i bs, rest = [.reconfigure i bs, .disconnect] ∧ FirstNamed (vs.machines w) name i ∧ List.Forall₂ PortFor cs bs ∧
          r = (vs.reconfig w i bs).1)) := by
  unfold fixupPorts at h
  cases he : vsEnter vs force server user pw s with
  | mk r1 s1 =>
    rw [he] at h
    obtain ⟨l1, -, e1⟩ := vsEnter_spec he
    cases r1 with
    | error e =>
      cases h
      refine ⟨l1, ?_⟩
      rcases e1 with ⟨h1, h2⟩ | ⟨h1, h2, h3, h4⟩ | ⟨h1, h2, h3⟩
      · exact ⟨_, [], by rw [h2]; simp, Or.inl ⟨rfl, h1⟩, Or.inl ⟨rfl, _, rfl⟩⟩
      · exact ⟨_, [], by rw [h4]; simp, Or.inr (Or.inl ⟨rfl, h1, rfl, h3⟩), Or.inl ⟨rfl, _, rfl⟩⟩
      · exact ⟨_, [], by rw [h3]; simp, Or.inr (Or.inr ⟨rfl, h1, _, h2⟩), Or.inl ⟨rfl, _, rfl⟩⟩
    | ok u =>
      simp only at h
      cases hb : vsBody vs name cs s1 with
      | mk r2 s2 =>
        rw [hb] at h
        cases h
        obtain ⟨l2, v2, e2⟩ := vsBody_spec hb
        refine ⟨l2.trans l1, ?_⟩
        have ent : ∃ entry, s1.evs = s.evs ++ entry ∧
            ((entry = [.connect server s.verify] ∧ s1.verify = s.verify) ∨
             (entry = [.connect server s.verify, .question server, .connect server false] ∧ s1.verify = false ∧
                ∃ x, Agrees force s.inp x)) := by
          rcases e1 with ⟨h1, h2⟩ | ⟨-, ⟨e, h2⟩, -⟩ | ⟨h1, h2, h3⟩
          · exact ⟨_, h2, Or.inl ⟨rfl, h1⟩⟩
          · cases h2
          · exact ⟨_, h3, Or.inr ⟨rfl, h1, _, h2⟩⟩
        obtain ⟨entry, g1, g2⟩ := ent
        have g2' : ∀ rest : List VsEv, (entry = [.connect server s.verify] ∧ s2.verify = s.verify) ∨
            (entry = [.connect server s.verify, .question server] ∧ s2.verify = s.verify ∧ rest = [] ∧ ∀ x, ¬ Agrees force s.inp x) ∨
            (entry = [.connect server s.verify, .question server, .connect server false] ∧ s2.verify = false ∧
              ∃ x, Agrees force s.inp x) := by
          intro rest
          rw [v2]
          rcases g2 with g | g
          · exact Or.inl g
          · exact Or.inr (Or.inr g)
        rcases e2 with ⟨k1, e, k2⟩ | ⟨i, bs, k1, k2, k3, k4⟩
        · exact ⟨entry, [.disconnect], by simp [DeploySt.did, k1, g1], g2' _, Or.inr (Or.inl ⟨rfl, e, k2⟩)⟩
        · exact ⟨entry, [.reconfigure i bs, .disconnect], by simp [DeploySt.did, k3, g1], g2' _,
            Or.inr (Or.inr ⟨_, i, bs, rfl, k1, k2, k4⟩)⟩

/-- C102, with a server that accepts the connection and the request, and has the machine, all connections that are to devices,
tcp or telnet get their ports. -/
theorem C102_done {vs : VSphere W} {force : Bool} {server user pw name : Str} {cs : List SerialConn} {s : DeploySt W}
    (hc : ∀ w v, (vs.connect w v server user pw).1 = .ok) (hm : ∀ w, name ∈ vs.machines w)
    (hr : ∀ w i bs, (vs.reconfig w i bs).1 = .ok ())
    (hk : ∀ c ∈ cs, c.kind ∈ ["device".toList, "tcp".toList, "telnet".toList]) :
    ∃ i bs, List.Forall₂ PortFor cs bs ∧ (fixupPorts vs force server user pw name cs s).1 = .ok () ∧
      (fixupPorts vs force server user pw name cs s).2.evs =
        s.evs ++ [.connect server s.verify, .reconfigure i bs, .disconnect] := by
  obtain ⟨bs, hbs⟩ := (C50_ports cs).2.2 hk
  cases h1 : vs.connect s.ps.w s.verify server user pw with
  | mk r w =>
    have : r = .ok := by have := hc s.ps.w s.verify; rw [h1] at this; exact this
    subst this
    obtain ⟨i, hi⟩ := findMachine_mem (k := 0) (hm w)
    refine ⟨i, bs, (C50_ports cs).1 bs hbs, ?_, ?_⟩
    · unfold fixupPorts vsEnter vsBody
      simp only [h1, DeploySt.did, hi, hbs]
      exact hr _ _ _
    · unfold fixupPorts vsEnter vsBody
      simp [h1, DeploySt.did, hi, hbs]

/-! ### The whole command -/

theorem deployInject_spec {d : DeployWorld W} {vm : DeployVm} {locator : Str} {powerOn : Bool} {s s' : DeploySt W}
    {r : Except Err Bool} (hf : ∀ w, d.ui.found w "ovftool".toList = true) (h : deployInject d vm locator powerOn s = (r, s')) :
    OnlyAsked s.ps.log s'.ps.log ∧ s'.evs = s.evs ∧ s'.verify = s.verify ∧
    ∀ b, r = .ok b → InjectDecision vm.hasProps locator powerOn d.force s.ps.log s'.ps.log s.inp s'.inp b := by
  unfold deployInject at h
  split at h
  · rename_i hp
    have hver : ∀ rv ps, ovftoolVersion d s.ps = (rv, ps) →
        ∃ x, ps.log = s.ps.log ++ [(["ovftool".toList, "--version".toList], x)] ∧ rv ≠ .ok none ∧
          ∀ v, rv = .ok (some v) → ToolTells x v := by
      intro rv ps hv
      unfold ovftoolVersion at hv
      rw [if_pos (show d.ui.found s.ps.w ovftoolName = true from hf _)] at hv
      have hready : helperReady d.ui ovftoolName s.ps = (.ok (), s.ps) := by
        unfold helperReady; rw [if_pos (show d.ui.found s.ps.w ovftoolName = true from hf _)]
      unfold helperOutput at hv
      simp only [hready, dget?] at hv
      have ho := (C95_output_partial (ex := d.ex) (require := false) (retry := false) (s := s.ps)
        (cmd := [ovftoolName, "--version".toList]) (by simp)).2 (by simp)
      cases hco : checkOutput d.ex false false [ovftoolName, "--version".toList] s.ps with
      | mk ro so =>
        rw [hco] at ho hv
        obtain ⟨o1, o2⟩ := ho
        simp only at o1 o2
        refine ⟨(d.ex s.ps.w [ovftoolName, "--version".toList]).1, ?_⟩
        cases ro with
        | error e =>
          cases hv
          exact ⟨by rw [o1]; rfl, by simp, by simp⟩
        | ok out =>
          simp only at hv
          cases hh : helperVersion "ovftool ".toList out with
          | error e => rw [hh] at hv; cases hv; exact ⟨by rw [o1]; rfl, by simp, by simp⟩
          | ok v =>
            rw [hh] at hv; cases hv
            refine ⟨by rw [o1]; rfl, by simp, ?_⟩
            intro v' hv'
            cases hv'
            obtain ⟨t, ht, htv⟩ := (C100_version _ _).2.2.2 v hh
            rcases o2 with ⟨-, t', ht', hw⟩ | ⟨-, e, he, -⟩
            · cases ht'; exact ⟨out, t, hw, ht, htv⟩
            · cases he
    cases hv : ovftoolVersion d s.ps with
    | mk rv ps =>
      obtain ⟨x, l1, l2, l3⟩ := hver rv ps hv
      rw [hv] at h
      match rv, l2, l3, h with
      | .error e, _, _, h => cases h; exact ⟨Or.inr ⟨x, l1⟩, rfl, rfl, by simp⟩
      | .ok none, l2, _, _ => exact absurd rfl l2
      | .ok (some v), _, l3, h =>
        simp only at h
        split at h
        · rename_i hc
          cases hd : dieUnless d.force s.inp with
          | mk rd inp =>
            rw [hd] at h
            cases rd with
            | error e => cases h; exact ⟨Or.inr ⟨x, l1⟩, rfl, rfl, by simp⟩
            | ok u =>
              cases h
              refine ⟨Or.inr ⟨x, l1⟩, rfl, rfl, ?_⟩
              intro b hb
              cases hb
              refine Or.inr ⟨hp.1, hp.2, x, v, l1, l3 v rfl, Or.inr ⟨rfl, ?_, dieUnless_ok.1 hd⟩⟩
              rcases hc with hc | hc
              · left
                by_contra hno
                rw [← C100_order, hc] at hno
                cases hno
              · exact Or.inr hc
        · rename_i hc
          cases h
          refine ⟨Or.inr ⟨x, l1⟩, rfl, rfl, ?_⟩
          intro b hb
          cases hb
          simp only [not_or, Bool.not_eq_false] at hc
          exact Or.inr ⟨hp.1, hp.2, x, v, l1, l3 v rfl, Or.inl ⟨rfl, (C100_order _ _).1 hc.1, hc.2, rfl⟩⟩
  · rename_i hp
    cases h
    refine ⟨Or.inl rfl, rfl, rfl, ?_⟩
    intro b hb
    cases hb
    refine Or.inl ⟨?_, rfl, rfl, rfl⟩
    cases hh : vm.hasProps with
    | false => exact Or.inl rfl
    | true =>
      right
      cases hs : hasSub "/host/".toList locator with
      | true => rfl
      | false => exact absurd ⟨hh, hs⟩ hp

theorem toolArgs_eq (c : DeployCmd) (package : Str) (p : Prof) (inject : Bool) (target : Str) :
    fixupArgs ⟨p, c.networkMap, c.vmName, package, c.powerOn, c.datastore⟩
      (if inject then c.ovftoolArgs ++ ["--X:injectOvfEnv".toList] else c.ovftoolArgs) target = ToolArgs c package p inject target := by
  have he : (if inject then c.ovftoolArgs ++ ["--X:injectOvfEnv".toList] else c.ovftoolArgs) =
      c.ovftoolArgs ++ (if inject then ["--X:injectOvfEnv".toList] else []) := by cases inject <;> simp
  rw [C51_args, he]
  rfl

/-- C101, the command as a whole, ovftool being installed, for every package, command line, answers and server.  Either nothing
is deployed: the result is an error, ovftool has at most been asked for its version, and the server has not been contacted.  Or
ovftool is run once to deploy, after everything that needs the user's consent has got it, with the arguments that follow from
the command and the package; if that fails the result is an error and the server is not contacted; if it succeeds and there
are no connections, that is all; and otherwise the serial ports are set on the server (C102). -/
theorem C101_deploy_partial {d : DeployWorld W} {vm : DeployVm} {c : DeployCmd} {s s' : DeploySt W} {r : Except Err Unit}
    (wf : HwWF vm.env vm.hw) (hf : ∀ w, d.ui.found w "ovftool".toList = true) (h : deployEsxi d vm c s = (r, s')) :
    ((∃ e, r = .error e) ∧ OnlyAsked s.ps.log s'.ps.log ∧ s'.evs = s.evs ∧ s'.verify = s.verify) ∨
    (∃ locator package pw p cs inject log1 inp1 inp2 inp3 x,
      c.locator = some locator ∧ c.package = some package ∧ c.hypervisor ≠ none ∧
      (c.password = some pw ∨ c.password = none ∧ d.force = false ∧ d.getpass = some pw) ∧
      ChosenProfile d.force vm.env.configProfiles c.configuration s.inp p inp1 ∧
      UsedConnections vm.env vm.hw p c.serial cs ∧
      ((cs.length ≤ countOf vm.env vm.hw "21".toList p ∧ inp2 = inp1) ∨
        (countOf vm.env vm.hw "21".toList p < cs.length ∧ Agrees d.force inp1 inp2)) ∧
      InjectDecision vm.hasProps locator c.powerOn d.force s.ps.log log1 inp2 inp3 inject ∧
      s'.ps.log = log1 ++ [("ovftool".toList :: ToolArgs c package p inject
        ("vi://".toList ++ c.username.getD d.getuser ++ ":".toList ++ pw ++ "@".toList ++ locator), x)] ∧
      (((¬ ∃ out, x = .exit 0 out) ∧ (∃ e, r = .error e) ∧ s'.evs = s.evs ∧ s'.verify = s.verify) ∨
       ((∃ out, x = .exit 0 out) ∧ cs = [] ∧ r = .ok () ∧ s'.evs = s.evs ∧ s'.verify = s.verify) ∨
       ((∃ out, x = .exit 0 out) ∧ cs ≠ [] ∧ ∃ s1 : DeploySt W, s1.evs = s.evs ∧ s1.verify = s.verify ∧ s1.inp = inp3 ∧
          s1.ps.log = s'.ps.log ∧
          fixupPorts d.vs d.force (locator.takeWhile (· != '/')) (c.username.getD d.getuser) pw
            (c.vmName.getD (pathRoot (pathBase package))) cs s1 = (r, s')))) := by
  unfold deployEsxi at h
  split at h
  · rename_i locator hyp package hl hh hpk
    unfold deployPlan at h
    cases hp : deployProfile d.force vm.env c.configuration s.inp with
    | mk rp inp1 =>
      rw [hp] at h
      cases rp with
      | error e => cases h; exact Or.inl ⟨⟨_, rfl⟩, Or.inl rfl, rfl, rfl⟩
      | ok p =>
        simp only at h
        cases hs : deploySerial vm.env vm.hw p c.serial with
        | error e => rw [hs] at h; cases h; exact Or.inl ⟨⟨_, rfl⟩, Or.inl rfl, rfl, rfl⟩
        | ok cs =>
          rw [hs] at h
          simp only at h
          cases hc : deployCount d.force vm.env vm.hw p cs inp1 with
          | mk rc inp2 =>
            rw [hc] at h
            cases rc with
            | error e => cases h; exact Or.inl ⟨⟨_, rfl⟩, Or.inl rfl, rfl, rfl⟩
            | ok u =>
              simp only at h
              cases hw : deployPassword d c.password with
              | error e => rw [hw] at h; cases h; exact Or.inl ⟨⟨_, rfl⟩, Or.inl rfl, rfl, rfl⟩
              | ok pw =>
                rw [hw] at h
                simp only at h
                have hpw : c.password = some pw ∨ c.password = none ∧ d.force = false ∧ d.getpass = some pw := by
                  unfold deployPassword at hw
                  cases hcp : c.password with
                  | some q => rw [hcp] at hw; cases hw; exact Or.inl rfl
                  | none =>
                    rw [hcp] at hw
                    simp only at hw
                    split at hw
                    · cases hw
                    · rename_i hfo
                      cases hg : d.getpass with
                      | none => rw [hg] at hw; cases hw
                      | some q => rw [hg] at hw; cases hw; exact Or.inr ⟨rfl, by simpa using hfo, rfl⟩
                unfold deployRest at h
                cases hi : deployInject d vm locator c.powerOn { s with inp := inp2 } with
                | mk ri s1 =>
                  obtain ⟨i1, i2, i3, i4⟩ := deployInject_spec hf hi
                  rw [hi] at h
                  cases ri with
                  | error e => cases h; exact Or.inl ⟨⟨_, rfl⟩, i1, i2, i3⟩
                  | ok inject =>
                    simp only at h
                    rw [helperCall_found (name := ovftoolName) (hf _)] at h
                    right
                    rw [toolArgs_eq] at h
                    generalize hta : ToolArgs c package p inject (deployTarget (c.username.getD d.getuser) pw locator) = args at h
                    cases hx : checkCall d.ex true false (ovftoolName :: args) s1.ps with
                    | mk rx ps =>
                      rw [hx] at h
                      have added := checkCall_added (by simp) hx
                      rcases added with ⟨x, a1, a2⟩ | ⟨x, y, a1, -⟩
                      · have base : ps.log = s1.ps.log ++ [("ovftool".toList :: ToolArgs c package p inject
                            ("vi://".toList ++ c.username.getD d.getuser ++ ":".toList ++ pw ++ "@".toList ++ locator), x)] := by
                          rw [a1, ← hta]; rfl
                        refine ⟨locator, package, pw, p, cs, inject, s1.ps.log, inp1, inp2, s1.inp, x, hl, hpk, by simp [hh], hpw,
                          C101_profile hp, C101_connections wf hs, C101_count wf hc, i4 inject rfl, ?_⟩
                        cases rx with
                        | error e =>
                          cases h
                          exact ⟨base, Or.inl ⟨fun hn => (by cases a2.2 hn), ⟨_, rfl⟩, i2, i3⟩⟩
                        | ok u =>
                          simp only at h
                          have hok := a2.1 rfl
                          split at h
                          · rename_i hcs; cases h; exact ⟨base, Or.inr (Or.inl ⟨hok, hcs, rfl, i2, i3⟩)⟩
                          · rename_i hcs
                            have hlog : s'.ps.log = ps.log := (C102_ports_partial h).1
                            exact ⟨hlog.trans base, Or.inr (Or.inr ⟨hok, hcs, { s1 with ps := ps }, i2, i3, rfl, hlog.symm, h⟩)⟩
                      · cases a1
  · cases h; exact Or.inl ⟨⟨_, rfl⟩, Or.inl rfl, rfl, rfl⟩

/-- C101, it gets done: with --force, a complete command line with connections that ESXi can have, an ovftool that does its
work and a server that does its, the result is success, ovftool has deployed and the ports are set. -/
theorem C101_completes {d : DeployWorld W} {vm : DeployVm} {c : DeployCmd} {s : DeploySt W} {locator hyp package pw : Str}
    (hf : ∀ w, d.ui.found w "ovftool".toList = true) (hforce : d.force = true) (hl : c.locator = some locator)
    (hh : c.hypervisor = some hyp) (hpk : c.package = some package) (hpw : c.password = some pw) (hp : vm.hasProps = false)
    (hx : ∀ w args, ∃ out, (d.ex w ("ovftool".toList :: args)).1 = .exit 0 out)
    (hcs : c.serial ≠ []) (hk : ∀ x ∈ c.serial, x.kind ∈ ["device".toList, "tcp".toList, "telnet".toList])
    (hc : ∀ w v srv u q, (d.vs.connect w v srv u q).1 = .ok)
    (hm : ∀ w, c.vmName.getD (pathRoot (pathBase package)) ∈ d.vs.machines w) (hr : ∀ w i bs, (d.vs.reconfig w i bs).1 = .ok ()) :
    (deployEsxi d vm c s).1 = .ok () ∧ ∃ i bs, List.Forall₂ PortFor c.serial bs ∧ (deployEsxi d vm c s).2.evs =
      s.evs ++ [.connect (locator.takeWhile (· != '/')) s.verify, .reconfigure i bs, .disconnect] := by
  have hprof : ∃ p, deployProfile d.force vm.env c.configuration s.inp = (.ok p, s.inp) := by
    unfold deployProfile
    cases c.configuration with
    | some p => exact ⟨_, rfl⟩
    | none =>
      simp only
      match vm.env.configProfiles with
      | [] => exact ⟨_, rfl⟩
      | [x] => exact ⟨_, rfl⟩
      | x :: y :: z =>
        refine ⟨some x, ?_⟩
        simp [hforce, chooseFromList]
  obtain ⟨p, hprof⟩ := hprof
  have hser : deploySerial vm.env vm.hw p c.serial = .ok c.serial := by unfold deploySerial; rw [if_pos hcs]
  have hcount : deployCount d.force vm.env vm.hw p c.serial s.inp = (.ok (), s.inp) := by
    unfold deployCount
    obtain ⟨ids, hids⟩ := findAllItems_ok (env := vm.env) (hw := vm.hw) serialCode
    unfold itemCounts
    rw [hids]
    simp only
    split
    · exact dieUnless_ok.2 (Or.inl ⟨hforce, rfl⟩)
    · rfl
  have hplan : deployPlan d.force vm.env vm.hw c.configuration c.serial s.inp = (.ok (p, c.serial), s.inp) := by
    unfold deployPlan
    simp only [hprof, hser, hcount]
  have hinj : deployInject d vm locator c.powerOn { s with inp := s.inp } = (.ok false, s) := by
    unfold deployInject
    rw [if_neg (by simp [hp])]
  have e : deployEsxi d vm c s = deployRest d vm c locator package (c.username.getD d.getuser) pw p c.serial { s with inp := s.inp } := by
    unfold deployEsxi deployPassword
    simp only [hl, hh, hpk, hplan, hpw]
  rw [e]
  unfold deployRest
  rw [hinj]
  simp only
  rw [helperCall_found (name := ovftoolName) (hf _), toolArgs_eq]
  generalize ToolArgs c package p false (deployTarget (c.username.getD d.getuser) pw locator) = args
  cases hcc : checkCall d.ex true false (ovftoolName :: args) s.ps with
  | mk rx ps =>
    have hok : rx = .ok () := by
      rcases checkCall_added (by simp) hcc with ⟨x, a1, a2⟩ | ⟨x, y, a1, -⟩
      · have key := (C95_call (ex := d.ex) (require := true) (retry := false) (s := s.ps) (cmd := ovftoolName :: args) (by simp)).2
          (by simp)
        rw [hcc] at key
        have hlog := key.1
        simp only at hlog
        rw [hlog] at a1
        simp only [List.append_cancel_left_eq, List.cons.injEq, Prod.mk.injEq, true_and, and_true] at a1
        obtain ⟨out, ho⟩ := hx s.ps.w args
        exact a2.2 ⟨out, by rw [← a1]; exact ho⟩
      · cases a1
    subst hok
    simp only
    rw [if_neg hcs]
    obtain ⟨i, bs, k1, k2, k3⟩ := C102_done (vs := d.vs) (force := d.force) (server := locator.takeWhile (· != '/'))
      (user := c.username.getD d.getuser) (pw := pw) (name := deployName c package) (cs := c.serial) (s := { s with ps := ps })
      (fun w v => hc w v _ _ _) hm hr hk
    exact ⟨k2, i, bs, k1, k3⟩

/-! ### Examples and findings -/

def exSerialProps (id : String) : List (Str × Str) := [("InstanceID".toList, id.toList), ("ResourceType".toList, "21".toList),
  ("Address".toList, "tcp:localhost:2222,server".toList)]

/-- a CPU, two NICs and a serial port with a connection -/
def exDepHw : Hw := exHw ++ [("13".toList, itemIn {none} (exSerialProps "13"))]

theorem exDepHw_wf : HwWF exEnv exDepHw :=
  hwWF_snoc exHw_wf (by decide +kernel) (by decide) (by decide) (by decide +kernel)
    (by
      have : ∀ ns ∈ exSerialProps "13", ns.2 ≠ [] ∧ ns.1 ≠ resourceSubType := by decide +kernel
      exact fun n s h => this (n, s) h)
    (by decide +kernel)

def exDepVm : DeployVm := ⟨exEnv, exDepHw, true⟩

/-- every program succeeds, and tells version 4.1.0; the certificate of the server is not accepted when verified -/
def exDepWorld : DeployWorld Unit :=
  { ex := fun _ _ => (.exit 0 "VMware ovftool 4.1.0 (build-2)".toList, ())
    ui := ⟨fun _ _ => true, none, fun _ s => (.ok (), s)⟩
    vs := ⟨fun _ v _ _ _ => (if v then .badCertificate else .ok, ()), fun _ => ["other".toList, "vm".toList, "vm".toList],
      fun _ _ _ => (.ok (), ())⟩
    force := false
    getuser := "me".toList
    getpass := some "secret".toList }

def exDepCmd : DeployCmd :=
  { hypervisor := some "esxi".toList, locator := some "host1/folder".toList, package := some "/tmp/vm.ova".toList,
    configuration := none, serial := [], username := none, password := none, ovftoolArgs := ["-q".toList], networkMap := none,
    vmName := none, powerOn := true, datastore := none }

def exDepSt (inp : List Str) : DeploySt Unit := ⟨⟨(), []⟩, inp, true, []⟩

/-- the user selects the second profile and accepts the certificate -/
example : (∀ w, exDepWorld.ui.found w "ovftool".toList = true) ∧
    deployEsxi exDepWorld exDepVm exDepCmd (exDepSt ["2".toList, "what".toList, "y".toList]) =
    (.ok (), ⟨⟨(), [(["ovftool".toList, "--version".toList], .exit 0 "VMware ovftool 4.1.0 (build-2)".toList),
      (["ovftool".toList, "-q".toList, "--X:injectOvfEnv".toList, "--deploymentOption=y".toList, "--name=vm".toList,
        "--powerOn".toList, "/tmp/vm.ova".toList, "vi://me:secret@host1/folder".toList],
        .exit 0 "VMware ovftool 4.1.0 (build-2)".toList)]⟩, [], false,
      [.connect "host1".toList true, .question "host1".toList, .connect "host1".toList false,
       .reconfigure 1 [.uri "tcp://localhost:2222".toList true], .disconnect]⟩) := ⟨fun _ => rfl, rfl⟩

/-- the user does not accept the certificate -/
example : (deployEsxi exDepWorld exDepVm exDepCmd (exDepSt ["2".toList, "n".toList])).1 = .error .systemExit ∧
    (deployEsxi exDepWorld exDepVm exDepCmd (exDepSt ["2".toList, "n".toList])).2.evs =
      [.connect "host1".toList true, .question "host1".toList] := ⟨rfl, rfl⟩

/-- the user does not want more connections than ports: nothing is run -/
example : (deployEsxi exDepWorld exDepVm
      { exDepCmd with serial := [⟨"tcp".toList, "h:1".toList, []⟩, ⟨"tcp".toList, "h:2".toList, []⟩] }
      (exDepSt ["".toList, "n".toList])).1 = .error .systemExit ∧
    (deployEsxi exDepWorld exDepVm
      { exDepCmd with serial := [⟨"tcp".toList, "h:1".toList, []⟩, ⟨"tcp".toList, "h:2".toList, []⟩] }
      (exDepSt ["".toList, "n".toList])).2.ps.log = [] := ⟨rfl, rfl⟩

/-- the hypotheses of `C101_completes` -/
example : ∃ d : DeployWorld Unit, (∀ w, d.ui.found w "ovftool".toList = true) ∧ d.force = true ∧
    (∀ w args, ∃ out, (d.ex w ("ovftool".toList :: args)).1 = .exit 0 out) ∧ (∀ w v srv u q, (d.vs.connect w v srv u q).1 = .ok) ∧
    (∀ w, exDepCmd.vmName.getD (pathRoot (pathBase "/tmp/vm.ova".toList)) ∈ d.vs.machines w) ∧
    (∀ w i bs, (d.vs.reconfig w i bs).1 = .ok ()) :=
  ⟨{ exDepWorld with force := true, vs := { exDepWorld.vs with connect := fun _ _ _ _ _ => (.ok, ()) } },
    fun _ => rfl, rfl, fun _ _ => ⟨_, rfl⟩, fun _ _ _ _ _ => rfl, fun w => (by cases w; decide +kernel), fun _ _ _ => rfl⟩

/-- C101, finding: the target does not tell user, password and server apart: two commands for different servers and with
different passwords run exactly the same ovftool command. -/
theorem C101_target_fails : ∃ c c' : DeployCmd, c.locator ≠ c'.locator ∧ c.password ≠ c'.password ∧
    (deployEsxi exDepWorld exDepVm c (exDepSt ["y".toList, "y".toList])).2.ps.log =
      (deployEsxi exDepWorld exDepVm c' (exDepSt ["y".toList, "y".toList])).2.ps.log ∧
    (deployEsxi exDepWorld exDepVm c (exDepSt ["y".toList, "y".toList])).1 = .ok () :=
  ⟨{ exDepCmd with password := some "p@q".toList, locator := some "h".toList },
   { exDepCmd with password := some "p".toList, locator := some "q@h".toList }, by decide, by decide, rfl, rfl⟩

/-- C101, finding: without ovftool, a package with properties is not refused because the tool is missing, nor is installation
offered: the program fails with a TypeError. -/
theorem C101_no_tool_fails : ∃ d : DeployWorld Unit, d.ui.found () "ovftool".toList = false ∧
    (deployEsxi d exDepVm exDepCmd (exDepSt ["y".toList])).1 = .error .typeError :=
  ⟨{ exDepWorld with ui := { exDepWorld.ui with found := fun _ _ => false } }, rfl, rfl⟩

def exBare (id : String) : Str × Item :=
  (id.toList, itemIn {none} [("InstanceID".toList, id.toList), ("ResourceType".toList, "21".toList)])

/-- C101, finding: a package with five serial ports is refused although none of them is to be connected. -/
theorem C101_unconnected_fails : ∃ hw : Hw, (∀ kv ∈ hw, kv.2.tab address = []) ∧
    (deployEsxi exDepWorld ⟨exEnv, hw, false⟩ exDepCmd (exDepSt ["y".toList])).1 = .error .valueUnsupported :=
  ⟨["1", "2", "3", "4", "5"].map exBare, by decide +kernel, rfl⟩

/-- C101, finding: a serial port whose connection depends on the profile is not connected at all, whatever the profile. -/
theorem C101_profile_address_fails : ∃ (hw : Hw) (it : Item), dget? hw "13".toList = some it ∧
    it.getValue exEnv address (some {pY}) = .ok (some (.str "tcp:h:2".toList)) ∧
    (deployEsxi exDepWorld ⟨exEnv, hw, false⟩ { exDepCmd with configuration := pY } (exDepSt [])).1 = .ok () ∧
    (deployEsxi exDepWorld ⟨exEnv, hw, false⟩ { exDepCmd with configuration := pY } (exDepSt [])).2.evs = [] :=
  ⟨[("13".toList, { props := [("InstanceID".toList, [(.str "13".toList, {none})]), ("ResourceType".toList, [(.str "21".toList, {none})]),
      ("Address".toList, [(.str "tcp:h:1".toList, {none}), (.str "tcp:h:2".toList, {pY})])], ns := rasd, modified := false })],
    _, rfl, rfl, rfl, rfl⟩

/-- C102, finding: a connection that ESXi cannot have is noticed only after the machine has been deployed. -/
theorem C102_late_fails : ∃ c : DeployCmd,
    (deployEsxi exDepWorld exDepVm c (exDepSt ["y".toList, "y".toList])).1 = .error .notImplementedError ∧
    (deployEsxi exDepWorld exDepVm c (exDepSt ["y".toList, "y".toList])).2.ps.log.length = 2 ∧
    (deployEsxi exDepWorld exDepVm c (exDepSt ["y".toList, "y".toList])).2.evs =
      [.connect "host1".toList true, .question "host1".toList, .connect "host1".toList false, .disconnect] :=
  ⟨{ exDepCmd with serial := [⟨"pipe".toList, "foo".toList, []⟩] }, rfl, rfl, rfl⟩

/-- C102, finding: accepting the certificate of one server turns verification off for every server that is contacted later. -/
theorem C102_verify_fails : ∃ (c c' : DeployCmd) (s : DeploySt Unit), c.locator ≠ c'.locator ∧ s.verify = true ∧
    (deployEsxi exDepWorld exDepVm c s).1 = .ok () ∧ (deployEsxi exDepWorld exDepVm c' (deployEsxi exDepWorld exDepVm c s).2).1 = .ok () ∧
    VsEv.connect "host2".toList false ∈ (deployEsxi exDepWorld exDepVm c' (deployEsxi exDepWorld exDepVm c s).2).2.evs ∧
    VsEv.question "host2".toList ∉ (deployEsxi exDepWorld exDepVm c' (deployEsxi exDepWorld exDepVm c s).2).2.evs :=
  ⟨exDepCmd, { exDepCmd with locator := some "host2".toList }, exDepSt ["y".toList, "y".toList, "y".toList],
    by decide, rfl, rfl, rfl, by decide +kernel, by decide +kernel⟩

end Cot
