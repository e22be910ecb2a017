import Verif.Props.CommandDiskCases
import Verif.Props.CommandDiskRuns
/-
C125: right command lines that meet the hypotheses of the theorems about what is carried out.
-/
namespace Cot

/-- a command line whose options take any text -/
theorem rightLine_texts {P : ArgParser} {us : List ArgUse} {ws : List Str} (h1 : ws.length = P.pos.length)
    (h2 : ∀ o ∈ us.map ArgUse.opt, o.type = .text ∧ o.choices = none ∧ o.group = 0) : RightLine P us ws := by
  refine ⟨h1, ?_, ?_⟩
  · intro u hu s _
    obtain ⟨e1, e2, -⟩ := h2 _ (List.mem_map_of_mem hu)
    refine ⟨.text s, ?_, ?_⟩
    · rw [e1]; rfl
    · rw [e2]; rintro cs ⟨⟩
  · refine List.pairwise_of_forall_mem_list ?_
    intro u hu x _ hne
    exact absurd (h2 _ (List.mem_map_of_mem hu)).2.2 hne

theorem noConflict_nil : NoConflict [] := List.Pairwise.nil

/-- `cot add-file new.iso -f iso a.ovf` -/
example (c : Ctx) (ask : Prompt → Bool) (p : Pkg) : (addFileMain exEhFiles (fun s => decide (s = "new.iso".toList)) c ask
      ([] ++ "add-file".toList :: ["new.iso".toList, "-f".toList, "iso".toList, "a.ovf".toList]) p).map Prod.snd =
    addFileCmd c ask p "new.iso".toList (some "iso".toList) :=
  C125_add_file_runs_partial .done exAddFileLine (noPrints (by decide +kernel)) (clear_of_isOk main_top.opts.flags (by decide +kernel)) noConflict_nil
    (rightLine_texts rfl (by decide +kernel)) (by decide +kernel) rfl (fun _ _ => rfl) p

/-- `cot delete-file a.ovf --file-path c.iso` -/
example (env : Env) (ask : Prompt → Bool) (p : Pkg) : (removeFileMain exEhFiles env ask
      ([] ++ "delete-file".toList :: ["a.ovf".toList, "--file-path".toList, "c.iso".toList]) p).map Prod.snd =
    removeFileCmd env ask p (some "c.iso".toList) none :=
  C125_remove_file_runs_partial (.inr (by decide +kernel)) .done exRemoveLine (noPrints (by decide +kernel))
    (clear_of_isOk main_top.opts.flags (by decide +kernel)) noConflict_nil (rightLine_texts rfl (by decide +kernel)) rfl (fun _ _ => rfl)
    (.inl (by decide +kernel)) p

/-- `cot inject-config a.ovf -c my.cfg -e x/y.txt` -/
example (c : Ctx) (w : IcWorld) (plat : Str → Str) (ask : Prompt → Bool) (over : Option Str → Bool) (p : Pkg) :
    (injectMain exEhFiles (fun _ => true) c w .csr plat ask over ([] ++ "inject-config".toList :: exInjectLine) p).1.map Prod.snd =
    (injectConfig c w .csr plat ask over p ⟨some "my.cfg".toList, none, ["x/y.txt".toList]⟩).1.map Prod.snd :=
  (C125_inject_runs_partial (q := ⟨some "my.cfg".toList, none, ["x/y.txt".toList]⟩) (.inl rfl) .done exInjectLine_ok (noPrints (by decide +kernel))
    (clear_of_isOk main_top.opts.flags (by decide +kernel)) noConflict_nil (rightLine_texts rfl (by decide +kernel)) rfl (fun _ _ => rfl)
    (show (⟨some "my.cfg".toList, none, ["x/y.txt".toList]⟩ : IcReq) = ⟨lastGiven "--config-file" exInjectUses,
      lastGiven "--secondary-config-file" exInjectUses, allGiven "--extra-files" exInjectUses⟩ by
      rw [show lastGiven "--config-file" exInjectUses = some "my.cfg".toList by decide +kernel,
        show lastGiven "--secondary-config-file" exInjectUses = none by decide +kernel,
        show allGiven "--extra-files" exInjectUses = ["x/y.txt".toList] by decide +kernel]) (fun _ _ => rfl)
    (fun _ => by decide +kernel) (fun h => absurd rfl h) (.inl ⟨_, rfl, by decide⟩) p).2

/-- `cot -f set-properties a.ovf -p login=xyz ssh=yes+boolean -l Login SSH -t iso` -/
example (v : Ver) (ask : Str → Bool) (vs : Elem) (hws : Option Elem) : ∃ q, q.labels = ["Login".toList, "SSH".toList] ∧
    (propsMain exEhFiles (fun _ => none) v ask false [] (["-f".toList] ++ "set-properties".toList :: exPropLine) vs hws).map (fun r => r.map Prod.snd) =
      editProperties v ask false [] q vs hws := by
  have hps : ∀ s ∈ allGiven "--properties" exPropUses, '\n' ∉ s ∧ ∃ k val t, IsProperty s k val t := by
    have h1 : ∀ s ∈ allGiven "--properties" exPropUses, '\n' ∉ s ∧ (parseProperty s).isOk = true := by decide +kernel
    intro s hs
    obtain ⟨h2, h3⟩ := h1 s hs
    obtain ⟨⟨k, val, t⟩, h4⟩ := ok_of_isOk h3
    exact ⟨h2, k, val, t, (C33_unambiguous h2 _ _ _).1 h4⟩
  obtain ⟨q, h1, h2⟩ := C125_properties_runs_partial (f := exEhFiles) (lines := fun _ => none) (v := v) (ask := ask) (force := false) (inp := [])
    (name := "set-properties".toList) (.inr (by decide +kernel)) exGlobal exPropLine_ok (noPrints (by decide +kernel))
    (clear_of_isOk (P := mainParser) (l := exPropLine) main_top.opts.flags (by decide +kernel)) (by unfold NoConflict; simp)
    (rightLine_texts rfl (by decide +kernel)) rfl (fun _ _ => rfl)
    (fun x hx => by rw [show lastGiven "--config-file" exPropUses = none by decide +kernel] at hx; cases hx) hps vs hws
  exact ⟨q, by rw [h1.labels]; decide +kernel, h2⟩

/-- `cot -f add-disk new.iso a.ovf -a 2:7 --controller ide -c scsi --name "boot disk"` -/
example (c : Ctx) (plat : Str → Str) (ask : Prompt → Bool) (p : Pkg) : ∃ q ops, q.drive = "cdrom".toList ∧ q.controller = some "scsi".toList ∧
    (addDiskMain exEhFiles exAdWorld c plat ask (["-f".toList] ++ "add-disk".toList :: exDiskLine) p).1.map Prod.snd =
      addDiskCmd { c with fs := exAdWorld.fs ops } plat ask p q := by
  have hr : RightLine addDiskParser exDiskUses ["new.iso".toList, "a.ovf".toList] := by
    refine ⟨rfl, ?_, ?_⟩
    · intro u hu s hs
      have hs' : s ∈ u.texts := hs
      unfold exDiskUses at hu
      simp only [List.mem_cons, List.not_mem_nil, or_false] at hu
      rcases hu with rfl | rfl | rfl | rfl
      · obtain rfl : s = "2:7".toList := List.mem_singleton.1 hs'
        exact ⟨.text "2:7".toList, ⟨_, rfl, ⟨[], [], by simp [Blank], by simp [Blank], rfl⟩, "2".toList, "7".toList, ⟨by decide, by decide +kernel⟩,
          ⟨by decide, by decide +kernel⟩, rfl⟩, by rintro cs ⟨⟩⟩
      · obtain rfl : s = "ide".toList := List.mem_singleton.1 hs'
        refine ⟨.text "ide".toList, rfl, ?_⟩
        rintro cs ⟨⟩
        exact ⟨_, List.mem_cons_self, rfl⟩
      · obtain rfl : s = "scsi".toList := List.mem_singleton.1 hs'
        refine ⟨.text "scsi".toList, rfl, ?_⟩
        rintro cs ⟨⟩
        exact ⟨_, List.mem_cons_of_mem _ (List.mem_cons_of_mem _ List.mem_cons_self), rfl⟩
      · exact ⟨.text s, rfl, by rintro cs ⟨⟩⟩
    · refine List.pairwise_of_forall_mem_list ?_
      have h0 : ∀ o ∈ exDiskUses.map ArgUse.opt, o.group = 0 := by decide +kernel
      intro u hu x _ hne
      exact absurd (h0 _ (List.mem_map_of_mem hu)) hne
  obtain ⟨drive, hd, -, h⟩ := C125_add_disk_runs_partial (c := c) (plat := plat) (ask := ask) (f := exEhFiles) (w := exAdWorld) (fmt := .iso)
    (.inl rfl) exGlobal exDiskLine_ok (noPrints (by decide +kernel))
    (clear_of_isOk (P := mainParser) (l := exDiskLine) main_top.opts.flags (by decide +kernel)) (by unfold NoConflict; simp) hr rfl (fun _ _ => rfl)
    (by decide +kernel) (by
      intro s hs
      rw [show lastGiven "--address" exDiskUses = some "2:7".toList by decide +kernel] at hs
      cases hs
      exact ⟨"scsi".toList, "2".toList, "7".toList, ⟨[], [], by simp [Blank], by simp [Blank], rfl⟩, ⟨by decide, by decide +kernel⟩,
        ⟨by decide, by decide +kernel⟩, by decide +kernel, by unfold AddressOk; decide +kernel⟩) p
  obtain rfl : drive = "cdrom".toList := by
    have hty : lastGiven "--type" exDiskUses = none := by decide +kernel
    rcases hd with ⟨hd, -⟩ | ⟨-, -, hd⟩ | ⟨-, hd, -⟩
    · rw [hty] at hd; cases hd
    · exact hd
    · exact absurd rfl hd
  obtain ⟨q, k1, -, -, k4, -, k6⟩ := h ⟨"new.iso".toList, .iso, .ok none⟩ [] 1 rfl rfl
  exact ⟨q, [], k4, by rw [k1.controller]; decide +kernel, k6⟩

end Cot
