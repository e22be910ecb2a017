import Verif.Model.Argparse
/-
Specification for C130.
-/
namespace Cot

/-- `n` names a command, by its title or another of its names, or a hypervisor of `deploy` written `deploy-…`; `P` is the parser for its
command lines -/
def HelpFor (n : Str) (P : ArgParser) : Prop :=
  (∃ c ∈ cotCommands, n ∈ c.title :: c.aliases ∧ P = c.parser) ∨
  (∃ h ∈ cotHypervisors, ∃ k ∈ h.title :: h.aliases, n = "deploy-".toList ++ k ∧ P = h.parser)

instance (n : Str) (P : ArgParser) : Decidable (HelpFor n P) := by unfold HelpFor; infer_instance

end Cot
