import Verif.Spec.InfoSections
import Verif.Spec.Save
/-
Specification for C124 (networks): what `cot info` tells of the networks of a package that was saved.
-/
namespace Cot

open Classical in
/-- The networks that an adapter of the hardware section is connected to, in order. -/
noncomputable def usedNetworks (v : Ver) (nets : Option Elem) (hws : Elem) : List Elem :=
  ((nets.map (fun s => kids s (ovfTag v "Network".toList))).getD []).filter (fun n => decide (NetworkUsed v hws n))

/-- The lines begin with the connection of the NIC: some name, a colon, and the network that it is connected to under every profile. -/
def NicConnection (hw : Hw) (k : Str) (lines : List Str) : Prop :=
  ∃ (it : Item) (row name net : Str) (rest : List Str), dget? hw k = some it ∧ lines = row :: rest ∧ OnlyValue (it.tab connection) net ∧
    splitWs row = splitWs name ++ ":".toList :: splitWs net

end Cot
