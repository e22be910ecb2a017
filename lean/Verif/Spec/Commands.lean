import Verif.Spec.EhCommand
import Verif.Spec.EditProperties
import Verif.Spec.PropertyArgs
import Verif.Model.Commands
/-
Specification for C125: what a command line asks the other commands that edit a package to do.
-/
namespace Cot

/-- the text given with the last use of the option; none without a use -/
def lastGiven (fl : String) (us : List ArgUse) : Option Str := (withFlag fl us).getLast?.bind List.head?

/-- the texts given with all uses of the option, in order -/
def allGiven (fl : String) (us : List ArgUse) : List Str := (withFlag fl us).flatten

/-- The command object knows the package, which could be opened, and the output of the last `--output`, which was agreed to. -/
structure PkgPlaces {Q : Type} (f : EhFiles) (us : List ArgUse) (p : Str) (cmd : PkgCmd Q) : Prop where
  package : cmd.package = some p
  opened : f.opens p = .ok ()
  output : cmd.output = lastGiven "--output" us
  agreed : ∀ x, cmd.output = some x → f.agrees x = .ok ()

/-- COT/docs/man/cot-edit-product.1: the option for each field of the product section -/
def productFlag : Field → String
  | .product => "--product"
  | .vendor => "--vendor"
  | .version => "--version"
  | .fullVersion => "--full-version"
  | .productUrl => "--product-url"
  | .vendorUrl => "--vendor-url"
  | .appUrl => "--application-url"

/-- COT/docs/man/cot-edit-properties.1: the short names of transports -/
def transportNames : List (Str × Str) :=
  [("iso".toList, "iso".toList), ("vmware".toList, "com.vmware.guestInfo".toList),
   ("ibm".toList, "http://www.ibm.com/xmlns/ovf/transport/filesystem/etc/ovf-transport".toList)]

/-- the transport that a text on the command line stands for: a short name for its transport, any other text for itself -/
def TransportFor (s t : Str) : Prop := (s, t) ∈ transportNames ∨ (s ∉ transportNames.map Prod.fst ∧ t = s)

/-- What the options of edit-properties ask for. -/
structure PropAsks (lines : Str → Option (List Str)) (us : List ArgUse) (q : PropReq) : Prop where
  config : (lastGiven "--config-file" us = none ∧ q.config = none) ∨
    ∃ p ls, lastGiven "--config-file" us = some p ∧ lines p = some ls ∧ q.config = some ls
  props : (allGiven "--properties" us).Forall₂ (fun s p => '\n' ∉ s → IsProperty s p.1 p.2.1 p.2.2) q.props
  labels : q.labels = allGiven "--labels" us
  descs : q.descs = allGiven "--descriptions" us
  uc : (withFlag "--user-configurable" us = [] ∧ q.uc = none) ∨
    ((withFlag "--user-configurable" us).getLast? = some [] ∧ q.uc = some true) ∨
    ∃ s b, (withFlag "--user-configurable" us).getLast? = some [s] ∧ lower s ∈ (if b then trueWords else falseWords) ∧ q.uc = some b
  transports : (allGiven "--transports" us).Forall₂ TransportFor q.transports

end Cot
