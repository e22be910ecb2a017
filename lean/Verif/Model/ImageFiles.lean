import Verif.Model.Disks
import Verif.Py.Re
/-
Model of the sub-format of ISO images, COT/disks/iso.py:31-46, and of the contents of images, iso.py:48-71 and raw.py:30-54.
The names that are found are remembered in the object; that is not modelled.
-/
namespace Cot

/-- iso.py:42 -/
def rockRidgeRe : Re := .seq (.lit "Rock Ridge".toList) (.seq (.star .dot) (.lit "found".toList))

/-- iso.py:31-46 `disk_subformat`, from the output of `isoinfo -i path -d` -/
def isoSubformat (info : Str) : Str := if (reSearch rockRidgeRe info).isSome then "rockridge".toList else []

/-- iso.py:48-71 `files`, from the outputs of `isoinfo -i path -d` and `isoinfo -i path -f -R` -/
def isoContents (info listing : Str) : List Str := isoFiles (decide (isoSubformat info = "rockridge".toList)) listing

end Cot
