import Verif.Model.NewDisk
/-
What C108 means: the commands by which a new image is made.
-/
namespace Cot

/-- the call that makes an empty image of the given format and capacity -/
def blankImage (format path capacity : Str) (options : List Str) : DiskOp :=
  .call "qemu-img".toList (["create".toList, "-f".toList, format] ++ options ++ [path, capacity])

/-- the option for a sub-format -/
def subOption (s : Str) : List Str := ["-o".toList, "subformat=".toList ++ s]

/-- `ops` are the commands that make an image of format `f` at `path` as asked for by `k`.  `room n` is the capacity which
an image for files of together `n` bytes gets, and `maker` the program for ISO images. -/
inductive Makes (room : Nat → Str) (maker : Str) (path : Str) (k : NewDisk) : DiskFmt → List DiskOp → Prop
  /-- an empty QCOW2 or raw image, of the sub-format asked for, if any -/
  | blank {f c} : f = .qcow2 ∨ f = .raw → k.fileList = [] → k.capacity = some c →
      Makes room maker path k f [blankImage f.name path c (match k.subformat with
        | some (some s) => subOption s
        | _ => [])]
  /-- an empty VMDK image, stream-optimized unless something else is asked for -/
  | vmdk {c} : k.fileList = [] → k.capacity = some c →
      Makes room maker path k .vmdk [blankImage "vmdk".toList path c (match k.subformat with
        | some (some s) => subOption s
        | some none => []
        | none => subOption "streamOptimized".toList)]
  /-- a raw image with files: it is formatted and then each file is added under its own name -/
  | raw {c} : k.fileList ≠ [] →
      c = (if k.capacity.getD [] = [] then room ((k.fileList.map Prod.snd).sum) else k.capacity.getD []) →
      Makes room maker path k .raw (.call "fatdisk".toList [path, "format".toList, "size".toList, c, "fat32".toList] ::
        k.fileList.map (fun x => .call "fatdisk".toList [path, "fileadd".toList, x.1, pathBase x.1]))
  /-- an ISO image with all files, with Rock Ridge names unless something else is asked for -/
  | iso : k.fileList ≠ [] →
      Makes room maker path k .iso [.call maker ((if maker = "xorriso".toList then ["-as".toList, "mkisofs".toList] else []) ++
        ["-output".toList, path, "-full-iso9660-filenames".toList, "-iso-level".toList, "2".toList, "-allow-lowercase".toList] ++
        (if k.subformat = none ∨ k.subformat = some (some "rockridge".toList) then ["-r".toList] else []) ++
        k.fileList.map Prod.fst)]

/-- what was asked for can be made in this format: VMDK and QCOW2 images are always empty, ISO images never, and an empty
image needs a capacity -/
def Makeable (k : NewDisk) : DiskFmt → Prop
  | .iso => k.fileList ≠ []
  | .raw => k.fileList ≠ [] ∨ k.capacity ≠ none
  | _ => k.fileList = [] ∧ k.capacity ≠ none

/-- the ASCII characters among the first 1000 bytes of a file -/
def headerText (bytes : List Nat) : Str :=
  (bytes.take 1000).filterMap (fun b => if b < 128 then some (Char.ofNat b) else none)

end Cot
