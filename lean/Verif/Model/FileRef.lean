import Verif.Model.DataValidation
import Verif.Py.Int
import Verif.Py.Path
/-
Model of COT/file_reference.py: references to files on disk and in TAR archives, which remember the size and
checksum they have seen.
-/
namespace Cot

/-- What the file system holds at one moment.  Directories count as missing files, except for `isDir`; archives are
given by their members (name and content, all regular files) in the order in which they are stored. -/
structure Fs where
  cwd : Str
  file : Str → Option (List UInt8)
  isDir : Str → Bool
  tar : Str → Option (List (Str × List UInt8))

/-- A FileReference object: FileInTAR or FileOnDisk, with the attributes container_path, filename,
checksum_algorithm, _checksum, _size and force_refresh. -/
structure FRef where
  inTar : Bool
  container : Str
  filename : Str
  algo : Option Str
  sum : Option Str
  size : Option Nat
  force : Bool
deriving DecidableEq

/-- `TarFile.getmember(name)`: the last member with that name -/
def getMember (ms : List (Str × List UInt8)) (name : Str) : Option (List UInt8) :=
  (ms.reverse.find? (fun m => decide (m.1 = name))).map Prod.snd

/-- file_reference.py:219-236 (`size`, `open`) and 303-330: the content at the remembered name -/
def FRef.content (r : FRef) (w : Fs) : Except Err (List UInt8) :=
  if r.inTar then
    match w.tar r.container with
    | none => .error .ioError
    | some ms => match getMember ms r.filename with
      | none => .error .keyError
      | some b => .ok b
  else match w.file (pathJoin r.container r.filename) with
    | none => .error .ioError
    | some b => .ok b

/-- file_reference.py:214-217 and 286-301 `exists`; in an archive the name may be replaced by the member's own -/
def FRef.exists_ (r : FRef) (w : Fs) : Except Err Bool × FRef :=
  if r.inTar then
    match w.tar r.container with
    | none => (.error .ioError, r)
    | some ms => match getMember ms r.filename with
      | some _ => (.ok true, r)
      | none => match ms.find? (fun m => decide (normpath m.1 = r.filename)) with
        | some m => (.ok true, { r with filename := m.1 })
        | none => (.ok false, r)
  else (.ok (w.file (pathJoin r.container r.filename)).isSome, r)

/-- file_reference.py:219-224 and 303-309 `size` -/
def FRef.readSize (r : FRef) (w : Fs) : Except Err Nat × FRef :=
  match r.size, r.force with
  | some n, false => (.ok n, r)
  | _, _ => match r.content w with
    | .error e => (.error e, r)
    | .ok b => (.ok b.length, { r with size := some b.length })

/-- file_reference.py:131-140 `checksum`; `digest` is `file_checksum` (data_validation.py:321-361, see C21) -/
def FRef.readSum (digest : Str → List UInt8 → Except Err Str) (r : FRef) (w : Fs) : Except Err (Option Str) × FRef :=
  match r.algo with
  | none => (.ok none, r)
  | some a => match r.sum, r.force with
    | some c, false => (.ok (some c), r)
    | _, _ => match r.content w with
      | .error e => (.error e, r)
      | .ok b => match digest a b with
        | .error e => (.error e, r)
        | .ok c => (.ok (some c), { r with sum := some c })

/-- file_reference.py:171-203 `refresh`, from line 182 on: `n`, `c` are the values known before -/
def FRef.recheck (digest : Str → List UInt8 → Except Err Str) (r : FRef) (w : Fs) (n : Nat) (c : Option Str) :
    Except Err Bool × FRef :=
  match ({ r with force := true } : FRef).exists_ w with
  | (.error e, r) => (.error e, r)
  | (.ok false, r) => (.ok false, r)
  | (.ok true, r) => match r.readSize w with
    | (.error e, r) => (.error e, r)
    | (.ok n', r) => match r.readSum digest w with
      | (.error e, r) => (.error e, r)
      | (.ok c', r) => (.ok (decide (n' = n) && (decide (c' = c) || decide (c = none))), r)

/-- file_reference.py:171-203 `refresh`.  The file system does not change while it runs. -/
def FRef.refresh (digest : Str → List UInt8 → Except Err Str) (r : FRef) (w : Fs) : Except Err Bool × FRef :=
  match r.readSize w with
  | (.error e, r) => (.error e, r)
  | (.ok n, r) => match r.readSum digest w with
    | (.error e, r) => (.error e, r)
    | (.ok c, r) => r.recheck digest w n c

/-- `os.path.abspath` if the path is not absolute (file_reference.py:57-62, 92-97, 275-280) -/
def makeAbs (w : Fs) (p : Str) : Str :=
  if p.head? = some '/' then p else normpath (pathJoin w.cwd p)

/-- What the constructor tells the user about a file that differs from what was expected. -/
inductive FWarn | checksum | size
deriving DecidableEq

/-- file_reference.py:105-118: the comparisons with the expected values, in this order -/
def FRef.compare (digest : Str → List UInt8 → Except Err Str) (r : FRef) (w : Fs) (c n : Option Str) :
    Except Err (FRef × List FWarn) :=
  let step1 : Except Err (FRef × List FWarn) := match c with
    | none => .ok (r, [])
    | some c => match r.readSum digest w with
      | (.error e, _) => .error e
      | (.ok c', r) => .ok (r, if c' = some c then [] else [.checksum])
  match step1 with
  | .error e => .error e
  | .ok (r, ws) => match n with
    | none => .ok (r, ws)
    | some s => match r.readSize w with
      | (.error e, _) => .error e
      | (.ok n', r) => match pyInt s with
        | none => .error .valueError
        | some k => .ok (r, ws ++ if (n' : Int) = k then [] else [.size])

/-- file_reference.py:74-129 `__init__` -/
def FRef.init (digest : Str → List UInt8 → Except Err Str) (w : Fs) (inTar : Bool) (container filename : Str)
    (algo c n : Option Str) : Except Err (FRef × List FWarn) :=
  let r : FRef := { inTar := inTar, container := makeAbs w container, filename := normpath filename, algo := algo,
                    sum := none, size := none, force := false }
  match r.exists_ w with
  | (.error e, _) => .error e
  | (.ok false, _) => .error .ioError
  | (.ok true, r) => r.compare digest w c n

/-- file_reference.py:44-72 `create` -/
def FRef.create (digest : Str → List UInt8 → Except Err Str) (w : Fs) (container filename : Str) (algo c n : Option Str) :
    Except Err (FRef × List FWarn) :=
  let p := makeAbs w container
  if w.isDir p then FRef.init digest w false p filename algo c n
  else if (w.file p).isSome then
    if (w.tar p).isSome then FRef.init digest w true p filename algo c n
    else .error .notImplementedError
  else .error .ioError

/-! ### Histories -/

/-- What a program can do with a reference besides re-checking it. -/
inductive FRead | size | sum
deriving DecidableEq

/-- one read, in the file system of that moment -/
def FRef.read (digest : Str → List UInt8 → Except Err Str) (r : FRef) (x : FRead × Fs) : FRef :=
  match x.1 with
  | .size => (r.readSize x.2).2
  | .sum => (r.readSum digest x.2).2

end Cot
