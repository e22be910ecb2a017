import Verif.Py.Basic
/-
Model of the temporary working directories in a process: COT/vm_description/vm_description.py:172-228,
COT/vm_description/ovf/ovf.py:146-268, COT/commands/command.py:107-111, 233-242, 279-302 and COT/commands/info.py:101-107.

Directories and commands are numbered.  What is not about directories is left out.
-/
namespace Cot

/-- `next`: number of the directory that `mkdtemp` makes next; `dirs`: the directories that exist; `vm`: for each command the
directory of its VM, if it has one; `atexit`: the VMs registered for removal at exit. -/
structure TmpSt where
  next : Nat
  dirs : List Nat
  vm : Nat → Option Nat
  atexit : List Nat

/-- Where loading a package can break off: before there is a directory, before the VM is registered for removal at exit
(vm_description.py:190-192: the name of the output is not accepted), or later. -/
inductive LoadStage | beforeDir | beforeRegister | later
deriving DecidableEq

/-- How loading ends: `interrupted` is for KeyboardInterrupt and SystemExit, which `except Exception` does not catch. -/
inductive LoadEnd | loaded | failed (at_ : LoadStage) | interrupted (at_ : LoadStage)
deriving DecidableEq

/-- vm_description.py:211-228 `destroy`; `rm` is whether measuring and removing the directory works.  False: an exception. -/
def destroyDir (rm : Bool) (d : Nat) (s : TmpSt) : Bool × TmpSt :=
  if d ∈ s.dirs then (if rm then (true, { s with dirs := s.dirs.filter (fun x => x ≠ d) }) else (false, s))
  else (true, s)

/-- vm_description.py:189 `tempfile.mkdtemp` -/
def makeDir (s : TmpSt) : TmpSt := { s with next := s.next + 1, dirs := s.next :: s.dirs }

/-- vm_description.py:193 `atexit.register(self.destroy)` -/
def registerDir (d : Nat) (s : TmpSt) : TmpSt := { s with atexit := d :: s.atexit }

/-- vm_description.py:172-193 with ovf.py:146-268: the directory of the new VM, if loading succeeded -/
def loadTmp (e : LoadEnd) (rm : Bool) (s : TmpSt) : Option Nat × TmpSt :=
  match e with
  | .failed .beforeDir | .interrupted .beforeDir => (none, s)
  | .failed .beforeRegister => (none, (destroyDir rm s.next (makeDir s)).2)
  | .interrupted .beforeRegister => (none, makeDir s)
  | .failed .later => (none, (destroyDir rm s.next (registerDir s.next (makeDir s))).2)
  | .interrupted .later => (none, registerDir s.next (makeDir s))
  | .loaded => (some s.next, registerDir s.next (makeDir s))

/-- `self.vm = x` -/
def setVm (c : Nat) (x : Option Nat) (s : TmpSt) : TmpSt := { s with vm := fun i => if i = c then x else s.vm i }

/-- command.py:107-111 `destroy`, also 237-239 and 297-299 -/
def destroyVm (c : Nat) (rm : Bool) (s : TmpSt) : Bool × TmpSt :=
  match s.vm c with
  | none => (true, s)
  | some d => match destroyDir rm d s with
    | (false, s') => (false, s')
    | (true, s') => (true, setVm c none s')

/-- What can happen in the process. -/
inductive TmpOp
  /-- `command.package = value` for a file that exists, command.py:233-242, 279-302; `rm`: can the old directory be removed,
  `rm'`: can the new one if loading fails? -/
  | open_ (c : Nat) (e : LoadEnd) (rm rm' : Bool)
  /-- `command.package = value` for a file that does not exist -/
  | missing (c : Nat)
  /-- `command.package = None` -/
  | close (c : Nat) (rm : Bool)
  /-- `command.destroy()` -/
  | destroy (c : Nat) (rm : Bool)
  /-- `with VMDescription.factory(package, None) as vm: …`, info.py:101-107 -/
  | look (e : LoadEnd) (rm : Bool)
deriving DecidableEq

def tmpStep (s : TmpSt) : TmpOp → TmpSt
  | .open_ c e rm rm' => match destroyVm c rm s with
    | (false, s') => s'
    | (true, s') => match loadTmp e rm' s' with
      | (none, s'') => s''
      | (some d, s'') => setVm c (some d) s''
  | .missing _ => s
  | .close c rm => (destroyVm c rm s).2
  | .destroy c rm => (destroyVm c rm s).2
  | .look e rm => match loadTmp e rm s with
    | (none, s') => s'
    | (some d, s') => (destroyDir rm d s').2

/-- the handlers registered with `atexit`; one that fails does not keep the others from running -/
def tmpExit (rm : Nat → Bool) (s : TmpSt) : TmpSt := s.atexit.foldl (fun s d => (destroyDir (rm d) d s).2) s

end Cot
