import Verif.Model.Basic

/-!
# A file system

Paths are absolute and given by their components.  There are no symbolic links.  Every operation can fail for
reasons outside the model (permissions, full disk, ...): the `n`-th operation fails if `fault n` says so,
possibly after part of its effect.
-/

namespace Snips

/-- A path: the components from the root. -/
abbrev Path := List Text

/-- What is found at a path: a directory or a file with its bytes. -/
inductive Node where
  | dir
  | file (bytes : List Nat)
deriving DecidableEq, Repr

/-- Contents of the disk. -/
abbrev Fs := Path → Option Node

/-- Which operations fail: `none` for an operation that runs normally, `some k` for one that is interrupted
after `k` elementary steps. -/
abbrev Faults := Nat → Option Nat

/-- The disk and the number of operations performed so far. -/
structure Disk where
  fs : Fs
  ops : Nat

/-- The operation counter advances. -/
def Disk.tick (d : Disk) : Disk := { d with ops := d.ops + 1 }

/-- Put a node at a path. -/
def Fs.set (fs : Fs) (p : Path) (n : Option Node) : Fs := fun q => if q = p then n else fs q

/-- The two dots that denote the parent directory. -/
def dotDot : Text := ['.', '.']

/-- What the operating system makes of the components of a path: `..` goes to the parent, the others go
down. -/
def resolve (p : Path) : Path :=
  p.foldl (fun acc c => if c = dotDot then acc.dropLast else acc ++ [c]) []

/-- Parts of a text between slashes. -/
def splitSlash : Text → List Text
  | [] => [[]]
  | c :: t =>
    match splitSlash t with
    | [] => [[c]]
    | w :: ws => if c = '/' then [] :: w :: ws else (c :: w) :: ws

/-- `Path::new(t).components()` (standard library, transcribed for Unix), without the root: empty parts and
single dots are skipped. -/
def pathComponents (t : Text) : List Text := (splitSlash t).filter fun w => w ≠ [] ∧ w ≠ ['.']

/-- `path.join(t)` (standard library, transcribed for Unix): an absolute `t` replaces the path. -/
def joinPath (p : Path) (t : Text) : Path :=
  match t with
  | '/' :: _ => pathComponents t
  | _ => p ++ pathComponents t

/-- `Path::exists`. -/
def Disk.pathExists (d : Disk) (p : Path) : Bool := (d.fs (resolve p)).isSome

/-- `fs::create_dir_all`: go down from `at_`, creating what is missing; fails on a file in the way, or after
`k` creations when interrupted. -/
def mkdirs (fs : Fs) : (at_ : Path) → List Text → Option Nat → Bool × Fs
  | _, [], some _ => (false, fs)
  | _, [], none => (true, fs)
  | at_, c :: rest, k =>
    match fs (at_ ++ [c]) with
    | some .dir => mkdirs fs (at_ ++ [c]) rest k
    | some (.file _) => (false, fs)
    | none =>
      match k with
      | some 0 => (false, fs)
      | some (k + 1) => mkdirs (fs.set (at_ ++ [c]) (some .dir)) (at_ ++ [c]) rest (some k)
      | none => mkdirs (fs.set (at_ ++ [c]) (some .dir)) (at_ ++ [c]) rest none

/-- `fs::create_dir_all(path)`. -/
def Disk.createDirAll (fault : Faults) (d : Disk) (p : Path) : Bool × Disk :=
  let r := mkdirs d.fs [] (resolve p) (fault d.ops)
  (r.1, ⟨r.2, d.ops + 1⟩)

/-- `fs::File::create(path)`: an empty file; the parent must be a directory and the path itself must not be
one. -/
def Disk.createFile (fault : Faults) (d : Disk) (p : Path) : Bool × Disk :=
  let q := resolve p
  match fault d.ops with
  | some _ => (false, d.tick)
  | none =>
    if q ≠ [] ∧ d.fs q.dropLast = some .dir ∧ d.fs q ≠ some .dir then
      (true, ⟨d.fs.set q (some (.file [])), d.ops + 1⟩)
    else (false, d.tick)

/-- `io::copy` into a file just created: all the bytes, or the first `k` when interrupted. -/
def Disk.write (fault : Faults) (d : Disk) (p : Path) (bytes : List Nat) : Bool × Disk :=
  match fault d.ops with
  | some k => (false, ⟨d.fs.set (resolve p) (some (.file (bytes.take k))), d.ops + 1⟩)
  | none => (true, ⟨d.fs.set (resolve p) (some (.file bytes)), d.ops + 1⟩)

end Snips
