import Verif.Model.Archive
import Verif.Model.Loading

/-! # Model of `SnipsNluEngine::from_zip` (src/nlu_engine.rs:125-130) -/

namespace Snips

/-- `tempfile::Builder::tempdir()` (crate `tempfile`, external): makes the directory `tmp`, which it has chosen
so that nothing is there. -/
def makeTemp (fault : Faults) (tmp : Path) (d : Disk) : Bool × Disk :=
  match fault d.ops with
  | some _ => (false, d.tick)
  | none => (true, ⟨d.fs.set tmp (some .dir), d.ops + 1⟩)

/-- `Drop` of `TempDir` (crate `tempfile`, external): the directory is removed with its contents; if this fails
something is `left`, and the failure is ignored. -/
def dropTemp (fault : Faults) (left : Fs) (tmp : Path) (d : Disk) : Disk :=
  ⟨fun q => if tmp <+: q then (match fault d.ops with
    | some _ => left q
    | none => none) else d.fs q, d.ops + 1⟩

/-- The part of `from_zip` in the temporary directory (src/nlu_engine.rs:127-129). -/
def loadExtracted (env : LoadEnv) (o : HashOrd) (fault : Faults) (archive : Outcome (List ZipEntry)) (tmp : Path)
    (d : Disk) : Outcome LoadedEngine × Disk :=
  match extractArchive fault archive tmp d with
  | (.ok dir, d) => ((loadEngine env o dir d.fs).1, d)
  | (.err e, d) => (.err e, d)
  | (.panic, d) => (.panic, d)

/-- `SnipsNluEngine::from_zip` (src/nlu_engine.rs:125-130); `archive` is the result of `ZipArchive::new`.  The
temporary directory is dropped on return, on `?` and on unwinding. -/
def fromZip (env : LoadEnv) (o : HashOrd) (fault : Faults) (left : Fs) (archive : Outcome (List ZipEntry)) (tmp : Path)
    (d : Disk) : Outcome LoadedEngine × Disk :=
  match makeTemp fault tmp d with
  | (false, d) => (.err (.external 230), d)
  | (true, d) =>
    let r := loadExtracted env o fault archive tmp d
    (r.1, dropTemp fault left tmp r.2)

end Snips
