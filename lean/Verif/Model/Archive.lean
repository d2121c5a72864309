import Verif.Model.Files

/-! # Model of `extract_nlu_engine_zip_archive` (src/utils.rs:64-102) -/

namespace Snips

/-- An entry of a zip archive, as seen through `ZipArchive::by_index` (crate `zip`, external): its name,
whether it can be opened, the bytes that can be read and whether reading ends without error. -/
structure ZipEntry where
  name : Text
  opens : Bool
  bytes : List Nat
  intact : Bool

/-- `ZipFile::sanitized_name` (crate `zip`, external, transcribed): cut at a null character, backslashes
become slashes, only normal components are kept. -/
def sanitizedName (name : Text) : Path :=
  (pathComponents ((name.takeWhile fun c => c ≠ '\x00').map fun c => if c = '\\' then '/' else c)).filter
    fun c => c ≠ dotDot

/-- `file.name().ends_with('/') || file.name().ends_with('\\')` (src/utils.rs:74). -/
def ZipEntry.isDir (e : ZipEntry) : Bool := e.name.getLast? = some '/' || e.name.getLast? = some '\\'

/-- Writing of a file entry once its parent exists (src/utils.rs:82-83): `File::create(..).unwrap()` panics. -/
def writeEntry (fault : Faults) (outpath : Path) (e : ZipEntry) (d : Disk) : Outcome Unit × Disk :=
  match d.createFile fault outpath with
  | (false, d) => (.panic, d)
  | (true, d) =>
    match d.write fault outpath e.bytes with
    | (written, d) => (if written ∧ e.intact then .ok () else .err (.external 200), d)

/-- Body of the loop (src/utils.rs:71-84). -/
def extractEntry (fault : Faults) (dest : Path) (e : ZipEntry) (d : Disk) : Outcome Unit × Disk :=
  if e.opens then
    let outpath := dest ++ sanitizedName e.name
    if e.isDir then
      match d.createDirAll fault outpath with
      | (true, d) => (.ok (), d)
      | (false, d) => (.err (.external 201), d)
    else if outpath = [] ∨ d.pathExists outpath.dropLast then writeEntry fault outpath e d
    else
      match d.createDirAll fault outpath.dropLast with
      | (true, d) => writeEntry fault outpath e d
      | (false, d) => (.err (.external 202), d)
  else (.err (.external 203), d)

/-- The loop (src/utils.rs:70-85). -/
def extractEntries (fault : Faults) (dest : Path) : List ZipEntry → Disk → Outcome Unit × Disk
  | [], d => (.ok (), d)
  | e :: es, d =>
    match extractEntry fault dest e d with
    | (.ok (), d) => extractEntries fault dest es d
    | (.err e, d) => (.err e, d)
    | (.panic, d) => (.panic, d)

/-- The engine directory (src/utils.rs:86-101).  Simplification: `to_str` does not fail, since names are
texts. -/
def engineDir (dest : Path) (entries : List ZipEntry) : Outcome Path :=
  match entries with
  | [] => .err (.external 204)
  | e :: _ =>
    if e.opens then
      match sanitizedName e.name with
      | [] => .err (.site 10)
      | c :: _ => .ok (joinPath dest c)
    else .err (.external 203)

/-- `extract_nlu_engine_zip_archive` (src/utils.rs:64-102); `archive` is the result of `ZipArchive::new`. -/
def extractArchive (fault : Faults) (archive : Outcome (List ZipEntry)) (dest : Path) (d : Disk) :
    Outcome Path × Disk :=
  match archive with
  | .ok entries =>
    match extractEntries fault dest entries d with
    | (.ok (), d) => (engineDir dest entries, d)
    | (.err e, d) => (.err e, d)
    | (.panic, d) => (.panic, d)
  | .err e => (.err e, d)
  | .panic => (.panic, d)

end Snips
