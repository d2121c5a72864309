import Verif.Model.Archive

/-! Vocabulary for statements about archives. -/

namespace Snips

/-- The path is strictly below the directory. -/
def Below (dest p : Path) : Prop := ∃ r, r ≠ [] ∧ p = dest ++ r

/-- The path and all the paths leading to it are directories. -/
def DirExists (fs : Fs) (p : Path) : Prop := ∀ q, q <+: p → fs q = some .dir

/-- A component that stays in place: not empty, no dots, no separators. -/
structure NormalComponent (c : Text) : Prop where
  nonempty : c ≠ []
  notDot : c ≠ ['.']
  notDotDot : c ≠ ['.', '.']
  noSlash : '/' ∉ c
  noBackslash : '\\' ∉ c
  noNull : '\x00' ∉ c

/-- An absolute path without `..`. -/
def PlainPath (p : Path) : Prop := ['.', '.'] ∉ p

/-- No file entry of the archive is in the way of another entry, and each has a name. -/
structure Consistent (entries : List ZipEntry) : Prop where
  named : ∀ e ∈ entries, e.isDir = false → sanitizedName e.name ≠ []
  notInTheWay : ∀ e ∈ entries, ∀ e' ∈ entries, e.isDir = false →
    sanitizedName e.name <+: sanitizedName e'.name →
    sanitizedName e.name = sanitizedName e'.name ∧ e'.isDir = false

/-- The contents of a disk form a tree: the root is a directory, and what exists is in a directory. -/
structure TreeFs (fs : Fs) : Prop where
  root : fs [] = some .dir
  inDir : ∀ p c, fs (p ++ [c]) ≠ none → fs p = some .dir

/-- What an archive holds at a path: the last entry with this name, or the directory implied by an entry with a
longer name. -/
def archiveAt (entries : List ZipEntry) (p : Path) : Option Node :=
  match entries.reverse.find? fun e => sanitizedName e.name = p with
  | some e => some (if e.isDir then .dir else .file e.bytes)
  | none => if ∃ e ∈ entries, p <+: sanitizedName e.name then some .dir else none

/-- What is at a path inside the destination after entries have been extracted: the destination is a directory. -/
def placeAfter (entries : List ZipEntry) (p : Path) : Option Node :=
  if p = [] then some .dir else archiveAt entries p

/-- An entry can be extracted to a place: it can be opened and read, there is no file where it needs a directory and
no directory where it needs a file. -/
structure GoesThrough (place : Path → Option Node) (e : ZipEntry) : Prop where
  opens : e.opens = true
  way : ∀ r b, r <+: sanitizedName e.name → r ≠ sanitizedName e.name → place r ≠ some (.file b)
  asDir : e.isDir = true → ∀ b, place (sanitizedName e.name) ≠ some (.file b)
  asFile : e.isDir = false → place (sanitizedName e.name) ≠ some .dir ∧ e.intact = true

/-- A file entry that can be opened whose path is a directory, or is directly inside a file. -/
structure Collides (place : Path → Option Node) (e : ZipEntry) : Prop where
  opens : e.opens = true
  isFile : e.isDir = false
  taken : place (sanitizedName e.name) = some .dir ∨ ∃ b, place (sanitizedName e.name).dropLast = some (.file b)

/-- Every entry can be extracted after those before it. -/
def AllGoThrough (entries : List ZipEntry) : Prop :=
  ∀ pre e post, entries = pre ++ e :: post → GoesThrough (placeAfter pre) e

end Snips
