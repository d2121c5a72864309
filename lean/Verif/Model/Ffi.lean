import Verif.Model.FromZip

/-! # Model of ffi/src/lib.rs

The C interface.  Pointers of different C types live in different address spaces; `0` is the null pointer.
Using a pointer that does not point to a live object of its type is undefined behaviour, which is an outcome of
its own.  The conversions of results to C structures and to JSON, and the macros of the crate `ffi-utils`
(transcribed), are external. -/

namespace Snips

/-- A C pointer. -/
abbrev Addr := Nat

/-- How C code ends: a value, an error, a panic or undefined behaviour. -/
inductive CEnd (α : Type) where
  | ok (a : α)
  | err (e : Err)
  | panic
  | undefined
deriving DecidableEq, Repr

/-- An object handed out to C: a `CIntentParserResult`, a `CSlotList`, a `CIntentClassifierResultArray` or a
string. -/
inductive CObj (κ : Type) where
  | result (x : κ)
  | slots (x : κ)
  | intents (x : κ)
  | string (bytes : List Nat)
deriving DecidableEq, Repr

/-- `CSnipsNluEngine` (ffi/src/lib.rs:18): an engine behind a mutex, between two calls. -/
structure Handle where
  engine : Engine
  ext : Ext
  caches : Caches
  poisoned : Bool

/-- The memory of the process: the strings, string arrays and bytes that can be read, the pointer variables of
the caller, the engines and objects handed out, the message of the last error, and the next free address. -/
structure CMem (κ : Type) where
  strings : Addr → Option (List Nat)
  arrays : Addr → Option (List Addr)
  bytes : Addr → Option (List Nat)
  vars : Addr → Option Addr
  engines : Addr → Option Handle
  objects : Addr → Option (CObj κ)
  lastError : Option Err
  next : Addr
  disk : Disk

/-- What the C interface takes from its dependencies. -/
structure CEnv (κ : Type) where
  load : LoadEnv
  /-- `CStr::to_str` -/
  utf8 : List Nat → Outcome Text
  /-- `ZipArchive::new` on a cursor -/
  readZip : List Nat → Outcome (List ZipEntry)
  /-- the current directory -/
  cwd : Path
  /-- `CIntentParserResult::from`, `CSlotList::from`, `CIntentClassifierResultArray::from` -/
  cResult : ParseResult → Outcome κ
  cSlots : List Slot → Outcome κ
  cIntents : List IntentResult → Outcome κ
  /-- `serde_json::to_string` -/
  jsonResult : ParseResult → Outcome (List Nat)
  jsonSlots : List Slot → Outcome (List Nat)
  jsonIntents : List IntentResult → Outcome (List Nat)

/-- Circumstances of a call: the time, hash orders, failures of the disk, and for archives the temporary
directory and what is left of it if it cannot be removed. -/
structure CCirc where
  time : Nat
  order : HashOrd
  fault : Faults
  tmp : Path
  left : Fs

/-- C code. -/
def CM (κ α : Type) := CMem κ → CEnd α × CMem κ

namespace CM

variable {κ α β : Type}

/-- A value. -/
def pure (a : α) : CM κ α := fun s => (.ok a, s)

/-- The `?` operator. -/
def bind (m : CM κ α) (f : α → CM κ β) : CM κ β := fun s =>
  match m s with
  | (.ok a, s) => f a s
  | (.err e, s) => (.err e, s)
  | (.panic, s) => (.panic, s)
  | (.undefined, s) => (.undefined, s)

instance : Monad (CM κ) where
  pure := pure
  bind := bind

/-- A computation that uses no memory. -/
def lift (o : Outcome α) : CM κ α := fun s =>
  match o with
  | .ok a => (.ok a, s)
  | .err e => (.err e, s)
  | .panic => (.panic, s)

/-- `create_rust_string_from!` (crate `ffi-utils`): null pointers are errors. -/
def rustString (env : CEnv κ) (p : Addr) : CM κ Text := fun s =>
  if p = 0 then (.err (.external 240), s)
  else match s.strings p with
    | none => (.undefined, s)
    | some b => lift (env.utf8 b) s

/-- One element of `convert_to_rust_vec` (ffi/src/lib.rs:413): no check for null. -/
def element (env : CEnv κ) (p : Addr) : CM κ Text := fun s =>
  match s.strings p with
  | none => (.undefined, s)
  | some b => lift (env.utf8 b) s

/-- `collect::<Result<Vec<_>>>()` (ffi/src/lib.rs:411-414). -/
def elements (env : CEnv κ) : List Addr → CM κ (List Text)
  | [] => pure []
  | p :: ps => do
    let t ← element env p
    let ts ← elements env ps
    pure (t :: ts)

/-- `convert_to_rust_vec` (ffi/src/lib.rs:409-415). -/
def convertToRustVec (env : CEnv κ) (p : Addr) : CM κ (List Text) := fun s =>
  match s.arrays p with
  | none => (.undefined, s)
  | some ps => elements env ps s

/-- A filter (ffi/src/lib.rs:282-291, :355-364): null means none. -/
def filterArg (env : CEnv κ) (p : Addr) : CM κ (Option (List Text)) :=
  if p ≠ 0 then do
    let l ← convertToRustVec env p
    pure (some l)
  else pure none

/-- The rest of a function, with the guard of the mutex in scope: it is dropped at the end, and poisons the mutex
if this happens by unwinding. -/
def withGuard (client : Addr) (m : CM κ α) : CM κ α := fun s =>
  match m s with
  | (.panic, s) => (.panic, { s with engines := fun a =>
      if a = client then (s.engines a).map fun h => { h with poisoned := true } else s.engines a })
  | r => r

/-- `get_nlu_engine!` (ffi/src/lib.rs:20-27) and what follows it: a poisoned mutex is an error. -/
def withEngine (client : Addr) (body : Engine → CM κ α) : CM κ α := fun s =>
  if client = 0 then (.err (.external 240), s)
  else match s.engines client with
    | none => (.undefined, s)
    | some h => if h.poisoned then (.err (.external 241), s) else withGuard client (body h.engine) s

/-- A method of the engine (`nlu_engine.parse_with_alternatives(..)?` and others). -/
def callEngine (c : CCirc) (client : Addr) (p : Prog α) : CM κ α := fun s =>
  match s.engines client with
  | none => (.undefined, s)
  | some h =>
    let r := p.runCached h.ext c.time h.caches
    lift r.1 { s with engines := fun a => if a = client then some { h with caches := r.2 } else s.engines a }

/-- `let raw_pointer = ..into_raw_pointer(); *result = raw_pointer;` (ffi/src/lib.rs:300-302 and others): the object
is allocated and its address is written; no check for null. -/
def give (result : Addr) (x : CObj κ) : CM κ Unit := fun s =>
  match s.vars result with
  | none => (.undefined, s)
  | some _ => (.ok (), { s with
      objects := fun a => if a = s.next then some x else s.objects a,
      vars := fun a => if a = result then some s.next else s.vars a,
      next := s.next + 1 })

/-- The same for engines (ffi/src/lib.rs:250-251, :264-265). -/
def giveEngine (result : Addr) (h : Handle) : CM κ Unit := fun s =>
  match s.vars result with
  | none => (.undefined, s)
  | some _ => (.ok (), { s with
      engines := fun a => if a = s.next then some h else s.engines a,
      vars := fun a => if a = result then some s.next else s.vars a,
      next := s.next + 1 })

/-- `point_to_string` (crate `ffi-utils`): `CString::new` fails on a null byte. -/
def pointToString (result : Addr) (bytes : List Nat) : CM κ Unit := fun s =>
  if 0 ∈ bytes then (.err (.external 242), s) else give result (.string bytes) s

end CM

open CM

variable {κ : Type}

/-- The engine of a freshly loaded model (ffi/src/lib.rs:250): caches of 1000 entries
(src/resources/loading.rs:48-51). -/
def Handle.fresh (env : CEnv κ) (e : LoadedEngine) : Handle := ⟨e.engine env.load.names, e.ext, Caches.empty 1000, false⟩

/-- `SnipsNluEngine::from_path(root_dir)?` (ffi/src/lib.rs:248). -/
def loadFromDir (env : CEnv κ) (c : CCirc) (dir : Text) : CM κ LoadedEngine := fun s =>
  lift (loadEngine env.load c.order (joinPath env.cwd dir) s.disk.fs).1 s

/-- `create_from_dir` (ffi/src/lib.rs:242-254). -/
def createFromDir (env : CEnv κ) (c : CCirc) (rootDir client : Addr) : CM κ Unit := do
  let dir ← rustString env rootDir
  let e ← loadFromDir env c dir
  giveEngine client (Handle.fresh env e)

/-- `slice::from_raw_parts(zip, zip_size as usize)` (ffi/src/lib.rs:261). -/
def readBytes (zip : Addr) (size : Nat) : CM κ (List Nat) := fun s =>
  match s.bytes zip with
  | some b => if size ≤ b.length then (.ok (b.take size), s) else (.undefined, s)
  | none => (.undefined, s)

/-- `SnipsNluEngine::from_zip(reader)?` (ffi/src/lib.rs:263). -/
def loadFromZip (env : CEnv κ) (c : CCirc) (bytes : List Nat) : CM κ LoadedEngine := fun s =>
  let r := fromZip env.load c.order c.fault c.left (env.readZip bytes) c.tmp s.disk
  lift r.1 { s with disk := r.2 }

/-- `create_from_zip` (ffi/src/lib.rs:256-268). -/
def createFromZip (env : CEnv κ) (c : CCirc) (zip : Addr) (size : Nat) (client : Addr) : CM κ Unit := do
  let bytes ← readBytes zip size
  let e ← loadFromZip env c bytes
  giveEngine client (Handle.fresh env e)

/-- `run_parse_with_alternatives` (ffi/src/lib.rs:270-305). -/
def runParseWithAlternatives (env : CEnv κ) (c : CCirc) (client input whitelist blacklist : Addr)
    (intentsAlternatives slotsAlternatives : Nat) (result : Addr) : CM κ Unit := do
  let input ← rustString env input
  withEngine client fun e => do
    let wl ← filterArg env whitelist
    let bl ← filterArg env blacklist
    let r ← callEngine c client
      (e.parseWithAlternatives c.order input wl bl intentsAlternatives slotsAlternatives)
    let x ← lift (env.cResult r)
    give result (.result x)

/-- `run_get_slots` (ffi/src/lib.rs:307-325). -/
def runGetSlots (env : CEnv κ) (c : CCirc) (client input intent : Addr) (slotsAlternatives : Nat) (result : Addr) :
    CM κ Unit := do
  let input ← rustString env input
  let intent ← rustString env intent
  withEngine client fun e => do
    let r ← callEngine c client (e.getSlotsWithAlternatives c.order input intent slotsAlternatives)
    let x ← lift (env.cSlots r)
    give result (.slots x)

/-- `run_get_intents` (ffi/src/lib.rs:327-341). -/
def runGetIntents (env : CEnv κ) (c : CCirc) (client input result : Addr) : CM κ Unit := do
  let input ← rustString env input
  withEngine client fun e => do
    let r ← callEngine c client (e.getIntents c.order input)
    let x ← lift (env.cIntents r)
    give result (.intents x)

/-- `run_parse_with_alternatives_into_json` (ffi/src/lib.rs:343-374). -/
def runParseWithAlternativesIntoJson (env : CEnv κ) (c : CCirc) (client input whitelist blacklist : Addr)
    (intentsAlternatives slotsAlternatives : Nat) (result : Addr) : CM κ Unit := do
  let input ← rustString env input
  withEngine client fun e => do
    let wl ← filterArg env whitelist
    let bl ← filterArg env blacklist
    let r ← callEngine c client
      (e.parseWithAlternatives c.order input wl bl intentsAlternatives slotsAlternatives)
    let x ← lift (env.jsonResult r)
    pointToString result x

/-- `run_get_slots_into_json` (ffi/src/lib.rs:376-390). -/
def runGetSlotsIntoJson (env : CEnv κ) (c : CCirc) (client input intent : Addr) (slotsAlternatives : Nat)
    (result : Addr) : CM κ Unit := do
  let input ← rustString env input
  let intent ← rustString env intent
  withEngine client fun e => do
    let r ← callEngine c client (e.getSlotsWithAlternatives c.order input intent slotsAlternatives)
    let x ← lift (env.jsonSlots r)
    pointToString result x

/-- `run_get_intents_into_json` (ffi/src/lib.rs:392-403). -/
def runGetIntentsIntoJson (env : CEnv κ) (c : CCirc) (client input result : Addr) : CM κ Unit := do
  let input ← rustString env input
  withEngine client fun e => do
    let r ← callEngine c client (e.getIntents c.order input)
    let x ← lift (env.jsonIntents r)
    pointToString result x

/-- `get_model_version` (ffi/src/lib.rs:405-407). -/
def getModelVersion (version : Addr) : CM κ Unit :=
  pointToString version (modelVersion.map fun ch => ch.toNat)

/-- `from_raw_pointer` and drop (crate `ffi-utils`; ffi/src/lib.rs:206-233): the object must be live and of the
right kind. -/
def destroyObject (kind : CObj κ → Bool) (p : Addr) : CM κ Unit := fun s =>
  if p = 0 then (.err (.external 240), s)
  else match s.objects p with
    | some x => if kind x then (.ok (), { s with objects := fun a => if a = p then none else s.objects a })
      else (.undefined, s)
    | none => (.undefined, s)

/-- `snips_nlu_engine_destroy_client` (ffi/src/lib.rs:211-214). -/
def destroyClient (p : Addr) : CM κ Unit := fun s =>
  if p = 0 then (.err (.external 240), s)
  else match s.engines p with
    | some _ => (.ok (), { s with engines := fun a => if a = p then none else s.engines a })
    | none => (.undefined, s)

/-- The functions of the interface (ffi/src/lib.rs:31-240), without `snips_nlu_engine_get_last_error`, which is made
by a macro of the crate `ffi-utils`. -/
inductive CCall where
  | createFromDir (rootDir client : Addr)
  | createFromZip (zip : Addr) (size : Nat) (client : Addr)
  | runParse (client input whitelist blacklist result : Addr)
  | runParseWithAlternatives (client input whitelist blacklist : Addr) (ni ns : Nat) (result : Addr)
  | runGetSlots (client input intent result : Addr)
  | runGetSlotsWithAlternatives (client input intent : Addr) (ns : Nat) (result : Addr)
  | runGetIntents (client input result : Addr)
  | runParseIntoJson (client input whitelist blacklist result : Addr)
  | runParseWithAlternativesIntoJson (client input whitelist blacklist : Addr) (ni ns : Nat) (result : Addr)
  | runGetSlotsIntoJson (client input intent result : Addr)
  | runGetSlotsWithAlternativesIntoJson (client input intent : Addr) (ns : Nat) (result : Addr)
  | runGetIntentsIntoJson (client input result : Addr)
  | destroyString (p : Addr)
  | destroyClient (p : Addr)
  | destroyResult (p : Addr)
  | destroySlots (p : Addr)
  | destroyIntentClassifierResults (p : Addr)
  | getModelVersion (version : Addr)
deriving DecidableEq, Repr

/-- The bodies of the functions, inside of `wrap!` (ffi/src/lib.rs:31-240). -/
def CCall.body (env : CEnv κ) (c : CCirc) : CCall → CM κ Unit
  | .createFromDir rootDir client => Snips.createFromDir env c rootDir client
  | .createFromZip zip size client => Snips.createFromZip env c zip size client
  | .runParse client input wl bl result => Snips.runParseWithAlternatives env c client input wl bl 0 0 result
  | .runParseWithAlternatives client input wl bl ni ns result =>
    Snips.runParseWithAlternatives env c client input wl bl ni ns result
  | .runGetSlots client input intent result => Snips.runGetSlots env c client input intent 0 result
  | .runGetSlotsWithAlternatives client input intent ns result => Snips.runGetSlots env c client input intent ns result
  | .runGetIntents client input result => Snips.runGetIntents env c client input result
  | .runParseIntoJson client input wl bl result =>
    Snips.runParseWithAlternativesIntoJson env c client input wl bl 0 0 result
  | .runParseWithAlternativesIntoJson client input wl bl ni ns result =>
    Snips.runParseWithAlternativesIntoJson env c client input wl bl ni ns result
  | .runGetSlotsIntoJson client input intent result => Snips.runGetSlotsIntoJson env c client input intent 0 result
  | .runGetSlotsWithAlternativesIntoJson client input intent ns result =>
    Snips.runGetSlotsIntoJson env c client input intent ns result
  | .runGetIntentsIntoJson client input result => Snips.runGetIntentsIntoJson env c client input result
  | .destroyString p => destroyObject (fun | .string _ => true | _ => false) p
  | .destroyClient p => Snips.destroyClient p
  | .destroyResult p => destroyObject (fun | .result _ => true | _ => false) p
  | .destroySlots p => destroyObject (fun | .slots _ => true | _ => false) p
  | .destroyIntentClassifierResults p => destroyObject (fun | .intents _ => true | _ => false) p
  | .getModelVersion version => Snips.getModelVersion version

/-- What the caller of a C function sees: `SNIPS_RESULT_OK`, `SNIPS_RESULT_KO`, unwinding out of the library, or
undefined behaviour. -/
inductive CStatus where
  | ok
  | ko
  | panic
  | undefined
deriving DecidableEq, Repr

/-- `wrap!` (crate `ffi-utils`): an error is kept as the last error. -/
def CCall.run (env : CEnv κ) (c : CCirc) (call : CCall) (s : CMem κ) : CStatus × CMem κ :=
  match call.body env c s with
  | (.ok (), s) => (.ok, s)
  | (.err e, s) => (.ko, { s with lastError := some e })
  | (.panic, s) => (.panic, s)
  | (.undefined, s) => (.undefined, s)

end Snips
