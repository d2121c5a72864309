import Verif.Model.Ffi
import Verif.Model.Readers

/-! # Model of the bindings for Python, Kotlin and Swift (platforms/)

Code of the three wrappers, as clients of the C interface.  The memory of the host language (strings, arrays, bytes
and pointer variables that the C code reads or writes) is taken from addresses that have not been used before. -/

namespace Snips

/-- What a wrapper can throw. -/
inductive HostError where
  /-- an exception with the message of the library; the words which Python puts before it are left out -/
  | library (message : List Nat)
  /-- `see stderr` (platforms/python/snips_nlu_rust/utils.py:32) -/
  | seeStderr
  /-- a null pointer is dereferenced in Kotlin -/
  | nullPointer
  /-- an error of a conversion -/
  | conversion (n : Nat)
  /-- `Can't retrieve ..` (platforms/swift/SnipsNlu/SnipsNlu/NluEngine.swift:450, :471, :488) -/
  | noResult
  /-- `Please specify engine_dir or engine_bytes` (platforms/python/snips_nlu_rust/nlu_engine.py:41) -/
  | noEngine
deriving DecidableEq, Repr

/-- How code of a wrapper ends: a value, an exception, a trap of the host language, a panic of the library unwinding
into the host, or undefined behaviour. -/
inductive HEnd (α : Type) where
  | ok (a : α)
  | throws (e : HostError)
  | trap
  | panic
  | undefined
deriving DecidableEq, Repr

/-- The memory of the process, and the next address which the host has not used. -/
structure HMem (κ : Type) where
  c : CMem κ
  host : Addr

/-- Code of a wrapper. -/
def HM (κ α : Type) := HMem κ → HEnd α × HMem κ

/-- What C reads of a string: the bytes before the first null byte. -/
def cBytes (b : List Nat) : List Nat := b.takeWhile (· ≠ 0)

/-- Passing of an integer as `c_uint`: the lower 32 bits. -/
def asU32 (n : Int) : Nat := (n % 4294967296).toNat

namespace HMem

variable {κ : Type}

/-- The address `host` is taken. -/
def taken (s : HMem κ) : HMem κ := { s with host := s.host + 1 }

/-- Allocation or release of a string. -/
def setString (s : HMem κ) (p : Addr) (v : Option (List Nat)) : HMem κ :=
  { s with c := { s.c with strings := fun a => if a = p then v else s.c.strings a } }

/-- Allocation or release of a string array. -/
def setArray (s : HMem κ) (p : Addr) (v : Option (List Addr)) : HMem κ :=
  { s with c := { s.c with arrays := fun a => if a = p then v else s.c.arrays a } }

/-- Allocation or release of bytes. -/
def setBytes (s : HMem κ) (p : Addr) (v : Option (List Nat)) : HMem κ :=
  { s with c := { s.c with bytes := fun a => if a = p then v else s.c.bytes a } }

/-- Allocation or release of a pointer variable. -/
def setVar (s : HMem κ) (p : Addr) (v : Option Addr) : HMem κ :=
  { s with c := { s.c with vars := fun a => if a = p then v else s.c.vars a } }

end HMem

namespace HM

variable {κ α β : Type}

/-- A value. -/
protected def pure (a : α) : HM κ α := fun s => (.ok a, s)

/-- Sequence. -/
protected def bind (m : HM κ α) (f : α → HM κ β) : HM κ β := fun s =>
  match m s with
  | (.ok a, s) => f a s
  | (.throws e, s) => (.throws e, s)
  | (.trap, s) => (.trap, s)
  | (.panic, s) => (.panic, s)
  | (.undefined, s) => (.undefined, s)

instance : Monad (HM κ) where
  pure := HM.pure
  bind := HM.bind

/-- An exception. -/
def throws (e : HostError) : HM κ α := fun s => (.throws e, s)

/-- Undefined behaviour. -/
def lost : HM κ α := fun s => (.undefined, s)

/-- `try .. finally ..`, `defer`: `f` runs after a value and after an exception. -/
def finally' (m : HM κ α) (f : HM κ Unit) : HM κ α := fun s =>
  match m s with
  | (.ok a, s) => HM.bind f (fun _ => HM.pure a) s
  | (.throws e, s) => HM.bind f (fun _ => throws e) s
  | r => r

/-- `f` runs after an exception. -/
def onThrow (m : HM κ α) (f : HM κ Unit) : HM κ α := fun s =>
  match m s with
  | (.throws e, s) => HM.bind f (fun _ => throws e) s
  | r => r

/-- A string for the time of `k`. -/
def withString (b : List Nat) (k : Addr → HM κ α) : HM κ α := fun s =>
  let r := k s.host (s.taken.setString s.host (some (cBytes b)))
  (r.1, r.2.setString s.host none)

/-- Strings for the time of `k`. -/
def withStrings : List (List Nat) → (List Addr → HM κ α) → HM κ α
  | [], k => k []
  | b :: bs, k => withString b fun p => withStrings bs fun ps => k (p :: ps)

/-- An array for the time of `k`. -/
def withArray (l : Option (List Addr)) (k : Addr → HM κ α) : HM κ α := fun s =>
  let r := k s.host (s.taken.setArray s.host l)
  (r.1, r.2.setArray s.host none)

/-- Bytes for the time of `k`. -/
def withBytes (b : Option (List Nat)) (k : Addr → HM κ α) : HM κ α := fun s =>
  let r := k s.host (s.taken.setBytes s.host b)
  (r.1, r.2.setBytes s.host none)

/-- A variable that holds the null pointer, for the time of `k`. -/
def withVar (k : Addr → HM κ α) : HM κ α := fun s =>
  let r := k s.host (s.taken.setVar s.host (some 0))
  (r.1, r.2.setVar s.host none)

/-- A string that is not released. -/
def newString (b : List Nat) : HM κ Addr := fun s => (.ok s.host, s.taken.setString s.host (some (cBytes b)))

/-- An array that is not released. -/
def newArray (l : List Addr) : HM κ Addr := fun s => (.ok s.host, s.taken.setArray s.host (some l))

/-- A variable that is not released. -/
def newVar : HM κ Addr := fun s => (.ok s.host, s.taken.setVar s.host (some 0))

/-- Reading of a pointer variable. -/
def readVar (v : Addr) : HM κ Addr := fun s =>
  match s.c.vars v with
  | some p => (.ok p, s)
  | none => (.undefined, s)

/-- Reading of an object through a pointer variable: it must be live and of the right kind. -/
def readObject (sel : CObj κ → Option β) (v : Addr) : HM κ β := fun s =>
  match s.c.vars v with
  | none => (.undefined, s)
  | some p =>
    match (s.c.objects p).bind sel with
    | some x => (.ok x, s)
    | none => (.undefined, s)

/-- A call of the C interface: whether it returns `SNIPS_RESULT_OK`. -/
def ccall (env : CEnv κ) (c : CCirc) (call : CCall) : HM κ Bool := fun s =>
  let r := call.run env c s.c
  (match r.1 with
    | .ok => .ok true
    | .ko => .ok false
    | .panic => .panic
    | .undefined => .undefined, { s with c := r.2 })

end HM

open HM

variable {κ : Type}

/-- The string of a string object. -/
def CObj.string? : CObj κ → Option (List Nat)
  | .string b => some b
  | _ => none

/-- The structure of a result. -/
def CObj.result? : CObj κ → Option κ
  | .result x => some x
  | _ => none

/-- The structure of a list of slots. -/
def CObj.slots? : CObj κ → Option κ
  | .slots x => some x
  | _ => none

/-- The structure of a list of intents. -/
def CObj.intents? : CObj κ → Option κ
  | .intents x => some x
  | _ => none

/-- `"No error message"` (crate `ffi-utils`, transcribed). -/
def noErrorMessage : List Nat := encodeUtf8 "No error message".toList

/-- `snips_nlu_engine_get_last_error` (ffi/src/lib.rs:29, made by `generate_error_handling!` of the crate `ffi-utils`,
transcribed): the message of the last error, which is forgotten, becomes a string.  `msg` formats errors. -/
def getLastError (msg : Err → List Nat) (error : Addr) (s : CMem κ) : CStatus × CMem κ :=
  let text := match s.lastError with
    | some e => msg e
    | none => noErrorMessage
  match CM.pointToString error text { s with lastError := none } with
  | (.ok (), s) => (.ok, s)
  | (.err e, s) => (.ko, { s with lastError := some e })
  | (.panic, s) => (.panic, s)
  | (.undefined, s) => (.undefined, s)

/-- Its call. -/
def lastErrorCall (msg : Err → List Nat) (error : Addr) : HM κ Bool := fun s =>
  let r := getLastError msg error s.c
  (match r.1 with
    | .ok => .ok true
    | .ko => .ok false
    | .panic => .panic
    | .undefined => .undefined, { s with c := r.2 })

/-- A question to an engine, in terms of the host language. -/
inductive Question where
  | parse (text : Text) (whitelist blacklist : Option (List Text)) (intentsAlternatives slotsAlternatives : Int)
  | getSlots (text intent : Text) (slotsAlternatives : Int)
  | getIntents (text : Text)

/-! ## Python -/

/-- `string_pointer` (platforms/python/snips_nlu_rust/utils.py:11-16): at the end the string pointed to is
destroyed; the status is ignored. -/
def pyStringPointer {α : Type} (env : CEnv κ) (c : CCirc) (k : Addr → HM κ α) : HM κ α :=
  withVar fun ptr => finally' (k ptr) do
    let p ← readVar ptr
    let _ ← ccall env c (.destroyString p)

/-- `check_ffi_error` (platforms/python/snips_nlu_rust/utils.py:26-33). -/
def pyCheck (env : CEnv κ) (msg : Err → List Nat) (c : CCirc) (ok : Bool) : HM κ Unit :=
  if ok then pure () else do
    let m ← pyStringPointer env c fun ptr => do
      let ok ← lastErrorCall msg ptr
      if ok then do
        let b ← readObject CObj.string? ptr
        pure (HostError.library b)
      else pure .seeStderr
    throws m

/-- A filter (platforms/python/snips_nlu_rust/nlu_engine.py:82-91, :92-101); the check of types is left out. -/
def pyFilter {α : Type} (l : Option (List Text)) (k : Addr → HM κ α) : HM κ α :=
  match l with
  | none => k 0
  | some l => withStrings (l.map encodeUtf8) fun ps => withArray (some ps) k

/-- The common part of the methods (platforms/python/snips_nlu_rust/nlu_engine.py:102-110, :128-136, :151-157). -/
def pyQuery (env : CEnv κ) (msg : Err → List Nat) (c : CCirc) (call : Addr → CCall) : HM κ (List Nat) :=
  pyStringPointer env c fun ptr => do
    let ok ← ccall env c (call ptr)
    pyCheck env msg c ok
    readObject CObj.string? ptr

/-- `parse`, `get_slots`, `get_intents` (platforms/python/snips_nlu_rust/nlu_engine.py:62-112, :114-138, :140-158)
without `json.loads` at their end. -/
def pyAsk (env : CEnv κ) (msg : Err → List Nat) (c : CCirc) (engine : Addr) : Question → HM κ (List Nat)
  | .parse text wl bl ni ns =>
    pyFilter wl fun w => pyFilter bl fun b => withString (encodeUtf8 text) fun q =>
      pyQuery env msg c fun v => .runParseWithAlternativesIntoJson engine q w b (asU32 ni) (asU32 ns) v
  | .getSlots text intent ns =>
    withString (encodeUtf8 text) fun q => withString (encodeUtf8 intent) fun i =>
      pyQuery env msg c fun v => .runGetSlotsWithAlternativesIntoJson engine q i (asU32 ns) v
  | .getIntents text =>
    withString (encodeUtf8 text) fun q => pyQuery env msg c fun v => .runGetIntentsIntoJson engine q v

/-- `__del__` (platforms/python/snips_nlu_rust/nlu_engine.py:160-162) of an object with an engine pointer. -/
def pyDel (env : CEnv κ) (c : CCirc) (engine : Addr) : HM κ Unit := do
  let _ ← ccall env c (.destroyClient engine)

/-- The common part of the two ways of making an engine (platforms/python/snips_nlu_rust/nlu_engine.py:45-47, :52-56,
:60).  If `__init__` throws, the object is released. -/
def pyCreate (env : CEnv κ) (msg : Err → List Nat) (c : CCirc) (call : Addr → CCall) : HM κ Addr :=
  withVar fun v => onThrow
    (do
      let ok ← ccall env c (call v)
      pyCheck env msg c ok
      readVar v)
    (do
      let p ← readVar v
      pyDel env c p)

/-- `__init__` (platforms/python/snips_nlu_rust/nlu_engine.py:37-60); `dir` is `str(Path(engine_dir))`. -/
def pyInit (env : CEnv κ) (msg : Err → List Nat) (c : CCirc) (dir : Option Text) (bytes : Option (List Nat)) :
    HM κ Addr :=
  match dir, bytes with
  | some dir, _ => withString (encodeUtf8 dir) fun p => pyCreate env msg c fun v => .createFromDir p v
  | none, some b => withBytes (some b) fun p => pyCreate env msg c fun v => .createFromZip p (asU32 b.length) v
  | none, none => throws .noEngine

/-! ## Kotlin -/

/-- `parseError` (platforms/kotlin/src/main/kotlin/ai/snips/nlu/NluEngine.kt:58-67). -/
def ktParseError (env : CEnv κ) (msg : Err → List Nat) (c : CCirc) (ok : Bool) : HM κ Unit :=
  if ok then pure () else withVar fun v => do
    let _ ← lastErrorCall msg v
    let p ← readVar v
    if p = 0 then throws .nullPointer else do
      let b ← readObject CObj.string? v
      let _ ← ccall env c (.destroyString p)
      throws (.library b)

/-- The garbage collector releases strings to which only native memory points. -/
def collect (gc : Addr → Bool) (ps : List Addr) : HM κ Unit := fun s =>
  (.ok (), { s with c := { s.c with strings := fun a => if a ∈ ps ∧ gc a = true then none else s.c.strings a } })

/-- `CStringArray.fromStringList` (platforms/kotlin/src/main/kotlin/ai/snips/nlu/NluEngine.kt:25-34, :105-106): the array
holds addresses of strings to which nothing else refers, so that the collector, which releases what `gc` says,
may release them at any time before the call.  The data of an empty array is null, of which
`slice::from_raw_parts` (ffi/src/lib.rs:411) may not make a slice, so it is not readable. -/
def ktFilter {α : Type} (l : Option (List Text)) (k : List Addr → Addr → HM κ α) : HM κ α :=
  match l with
  | none => k [] 0
  | some l => withStrings (l.map encodeUtf8) fun ps => withArray (if ps = [] then none else some ps) (k ps)

/-- The common part of the methods (platforms/kotlin/src/main/kotlin/ai/snips/nlu/NluEngine.kt:101-118, :125-139,
:142-157, :160-172, :175-184, :187-198): `conv` converts what is read (external), then it is destroyed. -/
def ktQuery {β τ : Type} (env : CEnv κ) (msg : Err → List Nat) (c : CCirc) (call : Addr → CCall)
    (sel : CObj κ → Option β) (conv : β → Except HostError τ) (destroy : Addr → CCall) : HM κ τ :=
  withVar fun v => do
    let ok ← ccall env c (call v)
    ktParseError env msg c ok
    let x ← readObject sel v
    match conv x with
    | .error e => throws e
    | .ok y => do
      let p ← readVar v
      let _ ← ccall env c (destroy p)
      pure y

/-- The conversions of structures to Kotlin (`toIntentParserResult`, `toSlotList`, `toIntentClassifierResultList` of
snips-nlu-ontology, external). -/
structure KtConv (κ τ : Type) where
  result : κ → Except HostError τ
  slots : κ → Except HostError τ
  intents : κ → Except HostError τ

/-- `parse`, `getSlots`, `getIntents` (platforms/kotlin/src/main/kotlin/ai/snips/nlu/NluEngine.kt:96-118, :141-157,
:174-184). -/
def ktAsk {τ : Type} (env : CEnv κ) (msg : Err → List Nat) (conv : KtConv κ τ) (gc : Addr → Bool) (c : CCirc)
    (client : Addr) : Question → HM κ τ
  | .parse text wl bl ni ns =>
    withString (encodeUtf8 text) fun q => ktFilter wl fun ws w => ktFilter bl fun bs b => do
      collect gc (ws ++ bs)
      ktQuery env msg c (fun v => .runParseWithAlternatives client q w b (asU32 ni) (asU32 ns) v) CObj.result?
        conv.result .destroyResult
  | .getSlots text intent ns =>
    withString (encodeUtf8 text) fun q => withString (encodeUtf8 intent) fun i =>
      ktQuery env msg c (fun v => .runGetSlotsWithAlternatives client q i (asU32 ns) v) CObj.slots? conv.slots
        .destroySlots
  | .getIntents text =>
    withString (encodeUtf8 text) fun q =>
      ktQuery env msg c (fun v => .runGetIntents client q v) CObj.intents? conv.intents .destroyIntentClassifierResults

/-- `parseIntoJson`, `getSlotsIntoJson`, `getIntentsIntoJson`
(platforms/kotlin/src/main/kotlin/ai/snips/nlu/NluEngine.kt:120-139, :159-172, :186-198). -/
def ktAskJson (env : CEnv κ) (msg : Err → List Nat) (gc : Addr → Bool) (c : CCirc) (client : Addr) :
    Question → HM κ (List Nat)
  | .parse text wl bl ni ns =>
    withString (encodeUtf8 text) fun q => ktFilter wl fun ws w => ktFilter bl fun bs b => do
      collect gc (ws ++ bs)
      ktQuery env msg c (fun v => .runParseWithAlternativesIntoJson client q w b (asU32 ni) (asU32 ns) v) CObj.string?
        .ok .destroyString
  | .getSlots text intent ns =>
    withString (encodeUtf8 text) fun q => withString (encodeUtf8 intent) fun i =>
      ktQuery env msg c (fun v => .runGetSlotsWithAlternativesIntoJson client q i (asU32 ns) v) CObj.string? .ok
        .destroyString
  | .getIntents text =>
    withString (encodeUtf8 text) fun q =>
      ktQuery env msg c (fun v => .runGetIntentsIntoJson client q v) CObj.string? .ok .destroyString

/-- `modelVersion` (platforms/kotlin/src/main/kotlin/ai/snips/nlu/NluEngine.kt:70-73). -/
def ktModelVersion (env : CEnv κ) (msg : Err → List Nat) (c : CCirc) : HM κ (List Nat) :=
  ktQuery env msg c .getModelVersion CObj.string? .ok .destroyString

/-- The constructors (platforms/kotlin/src/main/kotlin/ai/snips/nlu/NluEngine.kt:76-90). -/
def ktCreate (env : CEnv κ) (msg : Err → List Nat) (c : CCirc) (src : Text ⊕ List Nat) : HM κ Addr :=
  let create (call : Addr → CCall) : HM κ Addr := withVar fun v => do
    let ok ← ccall env c (call v)
    ktParseError env msg c ok
    readVar v
  match src with
  | .inl dir => withString (encodeUtf8 dir) fun p => create fun v => .createFromDir p v
  | .inr b => withBytes (some b) fun p => create fun v => .createFromZip p (asU32 b.length) v

/-- `close` (platforms/kotlin/src/main/kotlin/ai/snips/nlu/NluEngine.kt:92-94). -/
def ktClose (env : CEnv κ) (c : CCirc) (client : Addr) : HM κ Unit := do
  let _ ← ccall env c (.destroyClient client)

/-! ## Swift -/

/-- `NluEngineError.getLast` (platforms/swift/SnipsNlu/SnipsNlu/NluEngine.swift:15-19): neither the buffer, which is not
initialised, nor the string is released; the status is ignored. -/
def swGetLast (msg : Err → List Nat) : HM κ HostError := do
  let v ← newVar
  let ok ← lastErrorCall msg v
  if ok then do
    let b ← readObject CObj.string? v
    pure (.library b)
  else lost

/-- `CStringArray.init(array:)` (platforms/swift/SnipsNlu/SnipsNlu/NluEngine.swift:363-372): strings and array. -/
def swNewStrings : List (List Nat) → HM κ (List Addr)
  | [] => pure []
  | b :: bs => do
    let p ← newString b
    let ps ← swNewStrings bs
    pure (p :: ps)

/-- A filter (platforms/swift/SnipsNlu/SnipsNlu/NluEngine.swift:436-444).  Simplification: the pointer to the local
variable stays valid although it leaves the closure it is given to. -/
def swFilter (l : Option (List Text)) : HM κ (Addr × List Addr) :=
  match l with
  | none => pure (0, [])
  | some l => do
    let ps ← swNewStrings (l.map encodeUtf8)
    let a ← newArray ps
    pure (a, ps)

/-- `CStringArray.destroy` (platforms/swift/SnipsNlu/SnipsNlu/NluEngine.swift:374-380). -/
def swFree (f : Addr × List Addr) : HM κ Unit := fun s =>
  (.ok (), if f.1 = 0 then s else (f.2.foldl (fun s p => s.setString p none) s).setArray f.1 none)

/-- `UInt32(..)`: a trap if the number does not fit. -/
def swU32 (n : Int) : HM κ Nat := fun s => if 0 ≤ n ∧ n < 4294967296 then (.ok n.toNat, s) else (.trap, s)

/-- The common part of the methods (platforms/swift/SnipsNlu/SnipsNlu/NluEngine.swift:446-451, :467-472, :484-489), inside of
`defer`. -/
def swQuery {τ : Type} (env : CEnv κ) (msg : Err → List Nat) (c : CCirc) (call : CCall) (v : Addr)
    (sel : CObj κ → Option κ) (conv : κ → Except HostError τ) : HM κ τ := do
  let ok ← ccall env c call
  if ok then do
    let p ← readVar v
    if p = 0 then throws .noResult else do
      let x ← readObject sel v
      match conv x with
      | .error e => throws e
      | .ok y => pure y
  else do
    let e ← swGetLast msg
    throws e

/-- `parse`, `getSlots`, `getIntents` (platforms/swift/SnipsNlu/SnipsNlu/NluEngine.swift:424-452, :461-473, :478-490). -/
def swAsk {τ : Type} (env : CEnv κ) (msg : Err → List Nat) (conv : KtConv κ τ) (c : CCirc) (client : Addr) :
    Question → HM κ τ
  | .parse text wl bl ni ns => withVar fun v => do
    let w ← swFilter wl
    let b ← swFilter bl
    finally'
      (withString (encodeUtf8 text) fun q => do
        let ni ← swU32 ni
        let ns ← swU32 ns
        swQuery env msg c (.runParseWithAlternatives client q w.1 b.1 ni ns v) v CObj.result? conv.result)
      (do
        let p ← readVar v
        let _ ← ccall env c (.destroyResult p)
        swFree w
        swFree b)
  | .getSlots text intent ns => withVar fun v => finally'
      (withString (encodeUtf8 text) fun q => withString (encodeUtf8 intent) fun i => do
        let ns ← swU32 ns
        swQuery env msg c (.runGetSlotsWithAlternatives client q i ns v) v CObj.slots? conv.slots)
      (do
        let p ← readVar v
        let _ ← ccall env c (.destroySlots p))
  | .getIntents text => withVar fun v => finally'
      (withString (encodeUtf8 text) fun q =>
        swQuery env msg c (.runGetIntents client q v) v CObj.intents? conv.intents)
      (do
        let p ← readVar v
        let _ ← ccall env c (.destroyIntentClassifierResults p))

/-- `init` (platforms/swift/SnipsNlu/SnipsNlu/NluEngine.swift:389-393, :400-406) from a directory, or from bytes.
The address of no bytes is null, of which `slice::from_raw_parts` (ffi/src/lib.rs:261) may not make a slice, so it is
not readable. -/
def swInit (env : CEnv κ) (msg : Err → List Nat) (c : CCirc) (src : Text ⊕ List Nat) : HM κ Addr :=
  let create (call : Addr → CCall) : HM κ Addr := withVar fun v => do
    let ok ← ccall env c (call v)
    if ok then readVar v
    else do
      let e ← swGetLast msg
      throws e
  match src with
  | .inl dir => withString (encodeUtf8 dir) fun p => create fun v => .createFromDir p v
  | .inr b => withBytes (if b = [] then none else some b) fun p => do
    let n ← swU32 b.length
    create fun v => .createFromZip p n v

/-- `deinit` (platforms/swift/SnipsNlu/SnipsNlu/NluEngine.swift:408-413). -/
def swDeinit (env : CEnv κ) (c : CCirc) (client : Addr) : HM κ Unit := fun s =>
  if client ≠ 0 then HM.bind (ccall env c (.destroyClient client)) (fun _ => HM.pure ()) s else (.ok (), s)

end Snips
