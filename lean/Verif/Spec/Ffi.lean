import Verif.Model.Ffi
import Verif.Spec.Archive
import Verif.Spec.Extraction

/-! Vocabulary for statements about the C interface. -/

namespace Snips

variable {κ : Type}

/-- The pointer is not null and points to the text. -/
def ReadsText (env : CEnv κ) (s : CMem κ) (p : Addr) (t : Text) : Prop :=
  p ≠ 0 ∧ ∃ b, s.strings p = some b ∧ env.utf8 b = .ok t

/-- The filter meant by a pointer: none for the null pointer, else the texts of the array. -/
def FilterIs (env : CEnv κ) (s : CMem κ) (p : Addr) : Option (List Text) → Prop
  | none => p = 0
  | some l => p ≠ 0 ∧ ∃ ps, s.arrays p = some ps ∧
      List.Forall₂ (fun q t => ∃ b, s.strings q = some b ∧ env.utf8 b = .ok t) ps l

/-- A live engine whose mutex is not poisoned. -/
def UsableEngine (s : CMem κ) (client : Addr) (h : Handle) : Prop :=
  client ≠ 0 ∧ s.engines client = some h ∧ h.poisoned = false

/-- The native answer of an engine to a call. -/
def Handle.answer (h : Handle) (c : CCirc) {α : Type} (p : Prog α) : Outcome α := (p.runCached h.ext c.time h.caches).1

/-- A string handed out to C has no null byte. -/
def stringObject (b : List Nat) : Outcome (CObj κ) := if 0 ∈ b then .err (.external 242) else .ok (.string b)

/-- What the native library answers to the question a call asks, converted for C.  There is no such answer when a
string cannot be read, or when there is no usable engine. -/
inductive NativeOutcome (env : CEnv κ) (c : CCirc) (s : CMem κ) : CCall → Outcome (CObj κ) → Prop where
  | parse {client input wl bl result text h w b} (ht : ReadsText env s input text) (hh : UsableEngine s client h)
      (hw : FilterIs env s wl w) (hb : FilterIs env s bl b) :
      NativeOutcome env c s (.runParse client input wl bl result)
        (h.answer c (h.engine.parse c.order text w b) >>= fun r => (env.cResult r).map .result)
  | parseWithAlternatives {client input wl bl ni ns result text h w b} (ht : ReadsText env s input text)
      (hh : UsableEngine s client h) (hw : FilterIs env s wl w) (hb : FilterIs env s bl b) :
      NativeOutcome env c s (.runParseWithAlternatives client input wl bl ni ns result)
        (h.answer c (h.engine.parseWithAlternatives c.order text w b ni ns) >>= fun r => (env.cResult r).map .result)
  | getSlots {client input intent result text name h} (ht : ReadsText env s input text)
      (hi : ReadsText env s intent name) (hh : UsableEngine s client h) :
      NativeOutcome env c s (.runGetSlots client input intent result)
        (h.answer c (h.engine.getSlots c.order text name) >>= fun r => (env.cSlots r).map .slots)
  | getSlotsWithAlternatives {client input intent ns result text name h} (ht : ReadsText env s input text)
      (hi : ReadsText env s intent name) (hh : UsableEngine s client h) :
      NativeOutcome env c s (.runGetSlotsWithAlternatives client input intent ns result)
        (h.answer c (h.engine.getSlotsWithAlternatives c.order text name ns) >>= fun r => (env.cSlots r).map .slots)
  | getIntents {client input result text h} (ht : ReadsText env s input text) (hh : UsableEngine s client h) :
      NativeOutcome env c s (.runGetIntents client input result)
        (h.answer c (h.engine.getIntents c.order text) >>= fun r => (env.cIntents r).map .intents)
  | parseJson {client input wl bl result text h w b} (ht : ReadsText env s input text) (hh : UsableEngine s client h)
      (hw : FilterIs env s wl w) (hb : FilterIs env s bl b) :
      NativeOutcome env c s (.runParseIntoJson client input wl bl result)
        (h.answer c (h.engine.parse c.order text w b) >>= fun r => env.jsonResult r >>= stringObject)
  | parseWithAlternativesJson {client input wl bl ni ns result text h w b} (ht : ReadsText env s input text)
      (hh : UsableEngine s client h) (hw : FilterIs env s wl w) (hb : FilterIs env s bl b) :
      NativeOutcome env c s (.runParseWithAlternativesIntoJson client input wl bl ni ns result)
        (h.answer c (h.engine.parseWithAlternatives c.order text w b ni ns) >>=
          fun r => env.jsonResult r >>= stringObject)
  | getSlotsJson {client input intent result text name h} (ht : ReadsText env s input text)
      (hi : ReadsText env s intent name) (hh : UsableEngine s client h) :
      NativeOutcome env c s (.runGetSlotsIntoJson client input intent result)
        (h.answer c (h.engine.getSlots c.order text name) >>= fun r => env.jsonSlots r >>= stringObject)
  | getSlotsWithAlternativesJson {client input intent ns result text name h} (ht : ReadsText env s input text)
      (hi : ReadsText env s intent name) (hh : UsableEngine s client h) :
      NativeOutcome env c s (.runGetSlotsWithAlternativesIntoJson client input intent ns result)
        (h.answer c (h.engine.getSlotsWithAlternatives c.order text name ns) >>=
          fun r => env.jsonSlots r >>= stringObject)
  | getIntentsJson {client input result text h} (ht : ReadsText env s input text) (hh : UsableEngine s client h) :
      NativeOutcome env c s (.runGetIntentsIntoJson client input result)
        (h.answer c (h.engine.getIntents c.order text) >>= fun r => env.jsonIntents r >>= stringObject)

/-- The engine a call questions. -/
def CCall.client : CCall → Option Addr
  | .runParse client _ _ _ _ => some client
  | .runParseWithAlternatives client _ _ _ _ _ _ => some client
  | .runGetSlots client _ _ _ => some client
  | .runGetSlotsWithAlternatives client _ _ _ _ => some client
  | .runGetIntents client _ _ => some client
  | .runParseIntoJson client _ _ _ _ => some client
  | .runParseWithAlternativesIntoJson client _ _ _ _ _ _ => some client
  | .runGetSlotsIntoJson client _ _ _ => some client
  | .runGetSlotsWithAlternativesIntoJson client _ _ _ _ => some client
  | .runGetIntentsIntoJson client _ _ => some client
  | _ => none

/-- The object a call destroys. -/
def CCall.destroys : CCall → Option Addr
  | .destroyString p => some p
  | .destroyClient p => some p
  | .destroyResult p => some p
  | .destroySlots p => some p
  | .destroyIntentClassifierResults p => some p
  | _ => none

/-- The variable in which a call puts its result. -/
def CCall.resultVar : CCall → Option Addr
  | .createFromDir _ client => some client
  | .createFromZip _ _ client => some client
  | .runParse _ _ _ _ result => some result
  | .runParseWithAlternatives _ _ _ _ _ _ result => some result
  | .runGetSlots _ _ _ result => some result
  | .runGetSlotsWithAlternatives _ _ _ _ result => some result
  | .runGetIntents _ _ result => some result
  | .runParseIntoJson _ _ _ _ result => some result
  | .runParseWithAlternativesIntoJson _ _ _ _ _ _ result => some result
  | .runGetSlotsIntoJson _ _ _ result => some result
  | .runGetSlotsWithAlternativesIntoJson _ _ _ _ result => some result
  | .runGetIntentsIntoJson _ _ result => some result
  | .destroyString _ => none
  | .destroyClient _ => none
  | .destroyResult _ => none
  | .destroySlots _ => none
  | .destroyIntentClassifierResults _ => none
  | .getModelVersion version => some version

/-- Nothing is live at the null pointer, nor at the addresses not yet used. -/
structure CMem.Tidy (s : CMem κ) : Prop where
  pos : 0 < s.next
  null : s.objects 0 = none ∧ s.engines 0 = none
  fresh : ∀ a, s.next ≤ a → s.objects a = none ∧ s.engines a = none

/-- Pointers to strings may be null, else they must be readable. -/
def StringArg (s : CMem κ) (p : Addr) : Prop := p = 0 ∨ s.strings p ≠ none

/-- Pointers to string arrays may be null, else they must be readable and so must be the elements. -/
def ArrayArg (s : CMem κ) (p : Addr) : Prop := p = 0 ∨ ∃ ps, s.arrays p = some ps ∧ ∀ q ∈ ps, s.strings q ≠ none

/-- Pointers to engines may be null, else they must be live. -/
def EngineArg (s : CMem κ) (p : Addr) : Prop := p = 0 ∨ s.engines p ≠ none

/-- Pointers to results must be writable. -/
def ResultArg (s : CMem κ) (p : Addr) : Prop := s.vars p ≠ none

/-- What the caller must guarantee. -/
def CCall.Valid (s : CMem κ) : CCall → Prop
  | .createFromDir rootDir client => StringArg s rootDir ∧ ResultArg s client
  | .createFromZip zip size client => (∃ b, s.bytes zip = some b ∧ size ≤ b.length) ∧ ResultArg s client
  | .runParse client input wl bl result =>
    EngineArg s client ∧ StringArg s input ∧ ArrayArg s wl ∧ ArrayArg s bl ∧ ResultArg s result
  | .runParseWithAlternatives client input wl bl _ _ result =>
    EngineArg s client ∧ StringArg s input ∧ ArrayArg s wl ∧ ArrayArg s bl ∧ ResultArg s result
  | .runGetSlots client input intent result =>
    EngineArg s client ∧ StringArg s input ∧ StringArg s intent ∧ ResultArg s result
  | .runGetSlotsWithAlternatives client input intent _ result =>
    EngineArg s client ∧ StringArg s input ∧ StringArg s intent ∧ ResultArg s result
  | .runGetIntents client input result => EngineArg s client ∧ StringArg s input ∧ ResultArg s result
  | .runParseIntoJson client input wl bl result =>
    EngineArg s client ∧ StringArg s input ∧ ArrayArg s wl ∧ ArrayArg s bl ∧ ResultArg s result
  | .runParseWithAlternativesIntoJson client input wl bl _ _ result =>
    EngineArg s client ∧ StringArg s input ∧ ArrayArg s wl ∧ ArrayArg s bl ∧ ResultArg s result
  | .runGetSlotsIntoJson client input intent result =>
    EngineArg s client ∧ StringArg s input ∧ StringArg s intent ∧ ResultArg s result
  | .runGetSlotsWithAlternativesIntoJson client input intent _ result =>
    EngineArg s client ∧ StringArg s input ∧ StringArg s intent ∧ ResultArg s result
  | .runGetIntentsIntoJson client input result => EngineArg s client ∧ StringArg s input ∧ ResultArg s result
  | .destroyString p => p = 0 ∨ ∃ b, s.objects p = some (.string b)
  | .destroyClient p => EngineArg s p
  | .destroyResult p => p = 0 ∨ ∃ x, s.objects p = some (.result x)
  | .destroySlots p => p = 0 ∨ ∃ x, s.objects p = some (.slots x)
  | .destroyIntentClassifierResults p => p = 0 ∨ ∃ x, s.objects p = some (.intents x)
  | .getModelVersion version => ResultArg s version

/-- The states a process can be in: it starts without engines and objects, makes calls with valid arguments, and
does what it likes with its own memory and the disk. -/
inductive Session (env : CEnv κ) : CMem κ → Prop where
  | start (s : CMem κ) (hpos : 0 < s.next) (hobjects : ∀ a, s.objects a = none) (hengines : ∀ a, s.engines a = none) :
      Session env s
  | call {s : CMem κ} (h : Session env s) (c : CCirc) (call : CCall) (hvalid : call.Valid s) :
      Session env (call.run env c s).2
  | own {s : CMem κ} (h : Session env s) (s' : CMem κ) (hengines : s'.engines = s.engines)
      (hobjects : s'.objects = s.objects) (hnext : s'.next = s.next) : Session env s'

end Snips
