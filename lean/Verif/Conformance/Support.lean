import Verif.Model.Lookup
import Verif.Model.Deterministic
import Verif.Model.SlotFiller

/-! # Replaying the tests of the code on the model

The files in this directory run the model on the inputs of the unit tests in /repo and compare with the results
expected there.  They are tests of the transcription, not proofs of properties. -/

namespace Snips.Conformance

/-- Characters of words in the test sentences. -/
def isWordChar (c : Char) : Bool := c.isAlphanum || c = '_' || c = 'ü'

/-- Characters that are tokens of their own in the test sentences. -/
def isSymbolChar (c : Char) : Bool := ['%', '!', '?', '£'].contains c

/-- Words and symbols with their byte and character ranges: what the tokenizer of the dependency gives for the
sentences used in the tests.  `bs`, `cs` are the starts of `word`, `b`, `c` the current offsets. -/
def wordsFrom : (word : Text) → (bs cs b c : Nat) → Text → List Token
  | word, bs, cs, b, c, [] => if word = [] then [] else [⟨word, ⟨bs, b⟩, ⟨cs, c⟩⟩]
  | word, bs, cs, b, c, ch :: rest =>
    if isWordChar ch then wordsFrom (word ++ [ch]) bs cs (b + ch.utf8Size) (c + 1) rest
    else
      (if word = [] then [] else [⟨word, ⟨bs, b⟩, ⟨cs, c⟩⟩])
        ++ (if isSymbolChar ch then [⟨[ch], ⟨b, b + ch.utf8Size⟩, ⟨c, c + 1⟩⟩] else [])
        ++ wordsFrom [] (b + ch.utf8Size) (c + 1) (b + ch.utf8Size) (c + 1) rest

/-- Tokens of a plain text. -/
def words (t : Text) : List Token := wordsFrom [] 0 0 0 0 t

/-- A text given as a literal. -/
def s (x : String) : Text := x.toList

/-- Text functions for the plain (ASCII) texts used in the tests. -/
def plainFns : TextFns where
  lower := List.map Char.toLower
  upper := List.map Char.toUpper
  normalize := List.map Char.toLower
  shape t :=
    if t.all Char.isLower then s "xxx"
    else if t.all Char.isUpper then s "XXX"
    else match t with
      | c :: rest => if c.isUpper && rest.all Char.isLower then s "Xxx" else s "xX"
      | [] => s "xX"
  tokenize := words
  tokenizeLight t := (words t).map Token.value
  tokenizeLightEn t := (words t).map Token.value
  hashStr t := t.foldl (fun h c => h * 1114112 + c.toNat) 0

/-- Entity parsers that find nothing. -/
def noEntities : World := ⟨fun _ _ _ => .ok [], fun _ _ _ => .ok []⟩

/-- `MockedCustomEntityParser` (src/testutils.rs): the entities listed for a sentence. -/
def mockedCustom (table : List (Text × List CustomEntity)) : World :=
  ⟨fun _ _ _ => .ok [], fun t _ _ => .ok ((table.lookup t).getD [])⟩

/-- `MockedBuiltinEntityParser` (src/testutils.rs). -/
def mockedBuiltin (table : List (Text × List BuiltinEntity)) : World :=
  ⟨fun t _ _ => .ok ((table.lookup t).getD []), fun _ _ _ => .ok []⟩

/-- Both. -/
def mocked (b : List (Text × List BuiltinEntity)) (c : List (Text × List CustomEntity)) : World :=
  ⟨(mockedBuiltin b).builtin, (mockedCustom c).custom⟩

/-- The builtin kinds used in the tests. -/
def kinds : KindNames where
  fromStr t := if t = s "Number" then some 0 else if t = s "Datetime" then some 1 else none
  fromIdentifier t := if t = s "snips/number" then some 0 else if t = s "snips/datetime" then some 1 else none
  identifier k := if k = 0 then s "snips/number" else s "snips/datetime"

/-- The environment of the rule-based parsers in the tests (debug assertions are on in `cargo test`). -/
def ruleEnv : RuleEnv := ⟨plainFns, kinds, Rounding.exact, true⟩

/-- The custom entities of `sentence` whose identifier is in the scope. -/
def scopedCustom (sentence : Text) (es : List CustomEntity) :
    Text → Option (List Text) → Nat → Outcome (List CustomEntity) := fun t scope _ =>
  .ok (if t = sentence then es.filter fun e => match scope with
    | some ids => ids.contains e.identifier
    | none => true
  else [])

/-- The builtin entities of `sentence` whose kind is in the scope. -/
def scopedBuiltin (sentence : Text) (es : List BuiltinEntity) :
    Text → Option (List Kind) → Nat → Outcome (List BuiltinEntity) := fun t scope _ =>
  .ok (if t = sentence then es.filter fun e => match scope with
    | some ks => ks.contains e.kind
    | none => true
  else [])

/-! The sentences of several tests with their entities. -/

def onePlusOne : World := mockedBuiltin [(s "what is one plus one",
  [⟨s "one", ⟨8, 11⟩, .builtin 1, [], 0⟩, ⟨s "one", ⟨17, 20⟩, .builtin 1, [], 0⟩])]

def callTomorrow : World :=
  ⟨scopedBuiltin (s "call tomorrow") [⟨s "tomorrow", ⟨5, 13⟩, .builtin 2, [], 1⟩],
    scopedCustom (s "call tomorrow") [⟨s "call", s "call", [], ⟨0, 4⟩, s "event"⟩]⟩

def callTomorrowBuiltin : World := ⟨callTomorrow.builtin, fun _ _ _ => .ok []⟩

def meetingText : Text := s "meeting with John at Snips either this afternoon or tomorrow"

def meeting : World := mocked
  [(meetingText, [⟨s "this afternoon", ⟨34, 48⟩, .builtin 3, [], 1⟩, ⟨s "tomorrow", ⟨52, 60⟩, .builtin 2, [], 1⟩])]
  [(meetingText, [⟨s "john", s "John", [], ⟨13, 17⟩, s "name"⟩, ⟨s "snips", s "Snips", [], ⟨21, 26⟩, s "location"⟩])]

def meetingSlots : List InternalSlot :=
  [⟨s "John", ⟨13, 17⟩, s "name", s "name"⟩, ⟨s "Snips", ⟨21, 26⟩, s "location", s "location"⟩,
    ⟨s "this afternoon", ⟨34, 48⟩, s "snips/datetime", s "time"⟩,
    ⟨s "tomorrow", ⟨52, 60⟩, s "snips/datetime", s "time"⟩]

def searchThis : World := mockedCustom
  [(s "search this", [⟨s "this", s "this", [], ⟨7, 11⟩, s "object"⟩]),
    (s "search that", [⟨s "that", s "that", [], ⟨7, 11⟩, s "object"⟩])]

def helloJohn : World := ⟨fun _ _ _ => .ok [], scopedCustom (s "Hello John")
  [⟨s "Hello", s "Hello", [], ⟨0, 5⟩, s "greeting"⟩, ⟨s "John", s "John", [], ⟨6, 10⟩, s "name"⟩]⟩

def helloJohnName : World := mockedCustom [(s "Hello John", [⟨s "John", s "John", [], ⟨6, 10⟩, s "name"⟩])]

def oreillyText : Text := s "meeting with John O’reilly"

def oreilly : World := mockedCustom
  [(oreillyText, [⟨s "John O’reilly", s "John O’reilly", [], ⟨13, 26⟩, s "name"⟩])]

end Snips.Conformance
