import Verif.Conformance.Classifier
import Verif.Conformance.CrfModels
import Verif.Conformance.ModelFiles
import Verif.Conformance.Patterns
import Verif.Model.Base64
import Verif.Model.TrainedPattern

/-! # Tests of src/nlu_engine.rs with trained models

The files of the test models, read by the modelled loader, answer the sentences of the tests (src/nlu_engine.rs:520-905) as
expected there, through lookup, patterns, classifier and slot fillers.  What the code takes from its dependencies is given
here for the words of the tests: a tokenizer, extraction of numbers and of the values of the entities, the hash function of
the look-up tables, matching of patterns, and tagging with the weights of the trained CRF models.  These are tests run by
the interpreter, not proofs. -/

namespace Snips.Conformance

/-! ### Dependencies -/

/-- FNV-1a in 64 bits, of which the lower 32 are read as a signed number (`hash_str_to_i32`; recovered from the keys of the
look-up tables of the models). -/
def fnvHash (t : Text) : Int :=
  let h : Nat := (encodeUtf8 t).foldl (fun h b => (Nat.xor h b * 0x100000001b3) % 2 ^ 64) 0xcbf29ce484222325
  let low : Nat := h % 2 ^ 32
  if low < 2 ^ 31 then low else (low : Int) - 2 ^ 32

/-- Text functions for English. -/
def english : TextFns := { plainFns with hashStr := fnvHash }

/-- The kinds of builtin entities named in the models. -/
def kindNames : List Text :=
  ["snips/amountOfMoney", "snips/date", "snips/datePeriod", "snips/datetime", "snips/duration", "snips/number",
    "snips/ordinal", "snips/percentage", "snips/temperature", "snips/time", "snips/timePeriod"].map s

/-- Kinds by their numbers in the list. -/
def kindTable : KindNames where
  fromStr t := (kindNames.findIdx? (· = t))
  fromIdentifier t := (kindNames.findIdx? (· = t))
  identifier k := kindNames.getD k []

/-- Words for numbers.  They are found as numbers and, as the attributes in the CRF models show for the words of the training
sentences, as datePeriod, datetime, temperature and time. -/
def englishBuiltin (t : Text) (scope : Option (List Kind)) : List BuiltinEntity :=
  (words t).flatMap fun tok =>
    match [s "one", s "two", s "three"].findIdx? (· = english.lower tok.value) with
    | some i => ([2, 3, 5, 8, 9] : List Kind).filterMap fun k =>
      if scope.all (·.contains k) then some ⟨tok.value, tok.charRange, .builtin (i + 1), [], k⟩ else none
    | none => []

/-- Values found word by word, in the order of the list. -/
def gazetteerOf (identifier : Text) (values : List (Text × Text × List Text)) (t : Text) (scope : Option (List Text))
    (n : Nat) : List CustomEntity :=
  if scope.all (·.contains identifier) then
    (words t).filterMap fun tok => (values.find? (·.1 = english.lower tok.value)).map fun v =>
      ⟨tok.value, v.2.1, v.2.2.take n, tok.charRange, identifier⟩
  else []

/-! ### Tagging -/

namespace CrfWeights

/-- Sum of the weights found. -/
def total (l : List (String × String × Int)) (p : String × String × Int → Bool) : Int :=
  ((l.filter p).map fun e => e.2.2).sum

/-- Weight of the label of a token with these features. -/
def stateScore (m : CrfWeights) (features : List (Text × Text)) (label : String) : Int :=
  let attributes := features.map fun f => String.ofList (f.1 ++ ':' :: f.2)
  total m.state fun e => e.2.1 = label && attributes.contains e.1

/-- Weight of a label after another. -/
def transitionScore (m : CrfWeights) (a b : String) : Int := total m.transition fun e => e.1 = a && e.2.1 = b

/-- The best of some labellings. -/
def best : List (Int × List String) → Option (Int × List String)
  | [] => none
  | x :: l => match best l with
    | some y => if y.1 > x.1 then some y else some x
    | none => some x

/-- Viterbi's algorithm: for each label, the best labelling (reversed) ending with it. -/
def step (m : CrfWeights) (before : Option (List (Int × List String))) (features : List (Text × Text)) :
    List (Int × List String) :=
  m.labels.filterMap fun label =>
    let here := m.stateScore features label
    match before with
    | none => some (here, [label])
    | some l => (best (l.map fun p => (p.1 + m.transitionScore (p.2.headD "") label + here, label :: p.2)))

/-- The best labelling. -/
def tag (m : CrfWeights) (features : List (List (Text × Text))) : List Text :=
  match (features.foldl (fun st f => some (m.step st f)) none).bind best with
  | some p => p.2.reverse.map s
  | none => []

/-- Score of a labelling. -/
def score (m : CrfWeights) : Option String → List (List (Text × Text)) → List String → Int
  | prev, f :: fs, l :: ls =>
    (prev.elim 0 fun p => m.transitionScore p l) + m.stateScore f l + score m (some l) fs ls
  | _, _, _ => 0

/-- `eˣ` of a weight, to twelve places. -/
def weightExp (w : Int) : ℚ :=
  let half := approxExp (((w / 1000 : Int) : ℚ) / 2000000)
  ((half * half * 10 ^ 12).floor : ℚ) / 10 ^ 12

/-- The forward algorithm: for each label, the sum over the labellings ending with it. -/
def forward (m : CrfWeights) (before : Option (List (String × ℚ))) (features : List (Text × Text)) : List (String × ℚ) :=
  m.labels.map fun label =>
    let here := weightExp (m.stateScore features label)
    match before with
    | none => (label, here)
    | some l =>
      (label, (((l.map fun (p : String × ℚ) => p.2 * weightExp (m.transitionScore p.1 label)).sum * here * 10 ^ 12).floor : ℚ) / 10 ^ 12)

/-- Probability of a labelling. -/
def probability (m : CrfWeights) (features : List (List (Text × Text))) (labels : List Text) : ℚ :=
  match features.foldl (fun st f => some (m.forward st f)) none with
  | some l => weightExp (m.score none features (labels.map String.ofList)) / (l.map Prod.snd).sum
  | none => 1

/-- The model as a tagger. -/
def tagger (m : CrfWeights) : Tagger where
  tag features := .ok (m.tag features)
  labels := .ok (m.labels.map s)
  probability features labels := .ok (m.probability features labels)

end CrfWeights

/-! ### Files -/

/-- Clusters of the words of the test of the game model.  The file (resources/en/word_clusters/brown_clusters.txt) is not in
/repo; these are the clusters named in the CRF model. -/
def clustersFile : Text := s "i\t0000\nwant\t01001011\nto\t1010\nplay\t010110010110\ninvader\t111111010110\n"

/-- A place under data/tests/models. -/
def pathOf (p : String) : Path := splitSlash (s p)

/-- The files of the models.  The bytes of a CRF model are replaced by its name. -/
def modelDisk : Fs :=
  let resources := ["nlu_engine_beverage", "nlu_engine_game"].flatMap fun m =>
    [(m ++ "/resources/en/stop_words.txt", stopWordsFile), (m ++ "/resources/en/stemming/stems.txt", stemsFile),
      (m ++ "/resources/en/gazetteers/top_10000_words_stemmed.txt", commonWordsFile)]
  let others := [("nlu_engine_game/resources/en/word_clusters/brown_clusters.txt", clustersFile),
    ("nlu_engine_beverage/probabilistic_intent_parser/slot_filler_0/model55imurmx.crfsuite", s "coffee"),
    ("nlu_engine_beverage/probabilistic_intent_parser/slot_filler_1/model8a9dqxnp.crfsuite", s "tea"),
    ("nlu_engine_game/probabilistic_intent_parser/slot_filler_0/model.crfsuite", s "game")]
  let table := (modelFiles ++ resources ++ others).map fun e => (pathOf e.1, e.2)
  fun p => (table.find? (·.1 = p)).map fun e => .file (encodeUtf8 e.2)

/-- The dependencies of the loading code. -/
def loadEnv (identifier : Text) (values : List (Text × Text × List Text)) : LoadEnv where
  json := JsonText.read exactNumbers
  tagger bytes :=
    match decodeUtf8 bytes with
    | some name => .ok (if name = s "coffee" then crfCoffee else if name = s "tea" then crfTea else crfGame).tagger
    | none => .err (.external 0)
  language t := if t = s "en" then .ok (s "en", english) else .err (.external 1)
  names := kindTable
  regex p := .ok (trainedRegex ⟨Char.isWhitespace, fun c d => c.toLower = d.toLower⟩ (readItems p.length (p.drop 1)))
  builtinParser _ := .ok fun _ t scope _ => .ok (englishBuiltin t scope)
  gazetteerParser _ := .ok fun t scope n => .ok (gazetteerOf identifier values t scope n)
  rd := Rounding.exact
  debugAssertions := true
  ops := ratOps
  allNgrams := ngrams
  codec := base64Codec fun _ => .err (.external 2)

/-! ### Answers -/

/-- Load a model and ask it. -/
def ask {α : Type} (env : LoadEnv) (model : String) (f : Engine → Prog α) : Outcome α :=
  match (loadEngine env .insertion [s model] modelDisk).1 with
  | .ok e => (f (e.engine env.names)).run (e.ext.world 0)
  | .err e => .err e
  | .panic => .panic

/-- The values of the entity of the beverage model. -/
def beverageEnv : LoadEnv :=
  loadEnv (s "Temperature") [(s "hot", s "hot", []), (s "cold", s "cold", []), (s "boiling", s "boiling hot", [])]

/-- The games with "invader" in their names. -/
def gameEnv : LoadEnv := loadEnv (s "game")
  [(s "invader", s "Invader Attack 3", [s "Invader War Demo", s "Space Invader Limited Edition", s "Star Invader II"])]

def coffeeText : Text := s "Make me two cups of coffee please"

def teaText : Text := s "Make me two hot cups of tea"

def gameText : Text := s "I want to play to invader"

/-- The slot `number_of_cups`. -/
def cupsSlot : Slot := ⟨s "two", .builtin 2, [], ⟨8, 11⟩, s "snips/number", s "number_of_cups"⟩

/-- The slot `game` with some alternatives. -/
def invaderSlot (alternatives : List String) : Slot :=
  ⟨s "invader", .custom (s "Invader Attack 3"), alternatives.map fun a => .custom (s a), ⟨18, 25⟩, s "game", s "game"⟩

/-- A result without its scores. -/
structure Unscored where
  input : Text
  intent : Option Text
  slots : List Slot
  alternatives : List (Option Text × List Slot)
deriving DecidableEq

/-- The result of a call without its scores. -/
def unscored : Outcome ParseResult → Option Unscored
  | .ok r => some ⟨r.input, r.intent.name, r.slots, r.alternatives.map fun a => (a.intent.name, a.slots)⟩
  | _ => none

/-- A call of the beverage model, as many intents as alternatives as said. -/
def askBeverage (t : Text) (whitelist blacklist : Option (List Text)) (alternatives : Nat) : Outcome ParseResult :=
  ask beverageEnv "nlu_engine_beverage" fun e => e.parseWithAlternatives .insertion t whitelist blacklist alternatives 0

/-! `test_parse` (src/nlu_engine.rs:562-590) -/

#guard unscored (askBeverage coffeeText none none 0) = some ⟨coffeeText, some (s "MakeCoffee"), [cupsSlot], []⟩

/-! `test_parse_with_whitelist_and_blacklist` (src/nlu_engine.rs:593-648) -/

/-- The intent of a result. -/
def intentOf (r : Outcome ParseResult) : Option (Option Text) := (unscored r).map Unscored.intent

#guard intentOf (askBeverage coffeeText (some [s "MakeTea"]) none 0) = some (some (s "MakeTea"))
#guard intentOf (askBeverage coffeeText none (some [s "MakeCoffee"]) 0) = some (some (s "MakeTea"))
#guard intentOf (askBeverage coffeeText (some [s "MakeCoffee", s "MakeTea"]) (some [s "MakeCoffee"]) 0)
  = some (some (s "MakeTea"))
#guard askBeverage coffeeText (some [s "MakeCoffee"]) (some [s "MakeChocolate"]) 0
  = .err (.unknownFilterIntent (s "MakeChocolate"))
#guard askBeverage coffeeText (some [s "MakeChocolate"]) (some [s "MakeCoffee"]) 0
  = .err (.unknownFilterIntent (s "MakeChocolate"))

/-! `test_parse_with_intents_alternatives` (src/nlu_engine.rs:651-707) -/

#guard unscored (askBeverage coffeeText none none 1)
  = some ⟨coffeeText, some (s "MakeCoffee"), [cupsSlot], [(some (s "MakeTea"), [cupsSlot])]⟩

/-! `test_parse_with_whitelist_and_intents_alternatives` (src/nlu_engine.rs:710-764) -/

#guard unscored (askBeverage coffeeText (some [s "MakeCoffee"]) none 1)
  = some ⟨coffeeText, some (s "MakeCoffee"), [cupsSlot], [(none, [])]⟩

/-! `test_parse_with_slots_alternatives` (src/nlu_engine.rs:767-807) -/

#guard unscored (ask gameEnv "nlu_engine_game" fun e => e.parseWithAlternatives .insertion gameText none none 0 2)
  = some ⟨gameText, some (s "PlayGame"), [invaderSlot ["Invader War Demo", "Space Invader Limited Edition"]], []⟩

/-! `test_get_intents` (src/nlu_engine.rs:810-833) -/

#guard (match ask beverageEnv "nlu_engine_beverage" fun e => e.getIntents .insertion teaText with
  | .ok l => l.map IntentResult.name
  | _ => []) = [some (s "MakeTea"), none, some (s "MakeCoffee")]

/-! `test_get_slots` (src/nlu_engine.rs:836-874) -/

#guard (ask beverageEnv "nlu_engine_beverage" fun e => e.getSlots .insertion teaText (s "MakeTea"))
  = .ok [cupsSlot, ⟨s "hot", .custom (s "hot"), [], ⟨12, 15⟩, s "Temperature", s "beverage_temperature"⟩]

/-! `test_get_slots_with_alternatives` (src/nlu_engine.rs:877-905) -/

#guard (ask gameEnv "nlu_engine_game" fun e => e.getSlotsWithAlternatives .insertion gameText (s "PlayGame") 2)
  = .ok [invaderSlot ["Invader War Demo", "Space Invader Limited Edition"]]

/-! ### Which parser answers

The sentence of the game model is, without stop words, one of the training sentences: its look-up table answers.  Sentences
of the patterns of the beverage model are answered with score 1 as well. -/

#guard (match ask gameEnv "nlu_engine_game" fun e => e.parse .insertion gameText none none with
  | .ok r => r.intent.score
  | _ => 0) = 1

#guard fnvHash (s "i want play % game %") = 1316274424
#guard fnvHash (s "make % snipsnumber % cup of coffee") = -1416877420

#guard (match askBeverage (s "Can you make me three cup of coffee please?") none none 0 with
  | .ok r => (r.intent.name, r.intent.score, r.slots.map Slot.range)
  | _ => (none, 0, [])) = (some (s "MakeCoffee"), 1, [⟨16, 21⟩])

#guard (match askBeverage coffeeText none none 0 with
  | .ok r => decide (0 < r.intent.score ∧ r.intent.score < 1)
  | _ => false)

/-- The features of a sentence for the slot filler of an intent, tagged by the trained model. -/
def tagsOf (model : String) (env : LoadEnv) (intent t : Text) : Outcome (List Text) :=
  match (loadEngine env .insertion [s model] modelDisk).1 with
  | .ok e => (e.parsers.findSome? fun p => match p with
    | .probabilistic _ p => (p.slotFillers.find? (·.1 = intent)).bind fun f =>
      f.2.tagger.map fun tagger => ((f.2.computeFeatures t).run (e.ext.world 0)).bind fun fs =>
        (tagger.tag fs).bind fun l => mapOutcome env.codec.decode l
    | _ => none).getD (.err (.external 3))
  | .err e => .err e
  | .panic => .panic

/-! What the trained models of the slot fillers make of the features. -/

#guard tagsOf "nlu_engine_beverage" beverageEnv (s "MakeTea") teaText
  = .ok (["O", "O", "B-number_of_cups", "B-beverage_temperature", "O", "O", "O"].map s)
#guard tagsOf "nlu_engine_game" gameEnv (s "PlayGame") gameText = .ok (["O", "O", "O", "O", "O", "B-game"].map s)

end Snips.Conformance
