import Verif.Model.JsonText
import Verif.Model.SwiftValues

/-! # Answers as JSON

`serde_json::to_string(&results)` and the like (ffi/src/lib.rs:373, :389, :402).  The implementations of `Serialize` are
those of `snips_nlu_ontology` (external, transcribed); what they write is shown by
platforms/python/snips_nlu_rust/tests/test_nlu_engine_wrapper.py:91-126, :136-145, :199-206.  Fields are written in the
order of the structures; the confidence score of a slot, which is absent (see `Slot`), is not written. -/

namespace Snips

namespace ResultJson

/-- A record. -/
def record (l : List (String × Json)) : Json := .obj (l.map fun e => (e.1.toList, e.2))

/-- An optional text. -/
def optText : Option Text → Json
  | none => .null
  | some t => .str t

/-- `Grain::serialize`. -/
def grain : TimeGrain → Json
  | .year => .str "Year".toList
  | .quarter => .str "Quarter".toList
  | .month => .str "Month".toList
  | .week => .str "Week".toList
  | .day => .str "Day".toList
  | .hour => .str "Hour".toList
  | .minute => .str "Minute".toList
  | .second => .str "Second".toList

/-- `Precision::serialize`. -/
def precision : ValuePrecision → Json
  | .approximate => .str "Approximate".toList
  | .exact => .str "Exact".toList

/-- `SlotValue::serialize`, with the tag `kind`.  `widen` gives the `f64` that the text of an `f32` denotes. -/
def value (widen : ℚ → ℚ) : OValue → Json
  | .custom t => record [("kind", .str "Custom".toList), ("value", .str t)]
  | .number x => record [("kind", .str "Number".toList), ("value", .float x)]
  | .ordinal n => record [("kind", .str "Ordinal".toList), ("value", .int n)]
  | .instantTime t g p =>
    record [("kind", .str "InstantTime".toList), ("value", .str t), ("grain", grain g), ("precision", precision p)]
  | .timeInterval a b => record [("kind", .str "TimeInterval".toList), ("from", optText a), ("to", optText b)]
  | .amountOfMoney x p u =>
    record [("kind", .str "AmountOfMoney".toList), ("value", .float (widen x)), ("precision", precision p),
      ("unit", optText u)]
  | .temperature x u => record [("kind", .str "Temperature".toList), ("value", .float (widen x)), ("unit", optText u)]
  | .duration d p =>
    record [("kind", .str "Duration".toList), ("years", .int d.years), ("quarters", .int d.quarters),
      ("months", .int d.months), ("weeks", .int d.weeks), ("days", .int d.days), ("hours", .int d.hours),
      ("minutes", .int d.minutes), ("seconds", .int d.seconds), ("precision", precision p)]
  | .percentage x => record [("kind", .str "Percentage".toList), ("value", .float x)]
  | .musicAlbum t => record [("kind", .str "MusicAlbum".toList), ("value", .str t)]
  | .musicArtist t => record [("kind", .str "MusicArtist".toList), ("value", .str t)]
  | .musicTrack t => record [("kind", .str "MusicTrack".toList), ("value", .str t)]
  | .city t => record [("kind", .str "City".toList), ("value", .str t)]
  | .country t => record [("kind", .str "Country".toList), ("value", .str t)]
  | .region t => record [("kind", .str "Region".toList), ("value", .str t)]

/-- `Range<usize>::serialize`. -/
def range (r : Rng) : Json := record [("start", .int r.start), ("end", .int r.stop)]

/-- `Slot::serialize`. -/
def slot (widen : ℚ → ℚ) (meaning : Nat → OValue) (s : Slot) : Json :=
  record [("rawValue", .str s.rawValue), ("value", value widen (s.value.meant meaning)),
    ("alternatives", .arr (s.alternatives.map fun v => value widen (v.meant meaning))), ("range", range s.range),
    ("entity", .str s.entity), ("slotName", .str s.slotName)]

/-- `IntentClassifierResult::serialize`. -/
def intent (widen : ℚ → ℚ) (r : IntentResult) : Json :=
  record [("intentName", optText r.name), ("confidenceScore", .float (widen r.score))]

/-- `IntentParserAlternative::serialize`. -/
def alternative (widen : ℚ → ℚ) (meaning : Nat → OValue) (a : Alternative) : Json :=
  record [("intent", intent widen a.intent), ("slots", .arr (a.slots.map (slot widen meaning)))]

/-- `IntentParserResult::serialize`. -/
def result (widen : ℚ → ℚ) (meaning : Nat → OValue) (r : ParseResult) : Json :=
  record [("input", .str r.input), ("intent", intent widen r.intent),
    ("slots", .arr (r.slots.map (slot widen meaning))),
    ("alternatives", .arr (r.alternatives.map (alternative widen meaning)))]

/-- The bytes of `serde_json::to_string`. -/
def bytes (num : JsonNumbers) (j : Json) : List Nat := encodeUtf8 (JsonText.write num j)

end ResultJson

/-- The C interface with this JSON (ffi/src/lib.rs:373, :389, :402). -/
def CEnv.withJson {κ : Type} (env : CEnv κ) (num : JsonNumbers) (widen : ℚ → ℚ) (meaning : Nat → OValue) : CEnv κ :=
  { env with
    jsonResult := fun r => .ok (ResultJson.bytes num (ResultJson.result widen meaning r))
    jsonSlots := fun l => .ok (ResultJson.bytes num (.arr (l.map (ResultJson.slot widen meaning))))
    jsonIntents := fun l => .ok (ResultJson.bytes num (.arr (l.map (ResultJson.intent widen)))) }

end Snips
