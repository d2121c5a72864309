import Verif.Model.Features

/-! # Model of src/slot_filler/crf_slot_filler.rs -/

namespace Snips

/-- `crfsuite::Tagger` (external): tagging, its labels, and the probability of a label sequence (`set`
followed by `probability`).  Simplification: the tagger keeps no state between uses.  `Model/TaggerShared` has the state
and the `Mutex` around the tagger, and C75 shows that threads cannot tell the difference. -/
structure Tagger where
  tag : List (List (Text × Text)) → Outcome (List Text)
  labels : Outcome (List Text)
  probability : List (List (Text × Text)) → List Text → Outcome ℚ

/-- `encode_tag` and `decode_tag` (src/slot_filler/crf_slot_filler.rs:174-181): base64 (external). -/
structure TagCodec where
  encode : Text → Text
  decode : Text → Outcome Text

/-- `CRFSlotFiller` (src/slot_filler/crf_slot_filler.rs:25-31), with the text functions of its language. -/
structure SlotFiller where
  fns : TextFns
  scheme : Scheme
  tagger : Option Tagger
  processor : Option (List Offsetter)
  mapping : Map Text Text

/-- `CRFSlotFiller::get_slots` (src/slot_filler/crf_slot_filler.rs:84-114). -/
def SlotFiller.getSlots (codec : TagCodec) (f : SlotFiller) (text : Text) :
    Prog (List InternalSlot) :=
  match f.tagger, f.processor with
  | some tagger, some os =>
    let toks := f.fns.tokenize text
    if toks = [] then .ret []
    else
      (computeFeatures f.fns os toks).bind fun features =>
        Prog.ofOutcome (do
          let encoded ← tagger.tag features
          let tags ← mapOutcome codec.decode encoded
          tagsToSlots text toks tags f.scheme f.mapping)
  | _, _ => .ret []

/-- The closure of `get_sequence_probability` (src/slot_filler/crf_slot_filler.rs:132-139). -/
def cleanTag (labels : List Text) (t : Text) : Outcome Text :=
  if labels.contains t then .ok t else getSubstitutionLabel labels

/-- `CRFSlotFiller::get_sequence_probability` (src/slot_filler/crf_slot_filler.rs:116-152). -/
def SlotFiller.getSequenceProbability (codec : TagCodec) (f : SlotFiller)
    (toks : List Token) (tags : List Text) : Prog ℚ :=
  match f.tagger, f.processor with
  | some tagger, some os =>
    (computeFeatures f.fns os toks).bind fun features =>
      Prog.ofOutcome (do
        let encodedLabels ← tagger.labels
        let labels ← mapOutcome codec.decode encodedLabels
        let cleaned ← mapOutcome (cleanTag labels) tags
        tagger.probability features (cleaned.map codec.encode))
  | _, _ => .ret (if tags.any (fun t => t ≠ outside) then 0 else 1)

/-- `CRFSlotFiller::compute_features` (src/slot_filler/crf_slot_filler.rs:156-168). -/
def SlotFiller.computeFeatures (f : SlotFiller) (text : Text) :
    Prog (List (List (Text × Text))) :=
  let toks := f.fns.tokenize text
  if toks = [] then .ret []
  else
    match f.processor with
    | some os => Snips.computeFeatures f.fns os toks
    | none => .ret (toks.map fun _ => [])

end Snips
