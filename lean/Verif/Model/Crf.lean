import Verif.Model.Bytes
import Verif.Model.Types

/-! # Model of src/slot_filler/crf_utils.rs -/

namespace Snips

/-- `BEGINNING_PREFIX` (src/slot_filler/crf_utils.rs:11). -/
def beginningPrefix : Text := ['B', '-']
/-- `INSIDE_PREFIX` (src/slot_filler/crf_utils.rs:12). -/
def insidePrefix : Text := ['I', '-']
/-- `LAST_PREFIX` (src/slot_filler/crf_utils.rs:13). -/
def lastPrefix : Text := ['L', '-']
/-- `UNIT_PREFIX` (src/slot_filler/crf_utils.rs:14). -/
def unitPrefix : Text := ['U', '-']
/-- `OUTSIDE` (src/slot_filler/crf_utils.rs:15). -/
def outside : Text := ['O']

/-- `TaggingScheme` (src/slot_filler/crf_utils.rs:18-22). -/
inductive Scheme where
  | io
  | bio
  | bilou
deriving DecidableEq, Repr

/-- `TaggingScheme::from_u8` (src/slot_filler/crf_utils.rs:25-32). -/
def Scheme.fromU8 : Nat → Outcome Scheme
  | 0 => .ok .io
  | 1 => .ok .bio
  | 2 => .ok .bilou
  | _ => .err (.site 1)

/-- `get_substitution_label` (src/slot_filler/crf_utils.rs:35-41); `labels[0]` panics on an empty list. -/
def getSubstitutionLabel (labels : List Text) : Outcome Text :=
  if labels.contains outside then .ok outside else Outcome.unwrap labels[0]?

/-- `tag_name_to_slot_name` (src/slot_filler/crf_utils.rs:43-45). -/
def tagNameToSlotName (tag : Text) : Text := suffixFrom tag 2

/-- `tags[i] == OUTSIDE`; the code only asks for existing indexes. -/
def isOutside (tags : List Text) (i : Nat) : Bool := tags[i]? == some outside

/-- `tags[i].starts_with(prefix)`; the code only asks for existing indexes. -/
def hasPrefix (tags : List Text) (i : Nat) (p : Text) : Bool :=
  match tags[i]? with
  | some t => p.isPrefixOf t
  | none => false

/-- `is_start_of_io_slot` (src/slot_filler/crf_utils.rs:47-55). -/
def isStartOfIoSlot (tags : List Text) (i : Nat) : Bool :=
  if i = 0 then !isOutside tags i
  else if isOutside tags i then false
  else isOutside tags (i - 1)

/-- `is_end_of_io_slot` (src/slot_filler/crf_utils.rs:57-65). -/
def isEndOfIoSlot (tags : List Text) (i : Nat) : Bool :=
  if i + 1 = tags.length then !isOutside tags i
  else if isOutside tags i then false
  else isOutside tags (i + 1)

/-- `is_start_of_bio_slot` (src/slot_filler/crf_utils.rs:67-77). -/
def isStartOfBioSlot (tags : List Text) (i : Nat) : Bool :=
  if i = 0 then !isOutside tags i
  else if isOutside tags i then false
  else if hasPrefix tags i beginningPrefix then true
  else isOutside tags (i - 1)

/-- `is_end_of_bio_slot` (src/slot_filler/crf_utils.rs:79-85). -/
def isEndOfBioSlot (tags : List Text) (i : Nat) : Bool :=
  if i + 1 = tags.length then !isOutside tags i
  else !isOutside tags i && !hasPrefix tags (i + 1) insidePrefix

/-- `is_start_of_bilou_slot` (src/slot_filler/crf_utils.rs:87-101). -/
def isStartOfBilouSlot (tags : List Text) (i : Nat) : Bool :=
  if i = 0 then !isOutside tags i
  else if isOutside tags i then false
  else if hasPrefix tags i beginningPrefix || hasPrefix tags i unitPrefix
      || hasPrefix tags (i - 1) unitPrefix || hasPrefix tags (i - 1) lastPrefix then true
  else isOutside tags (i - 1)

/-- `is_end_of_bilou_slot` (src/slot_filler/crf_utils.rs:103-115). -/
def isEndOfBilouSlot (tags : List Text) (i : Nat) : Bool :=
  if i + 1 = tags.length then !isOutside tags i
  else if isOutside tags i then false
  else isOutside tags (i + 1) || hasPrefix tags i lastPrefix || hasPrefix tags i unitPrefix
      || hasPrefix tags (i + 1) beginningPrefix || hasPrefix tags (i + 1) unitPrefix

/-- `SlotRange` (src/slot_filler/crf_utils.rs:117-121). -/
structure SlotRange where
  slotName : Text
  range : Rng
  charRange : Rng
deriving DecidableEq, Repr

/-- Loop of `_tags_to_slots` (src/slot_filler/crf_utils.rs:135-148): `rest` are the tags from index `i`
on, `cur` is `current_slot_start`.  Indexing `tokens` panics out of bounds. -/
def tagsToSlotsLoop (tags : List Text) (tokens : List Token) (isStart isEnd : List Text → Nat → Bool) :
    (i cur : Nat) → List Text → Outcome (List SlotRange)
  | _, _, [] => .ok []
  | i, cur, tag :: rest =>
    let cur := if isStart tags i then i else cur
    if isEnd tags i then
      match tokens[cur]?, tokens[i]? with
      | some first, some last => do
        let slots ← tagsToSlotsLoop tags tokens isStart isEnd (i + 1) i rest
        .ok (⟨tagNameToSlotName tag, ⟨first.range.start, last.range.stop⟩,
          ⟨first.charRange.start, last.charRange.stop⟩⟩ :: slots)
      | _, _ => .panic
    else tagsToSlotsLoop tags tokens isStart isEnd (i + 1) cur rest

/-- `tags_to_slot_ranges` (src/slot_filler/crf_utils.rs:152-166), with `_tags_to_slots` (:123-150). -/
def tagsToSlotRanges (tokens : List Token) (tags : List Text) : Scheme → Outcome (List SlotRange)
  | .io => tagsToSlotsLoop tags tokens isStartOfIoSlot isEndOfIoSlot 0 0 tags
  | .bio => tagsToSlotsLoop tags tokens isStartOfBioSlot isEndOfBioSlot 0 0 tags
  | .bilou => tagsToSlotsLoop tags tokens isStartOfBilouSlot isEndOfBilouSlot 0 0 tags

/-- Closure of `tags_to_slots` (src/slot_filler/crf_utils.rs:177-192). -/
def slotRangeToSlot (text : Text) (mapping : Map Text Text) (s : SlotRange) : Outcome InternalSlot := do
  let value ← byteSlice text s.range
  let entity ← Outcome.ofOption (.site 2) (mapping.get s.slotName)
  .ok ⟨value, s.charRange, entity, s.slotName⟩

/-- `tags_to_slots` (src/slot_filler/crf_utils.rs:168-194). -/
def tagsToSlots (text : Text) (tokens : List Token) (tags : List Text) (scheme : Scheme)
    (mapping : Map Text Text) : Outcome (List InternalSlot) := do
  let ranges ← tagsToSlotRanges tokens tags scheme
  mapOutcome (slotRangeToSlot text mapping) ranges

/-- `get_scheme_prefix` (src/slot_filler/crf_utils.rs:196-218); `indexes[0]` and `last().unwrap()` panic
on an empty list. -/
def getSchemePrefix (index : Nat) (indexes : List Nat) : Scheme → Outcome Text
  | .io => .ok insidePrefix
  | .bio => do
    let first ← Outcome.unwrap indexes[0]?
    .ok (if index = first then beginningPrefix else insidePrefix)
  | .bilou =>
    if indexes.length = 1 then .ok unitPrefix
    else do
      let first ← Outcome.unwrap indexes[0]?
      if index = first then .ok beginningPrefix
      else do
        let last ← Outcome.unwrap indexes.getLast?
        .ok (if index = last then lastPrefix else insidePrefix)

end Snips
