import Verif.Conformance.Support
import Verif.Model.Engine

/-! # Tests of src/slot_utils.rs and of `extract_custom_slot` in src/nlu_engine.rs

Not replayed: the tests which load a trained model from /repo/data. -/

namespace Snips.Conformance

/-- The builtin kinds used in these tests. -/
def slotKinds : KindNames where
  fromStr _ := none
  fromIdentifier t :=
    if t = s "snips/amountOfMoney" then some 0 else if t = s "snips/musicArtist" then some 1 else none
  identifier k := if k = 0 then s "snips/amountOfMoney" else s "snips/musicArtist"

/-! `test_resolve_builtin_slot`, `test_resolve_builtin_slot_when_no_entities_found_on_whole_input`,
`test_resolve_builtin_slot_with_alternatives` (src/slot_utils.rs:133-271).  The value `n` dollars is
`.builtin n`; the artists are `.builtin 100` and `.builtin 101`. -/

example : (resolveBuiltinSlot slotKinds ⟨s "8 dollars", ⟨22, 31⟩, s "snips/amountOfMoney", s "amount"⟩
      [⟨s "5 dollars", ⟨5, 14⟩, .builtin 5, [], 0⟩, ⟨s "8 dollars", ⟨22, 31⟩, .builtin 8, [], 0⟩] 0).run noEntities =
    .ok (some ⟨s "8 dollars", .builtin 8, [], ⟨22, 31⟩, s "snips/amountOfMoney", s "amount"⟩) := by decide +kernel

example : (resolveBuiltinSlot slotKinds ⟨s "5 dollars", ⟨5, 14⟩, s "snips/amountOfMoney", s "amount"⟩ [] 0).run
      (mockedBuiltin [(s "5 dollars", [⟨s "5 dollars", ⟨0, 9⟩, .builtin 5, [], 0⟩])]) =
    .ok (some ⟨s "5 dollars", .builtin 5, [], ⟨5, 14⟩, s "snips/amountOfMoney", s "amount"⟩) := by decide +kernel

example : (resolveBuiltinSlot slotKinds ⟨s "the stones", ⟨20, 30⟩, s "snips/musicArtist", s "artist"⟩
      [⟨s "the stones", ⟨20, 30⟩, .builtin 100, [.builtin 101], 1⟩] 5).run noEntities =
    .ok (some ⟨s "the stones", .builtin 100, [.builtin 101], ⟨20, 30⟩, s "snips/musicArtist", s "artist"⟩) := by
  decide +kernel

/-! `test_resolve_custom_slot` and the four tests that follow it (src/slot_utils.rs:273-483) -/

/-- The slot of these tests. -/
def subscriber : InternalSlot := ⟨s "subscriber", ⟨27, 37⟩, s "userType", s "userType"⟩

example : (resolveCustomSlot subscriber false
      [⟨s "publisher", s "Publisher", [], ⟨7, 16⟩, s "userType"⟩,
        ⟨s "subscriber", s "Subscriber", [], ⟨27, 37⟩, s "userType"⟩] 0).run noEntities =
    .ok (some ⟨s "subscriber", .custom (s "Subscriber"), [], ⟨27, 37⟩, s "userType", s "userType"⟩) := by
  decide +kernel

example : (resolveCustomSlot subscriber false [] 0).run
      (mockedCustom [(s "subscriber", [⟨s "subscriber", s "Subscriber", [], ⟨0, 10⟩, s "userType"⟩])]) =
    .ok (some ⟨s "subscriber", .custom (s "Subscriber"), [], ⟨27, 37⟩, s "userType", s "userType"⟩) := by
  decide +kernel

example : (resolveCustomSlot subscriber true [] 0).run noEntities =
    .ok (some ⟨s "subscriber", .custom (s "subscriber"), [], ⟨27, 37⟩, s "userType", s "userType"⟩) := by
  decide +kernel

example : (resolveCustomSlot subscriber false [] 0).run noEntities = .ok none := by decide +kernel

example : (resolveCustomSlot subscriber false
      [⟨s "publisher", s "Publisher", [], ⟨7, 16⟩, s "userType"⟩,
        ⟨s "subscriber", s "Subscriber", [s "Alternative Subscriber"], ⟨27, 37⟩, s "userType"⟩] 5).run noEntities =
    .ok (some ⟨s "subscriber", .custom (s "Subscriber"), [.custom (s "Alternative Subscriber")], ⟨27, 37⟩,
      s "userType", s "userType"⟩) := by decide +kernel

/-! `test_extract_custom_slot_when_tagged` and the three tests that follow it (src/nlu_engine.rs:908-1069) -/

example : (Engine.extractCustomSlot (s "hello a b c d world") (s "entity") (s "slot") true 0).run
      (mockedCustom [(s "hello a b c d world", [⟨s "a b", s "value1", [], ⟨6, 9⟩, s "entity"⟩,
        ⟨s "b c d", s "value2", [], ⟨8, 13⟩, s "entity"⟩])]) =
    .ok (some ⟨s "b c d", .custom (s "value2"), [], ⟨8, 13⟩, s "entity", s "slot"⟩) := by decide +kernel

example : (Engine.extractCustomSlot (s "hello world") (s "entity") (s "slot") true 0).run noEntities =
    .ok (some ⟨s "hello world", .custom (s "hello world"), [], ⟨0, 11⟩, s "entity", s "slot"⟩) := by decide +kernel

example : (Engine.extractCustomSlot (s "hello world") (s "entity") (s "slot") false 0).run noEntities = .ok none := by
  decide +kernel

example : (Engine.extractCustomSlot (s "I want to play to invader") (s "game") (s "game") false 0).run
      (mockedCustom [(s "I want to play to invader",
        [⟨s "invader", s "Space Invader", [s "Invader Attack"], ⟨18, 25⟩, s "game"⟩])]) =
    .ok (some ⟨s "invader", .custom (s "Space Invader"), [.custom (s "Invader Attack")], ⟨18, 25⟩, s "game",
      s "game"⟩) := by decide +kernel

end Snips.Conformance
