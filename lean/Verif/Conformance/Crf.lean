import Verif.Conformance.Support

/-! # Tests of src/slot_filler/crf_utils.rs -/

namespace Snips.Conformance

/-! `test_io_tags_to_slots` (src/slot_filler/crf_utils.rs:236-347) -/

example : tagsToSlots (s "") (words (s "")) []
    .io [(s "animal", s "animal")] = .ok [] := by decide +kernel

example : tagsToSlots (s "nothing here") (words (s "nothing here")) [outside, outside]
    .io [(s "animal", s "animal")] = .ok [] := by decide +kernel

example : tagsToSlots (s "i am a blue bird") (words (s "i am a blue bird")) [outside, outside, outside, insidePrefix ++ s "animal", insidePrefix ++ s "animal"]
    .io [(s "animal", s "animal")] = .ok [⟨s "blue bird", ⟨7, 16⟩, s "animal", s "animal"⟩] := by decide +kernel

example : tagsToSlots (s "i am a bird") (words (s "i am a bird")) [outside, outside, outside, insidePrefix ++ s "animal"]
    .io [(s "animal", s "animal")] = .ok [⟨s "bird", ⟨7, 11⟩, s "animal", s "animal"⟩] := by decide +kernel

example : tagsToSlots (s "bird") (words (s "bird")) [insidePrefix ++ s "animal"]
    .io [(s "animal", s "animal")] = .ok [⟨s "bird", ⟨0, 4⟩, s "animal", s "animal"⟩] := by decide +kernel

example : tagsToSlots (s "blue bird") (words (s "blue bird")) [insidePrefix ++ s "animal", insidePrefix ++ s "animal"]
    .io [(s "animal", s "animal")] = .ok [⟨s "blue bird", ⟨0, 9⟩, s "animal", s "animal"⟩] := by decide +kernel

example : tagsToSlots (s "light blue bird blue bird") (words (s "light blue bird blue bird")) [insidePrefix ++ s "animal", insidePrefix ++ s "animal", insidePrefix ++ s "animal", insidePrefix ++ s "animal", insidePrefix ++ s "animal"]
    .io [(s "animal", s "animal")] = .ok [⟨s "light blue bird blue bird", ⟨0, 25⟩, s "animal", s "animal"⟩] := by decide +kernel

example : tagsToSlots (s "bird birdy") (words (s "bird birdy")) [insidePrefix ++ s "animal", insidePrefix ++ s "animal"]
    .io [(s "animal", s "animal")] = .ok [⟨s "bird birdy", ⟨0, 10⟩, s "animal", s "animal"⟩] := by decide +kernel

/-! `test_bio_tags_to_slots` (src/slot_filler/crf_utils.rs:353-504) -/

example : tagsToSlots (s "") (words (s "")) []
    .bio [(s "animal", s "animal")] = .ok [] := by decide +kernel

example : tagsToSlots (s "nothing here") (words (s "nothing here")) [outside, outside]
    .bio [(s "animal", s "animal")] = .ok [] := by decide +kernel

example : tagsToSlots (s "i am a blue bird") (words (s "i am a blue bird")) [outside, outside, outside, beginningPrefix ++ s "animal", insidePrefix ++ s "animal"]
    .bio [(s "animal", s "animal")] = .ok [⟨s "blue bird", ⟨7, 16⟩, s "animal", s "animal"⟩] := by decide +kernel

example : tagsToSlots (s "i am a bird") (words (s "i am a bird")) [outside, outside, outside, beginningPrefix ++ s "animal"]
    .bio [(s "animal", s "animal")] = .ok [⟨s "bird", ⟨7, 11⟩, s "animal", s "animal"⟩] := by decide +kernel

example : tagsToSlots (s "bird") (words (s "bird")) [beginningPrefix ++ s "animal"]
    .bio [(s "animal", s "animal")] = .ok [⟨s "bird", ⟨0, 4⟩, s "animal", s "animal"⟩] := by decide +kernel

example : tagsToSlots (s "blue bird") (words (s "blue bird")) [beginningPrefix ++ s "animal", insidePrefix ++ s "animal"]
    .bio [(s "animal", s "animal")] = .ok [⟨s "blue bird", ⟨0, 9⟩, s "animal", s "animal"⟩] := by decide +kernel

example : tagsToSlots (s "light blue bird blue bird") (words (s "light blue bird blue bird")) [beginningPrefix ++ s "animal", insidePrefix ++ s "animal", insidePrefix ++ s "animal", beginningPrefix ++ s "animal", insidePrefix ++ s "animal"]
    .bio [(s "animal", s "animal")] = .ok [⟨s "light blue bird", ⟨0, 15⟩, s "animal", s "animal"⟩, ⟨s "blue bird", ⟨16, 25⟩, s "animal", s "animal"⟩] := by decide +kernel

example : tagsToSlots (s "bird birdy") (words (s "bird birdy")) [beginningPrefix ++ s "animal", beginningPrefix ++ s "animal"]
    .bio [(s "animal", s "animal")] = .ok [⟨s "bird", ⟨0, 4⟩, s "animal", s "animal"⟩, ⟨s "birdy", ⟨5, 10⟩, s "animal", s "animal"⟩] := by decide +kernel

example : tagsToSlots (s "blue bird and white bird") (words (s "blue bird and white bird")) [beginningPrefix ++ s "animal", insidePrefix ++ s "animal", outside, insidePrefix ++ s "animal", insidePrefix ++ s "animal"]
    .bio [(s "animal", s "animal")] = .ok [⟨s "blue bird", ⟨0, 9⟩, s "animal", s "animal"⟩, ⟨s "white bird", ⟨14, 24⟩, s "animal", s "animal"⟩] := by decide +kernel

/-! `test_bilou_tags_to_slots` (src/slot_filler/crf_utils.rs:510-695) -/

example : tagsToSlots (s "") (words (s "")) []
    .bilou [(s "animal", s "animal")] = .ok [] := by decide +kernel

example : tagsToSlots (s "nothing here") (words (s "nothing here")) [outside, outside]
    .bilou [(s "animal", s "animal")] = .ok [] := by decide +kernel

example : tagsToSlots (s "i am a blue bird") (words (s "i am a blue bird")) [outside, outside, outside, beginningPrefix ++ s "animal", lastPrefix ++ s "animal"]
    .bilou [(s "animal", s "animal")] = .ok [⟨s "blue bird", ⟨7, 16⟩, s "animal", s "animal"⟩] := by decide +kernel

example : tagsToSlots (s "i am a bird") (words (s "i am a bird")) [outside, outside, outside, unitPrefix ++ s "animal"]
    .bilou [(s "animal", s "animal")] = .ok [⟨s "bird", ⟨7, 11⟩, s "animal", s "animal"⟩] := by decide +kernel

example : tagsToSlots (s "bird") (words (s "bird")) [unitPrefix ++ s "animal"]
    .bilou [(s "animal", s "animal")] = .ok [⟨s "bird", ⟨0, 4⟩, s "animal", s "animal"⟩] := by decide +kernel

example : tagsToSlots (s "blue bird") (words (s "blue bird")) [beginningPrefix ++ s "animal", lastPrefix ++ s "animal"]
    .bilou [(s "animal", s "animal")] = .ok [⟨s "blue bird", ⟨0, 9⟩, s "animal", s "animal"⟩] := by decide +kernel

example : tagsToSlots (s "light blue bird blue bird") (words (s "light blue bird blue bird")) [beginningPrefix ++ s "animal", insidePrefix ++ s "animal", lastPrefix ++ s "animal", beginningPrefix ++ s "animal", lastPrefix ++ s "animal"]
    .bilou [(s "animal", s "animal")] = .ok [⟨s "light blue bird", ⟨0, 15⟩, s "animal", s "animal"⟩, ⟨s "blue bird", ⟨16, 25⟩, s "animal", s "animal"⟩] := by decide +kernel

example : tagsToSlots (s "bird birdy") (words (s "bird birdy")) [unitPrefix ++ s "animal", unitPrefix ++ s "animal"]
    .bilou [(s "animal", s "animal")] = .ok [⟨s "bird", ⟨0, 4⟩, s "animal", s "animal"⟩, ⟨s "birdy", ⟨5, 10⟩, s "animal", s "animal"⟩] := by decide +kernel

example : tagsToSlots (s "light bird bird blue bird") (words (s "light bird bird blue bird")) [beginningPrefix ++ s "animal", insidePrefix ++ s "animal", unitPrefix ++ s "animal", beginningPrefix ++ s "animal", insidePrefix ++ s "animal"]
    .bilou [(s "animal", s "animal")] = .ok [⟨s "light bird", ⟨0, 10⟩, s "animal", s "animal"⟩, ⟨s "bird", ⟨11, 15⟩, s "animal", s "animal"⟩, ⟨s "blue bird", ⟨16, 25⟩, s "animal", s "animal"⟩] := by decide +kernel

example : tagsToSlots (s "bird bird bird") (words (s "bird bird bird")) [lastPrefix ++ s "animal", beginningPrefix ++ s "animal", unitPrefix ++ s "animal"]
    .bilou [(s "animal", s "animal")] = .ok [⟨s "bird", ⟨0, 4⟩, s "animal", s "animal"⟩, ⟨s "bird", ⟨5, 9⟩, s "animal", s "animal"⟩, ⟨s "bird", ⟨10, 14⟩, s "animal", s "animal"⟩] := by decide +kernel

/-! `test_is_start_of_bio_slot` (src/slot_filler/crf_utils.rs:701-735) -/

example : (List.range 15).map (isStartOfBioSlot [outside, beginningPrefix, insidePrefix, outside, insidePrefix, outside, beginningPrefix, outside, insidePrefix, beginningPrefix, outside, beginningPrefix, beginningPrefix, insidePrefix, insidePrefix]) =
    [false, true, false, false, true, false, true, false, true, true, false, true, true, false, false] := by decide +kernel

/-! `test_is_end_of_bio_slot` (src/slot_filler/crf_utils.rs:738-772) -/

example : (List.range 15).map (isEndOfBioSlot [outside, beginningPrefix, insidePrefix, outside, insidePrefix, outside, beginningPrefix, outside, insidePrefix, beginningPrefix, outside, beginningPrefix, beginningPrefix, insidePrefix, insidePrefix]) =
    [false, false, true, false, true, false, true, false, true, true, false, true, false, false, true] := by decide +kernel

/-! `test_start_of_bilou_slot` (src/slot_filler/crf_utils.rs:775-811) -/

example : (List.range 17).map (isStartOfBilouSlot [outside, lastPrefix, unitPrefix, beginningPrefix, unitPrefix, insidePrefix, lastPrefix, lastPrefix, unitPrefix, unitPrefix, lastPrefix, outside, lastPrefix, beginningPrefix, insidePrefix, insidePrefix, lastPrefix]) =
    [false, true, true, true, true, true, false, true, true, true, true, false, true, true, false, false, false] := by decide +kernel

/-! `test_is_end_of_bilou_slot` (src/slot_filler/crf_utils.rs:814-852) -/

example : (List.range 19).map (isEndOfBilouSlot [outside, lastPrefix, unitPrefix, beginningPrefix, unitPrefix, insidePrefix, lastPrefix, lastPrefix, unitPrefix, unitPrefix, lastPrefix, outside, insidePrefix, beginningPrefix, outside, beginningPrefix, insidePrefix, insidePrefix, lastPrefix]) =
    [false, true, true, true, true, false, true, true, true, true, true, false, true, true, false, false, false, false, true] := by decide +kernel

/-! `tests_get_scheme_prefix` (src/slot_filler/crf_utils.rs:855-881) -/

example : getSchemePrefix 5 [3, 4, 5] .io = .ok (s "I-") := by decide +kernel
example : getSchemePrefix 3 [3, 4, 5] .bio = .ok (s "B-") := by decide +kernel
example : getSchemePrefix 4 [3, 4, 5] .bio = .ok (s "I-") := by decide +kernel
example : getSchemePrefix 3 [3, 4, 5] .bilou = .ok (s "B-") := by decide +kernel
example : getSchemePrefix 4 [3, 4, 5] .bilou = .ok (s "I-") := by decide +kernel
example : getSchemePrefix 5 [3, 4, 5] .bilou = .ok (s "L-") := by decide +kernel
example : getSchemePrefix 1 [1] .bilou = .ok (s "U-") := by decide +kernel

end Snips.Conformance
