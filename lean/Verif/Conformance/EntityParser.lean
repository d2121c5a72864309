import Verif.Conformance.Support

/-! # Tests of src/utils.rs and src/entity_parser/custom_entity_parser.rs -/

namespace Snips.Conformance

/-! `test_deduplicate_items_works` (src/utils.rs:186-201) -/

example : sortByKey Rng.start (dedupItems rangesOverlap (fun r => -(r.count : Int))
    [⟨0, 3⟩, ⟨4, 8⟩, ⟨0, 8⟩, ⟨9, 13⟩]) = [⟨0, 8⟩, ⟨9, 13⟩] := by decide +kernel

/-! `test_compute_char_shifts` (src/entity_parser/custom_entity_parser.rs:192-205) -/

example : computeCharShifts [⟨s "hello", ⟨0, 5⟩, ⟨0, 5⟩⟩, ⟨s "?", ⟨5, 6⟩, ⟨5, 6⟩⟩, ⟨s "world", ⟨6, 11⟩, ⟨6, 11⟩⟩] =
    [0, 0, 0, 0, 0, 1, 1, 2, 2, 2, 2, 2, 2] := by decide +kernel

/-! `test_custom_entity_parser_handles_char_shifts` (src/entity_parser/custom_entity_parser.rs:208-234): the
gazetteer parser finds "hot" in the joined tokens; the tokenizer separates "?" from "hot". -/

/-- The tokens of `make me a  ?hot tea`. -/
def hotTea : Ext where
  lower := List.map Char.toLower
  tokenize _ := [⟨s "make", ⟨0, 4⟩, ⟨0, 4⟩⟩, ⟨s "me", ⟨5, 7⟩, ⟨5, 7⟩⟩, ⟨s "a", ⟨8, 9⟩, ⟨8, 9⟩⟩,
    ⟨s "?", ⟨11, 12⟩, ⟨11, 12⟩⟩, ⟨s "hot", ⟨12, 15⟩, ⟨12, 15⟩⟩, ⟨s "tea", ⟨16, 19⟩, ⟨16, 19⟩⟩]
  builtinRaw _ _ _ _ := .ok []
  gazetteer t _ _ :=
    if t = s "make me a ? hot tea" then .ok [⟨s "hot", s "hot", [], ⟨12, 15⟩, s "Temperature"⟩] else .err (.site 0)

example : (hotTea.world 0).custom (s "Make me a  ?hot tea") none 0 =
    .ok [⟨s "hot", s "hot", [], ⟨12, 15⟩, s "Temperature"⟩] := by decide +kernel

/-! `test_custom_entity_parser_caches_properly` (src/entity_parser/custom_entity_parser.rs:237-277): requests that
differ in scope or number of alternatives do not share cache entries. -/

/-- A gazetteer parser for the sentence of the test. -/
def invader : Ext where
  lower := List.map Char.toLower
  tokenize := words
  builtinRaw _ _ _ _ := .ok []
  gazetteer t scope n :=
    if t = s "i want to play invader" then
      if scope = some [] then .ok []
      else .ok [⟨s "invader", s "Invader Attack 3", if n = 0 then [] else [s "Invader War Demo"], ⟨15, 22⟩, s "game"⟩]
    else .err (.site 0)

example :
    let c0 := Caches.empty 1000
    let r1 := invader.customCachedAccess (s "I want to play invader") (some []) 0 c0
    let r2 := invader.customCachedAccess (s "I want to play invader") none 0 r1.2
    let r3 := invader.customCachedAccess (s "I want to play invader") none 1 r2.2
    r1.1 = .ok [] ∧
    r2.1 = .ok [⟨s "invader", s "Invader Attack 3", [], ⟨15, 22⟩, s "game"⟩] ∧
    r3.1 = .ok [⟨s "invader", s "Invader Attack 3", [s "Invader War Demo"], ⟨15, 22⟩, s "game"⟩] := by
  decide +kernel

end Snips.Conformance
