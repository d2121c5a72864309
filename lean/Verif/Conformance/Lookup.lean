import Verif.Conformance.Support

/-! # Tests of src/intent_parser/lookup_intent_parser.rs -/

namespace Snips.Conformance

/-- `build_sample_model` followed by `LookupIntentParser::new`
(src/intent_parser/lookup_intent_parser.rs:405-427 and :56-93). -/
def lookup (slots intents : List String) (map : List (String × (Int × List Int))) (scopes : List GroupedScope)
    (whitelist : Map Text (List Text)) (ignore : Bool) (stop : List Text) : Lookup :=
  ⟨slots.map s, intents.map s, map.map fun km => (plainFns.hashStr (s km.1), km.2),
    StopWords.new ignore stop whitelist, scopes⟩

/-- Result of `parse`. -/
def parseL (p : Lookup) (w : World) (t : Text) (wl : Option (List Text)) : Outcome InternalResult :=
  (p.parse ruleEnv .insertion t wl).run w

/-! `test_parse_intent`, `test_parse_intent_with_filter` (lines 458-536) -/

def foo : Lookup := lookup [] ["intent1", "intent2"] [("foo bar baz", (0, [])), ("foo bar ban", (1, []))]
  [⟨[s "intent1", s "intent2"], [], []⟩] [] false []

example : parseL foo noEntities (s "foo bar ban") none = .ok ⟨⟨some (s "intent2"), 1⟩, []⟩ := by decide +kernel
example : parseL foo noEntities (s "foo bar ban") (some [s "intent1"]) = .ok ⟨⟨none, 1⟩, []⟩ := by decide +kernel

/-! `test_parse_intent_with_stop_words` (lines 538-583) -/

example : parseL (lookup [] ["intent1", "intent2"] [("foo bar baz", (0, [])), ("foo bar ban", (1, []))]
      [⟨[s "intent1", s "intent2"], [], []⟩] [] true [s "hey", s "please"]) noEntities
    (s "hey foo bar please ban") none = .ok ⟨⟨some (s "intent2"), 1⟩, []⟩ := by decide +kernel

/-! `test_parse_intent_with_duplicated_slot_names` (lines 585-659) -/

example : parseL (lookup ["number"] ["math_operation"]
      [("what is % snipsnumber % plus % snipsnumber %", (0, [0, 0]))]
      [⟨[s "math_operation"], [s "snips/number"], []⟩] [] false []) onePlusOne
    (s "what is one plus one") none =
    .ok ⟨⟨some (s "math_operation"), 1⟩, [⟨s "one", ⟨8, 11⟩, s "snips/number", s "number"⟩,
      ⟨s "one", ⟨17, 20⟩, s "snips/number", s "number"⟩]⟩ := by decide +kernel

/-! `test_parse_intent_with_ambivalent_words` (lines 661-731) -/

example : parseL (lookup ["name"] ["give_flower"]
      [("give a rose to % name %", (0, [0])), ("give a daisy to % name %", (0, [0])),
        ("give a tulip to % name %", (0, [0]))]
      [⟨[s "give_flower"], [], [s "name"]⟩] [] false [])
    (mockedCustom [(s "give a daisy to emily", [⟨s "daisy", s "daisy", [], ⟨7, 12⟩, s "name"⟩,
      ⟨s "emily", s "emily", [], ⟨16, 21⟩, s "name"⟩])])
    (s "give a daisy to emily") none =
    .ok ⟨⟨some (s "give_flower"), 1⟩, [⟨s "emily", ⟨16, 21⟩, s "name", s "name"⟩]⟩ := by decide +kernel

/-! `test_very_ambiguous_utterances_should_not_be_parsed` (lines 733-852) -/

example : parseL (lookup ["event", "time"] ["intent1", "intent2"]
      [("% event % tomorrow", (0, [0])), ("call % snipsdatetime %", (1, [1]))]
      [⟨[s "intent1"], [], [s "event"]⟩, ⟨[s "intent2"], [s "snips/datetime"], []⟩] [] true []) callTomorrow
    (s "call tomorrow") none = .ok ⟨⟨none, 1⟩, []⟩ := by decide +kernel

/-! `test_slightly_ambiguous_utterances_should_be_parsed` (lines 854-942) -/

example : parseL (lookup ["time"] ["intent1", "intent2"]
      [("call tomorrow", (0, [])), ("call % snipsdatetime %", (1, [0]))]
      [⟨[s "intent1"], [], []⟩, ⟨[s "intent2"], [s "snips/datetime"], []⟩] [] true []) callTomorrowBuiltin
    (s "call tomorrow") none = .ok ⟨⟨some (s "intent1"), 2 / 3⟩, []⟩ := by decide +kernel

/-! `test_parse_slots` (lines 944-1062) -/

example : parseL (lookup ["name", "location", "time"] ["intent1"]
      [("meeting with % name % at % location % either % snipsdatetime % or % snipsdatetime %", (0, [0, 1, 2, 2]))]
      [⟨[s "intent1"], [s "snips/datetime"], [s "name", s "location"]⟩] [] true []) meeting meetingText none =
    .ok ⟨⟨some (s "intent1"), 1⟩, meetingSlots⟩ := by decide +kernel

/-! `test_parse_stop_words_slots` (lines 1064-1144) -/

example : parseL (lookup ["object"] ["search"] [("search", (0, [])), ("search % object %", (0, [0]))]
      [⟨[s "search"], [], [s "object"]⟩] [(s "search", [s "this", s "that"])] true
      [s "the", s "a", s "this", s "that"]) searchThis (s "search this") none =
    .ok ⟨⟨some (s "search"), 1⟩, [⟨s "this", ⟨7, 11⟩, s "object", s "object"⟩]⟩ := by decide +kernel

/-! `test_get_intents` (lines 1146-1258) -/

example : ((lookup ["name", "greeting"] ["greeting1", "greeting2", "greeting3"]
      [("hello john", (0, [])), ("hello % name %", (1, [0])), ("% greeting % % name %", (2, [1, 0]))]
      [⟨[s "greeting1"], [], []⟩, ⟨[s "greeting2"], [], [s "name"]⟩,
        ⟨[s "greeting3"], [], [s "name", s "greeting"]⟩] [] true []).getIntents ruleEnv .insertion
      (s "Hello John")).run helloJohn =
    .ok [⟨some (s "greeting1"), 1 / (1 + 1 / 2 + 1 / 3)⟩, ⟨some (s "greeting2"), (1 / 2) / (1 + 1 / 2 + 1 / 3)⟩,
      ⟨some (s "greeting3"), (1 / 3) / (1 + 1 / 2 + 1 / 3)⟩, ⟨none, 0⟩] := by decide +kernel

/-! `test_parse_slots_with_special_tokenized_out_characters` (lines 1260-1319) -/

example : parseL (lookup ["name"] ["intent1"] [("meeting with % name %", (0, [0]))]
      [⟨[s "intent1"], [], [s "name"]⟩] [] true []) oreilly oreillyText none =
    .ok ⟨⟨some (s "intent1"), 1⟩, [⟨s "John O’reilly", ⟨13, 26⟩, s "name", s "name"⟩]⟩ := by decide +kernel

/-! `test_get_slots` (lines 1321-1385) -/

def greetingL : Lookup := lookup ["name"] ["greeting", "other_intent"] [("hello % name %", (0, [0]))]
  [⟨[s "greeting"], [], [s "name"]⟩, ⟨[s "other_intent"], [], []⟩] [] false []

example : (greetingL.getSlots ruleEnv .insertion (s "Hello John") (s "greeting")).run helloJohnName =
    .ok [⟨s "John", ⟨6, 10⟩, s "name", s "name"⟩] := by decide +kernel
example : (greetingL.getSlots ruleEnv .insertion (s "Hello John") (s "other_intent")).run helloJohnName =
    .ok [] := by decide +kernel

/-! `test_replace_entities_with_placeholders`, `test_get_builtin_entity_name`, `test_get_combinations`
(lines 1387-1434) -/

example : replaceWithPlaceholders plainFns (s "the third album of Blink 182 is great")
    [⟨⟨0, 9⟩, s "snips/ordinal"⟩, ⟨⟨19, 28⟩, s "snips/musicArtist"⟩] =
    s "%SNIPSORDINAL% album of %SNIPSMUSICARTIST% is great" := by decide +kernel
example : entityPlaceholder plainFns (s "snips/datetime") = s "%SNIPSDATETIME%" := by decide +kernel
example : getItemsCombinations [3, 0, 5] = [[], [3, 0, 5], [3, 0], [3, 5], [0, 5], [3], [0], [5]] := by
  decide +kernel

end Snips.Conformance
