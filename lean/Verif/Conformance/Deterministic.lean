import Verif.Conformance.Support

/-! # Tests of src/intent_parser/deterministic_intent_parser.rs -/

namespace Snips.Conformance

/-- The rest of the text after the blanks at its start, and its byte offset. -/
def skipBlanks : Nat → Text → Nat × Text
  | b, [] => (b, [])
  | b, c :: t => if c = ' ' then skipBlanks (b + 1) t else (b, c :: t)

/-- The rest of the text after a word (case is ignored), and its byte offset. -/
def skipWord : Text → Nat → Text → Option (Nat × Text)
  | [], b, t => some (b, t)
  | _ :: _, _, [] => none
  | w :: ws, b, c :: t => if w.toLower = c.toLower then skipWord ws (b + c.utf8Size) t else none

/-- The byte ranges of the words of a pattern in a text that consists of these words. -/
def matchWords : List Text → Nat → Text → Option (List Rng)
  | [], b, t => if (skipBlanks b t).2 = [] then some [] else none
  | w :: ws, b, t =>
    match skipWord w (skipBlanks b t).1 (skipBlanks b t).2 with
    | some (e, rest) => (matchWords ws e rest).map (⟨(skipBlanks b t).1, e⟩ :: ·)
    | none => none

/-- The regular expressions of the tests, `^\s*w1\s*w2…\s*$` without regard to case, given by their words and the
names of the groups some of the words make up. -/
def pattern (ws : List (String × Option String)) : Regex where
  isMatch t := (matchWords (ws.map fun w => s w.1) 0 t).isSome
  capturesIter t :=
    match matchWords (ws.map fun w => s w.1) 0 t with
    | some rs => [some ⟨0, byteLen t⟩ :: ((rs.zip ws).filterMap fun rw => rw.2.2.map fun _ => some rw.1)]
    | none => []
  captureNames := none :: ws.filterMap fun w => w.2.map fun g => some (s g)

/-- Words without groups. -/
def plain (ws : List String) : List (String × Option String) := ws.map fun w => (w, none)

/-- `build_sample_model` followed by `DeterministicIntentParser::new`
(src/intent_parser/deterministic_intent_parser.rs:449-504 and :56-123). -/
def det (patterns : List (String × List (List (String × Option String)))) (groups : List (String × String))
    (slots : List (String × List (String × String))) (ignore : Bool) (whitelist : Map Text (List Text))
    (stop : List Text) : Det :=
  let entities : Map Text (Map Text Text) := slots.map fun im => (s im.1, im.2.map fun se => (s se.1, s se.2))
  ⟨patterns.map fun ip => (s ip.1, ip.2.map pattern), groups.map fun g => (s g.1, s g.2), entities,
    StopWords.new ignore stop whitelist, detScopes kinds entities⟩

/-- Result of `parse`. -/
def parseD (p : Det) (w : World) (t : Text) (wl : Option (List Text)) : Outcome InternalResult :=
  (p.parse ruleEnv .insertion t wl).run w

/-! `test_parse_intent`, `test_parse_intent_with_filter`, `test_parse_intent_with_stop_words` (lines 536-643) -/

def fooD (ignore : Bool) (stop : List Text) : Det :=
  det [("intent1", [plain ["foo", "bar", "baz"]]), ("intent2", [plain ["foo", "bar", "ban"]])] []
    [("intent1", []), ("intent2", [])] ignore [] stop

example : parseD (fooD false []) noEntities (s "foo bar ban") none = .ok ⟨⟨some (s "intent2"), 1⟩, []⟩ := by
  decide +kernel
example : parseD (fooD false []) noEntities (s "foo bar ban") (some [s "intent1"]) = .ok ⟨⟨none, 1⟩, []⟩ := by
  decide +kernel
example : parseD (fooD true [s "hey", s "please"]) noEntities (s "hey foo bar please ban") none =
    .ok ⟨⟨some (s "intent2"), 1⟩, []⟩ := by decide +kernel

/-! `test_parse_utterance_with_duplicated_slot_names` (lines 645-715) -/

example : parseD (det [("math_operation", [[("what", none), ("is", none), ("%SNIPSNUMBER%", some "group0"),
      ("plus", none), ("%SNIPSNUMBER%", some "group0_2")]])] [("group0", "number")]
      [("math_operation", [("number", "snips/number")])] true [] []) onePlusOne (s "what is one plus one") none =
    .ok ⟨⟨some (s "math_operation"), 1⟩, [⟨s "one", ⟨8, 11⟩, s "snips/number", s "number"⟩,
      ⟨s "one", ⟨17, 20⟩, s "snips/number", s "number"⟩]⟩ := by decide +kernel

/-! `test_very_ambiguous_utterances_should_not_be_parsed`,
`test_slightly_ambiguous_utterances_should_be_parsed` (lines 717-895) -/

example : parseD (det [("intent1", [[("%EVENT%", some "group0"), ("tomorrow", none)]]),
      ("intent2", [[("call", none), ("%SNIPSDATETIME%", some "group1")]])]
      [("group0", "event"), ("group1", "time")]
      [("intent1", [("event", "event")]), ("intent2", [("time", "snips/datetime")])] true [] [])
    callTomorrow (s "call tomorrow") none = .ok ⟨⟨none, 1⟩, []⟩ := by decide +kernel

example : parseD (det [("intent1", [plain ["call", "tomorrow"]]),
      ("intent2", [[("call", none), ("%SNIPSDATETIME%", some "group0")]])] [("group0", "time")]
      [("intent1", []), ("intent2", [("time", "snips/datetime")])] true [] [])
    callTomorrowBuiltin (s "call tomorrow") none = .ok ⟨⟨some (s "intent1"), 2 / 3⟩, []⟩ := by decide +kernel

/-! `test_parse_slots` (lines 897-1015) -/

example : parseD (det [("intent1", [[("meeting", none), ("with", none), ("%NAME%", some "group0"), ("at", none),
      ("%LOCATION%", some "group1"), ("either", none), ("%SNIPSDATETIME%", some "group2"), ("or", none),
      ("%SNIPSDATETIME%", some "group2_2")]])]
      [("group0", "name"), ("group1", "location"), ("group2", "time")]
      [("intent1", [("name", "name"), ("location", "location"), ("time", "snips/datetime")])] true [] [])
    meeting meetingText none = .ok ⟨⟨some (s "intent1"), 1⟩, meetingSlots⟩ := by decide +kernel

/-! `test_parse_stop_words_slots` (lines 1017-1090) -/

example : parseD (det [("search", [plain ["search"], [("search", none), ("%OBJECT%", some "group0")]])]
      [("group0", "object")] [("search", [("object", "object")])] true [(s "search", [s "this", s "that"])]
      [s "the", s "a", s "this", s "that"]) searchThis (s "search this") none =
    .ok ⟨⟨some (s "search"), 1⟩, [⟨s "this", ⟨7, 11⟩, s "object", s "object"⟩]⟩ := by decide +kernel

/-! `test_get_intents` (lines 1092-1183) -/

example : ((det [("greeting1", [plain ["hello", "john"]]), ("greeting2", [[("hello", none), ("%NAME%", some "group0")]]),
      ("greeting3", [[("%GREETING%", some "group1"), ("%NAME%", some "group0")]])]
      [("group0", "name"), ("group1", "greeting")]
      [("greeting1", []), ("greeting2", [("name", "name")]), ("greeting3", [("name", "name"), ("greeting", "greeting")])]
      true [] []).getIntents ruleEnv .insertion (s "Hello John")).run helloJohn =
    .ok [⟨some (s "greeting1"), 1 / (1 + 1 / 2 + 1 / 3)⟩, ⟨some (s "greeting2"), (1 / 2) / (1 + 1 / 2 + 1 / 3)⟩,
      ⟨some (s "greeting3"), (1 / 3) / (1 + 1 / 2 + 1 / 3)⟩, ⟨none, 0⟩] := by decide +kernel

/-! `test_parse_slots_with_non_ascii_chars`, `test_parse_slots_with_special_tokenized_out_characters`
(lines 1185-1276) -/

example : parseD (det [("greeting", [[("hello", none), ("über", none), ("%NAME%", some "group0")]])]
      [("group0", "name")] [("greeting", [("name", "name")])] true [] [])
    (mockedCustom [(s "Hello über John", [⟨s "John", s "John", [], ⟨11, 15⟩, s "name"⟩])])
    (s "Hello über John") none =
    .ok ⟨⟨some (s "greeting"), 1⟩, [⟨s "John", ⟨11, 15⟩, s "name", s "name"⟩]⟩ := by decide +kernel

example : parseD (det [("intent1", [[("meeting", none), ("with", none), ("%NAME%", some "group0")]])]
      [("group0", "name")] [("intent1", [("name", "name")])] true [] []) oreilly oreillyText none =
    .ok ⟨⟨some (s "intent1"), 1⟩, [⟨s "John O’reilly", ⟨13, 26⟩, s "name", s "name"⟩]⟩ := by decide +kernel

/-! `test_get_slots` (lines 1278-1328) -/

def greetingD : Det := det [("greeting", [[("hello", none), ("%NAME%", some "group0")]]), ("other_intent", [])]
  [("group0", "name")] [("greeting", [("name", "name")]), ("other_intent", [])] true [] []

example : (greetingD.getSlots ruleEnv .insertion (s "Hello John") (s "greeting")).run helloJohnName =
    .ok [⟨s "John", ⟨6, 10⟩, s "name", s "name"⟩] := by decide +kernel
example : (greetingD.getSlots ruleEnv .insertion (s "Hello John") (s "other_intent")).run helloJohnName =
    .ok [] := by decide +kernel

/-! `test_deduplicate_overlapping_slots`, `test_replace_entities`, `test_get_builtin_entity_name`,
`test_get_range_shift` (lines 1330-1435) -/

example : dedupSlots plainFns [⟨s "kid", ⟨0, 3⟩, s "e1", s "s1"⟩, ⟨s "loco", ⟨4, 8⟩, s "e1", s "s2"⟩,
      ⟨s "kid loco", ⟨0, 8⟩, s "e1", s "s3"⟩, ⟨s "song", ⟨9, 13⟩, s "e2", s "s4"⟩] =
    [⟨s "kid loco", ⟨0, 8⟩, s "e1", s "s3"⟩, ⟨s "song", ⟨9, 13⟩, s "e2", s "s4"⟩] := by decide +kernel

example : replaceEntities (s "the third album of Blink 182 is great")
    [⟨⟨0, 9⟩, s "snips/ordinal"⟩, ⟨⟨25, 28⟩, s "snips/number"⟩, ⟨⟨19, 28⟩, s "snips/musicArtist"⟩]
    (entityPlaceholder plainFns) =
    ([(⟨0, 14⟩, ⟨0, 9⟩), (⟨24, 42⟩, ⟨19, 28⟩)], s "%SNIPSORDINAL% album of %SNIPSMUSICARTIST% is great") := by
  decide +kernel

example : getRangeShift .insertion ⟨6, 7⟩ [(⟨2, 5⟩, ⟨2, 4⟩), (⟨8, 9⟩, ⟨7, 11⟩)] = -1 := by decide +kernel
example : getRangeShift .insertion ⟨12, 13⟩ [(⟨2, 5⟩, ⟨2, 4⟩), (⟨8, 9⟩, ⟨7, 11⟩)] = 2 := by decide +kernel

end Snips.Conformance
