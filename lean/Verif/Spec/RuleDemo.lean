import Verif.Spec.Rule
import Verif.Props.C19_Blanking

/-! Concrete rule-based parsers used to show that hypotheses are satisfiable. -/

namespace Snips

/-- One builtin kind, number 0, called `snips/number`. -/
def demoKinds : KindNames where
  fromStr t := if t = "snips/number".toList then some 0 else none
  fromIdentifier t := if t = "snips/number".toList then some 0 else none
  identifier _ := "snips/number".toList

/-- Environment of the examples: words between spaces are tokens, exact arithmetic; texts are hashed by
reading them as numbers, modulo a prime number. -/
def demoEnv : RuleEnv where
  fns := { ruleFns with hashStr := fun t => t.foldl (fun (acc : Int) c => (256 * acc + (c.toNat : Int)) % 1000003) 0 }
  names := demoKinds
  rd := Rounding.exact
  debugAssertions := true

/-- Extractors of the examples: the word `two` is a number; `tea` is a `drink`. -/
def ruleWorld : World where
  builtin s kinds _ := .ok (match kinds with
    | some ks => if ks.contains 0 then
        (ruleFns.tokenize s).filterMap fun t =>
          if t.value = "two".toList then some ⟨t.value, t.charRange, .builtin 2, [], 0⟩ else none
      else []
    | none => [])
  custom s kinds _ := .ok (match kinds with
    | some ks => if ks.contains "drink".toList then
        (ruleFns.tokenize s).filterMap fun t =>
          if t.value = "tea".toList then some ⟨t.value, t.value, [], t.charRange, "drink".toList⟩ else none
      else []
    | none => [])

/-- Lookup table of the examples: `make %SNIPS/NUMBER% %DRINK%` is `brew(count, kind)`, `make two tea` is
`idiom()`, `stop` is both `halt` (with no slot) in the table. -/
def demoLookup : Lookup where
  slotsNames := ["count".toList, "kind".toList]
  intentsNames := ["brew".toList, "idiom".toList, "halt".toList]
  map := [(demoEnv.fns.hashStr "make %snips/number% %drink%".toList, (0, [0, 1])),
    (demoEnv.fns.hashStr "make two tea".toList, (1, [])),
    (demoEnv.fns.hashStr "stop".toList, (2, []))]
  stopWords := StopWords.new true ["the".toList] []
  scopes := [⟨["brew".toList], ["snips/number".toList], ["drink".toList]⟩,
    ⟨["idiom".toList, "halt".toList], [], []⟩]

/-- Index of the first occurrence of a pattern in a text (all characters ASCII, so byte offsets are
character offsets). -/
def findText (pat : Text) : Text → Option Nat
  | [] => if pat = [] then some 0 else none
  | c :: t => if pat.isPrefixOf (c :: t) then some 0 else (findText pat t).map (· + 1)

/-- A regular expression `(?P<group>pat)`: a literal pattern as a named group. -/
def literalRegex (group pat : Text) : Regex where
  isMatch t := (findText pat t).isSome
  capturesIter t := match findText pat t with
    | some i => [[some ⟨i, i + pat.length⟩, some ⟨i, i + pat.length⟩]]
    | none => []
  captureNames := [none, some group]

/-- A regular expression without groups. -/
def plainRegex (pat : Text) : Regex where
  isMatch t := (findText pat t).isSome
  capturesIter t := match findText pat t with
    | some i => [[some ⟨i, i + pat.length⟩]]
    | none => []
  captureNames := [none]

/-- Deterministic parser of the examples. -/
def demoDet : Det where
  regexes := [("brew".toList, [literalRegex "g0_1".toList "%SNIPS/NUMBER%".toList]),
    ("idiom".toList, [plainRegex "two tea".toList]), ("halt".toList, [plainRegex "stop".toList])]
  groupNames := [("g0".toList, "count".toList)]
  slotEntities := [("brew".toList, [("count".toList, "snips/number".toList), ("kind".toList, "drink".toList)]),
    ("idiom".toList, []), ("halt".toList, [])]
  stopWords := StopWords.new true ["the".toList] []
  scopes := detScopes demoKinds [("brew".toList,
      [("count".toList, "snips/number".toList), ("kind".toList, "drink".toList)]),
    ("idiom".toList, []), ("halt".toList, [])]

theorem demoDet_built : demoDet.Built demoEnv.names := ⟨rfl, by decide⟩

end Snips
