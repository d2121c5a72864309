import Verif.Proofs.Trained

/-! # The patterns of the model files and tests are trained patterns in the sense of `Spec/Trained` -/

namespace Snips.Conformance

/-- Pieces of a pattern, read with `firstItem`. -/
def readItems : Nat → Text → List PatItem
  | 0, _ => []
  | n + 1, t =>
    match firstItem t with
    | some (i, rest) => i :: readItems n rest
    | none => []

/-- The pattern is the text of well-named pieces. -/
def isTrained (p : String) : Bool :=
  let items := readItems p.length (p.toList.drop 1)
  patternText items == p.toList && decide (groupsOf items).Nodup &&
    (groupsOf items).all fun n => !n.isEmpty && n.all fun c => c.isAlphanum || c == '_'

/-! data/tests/models/*/deterministic_intent_parser/intent_parser.json -/

#guard isTrained "^\\s*brew\\s*(?P<group1>%SNIPSNUMBER%)\\s*cups\\s*of\\s*coffee\\s*$"
#guard isTrained "^\\s*i\\s*want\\s*(?P<group1>%SNIPSNUMBER%)\\s*cups\\s*of\\s*(?P<group0>%TEMPERATURE%)\\s*tea\\s*$"
#guard isTrained "^\\s*je\\s*souhaiterais\\s*écouter\\s*album\\s*(?P<group0>%SNIPSMUSICALBUM%)\\s*$"
#guard isTrained "^\\s*je\\s*veux\\s*ecouter\\s*album\\s*(?P<group0>%SNIPSMUSICALBUM%)\\s*(?P<group1>%SNIPSMUSICARTIST%)\\s*$"
#guard isTrained "^\\s*je\\s*veux\\s*ecouter\\s*chanson\\s*(?P<group1>%SNIPSMUSICARTIST%)\\s*please\\s*$"
#guard isTrained "^\\s*je\\s*voudrais\\s*ecouter\\s*(?P<group1>%SNIPSMUSICARTIST%)\\s*$"
#guard isTrained "^\\s*je\\s*voudrais\\s*ecouter\\s*playlist\\s*(?P<group2>%PLAYLIST%)\\s*$"
#guard isTrained "^\\s*lance\\s*album\\s*(?P<group0>%SNIPSMUSICALBUM%)\\s*veux\\s*$"
#guard isTrained "^\\s*make\\s*(?P<group0>%TEMPERATURE%)\\s*cup\\s*of\\s*tea\\s*$"
#guard isTrained "^\\s*make\\s*(?P<group1>%SNIPSNUMBER%)\\s*cup\\s*of\\s*coffee\\s*$"
#guard isTrained "^\\s*make\\s*(?P<group1>%SNIPSNUMBER%)\\s*tea\\s*cups\\s*$"
#guard isTrained "^\\s*mets\\s*(?P<group1>%SNIPSMUSICARTIST%)\\s*$"
#guard isTrained "^\\s*mets\\s*album\\s*(?P<group0>%SNIPSMUSICALBUM%)\\s*(?P<group1>%SNIPSMUSICARTIST%)\\s*$"
#guard isTrained "^\\s*mets\\s*son\\s*(?P<group1>%SNIPSMUSICARTIST%)\\s*$"
#guard isTrained "^\\s*peux\\s*mettre\\s*(?P<group1>%SNIPSMUSICARTIST%)\\s*$"
#guard isTrained "^\\s*prepare\\s*(?P<group1>%SNIPSNUMBER%)\\s*cup\\s*of\\s*(?P<group0>%TEMPERATURE%)\\s*tea\\s*$"
#guard isTrained "^\\s*prepare\\s*(?P<group1>%SNIPSNUMBER%)\\s*cup\\s*of\\s*coffee\\s*$"

/-! src/intent_parser/deterministic_intent_parser.rs:540-1283 -/

#guard isTrained "^\\s*foo\\s*bar\\s*baz\\s*$"
#guard isTrained "^\\s*foo\\s*bar\\s*ban\\s*$"
#guard isTrained "^\\s*(?P<group0>%EVENT%)\\s*tomorrow\\s*$"
#guard isTrained "^\\s*call\\s(?P<group1>%SNIPSDATETIME%)\\s*$"
#guard isTrained "^\\s*call\\s*tomorrow\\s*$"
#guard isTrained "^\\s*search\\s*(?P<group0>%OBJECT%)\\s*$"
#guard isTrained "^\\s*(?P<group1>%GREETING%)\\s*(?P<group0>%NAME%)\\s*$"
#guard isTrained "^\\s*hello\\s*über\\s*(?P<group0>%NAME%)\\s*$"

/-! Not trained patterns. -/

#guard !isTrained "^a|b$"
#guard !isTrained "a"
#guard !isTrained "^(?P<a>b)(?P<a>c)$"

end Snips.Conformance
