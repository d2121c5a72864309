import Verif.Spec.EngineShared
import Verif.Model.Parsers

/-! # Giving other names to the intents of an engine -/

namespace Snips

/-- A table with other keys. -/
def Map.renameKeys {ν : Type} (f : Text → Text) (m : Map Text ν) : Map Text ν := m.map fun e => (f e.1, e.2)

/-- Stop words, with the intents of the whitelist renamed. -/
def StopWords.rename (f : Text → Text) (s : StopWords) : StopWords := { s with specific := s.specific.renameKeys f }

/-- A group of intents, renamed. -/
def GroupedScope.rename (f : Text → Text) (s : GroupedScope) : GroupedScope := { s with intentGroup := s.intentGroup.map f }

/-- The lookup parser with renamed intents: its table has numbers of intents and does not change. -/
def Lookup.rename (f : Text → Text) (p : Lookup) : Lookup :=
  { p with intentsNames := p.intentsNames.map f, stopWords := p.stopWords.rename f, scopes := p.scopes.map (·.rename f) }

/-- The deterministic parser with renamed intents. -/
def Det.rename (f : Text → Text) (p : Det) : Det :=
  { p with regexes := p.regexes.renameKeys f, slotEntities := p.slotEntities.renameKeys f,
           stopWords := p.stopWords.rename f, scopes := p.scopes.renameKeys f }

/-- The classifier with renamed intents. -/
def Classifier.rename (f : Text → Text) (c : Classifier) : Classifier :=
  { c with intentList := c.intentList.map (Option.map f) }

/-- The probabilistic parser with renamed intents. -/
def Prob.rename (f : Text → Text) (p : Prob) : Prob := ⟨p.classifier.rename f, p.slotFillers.renameKeys f⟩

/-- A parser with renamed intents. -/
def ParserModel.rename (f : Text → Text) : ParserModel → ParserModel
  | .lookup env p => .lookup env (p.rename f)
  | .deterministic env p => .deterministic env (p.rename f)
  | .probabilistic env p => .probabilistic env (p.rename f)

/-- The description of the training set with renamed intents. -/
def DatasetMetadata.rename (f : Text → Text) (d : DatasetMetadata) : DatasetMetadata :=
  { d with slotNameMappings := d.slotNameMappings.renameKeys f }

/-- An intent and its score, renamed. -/
def IntentResult.rename (f : Text → Text) (r : IntentResult) : IntentResult := { r with name := r.name.map f }

/-- An answer of a parser, renamed. -/
def InternalResult.rename (f : Text → Text) (r : InternalResult) : InternalResult := { r with intent := r.intent.rename f }

/-- An alternative, renamed. -/
def Alternative.rename (f : Text → Text) (a : Alternative) : Alternative := { a with intent := a.intent.rename f }

/-- An answer, renamed. -/
def ParseResult.rename (f : Text → Text) (r : ParseResult) : ParseResult :=
  { r with intent := r.intent.rename f, alternatives := r.alternatives.map (·.rename f) }

/-- A question, renamed. -/
def EngineCall.rename (f : Text → Text) : EngineCall → EngineCall
  | .parse o input whitelist blacklist ni ns => .parse o input (whitelist.map (·.map f)) (blacklist.map (·.map f)) ni ns
  | .intents o input => .intents o input
  | .slots o input intent ns => .slots o input (f intent) ns
  | .extract input intent slot ns => .extract input (f intent) slot ns

/-- An answer of the engine, renamed. -/
def EngineAnswer.rename (f : Text → Text) : EngineAnswer → EngineAnswer
  | .parse r => .parse (r.rename f)
  | .intents l => .intents (l.map (·.rename f))
  | .slots l => .slots l
  | .extract s => .extract s

/-- The errors that name an intent name the renamed one. -/
inductive Err.Renamed (f : Text → Text) : Err → Err → Prop where
  | same (e : Err) : Err.Renamed f e e
  | unknownIntent (i : Text) : Err.Renamed f (.unknownIntent i) (.unknownIntent (f i))
  | unknownFilterIntent (i : Text) : Err.Renamed f (.unknownFilterIntent i) (.unknownFilterIntent (f i))
  | extractUnknownIntent (i : Text) : Err.Renamed f (.extractUnknownIntent i) (.extractUnknownIntent (f i))

/-- The same outcome up to the renaming. -/
inductive Outcome.Renamed {α β : Type} (f : Text → Text) (rename : α → β) : Outcome α → Outcome β → Prop where
  | ok (a : α) : Outcome.Renamed f rename (.ok a) (.ok (rename a))
  | err {e e' : Err} : Err.Renamed f e e' → Outcome.Renamed f rename (.err e) (.err e')
  | panic : Outcome.Renamed f rename .panic .panic

/-- Orders of hash maps that do not look at the elements: renamed elements come in the same order. -/
def HashOrd.Blind (o : HashOrd) : Prop :=
  ∀ (site : Nat) {α β : Type} (g : α → β) (l : List α), o.order site (l.map g) = (o.order site l).map g

/-- The orders of a call are blind. -/
def EngineCall.Blind : EngineCall → Prop
  | .parse o .. => o.Blind
  | .intents o _ => o.Blind
  | .slots o .. => o.Blind
  | .extract .. => True

end Snips
