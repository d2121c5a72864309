import Verif.Model.Loading
import Verif.Spec.Parsers

/-! Vocabulary for statements about the loading of an engine. -/

namespace Snips

/-- The file at a path has the given bytes. -/
def FileAt (fs : Fs) (p : Path) (bytes : List Nat) : Prop := fs (resolve p) = some (.file bytes)

/-- The `metadata.json` of a directory names the given kind of processing unit. -/
def UnitAt (env : LoadEnv) (fs : Fs) (dir : Path) (kind : UnitKind) : Prop :=
  ∃ bytes, FileAt fs (dir ++ ["metadata.json".toList]) bytes ∧ env.unit bytes = .ok kind

/-- A parser was loaded from a directory whose metadata announces its kind, and so were its components: a
classifier from a directory announcing a logistic regression, slot fillers from directories announcing a
CRF. -/
def AnnouncedBy (env : LoadEnv) (fs : Fs) (dir : Path) : ParserModel → Prop
  | .lookup _ _ => UnitAt env fs dir .lookupIntentParser
  | .deterministic _ _ => UnitAt env fs dir .deterministicIntentParser
  | .probabilistic _ p =>
    UnitAt env fs dir .probabilisticIntentParser ∧
    UnitAt env fs (dir ++ ["intent_classifier".toList]) .logRegIntentClassifier ∧
    ∀ intent f, p.slotFillers.get intent = some f →
      ∃ name, UnitAt env fs (joinPath dir name) .crfSlotFiller

end Snips
