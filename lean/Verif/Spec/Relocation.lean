import Verif.Spec.Loading
import Verif.Spec.Archive

/-! Vocabulary for statements about the place of an engine on the disk. -/

namespace Snips

/-- A relative name that stays below the directory it is joined to: it does not begin with a slash and none of
its parts between slashes is `..`. -/
structure RelativeName (t : Text) : Prop where
  relative : t.head? ≠ some '/'
  noParent : ['.', '.'] ∉ splitSlash t

/-- Every name that the loading code can read in a file with these bytes is plain. -/
structure PlainFile (env : LoadEnv) (b : List Nat) : Prop where
  parsers : ∀ m, env.engine b = .ok m → ∀ n ∈ m.intentParsers, RelativeName n
  builtinParser : ∀ m, env.engine b = .ok m → RelativeName m.builtinEntityParser
  customParser : ∀ m, env.engine b = .ok m → RelativeName m.customEntityParser
  gazetteers : ∀ m, env.resources b = .ok m → ∀ l, m.gazetteers = some l → ∀ n ∈ l, RelativeName n
  wordClusters : ∀ m, env.resources b = .ok m → ∀ l, m.wordClusters = some l → ∀ n ∈ l, RelativeName n
  stems : ∀ m, env.resources b = .ok m → ∀ n, m.stems = some n → RelativeName n
  stopWords : ∀ m, env.resources b = .ok m → ∀ n, m.stopWords = some n → RelativeName n
  entityParser : ∀ m, env.customParser b = .ok m → RelativeName m.parserDirectory
  slotFillers : ∀ m, env.probabilistic b = .ok m → ∀ nf ∈ m, RelativeName nf.2
  featurizer : ∀ m, env.classifier b = .ok m → ∀ n, m.featurizer = some n → RelativeName n
  tfidf : ∀ m, env.featurizer b = .ok m → RelativeName m.tfidfVectorizer
  cooccurrence : ∀ m, env.featurizer b = .ok m → ∀ n, m.cooccurrenceVectorizer = some n → RelativeName n
  crf : ∀ m, env.slotFiller b = .ok m → ∀ n, m.crfModelFile = some n → RelativeName n

/-- The directory names of languages are plain. -/
def PlainLanguages (env : LoadEnv) : Prop := ∀ code l, env.language code = .ok l → RelativeName l.1

/-- All the files below a directory hold plain names only. -/
def PlainEngine (env : LoadEnv) (fs : Fs) (dir : Path) : Prop :=
  ∀ r b, fs (dir ++ r) = some (.file b) → PlainFile env b

/-- Two directories have the same contents. -/
def SameContents (fs : Fs) (dir : Path) (fs' : Fs) (dir' : Path) : Prop := ∀ r, fs' (dir' ++ r) = fs (dir ++ r)

end Snips
