import Verif.Model.Parsers
import Verif.Model.FeatureFactory

/-! Two sets of resources (gazetteers, stemmer, word clusters), and the words of a query. -/

namespace Snips

/-- The same resources are there, and they say the same about the given words: the stem of the word, whether the word (and
its stem) is in a gazetteer, and the cluster of the word.  What they say about other words does not matter. -/
structure Resources.SameFor (fns : TextFns) (r r' : Resources) (words : List Text) : Prop where
  stemmerThere : r'.stemmer.isSome = r.stemmer.isSome
  stems : ∀ s s', r.stemmer = some s → r'.stemmer = some s' → ∀ t ∈ words,
    s'.stem fns (fns.normalize t) = s.stem fns (fns.normalize t)
  gazetteersThere : ∀ name, (r'.gazetteers.get name).isSome = (r.gazetteers.get name).isSome
  gazetteers : ∀ name g g', r.gazetteers.get name = some g → r'.gazetteers.get name = some g' → ∀ t ∈ words,
    g'.contains fns.hashStr (fns.normalize t) = g.contains fns.hashStr (fns.normalize t) ∧
    ∀ s, r.stemmer = some s → g'.contains fns.hashStr (s.stem fns (fns.normalize t))
      = g.contains fns.hashStr (s.stem fns (fns.normalize t))
  clustersThere : ∀ name, (r'.wordClusterers.get name).isSome = (r.wordClusterers.get name).isSome
  clusters : ∀ name c c', r.wordClusterers.get name = some c → r'.wordClusterers.get name = some c' → ∀ t ∈ words,
    c'.getCluster fns.hashStr (fns.lower t) = c.getCluster fns.hashStr (fns.lower t)

/-- Two slot fillers that are built from the same configurations with two sets of resources, which say the same about the
words of the query. -/
structure SlotFiller.SameForQuery (names : KindNames) (input : Text) (f f' : SlotFiller) : Prop where
  fns : f'.fns = f.fns
  scheme : f'.scheme = f.scheme
  tagger : f'.tagger = f.tagger
  mapping : f'.mapping = f.mapping
  processor : (f.processor = none ∧ f'.processor = none) ∨ ∃ r r' configs os os',
    f.processor = some os ∧ f'.processor = some os' ∧
    buildProcessor f.fns names r configs = .ok os ∧ buildProcessor f.fns names r' configs = .ok os' ∧
    r.SameFor f.fns r' ((f.fns.tokenize input).map Token.value)

/-- Two vectorizers that differ by the stemmer and the clusters only, which say the same about the words of the query and
about the sequences of words in it. -/
structure Tfidf.SameForQuery {F : Type} (env : FeatEnv) (input : Text) (v v' : Tfidf F) : Prop where
  same : v' = { v with stemmer := v'.stemmer, clusterer := v'.clusterer }
  stemmerThere : v'.stemmer.isSome = v.stemmer.isSome
  stems : ∀ s s', v.stemmer = some s → v'.stemmer = some s' →
    ∀ t ∈ v.fns.tokenizeLight input, s' (v.fns.normalize t) = s (v.fns.normalize t)
  clustersThere : v'.clusterer.isSome = v.clusterer.isSome
  clusters : ∀ c c', v.clusterer = some c → v'.clusterer = some c' →
    ∀ g ∈ env.allNgrams (v.fns.tokenizeLight input) (v.fns.tokenizeLight input).length, c' (v.fns.lower g) = c (v.fns.lower g)

/-- Two probabilistic parsers that differ by their resources only, which say the same about the query. -/
structure Prob.SameForQuery (env : ProbEnv) (input : Text) (p p' : Prob) : Prop where
  intentList : p'.classifier.intentList = p.classifier.intentList
  logreg : p'.classifier.logreg = p.classifier.logreg
  featurizer : (p.classifier.featurizer = none ∧ p'.classifier.featurizer = none) ∨ ∃ f f',
    p.classifier.featurizer = some f ∧ p'.classifier.featurizer = some f' ∧ f'.cooc = f.cooc ∧
    Tfidf.SameForQuery env.feat input f.tfidf f'.tfidf
  slotFillers : List.Forall₂ (fun e e' => e'.1 = e.1 ∧ SlotFiller.SameForQuery env.feat.names input e.2 e'.2)
    p.slotFillers p'.slotFillers

/-- Two parsers that are the same, or that are probabilistic and differ by their resources only, which say the same about
the query. -/
inductive ParserModel.SameResourcesForQuery (input : Text) : ParserModel → ParserModel → Prop
  | same (p : ParserModel) : SameResourcesForQuery input p p
  | probabilistic (env : ProbEnv) (p p' : Prob) (h : Prob.SameForQuery env input p p') :
    SameResourcesForQuery input (.probabilistic env p) (.probabilistic env p')

end Snips
