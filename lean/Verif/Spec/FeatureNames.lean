import Verif.Spec.Classifier
import Mathlib.Analysis.SpecialFunctions.Pow.Real

/-! What a classifier's model says about a term and about a pair of words, by name rather than by number. -/

namespace Snips

/-- The inverse document frequency of a term and the coefficient that a class has for it; nothing for a word that is not in
the vocabulary. -/
def Tfidf.termEntry (v : Tfidf ℝ) (row : List ℝ) (term : Text) : Option (ℝ × ℝ) :=
  (v.vocabulary.get term).bind fun ix => (v.idf[ix]?).bind fun d => (row[ix]?).map fun c => (d, c)

/-- The number of features for terms: one more than the greatest number of a term. -/
def Tfidf.size {F : Type} (v : Tfidf F) : Nat :=
  match (v.vocabulary.map Prod.snd).max? with
  | some greatest => greatest + 1
  | none => 0

/-- The coefficient that a class has for a pair of words; they come after those for terms. -/
def Featurizer.pairEntry (f : Featurizer ℝ) (row : List ℝ) (pair : Text × Text) : Option ℝ :=
  f.cooc.bind fun v => (v.wordPairs.get pair).bind fun ix => row[f.tfidf.size + ix]?

/-- Different terms have different numbers, and so have different pairs. -/
structure Featurizer.Numbered (f : Featurizer ℝ) : Prop where
  terms : (f.tfidf.vocabulary.map Prod.fst).Nodup
  numbers : (f.tfidf.vocabulary.map Prod.snd).Nodup
  pairs : ∀ v, f.cooc = some v → v.Consistent

/-- The two featurizers treat sentences in the same way; vocabulary, frequencies and pairs may differ. -/
structure Featurizer.SameReading (f f' : Featurizer ℝ) : Prop where
  fns : f.tfidf.fns = f'.tfidf.fns
  scope : f.tfidf.scope = f'.tfidf.scope
  clusterer : f.tfidf.clusterer = f'.tfidf.clusterer
  stemmer : f.tfidf.stemmer = f'.tfidf.stemmer
  cooc : (f.cooc = none ∧ f'.cooc = none) ∨
    ∃ v pairs, f.cooc = some v ∧ f'.cooc = some { v with wordPairs := pairs }

/-- A word of the sentence, for the tf-idf features. -/
def Tfidf.Reads {F : Type} (env : FeatEnv) (w : World) (v : Tfidf F) (input : Text) (word : Text) : Prop :=
  ∃ bs cs words, TfidfEntities w v input bs cs ∧ TfidfWords env v input bs cs words ∧ word ∈ words

/-- The text in which the matches of both entity parsers are replaced by their capitalised names (as described by C17). -/
def Cooc.replaced (env : FeatEnv) (v : Cooc) (input : Text) (bs : List BuiltinEntity) (cs : List CustomEntity) : Text :=
  (replaceEntities input (bs.map (fun b => ⟨b.range, env.names.identifier b.kind⟩) ++
    cs.map fun c => ⟨c.range, c.identifier⟩) (fun n => v.fns.upper (v.fns.tokenizeLight n).flatten)).2

/-- A pair of words that co-occur in the sentence. -/
def Cooc.Reads (env : FeatEnv) (w : World) (v : Cooc) (input : Text) (pair : Text × Text) : Prop :=
  ∃ bs cs kept, w.builtin input (some v.scope) 0 = .ok bs ∧ w.custom input none 0 = .ok cs ∧
    RelevantTokens env v (v.fns.tokenizeLight (v.replaced env input bs cs)) kept ∧
    CoOccur v.windowSize v.keepOrder kept pair

open Classical in
/-- The share of the terms in the linear score of a class: the number of occurrences of each word of the sentence times its
frequency times its coefficient, summed over the different words and divided by the norm.  Words without entry count for
nothing (if none has a frequency other than zero the sum is zero, and so is the quotient). -/
noncomputable def termShare (words : List Text) (entry : Text → Option (ℝ × ℝ)) : ℝ :=
  (∑ t ∈ words.toFinset, (words.count t * ((entry t).map Prod.fst).getD 0) * ((entry t).map Prod.snd).getD 0) /
    √(∑ t ∈ words.toFinset, (words.count t * ((entry t).map Prod.fst).getD 0) ^ 2)

end Snips
