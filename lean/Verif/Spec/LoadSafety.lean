import Verif.Spec.Layout
import Verif.Spec.Readers

/-! Model files that do not make the loading code panic. -/

namespace Snips

/-- The libraries answer with a value or an error, whatever they are given. -/
structure LoadEnv.NoPanic (env : LoadEnv) : Prop where
  tagger : ∀ b, env.tagger b ≠ .panic
  language : ∀ t, env.language t ≠ .panic
  regex : ∀ t, env.regex t ≠ .panic
  builtinParser : ∀ fs, env.builtinParser fs ≠ .panic
  gazetteerParser : ∀ fs, env.gazetteerParser fs ≠ .panic

/-- Every class has at least as many coefficients as the first one. -/
def Complete (m : ClassifierJson) : Prop :=
  ∀ intercept coeffs, m.intercept = some intercept → m.coeffs = some coeffs →
    ∃ first, coeffs[0]? = some first ∧
      ∀ j < intercept.length, ∃ row, coeffs[j]? = some row ∧ first.length ≤ row.length

/-- The tables of a disk are complete: coefficients of the classifiers, and in the files of word clusters a
cluster after the first word. -/
structure TablesComplete (env : LoadEnv) (fs : Fs) : Prop where
  coefficients : ∀ dir m, FileHas fs (dir ++ ["intent_classifier.json".toList]) env.classifier m → Complete m
  clusters : ∀ dir m, FileHas fs (dir ++ ["metadata.json".toList]) env.resources m →
    ∀ name ∈ m.wordClusters.getD [],
      ∀ bytes, FileAt fs (pathWithTxt (joinPath (dir ++ ["word_clusters".toList]) name)) bytes →
        ¬ BareWord bytes

end Snips
