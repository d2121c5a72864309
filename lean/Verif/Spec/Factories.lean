import Verif.Model.FeatureFactory

/-! What the configuration of the features of a slot filler means. -/

namespace Snips

/-- The argument is a natural number. -/
def ArgNat (args : Map Text Json) (name : String) (n : Nat) : Prop := args.get name.toList = some (.int n)

/-- The argument is a Boolean. -/
def ArgBool (args : Map Text Json) (name : String) (b : Bool) : Prop := args.get name.toList = some (.bool b)

/-- The argument is a text. -/
def ArgText (args : Map Text Json) (name : String) (t : Text) : Prop := args.get name.toList = some (.str t)

/-- The argument is an array of texts. -/
def ArgTexts (args : Map Text Json) (name : String) (l : List Text) : Prop :=
  args.get name.toList = some (.arr (l.map .str))

/-- The codes of the tagging schemes: 0 is IO, 1 is BIO, 2 is BILOU. -/
def SchemeCode (code : Nat) (s : Scheme) : Prop :=
  (code = 0 ∧ s = .io) ∨ (code = 1 ∧ s = .bio) ∨ (code = 2 ∧ s = .bilou)

/-- The stemming asked for by `use_stemming`: none, or that of the stemmer of the resources, which must be
there. -/
def StemmingArg (fns : TextFns) (r : Resources) (args : Map Text Json) (s : Option (Text → Text)) : Prop :=
  (ArgBool args "use_stemming" false ∧ s = none) ∨
  (ArgBool args "use_stemming" true ∧ ∃ st, r.stemmer = some st ∧ s = some (st.stem fns))

/-- The common words asked for by `common_words_gazetteer_name`: none (the argument is there but is not a
text), or those of the gazetteer of that name, which must be there. -/
def CommonWordsArg (fns : TextFns) (r : Resources) (args : Map Text Json) (g : Option (Text → Bool)) : Prop :=
  (∃ v, args.get "common_words_gazetteer_name".toList = some v ∧ (∀ t, v ≠ .str t) ∧ g = none) ∨
  (∃ name gaz, ArgText args "common_words_gazetteer_name" name ∧ r.gazetteers.get name = some gaz ∧
    g = some (gaz.contains fns.hashStr))

/-- The features a factory of a given name builds from its arguments. -/
inductive Configured (fns : TextFns) (names : KindNames) (r : Resources) (args : Map Text Json) :
    String → List Feature → Prop
  | isDigit : Configured fns names r args "is_digit" [.isDigit]
  | length : Configured fns names r args "length" [.length]
  | isFirst : Configured fns names r args "is_first" [.isFirst]
  | isLast : Configured fns names r args "is_last" [.isLast]
  | ngram (n g s) (hn : ArgNat args "n" n) (hg : CommonWordsArg fns r args g) (hs : StemmingArg fns r args s) :
      Configured fns names r args "ngram" [.ngram n g s]
  | shapeNgram (n) (hn : ArgNat args "n" n) : Configured fns names r args "shape_ngram" [.shapeNgram n]
  | pfx (n) (hn : ArgNat args "prefix_size" n) : Configured fns names r args "prefix" [.pfx n]
  | sfx (n) (hn : ArgNat args "suffix_size" n) : Configured fns names r args "suffix" [.sfx n]
  | entityMatch (entities code sch s) (he : ArgTexts args "entities" entities)
      (hc : ArgNat args "tagging_scheme_code" code) (hsch : SchemeCode (code % 256) sch)
      (hs : StemmingArg fns r args s) :
      Configured fns names r args "entity_match" (entities.map fun e => .entityMatch e sch s)
  | builtinEntityMatch (labels kinds code sch) (he : ArgTexts args "entity_labels" labels)
      (hc : ArgNat args "tagging_scheme_code" code) (hsch : SchemeCode (code % 256) sch)
      (hk : List.Forall₂ (fun label kind => names.fromIdentifier label = some kind) labels kinds) :
      Configured fns names r args "builtin_entity_match"
        (kinds.map fun k => .builtinEntityMatch k (names.identifier k) sch)
  | wordCluster (name c) (hn : ArgText args "cluster_name" name) (hc : r.wordClusterers.get name = some c) :
      Configured fns names r args "word_cluster" [.wordCluster name (c.getCluster fns.hashStr)]

end Snips
