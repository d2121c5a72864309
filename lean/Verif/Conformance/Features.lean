import Verif.Conformance.Support

/-! # Tests of src/slot_filler/{features_utils,features,feature_processor}.rs -/

namespace Snips.Conformance

/-! `test_get_word_chunk`, `test_get_word_chunk_reversed`, `test_get_word_chunk_out_of_bound`,
`test_initial_string_from_tokens` (src/slot_filler/features_utils.rs:47-108) -/

example : getWordChunk (s "hello_world") 6 5 false = some (s "_world") := by decide +kernel
example : getWordChunk (s "hello_world") 8 8 true = some (s "hello_wo") := by decide +kernel
example : getWordChunk (s "hello_world") 4 8 false = none := by decide +kernel
example : initialStringFromTokens [⟨s "hello", ⟨0, 5⟩, ⟨0, 5⟩⟩, ⟨s "world", ⟨9, 14⟩, ⟨9, 14⟩⟩,
    ⟨s "!!!", ⟨17, 20⟩, ⟨17, 20⟩⟩] = .ok (s "hello    world   !!!") := by decide +kernel

/-- `HashMapStemmer::from_iter`. -/
def stems (table : List (Text × Text)) (w : Text) : Text := (table.lookup w).getD w

/-- The values of a feature at the first `n` positions. -/
def values (f : Feature) (w : World) (toks : List Token) (n : Nat) : List (Outcome (Option Text)) :=
  (List.range n).map fun i => (f.compute plainFns toks i).run w

/-! `test_transform_tokens` (src/slot_filler/features.rs:505-526) -/

example : transformTokens plainFns (some (stems [(s "root_suffix", s "root"), (s "inflection", s "original_word")]))
    [⟨s "fo", ⟨0, 2⟩, ⟨0, 2⟩⟩, ⟨s "£", ⟨2, 4⟩, ⟨2, 3⟩⟩, ⟨s "root_suffix", ⟨5, 16⟩, ⟨4, 15⟩⟩,
      ⟨s "inflection", ⟨17, 27⟩, ⟨16, 26⟩⟩, ⟨s "bar", ⟨28, 31⟩, ⟨27, 30⟩⟩] =
    [⟨s "fo", ⟨0, 2⟩, ⟨0, 2⟩⟩, ⟨s "£", ⟨3, 5⟩, ⟨3, 4⟩⟩, ⟨s "root", ⟨6, 10⟩, ⟨5, 9⟩⟩,
      ⟨s "original_word", ⟨11, 24⟩, ⟨10, 23⟩⟩, ⟨s "bar", ⟨25, 28⟩, ⟨24, 27⟩⟩] := by decide +kernel

/-! `test_is_digit_feature` … `test_word_cluster_feature` (src/slot_filler/features.rs:528-856) -/

example : values .isDigit noEntities (words (s "e3 abc 42 5r")) 4 =
    [.ok none, .ok none, .ok (some (s "1")), .ok none] := by decide +kernel

example : values .length noEntities (words (s "hello world helloworld")) 3 =
    [.ok (some (s "5")), .ok (some (s "5")), .ok (some (s "10"))] := by decide +kernel

example : values (.pfx 6) noEntities (words (s "hello_world foo_bar")) 2 =
    [.ok (some (s "hello_")), .ok (some (s "foo_ba"))] := by decide +kernel

example : values (.sfx 6) noEntities (words (s "hello_world foo_bar")) 2 =
    [.ok (some (s "_world")), .ok (some (s "oo_bar"))] := by decide +kernel

-- the tokenizer makes three tokens of "!!!"
example : values (.shapeNgram 2) noEntities (words (s "Hello BEAUTIFUL world ! ! !")) 6 =
    [.ok (some (s "Xxx XXX")), .ok (some (s "XXX xxx")), .ok (some (s "xxx xX")), .ok (some (s "xX xX")),
      .ok (some (s "xX xX")), .ok none] := by decide +kernel

example : values (.ngram 2 none none) noEntities (words (s "I love House Music")) 4 =
    [.ok (some (s "i love")), .ok (some (s "love house")), .ok (some (s "house music")), .ok none] := by
  decide +kernel

example : values (.ngram 2 (some fun w => [s "i", s "love", s "music"].contains w) none) noEntities
    (words (s "I love House Music")) 4 =
    [.ok (some (s "i love")), .ok (some (s "love rare_word")), .ok (some (s "rare_word music")), .ok none] := by
  decide +kernel

example : values (.ngram 2 none (some (stems [(s "house", s "hous")]))) noEntities
    (words (s "I love House Music")) 4 =
    [.ok (some (s "i love")), .ok (some (s "love hous")), .ok (some (s "hous music")), .ok none] := by
  decide +kernel

example : values (.entityMatch (s "bird_type") .bilou none)
    (mockedCustom [(s "i love this beautiful blue bird !",
      [⟨s "beautiful blue bird", s "beautiful blue bird", [], ⟨12, 31⟩, s "bird_type"⟩])])
    (words (s "I love this beautiful blue Bird !")) 6 =
    [.ok none, .ok none, .ok none, .ok (some (s "B-")), .ok (some (s "I-")), .ok (some (s "L-"))] := by
  decide +kernel

example : values (.entityMatch (s "bird_type") .bilou (some (stems [(s "birds", s "bird")])))
    (mockedCustom [(s "i love blue bird !", [⟨s "blue bird", s "blue bird", [], ⟨7, 16⟩, s "bird_type"⟩])])
    (words (s "I love Blue Birds !")) 5 =
    [.ok none, .ok none, .ok (some (s "B-")), .ok (some (s "L-")), .ok none] := by decide +kernel

example : values (.builtinEntityMatch 1 (s "snips/datetime") .bilou)
    (mockedBuiltin [(s "Please raise to twenty one degrees ok ?",
      [⟨s "twenty one degrees", ⟨16, 34⟩, .builtin 21, [], 2⟩])])
    (words (s "Please raise to twenty one degrees ok ?")) 7 =
    [.ok none, .ok none, .ok none, .ok (some (s "B-")), .ok (some (s "I-")), .ok (some (s "L-")), .ok none] := by
  decide +kernel

example : values (.wordCluster (s "test_clusters") (fun w => [(s "bird", s "42")].lookup w)) noEntities
    (words (s "I love this bird")) 4 = [.ok none, .ok none, .ok none, .ok (some (s "42"))] := by decide +kernel

/-! `test_compute_features`, `test_offset` (src/slot_filler/feature_processor.rs:118-201) -/

example : (computeFeatures plainFns [⟨.isDigit, [0]⟩, ⟨.length, [0]⟩] (words (s "I prefer 7 over 777"))).run
    noEntities = .ok [[(s "length", s "1")], [(s "length", s "6")], [(s "is_digit", s "1"), (s "length", s "1")],
      [(s "length", s "4")], [(s "is_digit", s "1"), (s "length", s "3")]] := by decide +kernel

example : (computeFeatures plainFns [⟨.isDigit, [-2, 0, 3]⟩, ⟨.length, [-1, 1]⟩]
    (words (s "I prefer 7 over 777"))).run noEntities = .ok [
      [(s "length[+1]", s "6")],
      [(s "is_digit[+3]", s "1"), (s "length[-1]", s "1"), (s "length[+1]", s "1")],
      [(s "is_digit", s "1"), (s "length[-1]", s "6"), (s "length[+1]", s "4")],
      [(s "length[-1]", s "1"), (s "length[+1]", s "3")],
      [(s "is_digit[-2]", s "1"), (s "is_digit", s "1"), (s "length[-1]", s "4")]] := by decide +kernel

end Snips.Conformance
