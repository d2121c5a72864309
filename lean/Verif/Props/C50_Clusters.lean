import Verif.Proofs.Resources

/-! # C50, C51: word clusters, gazetteers, stemmers -/

namespace Snips

/-- **C50** (partial).  When the cluster names of a file are plain (no number, or a number in its usual
notation), loading succeeds and the cluster of a word is, literally, that of the last record whose word has
the same hash; there is none if there is no such record.  Missing: names such as `007` or `+7`, see
`c50_storage` and `c50_notation_counterexample`. -/
theorem c50_lookup_partial (hash : Text → Int) (o : HashOrd) {records : List (Outcome (List Text))}
    {entries : List (Text × Text)} (hf : ClusterFile records entries)
    (hplain : ∀ e ∈ entries, PlainName e.2) :
    ∃ w, WordClusterer.fromReader hash o records = .ok w ∧ ∀ word,
      (∀ pre e, LastAt (fun e : Text × Text => hash e.1) entries (hash word) pre e →
        w.getCluster hash word = some e.2) ∧
      ((∀ e ∈ entries, hash e.1 ≠ hash word) → w.getCluster hash word = none) := by
  obtain ⟨w, hw, hs⟩ := loadNumeric_spec hash o hf [] (by simp [Map.keys])
  refine ⟨w, hw, fun word => ?_⟩
  rw [WordClusterer.getCluster_eq]
  obtain ⟨h1, h2⟩ := hs (hash word)
  refine ⟨fun pre e hl => ?_, fun h => by rw [h2 h]; rfl⟩
  rw [h1 pre e hl]
  have hmem : e ∈ entries := by obtain ⟨post, he, _⟩ := hl; rw [he]; simp
  have hst : storedName pre e = e.2 := by
    unfold storedName
    split
    · cases hp : parseU16 e.2 with
      | none => rfl
      | some n => exact (hplain e hmem n ((parseU16_some _ _).1 hp)).symm
    · rfl
  rw [hst]

/-- **C50**, for all names.  The name returned is the recorded one if the record or an earlier one is no
16 bit number, and otherwise the usual notation of the number. -/
theorem c50_storage (hash : Text → Int) (o : HashOrd) {records : List (Outcome (List Text))}
    {entries : List (Text × Text)} (hf : ClusterFile records entries) :
    ∃ w, WordClusterer.fromReader hash o records = .ok w ∧ ∀ word,
      (∀ pre e, LastAt (fun e : Text × Text => hash e.1) entries (hash word) pre e →
        ((∃ x ∈ pre ++ [e], ∀ n, ¬ DenotesU16 x.2 n) → w.getCluster hash word = some e.2) ∧
        ((∀ x ∈ pre ++ [e], ∃ n, DenotesU16 x.2 n) → ∀ n, DenotesU16 e.2 n →
          w.getCluster hash word = some (toString n).toList)) ∧
      ((∀ e ∈ entries, hash e.1 ≠ hash word) → w.getCluster hash word = none) := by
  obtain ⟨w, hw, hs⟩ := loadNumeric_spec hash o hf [] (by simp [Map.keys])
  refine ⟨w, hw, fun word => ?_⟩
  rw [WordClusterer.getCluster_eq]
  obtain ⟨h1, h2⟩ := hs (hash word)
  refine ⟨fun pre e hl => ?_, fun h => by rw [h2 h]; rfl⟩
  rw [h1 pre e hl]
  refine ⟨?_, ?_⟩
  · rintro ⟨x, hx, hno⟩
    unfold storedName
    rw [if_neg]
    intro hall
    obtain ⟨n, hn⟩ := Option.isSome_iff_exists.1 (hall x hx)
    exact hno n ((parseU16_some _ _).1 hn)
  · intro hall n hn
    unfold storedName
    rw [if_pos]
    · rw [(parseU16_some _ _).2 hn]; rfl
    · intro x hx
      obtain ⟨n, hn⟩ := hall x hx
      rw [(parseU16_some _ _).2 hn]; rfl

/-- The same two records give different answers in the two orders: `007` is returned as `7` when it comes
before the first textual cluster. -/
theorem c50_notation_counterexample :
    ∃ (hash : Text → Int) (o : HashOrd) (a b : List Text) (w w' : WordClusterer),
      WordClusterer.fromReader hash o [.ok a, .ok b] = .ok w ∧
      WordClusterer.fromReader hash o [.ok b, .ok a] = .ok w' ∧
      w.getCluster hash ['x'] = some ['7'] ∧ w'.getCluster hash ['x'] = some ['0', '0', '7'] := by
  refine ⟨fun t => t.length, HashOrd.insertion, [['x'], ['0', '0', '7']], [['y', 'y'], ['c']], _, _, rfl, rfl, ?_, ?_⟩
  · decide
  · decide

theorem loadTextual_malformed (hash : Text → Int) {records : List (Outcome (List Text))}
    {entries : List (Text × Text)} (hf : ClusterFile records entries) (rest : List (Outcome (List Text)))
    (m : Map Int Text) :
    (∀ word, WordClusterer.loadTextual hash (records ++ .ok [word] :: rest) m = .panic) ∧
    (∀ e, WordClusterer.loadTextual hash (records ++ .err e :: rest) m = .err e) := by
  unfold ClusterFile at hf
  induction hf generalizing m with
  | nil => exact ⟨fun _ => rfl, fun _ => rfl⟩
  | cons hr _ ih =>
    rename_i r x rs es _
    obtain ⟨more, rfl⟩ := hr
    exact ih (m.insert (hash x.1) x.2)

/-- A record without cluster makes the loader panic (the `csv` reader only rejects records whose number of
fields differs from the first one), and a reading error is reported. -/
theorem c50_malformed (hash : Text → Int) (o : HashOrd) {records : List (Outcome (List Text))}
    {entries : List (Text × Text)} (hf : ClusterFile records entries) (rest : List (Outcome (List Text))) :
    (∀ word, WordClusterer.fromReader hash o (records ++ .ok [word] :: rest) = .panic) ∧
    (∀ e, WordClusterer.fromReader hash o (records ++ .err e :: rest) = .err e) := by
  have numeric : ∀ (m : Map Int Nat),
      (∀ word, WordClusterer.loadNumeric hash o (records ++ .ok [word] :: rest) m = .panic) ∧
      (∀ e, WordClusterer.loadNumeric hash o (records ++ .err e :: rest) m = .err e) := by
    unfold ClusterFile at hf
    induction hf with
    | nil => intro m; exact ⟨fun _ => rfl, fun _ => rfl⟩
    | cons hr hrest ih =>
      rename_i r x rs es
      obtain ⟨more, rfl⟩ := hr
      intro m
      have unfoldStep : ∀ tail, WordClusterer.loadNumeric hash o (.ok (x.1 :: x.2 :: more) :: tail) m =
          match parseU16 x.2 with
          | some n => WordClusterer.loadNumeric hash o tail (m.insert (hash x.1) n)
          | none => WordClusterer.loadTextual hash tail
              ((WordClusterer.toTextual o m).insert (hash x.1) x.2) := fun _ => rfl
      simp only [List.cons_append, unfoldStep]
      cases parseU16 x.2 with
      | some n => exact ih _
      | none => exact loadTextual_malformed hash hrest rest _
  exact numeric []

example : ClusterFile [.ok ["dog".toList, "animal".toList], .ok ["cat".toList, "12".toList, "x".toList]]
    [("dog".toList, "animal".toList), ("cat".toList, "12".toList)] :=
  .cons ⟨_, rfl⟩ (.cons ⟨_, rfl⟩ .nil)

/-- `animal` and `12` are plain names, `007` is not. -/
example : PlainName "animal".toList ∧ PlainName "12".toList ∧ ¬ PlainName "007".toList := by
  refine ⟨fun n h => ?_, fun n h => ?_, fun h => ?_⟩
  · rw [← parseU16_some] at h; cases h
  · rw [← parseU16_some] at h; cases h; rfl
  · have := h 7 ((parseU16_some _ _).1 (by decide)); revert this; decide

/-- The last record for a hash wins. -/
example : LastAt (fun e : Text × Text => (e.1.length : Int))
    [(['a'], ['1']), (['b'], ['2']), (['c', 'c'], ['3'])] 1 [(['a'], ['1'])] (['b'], ['2']) :=
  ⟨[(['c', 'c'], ['3'])], rfl, rfl, by simp⟩

/-- **C51**, gazetteers.  For a file whose lines can be read, exactly the values colliding with a listed
(non empty) word are reported as contained; in particular all the listed words. -/
theorem c51_gazetteer (hash : Text → Int) (words : List Text) :
    ∃ g, Gazetteer.fromReader hash (words.map .ok) = .ok g ∧
      (∀ w ∈ words, w ≠ [] → g.contains hash w = true) ∧
      (∀ v, g.contains hash v = true ↔ ∃ w ∈ words, w ≠ [] ∧ hash w = hash v) := by
  obtain ⟨g, hg, hs⟩ := Gazetteer.load_spec hash words []
  have key : ∀ v, g.contains hash v = true ↔ ∃ w ∈ words, w ≠ [] ∧ hash w = hash v := by
    intro v
    unfold Gazetteer.contains
    rw [List.contains_iff_mem, hs]
    simp
  exact ⟨g, hg, fun w hw hne => (key w).2 ⟨w, hw, hne, rfl⟩, key⟩

/-- A reading error is reported. -/
theorem c51_gazetteer_error (hash : Text → Int) (words : List Text) (e : Err) (rest : List (Outcome Text)) :
    Gazetteer.fromReader hash (words.map .ok ++ .err e :: rest) = .err e := by
  unfold Gazetteer.fromReader
  generalize ([] : List Int) = values
  induction words generalizing values with
  | nil => rfl
  | cons w ws ih =>
    simp only [List.map_cons, List.cons_append, Gazetteer.load]
    change (if w = [] then _ else _) = _
    split <;> exact ih _

/-- **C51**, stemmers.  The stem of a word is that of the last line whose word has the same hash as the
normalised form of the word, and the word itself when there is none. -/
theorem c51_stemmer (fns : TextFns) {records : List (Outcome (List Text))}
    {entries : List (Text × List Text)} (hf : StemFile records entries) :
    ∃ s, Stemmer.fromReader fns.hashStr records = .ok s ∧ ∀ word,
      (∀ pre line, LastAt (fun l : Text × Text => fns.hashStr l.1) (stemLines entries)
          (fns.hashStr (fns.normalize word)) pre line → s.stem fns word = line.2) ∧
      ((∀ line ∈ stemLines entries, fns.hashStr line.1 ≠ fns.hashStr (fns.normalize word)) →
        s.stem fns word = word) := by
  refine ⟨_, Stemmer.load_spec fns.hashStr hf [], fun word => ?_⟩
  obtain ⟨h1, h2⟩ := get_foldl_insert (fun l : Text × Text => fns.hashStr l.1) (fun l => l.2)
    (stemLines entries) [] (fns.hashStr (fns.normalize word))
  refine ⟨fun pre line hl => ?_, fun h => ?_⟩
  · unfold Stemmer.stem
    rw [h1 pre line hl]
  · unfold Stemmer.stem
    rw [h2 h]
    rfl

/-- Without hash collisions between the listed words, a listed word (in normalised form) that occurs once is
stemmed to the stem of its record. -/
theorem c51_stemmer_listed (fns : TextFns) {records : List (Outcome (List Text))}
    {entries : List (Text × List Text)} (hf : StemFile records entries) {word stem : Text} {words : List Text}
    (he : (stem, words) ∈ entries) (hw : word ∈ words) (hnorm : fns.normalize word = word)
    (honce : ∀ l ∈ stemLines entries, fns.hashStr l.1 = fns.hashStr word → l = (word, stem)) :
    ∃ s, Stemmer.fromReader fns.hashStr records = .ok s ∧ s.stem fns word = stem := by
  obtain ⟨s, hs, h⟩ := c51_stemmer fns hf
  refine ⟨s, hs, ?_⟩
  obtain ⟨h1, _⟩ := h word
  rw [hnorm] at h1
  rcases exists_lastAt (fun l : Text × Text => fns.hashStr l.1) (stemLines entries) (fns.hashStr word) with
    ⟨pre, line, hl⟩ | hno
  · rw [h1 pre line hl]
    obtain ⟨post, e, hk, _⟩ := hl
    rw [honce line (by rw [e]; simp) hk]
  · refine absurd rfl (hno (word, stem) ?_)
    unfold stemLines
    rw [List.mem_flatMap]
    exact ⟨_, he, List.mem_map.2 ⟨word, hw, rfl⟩⟩

/-- A stem file with two records; `does` has a single line. -/
example : StemFile [.ok ["do".toList, "does".toList, "did".toList], .ok ["go".toList, "went".toList]]
      [("do".toList, ["does".toList, "did".toList]), ("go".toList, ["went".toList])] ∧
    stemLines [("do".toList, ["does".toList, "did".toList]), ("go".toList, ["went".toList])] =
      [("does".toList, "do".toList), ("did".toList, "do".toList), ("went".toList, "go".toList)] :=
  ⟨.cons rfl (.cons rfl .nil), rfl⟩

end Snips
