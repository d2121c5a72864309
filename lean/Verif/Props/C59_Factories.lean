import Verif.Spec.Factories
import Verif.Proofs.Safety

/-! # C59: the features of a slot filler are those of its configuration -/

namespace Snips

theorem ofOption_ok_iff {α : Type} {e : Err} {x : Option α} {a : α} : Outcome.ofOption e x = .ok a ↔ x = some a := by
  cases x <;> simp [Outcome.ofOption]

theorem getArg_ok {args : Map Text Json} {name : Text} {v : Json} :
    getArg args name = .ok v ↔ args.get name = some v := ofOption_ok_iff

theorem parseAsU64_ok {args : Map Text Json} {name : String} {n : Nat} :
    parseAsU64 args name.toList = .ok n ↔ ArgNat args name n := by
  unfold parseAsU64 ArgNat
  simp only [Outcome.bind_eq, Outcome.bind_ok, getArg_ok, ofOption_ok_iff]
  constructor
  · rintro ⟨v, h, hv⟩
    cases v with
    | int i =>
      simp only [Json.asU64] at hv
      split at hv
      · injection hv with hv
        rw [h, ← hv]
        congr 2
        omega
      · cases hv
    | _ => cases hv
  · intro h
    exact ⟨_, h, by simp [Json.asU64]⟩

theorem parseAsBool_ok {args : Map Text Json} {name : String} {b : Bool} :
    parseAsBool args name.toList = .ok b ↔ ArgBool args name b := by
  unfold parseAsBool ArgBool
  simp only [Outcome.bind_eq, Outcome.bind_ok, getArg_ok, ofOption_ok_iff]
  constructor
  · rintro ⟨v, h, hv⟩
    cases v <;> simp [Json.asBool] at hv
    rw [h, hv]
  · intro h
    exact ⟨_, h, rfl⟩

theorem parseAsString_ok {args : Map Text Json} {name : String} {t : Text} :
    parseAsString args name.toList = .ok t ↔ ArgText args name t := by
  unfold parseAsString ArgText
  simp only [Outcome.bind_eq, Outcome.bind_ok, getArg_ok, ofOption_ok_iff]
  constructor
  · rintro ⟨v, h, hv⟩
    cases v <;> simp [Json.asStr] at hv
    rw [h, hv]
  · intro h
    exact ⟨_, h, rfl⟩

theorem texts_ok {l : List Json} {ts : List Text} :
    mapOutcome (fun x : Json => Outcome.ofOption (.site 31) x.asStr) l = .ok ts ↔ l = ts.map .str := by
  rw [mapOutcome_ok_iff]
  constructor
  · intro h
    induction h with
    | nil => rfl
    | @cons a b _ _ hab _ ih =>
      rw [ofOption_ok_iff] at hab
      cases a <;> simp [Json.asStr] at hab
      rw [ih, hab]; rfl
  · rintro rfl
    induction ts with
    | nil => exact .nil
    | cons t ts ih => exact .cons rfl ih

theorem parseAsVecString_ok {args : Map Text Json} {name : String} {ts : List Text} :
    parseAsVecString args name.toList = .ok ts ↔ ArgTexts args name ts := by
  unfold parseAsVecString ArgTexts
  simp only [Outcome.bind_eq, Outcome.bind_ok, getArg_ok, ofOption_ok_iff, texts_ok]
  constructor
  · rintro ⟨v, h, l, hv, rfl⟩
    cases v <;> simp [Json.asArray] at hv
    rw [h, hv]
  · intro h
    exact ⟨_, h, _, rfl, rfl⟩

theorem pickStemmer_ok {fns : TextFns} {r : Resources} {args : Map Text Json} {s : Option (Text → Text)} :
    (∃ b, ArgBool args "use_stemming" b ∧ pickStemmer fns r b = .ok s) ↔ StemmingArg fns r args s := by
  unfold StemmingArg
  constructor
  · rintro ⟨b, hb, h⟩
    cases b with
    | false =>
      refine Or.inl ⟨hb, ?_⟩
      cases h; rfl
    | true =>
      refine Or.inr ⟨hb, ?_⟩
      unfold pickStemmer at h
      simp only [if_true, Outcome.bind_eq, Outcome.bind_ok, ofOption_ok_iff] at h
      obtain ⟨st, h1, h2⟩ := h
      exact ⟨st, h1, by cases h2; rfl⟩
  · rintro (⟨h, rfl⟩ | ⟨h, st, h1, rfl⟩)
    · exact ⟨_, h, rfl⟩
    · refine ⟨_, h, ?_⟩
      unfold pickStemmer
      rw [h1]; rfl

theorem pickGazetteer_ok {fns : TextFns} {r : Resources} {args : Map Text Json} {g : Option (Text → Bool)} :
    (∃ name, parseAsOptString args "common_words_gazetteer_name".toList = .ok name ∧ pickGazetteer fns r name = .ok g)
      ↔ CommonWordsArg fns r args g := by
  unfold CommonWordsArg parseAsOptString
  simp only [Outcome.bind_eq, Outcome.bind_ok, getArg_ok]
  constructor
  · rintro ⟨name, ⟨v, hv, hn⟩, hg⟩
    simp only [Outcome.ok.injEq] at hn
    subst hn
    cases v with
    | str t =>
      refine Or.inr ⟨t, ?_⟩
      simp only [Json.asStr, pickGazetteer, Outcome.bind_eq, Outcome.bind_ok, ofOption_ok_iff] at hg
      obtain ⟨gaz, h1, h2⟩ := hg
      exact ⟨gaz, hv, h1, by cases h2; rfl⟩
    | _ =>
      refine Or.inl ⟨_, hv, by simp, ?_⟩
      simp only [Json.asStr, pickGazetteer, Outcome.ok.injEq] at hg
      exact hg.symm
  · rintro (⟨v, hv, hne, rfl⟩ | ⟨name, gaz, hv, hg, rfl⟩)
    · refine ⟨none, ⟨v, hv, ?_⟩, rfl⟩
      cases v with
      | str t => exact absurd rfl (hne t)
      | _ => rfl
    · refine ⟨some name, ⟨_, hv, rfl⟩, ?_⟩
      simp only [pickGazetteer, hg]; rfl

/-- The codes of the tagging schemes; every other code is refused. -/
theorem c59_scheme (code : Nat) :
    (∀ s, Scheme.fromU8 code = .ok s ↔ SchemeCode code s) ∧
    ((∀ s, ¬ SchemeCode code s) → ∃ e, Scheme.fromU8 code = .err e) := by
  unfold SchemeCode
  match code with
  | 0 => exact ⟨fun s => by simp [Scheme.fromU8, eq_comm], fun h => absurd (Or.inl ⟨rfl, rfl⟩) (h .io)⟩
  | 1 => exact ⟨fun s => by simp [Scheme.fromU8, eq_comm], fun h => absurd (Or.inr (Or.inl ⟨rfl, rfl⟩)) (h .bio)⟩
  | 2 => exact ⟨fun s => by simp [Scheme.fromU8, eq_comm], fun h => absurd (Or.inr (Or.inr ⟨rfl, rfl⟩)) (h .bilou)⟩
  | n + 3 => exact ⟨fun s => by simp [Scheme.fromU8], fun _ => ⟨_, rfl⟩⟩

theorem kinds_ok {names : KindNames} {sch : Scheme} {labels : List Text} {fs : List Feature} :
    mapOutcome (fun label => do
      let kind ← names.fromIdentifierOrErr label
      .ok (Feature.builtinEntityMatch kind (names.identifier kind) sch)) labels = .ok fs
    ↔ ∃ kinds, List.Forall₂ (fun label kind => names.fromIdentifier label = some kind) labels kinds ∧
        fs = kinds.map fun k => .builtinEntityMatch k (names.identifier k) sch := by
  rw [mapOutcome_ok_iff]
  constructor
  · intro h
    induction h with
    | nil => exact ⟨[], .nil, rfl⟩
    | cons hab _ ih =>
      obtain ⟨kinds, h1, rfl⟩ := ih
      simp only [Outcome.bind_eq, Outcome.bind_ok, KindNames.fromIdentifierOrErr, ofOption_ok_iff,
        Outcome.ok.injEq] at hab
      obtain ⟨k, hk, rfl⟩ := hab
      exact ⟨k :: kinds, .cons hk h1, rfl⟩
  · rintro ⟨kinds, h, rfl⟩
    induction h with
    | nil => exact .nil
    | cons hab _ ih =>
      refine .cons ?_ ih
      simp only [Outcome.bind_eq, Outcome.bind_ok, KindNames.fromIdentifierOrErr, ofOption_ok_iff, Outcome.ok.injEq]
      exact ⟨_, hab, rfl⟩

/-- A factory builds exactly the features its name and arguments describe; in particular a missing or ill-typed
argument, a missing resource, or an unknown builtin entity or tagging scheme gives no features. -/
theorem c59_features (fns : TextFns) (names : KindNames) (r : Resources) (name : String) (args : Map Text Json)
    (fs : List Feature) :
    buildFeatures fns names r name.toList args = .ok fs ↔ Configured fns names r args name fs := by
  constructor
  · have inj : ∀ s : String, name.toList = s.toList ↔ name = s := fun s => String.toList_inj
    unfold buildFeatures
    simp only [inj]
    split
    · subst name
      intro h; cases h; exact .isDigit
    split
    · subst name
      intro h; cases h; exact .length
    split
    · subst name
      intro h; cases h; exact .isFirst
    split
    · subst name
      intro h; cases h; exact .isLast
    split
    · subst name
      unfold buildNgram
      simp only [Outcome.bind_eq, Outcome.bind_ok, parseAsU64_ok, parseAsBool_ok]
      rintro ⟨n, hn, gn, hgn, g, hg, use, huse, s, hs, h⟩
      cases h
      exact .ngram n g s hn (pickGazetteer_ok.1 ⟨_, hgn, hg⟩) (pickStemmer_ok.1 ⟨_, huse, hs⟩)
    split
    · subst name
      unfold buildSized
      simp only [Outcome.bind_eq, Outcome.bind_ok, parseAsU64_ok]
      rintro ⟨n, hn, h⟩
      cases h
      exact .shapeNgram n hn
    split
    · subst name
      unfold buildSized
      simp only [Outcome.bind_eq, Outcome.bind_ok, parseAsU64_ok]
      rintro ⟨n, hn, h⟩
      cases h
      exact .pfx n hn
    split
    · subst name
      unfold buildSized
      simp only [Outcome.bind_eq, Outcome.bind_ok, parseAsU64_ok]
      rintro ⟨n, hn, h⟩
      cases h
      exact .sfx n hn
    split
    · subst name
      unfold buildEntityMatch schemeOfCode
      simp only [Outcome.bind_eq, Outcome.bind_ok, parseAsU64_ok, parseAsBool_ok, parseAsVecString_ok,
        (c59_scheme _).1]
      rintro ⟨es, he, code, hc, sch, hsch, use, huse, s, hs, h⟩
      cases h
      exact .entityMatch es code sch s he hc hsch (pickStemmer_ok.1 ⟨_, huse, hs⟩)
    split
    · subst name
      unfold buildBuiltinEntityMatch schemeOfCode
      simp only [Outcome.bind_eq, Outcome.bind_ok, parseAsU64_ok, parseAsVecString_ok, (c59_scheme _).1]
      rintro ⟨labels, he, code, hc, sch, hsch, h⟩
      obtain ⟨kinds, hk, rfl⟩ := kinds_ok.1 (by simpa only [Outcome.bind_eq] using h)
      exact .builtinEntityMatch labels kinds code sch he hc hsch hk
    split
    · subst name
      unfold buildWordCluster pickClusterer
      simp only [Outcome.bind_eq, Outcome.bind_ok, parseAsString_ok, ofOption_ok_iff]
      rintro ⟨cn, hcn, _, ⟨c, hc, h1⟩, h2⟩
      cases h1
      cases h2
      exact .wordCluster cn c hcn hc
    · intro h; cases h
  · intro h
    cases h with
    | isDigit => rfl
    | length => rfl
    | isFirst => rfl
    | isLast => rfl
    | ngram n g s hn hg hs =>
      obtain ⟨gn, hgn, hg⟩ := pickGazetteer_ok.2 hg
      obtain ⟨use, huse, hs⟩ := pickStemmer_ok.2 hs
      have e : buildFeatures fns names r "ngram".toList args = buildNgram fns r args := rfl
      rw [e]
      unfold buildNgram
      simp only [Outcome.bind_eq, Outcome.bind_ok, parseAsU64_ok, parseAsBool_ok]
      exact ⟨n, hn, gn, hgn, g, hg, use, huse, s, hs, rfl⟩
    | shapeNgram n hn =>
      have e : buildFeatures fns names r "shape_ngram".toList args = buildSized .shapeNgram args "n".toList := rfl
      rw [e]
      unfold buildSized
      simp only [Outcome.bind_eq, Outcome.bind_ok, parseAsU64_ok]
      exact ⟨n, hn, rfl⟩
    | pfx n hn =>
      have e : buildFeatures fns names r "prefix".toList args = buildSized .pfx args "prefix_size".toList := rfl
      rw [e]
      unfold buildSized
      simp only [Outcome.bind_eq, Outcome.bind_ok, parseAsU64_ok]
      exact ⟨n, hn, rfl⟩
    | sfx n hn =>
      have e : buildFeatures fns names r "suffix".toList args = buildSized .sfx args "suffix_size".toList := rfl
      rw [e]
      unfold buildSized
      simp only [Outcome.bind_eq, Outcome.bind_ok, parseAsU64_ok]
      exact ⟨n, hn, rfl⟩
    | entityMatch es code sch s he hc hsch hs =>
      obtain ⟨use, huse, hs⟩ := pickStemmer_ok.2 hs
      have e : buildFeatures fns names r "entity_match".toList args = buildEntityMatch fns r args := rfl
      rw [e]
      unfold buildEntityMatch schemeOfCode
      simp only [Outcome.bind_eq, Outcome.bind_ok, parseAsU64_ok, parseAsBool_ok, parseAsVecString_ok,
        (c59_scheme _).1]
      exact ⟨es, he, code, hc, sch, hsch, use, huse, s, hs, rfl⟩
    | builtinEntityMatch labels kinds code sch he hc hsch hk =>
      have e : buildFeatures fns names r "builtin_entity_match".toList args = buildBuiltinEntityMatch names args := rfl
      rw [e]
      unfold buildBuiltinEntityMatch schemeOfCode
      simp only [Outcome.bind_eq, Outcome.bind_ok, parseAsU64_ok, parseAsVecString_ok, (c59_scheme _).1]
      exact ⟨labels, he, code, hc, sch, hsch, by simpa only [Outcome.bind_eq] using kinds_ok.2 ⟨kinds, hk, rfl⟩⟩
    | wordCluster cn c hcn hc =>
      have e : buildFeatures fns names r "word_cluster".toList args = buildWordCluster fns r args := rfl
      rw [e]
      unfold buildWordCluster pickClusterer
      simp only [Outcome.bind_eq, Outcome.bind_ok, parseAsString_ok, ofOption_ok_iff]
      exact ⟨cn, hcn, _, ⟨c, hc, rfl⟩, rfl⟩

/-- The features of a slot filler are those of its configurations, one after the other in the order of the
configurations, each with the offsets of its own configuration. -/
theorem c59_processor (fns : TextFns) (names : KindNames) (r : Resources) (configs : List FactoryConfig)
    (features : List Offsetter) :
    buildProcessor fns names r configs = .ok features ↔
      ∃ built : List (List Feature),
        List.Forall₂ (fun c fs => Configured fns names r c.args (String.ofList c.factoryName) fs) configs built ∧
        features = (List.zipWith (fun c fs => fs.map fun f => ⟨f, c.offsets⟩) configs built).flatten := by
  have one : ∀ c os, getFeatures fns names r c = .ok os ↔
      ∃ fs, Configured fns names r c.args (String.ofList c.factoryName) fs ∧ os = fs.map fun f => ⟨f, c.offsets⟩ := by
    intro c os
    unfold getFeatures
    simp only [Outcome.bind_eq, Outcome.bind_ok, Outcome.ok.injEq]
    constructor
    · rintro ⟨fs, h, rfl⟩
      exact ⟨fs, (c59_features _ _ _ _ _ _).1 (by rw [String.toList_ofList]; exact h), rfl⟩
    · rintro ⟨fs, h, rfl⟩
      have := (c59_features _ _ _ _ _ _).2 h
      rw [String.toList_ofList] at this
      exact ⟨fs, this, rfl⟩
  unfold buildProcessor
  simp only [Outcome.bind_eq, Outcome.bind_ok, Outcome.ok.injEq, mapOutcome_ok_iff]
  constructor
  · rintro ⟨l, h, rfl⟩
    induction h with
    | nil => exact ⟨[], .nil, rfl⟩
    | cons hab _ ih =>
      obtain ⟨built, h1, h2⟩ := ih
      obtain ⟨fs, hfs, rfl⟩ := (one _ _).1 hab
      exact ⟨fs :: built, .cons hfs h1, by simp [h2]⟩
  · rintro ⟨built, h, rfl⟩
    refine ⟨_, ?_, rfl⟩
    induction h with
    | nil => exact .nil
    | cons hab _ ih => exact .cons ((one _ _).2 ⟨_, hab, rfl⟩) ih

/-- A configuration is never a reason to panic: the outcome is the features or an error. -/
theorem c59_no_panic (fns : TextFns) (names : KindNames) (r : Resources) (configs : List FactoryConfig) :
    buildProcessor fns names r configs ≠ .panic := by
  have hget : ∀ args name, getArg args name ≠ .panic := fun _ _ => ofOption_safe _ _
  have hu : ∀ args name, parseAsU64 args name ≠ .panic := fun _ _ =>
    Outcome.bind_safe (hget _ _) fun _ _ => ofOption_safe _ _
  have hb : ∀ args name, parseAsBool args name ≠ .panic := fun _ _ =>
    Outcome.bind_safe (hget _ _) fun _ _ => ofOption_safe _ _
  have hs : ∀ args name, parseAsString args name ≠ .panic := fun _ _ =>
    Outcome.bind_safe (hget _ _) fun _ _ => ofOption_safe _ _
  have hos : ∀ args name, parseAsOptString args name ≠ .panic := fun _ _ =>
    Outcome.bind_safe (hget _ _) fun _ _ => by simp
  have hv : ∀ args name, parseAsVecString args name ≠ .panic := fun _ _ =>
    Outcome.bind_safe (hget _ _) fun _ _ => Outcome.bind_safe (ofOption_safe _ _) fun _ _ =>
      mapOutcome_safe fun _ _ => ofOption_safe _ _
  have hst : ∀ b, pickStemmer fns r b ≠ .panic := by
    intro b
    unfold pickStemmer
    split
    · exact Outcome.bind_safe (ofOption_safe _ _) fun _ _ => by simp
    · simp
  have hga : ∀ name, pickGazetteer fns r name ≠ .panic := by
    intro name
    cases name with
    | none => simp [pickGazetteer]
    | some n => exact Outcome.bind_safe (ofOption_safe _ _) fun _ _ => by simp
  have hsch : ∀ c, schemeOfCode c ≠ .panic := by
    intro c h
    unfold schemeOfCode at h
    generalize c % 256 = c at h
    match c with
    | 0 => cases h
    | 1 => cases h
    | 2 => cases h
    | n + 3 => cases h
  have hcl : ∀ name, pickClusterer fns r name ≠ .panic := fun _ =>
    Outcome.bind_safe (ofOption_safe _ _) fun _ _ => by simp
  have hsz : ∀ mk args name, buildSized mk args name ≠ .panic := fun _ _ _ =>
    Outcome.bind_safe (hu _ _) fun _ _ => by simp
  refine Outcome.bind_safe (mapOutcome_safe fun c _ => Outcome.bind_safe ?_ fun _ _ => by simp) fun _ _ => by simp
  have ite : ∀ {c : Prop} [Decidable c] {a b : Outcome (List Feature)}, a ≠ .panic → b ≠ .panic →
      (if c then a else b) ≠ .panic := by
    intro c _ a b ha hb
    by_cases h : c
    · rw [if_pos h]; exact ha
    · rw [if_neg h]; exact hb
  have hok : ∀ l : List Feature, Outcome.ok l ≠ .panic := fun _ => by simp
  refine ite (hok _) (ite (hok _) (ite (hok _) (ite (hok _) (ite ?_ (ite (hsz _ _ _) (ite (hsz _ _ _)
    (ite (hsz _ _ _) (ite ?_ (ite ?_ (ite ?_ (by simp)))))))))))
  · exact Outcome.bind_safe (hu _ _) fun _ _ => Outcome.bind_safe (hos _ _) fun _ _ =>
      Outcome.bind_safe (hga _) fun _ _ => Outcome.bind_safe (hb _ _) fun _ _ =>
      Outcome.bind_safe (hst _) fun _ _ => hok _
  · exact Outcome.bind_safe (hv _ _) fun _ _ => Outcome.bind_safe (hu _ _) fun _ _ =>
      Outcome.bind_safe (hsch _) fun _ _ => Outcome.bind_safe (hb _ _) fun _ _ =>
      Outcome.bind_safe (hst _) fun _ _ => hok _
  · exact Outcome.bind_safe (hv _ _) fun _ _ => Outcome.bind_safe (hu _ _) fun _ _ =>
      Outcome.bind_safe (hsch _) fun _ _ => mapOutcome_safe fun _ _ =>
      Outcome.bind_safe (ofOption_safe _ _) fun _ _ => by simp
  · exact Outcome.bind_safe (hs _ _) fun _ _ => Outcome.bind_safe (hcl _) fun _ _ => hok _

/-- The code of the tagging scheme of a feature is cut to its last byte: 256 is taken for 0 (IO), while the
same code is refused for the slot filler itself. -/
theorem c59_code_counterexample (fns : TextFns) (names : KindNames) (r : Resources) :
    buildFeatures fns names r "entity_match".toList
      [("entities".toList, .arr [.str ['e']]), ("tagging_scheme_code".toList, .int 256),
        ("use_stemming".toList, .bool false)] = .ok [.entityMatch ['e'] .io none] ∧
    ∃ e, Scheme.fromU8 256 = .err e := ⟨rfl, _, rfl⟩

/-! Non-vacuity: a configuration with an n-gram feature that uses a gazetteer and a stemmer. -/

/-- Resources with one gazetteer, one word clustering, and a stemmer. -/
def factoryResources : Resources :=
  ⟨[("top".toList, ⟨[1, 2]⟩)], some ⟨[]⟩, [("brown".toList, .numeric [(3, 4)])], []⟩

def factoryArgs : Map Text Json :=
  [("n".toList, .int 2), ("common_words_gazetteer_name".toList, .str "top".toList),
    ("use_stemming".toList, .bool true), ("cluster_name".toList, .str "brown".toList)]

example (fns : TextFns) (names : KindNames) :
    Configured fns names factoryResources factoryArgs "ngram"
      [.ngram 2 (some (Gazetteer.contains fns.hashStr ⟨[1, 2]⟩)) (some (Stemmer.stem fns ⟨[]⟩))] :=
  .ngram _ _ _ rfl (Or.inr ⟨_, _, rfl, rfl, rfl⟩) (Or.inr ⟨rfl, _, rfl, rfl⟩)

example (fns : TextFns) (names : KindNames) :
    (buildProcessor fns names factoryResources
      [⟨"shape_ngram".toList, [-1, 0], factoryArgs⟩, ⟨"word_cluster".toList, [1], factoryArgs⟩])
      = .ok [⟨.shapeNgram 2, [-1, 0]⟩,
        ⟨.wordCluster "brown".toList (WordClusterer.getCluster fns.hashStr (.numeric [(3, 4)])), [1]⟩] := rfl

/-- A name that is not that of a factory. -/
example (fns : TextFns) (names : KindNames) :
    ∃ e, buildProcessor fns names factoryResources [⟨"is_digits".toList, [0], []⟩] = .err e := ⟨_, rfl⟩

end Snips
