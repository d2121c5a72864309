import Verif.Proofs.Features
import Verif.Props.C26_Tags
import Verif.Spec.Demo

/-! # C29–C33: features and sequence probability -/

namespace Snips

/-! ## C29 -/

/-- C29: there is one feature list per token, and the list of token `t` contains `key = v` exactly when
some feature declares an offset `o` such that the position `t + o` exists, the feature has value `v`
there, and `key` is the feature's name with `o`. -/
theorem c29_window (fns : TextFns) (w : World) (os : List Offsetter) (toks : List Token)
    (feats : List (List (Text × Text))) (h : (computeFeatures fns os toks).run w = .ok feats) :
    feats.length = toks.length ∧
    ∀ (t : Nat) l, feats[t]? = some l → ∀ key v, (key, v) ∈ l ↔
      ∃ f ∈ os, ∃ o ∈ f.offsets, key = featureKey f.feature.name o ∧
        ∃ p : Nat, (p : Int) = t + o ∧ p < toks.length ∧
          f.feature.valueAt fns w toks p = .ok (some v) := by
  obtain ⟨h1, h2⟩ := offsettersLoop_at fns w toks os _ feats h
  rw [List.length_replicate] at h1 h2
  refine ⟨h1, ?_⟩
  intro t l hl key v
  have ht : t < toks.length := by
    rw [← h1]; exact (List.getElem?_eq_some_iff.1 hl).1
  have h3 := h2 t ht (key, v)
  have h4 : At feats t (key, v) ↔ (key, v) ∈ l := by
    unfold At
    rw [hl]
    simp
  rw [← h4, h3]
  have h5 : ¬ At (List.replicate toks.length ([] : List (Text × Text))) t (key, v) := by
    rintro ⟨l', hl', hm⟩
    rw [List.getElem?_replicate, if_pos ht] at hl'
    injection hl' with hl'
    subst hl'
    cases hm
  constructor
  · rintro (h | ⟨f, hf, ok, hok, i, hi, hio, v', hv', hx⟩)
    · exact absurd h h5
    · obtain ⟨ho, hk⟩ := (offsetsWithName_mem f ok).1 hok
      simp only [Prod.mk.injEq] at hx
      exact ⟨f, hf, ok.1, ho, by rw [hx.1, hk], i, hio, hi, by rw [hx.2]; exact hv'⟩
  · rintro ⟨f, hf, o, ho, hk, p, hp, hpn, hv⟩
    refine Or.inr ⟨f, hf, (o, key), (offsetsWithName_mem f _).2 ⟨ho, hk⟩, p, hpn, hp, v, hv, rfl⟩

/-- C29: the computation succeeds as soon as every feature can be computed at every position. -/
theorem c29_total (fns : TextFns) (w : World) (os : List Offsetter) (toks : List Token)
    (h : ∀ f ∈ os, ∀ i < toks.length, ∃ v, f.feature.valueAt fns w toks i = .ok v) :
    ∃ feats, (computeFeatures fns os toks).run w = .ok feats :=
  offsettersLoop_total fns w toks os _ h

/-- C29: names with different offsets are different, so a window position cannot be confused with
another one of the same feature. -/
theorem c29_key_injective (name : Text) (o o' : Int) (h : featureKey name o = featureKey name o') :
    o = o' := by
  have hrepr : ∀ a b : Nat, Nat.toDigits 10 a = Nat.toDigits 10 b → a = b := by
    intro a b hab
    rw [← Nat.ofDigitChars_ten_toDigits (n := a), hab, Nat.ofDigitChars_ten_toDigits]
  unfold featureKey at h
  by_cases h0 : o = 0 <;> by_cases h0' : o' = 0
  · omega
  · simp [h0, h0'] at h
  · simp [h0, h0'] at h
  · simp only [h0, h0', if_false, List.append_assoc, List.append_cancel_left_eq] at h
    by_cases h1 : o < 0 <;> by_cases h1' : o' < 0 <;> simp [h1, h1'] at h
    all_goals
      have := hrepr _ _ h
      omega

/-! ## C30 -/

/-- C30: for a token inside a matched entity (`r` is the first listed one that shares a character with the
token) the feature is the prefix of the token's position in the run of tokens `a, …, a + m` touched by
the entity — the prefix with which that position is tagged in a slot of that size. -/
theorem c30_prefix (sch : Scheme) (toks : List Token) (i : Nat) (tok : Token) (pre post : List Rng) (r : Rng)
    (hne : ∀ t ∈ toks, t.charRange.NonEmpty)
    (hord : toks.Pairwise (fun a b => a.charRange.stop ≤ b.charRange.start))
    (hi : toks[i]? = some tok)
    (hrne : ∀ q ∈ pre ++ r :: post, q.NonEmpty)
    (hpre : ∀ q ∈ pre, ¬ q.Meets tok.charRange) (hr : r.Meets tok.charRange) :
    ∃ a m p, a ≤ i ∧ i ≤ a + m ∧ a + m < toks.length ∧
      (∀ j t, toks[j]? = some t → (t.charRange.Meets r ↔ a ≤ j ∧ j ≤ a + m)) ∧
      ((TagSeg.slot [] m).tags sch)[i - a]? = some p ∧
      entityPrefix sch toks i (pre ++ r :: post) = .ok (some p) := by
  induction pre with
  | cons q pre ih =>
    obtain ⟨a, m, p, h1, h2, h3, h4, h5, h6⟩ := ih (fun x hx => hrne x (by
      rw [List.cons_append]; exact List.mem_cons_of_mem _ hx)) (fun x hx => hpre x (by simp [hx]))
    refine ⟨a, m, p, h1, h2, h3, h4, h5, ?_⟩
    rw [List.cons_append, entityPrefix, hi]
    simp only
    have hq : rangesOverlap q tok.charRange = false := by
      have := mt (overlap_iff_meets (hrne q (by simp)) (hne tok (List.mem_of_getElem? hi))).1
        (hpre q (by simp))
      simpa using this
    rw [hq]
    simpa using h6
  | nil =>
    have hrn : r.NonEmpty := hrne r (by simp)
    have hin : i < toks.length := (List.getElem?_eq_some_iff.1 hi).1
    let p : Nat → Bool := fun j => match toks[j]? with
      | some t => rangesOverlap t.charRange r
      | none => false
    have hpiff : ∀ j t, toks[j]? = some t → (p j = true ↔ t.charRange.Meets r) := by
      intro j t hj
      simp only [p, hj]
      exact overlap_iff_meets (hne t (List.mem_of_getElem? hj)) hrn
    have hover : rangesOverlap r tok.charRange = true :=
      (overlap_iff_meets hrn (hne tok (List.mem_of_getElem? hi))).2 hr
    have hpi : p i = true := by
      simp only [p, hi]
      rw [overlap_symm]; exact hover
    have hconv : ∀ a b c, a < b → b < c → c < toks.length → p a = true → p c = true → p b = true := by
      intro a b c hab hbc hc hpa hpc
      have ha : a < toks.length := by omega
      have hb : b < toks.length := by omega
      have e1 := List.pairwise_iff_getElem.1 hord a b ha hb hab
      have e2 := List.pairwise_iff_getElem.1 hord b c hb hc hbc
      have e3 := hne toks[b] (List.getElem_mem hb)
      simp only [p, List.getElem?_eq_getElem ha, List.getElem?_eq_getElem hb, List.getElem?_eq_getElem hc,
        rangesOverlap, Bool.and_eq_true, decide_eq_true_eq, Rng.NonEmpty] at hpa hpc e3 ⊢
      omega
    obtain ⟨a, m, h1, h2, h3, h4, h5⟩ := filter_range_interval toks.length p i hin hpi hconv
    obtain ⟨q, hq1, hq2⟩ := c26_encoder sch [] m a (i - a) (by omega)
    refine ⟨a, m, q, h1, h2, h3, ?_, by simpa using hq2, ?_⟩
    · intro j t hj
      rw [← hpiff j t hj]
      exact h5 j (List.getElem?_eq_some_iff.1 hj).1
    · rw [List.nil_append, entityPrefix, hi]
      simp only [hover, if_true]
      rw [show a + (i - a) = i by omega] at hq1
      have : touchedTokens toks r = List.range' a (m + 1) := h4
      rw [this, hq1]

/-- C30: the feature is absent for tokens outside all matched entities. -/
theorem c30_absent (sch : Scheme) (toks : List Token) (i : Nat) (tok : Token) (ranges : List Rng)
    (hne : tok.charRange.NonEmpty) (hi : toks[i]? = some tok)
    (hrne : ∀ q ∈ ranges, q.NonEmpty) (hno : ∀ q ∈ ranges, ¬ q.Meets tok.charRange) :
    entityPrefix sch toks i ranges = .ok none := by
  induction ranges with
  | nil => rfl
  | cons q ranges ih =>
    have hq : rangesOverlap q tok.charRange = false := by
      simpa using mt (overlap_iff_meets (hrne q (by simp)) hne).1 (hno q (by simp))
    rw [entityPrefix, hi]
    simp only [hq]
    exact ih (fun x hx => hrne x (by simp [hx])) (fun x hx => hno x (by simp [hx]))

/-- C30: the two entity match features are this prefix, on the ranges of the entities of the feature's
own kind that are found in the text rebuilt from the tokens (normalised tokens for custom entities). -/
theorem c30_builtin_feature (fns : TextFns) (w : World) (toks : List Token) (i : Nat) (kind : Kind)
    (kid : Text) (sch : Scheme) (text : Text) (es : List BuiltinEntity)
    (htext : initialStringFromTokens toks = .ok text)
    (hes : w.builtin text (some [kind]) 0 = .ok es) :
    (Feature.builtinEntityMatch kind kid sch).valueAt fns w toks i
      = entityPrefix sch toks i (es.map BuiltinEntity.range) := by
  simp only [Feature.valueAt, Feature.compute]
  rw [Prog.run_bind, Prog.run_ofOutcome, htext]
  simp only [Outcome.bind, Prog.run, hes, Prog.run_ofOutcome, List.map_map]
  rfl

/-- C30, custom entities. -/
theorem c30_custom_feature (fns : TextFns) (w : World) (toks : List Token) (i : Nat) (entity : Text)
    (stemmer : Option (Text → Text)) (sch : Scheme) (es : List CustomEntity) (hn : toks ≠ [])
    (hes : w.custom (joinWith [' '] (toks.map (fun t => normStem fns stemmer t.value))) (some [entity]) 0
      = .ok es) :
    (Feature.entityMatch entity sch stemmer).valueAt fns w toks i
      = entityPrefix sch (transformTokens fns stemmer toks) i (es.map CustomEntity.range) := by
  have htext : initialStringFromTokens (transformTokens fns stemmer toks)
      = .ok (joinWith [' '] (toks.map (fun t => normStem fns stemmer t.value))) := by
    unfold initialStringFromTokens transformTokens
    rw [if_neg (by cases toks with
      | nil => exact absurd rfl hn
      | cons a l => simp [transformTokensFrom]), transform_join fns stemmer toks 0 0 0 hn]
    simp
  simp only [Feature.valueAt, Feature.compute]
  rw [Prog.run_bind, Prog.run_ofOutcome, htext]
  simp only [Outcome.bind, Prog.run, hes, Prog.run_ofOutcome]

/-! ## C31 -/

/-- C31: the rebuilt text has every token at its own range, ends with the last token, and has spaces
everywhere else. -/
theorem c31_rebuild (toks : List Token) (hn : toks ≠ []) (hl : Laid toks) :
    ∃ text, initialStringFromTokens toks = .ok text ∧
      (∀ tok ∈ toks, tok.charRange.stop ≤ text.length ∧
        (text.drop tok.charRange.start).take (tok.charRange.stop - tok.charRange.start) = tok.value) ∧
      (∀ k c, text[k]? = some c → (∀ tok ∈ toks, ¬ tok.charRange.Has k) → c = ' ') ∧
      (∀ last, toks.getLast? = some last → text.length = last.charRange.stop) := by
  obtain ⟨h1, h2, h3⟩ := initialStringFrom_spec toks 0 hl (fun _ _ => Nat.zero_le _)
  refine ⟨_, by unfold initialStringFromTokens; rw [if_neg hn], ?_, ?_, ?_⟩
  · intro tok ht
    obtain ⟨h4, h5⟩ := h1 tok ht
    refine ⟨by omega, ?_⟩
    rw [hl.size tok ht, Nat.add_sub_cancel_left]
    simpa using h4
  · intro k c hk hno
    exact h2 k c hk (by simpa using hno)
  · intro last hlast
    have := h3 last hlast
    omega

/-- C31: normalised tokens are laid out one after the other, so the rebuilt text has them at their ranges
too; it is their values separated by single spaces. -/
theorem c31_transform (fns : TextFns) (stemmer : Option (Text → Text)) (toks : List Token) (hn : toks ≠ []) :
    Laid (transformTokens fns stemmer toks) ∧
      (transformTokens fns stemmer toks).map Token.value
        = toks.map (fun t => normStem fns stemmer t.value) ∧
      initialStringFromTokens (transformTokens fns stemmer toks)
        = .ok (joinWith [' '] (toks.map (fun t => normStem fns stemmer t.value))) := by
  obtain ⟨_, h2, h3⟩ := transformTokensFrom_spec fns stemmer toks 0 0
  refine ⟨h2, h3, ?_⟩
  unfold initialStringFromTokens transformTokens
  rw [if_neg (by cases toks with
    | nil => exact absurd rfl hn
    | cons a l => simp [transformTokensFrom]), transform_join fns stemmer toks 0 0 0 hn]
  simp

/-- C31: rebuilding from no token panics (the code never does: features are computed per token). -/
theorem c31_empty_counterexample : initialStringFromTokens [] = .panic := rfl

/-! ## C32 -/

/-- C32, prefixes: the first `n` characters of the normalised word, exactly when it has at least `n`. -/
theorem c32_prefix (fns : TextFns) (w : World) (toks : List Token) (i n : Nat) (tok : Token)
    (hi : toks[i]? = some tok) :
    (n ≤ (fns.normalize tok.value).length →
      ∃ p, (Feature.pfx n).valueAt fns w toks i = .ok (some p) ∧ p.length = n ∧
        p <+: fns.normalize tok.value) ∧
    ((fns.normalize tok.value).length < n → (Feature.pfx n).valueAt fns w toks i = .ok none) := by
  simp only [Feature.valueAt, Feature.compute, hi, Outcome.unwrap, Prog.run_ofOutcome, getWordChunk]
  constructor
  · intro h
    refine ⟨(fns.normalize tok.value).take n, ?_, by simp [h], List.take_prefix _ _⟩
    simp [bind, Outcome.bind]
    omega
  · intro h
    simp [bind, Outcome.bind]
    omega

/-- C32, suffixes: the last `n` characters of the normalised word, exactly when it has at least `n`. -/
theorem c32_suffix (fns : TextFns) (w : World) (toks : List Token) (i n : Nat) (tok : Token)
    (hi : toks[i]? = some tok) :
    (n ≤ (fns.normalize tok.value).length →
      ∃ p, (Feature.sfx n).valueAt fns w toks i = .ok (some p) ∧ p.length = n ∧
        p <:+ fns.normalize tok.value) ∧
    ((fns.normalize tok.value).length < n → (Feature.sfx n).valueAt fns w toks i = .ok none) := by
  simp only [Feature.valueAt, Feature.compute, hi, Outcome.unwrap, Prog.run_ofOutcome, getWordChunk]
  constructor
  · intro h
    refine ⟨(fns.normalize tok.value).drop ((fns.normalize tok.value).length - n), ?_, by simp; omega,
      List.drop_suffix _ _⟩
    have h1 : ¬ (fns.normalize tok.value).length < n := by omega
    have h2 : ¬ (fns.normalize tok.value).length < (fns.normalize tok.value).length - n + n := by omega
    simp only [gt_iff_lt, true_and, h1, if_false, if_true, h2, bind, Outcome.bind, Outcome.ok.injEq,
      Option.some.injEq]
    rw [List.take_of_length_le (by simp; omega)]
  · intro h
    simp [bind, Outcome.bind, h]

/-- C32, n-grams: present exactly when the `n` words starting at the position exist; then it is these
words, each normalised, stemmed and replaced by `rare_word` as configured, separated by spaces.  The size must not be
so large that the end of the n-gram is no machine integer. -/
theorem c32_ngram (fns : TextFns) (w : World) (toks : List Token) (i n : Nat)
    (common : Option (Text → Bool)) (stemmer : Option (Text → Text)) (hn : i + n < 2 ^ 64) :
    (∀ window rest, toks.drop i = window ++ rest → i ≤ toks.length → window.length = n →
      (Feature.ngram n common stemmer).valueAt fns w toks i
        = .ok (some (joinWith [' '] (window.map (fun t => ngramWord fns common stemmer t.value))))) ∧
    (toks.length < i + n → (Feature.ngram n common stemmer).valueAt fns w toks i = .ok none) := by
  have hu : ¬ usizeCount ≤ i + n := by rw [Nat.not_le]; exact hn
  simp only [Feature.valueAt, Feature.compute]
  rw [if_neg hu]
  simp only [Prog.run]
  constructor
  · intro window rest hw hile hlen
    have hl : (toks.drop i).length = n + rest.length := by rw [hw, List.length_append, hlen]
    rw [List.length_drop] at hl
    rw [if_neg (by omega), hw, List.take_left' hlen]
  · intro h
    rw [if_pos (by omega)]

/-- C32: an n-gram whose end is no machine integer makes the feature panic, instead of being absent. -/
theorem c32_ngram_overflow_counterexample (fns : TextFns) (w : World) (toks : List Token) (i n : Nat)
    (common : Option (Text → Bool)) (stemmer : Option (Text → Text)) (hn : 2 ^ 64 ≤ i + n) :
    (Feature.ngram n common stemmer).valueAt fns w toks i = .panic := by
  have hu : usizeCount ≤ i + n := hn
  simp only [Feature.valueAt, Feature.compute]
  rw [if_pos hu]
  rfl

/-- C32: the word put in an n-gram. -/
theorem c32_ngram_word (fns : TextFns) (common : Option (Text → Bool)) (stemmer : Option (Text → Text))
    (v : Text) :
    (common = none → ngramWord fns common stemmer v = normStem fns stemmer v) ∧
    (∀ g, common = some g → g (normStem fns stemmer v) = true →
      ngramWord fns common stemmer v = normStem fns stemmer v) ∧
    (∀ g, common = some g → g (normStem fns stemmer v) = false →
      ngramWord fns common stemmer v = "rare_word".toList) := by
  refine ⟨?_, ?_, ?_⟩
  · rintro rfl; rfl
  · rintro g rfl h; simp [ngramWord, h]
  · rintro g rfl h; simp [ngramWord, h]

/-- C32, shape n-grams: the same for a positive size, with word shapes; absent for size 0. -/
theorem c32_shape (fns : TextFns) (w : World) (toks : List Token) (i n : Nat) :
    (∀ window rest, toks.drop i = window ++ rest → i ≤ toks.length → window.length = n → 0 < n →
      (Feature.shapeNgram n).valueAt fns w toks i
        = .ok (some (joinWith [' '] (window.map (fun t => fns.shape t.value))))) ∧
    (toks.length < i + n ∨ n = 0 → (Feature.shapeNgram n).valueAt fns w toks i = .ok none) := by
  simp only [Feature.valueAt, Feature.compute, Prog.run]
  constructor
  · intro window rest hw hile hlen hn
    have hl : (toks.drop i).length = n + rest.length := by rw [hw, List.length_append, hlen]
    rw [List.length_drop] at hl
    rw [if_pos (by omega), hw, List.take_left' hlen]
  · intro h
    rw [if_neg (by omega)]

/-- C32: the first- and last-position features are exact. -/
theorem c32_first_last (fns : TextFns) (w : World) (toks : List Token) (i : Nat) (hi : i < toks.length) :
    (Feature.isFirst.valueAt fns w toks i = .ok (some ['1']) ↔ i = 0) ∧
    (Feature.isFirst.valueAt fns w toks i = .ok none ↔ i ≠ 0) ∧
    (Feature.isLast.valueAt fns w toks i = .ok (some ['1']) ↔ i + 1 = toks.length) ∧
    (Feature.isLast.valueAt fns w toks i = .ok none ↔ i + 1 ≠ toks.length) := by
  have hne : toks ≠ [] := by rintro rfl; simp at hi
  simp only [Feature.valueAt, Feature.compute, hne, if_false, Prog.run]
  refine ⟨?_, ?_, ?_, ?_⟩
  · by_cases h : i = 0 <;> simp [h]
  · by_cases h : i = 0 <;> simp [h]
  · by_cases h : i = toks.length - 1 <;> simp [h] <;> omega
  · by_cases h : i = toks.length - 1 <;> simp [h] <;> omega

/-! ## C33 -/

/-- C33: the tagger is asked for the probability of one label per given tag, each one of its own labels:
known labels are kept, unknown ones are replaced, by the outside label if the tagger knows it.  Nothing
else can fail if the tagger has labels. -/
theorem c33_query (codec : TagCodec) (f : SlotFiller) (w : World) (toks : List Token)
    (tags : List Text) (tagger : Tagger) (os : List Offsetter) (feats : List (List (Text × Text)))
    (encoded labels : List Text)
    (ht : f.tagger = some tagger) (hp : f.processor = some os)
    (hf : (computeFeatures f.fns os toks).run w = .ok feats)
    (hl : tagger.labels = .ok encoded)
    (hd : List.Forall₂ (fun e l => codec.decode e = .ok l) encoded labels)
    (hne : labels ≠ []) :
    ∃ query, (f.getSequenceProbability codec toks tags).run w
        = tagger.probability feats (query.map codec.encode) ∧
      List.Forall₂ (fun tag q => q ∈ labels ∧ (tag ∈ labels → q = tag) ∧
        (tag ∉ labels → ['O'] ∈ labels → q = ['O'])) tags query := by
  have hclean : ∃ query, mapOutcome (cleanTag labels) tags = .ok query ∧
      List.Forall₂ (fun tag q => q ∈ labels ∧ (tag ∈ labels → q = tag) ∧
        (tag ∉ labels → ['O'] ∈ labels → q = ['O'])) tags query := by
    induction tags with
    | nil => exact ⟨[], rfl, List.Forall₂.nil⟩
    | cons t tags ih =>
      obtain ⟨query, h1, h2⟩ := ih
      have hone : ∃ q, cleanTag labels t = .ok q ∧ q ∈ labels ∧ (t ∈ labels → q = t) ∧
          (t ∉ labels → ['O'] ∈ labels → q = ['O']) := by
        unfold cleanTag getSubstitutionLabel
        by_cases hmem : t ∈ labels
        · exact ⟨t, by simp [hmem], hmem, fun _ => rfl, fun h => absurd hmem h⟩
        · by_cases hO : outside ∈ labels
          · exact ⟨outside, by simp [hmem, hO], hO, fun h => absurd h hmem, fun _ _ => rfl⟩
          · obtain ⟨l0, ls, rfl⟩ := List.exists_cons_of_ne_nil hne
            refine ⟨l0, ?_, by simp, fun h => absurd h hmem, fun _ h => absurd h hO⟩
            simp only [List.contains_eq_mem, hmem, hO, decide_false]
            rfl
      obtain ⟨q, hq, hq'⟩ := hone
      exact ⟨q :: query, by rw [mapOutcome, hq, h1], List.Forall₂.cons hq' h2⟩
  obtain ⟨query, h1, h2⟩ := hclean
  refine ⟨query, ?_, h2⟩
  unfold SlotFiller.getSequenceProbability
  rw [ht, hp]
  simp only
  rw [Prog.run_bind, hf]
  simp only [Outcome.bind, Prog.run_ofOutcome]
  rw [hl]
  simp only [bind, Outcome.bind, mapOutcome_ok_iff.2 hd, h1]

/-- C33: without trained tagger the probability is 1 for the all-outside sequence and 0 for others. -/
theorem c33_untrained (codec : TagCodec) (f : SlotFiller) (w : World) (toks : List Token)
    (tags : List Text) (ht : f.tagger = none) :
    ((∀ t ∈ tags, t = ['O']) → (f.getSequenceProbability codec toks tags).run w = .ok 1) ∧
    ((∃ t ∈ tags, t ≠ ['O']) → (f.getSequenceProbability codec toks tags).run w = .ok 0) := by
  unfold SlotFiller.getSequenceProbability
  rw [ht]
  simp only [Prog.run]
  constructor
  · intro h
    have : tags.any (fun t => decide (t ≠ outside)) = false := by
      rw [List.any_eq_false]
      intro t htm
      simp [outside, h t htm]
    simp only [this]
    rfl
  · rintro ⟨t, htm, hne⟩
    have : tags.any (fun t => decide (t ≠ outside)) = true := by
      rw [List.any_eq_true]
      exact ⟨t, htm, decide_eq_true hne⟩
    simp only [this]
    rfl

/-- C33: a tagger without labels makes the call panic as soon as there is a tag. -/
theorem c33_no_label (codec : TagCodec) (f : SlotFiller) (w : World) (toks : List Token)
    (t : Text) (tags : List Text) (tagger : Tagger) (os : List Offsetter)
    (feats : List (List (Text × Text)))
    (ht : f.tagger = some tagger) (hp : f.processor = some os)
    (hf : (computeFeatures f.fns os toks).run w = .ok feats) (hl : tagger.labels = .ok []) :
    (f.getSequenceProbability codec toks (t :: tags)).run w = .panic := by
  unfold SlotFiller.getSequenceProbability
  rw [ht, hp]
  simp only
  rw [Prog.run_bind, hf]
  simp only [Outcome.bind, Prog.run_ofOutcome]
  rw [hl]
  rfl

/-! ## The hypotheses can be met -/

/-- Text functions of a toy language: identity, tokens of `"né à Köln"`. -/
def demoFns : TextFns where
  lower := id
  upper := id
  normalize := id
  shape := id
  tokenize := fun _ => koelnTokens
  tokenizeLight := fun t => [t]
  tokenizeLightEn := fun t => [t]
  hashStr := fun _ => 0

/-- A world where only the characters 3..9 of any text match. -/
def demoWorld : World where
  builtin := fun _ _ _ => .ok [⟨"à Köln".toList, ⟨3, 9⟩, .builtin 0, [], 0⟩]
  custom := fun _ _ _ => .ok []

example : (computeFeatures demoFns [⟨.builtinEntityMatch 0 "city".toList .bilou, [-1, 0]⟩, ⟨.isFirst, [1]⟩]
    koelnTokens).run demoWorld
    = .ok [[], [("builtin_entity_match_city".toList, "B-".toList)],
        [("builtin_entity_match_city[-1]".toList, "B-".toList),
          ("builtin_entity_match_city".toList, "L-".toList)]] := by decide +kernel

example : Laid koelnTokens := by
  constructor
  · intro tok h
    simp only [koelnTokens, List.mem_cons, List.not_mem_nil, or_false] at h
    rcases h with rfl | rfl | rfl <;> decide
  · simp only [koelnTokens]; decide

example : initialStringFromTokens koelnTokens = .ok "né à Köln".toList := by decide +kernel

/-- A tagger that knows two labels. -/
def demoTagger : Tagger where
  tag := fun feats => .ok (feats.map fun _ => "O".toList)
  labels := .ok ["B-city".toList, "O".toList]
  probability := fun _ tags => .ok (if tags = [['O']] then 1 else 0)

example : (SlotFiller.getSequenceProbability ⟨id, .ok⟩ ⟨demoFns, .bio, some demoTagger, some [], []⟩
    [⟨['a'], ⟨0, 1⟩, ⟨0, 1⟩⟩] ["B-unknown".toList]).run demoWorld = .ok 1 := by decide +kernel

end Snips
