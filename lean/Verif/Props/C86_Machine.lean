import Verif.Proofs.Machine
import Verif.Props.C58_NoPanic
import Verif.Props.C68_SlotOrigin
import Verif.Spec.Demo

/-! # C86: 32-bit arithmetic on positions is exact for texts of less than 2^29 characters -/

namespace Snips

/-! ### What the operations are -/

/-- An `i32` operation gives the exact result when that is an `i32`.  Otherwise a build with overflow checks panics,
and a build without gives the only `i32` that differs from the exact result by a multiple of 2^32. -/
theorem c86_operation (x : Int) :
    (-2 ^ 31 ≤ x ∧ x < 2 ^ 31 → ∀ debug, i32Op debug x = .ok x) ∧
    (¬ (-2 ^ 31 ≤ x ∧ x < 2 ^ 31) → i32Op true x = .panic ∧
      ∀ y, i32Op false x = .ok y ↔ (-2 ^ 31 ≤ y ∧ y < 2 ^ 31 ∧ (2 : Int) ^ 32 ∣ x - y)) := by
  constructor
  · intro h debug
    exact i32Op_of_fits debug (by omega) (by omega)
  · intro h
    have hf : ¬ fitsI32 x = true := by rw [fitsI32_iff]; omega
    refine ⟨by unfold i32Op; rw [if_neg hf]; rfl, ?_⟩
    intro y
    have : i32Op false x = .ok (wrapI32 x) := by unfold i32Op; rw [if_neg hf]; rfl
    rw [this, Outcome.ok.injEq]
    unfold wrapI32 Int.bmod
    simp only [Nat.cast_ofNat]
    split <;> omega

/-! ### Gazetteer matches -/

/-- The custom entities found in a sentence of less than 2^29 characters are those computed with unbounded integers. -/
theorem c86_custom (debug : Bool) (x : Ext) (sentence : Text) (htok : Tokenized sentence (x.tokenize sentence))
    (hlen : sentence.length < 2 ^ 29) (kinds : Option (List Text)) (n : Nat) :
    x.customExtract32 debug sentence kinds n = x.customExtract sentence kinds n := by
  have ht := tokenized_tokensFrom htok
  have h1 := charShifts32From_eq debug (by omega) ht 0 0 (by omega) (by omega) (Nat.zero_le _) (by simp) (by simp)
  obtain ⟨h2, h3⟩ := charShiftsFrom_bounds ht 0 0 (by omega) (by omega) (by simp) (by simp)
  have h3 := h3 (Nat.zero_le _)
  simp only [Nat.cast_zero] at h1 h2 h3
  unfold Ext.customExtract32 Ext.customExtract computeCharShifts
  simp only
  rw [h1]
  simp only
  cases x.gazetteer (joinWith [' '] ((x.tokenize sentence).map Token.value)) kinds n with
  | err e => rfl
  | panic => rfl
  | ok es => exact mapOutcome_congr32 fun e _ => remapEntity32_eq debug (by omega) _ h2 (by omega) e

/-! ### Features -/

/-- The sizes of the n-grams of a feature are 64-bit numbers, as all numbers read by `parse_as_u64` are. -/
def NgramSizes (f : Feature) : Prop :=
  (∀ size common stemmer, f = .ngram size common stemmer → size < 2 ^ 64) ∧ ∀ size, f = .shapeNgram size → size < 2 ^ 64

/-- Without overflow checks, the features of less than 2^31 tokens are those computed with unbounded integers, whatever
the (32-bit) offsets and the (64-bit) sizes of n-grams of the model. -/
theorem c86_features_release (fns : TextFns) (os : List Offsetter) (toks : List Token) (hlen : toks.length < 2 ^ 31)
    (hoff : ∀ o ∈ os, ∀ off ∈ o.offsets, -2 ^ 31 ≤ off ∧ off < 2 ^ 31) (hsize : ∀ o ∈ os, NgramSizes o.feature) :
    computeFeatures32 false fns os toks = computeFeatures fns os toks :=
  offsettersLoop32_eq false fns toks (by omega) os
    (fun o ho off hf => ⟨by have := hoff o ho off hf; omega, by have := hoff o ho off hf; omega, by simp⟩)
    (fun o ho => ⟨fun size common stemmer h => by have := (hsize o ho).1 size common stemmer h; omega,
      fun size h => ⟨by have := (hsize o ho).2 size h; omega, by simp⟩⟩) _ (by simp)

/-- With overflow checks, the same, if no offset is as far below zero as 2^31 less the number of tokens, and no size of
a shape n-gram is above 2^64 less the number of tokens. -/
theorem c86_features_debug (fns : TextFns) (os : List Offsetter) (toks : List Token)
    (hoff : ∀ o ∈ os, ∀ off ∈ o.offsets, (toks.length : Int) - 2 ^ 31 ≤ off ∧ off < 2 ^ 31)
    (hlen : toks.length < 2 ^ 31) (hsize : ∀ o ∈ os, NgramSizes o.feature)
    (hshape : ∀ o ∈ os, ∀ size, o.feature = .shapeNgram size → size + toks.length ≤ 2 ^ 64) :
    computeFeatures32 true fns os toks = computeFeatures fns os toks :=
  offsettersLoop32_eq true fns toks (by omega) os
    (fun o ho off hf => ⟨by have := hoff o ho off hf; omega, by have := hoff o ho off hf; omega,
      fun _ => by have := hoff o ho off hf; omega⟩)
    (fun o ho => ⟨fun size common stemmer h => by have := (hsize o ho).1 size common stemmer h; omega,
      fun size h => ⟨by have := (hsize o ho).2 size h; omega, fun _ => by have := hshape o ho size h; omega⟩⟩) _ (by simp)

/-! ### Overlaps -/

/-- Which of overlapping entities are kept, for entities of less than 2^31 characters. -/
theorem c86_entities (debug : Bool) (es : List MatchedEntity) (h : ∀ e ∈ es, e.range.count < 2 ^ 31) :
    dedupEntities32 debug es = .ok (dedupEntities es) :=
  dedupEntities32_eq debug es (fun e he => by have := h e he; omega)

/-! ### The deterministic parser -/

theorem mem_insert_snd {m : Map Rng Rng} {k v : Rng} {x : Rng × Rng} (h : x ∈ Map.insert m k v) :
    x.2 = v ∨ x ∈ m := by
  induction m with
  | nil =>
    simp only [Map.insert, List.mem_singleton] at h
    exact .inl (by rw [h])
  | cons e m ih =>
    unfold Map.insert at h
    split at h
    · rcases List.mem_cons.1 h with rfl | h
      · exact .inl rfl
      · exact .inr (by simp [h])
    · rcases List.mem_cons.1 h with rfl | h
      · exact .inr (by simp)
      · rcases ih h with h | h
        · exact .inl h
        · exact .inr (by simp [h])

theorem replaceFold_origin (text : Text) (ph : Text → Text) (ms : List MatchedEntity) : ∀ (st : ReplaceState),
    ∀ x ∈ (ms.foldl (replaceStep text ph) st).mapping, x ∈ st.mapping ∨ ∃ m ∈ ms, x.2 = m.range := by
  induction ms with
  | nil => intro st x hx; exact .inl hx
  | cons m ms ih =>
    intro st x hx
    rcases ih _ x hx with h | ⟨m', hm', h⟩
    · rcases mem_insert_snd h with h | h
      · exact .inr ⟨m, by simp, h⟩
      · exact .inl h
    · exact .inr ⟨m', by simp [hm'], h⟩

theorem replaceEntities_origin {text : Text} {ms : List MatchedEntity} {ph : Text → Text} {x : Rng × Rng}
    (hx : x ∈ (replaceEntities text ms ph).1) : ∃ m ∈ ms, x.2 = m.range := by
  unfold replaceEntities at hx
  split at hx
  · cases hx
  · rcases replaceFold_origin text ph _ _ x hx with h | ⟨m, hm, h⟩
    · cases h
    · refine ⟨m, ?_, h⟩
      have hm := (mem_sortByKey _).1 hm
      unfold dedupEntities at hm
      exact (dedupItems_subperm _ _ _).subset ((mem_sortByKey _).1 hm)

/-- One intent of the deterministic parser, for inputs (with and without placeholders) of less than 2^30 characters and
entities inside the input. -/
theorem c86_match (fns : TextFns) (htok : ∀ t, Tokenized t (fns.tokenize t)) (debug : Bool) (o : HashOrd) (p : Det)
    (input intent : Text) (matched : List MatchedEntity) (hi : input.length < 2 ^ 30)
    (hf : (replaceEntities input matched (entityPlaceholder fns)).2.length < 2 ^ 30)
    (hm : ∀ e ∈ matched, e.range.stop ≤ input.length) :
    p.matchWith32 fns debug o input intent matched = p.matchWith fns debug o input intent matched := by
  unfold Det.matchWith32 Det.matchWith
  rw [replaceEntities32_eq debug input matched _ (fun e he => by
    have := hm e he
    unfold Rng.count
    omega)]
  unfold replaceChecked
  split
  · rfl
  · simp only [Outcome.bind_eq, Outcome.bind]
    obtain ⟨c1, h1, l1, -⟩ := c19_positions fns p input intent (htok _)
    obtain ⟨c2, h2, l2, -⟩ := c19_positions fns p (replaceEntities input matched (entityPlaceholder fns)).2 intent (htok _)
    rw [h1, h2]
    simp only
    cases Outcome.ofOption (.site 3) (p.regexes.get intent) with
    | err e => rfl
    | panic => rfl
    | ok regexes =>
      simp only
      refine findMapOutcome_congr fun regex _ => ?_
      unfold Det.tryRegex32 Det.tryRegex
      rw [matchingResult32_eq debug fns htok o p input c1 regex intent none (by omega) (by omega) (by simp),
        matchingResult32_eq debug fns htok o p input c2 regex intent (some _) (by omega) (by omega) (by
          intro m hme x hx
          simp only [Option.some.injEq] at hme
          subst hme
          obtain ⟨e, he, hxe⟩ := replaceEntities_origin hx
          have := hm e he
          rw [hxe]
          omega)]
      cases p.matchingResult fns o input c1 regex intent none with
      | err e => rfl
      | panic => rfl
      | ok r => cases r <;> rfl

/-- The entities of a scope: what the two extractors find in the input. -/
def ScopeEntities (env : RuleEnv) (w : World) (input : Text) (scope : Text × (List Kind × List Text))
    (matched : List MatchedEntity) : Prop :=
  ∃ bs cs, w.builtin input (some scope.2.1) 0 = .ok bs ∧ w.custom input (some scope.2.2) 0 = .ok cs ∧
    matched = (bs.map BuiltinEntity.kindMatch).map (KindMatch.toMatched env.names) ++ cs.map CustomEntity.toMatched

theorem run_mapM_congr {α β : Type} {w : World} {f g : α → Prog β} : ∀ {l : List α},
    (∀ a ∈ l, (f a).run w = (g a).run w) → (Prog.mapM f l).run w = (Prog.mapM g l).run w
  | [], _ => rfl
  | a :: l, h => by
    simp only [Prog.mapM]
    rw [Prog.run_bind, Prog.run_bind, h a (by simp)]
    congr 1
    funext b
    rw [Prog.run_bind, Prog.run_bind, run_mapM_congr (fun x hx => h x (by simp [hx]))]

/-- The deterministic parser answers as if integers were unbounded, on inputs of less than 2^30 characters whose
placeholders do not bring them to 2^30, when the extractors report entities inside the input. -/
theorem c86_deterministic (env : RuleEnv) (htok : ∀ t, Tokenized t (env.fns.tokenize t)) (p : Det) (o : HashOrd)
    (w : World) (input : Text) (whitelist : Option (List Text)) (hi : input.length < 2 ^ 30)
    (hm : ∀ scope ∈ p.scopes, ∀ matched, ScopeEntities env w input scope matched →
      (∀ e ∈ matched, e.range.stop ≤ input.length) ∧
      (replaceEntities input matched (entityPlaceholder env.fns)).2.length < 2 ^ 30) :
    (p.parse32 env o input whitelist).run w = (p.parse env o input whitelist).run w := by
  unfold Det.parse32 Det.parse Det.parseTopIntents32 Det.parseTopIntents
  rw [Prog.run_bind, Prog.run_bind, Prog.run_bind, Prog.run_bind]
  rw [run_mapM_congr]
  intro scope hs
  have hs' : scope ∈ p.scopes := (o.perm 0 p.scopes).mem_iff.1 (List.mem_of_mem_filter hs)
  unfold Det.matchIntent32 Det.matchIntent
  simp only [Prog.run]
  cases hb : w.builtin input (some scope.2.1) 0 with
  | err e => rfl
  | panic => rfl
  | ok bs =>
    simp only
    cases hc : w.custom input (some scope.2.2) 0 with
    | err e => rfl
    | panic => rfl
    | ok cs =>
      simp only
      obtain ⟨h1, h2⟩ := hm scope hs' _ ⟨bs, cs, hb, hc, rfl⟩
      rw [c86_match env.fns htok env.debugAssertions o p input scope.1 _ hi h2 h1]

/-! ### Examples -/

/-- A sentence with punctuation: the gazetteer's match of the joined tokens is moved back. -/
example : ({ demoExt with
      tokenize := fun _ => [⟨['a', 'b'], ⟨0, 2⟩, ⟨0, 2⟩⟩, ⟨['?'], ⟨2, 3⟩, ⟨2, 3⟩⟩, ⟨['c'], ⟨5, 6⟩, ⟨5, 6⟩⟩]
      gazetteer := fun _ _ _ => .ok [⟨['c'], ['c'], [], ⟨5, 6⟩, ['e']⟩, ⟨['?'], ['?'], [], ⟨3, 4⟩, ['e']⟩] } : Ext).customExtract32 true
        ['a', 'b', '?', ' ', ' ', 'c'] none 0
    = .ok [⟨['c'], ['c'], [], ⟨5, 6⟩, ['e']⟩, ⟨['?'], ['?'], [], ⟨2, 3⟩, ['e']⟩] := by decide

/-- Its tokens are as `c86_custom` wants them. -/
example : Tokenized ['a', 'b', '?', ' ', ' ', 'c']
    [⟨['a', 'b'], ⟨0, 2⟩, ⟨0, 2⟩⟩, ⟨['?'], ⟨2, 3⟩, ⟨2, 3⟩⟩, ⟨['c'], ⟨5, 6⟩, ⟨5, 6⟩⟩] :=
  ⟨by unfold Rng.NonEmpty; decide, by decide, by decide, by decide⟩

/-- Offsets as in the models of the tests, and the extreme ones. -/
example : ∀ off ∈ [-2, -1, 0, 1, 2, 2147483647], ((3 : Nat) : Int) - 2 ^ 31 ≤ off ∧ off < 2 ^ 31 := by decide

/-- A feature of the first token, as `c86_features_counterexample` wants it. -/
example (fns : TextFns) (toks : List Token) : Feature.isFirst.compute fns toks 0 = .ret (some ['1']) := rfl

/-- Two overlapping entities, the longer one is kept. -/
example : dedupEntities32 true [⟨⟨0, 2⟩, ['a']⟩, ⟨⟨1, 5⟩, ['b']⟩] = .ok [⟨⟨1, 5⟩, ['b']⟩] := by decide

/-- The hypotheses of `c86_deterministic` for the parser of the examples. -/
example : (∀ t, Tokenized t (demoEnv.fns.tokenize t)) ∧ (∀ scope ∈ demoDet.scopes, ∀ matched, ScopeEntities demoEnv ruleWorld "make two tea".toList scope matched →
      (∀ e ∈ matched, e.range.stop ≤ ("make two tea".toList : Text).length) ∧
      (replaceEntities "make two tea".toList matched (entityPlaceholder demoEnv.fns)).2.length < 2 ^ 30) ∧
    (demoDet.parse32 demoEnv HashOrd.insertion "make two tea".toList none).run ruleWorld =
      (demoDet.parse demoEnv HashOrd.insertion "make two tea".toList none).run ruleWorld := by
  refine ⟨ruleFns_tokenized, ?_, by decide +kernel⟩
  rintro scope hs matched ⟨bs, cs, hb, hc, rfl⟩
  have hd : ∀ scope ∈ demoDet.scopes, ∃ bs cs, ruleWorld.builtin "make two tea".toList (some scope.2.1) 0 = .ok bs ∧
      ruleWorld.custom "make two tea".toList (some scope.2.2) 0 = .ok cs ∧
      (∀ e ∈ (bs.map BuiltinEntity.kindMatch).map (KindMatch.toMatched demoEnv.names) ++ cs.map CustomEntity.toMatched,
        e.range.stop ≤ ("make two tea".toList : Text).length) ∧
      (replaceEntities "make two tea".toList ((bs.map BuiltinEntity.kindMatch).map (KindMatch.toMatched demoEnv.names) ++
        cs.map CustomEntity.toMatched) (entityPlaceholder demoEnv.fns)).2.length < 2 ^ 30 := by
    intro scope hs
    simp only [demoDet, detScopes, List.map_cons, List.map_nil, List.mem_cons, List.not_mem_nil, or_false] at hs
    rcases hs with rfl | rfl | rfl <;> exact ⟨_, _, rfl, rfl, by decide +kernel, by decide +kernel⟩
  obtain ⟨bs', cs', hb', hc', h⟩ := hd scope hs
  rw [hb] at hb'
  rw [hc] at hc'
  cases hb'
  cases hc'
  exact h

/-! ### Beyond the bounds -/

/-- A model file with the offset -2^31 makes an engine built with overflow checks panic on the first token of any text
that has the feature; without overflow checks the offset is outside of every text. -/
theorem c86_features_counterexample (fns : TextFns) (toks : List Token) (htok : toks ≠ []) (hlen : toks.length < 2 ^ 31)
    (o : Offsetter) (v : Text) (hv : o.feature.compute fns toks 0 = .ret (some v)) (ho : o.offsets = [-2 ^ 31])
    (hsize : NgramSizes o.feature) (hshape : ∀ size, o.feature = .shapeNgram size → size + toks.length ≤ 2 ^ 64) :
    computeFeatures32 true fns [o] toks = .panic ∧
    computeFeatures32 false fns [o] toks = computeFeatures fns [o] toks := by
  refine ⟨?_, c86_features_release fns [o] toks hlen (by
    intro o' ho' off hoff
    rw [List.mem_singleton.1 ho', ho] at hoff
    rw [List.mem_singleton.1 hoff]
    omega) (by simpa using hsize)⟩
  rw [← compute64_eq true fns toks (by omega) (List.length_pos_of_ne_nil htok) o.feature
    ⟨fun size common stemmer h => by have := hsize.1 size common stemmer h; omega,
      fun size h => ⟨by have := hsize.2 size h; omega, fun _ => by have := hshape size h; omega⟩⟩] at hv
  cases toks with
  | nil => exact absurd rfl htok
  | cons t ts =>
    unfold computeFeatures32 offsettersLoop32
    rw [List.length_cons, List.range_succ_eq_map]
    simp only [featureLoop32, hv, Prog.bind, Offsetter.offsetsWithName, ho, List.map_cons, List.map_nil, foldOutcome,
      pushFeature32]
    rfl

/-- A model file with a shape n-gram of size 2^64 - 1 makes an engine built with overflow checks panic on every text of
two tokens or more; without overflow checks the feature is absent, as it should be. -/
theorem c86_shape_counterexample (fns : TextFns) (toks : List Token) (htok : 2 ≤ toks.length) (hlen : toks.length < 2 ^ 31)
    (offsets : List Int) (hoff : ∀ off ∈ offsets, -2 ^ 31 ≤ off ∧ off < 2 ^ 31) :
    computeFeatures32 true fns [⟨.shapeNgram (2 ^ 64 - 1), offsets⟩] toks = .panic ∧
    computeFeatures32 false fns [⟨.shapeNgram (2 ^ 64 - 1), offsets⟩] toks = .ret (List.replicate toks.length []) := by
  obtain ⟨t, t', ts, rfl⟩ : ∃ t t' ts, toks = t :: t' :: ts := by
    match toks, htok with
    | t :: t' :: ts, _ => exact ⟨t, t', ts, rfl⟩
  have habsent : ∀ i, (Feature.shapeNgram (2 ^ 64 - 1)).compute fns (t :: t' :: ts) i = .ret none := by
    intro i
    simp only [Feature.compute]
    rw [if_neg (by omega)]
  constructor
  · unfold computeFeatures32 offsettersLoop32
    rw [List.length_cons, List.length_cons, List.range_succ_eq_map, List.range_succ_eq_map]
    have h0 : (Feature.shapeNgram (2 ^ 64 - 1)).compute64 true fns (t :: t' :: ts) 0 = .ret none := by
      simp only [Feature.compute64]
      rw [usizeAdd_fits true (by norm_num)]
      simp only [Outcome.bind_eq, Outcome.bind]
      rw [if_neg (by omega)]
      rfl
    have h1 : (Feature.shapeNgram (2 ^ 64 - 1)).compute64 true fns (t :: t' :: ts) 1 = .panic := by
      simp only [Feature.compute64]
      rw [usizeAdd_debug (by norm_num)]
      rfl
    simp only [List.map_cons, featureLoop32, h0, Prog.bind, Nat.succ_eq_add_one, Nat.zero_add, h1]
  · rw [c86_features_release fns _ _ hlen (by simpa using hoff)
      (by simp only [List.mem_singleton, forall_eq]; exact ⟨(by intro _ _ _ h; cases h), (by intro _ h; cases h; norm_num)⟩)]
    unfold computeFeatures offsettersLoop
    have hl : ∀ is fs, featureLoop fns (t :: t' :: ts) ⟨.shapeNgram (2 ^ 64 - 1), offsets⟩ is fs = .ret fs := by
      intro is
      induction is with
      | nil => intro fs; rfl
      | cons i is ih =>
        intro fs
        simp only [featureLoop, habsent, Prog.bind]
        exact ih fs
    rw [hl]
    rfl

/-- A text of 2^32 characters and more: the range found for a capture after a placeholder is another one. -/
theorem c86_range_counterexample :
    originalRange32 false HashOrd.insertion (some [(⟨0, 6⟩, ⟨0, 4294967303⟩)]) ⟨7, 8⟩ = .ok ⟨8, 9⟩ ∧
    originalRange HashOrd.insertion (some [(⟨0, 6⟩, ⟨0, 4294967303⟩)]) ⟨7, 8⟩ = ⟨4294967304, 4294967305⟩ := by
  decide

end Snips
