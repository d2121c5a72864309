import Verif.Props.C17_Replace
import Verif.Props.C42_Cooc
import Verif.Spec.Safety
import Verif.Proofs.Prog
import Verif.Proofs.Map
import Verif.Proofs.Tags
import Verif.Proofs.Bytes
import Verif.Proofs.Features
import Verif.Props.C19_Blanking

/-! Lemmas for absence of panics. -/

namespace Snips

theorem Outcome.bind_safe {α β : Type} {o : Outcome α} {f : α → Outcome β} (ho : o ≠ .panic)
    (hf : ∀ a, o = .ok a → f a ≠ .panic) : o.bind f ≠ .panic := by
  cases o with
  | ok a => exact hf a rfl
  | err e => simp [Outcome.bind]
  | panic => exact absurd rfl ho

theorem Prog.bind_safe {α β : Type} {w : World} {p : Prog α} {f : α → Prog β} (hp : p.run w ≠ .panic)
    (hf : ∀ a, p.run w = .ok a → (f a).run w ≠ .panic) : (p.bind f).run w ≠ .panic := by
  rw [Prog.run_bind]
  exact Outcome.bind_safe hp hf

theorem Prog.ofOutcome_safe {α : Type} {w : World} {o : Outcome α} (ho : o ≠ .panic) :
    (Prog.ofOutcome o).run w ≠ .panic := by
  rw [Prog.run_ofOutcome]; exact ho

theorem Prog.ret_safe {α : Type} {w : World} (a : α) : (Prog.ret a).run w ≠ .panic := by simp [Prog.run]

theorem Prog.fail_safe {α : Type} {w : World} (e : Err) : (Prog.fail e : Prog α).run w ≠ .panic := by
  simp [Prog.run]

theorem Prog.builtinCached_safe {α : Type} {w : World} (hw : w.NoPanic) {s : Text} {kinds : Option (List Kind)}
    {k : List KindMatch → Prog α} (hk : ∀ es, (k es).run w ≠ .panic) :
    (Prog.builtinCached s kinds k).run w ≠ .panic := by
  simp only [Prog.run]
  cases h : w.builtin s kinds 0 with
  | ok es => exact hk _
  | err e => simp
  | panic => exact absurd h (hw.1 _ _ _)

theorem Prog.builtinFresh_safe {α : Type} {w : World} (hw : w.NoPanic) {s : Text} {kinds : Option (List Kind)}
    {n : Nat} {k : List BuiltinEntity → Prog α} (hk : ∀ es, (k es).run w ≠ .panic) :
    (Prog.builtinFresh s kinds n k).run w ≠ .panic := by
  simp only [Prog.run]
  cases h : w.builtin s kinds n with
  | ok es => exact hk _
  | err e => simp
  | panic => exact absurd h (hw.1 _ _ _)

theorem Prog.builtinCached_safe_of {α : Type} {w : World} (hw : w.NoPanic) {s : Text} {kinds : Option (List Kind)}
    {k : List KindMatch → Prog α}
    (hk : ∀ es, w.builtin s kinds 0 = .ok es → (k (es.map BuiltinEntity.kindMatch)).run w ≠ .panic) :
    (Prog.builtinCached s kinds k).run w ≠ .panic := by
  simp only [Prog.run]
  cases h : w.builtin s kinds 0 with
  | ok es => exact hk _ h
  | err e => simp
  | panic => exact absurd h (hw.1 _ _ _)

theorem Prog.custom_safe_of {α : Type} {w : World} (hw : w.NoPanic) {s : Text} {kinds : Option (List Text)}
    {n : Nat} {k : List CustomEntity → Prog α} (hk : ∀ es, w.custom s kinds n = .ok es → (k es).run w ≠ .panic) :
    (Prog.custom s kinds n k).run w ≠ .panic := by
  simp only [Prog.run]
  cases h : w.custom s kinds n with
  | ok es => exact hk _ h
  | err e => simp
  | panic => exact absurd h (hw.2 _ _ _)

theorem Prog.custom_safe {α : Type} {w : World} (hw : w.NoPanic) {s : Text} {kinds : Option (List Text)}
    {n : Nat} {k : List CustomEntity → Prog α} (hk : ∀ es, (k es).run w ≠ .panic) :
    (Prog.custom s kinds n k).run w ≠ .panic := by
  simp only [Prog.run]
  cases h : w.custom s kinds n with
  | ok es => exact hk _
  | err e => simp
  | panic => exact absurd h (hw.2 _ _ _)

theorem Prog.mapM_safe {α β : Type} {w : World} {f : α → Prog β} {l : List α}
    (h : ∀ a ∈ l, (f a).run w ≠ .panic) : (Prog.mapM f l).run w ≠ .panic := by
  induction l with
  | nil => exact Prog.ret_safe _
  | cons a l ih =>
    refine Prog.bind_safe (h a (by simp)) fun b _ => Prog.bind_safe (ih fun a' ha' => h a' (by simp [ha'])) fun bs _ =>
      Prog.ret_safe _

theorem mapOutcome_safe {α β : Type} {f : α → Outcome β} {l : List α} (h : ∀ a ∈ l, f a ≠ .panic) :
    mapOutcome f l ≠ .panic := by
  induction l with
  | nil => simp [mapOutcome]
  | cons a l ih =>
    have h1 := h a (by simp)
    have h2 := ih fun a' ha' => h a' (by simp [ha'])
    unfold mapOutcome
    cases hf : f a with
    | ok b =>
      cases hm : mapOutcome f l with
      | ok bs => simp
      | err e => simp
      | panic => exact absurd hm h2
    | err e => simp
    | panic => exact absurd hf h1

theorem ofOption_safe {α : Type} (e : Err) (x : Option α) : Outcome.ofOption e x ≠ .panic := by
  cases x <;> simp [Outcome.ofOption]

theorem findMapOutcome_safe {α β : Type} {f : α → Outcome (Option β)} {l : List α} (h : ∀ a ∈ l, f a ≠ .panic) :
    findMapOutcome f l ≠ .panic := by
  induction l with
  | nil => simp [findMapOutcome]
  | cons a l ih =>
    unfold findMapOutcome
    cases hf : f a with
    | ok b =>
      cases b with
      | some b => simp
      | none => exact ih fun a' ha' => h a' (by simp [ha'])
    | err e => simp
    | panic => exact absurd hf (h a (by simp))

/-! ### Lookup parser -/

theorem indexName_safe {names : List Text} {id : Int} (h : 0 ≤ id ∧ id < names.length) :
    indexName names id ≠ .panic := by
  unfold indexName
  rw [if_pos h.1]
  have : id.toNat < names.length := by omega
  rw [List.getElem?_eq_getElem this]
  simp [Outcome.unwrap]

theorem lookupOne_safe {env : RuleEnv} {p : Lookup} (hd : env.debugAssertions = false) (hp : p.Sound)
    (input : Text) (wl : Option (List Text)) (c : Text × List MatchedEntity) :
    p.lookupOne env input wl c ≠ .panic := by
  unfold Lookup.lookupOne
  cases hm : p.map.get (env.fns.hashStr c.1) with
  | none => simp
  | some output =>
    have hmem := Map.get_some_mem hm
    simp only [Lookup.parseMapOutput, hd, Bool.false_eq_true, false_and, if_false]
    refine Outcome.bind_safe (indexName_safe (hp.intents _ hmem)) fun intent _ => ?_
    split
    · refine Outcome.bind_safe (mapOutcome_safe ?_) fun slots _ => by simp
      intro ie hie
      refine Outcome.bind_safe (indexName_safe (hp.slots _ hmem ie.1 (List.of_mem_zip hie).1)) fun _ _ => by simp
    · simp

theorem lookup_candidates_safe {env : RuleEnv} {p : Lookup} {w : World} (hw : w.NoPanic) (input : Text)
    (wl : Option (List Text)) : ∀ scopes, (p.candidatesFrom env input wl scopes).run w ≠ .panic
  | [] => Prog.ret_safe _
  | scope :: scopes => by
    unfold Lookup.candidatesFrom
    split
    · exact lookup_candidates_safe hw input wl scopes
    · refine Prog.bind_safe ?_ fun es _ => Prog.bind_safe (lookup_candidates_safe hw input wl scopes) fun _ _ =>
        Prog.ret_safe _
      refine Prog.bind_safe (Prog.ofOutcome_safe (mapOutcome_safe fun _ _ => ofOption_safe _ _)) fun kinds _ => ?_
      exact Prog.builtinCached_safe hw fun bs => Prog.custom_safe hw fun cs => Prog.ret_safe _

theorem lookup_top_safe {env : RuleEnv} {p : Lookup} (hd : env.debugAssertions = false) (hp : p.Sound) {w : World}
    (hw : w.NoPanic) (o : HashOrd) (input : Text) (n : Nat) (wl : Option (List Text)) :
    (p.parseTopIntents env o input n wl).run w ≠ .panic := by
  refine Prog.bind_safe (Prog.bind_safe (lookup_candidates_safe hw input wl _) fun _ _ => Prog.ret_safe _)
    fun cs _ => Prog.bind_safe (Prog.ofOutcome_safe (mapOutcome_safe fun c _ => ?_)) fun _ _ => Prog.ret_safe _
  exact lookupOne_safe hd hp input wl c

/-! ### Deterministic parser -/

theorem det_preprocess_safe {fns : TextFns} (ht : TokenizerOk fns) (p : Det) (text intent : Text) :
    p.preprocess fns text intent ≠ .panic := by
  obtain ⟨c, h, _⟩ := c19_positions fns p text intent (ht text).1
  rw [h]; simp

theorem namedCaptures_mem {caps : List (Option Rng)} {names : List (Option Text)} {c : Rng × Text}
    (h : c ∈ namedCaptures caps names) : some c.2 ∈ names := by
  unfold namedCaptures at h
  rw [List.mem_filterMap] at h
  obtain ⟨⟨m, n⟩, hmn, h⟩ := h
  cases m with
  | none => simp at h
  | some m =>
    cases n with
    | none => simp at h
    | some n =>
      simp only [Option.some.injEq] at h
      subst h
      exact (List.of_mem_zip (List.mem_of_mem_drop hmn)).2

theorem det_matching_safe {fns : TextFns} {p : Det} (hp : p.Sound) (o : HashOrd) (input formatted intent : Text)
    (m : Option (Map Rng Rng)) {patterns : List Regex} (hr : p.regexes.get intent = some patterns) {r : Regex}
    (hmem : r ∈ patterns) : p.matchingResult fns o input formatted r intent m ≠ .panic := by
  unfold Det.matchingResult
  split
  · split
    · refine Outcome.bind_safe (mapOutcome_safe ?_) fun _ _ => by simp
      intro c hc
      obtain ⟨slot, declared, entity, h1, h2, h3⟩ := hp intent patterns hr r hmem c.2 (namedCaptures_mem hc)
      unfold Det.slotOf groupPrefix
      have e1 : p.groupNames.get (List.takeWhile (fun c => decide (c ≠ '_')) c.2) = some slot := h1
      rw [e1, h2]
      show Outcome.bind (Outcome.ok slot) _ ≠ _
      refine Outcome.bind_safe (by simp) fun a ha => ?_
      cases ha
      show Outcome.bind (Outcome.ok declared) _ ≠ _
      refine Outcome.bind_safe (by simp) fun a ha => ?_
      cases ha
      rw [h3]
      show Outcome.bind (Outcome.ok entity) _ ≠ _
      exact Outcome.bind_safe (by simp) fun a ha => by simp
    · simp
  · simp

theorem det_matchWith_safe {fns : TextFns} (ht : TokenizerOk fns) {p : Det} (hp : p.Sound) (o : HashOrd)
    (debug : Bool) (input intent : Text) (ms : List MatchedEntity)
    (hrep : replaceChecked debug input ms (entityPlaceholder fns) ≠ .panic) :
    p.matchWith fns debug o input intent ms ≠ .panic := by
  unfold Det.matchWith
  refine Outcome.bind_safe hrep fun replaced _ => ?_
  refine Outcome.bind_safe (det_preprocess_safe ht p _ _) fun cleaned _ => ?_
  refine Outcome.bind_safe (det_preprocess_safe ht p _ _) fun cleanedF _ => ?_
  refine Outcome.bind_safe (ofOption_safe _ _) fun patterns hpat => ?_
  have hr : p.regexes.get intent = some patterns := by
    cases h : p.regexes.get intent with
    | none => rw [h] at hpat; cases hpat
    | some x => rw [h] at hpat; cases hpat; rfl
  refine findMapOutcome_safe fun r hmem => ?_
  unfold Det.tryRegex
  refine Outcome.bind_safe (det_matching_safe hp o _ _ _ _ hr hmem) fun raw _ => ?_
  cases raw with
  | some x => simp
  | none => exact det_matching_safe hp o _ _ _ _ hr hmem

theorem replaceChecked_safe {debug : Bool} {names : KindNames} {ph : Text → Text} {w : World} {input : Text}
    {kinds : List Kind} {entities : Option (List Text)}
    (hfit : debug = true → ReplacementFits names ph w input kinds entities) {bs : List BuiltinEntity}
    {cs : List CustomEntity} (hbs : w.builtin input (some kinds) 0 = .ok bs)
    (hcs : w.custom input entities 0 = .ok cs) :
    replaceChecked debug input ((bs.map BuiltinEntity.kindMatch).map (KindMatch.toMatched names) ++
      cs.map CustomEntity.toMatched) ph ≠ .panic := by
  cases debug with
  | false => simp [replaceChecked]
  | true =>
    obtain ⟨ht, h⟩ := hfit rfl
    obtain ⟨h1, h2, h3⟩ := h bs cs hbs hcs
    have hall : ∀ m ∈ (bs.map BuiltinEntity.kindMatch).map (KindMatch.toMatched names) ++ cs.map CustomEntity.toMatched,
        m.range.NonEmpty ∧ m.range.stop ≤ input.length := by
      intro m hm
      rcases List.mem_append.1 hm with hm | hm
      · rw [List.map_map] at hm
        obtain ⟨b, hb', rfl⟩ := List.mem_map.1 hm
        exact h1 b hb'
      · obtain ⟨c, hc', rfl⟩ := List.mem_map.1 hm
        exact h2 c hc'
    rw [c17_no_overflow true input _ ph (fun m hm => (hall m hm).1) (fun m hm => (hall m hm).2) ht
      (by rw [List.map_map]; exact h3)]
    simp

theorem det_top_safe {env : RuleEnv} (ht : TokenizerOk env.fns) {p : Det} (hp : p.Sound) {w : World}
    (hw : w.NoPanic) (o : HashOrd) (input : Text) (hfit : (ParserModel.deterministic env p).Fits w input) (n : Nat)
    (wl : Option (List Text)) : (p.parseTopIntents env o input n wl).run w ≠ .panic := by
  refine Prog.bind_safe (Prog.mapM_safe fun s hs => ?_) fun _ _ => Prog.ret_safe _
  refine Prog.builtinCached_safe_of hw fun bs hbs => Prog.custom_safe_of hw fun cs hcs =>
    Prog.ofOutcome_safe (det_matchWith_safe ht hp o _ _ _ _ ?_)
  have hmem : s ∈ p.scopes := (o.perm 0 p.scopes).mem_iff.1 (List.mem_filter.1 hs).1
  exact replaceChecked_safe (fun hd => hfit hd s hmem) hbs hcs

/-! ### Classifier -/

theorem countWords_safe {F : Type} (ops : FloatOps F) (vocab : Map Text Nat) :
    ∀ (words : List Text) (features : List F) (matched : List Nat) ,
      (∀ e ∈ vocab, e.2 < features.length) →
      ∃ fs ms, countWords ops vocab words (features, matched) = .ok (fs, ms) ∧ fs.length = features.length ∧
        ∀ ix ∈ ms, ix ∈ matched ∨ ∃ e ∈ vocab, e.2 = ix
  | [], features, matched, _ => ⟨features, matched, rfl, rfl, fun _ h => Or.inl h⟩
  | word :: words, features, matched, h => by
    unfold countWords
    cases hg : vocab.get word with
    | none => exact countWords_safe ops vocab words features matched h
    | some ix =>
      have hmem := Map.get_some_mem hg
      have hix := h _ hmem
      simp only
      rw [if_pos hix]
      obtain ⟨fs, ms, h1, h2, h3⟩ := countWords_safe ops vocab words (features.modify ix fun c => ops.add c ops.one)
        (if matched.contains ix then matched else matched ++ [ix]) (by simpa using h)
      refine ⟨fs, ms, h1, by simpa using h2, fun i hi => ?_⟩
      rcases h3 i hi with h' | h'
      · split at h'
        · exact Or.inl h'
        · rcases List.mem_append.1 h' with h' | h'
          · exact Or.inl h'
          · exact Or.inr ⟨_, hmem, (List.mem_singleton.1 h').symm⟩
      · exact Or.inr h'

theorem applyIdf_safe {F : Type} (ops : FloatOps F) (idf : List F) : ∀ (ixs : List Nat) (features : List F),
    (∀ ix ∈ ixs, ix < idf.length ∧ ix < features.length) → applyIdf ops idf ixs features ≠ .panic
  | [], _, _ => by simp [applyIdf]
  | ix :: ixs, features, h => by
    unfold applyIdf
    obtain ⟨h1, h2⟩ := h ix (by simp)
    rw [List.getElem?_eq_getElem h1]
    simp only
    rw [if_pos h2]
    exact applyIdf_safe ops idf ixs _ fun i hi => by simpa using h i (by simp [hi])

theorem le_max? {l : List Nat} {m : Nat} (h : l.max? = some m) : ∀ x ∈ l, x ≤ m := by
  intro x hx
  exact (List.max?_eq_some_iff.1 h).2 x hx

theorem tfidfVector_safe {F : Type} (ops : FloatOps F) (o : HashOrd) (v : Tfidf F) (hv : v.vocabulary ≠ [])
    (hidf : ∀ e ∈ v.vocabulary, e.2 < v.idf.length) (words : List Text) : tfidfVector ops o v words ≠ .panic := by
  unfold tfidfVector
  cases hm : (v.vocabulary.map Prod.snd).max? with
  | none =>
    rw [List.max?_eq_none_iff] at hm
    simp at hm
    exact absurd hm hv
  | some m =>
    have hle : ∀ e ∈ v.vocabulary, e.2 < (List.replicate (m + 1) ops.zero).length := by
      intro e he
      have := le_max? hm e.2 (List.mem_map.2 ⟨e, he, rfl⟩)
      simp; omega
    obtain ⟨fs, ms, h1, h2, h3⟩ := countWords_safe ops v.vocabulary words _ [] hle
    show Outcome.bind (Outcome.ok m) _ ≠ _
    refine Outcome.bind_safe (by simp) fun a ha => ?_
    cases ha
    rw [h1]
    show Outcome.bind (Outcome.ok (fs, ms)) _ ≠ _
    refine Outcome.bind_safe (by simp) fun a ha => ?_
    cases ha
    refine Outcome.bind_safe (applyIdf_safe ops _ _ _ ?_) fun _ _ => by simp
    intro ix hix
    rcases h3 ix ((o.perm 0 ms).mem_iff.1 hix) with h | ⟨e, he, rfl⟩
    · cases h
    · exact ⟨hidf e he, by rw [h2]; exact hle e he⟩

theorem setPairs_safe {F : Type} (ops : FloatOps F) (table : Map (Text × Text) Nat) :
    ∀ (pairs : List (Text × Text)) (features : List F), (∀ e ∈ table, e.2 < features.length) →
      setPairs ops table pairs features ≠ .panic
  | [], _, _ => by simp [setPairs]
  | pair :: pairs, features, h => by
    unfold setPairs
    cases hg : table.get pair with
    | none => exact setPairs_safe ops table pairs features h
    | some ix =>
      simp only
      rw [if_pos (h _ (Map.get_some_mem hg))]
      exact setPairs_safe ops table pairs _ (by simpa using h)

theorem extractWordPairs_safe (env : FeatEnv) (o : HashOrd) (v : Cooc) (toks : List Text)
    (hwin : ∀ size, v.windowSize = some size → toks.length + size < 2 ^ 64) :
    v.extractWordPairs env o toks ≠ .panic := by
  rw [extractWordPairs_ok env o v toks hwin]
  simp

theorem replaceChecked_value {b : Bool} {text : Text} {ms : List MatchedEntity} {ph : Text → Text}
    {r : Map Rng Rng × Text} (h : replaceChecked b text ms ph = .ok r) : r = replaceEntities text ms ph := by
  unfold replaceChecked at h
  split at h
  · cases h
  · exact (Outcome.ok.inj h).symm

theorem featurizer_safe {F : Type} (ops : FloatOps F) (env : FeatEnv) (o : HashOrd) (f : Featurizer F)
    {w : World} (hw : w.NoPanic) (input : Text) (hf : f.Sound ∧ ∀ c, f.cooc = some c → c.SmallWindow env.names w input)
    (hfit : env.debugAssertions = true → ∀ c, f.cooc = some c →
      ReplacementFits env.names (coocPlaceholder c.fns) w input c.scope none) :
    (f.transform ops env o input).run w ≠ .panic := by
  unfold Featurizer.transform
  refine Prog.bind_safe ?_ fun features _ => ?_
  · exact Prog.builtinCached_safe hw fun bs => Prog.custom_safe hw fun cs =>
      Prog.ofOutcome_safe (tfidfVector_safe ops o _ hf.1.vocabulary hf.1.weights _)
  · cases hc : f.cooc with
    | none => exact Prog.ret_safe _
    | some v =>
      refine Prog.bind_safe ?_ fun _ _ => Prog.ret_safe _
      exact Prog.builtinCached_safe_of hw fun bs hbs => Prog.custom_safe_of hw fun cs hcs =>
        Prog.ofOutcome_safe (Outcome.bind_safe (replaceChecked_safe (fun hd => hfit hd v hc) hbs hcs) fun en hen =>
          Outcome.bind_safe (extractWordPairs_safe env o v _ fun size hs => by
            rw [replaceChecked_value hen, List.map_map]
            exact hf.2 v hc size hs bs cs hbs hcs) fun _ _ =>
            setPairs_safe ops _ _ _ (by simpa using hf.1.pairs v hc))

theorem logreg_run_safe {F : Type} (ops : FloatOps F) (m : LogReg F) (features : List F) :
    m.run ops features ≠ .panic := by
  unfold LogReg.run
  split
  · simp
  · simp only
    split <;> simp

theorem classifier_safe (ops : FloatOps ℚ) (env : FeatEnv) (o : HashOrd) (c : Classifier)
    {w : World} (hw : w.NoPanic) (input : Text)
    (hc : ∀ f, c.featurizer = some f → f.Sound ∧ ∀ v, f.cooc = some v → v.SmallWindow env.names w input)
    (hfit : env.debugAssertions = true → ∀ f, c.featurizer = some f → ∀ v, f.cooc = some v →
      ReplacementFits env.names (coocPlaceholder v.fns) w input v.scope none) (wl : Option (List Text)) :
    (c.getIntentsWithWhitelist ops env o input wl).run w ≠ .panic := by
  unfold Classifier.getIntentsWithWhitelist
  split
  · exact Prog.ret_safe _
  · split
    · exact Prog.ret_safe _
    · split
      · rename_i f m hf hm
        exact Prog.bind_safe (featurizer_safe ops env o f hw input (hc f hf) fun hd => hfit hd f hf) fun _ _ =>
          Prog.bind_safe (Prog.ofOutcome_safe (logreg_run_safe ops m _)) fun _ _ => Prog.ret_safe _
      · exact Prog.ret_safe _

/-! ### Slot filler -/

theorem touched_mem {toks : List Token} {i : Nat} {tok : Token} (h : toks[i]? = some tok) {r : Rng}
    (ho : rangesOverlap r tok.charRange = true) : i ∈ touchedTokens toks r := by
  unfold touchedTokens
  rw [List.mem_filter]
  refine ⟨by
    rw [List.mem_range]
    exact (List.getElem?_eq_some_iff.1 h).1, ?_⟩
  rw [h]
  simp only
  rw [overlap_symm]
  exact ho

theorem getSchemePrefix_safe (i : Nat) (l : List Nat) (hl : l ≠ []) (sch : Scheme) :
    getSchemePrefix i l sch ≠ .panic := by
  cases l with
  | nil => exact absurd rfl hl
  | cons a l =>
    cases sch with
    | io => simp [getSchemePrefix]
    | bio => simp [getSchemePrefix, Outcome.unwrap, Outcome.bind_eq, Outcome.bind]
    | bilou =>
      unfold getSchemePrefix
      simp only
      split
      · simp
      · simp only [List.getElem?_cons_zero, Outcome.unwrap, Outcome.bind_eq, Outcome.bind]
        split
        · simp
        · rw [List.getLast?_eq_some_getLast (by simp)]
          simp

theorem entityPrefix_safe (sch : Scheme) (toks : List Token) (i : Nat) (hi : i < toks.length) :
    ∀ rs, entityPrefix sch toks i rs ≠ .panic
  | [] => by simp [entityPrefix]
  | r :: rs => by
    unfold entityPrefix
    have hg : toks[i]? = some toks[i] := List.getElem?_eq_getElem hi
    rw [hg]
    simp only
    split
    · rename_i ho
      have := getSchemePrefix_safe i (touchedTokens toks r) (List.ne_nil_of_mem (touched_mem hg ho)) sch
      cases h : getSchemePrefix i (touchedTokens toks r) sch with
      | ok p => simp
      | err e => simp
      | panic => exact absurd h this
    · exact entityPrefix_safe sch toks i hi rs

theorem transformTokens_length (fns : TextFns) (st : Option (Text → Text)) : ∀ (toks : List Token) (a b : Nat),
    (transformTokensFrom fns st a b toks).length = toks.length
  | [], _, _ => rfl
  | t :: toks, a, b => by
    unfold transformTokensFrom
    simp only [List.length_cons]
    rw [transformTokens_length fns st toks]

theorem initialString_safe {toks : List Token} (h : toks ≠ []) : initialStringFromTokens toks ≠ .panic := by
  unfold initialStringFromTokens
  rw [if_neg h]; simp

theorem feature_safe (fns : TextFns) {w : World} (hw : w.NoPanic) (toks : List Token) (i : Nat)
    (hi : i < toks.length) (f : Feature)
    (hf : ∀ n common stemmer, f = .ngram n common stemmer → toks.length + n < 2 ^ 64) : (f.compute fns toks i).run w ≠ .panic := by
  have hg : toks[i]? = some toks[i] := List.getElem?_eq_getElem hi
  have hne : toks ≠ [] := by rintro rfl; simp at hi
  cases f with
  | isDigit => exact Prog.ofOutcome_safe (by rw [hg]; simp [Outcome.unwrap, Outcome.bind_eq, Outcome.bind])
  | length => exact Prog.ofOutcome_safe (by rw [hg]; simp [Outcome.unwrap, Outcome.bind_eq, Outcome.bind])
  | isFirst => exact Prog.ret_safe _
  | isLast =>
    unfold Feature.compute
    rw [if_neg hne]
    exact Prog.ret_safe _
  | ngram n c st =>
    have h1 := hf n c st rfl
    have h2 : ¬ usizeCount ≤ i + n := by rw [Nat.not_le]; show i + n < 2 ^ 64; omega
    simp only [Feature.compute, if_neg h2]
    exact Prog.ret_safe _
  | shapeNgram n => exact Prog.ret_safe _
  | pfx n => exact Prog.ofOutcome_safe (by rw [hg]; simp [Outcome.unwrap, Outcome.bind_eq, Outcome.bind])
  | sfx n => exact Prog.ofOutcome_safe (by rw [hg]; simp [Outcome.unwrap, Outcome.bind_eq, Outcome.bind])
  | entityMatch e sch st =>
    have hl := transformTokens_length fns st toks 0 0
    refine Prog.bind_safe (Prog.ofOutcome_safe (initialString_safe ?_)) fun text _ => ?_
    · intro h
      have : (transformTokens fns st toks).length = toks.length := hl
      rw [h] at this
      exact hne (List.length_eq_zero_iff.1 this.symm)
    · exact Prog.custom_safe hw fun es => Prog.ofOutcome_safe (entityPrefix_safe _ _ _ (by
        show i < (transformTokensFrom fns st 0 0 toks).length
        rw [hl]; exact hi) _)
  | builtinEntityMatch k kid sch =>
    refine Prog.bind_safe (Prog.ofOutcome_safe (initialString_safe hne)) fun text _ => ?_
    exact Prog.builtinCached_safe hw fun es => Prog.ofOutcome_safe (entityPrefix_safe _ _ _ hi _)
  | wordCluster n g => exact Prog.ofOutcome_safe (by rw [hg]; simp [Outcome.unwrap, Outcome.bind_eq, Outcome.bind])

theorem featureLoop_safe (fns : TextFns) {w : World} (hw : w.NoPanic) (toks : List Token) (o : Offsetter)
    (ho : ∀ n common stemmer, o.feature = .ngram n common stemmer → toks.length + n < 2 ^ 64) :
    ∀ (is : List Nat) (feats : List (List (Text × Text))), (∀ i ∈ is, i < toks.length) →
      (featureLoop fns toks o is feats).run w ≠ .panic
  | [], _, _ => Prog.ret_safe _
  | i :: is, feats, h => by
    unfold featureLoop
    refine Prog.bind_safe (feature_safe fns hw toks i (h i (by simp)) _ ho) fun v _ => ?_
    cases v with
    | none => exact featureLoop_safe fns hw toks o ho is _ fun j hj => h j (by simp [hj])
    | some v => exact featureLoop_safe fns hw toks o ho is _ fun j hj => h j (by simp [hj])

theorem computeFeatures_safe (fns : TextFns) {w : World} (hw : w.NoPanic) (toks : List Token) :
    ∀ (os : List Offsetter) (feats : List (List (Text × Text))),
      (∀ o ∈ os, ∀ n common stemmer, o.feature = .ngram n common stemmer → toks.length + n < 2 ^ 64) →
      (offsettersLoop fns toks os feats).run w ≠ .panic
  | [], _, _ => Prog.ret_safe _
  | o :: os, feats, h => by
    unfold offsettersLoop
    exact Prog.bind_safe (featureLoop_safe fns hw toks o (h o (by simp)) _ _ fun i hi => List.mem_range.1 hi) fun _ _ =>
      computeFeatures_safe fns hw toks os _ fun o ho => h o (by simp [ho])

theorem goSpans_bounds (sch : Scheme) : ∀ (tags : List Text) (prev : Option Text) (i cur : Nat), cur ≤ i →
    ∀ s ∈ goSpans sch prev i cur tags, s.first ≤ s.last ∧ s.last < i + tags.length
  | [], _, _, _, _ => by simp [goSpans]
  | t :: rest, prev, i, cur, h => by
    intro s hs
    unfold goSpans at hs
    simp only at hs
    have hcur : (if startP sch prev t = true then i else cur) ≤ i := by split <;> omega
    generalize (if startP sch prev t = true then i else cur) = cur' at hs hcur
    split at hs
    · rcases List.mem_cons.1 hs with rfl | hs
      · exact ⟨hcur, by simp⟩
      · have := goSpans_bounds sch rest (some t) (i + 1) i (by omega) s hs
        simp only [List.length_cons]
        omega
    · have := goSpans_bounds sch rest (some t) (i + 1) cur' (by omega) s hs
      simp only [List.length_cons]
      omega

theorem ordered_tokens {text : Text} {toks : List Token} (h : Tokenized text toks) {i j : Nat} (hij : i ≤ j)
    {a b : Token} (ha : toks[i]? = some a) (hb : toks[j]? = some b) : a.charRange.start ≤ b.charRange.stop := by
  have na := h.nonempty a (List.mem_of_getElem? ha)
  have nb := h.nonempty b (List.mem_of_getElem? hb)
  unfold Rng.NonEmpty at na nb
  rcases Nat.lt_or_ge i j with hlt | hge
  · obtain ⟨hi, rfl⟩ := List.getElem?_eq_some_iff.1 ha
    obtain ⟨hj, rfl⟩ := List.getElem?_eq_some_iff.1 hb
    have := List.pairwise_iff_getElem.1 h.ordered i j hi hj hlt
    omega
  · have : i = j := by omega
    subst this
    rw [ha] at hb
    cases hb
    omega

theorem tagsToSlots_safe {text : Text} {toks : List Token} (h : Tokenized text toks) (hb : BytesAgree text toks)
    (tags : List Text) (hlen : tags.length ≤ toks.length) (sch : Scheme) (mapping : Map Text Text) :
    tagsToSlots text toks tags sch mapping ≠ .panic := by
  unfold tagsToSlots
  rw [tagsToSlotRanges_eq]
  have hbounds := goSpans_bounds sch tags none 0 0 (Nat.le_refl _)
  obtain ⟨ranges, h1, h2⟩ := mapOutcome_spans toks (goSpans sch none 0 0 tags) fun s hs => by
    have := hbounds s hs
    omega
  rw [h1]
  show mapOutcome _ ranges ≠ _
  refine mapOutcome_safe fun r hr => ?_
  obtain ⟨k, hk, rfl⟩ := List.mem_iff_getElem.1 hr
  have hk' : k < (goSpans sch none 0 0 tags).length := by rw [h2.length_eq]; exact hk
  have hspan := h2.get hk' hk
  simp only [List.get_eq_getElem] at hspan
  obtain ⟨_, a, b, ha, hb', hr1, _⟩ := hspan
  have hord := ordered_tokens h (hbounds _ (List.getElem_mem hk')).1 ha hb'
  have hA := (hb a (List.mem_of_getElem? ha)).1
  have hB := (hb b (List.mem_of_getElem? hb')).2
  unfold slotRangeToSlot
  rw [hr1, hA.slice hB hord]
  show Outcome.bind (Outcome.ok _) _ ≠ _
  exact Outcome.bind_safe (by simp) fun _ _ => Outcome.bind_safe (ofOption_safe _ _) fun _ _ => by simp

theorem slotFiller_safe {f : SlotFiller} (ht : TokenizerOk f.fns) {codec : TagCodec}
    (hc : ∀ t, codec.decode t ≠ .panic) (hf : ∀ t, f.tagger = some t → t.Sound) {w : World}
    (hw : w.NoPanic) (text : Text) (hn : f.SmallNgrams text) : (f.getSlots codec text).run w ≠ .panic := by
  unfold SlotFiller.getSlots
  split
  · rename_i tagger os htag hos
    simp only
    split
    · exact Prog.ret_safe _
    · refine Prog.bind_safe (computeFeatures_safe f.fns hw _ os _ fun o ho n c st hfe =>
        hn os hos o ho n c st hfe) fun features hfeat => Prog.ofOutcome_safe ?_
      have hlen : features.length = (f.fns.tokenize text).length := by
        have := (offsettersLoop_at f.fns w _ os _ _ hfeat).1
        simpa using this
      refine Outcome.bind_safe ((hf tagger htag).noPanic _) fun encoded henc => ?_
      refine Outcome.bind_safe (mapOutcome_safe fun t _ => hc t) fun tags htags => ?_
      refine tagsToSlots_safe (ht text).1 (ht text).2 tags ?_ _ _
      rw [← (mapOutcome_ok_iff.1 htags).length_eq, ← hlen]
      exact (hf tagger htag).count _ _ henc
  · exact Prog.ret_safe _

/-! ### Engine -/

theorem resolveOne_safe (e : Engine) (n : Nat) (bs : List BuiltinEntity) (cs : List CustomEntity) {w : World}
    (hw : w.NoPanic) (slot : InternalSlot) : (e.resolveOne n bs cs slot).run w ≠ .panic := by
  unfold Engine.resolveOne
  split
  · unfold resolveCustomSlot
    split
    · exact Prog.ret_safe _
    · exact Prog.custom_safe hw fun _ => Prog.ret_safe _
  · unfold resolveBuiltinSlot
    refine Prog.bind_safe (Prog.ofOutcome_safe (ofOption_safe _ _)) fun kind _ => ?_
    split
    · exact Prog.ret_safe _
    · exact Prog.builtinFresh_safe hw fun _ => Prog.ret_safe _

theorem resolveEach_safe (e : Engine) (n : Nat) (bs : List BuiltinEntity) (cs : List CustomEntity) {w : World}
    (hw : w.NoPanic) : ∀ slots, (e.resolveEach n bs cs slots).run w ≠ .panic
  | [] => Prog.ret_safe _
  | s :: slots => by
    unfold Engine.resolveEach
    exact Prog.bind_safe (resolveOne_safe e n bs cs hw s) fun _ _ =>
      Prog.bind_safe (resolveEach_safe e n bs cs hw slots) fun _ _ => Prog.ret_safe _

theorem resolveSlots_safe (e : Engine) (text : Text) (slots : List InternalSlot) (n : Nat) {w : World}
    (hw : w.NoPanic) : (e.resolveSlots text slots n).run w ≠ .panic := by
  unfold Engine.resolveSlots
  split
  · exact Prog.ret_safe _
  · exact Prog.builtinFresh_safe hw fun _ => Prog.custom_safe hw fun _ => resolveEach_safe e n _ _ hw slots

/-- No call of the parser panics. -/
structure ParserImpl.SafeIn (w : World) (input : Text) (p : ParserImpl) : Prop where
  parse : ∀ o wl, (p.parse o input wl).run w ≠ .panic
  intents : ∀ o, (p.getIntents o input).run w ≠ .panic
  slots : ∀ o intent, (p.getSlots o input intent).run w ≠ .panic

theorem parser_safe {w : World} (hw : w.NoPanic) (input : Text) (p : ParserModel) (hp : p.Sound)
    (hfit : p.Fits w input) : p.impl.SafeIn w input := by
  cases p with
  | lookup env p =>
    have hd : env.debugAssertions = false := hfit
    have hparse : ∀ o wl, (p.parse env o input wl).run w ≠ .panic := fun o wl =>
      Prog.bind_safe (lookup_top_safe hd hp hw o input 1 wl) fun _ _ => Prog.ret_safe _
    refine ⟨hparse, fun o => Prog.bind_safe (lookup_top_safe hd hp hw o input _ none) fun _ _ => Prog.ret_safe _,
      fun o intent => ?_⟩
    show (p.getSlots env o input intent).run w ≠ _
    unfold Lookup.getSlots
    split
    · exact Prog.bind_safe (hparse _ _) fun _ _ => Prog.ret_safe _
    · exact Prog.fail_safe _
  | deterministic env p =>
    obtain ⟨ht, hp⟩ := hp
    have hparse : ∀ o wl, (p.parse env o input wl).run w ≠ .panic := fun o wl =>
      Prog.bind_safe (det_top_safe ht hp hw o input hfit 1 wl) fun _ _ => Prog.ret_safe _
    refine ⟨hparse, fun o => Prog.bind_safe (det_top_safe ht hp hw o input hfit _ none) fun _ _ => Prog.ret_safe _,
      fun o intent => ?_⟩
    show (p.getSlots env o input intent).run w ≠ _
    unfold Det.getSlots
    split
    · exact Prog.bind_safe (hparse _ _) fun _ _ => Prog.ret_safe _
    · exact Prog.fail_safe _
  | probabilistic env p =>
    obtain ⟨hc, hcl, hsf⟩ := hp
    obtain ⟨⟨hwin, hng⟩, hfit⟩ := hfit
    have hcl := fun f hf => And.intro (hcl f hf) (hwin f hf)
    have hslots : ∀ err intent, (p.slotsOf env err input intent).run w ≠ .panic := by
      intro err intent
      unfold Prob.slotsOf
      split
      · rename_i filler hfl
        obtain ⟨h1, h2⟩ := hsf intent filler hfl
        exact slotFiller_safe h1 hc h2 hw input (hng intent filler hfl)
      · exact Prog.fail_safe _
    refine ⟨fun o wl => ?_, fun o => classifier_safe _ _ _ _ hw _ hcl hfit _, fun o intent => hslots _ _⟩
    show (p.parse env o input wl).run w ≠ _
    unfold Prob.parse
    refine Prog.bind_safe (Prog.bind_safe (classifier_safe _ _ _ _ hw _ hcl hfit _) fun _ _ => Prog.ret_safe _)
      fun res _ => ?_
    split
    · exact Prog.bind_safe (hslots _ _) fun _ _ => Prog.ret_safe _
    · exact Prog.ret_safe _

variable {e : Engine} {w : World} {input : Text}

theorem cascade_safe (hw : w.NoPanic) (o : HashOrd) (input : Text) (wl : Option (List Text)) (n : Nat) :
    ∀ (ps : List ParserImpl) (i : Nat) (q : ℚ), (∀ p ∈ ps, p.SafeIn w input) →
      (e.cascade o input wl n i ps q).run w ≠ .panic
  | [], _, _, _ => Prog.ret_safe _
  | p :: ps, i, q, h => by
    unfold Engine.cascade
    refine Prog.bind_safe ((h p (by simp)).parse _ _) fun r _ => ?_
    split
    · exact Prog.bind_safe (resolveSlots_safe e _ _ _ hw) fun _ _ => Prog.ret_safe _
    · exact cascade_safe hw o input wl n ps _ _ fun p' hp' => h p' (by simp [hp'])

theorem collectIntents_safe (o : HashOrd) (input : Text) :
    ∀ (ps : List ParserImpl) (i : Nat) (m : Map (Option Text) IntentResult), (∀ p ∈ ps, p.SafeIn w input) →
      (Engine.collectIntents o input i ps m).run w ≠ .panic
  | [], _, _, _ => Prog.ret_safe _
  | p :: ps, i, m, h => by
    unfold Engine.collectIntents
    exact Prog.bind_safe ((h p (by simp)).intents _) fun _ _ =>
      collectIntents_safe o input ps _ _ fun p' hp' => h p' (by simp [hp'])

theorem slotsCascade_safe (hw : w.NoPanic) (o : HashOrd) (input intent : Text) (n : Nat) :
    ∀ (ps : List ParserImpl) (i : Nat), (∀ p ∈ ps, p.SafeIn w input) →
      (e.slotsCascade o input intent n i ps).run w ≠ .panic
  | [], _, _ => Prog.ret_safe _
  | p :: ps, i, h => by
    unfold Engine.slotsCascade
    refine Prog.bind_safe ((h p (by simp)).slots _ _) fun r _ => ?_
    split
    · exact slotsCascade_safe hw o input intent n ps _ fun p' hp' => h p' (by simp [hp'])
    · exact resolveSlots_safe e _ _ _ hw

theorem getSlots_safe (hw : w.NoPanic) (he : ∀ p ∈ e.parsers, p.SafeIn w input) (o : HashOrd) (intent : Text)
    (n : Nat) : (e.getSlotsWithAlternatives o input intent n).run w ≠ .panic :=
  slotsCascade_safe hw o input intent n _ _ he

theorem getIntents_safe (he : ∀ p ∈ e.parsers, p.SafeIn w input) (o : HashOrd) :
    (e.getIntents o input).run w ≠ .panic :=
  Prog.bind_safe (collectIntents_safe _ input _ _ _ he) fun _ _ => Prog.ret_safe _

theorem alternativesSlots_safe (hw : w.NoPanic) (he : ∀ p ∈ e.parsers, p.SafeIn w input) (o : HashOrd)
    (n : Nat) : ∀ (rs : List IntentResult) (i : Nat), (e.alternativesSlots o input n i rs).run w ≠ .panic
  | [], _ => Prog.ret_safe _
  | r :: rs, i => by
    unfold Engine.alternativesSlots
    refine Prog.bind_safe ?_ fun _ _ => Prog.bind_safe (alternativesSlots_safe hw he o n rs _) fun _ _ =>
      Prog.ret_safe _
    unfold Engine.alternativeSlots
    split
    · exact getSlots_safe hw he _ _ _
    · exact Prog.ret_safe _

theorem whitelist_safe (o : HashOrd) (wl bl : Option (List Text)) : e.getIntentsWhitelist o wl bl ≠ .panic := by
  unfold Engine.getIntentsWhitelist
  simp only
  split <;> simp

theorem parseWith_safe (hw : w.NoPanic) (he : ∀ p ∈ e.parsers, p.SafeIn w input) (o : HashOrd)
    (wl bl : Option (List Text)) (ni ns : Nat) : (e.parseWithAlternatives o input wl bl ni ns).run w ≠ .panic := by
  unfold Engine.parseWithAlternatives
  refine Prog.bind_safe (Prog.ofOutcome_safe (whitelist_safe _ _ _)) fun eff _ => ?_
  refine Prog.bind_safe (cascade_safe hw _ _ _ _ _ _ _ he) fun main _ => ?_
  split
  · exact Prog.ret_safe _
  · exact Prog.bind_safe (getIntents_safe he _) fun ranked _ =>
      Prog.bind_safe (alternativesSlots_safe hw he _ _ _ _) fun _ _ => Prog.ret_safe _

theorem extract_safe (hw : w.NoPanic) (input intent slot : Text) (n : Nat) :
    (e.extractSlotWithAlternatives input intent slot n).run w ≠ .panic := by
  unfold Engine.extractSlotWithAlternatives
  refine Prog.bind_safe (Prog.ofOutcome_safe (ofOption_safe _ _)) fun mapping _ => ?_
  refine Prog.bind_safe (Prog.ofOutcome_safe (ofOption_safe _ _)) fun entity _ => ?_
  split
  · exact Prog.custom_safe hw fun _ => Prog.ret_safe _
  · exact Prog.bind_safe (Prog.ofOutcome_safe (ofOption_safe _ _)) fun kind _ =>
      Prog.builtinFresh_safe hw fun _ => Prog.ret_safe _

end Snips
