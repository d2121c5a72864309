import Verif.Props.C41_Tfidf
import Verif.Props.C17_Replace
import Verif.Props.C34_Combinations

/-! # C42: word co-occurrence features -/

namespace Snips

theorem setPairs_spec {F : Type} (ops : FloatOps F) (table : Map (Text × Text) Nat) :
    ∀ (pairs : List (Text × Text)) (features : List F),
      (∀ p ix, table.get p = some ix → ix < features.length) →
      ∃ out, setPairs ops table pairs features = .ok out ∧ out.length = features.length ∧
        ∀ ix, ((∃ p ∈ pairs, table.get p = some ix) → out[ix]? = some ops.one) ∧
          ((¬ ∃ p ∈ pairs, table.get p = some ix) → out[ix]? = features[ix]?) := by
  intro pairs
  induction pairs with
  | nil => intro features _; exact ⟨features, rfl, rfl, fun ix => ⟨by simp, fun _ => rfl⟩⟩
  | cons p pairs ih =>
    intro features hb
    unfold setPairs
    cases hp : table.get p with
    | none =>
      obtain ⟨out, h1, h2, h3⟩ := ih features hb
      refine ⟨out, h1, h2, fun ix => ?_⟩
      have : (∃ q ∈ p :: pairs, table.get q = some ix) ↔ ∃ q ∈ pairs, table.get q = some ix := by
        simp [hp]
      rw [this]
      exact h3 ix
    | some k =>
      have hk := hb p k hp
      simp only
      rw [if_pos hk]
      obtain ⟨out, h1, h2, h3⟩ := ih (features.set k ops.one) (by simpa using hb)
      refine ⟨out, h1, by simpa using h2, fun ix => ?_⟩
      by_cases hin : ∃ q ∈ pairs, table.get q = some ix
      · obtain ⟨q, hq, hqi⟩ := hin
        exact ⟨fun _ => (h3 ix).1 ⟨q, hq, hqi⟩, fun h => absurd ⟨q, by simp [hq], hqi⟩ h⟩
      · have hout := (h3 ix).2 hin
        rw [List.getElem?_set] at hout
        by_cases hki : k = ix
        · subst hki
          rw [if_pos rfl, if_pos hk] at hout
          exact ⟨fun _ => hout, fun h => absurd ⟨p, by simp, hp⟩ h⟩
        · rw [if_neg hki] at hout
          refine ⟨?_, fun _ => hout⟩
          rintro ⟨q, hq, hqi⟩
          rcases List.mem_cons.1 hq with rfl | hq
          · rw [hp] at hqi; cases hqi; exact absurd rfl hki
          · exact absurd ⟨q, hq, hqi⟩ hin

theorem pairOf_eq (v : Cooc) (a b : Text) :
    v.pairOf a b = if v.keepOrder then (a, b) else if a < b then (a, b) else (b, a) := by
  unfold Cooc.pairOf
  cases v.keepOrder <;> simp

theorem mem_pairsFrom (v : Cooc) (toks : List Text) (p : Text × Text) :
    p ∈ v.pairsFrom toks ↔ CoOccur v.windowSize v.keepOrder toks p := by
  induction toks with
  | nil =>
    unfold Cooc.pairsFrom CoOccur
    simp
  | cons t rest ih =>
    unfold Cooc.pairsFrom
    rw [List.mem_append, ih]
    constructor
    · rintro (h | ⟨i, j, a, b, hij, hw, ha, hb, hp⟩)
      · obtain ⟨b, hb, hp⟩ := List.mem_map.1 h
        obtain ⟨j, hj⟩ := List.mem_iff_getElem?.1 hb
        cases hws : v.windowSize with
        | none =>
          rw [hws] at hj
          exact ⟨0, j + 1, t, b, by omega, (by simp), rfl, by simpa using hj, by rw [← hp, pairOf_eq]⟩
        | some w =>
          rw [hws] at hj
          simp only [List.getElem?_take] at hj
          split at hj
          · rename_i hlt
            exact ⟨0, j + 1, t, b, by omega, (by intro w' hw'; cases hw'; omega), rfl, by simpa using hj,
              by rw [← hp, pairOf_eq]⟩
          · cases hj
      · exact ⟨i + 1, j + 1, a, b, by omega, (by intro w h; have := hw w h; omega), by simpa using ha,
          by simpa using hb, hp⟩
    · rintro ⟨i, j, a, b, hij, hw, ha, hb, hp⟩
      obtain ⟨j, rfl⟩ : ∃ j', j = j' + 1 := ⟨j - 1, by omega⟩
      rw [List.getElem?_cons_succ] at hb
      cases i with
      | zero =>
        left
        simp only [List.getElem?_cons_zero, Option.some.injEq] at ha
        subst ha
        refine List.mem_map.2 ⟨b, ?_, by rw [pairOf_eq, hp]⟩
        cases hws : v.windowSize with
        | none => exact List.mem_of_getElem? hb
        | some w =>
          have := hw w hws
          refine List.mem_of_getElem? (i := j) ?_
          rw [List.getElem?_take, if_pos (by omega), hb]
      | succ i =>
        right
        rw [List.getElem?_cons_succ] at ha
        exact ⟨i, j, a, b, by omega, (by intro w h; have := hw w h; omega), ha, hb, hp⟩

theorem relevant_filterTokens (env : FeatEnv) (v : Cooc) (toks : List Text) :
    RelevantTokens env v toks (v.filterTokens env.stopWords toks) := by
  unfold RelevantTokens Cooc.filterTokens
  apply List.filter_congr
  intro t _
  rw [Bool.eq_iff_iff]
  have h : (some t == v.unknownWord) = true ↔ v.unknownWord = some t := by
    rw [beq_iff_eq]; exact eq_comm
  have h2 : (!(some t == v.unknownWord)) = true ↔ v.unknownWord ≠ some t := by
    have := not_iff_not.2 h
    rw [Bool.not_eq_true] at this
    rw [Bool.not_eq_true', this]
  rw [Bool.and_eq_true, h2, decide_eq_true_eq]
  constructor
  · rintro ⟨a, b⟩
    refine ⟨?_, b⟩
    rintro ⟨c, d⟩
    rw [c] at a
    simp [d] at a
  · rintro ⟨a, b⟩
    refine ⟨?_, b⟩
    cases hf : v.filterStopWords with
    | false => simp
    | true =>
      simp only [Bool.true_and, Bool.not_eq_true', List.contains_eq_mem, decide_eq_false_iff_not]
      exact fun d => a ⟨hf, d⟩

theorem extractWordPairs_ok (env : FeatEnv) (o : HashOrd) (v : Cooc) (toks : List Text)
    (hwin : ∀ size, v.windowSize = some size → toks.length + size < 2 ^ 64) :
    v.extractWordPairs env o toks = .ok (o.order 1 (unique (v.pairsFrom (v.filterTokens env.stopWords toks)))) := by
  unfold Cooc.extractWordPairs
  rw [if_neg]
  unfold Cooc.windowOverflows
  cases hw : v.windowSize with
  | none => simp
  | some size =>
    have h1 := hwin size hw
    have h2 : (v.filterTokens env.stopWords toks).length ≤ toks.length := by
      unfold Cooc.filterTokens
      exact List.length_filter_le _ _
    simp only [decide_eq_true_eq]
    rintro ⟨_, h⟩
    have h3 : 2 ^ 64 ≤ (v.filterTokens env.stopWords toks).length + size := h
    omega

/-- With a consistently numbered table, the vectorizer answers as soon as the two extractors do (if the window, added to
the number of tokens, is a machine integer); the
utterance (of less than 2^15 characters before and after substitution, if overflows are checked) is cut into
plain pieces and entity matches, the matches kept by de-duplication (C16); among the
relevant tokens of the text in which the matches are replaced by their capitalised name, the pairs of the
table that co-occur have entry one, the others zero. -/
theorem c42_entries {F : Type} (ops : FloatOps F) (env : FeatEnv) (o : HashOrd) (v : Cooc) (utterance : Text)
    (w : World) (bs : List BuiltinEntity) (cs : List CustomEntity)
    (hv : v.Consistent)
    (hb : w.builtin utterance (some v.scope) 0 = .ok bs) (hc : w.custom utterance none 0 = .ok cs)
    (hbs : ∀ b ∈ bs, b.range.NonEmpty ∧ b.range.stop ≤ utterance.length)
    (hcs : ∀ c ∈ cs, c.range.NonEmpty ∧ c.range.stop ≤ utterance.length)
    (hsize : env.debugAssertions = true → utterance.length < 32768 ∧
      (replaceEntities utterance (bs.map (fun b => ⟨b.range, env.names.identifier b.kind⟩) ++
        cs.map fun c => ⟨c.range, c.identifier⟩) (fun n => v.fns.upper (v.fns.tokenizeLight n).flatten)).2.length
          < 32768)
    (hwin : ∀ size, v.windowSize = some size → ∀ t, (v.fns.tokenizeLight t).length + size < 2 ^ 64) :
    ∃ (out : List F) (segs : List Seg) (kept : List Text),
      (v.transform ops env o utterance).run w = .ok out ∧
      origText segs = utterance ∧
      (occs (fun n => v.fns.upper (v.fns.tokenizeLight n).flatten) 0 0 segs).map
          (fun oc => (⟨oc.orig, oc.name⟩ : MatchedEntity))
        = dedupEntities (bs.map (fun b => ⟨b.range, env.names.identifier b.kind⟩) ++
            cs.map fun c => ⟨c.range, c.identifier⟩) ∧
      RelevantTokens env v (v.fns.tokenizeLight
        (replText (fun n => v.fns.upper (v.fns.tokenizeLight n).flatten) segs)) kept ∧
      out.length = v.wordPairs.length ∧
      ∀ pair ix, (pair, ix) ∈ v.wordPairs →
        (CoOccur v.windowSize v.keepOrder kept pair → out[ix]? = some ops.one) ∧
        (¬ CoOccur v.windowSize v.keepOrder kept pair → out[ix]? = some ops.zero) := by
  have hph : coocPlaceholder v.fns = fun n => v.fns.upper (v.fns.tokenizeLight n).flatten := by
    funext n; unfold coocPlaceholder; rw [joinWith_nil]
  have hms : ((bs.map BuiltinEntity.kindMatch).map (KindMatch.toMatched env.names)) ++ cs.map CustomEntity.toMatched
      = bs.map (fun b => (⟨b.range, env.names.identifier b.kind⟩ : MatchedEntity)) ++
          cs.map fun c => (⟨c.range, c.identifier⟩ : MatchedEntity) := by
    rw [List.map_map]; rfl
  have hall : ∀ m ∈ bs.map (fun b => (⟨b.range, env.names.identifier b.kind⟩ : MatchedEntity)) ++
      cs.map (fun c => (⟨c.range, c.identifier⟩ : MatchedEntity)),
      m.range.NonEmpty ∧ m.range.stop ≤ utterance.length := by
    intro m hm
    rcases List.mem_append.1 hm with h | h
    · obtain ⟨b, h1, rfl⟩ := List.mem_map.1 h; exact hbs b h1
    · obtain ⟨b, h1, rfl⟩ := List.mem_map.1 h; exact hcs b h1
  obtain ⟨segs, hs1, hs2, hs3⟩ := c17_text utterance _ (fun n => v.fns.upper (v.fns.tokenizeLight n).flatten)
    (fun m hm => (hall m hm).1) (fun m hm => (hall m hm).2)
  obtain ⟨hn1, hn2, hbd⟩ := hv
  have hget : ∀ p ix, v.wordPairs.get p = some ix → ix < v.wordPairs.length :=
    fun p ix h => hbd _ (Map.get_some_mem h)
  generalize hkept : v.filterTokens env.stopWords (v.fns.tokenizeLight
    (replText (fun n => v.fns.upper (v.fns.tokenizeLight n).flatten) segs)) = kept
  obtain ⟨out, ho1, ho2, ho3⟩ := setPairs_spec ops v.wordPairs
    (o.order 1 (unique (v.pairsFrom kept))) (List.replicate v.wordPairs.length ops.zero)
    (by simpa using hget)
  have hrun : (v.transform ops env o utterance).run w = .ok out := by
    unfold Cooc.transform
    have hrep : replaceChecked env.debugAssertions utterance
        (bs.map (fun b => (⟨b.range, env.names.identifier b.kind⟩ : MatchedEntity)) ++
          cs.map fun c => (⟨c.range, c.identifier⟩ : MatchedEntity))
        (fun n => v.fns.upper (v.fns.tokenizeLight n).flatten) = .ok (replaceEntities utterance
        (bs.map (fun b => (⟨b.range, env.names.identifier b.kind⟩ : MatchedEntity)) ++
          cs.map fun c => (⟨c.range, c.identifier⟩ : MatchedEntity))
        (fun n => v.fns.upper (v.fns.tokenizeLight n).flatten)) := by
      cases hd : env.debugAssertions with
      | false => rfl
      | true =>
        exact c17_no_overflow true _ _ _ (fun m hm => (hall m hm).1) (fun m hm => (hall m hm).2) (hsize hd).1
          (hsize hd).2
    simp only [Prog.run, hb, hc, Prog.run_ofOutcome, hms, hph, hrep, Outcome.bind_eq, Outcome.bind, hs3]
    rw [extractWordPairs_ok env o v _ fun size hs => hwin size hs _, hkept]
    exact ho1
  have hrel := relevant_filterTokens env v (v.fns.tokenizeLight
    (replText (fun n => v.fns.upper (v.fns.tokenizeLight n).flatten) segs))
  rw [hkept] at hrel
  refine ⟨out, segs, kept, hrun, hs1, hs2, hrel, by simpa using ho2, ?_⟩
  intro pair ix hmem
  have hpix : v.wordPairs.get pair = some ix := Map.get_of_mem hn1 hmem
  have hiff : (∃ p ∈ o.order 1 (unique (v.pairsFrom kept)), v.wordPairs.get p = some ix) ↔
      CoOccur v.windowSize v.keepOrder kept pair := by
    rw [← mem_pairsFrom]
    constructor
    · rintro ⟨p, hp, hpi⟩
      rw [(o.perm 1 _).mem_iff, mem_unique] at hp
      have hm2 := Map.get_some_mem hpi
      have : (p, ix) = (pair, ix) := List.inj_on_of_nodup_map hn2 hm2 hmem rfl
      cases this
      exact hp
    · intro hp
      exact ⟨pair, by rw [(o.perm 1 _).mem_iff, mem_unique]; exact hp, hpix⟩
  have h3 := ho3 ix
  rw [hiff] at h3
  refine ⟨h3.1, fun h => ?_⟩
  rw [h3.2 h, List.getElem?_replicate, if_pos (hget _ _ hpix)]

theorem invertPairs_fold (l : List (Nat × (Text × Text))) (acc : Map (Text × Text) Nat)
    (hv : (l.map Prod.snd).Nodup) (hd : ∀ e ∈ l, e.2 ∉ acc.keys) :
    (l.foldl (fun acc e => acc.insert e.2 e.1) acc) = acc ++ l.map fun e => (e.2, e.1) := by
  induction l generalizing acc with
  | nil => simp
  | cons e l ih =>
    rw [List.foldl_cons]
    have hins : ∀ (m : Map (Text × Text) Nat), e.2 ∉ m.keys → m.insert e.2 e.1 = m ++ [(e.2, e.1)] := by
      intro m
      induction m with
      | nil => intro _; rfl
      | cons x m ihm =>
        intro hm
        simp only [Map.keys, List.map_cons, List.mem_cons, not_or] at hm
        have : Map.insert (x :: m) e.2 e.1 = x :: Map.insert m e.2 e.1 := by
          obtain ⟨xk, xv⟩ := x
          show (if xk = e.2 then _ else _) = _
          rw [if_neg (by simpa [eq_comm] using hm.1)]
        rw [this, ihm hm.2]
        rfl
    rw [List.map_cons, List.nodup_cons] at hv
    rw [ih _ hv.2, hins _ (hd e (by simp))]
    · simp
    · intro e' he'
      rw [Map.keys_insert_mem]
      rintro (h | h)
      · exact hv.1 (List.mem_map.2 ⟨e', he', h⟩)
      · exact hd e' (by simp [he']) h

/-- The table built from a model that numbers distinct pairs `0, …, n - 1` is consistent and has the same
entries. -/
theorem c42_table (o : HashOrd) (m : Map Nat (Text × Text)) (hk : m.keys.Nodup) (hv : (m.map Prod.snd).Nodup)
    (hb : ∀ e ∈ m, e.1 < m.length) (v : Cooc) (h : v.wordPairs = invertPairs o m) :
    v.Consistent ∧ ∀ pair ix, (pair, ix) ∈ v.wordPairs ↔ (ix, pair) ∈ m := by
  have hp := o.perm 0 m
  have e : v.wordPairs = (o.order 0 m).map fun e => (e.2, e.1) := by
    rw [h]
    unfold invertPairs
    rw [invertPairs_fold _ [] ((hp.map _).nodup_iff.2 hv) (by simp [Map.keys])]
    rfl
  have hmem : ∀ pair ix, (pair, ix) ∈ v.wordPairs ↔ (ix, pair) ∈ m := by
    intro pair ix
    rw [e, List.mem_map]
    constructor
    · rintro ⟨a, ha, h⟩
      cases h
      exact hp.mem_iff.1 ha
    · intro h
      exact ⟨_, hp.mem_iff.2 h, rfl⟩
  refine ⟨⟨?_, ?_, ?_⟩, hmem⟩
  · rw [e, List.map_map]
    exact (hp.map _).nodup_iff.2 hv
  · rw [e, List.map_map]
    exact (hp.map _).nodup_iff.2 hk
  · rintro ⟨pair, ix⟩ he
    have := hb _ ((hmem _ _).1 he)
    rw [e, List.length_map, hp.length_eq]
    exact this

/-- With a table numbered otherwise, a matching pair makes the vectorizer panic. -/
theorem c42_inconsistent_counterexample {F : Type} (ops : FloatOps F) (o : HashOrd) :
    ∃ (env : FeatEnv) (v : Cooc) (utterance : Text) (w : World),
      (v.transform ops env o utterance).run w = .panic := by
  refine ⟨demoFeatEnv, ⟨spacedFns, [], [((['a'], ['b']), 1)], false, none, true, none⟩, ['a', ' ', 'b'], demoWorld0, ?_⟩
  have h1 : ∀ x : Text × Text, o.order 1 [x] = [x] := fun x => List.perm_singleton.1 (o.perm 1 [x])
  unfold Cooc.transform
  simp only [Prog.run, demoWorld0, Prog.run_ofOutcome]
  have h2 : Cooc.extractWordPairs demoFeatEnv o ⟨spacedFns, [], [((['a'], ['b']), 1)], false, none, true, none⟩
      (spacedFns.tokenizeLight ['a', ' ', 'b']) = .ok [(['a'], ['b'])] := by
    rw [extractWordPairs_ok _ _ _ _ (by simp), ← h1]
    congr 1
  show (Outcome.bind (Cooc.extractWordPairs demoFeatEnv o ⟨spacedFns, [], [((['a'], ['b']), 1)], false, none, true, none⟩
    (spacedFns.tokenizeLight ['a', ' ', 'b'])) fun pairs => setPairs ops [((['a'], ['b']), 1)] pairs
      [ops.zero]) = .panic
  rw [h2]
  rfl

/-- With the largest window, any relevant token makes the vectorizer panic. -/
theorem c42_window_counterexample {F : Type} (ops : FloatOps F) (o : HashOrd) :
    ∃ (env : FeatEnv) (v : Cooc) (utterance : Text) (w : World), v.Consistent ∧ v.windowSize = some (2 ^ 64 - 1) ∧
      (v.transform ops env o utterance).run w = .panic :=
  ⟨demoFeatEnv, ⟨spacedFns, [], [], false, some (2 ^ 64 - 1), true, none⟩, ['a', ' ', 'b'], demoWorld0,
    ⟨by decide, by decide, by simp⟩, rfl, rfl⟩

/-! ### Concrete cases -/

def demoCooc (keep : Bool) : Cooc :=
  ⟨spacedFns, [], [((['a'], ['b']), 0), ((['a'], ['c']), 1), ((['a'], ['d']), 2)], true, some 1, keep, some ['u']⟩

def demoFeatEnv3 : FeatEnv := { demoFeatEnv with stopWords := [['s']] }

example (keep : Bool) : (demoCooc keep).Consistent :=
  ⟨by cases keep <;> decide, by cases keep <;> decide, by cases keep <;> decide⟩

/-- `a b` do not occur in this order, `a c` is too far, `a d` are neighbours once `s` and `u` are ignored. -/
example : ((demoCooc true).transform crudeOps demoFeatEnv3 HashOrd.insertion "cbasud".toList).run demoWorld0
    = .ok [0, 0, 1] := by decide +kernel

example : ((demoCooc false).transform crudeOps demoFeatEnv3 HashOrd.insertion "cbasud".toList).run demoWorld0
    = .ok [1, 0, 1] := by decide +kernel

/-- A tokenizer and a window that meet the condition on machine integers. -/
example (keep : Bool) : ∀ size, (demoCooc keep).windowSize = some size → ∀ t : Text,
    (({ spacedFns with tokenizeLight := fun t => [t] } : TextFns).tokenizeLight t).length + size < 2 ^ 64 := by
  intro size h t
  cases h
  simp

example : CoOccur (some 1) false ["c".toList, "b".toList, "a".toList, "d".toList] (['a'], ['b']) :=
  ⟨1, 2, ['b'], ['a'], by decide, by simp, rfl, rfl, by decide⟩

end Snips
