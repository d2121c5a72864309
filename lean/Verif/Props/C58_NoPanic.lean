import Verif.Proofs.Safety
import Verif.Props.C01_Engine
import Verif.Props.C20_Shifts
import Verif.Props.C22_Concurrent
import Verif.Spec.RuleDemo

/-! # C58: calls on an engine with a well-formed model never panic -/

namespace Snips

/-! ### Extraction of custom entities -/

theorem charShiftsFrom_length (toks : List Token) : ∀ (pe s : Int),
    (∀ t ∈ toks, t.charRange.stop = t.charRange.start + t.value.length) →
    (charShiftsFrom (pe, 1) s toks).length = (toks.map fun t => t.value.length + 1).sum := by
  induction toks with
  | nil => intro _ _ _; rfl
  | cons t ts ih =>
    intro pe s h
    have ht := h t (by simp)
    have hrep : ((t.charRange.count : Int) + 1).toNat = t.value.length + 1 := by unfold Rng.count; omega
    simp only [charShiftsFrom, hrep, List.length_append, List.length_replicate, List.map_cons, List.sum_cons]
    rw [ih _ _ fun t' h' => h t' (by simp [h'])]

theorem joinWith_length (t : Token) (ts : List Token) :
    (joinWith [' '] ((t :: ts).map Token.value)).length
      = t.value.length + (ts.map fun t => t.value.length + 1).sum := by
  induction ts generalizing t with
  | nil => simp [joinWith]
  | cons t' ts ih =>
    have := ih t'
    simp only [List.map_cons] at this
    simp only [List.map_cons, joinWith, List.length_append, List.length_cons, List.length_nil, List.sum_cons, this]
    omega

/-- There is one shift per character of the joined tokens. -/
theorem computeCharShifts_length (toks : List Token)
    (h : ∀ t ∈ toks, t.charRange.stop = t.charRange.start + t.value.length) :
    (computeCharShifts toks).length = (joinWith [' '] (toks.map Token.value)).length := by
  cases toks with
  | nil => rfl
  | cons t ts =>
    rw [joinWith_length]
    have ht := h t (by simp)
    have hrep : ((t.charRange.count : Int) + 0).toNat = t.value.length := by unfold Rng.count; omega
    simp only [computeCharShifts, charShiftsFrom, hrep, List.length_append, List.length_replicate]
    rw [charShiftsFrom_length ts _ _ fun t' h' => h t' (by simp [h'])]

/-- Extraction of custom entities does not panic, whatever the sentence, the scope and the number of
alternatives. -/
theorem c58_extraction (x : Ext) (hx : x.Sound) (sentence : Text) (kinds : Option (List Text)) (n : Nat) :
    x.customExtract sentence kinds n ≠ .panic := by
  unfold Ext.customExtract
  simp only
  cases hg : x.gazetteer (joinWith [' '] ((x.tokenize sentence).map Token.value)) kinds n with
  | err e => simp
  | panic => exact absurd hg (hx.gazetteer _ _ _)
  | ok es =>
    refine mapOutcome_safe fun e he => ?_
    obtain ⟨h1, h2⟩ := hx.inside _ _ _ _ hg e he
    rw [← computeCharShifts_length _ (hx.tokens sentence).len] at h2
    obtain ⟨stop, hstop⟩ : ∃ stop, e.range.stop = stop + 1 := ⟨e.range.stop - 1, by omega⟩
    unfold remapEntity
    rw [List.getElem?_eq_getElem (by omega), hstop]
    simp only
    rw [List.getElem?_eq_getElem (by omega)]
    simp

/-! ### Parsers -/

/-- A release build accepts every text for which the windows and n-grams are small enough. -/
theorem c58_release {p : ParserModel} (hp : p.Release) (w : World) (input : Text) (hs : p.Small w input) :
    p.Fits w input := by
  cases p with
  | lookup env p => exact hp
  | deterministic env p =>
    intro hd
    rw [show env.debugAssertions = false from hp] at hd
    cases hd
  | probabilistic env p =>
    refine ⟨hs, fun hd => ?_⟩
    rw [show env.feat.debugAssertions = false from hp] at hd
    cases hd

/-- No call on a well-formed parser panics: whatever the text (short enough, in a debug build), the filter, the
intent asked for and the iteration order of the hash tables, there is a result or an error. -/
theorem c58_parser (p : ParserModel) (hp : p.Sound) (w : World) (hw : w.NoPanic) (o : HashOrd) (input : Text)
    (hfit : p.Fits w input) :
    (∀ filter, (p.impl.parse o input filter).run w ≠ .panic) ∧ (p.impl.getIntents o input).run w ≠ .panic ∧
      ∀ intent, (p.impl.getSlots o input intent).run w ≠ .panic :=
  have h := parser_safe hw input p hp hfit
  ⟨h.parse o, h.intents o, h.slots o⟩

/-! ### Engines -/

theorem ofParsers_safe {w : World} (hw : w.NoPanic) {dataset : DatasetMetadata} {names : KindNames}
    {ps : List ParserModel} {input : Text} (hp : ∀ p ∈ ps, p.Sound) (hfit : ∀ p ∈ ps, p.Fits w input) :
    ∀ q ∈ (Engine.ofParsers dataset names ps).parsers, q.SafeIn w input := by
  intro q hq
  obtain ⟨p, hm, rfl⟩ := List.mem_map.1 hq
  exact parser_safe hw input p (hp p hm) (hfit p hm)

/-- No call on an engine made of well-formed parsers panics: whatever the text (in a release build: `c58_release`;
short enough, in a debug build without lookup parser), the filters, the intent and slot asked for, the number of
alternatives and the iteration order of the hash tables, there is a result or an error.  Nothing is asked of the
dataset metadata. -/
theorem c58_engine (dataset : DatasetMetadata) (names : KindNames) (ps : List ParserModel)
    (hp : ∀ p ∈ ps, p.Sound) (w : World) (hw : w.NoPanic) (o : HashOrd) (input : Text)
    (hfit : ∀ p ∈ ps, p.Fits w input) :
    let e := Engine.ofParsers dataset names ps
    (∀ whitelist blacklist, (e.parse o input whitelist blacklist).run w ≠ .panic) ∧
    (∀ whitelist blacklist intents slots,
      (e.parseWithAlternatives o input whitelist blacklist intents slots).run w ≠ .panic) ∧
    (e.getIntents o input).run w ≠ .panic ∧
    (∀ intent, (e.getSlots o input intent).run w ≠ .panic) ∧
    (∀ intent alternatives, (e.getSlotsWithAlternatives o input intent alternatives).run w ≠ .panic) ∧
    (∀ intent slot, (e.extractSlot input intent slot).run w ≠ .panic) ∧
    ∀ intent slot alternatives, (e.extractSlotWithAlternatives input intent slot alternatives).run w ≠ .panic := by
  have he := ofParsers_safe hw (dataset := dataset) (names := names) hp hfit
  exact ⟨fun _ _ => parseWith_safe hw he _ _ _ _ _, fun _ _ _ _ => parseWith_safe hw he _ _ _ _ _,
    getIntents_safe he _, fun _ => getSlots_safe hw he _ _ _, fun _ _ => getSlots_safe hw he _ _ _,
    fun _ _ => extract_safe hw _ _ _ _, fun _ _ _ => extract_safe hw _ _ _ _⟩

/-- With the caches: after any number of calls of any kind, at any times, on an engine made of well-formed
parsers, in a release build, parsing does not panic.  (`past` may be any calls at all, of this engine or not, that share its
caches.) -/
theorem c58_history (dataset : DatasetMetadata) (names : KindNames) (ps : List ParserModel)
    (hp : ∀ p ∈ ps, p.Sound) (hrel : ∀ p ∈ ps, p.Release) (x : Ext) (hts : x.TimeStable) (hx : x.Sound) (cap : Nat)
    (past : List (Nat × Prog ParseResult)) (time : Nat) (o : HashOrd) (input : Text)
    (hs : ∀ p ∈ ps, p.Small (x.world time) input) (whitelist blacklist : Option (List Text)) (intents slots : Nat) :
    (((Engine.ofParsers dataset names ps).parseWithAlternatives o input whitelist blacklist intents slots).runCached
      x time (runHistory x past (Caches.empty cap)).2).1 ≠ .panic := by
  have hnp : x.NoPanic := ⟨fun t s kinds n => hx.builtin t s kinds n, c58_extraction x hx⟩
  obtain ⟨_, h2, h3⟩ := runHistory_spec hts hnp past _ (Caches.empty_sound x cap) (Caches.empty_healthy cap)
  rw [(runCached_spec hts hnp time _ _ h2 h3).1]
  exact (c58_engine dataset names ps hp (x.world time) ⟨fun s kinds n => hnp.1 time (x.lower s) kinds n,
    fun s kinds n => hnp.2 (x.lower s) kinds n⟩ o input fun p hm => c58_release (hrel p hm) _ input (hs p hm)).2.1
    whitelist blacklist intents slots

/-! ### What goes wrong otherwise -/

/-- An empty vocabulary panics, in any world. -/
theorem c58_empty_vocabulary_counterexample (ops : FloatOps ℚ) (o : HashOrd) (fns : TextFns) (idf : List ℚ)
    (words : List Text) : tfidfVector ops o ⟨fns, [], [], idf, none, none⟩ words = .panic := rfl

/-- A gazetteer match that is empty, at the beginning of the text, panics. -/
theorem c58_empty_match_counterexample (shifts : List Int) (e : CustomEntity) (h : e.range = ⟨0, 0⟩) :
    remapEntity shifts e = .panic := by
  unfold remapEntity
  rw [h]
  split
  · rename_i h'; simp at h'
  · rfl

/-- Release build of the demonstration environment. -/
def releaseEnv : RuleEnv := { demoEnv with debugAssertions := false }

/-- An entry whose intent number is out of range, one whose number is negative, and one whose slot number is out
of range, panic when they are hit. -/
theorem c58_lookup_ids_counterexample :
    ((({ demoLookup with intentsNames := ["brew".toList] } : Lookup).parse releaseEnv HashOrd.insertion "stop".toList
      none).run ruleWorld = .panic) ∧
    ((({ demoLookup with map := [(demoEnv.fns.hashStr "stop".toList, (-1, []))] } : Lookup).parse releaseEnv
      HashOrd.insertion "stop".toList none).run ruleWorld = .panic) ∧
    ((({ demoLookup with slotsNames := ["count".toList] } : Lookup).parse releaseEnv HashOrd.insertion
      "make two tea".toList (some ["brew".toList])).run ruleWorld = .panic) := by
  refine ⟨by decide +kernel, by decide +kernel, by decide +kernel⟩

/-- In a debug build, a user who types a placeholder makes the parser panic: the text is found in the table as it
is, and there is no entity for the slots of the entry. -/
theorem c58_debug_placeholder_counterexample :
    (demoLookup.parse demoEnv HashOrd.insertion "make %snips/number% %drink%".toList none).run ruleWorld = .panic := by
  decide +kernel

theorem dedupEntities_singleton (m : MatchedEntity) : dedupEntities [m] = [m] := rfl

/-- A text of less than 2^15 characters with an entity at its end. -/
theorem long_text_overflows {text : Text} (ht : text.length < 32768) (ph : Text → Text) (m : MatchedEntity)
    (hne : m.range.NonEmpty) (hin : m.range.stop ≤ text.length) (hl : (ph m.name).length < 32768)
    (hb : 32768 ≤ m.range.start + (ph m.name).length) :
    replaceChecked true text [m] ph = .panic := by
  have hne' : ∀ m' ∈ [m], m'.range.NonEmpty := fun m' hm => (List.mem_singleton.1 hm) ▸ hne
  have hin' : ∀ m' ∈ [m], m'.range.stop ≤ text.length := fun m' hm => (List.mem_singleton.1 hm) ▸ hin
  refine (c17_debug text [m] ph hne' hin' ht (fun m' hm => (List.mem_singleton.1 hm) ▸ hl)).2 ?_
  intro hend
  obtain ⟨segs, h1, h2', _⟩ := c17_text text [m] ph hne' hin'
  have := hend segs h1 h2'
  rw [occs_eq_occOf, h2', dedupEntities_singleton] at this
  have h := this _ (List.mem_singleton.2 rfl)
  simp only [Nat.sub_zero, Nat.zero_add] at h
  exact absurd h (Nat.not_lt.2 hb)

theorem matchIntent_overflow {env : RuleEnv} {p : Det} {intent : Text} {scope : List Kind × List Text} {input : Text}
    {b : BuiltinEntity} (o : HashOrd) (custom : Text → Option (List Text) → Nat → Outcome (List CustomEntity))
    (hcustom : custom input (some scope.2) 0 = .ok [] := by rfl)
    (hov : replaceChecked env.debugAssertions input [⟨b.range, env.names.identifier b.kind⟩]
      (entityPlaceholder env.fns) = .panic) :
    (p.matchIntent env o input (intent, scope)).run ⟨fun _ _ _ => .ok [b], custom⟩ = .panic := by
  unfold Det.matchIntent
  simp only [Prog.run, hcustom, Prog.run_ofOutcome]
  unfold Det.matchWith
  have e : [b].map BuiltinEntity.kindMatch = [b.kindMatch] := rfl
  rw [e]
  have e2 : [b.kindMatch].map (KindMatch.toMatched env.names) ++ ([] : List CustomEntity).map CustomEntity.toMatched
      = [⟨b.range, env.names.identifier b.kind⟩] := rfl
  rw [e2, hov]
  rfl

/-- In a debug build a text with an entity near position 2^15 makes the deterministic parser panic as soon as an
intent is tried, whatever the model. -/
theorem c58_debug_overflow_counterexample (fns : TextFns) (names : KindNames) (rd : Rounding) (p : Det) (intent : Text)
    (scope : List Kind × List Text) (hp : p.scopes = [(intent, scope)]) (o : HashOrd)
    (hl : (entityPlaceholder fns (names.identifier 0)).length < 32768) :
    ∃ (w : World) (input : Text), w.NoPanic ∧ (∀ b, w.builtin input (some scope.1) 0 = .ok b →
        ∀ e ∈ b, e.range.NonEmpty ∧ e.range.stop ≤ input.length) ∧
      (p.parse ⟨fns, names, rd, true⟩ o input (some [intent])).run w = .panic := by
  obtain ⟨k, hk⟩ : ∃ k, k = 32766 := ⟨_, rfl⟩
  refine ⟨⟨fun _ _ _ => .ok [⟨"a".toList, ⟨k, k + 1⟩, .builtin 0, [], 0⟩], fun _ _ _ => .ok []⟩,
    List.replicate (k + 1) 'a', ⟨fun _ _ _ => by simp, fun _ _ _ => by simp⟩, ?_, ?_⟩
  · intro b hb e he
    cases hb
    rw [List.mem_singleton] at he
    subst he
    rw [List.length_replicate]
    exact ⟨Nat.lt_succ_self k, Nat.le_refl _⟩
  · have hph : 2 ≤ (entityPlaceholder fns (names.identifier 0)).length := by simp [entityPlaceholder]
    have hov := long_text_overflows (text := List.replicate (k + 1) 'a') (by rw [List.length_replicate]; omega)
      (entityPlaceholder fns) ⟨⟨k, k + 1⟩, names.identifier 0⟩ (Nat.lt_succ_self k) (by rw [List.length_replicate]) hl
      (by simp only; omega)
    have ho : o.order 0 [(intent, scope)] = [(intent, scope)] := List.perm_singleton.1 (o.perm 0 _)
    have hf : ([(intent, scope)].filter fun s => p.inIntentsSet (some [intent]) s.1) = [(intent, scope)] := by
      simp [Det.inIntentsSet]
    have hrun := matchIntent_overflow (env := ⟨fns, names, rd, true⟩) (p := p) (intent := intent) (scope := scope) o
      (b := ⟨"a".toList, ⟨k, k + 1⟩, .builtin 0, [], 0⟩) (fun _ _ _ => .ok []) rfl hov
    unfold Det.parse Det.parseTopIntents
    rw [hp, ho, hf, Prog.run_bind, Prog.run_bind]
    unfold Prog.mapM
    rw [Prog.run_bind, hrun]
    rfl

/-- In a release build the same text is parsed, without the slots. -/
theorem c58_release_placeholder :
    (demoLookup.parse releaseEnv HashOrd.insertion "make %snips/number% %drink%".toList none).run ruleWorld
      = .ok ⟨⟨some "brew".toList, 1⟩, []⟩ := by
  decide +kernel

/-- A group that denotes no slot, and a slot that is not declared for the intent, panic when a pattern matches. -/
theorem c58_group_counterexample :
    ((({ demoDet with groupNames := [] } : Det).parse demoEnv HashOrd.insertion "make two".toList none).run ruleWorld
      = .panic) ∧
    ((({ demoDet with slotEntities := [("brew".toList, [])] } : Det).parse demoEnv HashOrd.insertion
      "make two".toList none).run ruleWorld = .panic) := by
  refine ⟨by decide +kernel, by decide +kernel⟩

/-- A tagger that answers with more tags than tokens makes the slot filler panic. -/
theorem c58_tags_counterexample :
    ((⟨wholeTextFns, .bio, some ⟨fun _ => .ok [['O'], ['B', '-', 'a']], .ok [], fun _ _ => .ok 0⟩, some [],
      [(['a'], ['e'])]⟩ : SlotFiller).getSlots ⟨id, .ok⟩ ['x']).run demoWorld0 = .panic := by
  decide +kernel

/-! ### Concrete cases -/

/-- An engine of the three kinds of parsers, all sound. -/
def soundParsers : List ParserModel :=
  [.lookup releaseEnv demoLookup, .deterministic { releaseEnv with fns := wholeTextFns } demoDet,
    .probabilistic demoEngineEnv ⟨demoClassifier, [(['b'], oneSlotFiller)]⟩]

example : ∀ p ∈ soundParsers, p.Release := by
  intro p hp
  simp only [soundParsers, List.mem_cons, List.not_mem_nil, or_false] at hp
  rcases hp with rfl | rfl | rfl <;> rfl

/-- A debug build, with a text that is short enough. -/
example : (ParserModel.deterministic demoEnv demoDet).Fits ruleWorld "make two tea".toList := by
  intro _ s hs
  refine ⟨by decide, fun bs cs hbs hcs => ?_⟩
  simp only [ruleWorld, Outcome.ok.injEq] at hbs hcs
  subst hbs hcs
  revert s
  simp only [Rng.NonEmpty]
  decide +kernel

example : ∀ p ∈ soundParsers, p.Sound := by
  intro p hp
  simp only [soundParsers, List.mem_cons, List.not_mem_nil, or_false] at hp
  rcases hp with rfl | rfl | rfl
  · exact ⟨by decide +kernel, by decide +kernel⟩
  · refine ⟨wholeTextFns_ok, ?_⟩
    intro intent patterns h r hr group hg
    have hmem := Map.get_some_mem h
    simp only [demoDet, List.mem_cons, List.not_mem_nil, or_false, Prod.mk.injEq] at hmem
    rcases hmem with ⟨rfl, rfl⟩ | ⟨rfl, rfl⟩ | ⟨rfl, rfl⟩
    · rw [List.mem_singleton] at hr; subst hr
      simp only [literalRegex, List.mem_cons, List.not_mem_nil, or_false, Option.some.injEq, reduceCtorEq,
        false_or] at hg
      subst hg
      exact ⟨"count".toList, _, "snips/number".toList, by decide +kernel, rfl, by decide +kernel⟩
    · rw [List.mem_singleton] at hr; subst hr; simp [plainRegex] at hg
    · rw [List.mem_singleton] at hr; subst hr; simp [plainRegex] at hg
  · refine ⟨fun t => by simp [demoEngineEnv], ?_, ?_⟩
    · intro f hf
      cases hf
      exact ⟨by simp, by decide, by intro c hc; cases hc⟩
    · intro intent filler h
      have hmem := Map.get_some_mem h
      simp only [List.mem_singleton, Prod.mk.injEq] at hmem
      obtain ⟨_, rfl⟩ := hmem
      refine ⟨wholeTextFns_ok, fun t ht => ?_⟩
      cases ht
      exact ⟨by intro f; simp [oneSlotTagger], by intro f tags h; cases h; simp⟩

example : ∀ p ∈ soundParsers, p.Small demoWorld0 "make two tea".toList := by
  intro p hp
  simp only [soundParsers, List.mem_cons, List.not_mem_nil, or_false] at hp
  rcases hp with rfl | rfl | rfl
  · trivial
  · trivial
  · refine ⟨fun f hf c hc => ?_, fun intent filler h => ?_⟩
    · cases hf; cases hc
    · have hmem := Map.get_some_mem h
      simp only [List.mem_singleton, Prod.mk.injEq] at hmem
      obtain ⟨_, rfl⟩ := hmem
      intro os hos o ho
      cases hos; cases ho

/-- A vectorizer with windows of five words. -/
def fiveWords : Cooc := ⟨ruleFns, [], [], false, some 5, true, none⟩

/-- A slot filler with n-grams of two words. -/
def twoGrams : SlotFiller := ⟨ruleFns, .bio, none, some [⟨.ngram 2 none none, [-1, 0, 1]⟩], []⟩

/-- They are small enough for a text of three words. -/
example : fiveWords.SmallWindow demoKinds ruleWorld "make two tea".toList ∧ twoGrams.SmallNgrams "make two tea".toList := by
  refine ⟨?_, ?_⟩
  · intro size hs bs cs hb hc
    cases hs; cases hb; cases hc
    decide +kernel
  · intro os hos o ho n common stemmer hf
    cases hos
    rw [List.mem_singleton] at ho
    subst ho
    cases hf
    decide +kernel

example : demoWorld0.NoPanic := ⟨fun _ _ _ => by simp [demoWorld0], fun _ _ _ => by simp [demoWorld0]⟩

example : demoExt.Sound := by
  refine ⟨?_, ?_, ?_, ?_⟩
  · intro t
    by_cases h : t = []
    · subst h
      exact ⟨fun _ h => (by cases h), fun _ h => (by cases h), fun _ h => (by cases h), List.Pairwise.nil⟩
    · have : demoExt.tokenize t = [⟨t, ⟨0, t.length⟩, ⟨0, t.length⟩⟩] := by simp [demoExt, h]
      rw [this]
      refine ⟨?_, ?_, ?_, List.pairwise_singleton _ _⟩ <;> intro tok hm <;> rw [List.mem_singleton] at hm <;> subst hm
      · exact List.length_pos_iff.2 h
      · exact Nat.le_refl _
      · simp
  · intro t s kinds n
    simp only [demoExt]
    split <;> simp
  · intro s kinds n
    simp only [demoExt]
    split <;> simp
  · intro s kinds n es h e he
    simp only [demoExt] at h
    split at h
    · cases h; cases he
    · rename_i hs
      cases h
      rw [List.mem_singleton] at he
      subst he
      exact ⟨List.length_pos_iff.2 hs, Nat.le_refl _⟩

end Snips
