import Verif.Spec.Requests
import Verif.Spec.EngineShared
import Verif.Proofs.Extracting
import Verif.Proofs.Map

/-! Codes whose requests are, for all answers, among some. -/

namespace Snips

open Prog

/-- All requests to the caches, for all answers, are among these. -/
inductive Prog.Asks {α : Type} (B : Text → Option (List Kind) → Prop) (C : Text → Option (List Text) → Nat → Prop) : Prog α → Prop where
  | ret (a) : Asks B C (.ret a)
  | fail (e) : Asks B C (.fail e)
  | panic : Asks B C .panic
  | cached {s kinds k} : B s kinds → (∀ r, Asks B C (k r)) → Asks B C (.builtinCached s kinds k)
  | fresh {s kinds n k} : (∀ r, Asks B C (k r)) → Asks B C (.builtinFresh s kinds n k)
  | custom {s kinds n k} : C s kinds n → (∀ r, Asks B C (k r)) → Asks B C (.custom s kinds n k)

namespace Prog.Asks

variable {α β : Type} {B : Text → Option (List Kind) → Prop} {C : Text → Option (List Text) → Nat → Prop}

theorem bind {p : Prog α} {f : α → Prog β} (h : Asks B C p) (hf : ∀ a, Asks B C (f a)) : Asks B C (p.bind f) := by
  induction h with
  | ret a => exact hf a
  | fail e => exact .fail e
  | panic => exact .panic
  | cached hb _ ih => exact .cached hb ih
  | fresh _ ih => exact .fresh ih
  | custom hc _ ih => exact .custom hc ih

theorem mono {B' : Text → Option (List Kind) → Prop} {C' : Text → Option (List Text) → Nat → Prop} {p : Prog α} (h : Asks B C p)
    (hb : ∀ s k, B s k → B' s k) (hc : ∀ s k n, C s k n → C' s k n) : Asks B' C' p := by
  induction h with
  | ret a => exact .ret a
  | fail e => exact .fail e
  | panic => exact .panic
  | cached h _ ih => exact .cached (hb _ _ h) ih
  | fresh _ ih => exact .fresh ih
  | custom h _ ih => exact .custom (hc _ _ _ h) ih

theorem ofOutcome (o : Outcome α) : Asks B C (Prog.ofOutcome o) := by
  cases o with
  | ok a => exact .ret a
  | err e => exact .fail e
  | panic => exact .panic

theorem mapM {f : α → Prog β} : ∀ {l : List α}, (∀ a ∈ l, Asks B C (f a)) → Asks B C (Prog.mapM f l)
  | [], _ => .ret _
  | a :: l, h => by
    unfold Prog.mapM
    exact (h a List.mem_cons_self).bind fun b => (mapM fun a ha => h a (List.mem_cons_of_mem _ ha)).bind fun bs => .ret _

/-- What a code asks for is what it may ask for. -/
theorem accesses {p : Prog α} (h : Asks B C p) (x : Ext) (t : Nat) : ∀ c, ∀ a ∈ p.accesses x t c,
    (∀ k, a.key = .inl k → ∃ s, B s k.kinds ∧ k = ⟨x.lower s, k.kinds, 0⟩) ∧
    (∀ k, a.key = .inr k → ∃ s, C s k.kinds k.maxAlt ∧ k = ⟨x.lower s, k.kinds, k.maxAlt⟩) := by
  induction h with
  | ret a => intro c a ha; cases ha
  | fail e => intro c a ha; cases ha
  | panic => intro c a ha; cases ha
  | @cached s kinds k hb _ ih =>
    intro c a ha
    unfold Prog.accesses at ha
    rcases List.mem_cons.1 ha with rfl | ha
    · refine ⟨fun k hk => ?_, fun k hk => by cases hk⟩
      simp only [Sum.inl.injEq] at hk
      subst hk
      exact ⟨s, hb, rfl⟩
    · split at ha
      · exact ih _ _ a ha
      · cases ha
  | fresh _ ih =>
    intro c a ha
    unfold Prog.accesses at ha
    split at ha
    · exact ih _ _ a ha
    · cases ha
  | @custom s kinds n k hc _ ih =>
    intro c a ha
    unfold Prog.accesses at ha
    rcases List.mem_cons.1 ha with rfl | ha
    · refine ⟨fun k hk => (by cases hk), fun k hk => ?_⟩
      simp only [Sum.inr.injEq] at hk
      subst hk
      exact ⟨s, hc, rfl⟩
    · split at ha
      · exact ih _ _ a ha
      · cases ha

end Prog.Asks

/-! ### The parsers -/

/-- The requests for builtin entities of a parser, for a query. -/
def ParserModel.builtinList (input : Text) : ParserModel → List (Text × Option (List Kind))
  | .lookup env p => p.scopes.map fun s =>
      (input, match mapOutcome env.names.fromIdentifierOrErr s.builtin with
        | .ok kinds => some kinds
        | _ => none)
  | .deterministic _ p => p.scopes.map fun s => (input, some s.2.1)
  | .probabilistic _ p =>
      [(input, p.classifier.featurizer.map fun f => f.tfidf.scope),
       (input, p.classifier.featurizer.bind fun f => f.cooc.map fun c => c.scope)] ++
      p.slotFillers.flatMap fun f => (f.2.processor.getD []).filterMap fun o =>
        match o.feature with
        | .builtinEntityMatch kind _ _ =>
          some ((match initialStringFromTokens (f.2.fns.tokenize input) with | .ok t => t | _ => []), some [kind])
        | _ => none

/-- Its requests for custom entities. -/
def ParserModel.customList (input : Text) : ParserModel → List (Text × Option (List Text))
  | .lookup _ p => p.scopes.map fun s => (input, some s.custom)
  | .deterministic _ p => p.scopes.map fun s => (input, some s.2.2)
  | .probabilistic _ p =>
      [((match p.classifier.featurizer with
          | some f => joinWith [' '] (normalizeStem f.tfidf.fns (f.tfidf.fns.tokenizeLight input) f.tfidf.stemmer)
          | none => []), none), (input, none)] ++
      p.slotFillers.flatMap fun f => (f.2.processor.getD []).filterMap fun o =>
        match o.feature with
        | .entityMatch entity _ stemmer =>
          some ((match initialStringFromTokens (transformTokens f.2.fns stemmer (f.2.fns.tokenize input)) with | .ok t => t | _ => []),
            some [entity])
        | _ => none

theorem filterMap_length {α β : Type} (f : α → Option β) (g : α → Bool) (h : ∀ a, (f a).isSome = g a) (l : List α) :
    (l.filterMap f).length = (l.filter g).length := by
  induction l with
  | nil => rfl
  | cons a l ih =>
    have := h a
    cases hf : f a with
    | none => rw [hf] at this; simp [hf, ← this, ih]
    | some b => rw [hf] at this; simp [hf, ← this, ih]

theorem flatMap_length {α β γ : Type} {f : α → List β} {g : α → List γ} (h : ∀ a, (f a).length = (g a).length) (l : List α) :
    (l.flatMap f).length = (l.flatMap g).length := by
  induction l with
  | nil => rfl
  | cons a l ih => simp [List.flatMap_cons, h, ih]

theorem builtinList_length (input : Text) (p : ParserModel) : (p.builtinList input).length = p.builtinAsks := by
  cases p with
  | lookup env p => simp [ParserModel.builtinList, ParserModel.builtinAsks]
  | deterministic env p => simp [ParserModel.builtinList, ParserModel.builtinAsks]
  | probabilistic env p =>
    simp only [ParserModel.builtinList, ParserModel.builtinAsks, List.length_append, Prob.features, List.filter_flatMap]
    refine congrArg (2 + ·) (flatMap_length (fun f => filterMap_length _ _ (fun o => ?_) _) _)
    unfold Offsetter.asksBuiltin
    cases o.feature <;> rfl

theorem customList_length (input : Text) (p : ParserModel) : (p.customList input).length = p.customAsks := by
  cases p with
  | lookup env p => simp [ParserModel.customList, ParserModel.customAsks]
  | deterministic env p => simp [ParserModel.customList, ParserModel.customAsks]
  | probabilistic env p =>
    simp only [ParserModel.customList, ParserModel.customAsks, List.length_append, Prob.features, List.filter_flatMap]
    refine congrArg (2 + ·) (flatMap_length (fun f => filterMap_length _ _ (fun o => ?_) _) _)
    unfold Offsetter.asksCustom
    cases o.feature <;> rfl

variable {B : Text → Option (List Kind) → Prop} {C : Text → Option (List Text) → Nat → Prop}

theorem lookupTop_asks (env : RuleEnv) (o : HashOrd) (p : Lookup) (input : Text) (n : Nat) (wl : Option (List Text))
    (hB : ∀ s ∈ p.scopes, ∀ kinds, mapOutcome env.names.fromIdentifierOrErr s.builtin = .ok kinds → B input (some kinds))
    (hC : ∀ s ∈ p.scopes, C input (some s.custom) 0) : Asks B C (p.parseTopIntents env o input n wl) := by
  have hall : ∀ s ∈ p.scopes, Asks B C (Lookup.allEntities env input s) := by
    intro s hs
    unfold Lookup.allEntities
    have := hB s hs
    revert this
    generalize mapOutcome env.names.fromIdentifierOrErr s.builtin = o
    intro this
    cases o with
    | ok kinds => exact .cached (this kinds rfl) fun _ => .custom (hC s hs) fun _ => .ret _
    | err e => exact .fail e
    | panic => exact .panic
  have hcand : ∀ scopes : List GroupedScope, (∀ s ∈ scopes, s ∈ p.scopes) → Asks B C (p.candidatesFrom env input wl scopes) := by
    intro scopes
    induction scopes with
    | nil => intro _; exact .ret _
    | cons s scopes ih =>
      intro h
      have hrest := ih fun s hs => h s (List.mem_cons_of_mem _ hs)
      unfold Lookup.candidatesFrom
      split
      · exact hrest
      · exact (hall s (h s List.mem_cons_self)).bind fun _ => hrest.bind fun _ => .ret _
  unfold Lookup.parseTopIntents Lookup.getCandidates
  exact ((hcand p.scopes fun _ h => h).bind fun _ => .ret _).bind fun _ => (Asks.ofOutcome _).bind fun _ => .ret _

theorem detTop_asks (env : RuleEnv) (o : HashOrd) (p : Det) (input : Text) (n : Nat) (wl : Option (List Text))
    (hB : ∀ s ∈ p.scopes, B input (some s.2.1)) (hC : ∀ s ∈ p.scopes, C input (some s.2.2) 0) :
    Asks B C (p.parseTopIntents env o input n wl) := by
  unfold Det.parseTopIntents
  refine (Asks.mapM fun s hs => ?_).bind fun _ => .ret _
  have hs := (o.perm 0 p.scopes).mem_iff.1 (List.mem_filter.1 hs).1
  unfold Det.matchIntent
  exact .cached (hB s hs) fun _ => .custom (hC s hs) fun _ => Asks.ofOutcome _

theorem classifier_asks (ops : FloatOps ℚ) (env : FeatEnv) (o : HashOrd) (c : Classifier) (input : Text) (wl : Option (List Text))
    (hB : ∀ f, c.featurizer = some f → B input (some f.tfidf.scope) ∧ ∀ v, f.cooc = some v → B input (some v.scope))
    (hC : ∀ f, c.featurizer = some f →
      C (joinWith [' '] (normalizeStem f.tfidf.fns (f.tfidf.fns.tokenizeLight input) f.tfidf.stemmer)) none 0 ∧ C input none 0) :
    Asks B C (c.getIntentsWithWhitelist ops env o input wl) := by
  unfold Classifier.getIntentsWithWhitelist
  split
  · exact .ret _
  · split
    · exact .ret _
    · split
      · rename_i f l hf hl
        refine Asks.bind ?_ fun _ => (Asks.ofOutcome _).bind fun _ => .ret _
        unfold Featurizer.transform Tfidf.transform
        refine Asks.bind (.cached (hB f hf).1 fun _ => .custom (hC f hf).1 fun _ => Asks.ofOutcome _) fun _ => ?_
        cases hv : f.cooc with
        | none => exact .ret _
        | some v =>
          simp only
          unfold Cooc.transform
          exact Asks.bind (.cached ((hB f hf).2 v hv) fun _ => .custom (hC f hf).2 fun _ => Asks.ofOutcome _) fun _ => .ret _
      · exact .ret _

theorem feature_asks (fns : TextFns) (toks : List Token) (i : Nat) (f : Feature)
    (hB : ∀ kind label scheme text, f = .builtinEntityMatch kind label scheme → initialStringFromTokens toks = .ok text → B text (some [kind]))
    (hC : ∀ entity scheme stemmer text, f = .entityMatch entity scheme stemmer →
      initialStringFromTokens (transformTokens fns stemmer toks) = .ok text → C text (some [entity]) 0) :
    Asks B C (f.compute fns toks i) := by
  cases f with
  | entityMatch entity scheme stemmer =>
    have := fun text => hC entity scheme stemmer text rfl
    cases ho : initialStringFromTokens (transformTokens fns stemmer toks) with
    | ok text => simp only [Feature.compute, ho]; exact .custom (this text ho) fun _ => Asks.ofOutcome _
    | err e => simp only [Feature.compute, ho]; exact .fail e
    | panic => simp only [Feature.compute, ho]; exact .panic
  | builtinEntityMatch kind label scheme =>
    have := fun text => hB kind label scheme text rfl
    cases ho : initialStringFromTokens toks with
    | ok text => simp only [Feature.compute, ho]; exact .cached (this text ho) fun _ => Asks.ofOutcome _
    | err e => simp only [Feature.compute, ho]; exact .fail e
    | panic => simp only [Feature.compute, ho]; exact .panic
  | _ =>
    unfold Feature.compute
    first
    | exact Asks.ofOutcome _
    | exact .ret _
    | (simp only; split <;> first | exact .panic | exact .ret _)

theorem slotFiller_asks (codec : TagCodec) (f : SlotFiller) (input : Text)
    (h : ∀ o ∈ f.processor.getD [], ∀ i, Asks B C (o.feature.compute f.fns (f.fns.tokenize input) i)) :
    Asks B C (f.getSlots codec input) := by
  have hloop : ∀ o ∈ f.processor.getD [], ∀ is features, Asks B C (featureLoop f.fns (f.fns.tokenize input) o is features) := by
    intro o ho is
    induction is with
    | nil => intro _; exact .ret _
    | cons i is ih =>
      intro features
      unfold featureLoop
      refine (h o ho i).bind fun v => ?_
      split <;> exact ih _
  have houter : ∀ os : List Offsetter, (∀ o ∈ os, o ∈ f.processor.getD []) → ∀ features,
      Asks B C (offsettersLoop f.fns (f.fns.tokenize input) os features) := by
    intro os
    induction os with
    | nil => intro _ _; exact .ret _
    | cons o os ih =>
      intro ho features
      unfold offsettersLoop
      exact (hloop o (ho o List.mem_cons_self) _ _).bind fun _ => ih (fun o h => ho o (List.mem_cons_of_mem _ h)) _
  unfold SlotFiller.getSlots
  split
  · rename_i tagger os ht hp
    simp only
    split
    · exact .ret _
    · exact (houter os (fun o ho => by simpa [hp] using ho) _).bind fun _ => Asks.ofOutcome _
  · exact .ret _

/-- All calls of a parser for a query. -/
theorem parser_asks (input : Text) (p : ParserModel) (hB : ∀ r ∈ p.builtinList input, B r.1 r.2) (hC : ∀ r ∈ p.customList input, C r.1 r.2 0) :
    (∀ o wl, Asks B C (p.impl.parse o input wl)) ∧ (∀ o, Asks B C (p.impl.getIntents o input)) ∧
    ∀ o intent, Asks B C (p.impl.getSlots o input intent) := by
  cases p with
  | lookup env p =>
    have ht : ∀ o n wl, Asks B C (p.parseTopIntents env o input n wl) := fun o n wl =>
      lookupTop_asks env o p input n wl
        (fun s hs kinds hk => hB (input, some kinds) (List.mem_map.2 ⟨s, hs, by simp only [hk]⟩))
        (fun s hs => hC (input, some s.custom) (List.mem_map.2 ⟨s, hs, rfl⟩))
    have hp : ∀ o wl, Asks B C (p.parse env o input wl) := fun o wl => (ht o _ wl).bind fun _ => .ret _
    refine ⟨hp, fun o => (ht o _ _).bind fun _ => .ret _, fun o intent => ?_⟩
    show Asks B C (p.getSlots env o input intent)
    unfold Lookup.getSlots
    split
    · exact (hp _ _).bind fun _ => .ret _
    · exact .fail _
  | deterministic env p =>
    have ht : ∀ o n wl, Asks B C (p.parseTopIntents env o input n wl) := fun o n wl =>
      detTop_asks env o p input n wl
        (fun s hs => hB (input, some s.2.1) (List.mem_map.2 ⟨s, hs, rfl⟩))
        (fun s hs => hC (input, some s.2.2) (List.mem_map.2 ⟨s, hs, rfl⟩))
    have hp : ∀ o wl, Asks B C (p.parse env o input wl) := fun o wl => (ht o _ wl).bind fun _ => .ret _
    refine ⟨hp, fun o => (ht o _ _).bind fun _ => .ret _, fun o intent => ?_⟩
    show Asks B C (p.getSlots env o input intent)
    unfold Det.getSlots
    split
    · exact (hp _ _).bind fun _ => .ret _
    · exact .fail _
  | probabilistic env p =>
    have hcl : ∀ o wl, Asks B C (p.classifier.getIntentsWithWhitelist env.ops env.feat o input wl) := fun o wl => by
      refine classifier_asks _ _ _ _ _ _ (fun f hf => ⟨?_, fun v hv => ?_⟩) (fun f hf => ⟨?_, ?_⟩)
      · exact hB (input, some f.tfidf.scope) (by simp [ParserModel.builtinList, hf])
      · exact hB (input, some v.scope) (by simp [ParserModel.builtinList, hf, hv])
      · exact hC (_, none) (by simp only [ParserModel.customList, hf]; exact List.mem_append_left _ List.mem_cons_self)
      · exact hC (input, none) (by
          simp only [ParserModel.customList]
          exact List.mem_append_left _ (List.mem_cons_of_mem _ List.mem_cons_self))
    have hsl : ∀ e intent, Asks B C (p.slotsOf env e input intent) := by
      intro e intent
      unfold Prob.slotsOf
      split
      · rename_i filler hf
        have hmem := Map.get_some_mem hf
        refine slotFiller_asks _ _ _ fun o ho i => feature_asks _ _ _ _ ?_ ?_
        · intro kind label scheme text hk ht
          refine hB (text, some [kind]) ?_
          simp only [ParserModel.builtinList]
          refine List.mem_append_right _ (List.mem_flatMap.2 ⟨_, hmem, List.mem_filterMap.2 ⟨o, ho, ?_⟩⟩)
          simp only [hk, ht]
        · intro entity scheme stemmer text hk ht
          refine hC (text, some [entity]) ?_
          simp only [ParserModel.customList]
          refine List.mem_append_right _ (List.mem_flatMap.2 ⟨_, hmem, List.mem_filterMap.2 ⟨o, ho, ?_⟩⟩)
          simp only [hk, ht]
      · exact .fail _
    refine ⟨fun o wl => ?_, fun o => hcl o _, fun o intent => hsl _ _⟩
    show Asks B C (p.parse env o input wl)
    unfold Prob.parse Classifier.getIntent
    refine Asks.bind ((hcl o wl).bind fun _ => .ret _) fun res => ?_
    split
    · exact (hsl _ _).bind fun _ => .ret _
    · exact .ret _

/-! ### The engine, when anything may be asked of the custom parser -/

theorem resolveSlots_asks (e : Engine) (text : Text) (n : Nat) (slots : List InternalSlot) (hC : ∀ s k n, C s k n) :
    Asks B C (e.resolveSlots text slots n) := by
  have hone : ∀ bs cs slot, Asks B C (e.resolveOne n bs cs slot) := by
    intro bs cs slot
    unfold Engine.resolveOne
    split
    · unfold resolveCustomSlot
      split
      · exact .ret _
      · exact .custom (hC _ _ _) fun _ => .ret _
    · unfold resolveBuiltinSlot
      refine (Asks.ofOutcome _).bind fun kind => ?_
      split
      · exact .ret _
      · exact .fresh fun _ => .ret _
  have heach : ∀ bs cs, ∀ slots, Asks B C (e.resolveEach n bs cs slots) := by
    intro bs cs slots
    induction slots with
    | nil => exact .ret _
    | cons s slots ih =>
      unfold Engine.resolveEach
      exact (hone bs cs s).bind fun _ => ih.bind fun _ => .ret _
  unfold Engine.resolveSlots
  split
  · exact .ret _
  · exact .fresh fun _ => .custom (hC _ _ _) fun _ => heach _ _ _

theorem code_asks (dataset : DatasetMetadata) (names : KindNames) (ps : List ParserModel) (call : EngineCall)
    (hB : ∀ p ∈ ps, ∀ r ∈ p.builtinList call.input, B r.1 r.2) (hC : ∀ s k n, C s k n) :
    Asks B C ((Engine.ofParsers dataset names ps).code call) := by
  generalize he : Engine.ofParsers dataset names ps = e
  have hps : ∀ q ∈ e.parsers, (∀ o wl, Asks B C (q.parse o call.input wl)) ∧ (∀ o, Asks B C (q.getIntents o call.input)) ∧
      ∀ o intent, Asks B C (q.getSlots o call.input intent) := by
    intro q hq
    rw [← he] at hq
    obtain ⟨p, hp, rfl⟩ := List.mem_map.1 hq
    exact parser_asks call.input p (hB p hp) fun _ _ => hC _ _ _
  have hcascade : ∀ o input wl n, (∀ q ∈ e.parsers, ∀ o wl, Asks B C (q.parse o input wl)) → ∀ qs : List ParserImpl,
      (∀ q ∈ qs, q ∈ e.parsers) → ∀ i sc, Asks B C (e.cascade o input wl n i qs sc) := by
    intro o input wl n h qs
    induction qs with
    | nil => intro _ i sc; exact .ret _
    | cons q qs ih =>
      intro hq i sc
      unfold Engine.cascade
      refine Asks.bind (h q (hq q List.mem_cons_self) _ _) fun r => ?_
      split
      · exact Asks.bind (resolveSlots_asks e _ _ _ hC) fun _ => .ret _
      · exact ih (fun q h => hq q (List.mem_cons_of_mem _ h)) _ _
  have hcollect : ∀ o input, (∀ q ∈ e.parsers, ∀ o, Asks B C (q.getIntents o input)) → ∀ qs : List ParserImpl,
      (∀ q ∈ qs, q ∈ e.parsers) → ∀ i m, Asks B C (Engine.collectIntents o input i qs m) := by
    intro o input h qs
    induction qs with
    | nil => intro _ i m; exact .ret _
    | cons q qs ih =>
      intro hq i m
      unfold Engine.collectIntents
      exact Asks.bind (h q (hq q List.mem_cons_self) _) fun r => ih (fun q h => hq q (List.mem_cons_of_mem _ h)) _ _
  have hintents : ∀ o input, (∀ q ∈ e.parsers, ∀ o, Asks B C (q.getIntents o input)) → Asks B C (e.getIntents o input) := by
    intro o input h
    unfold Engine.getIntents
    exact Asks.bind (hcollect _ _ h _ (fun _ h => h) _ _) fun _ => .ret _
  have hslots : ∀ o input intent n, (∀ q ∈ e.parsers, ∀ o intent, Asks B C (q.getSlots o input intent)) →
      Asks B C (e.getSlotsWithAlternatives o input intent n) := by
    intro o input intent n h
    have : ∀ qs : List ParserImpl, (∀ q ∈ qs, q ∈ e.parsers) → ∀ i, Asks B C (e.slotsCascade o input intent n i qs) := by
      intro qs
      induction qs with
      | nil => intro _ i; exact .ret _
      | cons q qs ih =>
        intro hq i
        unfold Engine.slotsCascade
        refine Asks.bind (h q (hq q List.mem_cons_self) _ _) fun r => ?_
        split
        · exact ih (fun q h => hq q (List.mem_cons_of_mem _ h)) _
        · exact resolveSlots_asks e _ _ _ hC
    exact this _ (fun _ h => h) 0
  cases call with
  | parse o input whitelist blacklist ni ns =>
    refine Asks.bind ?_ fun _ => .ret _
    unfold Engine.parseWithAlternatives
    refine Asks.bind (Asks.ofOutcome _) fun wl => ?_
    refine Asks.bind (hcascade _ _ _ _ (fun q hq => (hps q hq).1) _ (fun _ h => h) _ _) fun main => ?_
    split
    · exact .ret _
    · refine Asks.bind (hintents _ _ fun q hq => (hps q hq).2.1) fun ranked => ?_
      refine Asks.bind ?_ fun _ => .ret _
      have : ∀ (l : List IntentResult) o i, Asks B C (e.alternativesSlots o input ns i l) := by
        intro l o
        induction l with
        | nil => intro i; exact .ret _
        | cons res l ih =>
          intro i
          unfold Engine.alternativesSlots
          refine Asks.bind ?_ fun _ => Asks.bind (ih _) fun _ => .ret _
          unfold Engine.alternativeSlots
          split
          · exact hslots _ _ _ _ fun q hq => (hps q hq).2.2
          · exact .ret _
      exact this _ _ _
  | intents o input => exact Asks.bind (hintents _ _ fun q hq => (hps q hq).2.1) fun _ => .ret _
  | slots o input intent ns => exact Asks.bind (hslots _ _ _ _ fun q hq => (hps q hq).2.2) fun _ => .ret _
  | extract input intent slot ns =>
    refine Asks.bind ?_ fun _ => .ret _
    unfold Engine.extractSlotWithAlternatives
    refine Asks.bind (Asks.ofOutcome _) fun _ => Asks.bind (Asks.ofOutcome _) fun _ => ?_
    split
    · exact .custom (hC _ _ _) fun _ => .ret _
    · unfold Engine.extractBuiltinSlot
      exact Asks.bind (Asks.ofOutcome _) fun _ => .fresh fun _ => .ret _

/-! ### Resolution -/

theorem accesses_bind_length {α β : Type} (x : Ext) (t : Nat) (f : α → Prog β) (m : Nat) (hf : ∀ a c, ((f a).accesses x t c).length ≤ m) :
    ∀ (p : Prog α) (c : Caches), ((p.bind f).accesses x t c).length ≤ (p.accesses x t c).length + m := by
  intro p
  induction p with
  | ret a => intro c; simpa [Prog.bind, Prog.accesses] using hf a c
  | fail e => intro c; simp [Prog.bind, Prog.accesses]
  | panic => intro c; simp [Prog.bind, Prog.accesses]
  | builtinCached s kinds k ih =>
    intro c
    simp only [Prog.bind, Prog.accesses, List.length_cons]
    split
    · rename_i es c' _; have := ih (es.map BuiltinEntity.kindMatch) c'; omega
    · simp
  | builtinFresh s kinds n k ih =>
    intro c
    simp only [Prog.bind, Prog.accesses]
    split
    · exact ih _ _
    · simp
  | custom s kinds n k ih =>
    intro c
    simp only [Prog.bind, Prog.accesses, List.length_cons]
    split
    · rename_i es c' _; have := ih es c'; omega
    · simp

theorem ofOutcome_accesses {α : Type} (x : Ext) (t : Nat) (o : Outcome α) (c : Caches) : (Prog.ofOutcome o).accesses x t c = [] := by
  cases o <;> rfl

theorem resolveSlots_few (x : Ext) (t : Nat) (e : Engine) (text : Text) (n : Nat) (slots : List InternalSlot) (c : Caches) :
    ((e.resolveSlots text slots n).accesses x t c).length ≤ 1 + slots.length := by
  have hone : ∀ bs cs slot c, ((e.resolveOne n bs cs slot).accesses x t c).length ≤ 1 := by
    intro bs cs slot c
    unfold Engine.resolveOne
    split
    · unfold resolveCustomSlot
      split
      · simp [Prog.accesses]
      · simp only [Prog.accesses, List.length_cons]
        split <;> simp
    · unfold resolveBuiltinSlot
      refine Nat.le_trans (accesses_bind_length x t _ 0 (fun kind c => ?_) _ c) (by rw [ofOutcome_accesses]; simp)
      split
      · simp [Prog.accesses]
      · simp only [Prog.accesses]
        split <;> simp
  have heach : ∀ bs cs, ∀ slots c, ((e.resolveEach n bs cs slots).accesses x t c).length ≤ slots.length := by
    intro bs cs slots
    induction slots with
    | nil => intro c; simp [Engine.resolveEach, Prog.accesses]
    | cons s slots ih =>
      intro c
      unfold Engine.resolveEach
      refine Nat.le_trans (accesses_bind_length x t _ slots.length (fun r c => ?_) _ c) ?_
      · exact Nat.le_trans (accesses_bind_length x t _ 0 (fun _ _ => by simp [Prog.accesses]) _ c) (ih c)
      · have := hone bs cs s c
        simp only [List.length_cons]
        omega
  unfold Engine.resolveSlots
  split
  · simp [Prog.accesses]
  · simp only [Prog.accesses]
    split
    · simp only [List.length_cons]
      split
      · have := heach ‹_› ‹_› slots ‹_›; omega
      · simp
    · simp

/-! ### The builtin cache by itself -/

/-- No builtin request is extracted again after having been answered, these having been answered before. -/
def OnceBuiltin : List Access → List Access → Prop
  | _, [] => True
  | seen, a :: l =>
    ((∃ k, a.key = .inl k) → (∃ b ∈ seen, b.answered = true ∧ b.key = a.key) → a.extracted = false) ∧ OnceBuiltin (seen ++ [a]) l

theorem onceBuiltin_append : ∀ (l seen l' : List Access), OnceBuiltin seen l → OnceBuiltin (seen ++ l) l' → OnceBuiltin seen (l ++ l')
  | [], seen, l', _, h => by simpa using h
  | a :: l, seen, l', h, h' => ⟨h.1, onceBuiltin_append l _ l' h.2 (by simpa using h')⟩

theorem onceBuiltin_split : ∀ (pre : List Access) {seen post : List Access} {a : Access}, OnceBuiltin seen (pre ++ a :: post) →
    (∃ k, a.key = .inl k) → (∃ b ∈ seen ++ pre, b.answered = true ∧ b.key = a.key) → a.extracted = false
  | [], seen, post, a, h, hk, hb => h.1 hk (by simpa using hb)
  | x :: pre, seen, post, a, h, hk, hb => onceBuiltin_split pre (seen := seen ++ [x]) h.2 hk (by simpa using hb)

/-- The answered builtin requests are the most recent keys. -/
def BuiltinRecent (cap : Nat) (kb : List (CacheKey Kind)) (seen : List Access) (c : Caches) : Prop :=
  ∃ r, c.builtin.Recent cap r ∧ (∀ k ∈ r, k ∈ kb) ∧ ∀ a ∈ seen, a.answered = true → ∀ k, a.key = .inl k → k ∈ r

theorem accesses_onceBuiltin {α : Type} {x : Ext} {cap : Nat} {kb : List (CacheKey Kind)} (hnp : x.NoPanic) (hb : kb.length ≤ cap) (time : Nat) :
    ∀ (p : Prog α) (seen : List Access) (c : Caches), BuiltinRecent cap kb seen c →
      (∀ a ∈ p.accesses x time c, ∀ k, a.key = .inl k → k ∈ kb) →
      OnceBuiltin seen (p.accesses x time c) ∧ BuiltinRecent cap kb (seen ++ p.accesses x time c) (p.runCached x time c).2 := by
  intro p
  induction p with
  | ret a => intro seen c h _; exact ⟨trivial, by simpa [Prog.accesses, Prog.runCached] using h⟩
  | fail e => intro seen c h _; exact ⟨trivial, by simpa [Prog.accesses, Prog.runCached] using h⟩
  | panic => intro seen c h _; exact ⟨trivial, by simpa [Prog.accesses, Prog.runCached] using h⟩
  | builtinFresh s kinds n k ih =>
    intro seen c h hk
    simp only [Prog.accesses, Prog.runCached] at hk ⊢
    cases hr : x.builtinRaw time (x.lower s) kinds n with
    | ok es => rw [hr] at hk; exact ih es seen c h hk
    | err e => exact ⟨trivial, by simpa using h⟩
    | panic => exact ⟨trivial, by simpa using h⟩
  | builtinCached s kinds k ih =>
    intro seen c h hk
    obtain ⟨r, hr, hsub, hseen⟩ := h
    generalize hkey : (⟨x.lower s, kinds, 0⟩ : CacheKey Kind) = key
    have hacc := hr.access key (fun key => x.builtinRaw time key.input kinds 0) (hnp.1 _ _ _ _)
    have honce : (∃ k : CacheKey Kind, (Sum.inl key : CacheKey Kind ⊕ CacheKey Text) = .inl k) →
        (∃ b ∈ seen, b.answered = true ∧ b.key = .inl key) → c.builtin.extracts key = false := by
      rintro - ⟨b, hbm, hba, hbk⟩
      exact hr.extracts (hseen b hbm hba key hbk)
    simp only [Prog.accesses, Prog.runCached, Ext.builtinCachedAccess, hkey] at hk ⊢
    have hin : key ∈ kb := hk _ List.mem_cons_self key rfl
    rcases hacc with ⟨v, hv, hrec⟩ | ⟨e, he, hsame⟩
    · simp only [hv] at hk ⊢
      have hrec := hrec (recent_bound hb hr.recent_nodup hsub hin)
      have hnext := ih (v.map BuiltinEntity.kindMatch) (seen ++ [⟨.inl key, c.builtin.extracts key, true⟩])
        { c with builtin := (c.builtin.access key fun key => x.builtinRaw time key.input kinds 0).2 }
        (by
          refine ⟨_, hrec, ?_, ?_⟩
          · intro k' hk'
            rcases List.mem_cons.1 hk' with rfl | hk'
            · exact hin
            · exact hsub k' (List.mem_filter.1 hk').1
          · intro a ha haa k' hak
            rcases List.mem_append.1 ha with ha | ha
            · by_cases hkk : k' = key
              · simp [hkk]
              · exact List.mem_cons_of_mem _ (List.mem_filter.2 ⟨hseen a ha haa k' hak, by simpa using hkk⟩)
            · rw [List.mem_singleton] at ha
              subst ha
              simp only [Sum.inl.injEq] at hak
              simp [hak])
        (fun a ha => hk a (List.mem_cons_of_mem _ ha))
      exact ⟨⟨honce, hnext.1⟩, by simpa [Outcome.answered] using hnext.2⟩
    · simp only [he] at hk ⊢
      refine ⟨⟨honce, trivial⟩, r, by simpa [hsame] using hr, hsub, ?_⟩
      intro a ha haa k' hak
      rcases List.mem_append.1 ha with ha | ha
      · exact hseen a ha haa k' hak
      · rw [List.mem_singleton] at ha
        subst ha
        cases haa
  | custom s kinds n k ih =>
    intro seen c h hk
    obtain ⟨r, hr, hsub, hseen⟩ := h
    simp only [Prog.accesses, Prog.runCached, Ext.customCachedAccess] at hk ⊢
    generalize c.custom.access ⟨x.lower s, kinds, n⟩ (fun key => x.customExtract key.input kinds n) = oc at hk ⊢
    obtain ⟨o, g⟩ := oc
    have hnext : BuiltinRecent cap kb (seen ++ [⟨.inr ⟨x.lower s, kinds, n⟩, c.custom.extracts ⟨x.lower s, kinds, n⟩, o.answered⟩])
        { c with custom := g } := by
      refine ⟨r, hr, hsub, ?_⟩
      intro a ha haa k' hak
      rcases List.mem_append.1 ha with ha | ha
      · exact hseen a ha haa k' hak
      · rw [List.mem_singleton] at ha
        subst ha
        cases hak
    have hfirst : (∃ k' : CacheKey Kind, (Sum.inr ⟨x.lower s, kinds, n⟩ : CacheKey Kind ⊕ CacheKey Text) = .inl k') →
        (∃ b ∈ seen, b.answered = true ∧ b.key = .inr ⟨x.lower s, kinds, n⟩) → c.custom.extracts ⟨x.lower s, kinds, n⟩ = false := by
      rintro ⟨k', hk'⟩
      cases hk'
    cases o with
    | ok v =>
      have := ih v _ _ hnext (fun a ha => hk a (List.mem_cons_of_mem _ ha))
      exact ⟨⟨hfirst, this.1⟩, by simpa using this.2⟩
    | err e => exact ⟨⟨hfirst, trivial⟩, hnext⟩
    | panic => exact ⟨⟨hfirst, trivial⟩, hnext⟩

theorem historyAccesses_onceBuiltin {α : Type} {x : Ext} {cap : Nat} {kb : List (CacheKey Kind)} (hnp : x.NoPanic) (hb : kb.length ≤ cap) :
    ∀ (calls : List (Nat × Prog α)) (seen : List Access) (c : Caches), BuiltinRecent cap kb seen c →
      (∀ call ∈ calls, ∀ c, ∀ a ∈ call.2.accesses x call.1 c, ∀ k, a.key = .inl k → k ∈ kb) →
      OnceBuiltin seen (historyAccesses x calls c)
  | [], _, _, _, _ => trivial
  | (t, p) :: calls, seen, c, h, hk => by
    simp only [historyAccesses]
    obtain ⟨h1, h2⟩ := accesses_onceBuiltin hnp hb t p seen c h (hk _ List.mem_cons_self c)
    exact onceBuiltin_append _ _ _ h1 (historyAccesses_onceBuiltin hnp hb calls _ _ h2 fun call hc => hk call (List.mem_cons_of_mem _ hc))

end Snips
