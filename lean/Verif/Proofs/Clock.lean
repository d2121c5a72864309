import Verif.Spec.Clock
import Verif.Model.Parsers
import Verif.Proofs.EngineShared
import Verif.Proofs.Map

/-! Code that runs in step with itself at another time. -/

namespace Snips

/-- Two codes that make the same requests; what follows a request for ranges and kinds, or for custom entities, is again in
step for equal answers, and what follows a request for resolved values is so for answers with the same ranges and kinds. -/
inductive Prog.InStep {α β : Type} (R : α → β → Prop) : Prog α → Prog β → Prop where
  | ret {a b} : R a b → InStep R (.ret a) (.ret b)
  | fail (e : Err) : InStep R (.fail e) (.fail e)
  | panic : InStep R .panic .panic
  | cached {s kinds k k'} : (∀ r, InStep R (k r) (k' r)) → InStep R (.builtinCached s kinds k) (.builtinCached s kinds k')
  | fresh {s kinds n k k'} :
      (∀ es es' : List BuiltinEntity, es.map BuiltinEntity.kindMatch = es'.map BuiltinEntity.kindMatch → InStep R (k es) (k' es')) →
      InStep R (.builtinFresh s kinds n k) (.builtinFresh s kinds n k')
  | custom {s kinds n k k'} : (∀ r, InStep R (k r) (k' r)) → InStep R (.custom s kinds n k) (.custom s kinds n k')

namespace Prog.InStep

variable {α β γ δ : Type} {R : α → β → Prop} {S : γ → δ → Prop}

theorem bind {p : Prog α} {p' : Prog β} {f : α → Prog γ} {f' : β → Prog δ} (h : InStep R p p')
    (hf : ∀ a b, R a b → InStep S (f a) (f' b)) : InStep S (p.bind f) (p'.bind f') := by
  induction h with
  | ret h => exact hf _ _ h
  | fail e => exact .fail e
  | panic => exact .panic
  | cached _ ih => exact .cached ih
  | fresh _ ih => exact .fresh ih
  | custom _ ih => exact .custom ih

theorem refl_bind {p : Prog α} {f : α → Prog γ} {f' : α → Prog δ} (h : InStep Eq p p) (hf : ∀ a, InStep S (f a) (f' a)) :
    InStep S (p.bind f) (p.bind f') :=
  h.bind fun a b hab => by subst hab; exact hf a

theorem ofOutcome (o : Outcome α) : InStep Eq (Prog.ofOutcome o) (Prog.ofOutcome o) := by
  cases o with
  | ok a => exact .ret rfl
  | err e => exact .fail e
  | panic => exact .panic

theorem mapM {f : α → Prog γ} (hf : ∀ a, InStep Eq (f a) (f a)) : ∀ l : List α, InStep Eq (Prog.mapM f l) (Prog.mapM f l)
  | [] => .ret rfl
  | a :: l => by
    unfold Prog.mapM
    exact (hf a).refl_bind fun b => (mapM hf l).refl_bind fun bs => .ret rfl

theorem stable_ok {ω κ : Type} {f : ω → κ} {es : List ω} {o : Outcome (List ω)}
    (h : (Outcome.ok es).map (List.map f) = o.map (List.map f)) : ∃ es', o = .ok es' ∧ es.map f = es'.map f := by
  cases o with
  | ok es' => exact ⟨es', rfl, by injection h⟩
  | err e => cases h
  | panic => cases h

theorem stable_err {ω κ : Type} {f : ω → κ} {e : Err} {o : Outcome (List ω)}
    (h : (Outcome.err e : Outcome (List ω)).map (List.map f) = o.map (List.map f)) : o = .err e := by
  cases o with
  | ok es' => cases h
  | err e => cases h; rfl
  | panic => cases h

theorem stable_panic {ω κ : Type} {f : ω → κ} {o : Outcome (List ω)}
    (h : (Outcome.panic : Outcome (List ω)).map (List.map f) = o.map (List.map f)) : o = .panic := by
  cases o with
  | ok es' => cases h
  | err e => cases h
  | panic => rfl

theorem answers {x : Ext} (hts : x.TimeStable) {t t' : Nat} {p : Prog α} {p' : Prog β} (h : InStep R p p') :
    ∀ {times : List Nat} {o : Outcome α}, p.Answers x t times o → SameOutcome R o (p'.run (x.world t')) := by
  have hstab : ∀ u s kinds n, ((x.world u).builtin s kinds n).map (List.map BuiltinEntity.kindMatch) =
      ((x.world t').builtin s kinds n).map (List.map BuiltinEntity.kindMatch) := fun u s kinds n => hts _ _ _ _ _
  induction h with
  | ret h => intro times o ha; cases ha; exact .ok h
  | fail e => intro times o ha; cases ha; exact .err e
  | panic => intro times o ha; cases ha; exact .panic
  | @cached s kinds k k' hk ih =>
    intro times o ha
    have h1 := hstab t s kinds 0
    simp only [Prog.run]
    cases ha with
    | cached he ha =>
      rw [he] at h1
      obtain ⟨es', he', hm⟩ := stable_ok h1
      simp only [he']
      rw [← hm]
      exact ih _ ha
    | cachedErr he => rw [he] at h1; rw [stable_err h1]; exact .err _
    | cachedPanic he => rw [he] at h1; rw [stable_panic h1]; exact .panic
  | @fresh s kinds n k k' hk ih =>
    intro times o ha
    simp only [Prog.run]
    cases ha with
    | @fresh _ _ _ _ es u times o he ha =>
      have h1 := hstab u s kinds n
      rw [he] at h1
      obtain ⟨es', he', hm⟩ := stable_ok h1
      simp only [he']
      exact ih _ _ hm ha
    | @freshErr _ _ _ _ e u he =>
      have h1 := hstab u s kinds n
      rw [he] at h1; rw [stable_err h1]; exact .err _
    | @freshPanic _ _ _ _ u he =>
      have h1 := hstab u s kinds n
      rw [he] at h1; rw [stable_panic h1]; exact .panic
  | @custom s kinds n k k' hk ih =>
    intro times o ha
    have hc : (x.world t').custom s kinds n = (x.world t).custom s kinds n := rfl
    simp only [Prog.run, hc]
    cases ha with
    | custom he ha => simp only [he]; exact ih _ ha
    | customErr he => simp only [he]; exact .err _
    | customPanic he => simp only [he]; exact .panic

end Prog.InStep

open Prog

/-! ### The parsers ask for ranges and kinds only -/

section
variable {α : Type}

theorem allEntities_inStep (env : RuleEnv) (input : Text) (scope : GroupedScope) :
    InStep Eq (Lookup.allEntities env input scope) (Lookup.allEntities env input scope) := by
  unfold Lookup.allEntities
  exact (InStep.ofOutcome _).refl_bind fun kinds => .cached fun bs => .custom fun cs => .ret rfl

theorem candidatesFrom_inStep (env : RuleEnv) (p : Lookup) (input : Text) (wl : Option (List Text)) :
    ∀ scopes, InStep Eq (p.candidatesFrom env input wl scopes) (p.candidatesFrom env input wl scopes)
  | [] => .ret rfl
  | scope :: scopes => by
    unfold Lookup.candidatesFrom
    split
    · exact candidatesFrom_inStep env p input wl scopes
    · exact (allEntities_inStep env input scope).refl_bind fun _ =>
        (candidatesFrom_inStep env p input wl scopes).refl_bind fun _ => .ret rfl

theorem lookupTop_inStep (env : RuleEnv) (o : HashOrd) (p : Lookup) (input : Text) (n : Nat) (wl : Option (List Text)) :
    InStep Eq (p.parseTopIntents env o input n wl) (p.parseTopIntents env o input n wl) := by
  unfold Lookup.parseTopIntents Lookup.getCandidates
  exact InStep.refl_bind ((candidatesFrom_inStep env p input wl _).refl_bind fun _ => .ret rfl) fun _ =>
    (InStep.ofOutcome _).refl_bind fun _ => .ret rfl

theorem detTop_inStep (env : RuleEnv) (o : HashOrd) (p : Det) (input : Text) (n : Nat) (wl : Option (List Text)) :
    InStep Eq (p.parseTopIntents env o input n wl) (p.parseTopIntents env o input n wl) := by
  unfold Det.parseTopIntents
  refine (InStep.mapM (fun scope => ?_) _).refl_bind fun _ => .ret rfl
  unfold Det.matchIntent
  exact .cached fun _ => .custom fun _ => InStep.ofOutcome _

theorem featurizer_inStep {F : Type} (ops : FloatOps F) (env : FeatEnv) (o : HashOrd) (f : Featurizer F) (input : Text) :
    InStep Eq (f.transform ops env o input) (f.transform ops env o input) := by
  unfold Featurizer.transform Tfidf.transform
  refine InStep.refl_bind (.cached fun _ => .custom fun _ => InStep.ofOutcome _) fun features => ?_
  split
  · exact .ret rfl
  · unfold Cooc.transform
    exact InStep.refl_bind (.cached fun _ => .custom fun _ => InStep.ofOutcome _) fun _ => .ret rfl

theorem classifier_inStep (ops : FloatOps ℚ) (env : FeatEnv) (o : HashOrd) (c : Classifier) (input : Text)
    (wl : Option (List Text)) :
    InStep Eq (c.getIntentsWithWhitelist ops env o input wl) (c.getIntentsWithWhitelist ops env o input wl) := by
  unfold Classifier.getIntentsWithWhitelist
  split
  · exact .ret rfl
  · split
    · exact .ret rfl
    · split
      · exact (featurizer_inStep ops env o _ input).refl_bind fun _ => (InStep.ofOutcome _).refl_bind fun _ => .ret rfl
      · exact .ret rfl

theorem feature_inStep (fns : TextFns) (toks : List Token) (i : Nat) (f : Feature) :
    InStep Eq (f.compute fns toks i) (f.compute fns toks i) := by
  cases f <;> unfold Feature.compute <;>
    first
    | exact InStep.ofOutcome _
    | exact .ret rfl
    | (simp only; split <;> first | exact .panic | exact .ret rfl)
    | exact (InStep.ofOutcome _).refl_bind fun _ => .custom fun _ => InStep.ofOutcome _
    | exact (InStep.ofOutcome _).refl_bind fun _ => .cached fun _ => InStep.ofOutcome _

theorem featureLoop_inStep (fns : TextFns) (toks : List Token) (o : Offsetter) : ∀ is features,
    InStep Eq (featureLoop fns toks o is features) (featureLoop fns toks o is features)
  | [], _ => .ret rfl
  | i :: is, features => by
    unfold featureLoop
    refine (feature_inStep fns toks i _).refl_bind fun v => ?_
    split <;> exact featureLoop_inStep fns toks o is _

theorem offsettersLoop_inStep (fns : TextFns) (toks : List Token) : ∀ os features,
    InStep Eq (offsettersLoop fns toks os features) (offsettersLoop fns toks os features)
  | [], _ => .ret rfl
  | o :: os, features => by
    unfold offsettersLoop
    exact (featureLoop_inStep fns toks o _ _).refl_bind fun _ => offsettersLoop_inStep fns toks os _

theorem slotFiller_inStep (codec : TagCodec) (f : SlotFiller) (text : Text) :
    InStep Eq (f.getSlots codec text) (f.getSlots codec text) := by
  unfold SlotFiller.getSlots
  split
  · simp only
    split
    · exact .ret rfl
    · exact (offsettersLoop_inStep _ _ _ _).refl_bind fun _ => InStep.ofOutcome _
  · exact .ret rfl

theorem slotsOf_inStep (env : ProbEnv) (p : Prob) (e : Err) (input intent : Text) :
    InStep Eq (p.slotsOf env e input intent) (p.slotsOf env e input intent) := by
  unfold Prob.slotsOf
  split
  · exact slotFiller_inStep _ _ _
  · exact .fail _

/-- All calls of a parser ask for ranges and kinds only. -/
structure ParserImpl.Steady (p : ParserImpl) : Prop where
  parse : ∀ o input wl, InStep Eq (p.parse o input wl) (p.parse o input wl)
  intents : ∀ o input, InStep Eq (p.getIntents o input) (p.getIntents o input)
  slots : ∀ o input intent, InStep Eq (p.getSlots o input intent) (p.getSlots o input intent)

theorem parser_steady (p : ParserModel) : p.impl.Steady := by
  cases p with
  | lookup env p =>
    have hp : ∀ o input wl, InStep Eq (p.parse env o input wl) (p.parse env o input wl) := fun o input wl =>
      (lookupTop_inStep env o p input _ wl).refl_bind fun _ => .ret rfl
    refine ⟨hp, fun o input => (lookupTop_inStep env o p input _ _).refl_bind fun _ => .ret rfl, fun o input intent => ?_⟩
    show InStep Eq (p.getSlots env o input intent) (p.getSlots env o input intent)
    unfold Lookup.getSlots
    split
    · exact (hp _ _ _).refl_bind fun _ => .ret rfl
    · exact .fail _
  | deterministic env p =>
    have hp : ∀ o input wl, InStep Eq (p.parse env o input wl) (p.parse env o input wl) := fun o input wl =>
      (detTop_inStep env o p input _ wl).refl_bind fun _ => .ret rfl
    refine ⟨hp, fun o input => (detTop_inStep env o p input _ _).refl_bind fun _ => .ret rfl, fun o input intent => ?_⟩
    show InStep Eq (p.getSlots env o input intent) (p.getSlots env o input intent)
    unfold Det.getSlots
    split
    · exact (hp _ _ _).refl_bind fun _ => .ret rfl
    · exact .fail _
  | probabilistic env p =>
    refine ⟨fun o input wl => ?_, fun o input => classifier_inStep _ _ _ _ _ _, fun o input intent => slotsOf_inStep _ _ _ _ _⟩
    show InStep Eq (p.parse env o input wl) (p.parse env o input wl)
    unfold Prob.parse Classifier.getIntent
    refine InStep.refl_bind ((classifier_inStep _ _ _ _ _ _).refl_bind fun _ => .ret rfl) fun res => ?_
    split
    · exact (slotsOf_inStep _ _ _ _ _).refl_bind fun _ => .ret rfl
    · exact .ret rfl

end

/-! ### The engine -/

variable {e : Engine}

theorem forall₂_clockSlot_refl (d : DatasetMetadata) : ∀ l : List Slot, List.Forall₂ (ClockSlot d) l l
  | [] => .nil
  | _ :: l => .cons ⟨rfl, rfl, rfl, rfl, fun _ => rfl⟩ (forall₂_clockSlot_refl d l)

/-- Related, or both absent. -/
inductive SameOption (d : DatasetMetadata) : Option Slot → Option Slot → Prop where
  | none : SameOption d none none
  | some {a b} : ClockSlot d a b → SameOption d (some a) (some b)

theorem sameOption_refl (d : DatasetMetadata) : ∀ s : Option Slot, SameOption d s s
  | .none => .none
  | .some _ => .some ⟨rfl, rfl, rfl, rfl, fun _ => rfl⟩

theorem find_kindMatch (kind : Kind) (r : Rng) : ∀ es es' : List BuiltinEntity,
    es.map BuiltinEntity.kindMatch = es'.map BuiltinEntity.kindMatch →
    ((es.find? fun e => e.kind = kind ∧ e.range = r).isSome = (es'.find? fun e => e.kind = kind ∧ e.range = r).isSome)
  | [], [], _ => rfl
  | [], _ :: _, h => by simp at h
  | _ :: _, [], h => by simp at h
  | a :: es, b :: es', h => by
    simp only [List.map_cons, List.cons.injEq, BuiltinEntity.kindMatch, KindMatch.mk.injEq] at h
    obtain ⟨⟨h1, h2⟩, h3⟩ := h
    simp only [List.find?_cons, h1, h2]
    split
    · rfl
    · exact find_kindMatch kind r es es' h3

theorem resolveOne_inStep (n : Nat) {bs bs' : List BuiltinEntity}
    (hb : bs.map BuiltinEntity.kindMatch = bs'.map BuiltinEntity.kindMatch) (cs : List CustomEntity) (slot : InternalSlot) :
    InStep (SameOption e.dataset) (e.resolveOne n bs cs slot) (e.resolveOne n bs' cs slot) := by
  unfold Engine.resolveOne
  split
  · unfold resolveCustomSlot
    split
    · exact .ret (sameOption_refl _ _)
    · exact .custom fun _ => .ret (sameOption_refl _ _)
  · rename_i hnone
    have hconv : ∀ b b', ClockSlot e.dataset (convertToBuiltinSlot slot b) (convertToBuiltinSlot slot b') := fun b b' =>
      ⟨rfl, rfl, rfl, rfl, fun ⟨x, hx⟩ => by
        have hx : e.dataset.entities.get slot.entity = some x := hx
        rw [hnone] at hx; cases hx⟩
    unfold resolveBuiltinSlot
    refine (InStep.ofOutcome _).refl_bind fun kind => ?_
    have hf := find_kindMatch kind slot.charRange bs bs' hb
    cases h1 : bs.find? fun e => e.kind = kind ∧ e.range = slot.charRange with
    | some b =>
      rw [h1] at hf
      cases h2 : bs'.find? fun e => e.kind = kind ∧ e.range = slot.charRange with
      | some b' => exact .ret (.some (hconv b b'))
      | none => rw [h2] at hf; cases hf
    | none =>
      rw [h1] at hf
      cases h2 : bs'.find? fun e => e.kind = kind ∧ e.range = slot.charRange with
      | some b' => rw [h2] at hf; cases hf
      | none =>
        refine .fresh fun es es' h => .ret ?_
        have hl := congrArg List.getLast? h
        rw [List.getLast?_map, List.getLast?_map] at hl
        cases h3 : es.getLast? <;> cases h4 : es'.getLast? <;> rw [h3, h4] at hl
        · exact .none
        · cases hl
        · cases hl
        · exact .some (hconv _ _)

theorem resolveEach_inStep (n : Nat) {bs bs' : List BuiltinEntity}
    (hb : bs.map BuiltinEntity.kindMatch = bs'.map BuiltinEntity.kindMatch) (cs : List CustomEntity) :
    ∀ slots, InStep (List.Forall₂ (ClockSlot e.dataset)) (e.resolveEach n bs cs slots) (e.resolveEach n bs' cs slots)
  | [] => .ret .nil
  | s :: slots => by
    unfold Engine.resolveEach
    refine (resolveOne_inStep n hb cs s).bind fun a b hab => (resolveEach_inStep n hb cs slots).bind fun l l' hl => .ret ?_
    cases hab with
    | none => exact hl
    | some h => exact .cons h hl

theorem resolveSlots_inStep (text : Text) (slots : List InternalSlot) (n : Nat) :
    InStep (List.Forall₂ (ClockSlot e.dataset)) (e.resolveSlots text slots n) (e.resolveSlots text slots n) := by
  unfold Engine.resolveSlots
  split
  · exact .ret .nil
  · exact .fresh fun bs bs' hb => .custom fun cs => resolveEach_inStep n hb cs slots

/-- Two results that differ in builtin values only. -/
structure SameResult (d : DatasetMetadata) (a b : ParseResult) : Prop where
  input : a.input = b.input
  intent : a.intent = b.intent
  slots : List.Forall₂ (ClockSlot d) a.slots b.slots
  alternatives : List.Forall₂ (SameAlternative d) a.alternatives b.alternatives

variable {input : Text}

theorem cascade_inStep (o : HashOrd) (wl : Option (List Text)) (n : Nat) :
    ∀ (ps : List ParserImpl) (i : Nat) (q : ℚ), (∀ p ∈ ps, p.Steady) →
      InStep (SameResult e.dataset) (e.cascade o input wl n i ps q) (e.cascade o input wl n i ps q)
  | [], _, _, _ => .ret ⟨rfl, rfl, .nil, .nil⟩
  | p :: ps, i, q, h => by
    unfold Engine.cascade
    refine InStep.refl_bind ((h p (by simp)).parse _ _ _) fun r => ?_
    split
    · exact InStep.bind (resolveSlots_inStep _ _ _) fun _ _ hs => .ret ⟨rfl, rfl, hs, .nil⟩
    · exact cascade_inStep o wl n ps _ _ fun p' hp' => h p' (by simp [hp'])

theorem collectIntents_inStep (o : HashOrd) :
    ∀ (ps : List ParserImpl) (i : Nat) (m : Map (Option Text) IntentResult), (∀ p ∈ ps, p.Steady) →
      InStep Eq (Engine.collectIntents o input i ps m) (Engine.collectIntents o input i ps m)
  | [], _, _, _ => .ret rfl
  | p :: ps, i, m, h => by
    unfold Engine.collectIntents
    exact InStep.refl_bind ((h p (by simp)).intents _ _) fun _ =>
      collectIntents_inStep o ps _ _ fun p' hp' => h p' (by simp [hp'])

theorem getIntents_inStep (o : HashOrd) (h : ∀ p ∈ e.parsers, p.Steady) :
    InStep Eq (e.getIntents o input) (e.getIntents o input) := by
  unfold Engine.getIntents
  exact InStep.refl_bind (collectIntents_inStep _ _ _ _ h) fun _ => .ret rfl

theorem slotsCascade_inStep (o : HashOrd) (intent : Text) (n : Nat) :
    ∀ (ps : List ParserImpl) (i : Nat), (∀ p ∈ ps, p.Steady) →
      InStep (List.Forall₂ (ClockSlot e.dataset)) (e.slotsCascade o input intent n i ps) (e.slotsCascade o input intent n i ps)
  | [], _, _ => .ret .nil
  | p :: ps, i, h => by
    unfold Engine.slotsCascade
    refine InStep.refl_bind ((h p (by simp)).slots _ _ _) fun r => ?_
    split
    · exact slotsCascade_inStep o intent n ps _ fun p' hp' => h p' (by simp [hp'])
    · exact resolveSlots_inStep _ _ _

theorem alternativesSlots_inStep (h : ∀ p ∈ e.parsers, p.Steady) (o : HashOrd) (n : Nat) :
    ∀ (rs : List IntentResult) (i : Nat), InStep (List.Forall₂ (SameAlternative e.dataset))
      (e.alternativesSlots o input n i rs) (e.alternativesSlots o input n i rs)
  | [], _ => .ret .nil
  | r :: rs, i => by
    unfold Engine.alternativesSlots
    refine InStep.bind (R := List.Forall₂ (ClockSlot e.dataset)) ?_ fun a b hab =>
      InStep.bind (alternativesSlots_inStep h o n rs _) fun l l' hl => .ret (.cons ⟨rfl, hab⟩ hl)
    unfold Engine.alternativeSlots
    split
    · exact slotsCascade_inStep _ _ _ _ _ h
    · exact .ret .nil

theorem parseWith_inStep (h : ∀ p ∈ e.parsers, p.Steady) (o : HashOrd) (wl bl : Option (List Text)) (ni ns : Nat) :
    InStep (SameResult e.dataset) (e.parseWithAlternatives o input wl bl ni ns)
      (e.parseWithAlternatives o input wl bl ni ns) := by
  unfold Engine.parseWithAlternatives
  refine InStep.refl_bind (InStep.ofOutcome _) fun eff => InStep.bind (cascade_inStep _ _ _ _ _ _ h) fun a b hab => ?_
  split
  · exact .ret hab
  · exact InStep.refl_bind (getIntents_inStep _ h) fun ranked =>
      InStep.bind (alternativesSlots_inStep h _ _ _ _) fun l l' hl => .ret ⟨hab.input, hab.intent, hab.slots, hl⟩

theorem extract_inStep (input intent slot : Text) (n : Nat) :
    InStep (SameOption e.dataset) (e.extractSlotWithAlternatives input intent slot n)
      (e.extractSlotWithAlternatives input intent slot n) := by
  unfold Engine.extractSlotWithAlternatives
  refine InStep.refl_bind (InStep.ofOutcome _) fun mapping => InStep.refl_bind (InStep.ofOutcome _) fun entity => ?_
  split
  · exact .custom fun _ => .ret (sameOption_refl _ _)
  · rename_i hnone
    unfold Engine.extractBuiltinSlot
    refine InStep.refl_bind (InStep.ofOutcome _) fun kind => .fresh fun es es' h => .ret ?_
    have hl := congrArg List.head? h
    rw [List.head?_map, List.head?_map] at hl
    cases h3 : es.head? <;> cases h4 : es'.head? <;> rw [h3, h4] at hl
    · exact .none
    · cases hl
    · cases hl
    · rename_i b b'
      simp only [Option.map_some, Option.some.injEq, BuiltinEntity.kindMatch, KindMatch.mk.injEq] at hl
      refine .some ⟨by simp only; rw [hl.1], hl.1, rfl, rfl, ?_⟩
      rintro ⟨x, hx⟩
      rw [hnone] at hx; cases hx

theorem code_inStep (h : ∀ p ∈ e.parsers, p.Steady) (call : EngineCall) :
    InStep (SameAnswer e.dataset) (e.code call) (e.code call) := by
  cases call with
  | parse o input wl bl ni ns =>
    exact (parseWith_inStep h o wl bl ni ns).bind fun a b hab =>
      .ret (.parse hab.input hab.intent hab.slots hab.alternatives)
  | intents o input => exact (getIntents_inStep o h).refl_bind fun _ => .ret (.intents _)
  | slots o input intent ns => exact (slotsCascade_inStep o intent ns _ _ h).bind fun _ _ hl => .ret (.slots hl)
  | extract input intent slot ns =>
    refine (extract_inStep input intent slot ns).bind fun a b hab => ?_
    cases hab with
    | none => exact .ret .noSlot
    | some h => exact .ret (.extract h)

/-! ### Every engine can be shared -/

/-- A library that answers as a given tagger. -/
def libOf (tagger : Tagger) : CrfLib := ⟨fun _ => .ok (), fun _ _ => none, tagger.tag, tagger.labels, tagger.probability⟩

theorem libOf_stateless (tagger : Tagger) : tagger = (libOf tagger).stateless := rfl

/-- A library for a slot filler. -/
def fillerLib (f : SlotFiller) : CrfLib :=
  libOf (f.tagger.getD ⟨fun _ => .ok [], .ok [], fun _ _ => .ok 0⟩)

theorem get_index {β : Type} : ∀ (m : Map Text β) (k : Text) (v : β), m.get k = some v →
    (m.map Prod.snd)[(m.map Prod.fst).idxOf k]? = some v
  | [], _, _, h => by cases h
  | (k', v') :: m, k, v, h => by
    rw [Map.get_cons] at h
    simp only [List.map_cons, List.idxOf_cons]
    by_cases hk : k' = k
    · subst hk
      rw [if_pos rfl] at h
      simp [h]
    · rw [if_neg (fun h => hk h.symm)] at h
      have := get_index m k v h
      simpa [beq_eq_false_iff_ne.2 hk] using this

theorem shared_list : ∀ (ps : List ParserModel) (pre : List CrfLib), ∃ (post : List CrfLib) (eps : List EParser),
    ∀ libs : Nat → CrfLib, (∀ i l, (pre ++ post)[i]? = some l → libs i = l) →
      List.Forall₂ (SameParser libs) eps (ps.map ParserModel.impl)
  | [], _ => ⟨[], [], fun _ _ => .nil⟩
  | .lookup env p :: ps, pre => by
    obtain ⟨post, eps, h⟩ := shared_list ps pre
    exact ⟨post, _ :: eps, fun libs hl => .cons (.rule _) (h libs hl)⟩
  | .deterministic env p :: ps, pre => by
    obtain ⟨post, eps, h⟩ := shared_list ps pre
    exact ⟨post, _ :: eps, fun libs hl => .cons (.rule _) (h libs hl)⟩
  | .probabilistic env p :: ps, pre => by
    obtain ⟨post, eps, h⟩ := shared_list ps (pre ++ (p.slotFillers.map Prod.snd).map fillerLib)
    refine ⟨(p.slotFillers.map Prod.snd).map fillerLib ++ post,
      p.implE env (fun intent => pre.length + (p.slotFillers.map Prod.fst).idxOf intent) :: eps, fun libs hl =>
      .cons (.prob env p _ fun intent filler hf tg ht => ?_) (h libs fun i l hi => hl i l (by rw [← List.append_assoc]; exact hi))⟩
    have hi := get_index p.slotFillers intent filler hf
    rw [hl _ (fillerLib filler) ?_]
    · unfold fillerLib
      rw [ht]
      exact libOf_stateless tg
    · rw [List.getElem?_append_right (by omega), Nat.add_sub_cancel_left, List.getElem?_append_left ?_, List.getElem?_map, hi]
      · rfl
      · rw [List.length_map]
        exact (List.getElem?_eq_some_iff.1 hi).1

theorem shared_exists (dataset : DatasetMetadata) (names : KindNames) (ps : List ParserModel) :
    ∃ libs e, SameEngine libs e (Engine.ofParsers dataset names ps) := by
  obtain ⟨post, eps, h⟩ := shared_list ps []
  refine ⟨fun i => (post[i]?).getD (libOf ⟨fun _ => .ok [], .ok [], fun _ _ => .ok 0⟩), ⟨dataset, eps, names⟩, rfl, rfl, h _ ?_⟩
  intro i l hl
  rw [List.nil_append] at hl
  rw [hl]
  rfl

end Snips
