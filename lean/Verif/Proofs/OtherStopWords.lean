import Verif.Spec.OtherStopWords
import Verif.Proofs.StopWords
import Verif.Proofs.Safety
import Verif.Props.C34_Combinations
import Verif.Props.C86_Machine

/-! Lemmas for C123. -/

namespace Snips
namespace OtherStopWords

theorem skipped_iff (s : StopWords) (i t : Text) : s.Skipped i t ↔ t ∈ s.forIntent i := by
  unfold StopWords.Skipped StopWords.forIntent
  cases h : s.specific.get i <;> simp

theorem run_bind_congr {α β : Type} {w : World} {p q : Prog α} {f g : α → Prog β} (h : p.run w = q.run w)
    (hf : ∀ a, p.run w = .ok a → (f a).run w = (g a).run w) : (p.bind f).run w = (q.bind g).run w := by
  rw [Prog.run_bind, Prog.run_bind, ← h]
  cases hp : p.run w with
  | ok a => exact hf a hp
  | err e => rfl
  | panic => rfl

/-! ### Lookup parser -/

theorem lookup_preprocess (env : RuleEnv) (p : Lookup) (s : StopWords) (text intent : Text)
    (h : p.stopWords.AgreeOn s ((env.fns.tokenizeLight text).map env.fns.normalize)) :
    ({ p with stopWords := s } : Lookup).preprocess env text intent = p.preprocess env text intent := by
  unfold Lookup.preprocess
  congr 2
  refine List.filter_congr fun t ht => ?_
  have := h intent (env.fns.normalize t) (List.mem_map_of_mem ht)
  rw [skipped_iff, skipped_iff] at this
  simp [this]

theorem lookup_candidatesFrom (env : RuleEnv) (p : Lookup) (s : StopWords) (w : World) (input : Text)
    (h : p.SameSkipped env w input s) (filter : Option (List Text)) : ∀ scopes : List GroupedScope,
    (∀ x ∈ scopes, x ∈ p.scopes) →
    (({ p with stopWords := s } : Lookup).candidatesFrom env input filter scopes).run w
      = (p.candidatesFrom env input filter scopes).run w
  | [], _ => rfl
  | scope :: scopes, hs => by
    have ih := lookup_candidatesFrom env p s w input h filter scopes fun x hx => hs x (by simp [hx])
    simp only [Lookup.candidatesFrom]
    split
    · exact ih
    · refine run_bind_congr rfl fun es hes => run_bind_congr ih fun rest _ => ?_
      simp only [Prog.run]
      congr 2
      unfold Lookup.scopeCandidates
      refine List.flatMap_congr fun chosen hc => ?_
      have hsub := (c34_mem es chosen).1 hc
      refine List.flatMap_congr fun i _ => ?_
      rw [lookup_preprocess env p s _ i (h _ ⟨scope, hs scope (by simp), es, chosen, hes, hsub, rfl⟩),
        lookup_preprocess env p s input i (h _ ⟨scope, hs scope (by simp), es, [], hes, by simp, rfl⟩)]

theorem lookup_top (env : RuleEnv) (p : Lookup) (s : StopWords) (w : World) (input : Text)
    (h : p.SameSkipped env w input s) (o : HashOrd) (n : Nat) (filter : Option (List Text)) :
    (({ p with stopWords := s } : Lookup).parseTopIntents env o input n filter).run w
      = (p.parseTopIntents env o input n filter).run w := by
  unfold Lookup.parseTopIntents Lookup.getCandidates
  refine run_bind_congr (run_bind_congr ?_ fun _ _ => rfl) fun cs _ => rfl
  exact lookup_candidatesFrom env p s w input h filter p.scopes fun _ hx => hx

/-! ### Deterministic parser -/

theorem det_preprocessFrom (fns : TextFns) (stop stop' : List Text) : ∀ (toks : List Token) (cur : Nat),
    (∀ t ∈ toks, fns.normalize t.value ∈ stop ↔ fns.normalize t.value ∈ stop') →
    detPreprocessFrom fns stop' cur toks = detPreprocessFrom fns stop cur toks
  | [], _, _ => rfl
  | t :: toks, cur, h => by
    have ht := h t (by simp)
    simp only [detPreprocessFrom]
    rw [det_preprocessFrom fns stop stop' toks _ fun x hx => h x (by simp [hx])]
    simp only [List.contains_iff_mem, ht]

theorem det_preprocess (fns : TextFns) (p : Det) (s : StopWords) (text intent : Text)
    (h : p.stopWords.AgreeOn s ((fns.tokenize text).map fun t => fns.normalize t.value)) :
    ({ p with stopWords := s } : Det).preprocess fns text intent = p.preprocess fns text intent := by
  unfold Det.preprocess
  rw [det_preprocessFrom fns (p.stopWords.forIntent intent) (s.forIntent intent) (fns.tokenize text) 0]
  intro t ht
  rw [← skipped_iff, ← skipped_iff]
  exact h intent _ (List.mem_map_of_mem (f := fun t : Token => fns.normalize t.value) ht)

theorem det_top (env : RuleEnv) (p : Det) (s : StopWords) (w : World) (input : Text)
    (h : p.SameSkipped env w input s) (o : HashOrd) (n : Nat) (filter : Option (List Text)) :
    (({ p with stopWords := s } : Det).parseTopIntents env o input n filter).run w
      = (p.parseTopIntents env o input n filter).run w := by
  unfold Det.parseTopIntents
  refine run_bind_congr (run_mapM_congr fun scope hs => ?_) fun _ _ => rfl
  have hs' : scope ∈ p.scopes := (o.perm 0 p.scopes).mem_iff.1 (List.mem_of_mem_filter hs)
  unfold Det.matchIntent
  simp only [Prog.run]
  cases hb : w.builtin input (some scope.2.1) 0 with
  | err e => rfl
  | panic => rfl
  | ok bs =>
    simp only
    cases hc : w.custom input (some scope.2.2) 0 with
    | err e => rfl
    | panic => rfl
    | ok cs =>
      simp only [Prog.run_ofOutcome]
      unfold Det.matchWith
      simp only [Outcome.bind_eq]
      cases hr : replaceChecked env.debugAssertions input
          ((bs.map BuiltinEntity.kindMatch).map (KindMatch.toMatched env.names) ++ cs.map CustomEntity.toMatched)
          (entityPlaceholder env.fns) with
      | err e => rfl
      | panic => rfl
      | ok r =>
        have hv := replaceChecked_value hr
        have hread : p.TextRead env w input r.2 := by
          refine .inr ⟨scope, hs', bs, cs, hb, hc, ?_⟩
          rw [hv, List.map_map]
          rfl
        simp only [Outcome.bind]
        rw [det_preprocess env.fns p s input scope.1 (h _ (.inl rfl)), det_preprocess env.fns p s r.2 scope.1 (h _ hread)]
        rfl

/-! ### Probabilistic parser -/

theorem cooc_transform {F : Type} (ops : FloatOps F) (env : FeatEnv) (o : HashOrd) (v : Cooc) (w : World) (input : Text)
    (words : List Text)
    (h : ∀ text, v.TextRead env w input text → ∀ t ∈ v.fns.tokenizeLight text, t ∈ env.stopWords ↔ t ∈ words) :
    (v.transform ops { env with stopWords := words } o input).run w = (v.transform ops env o input).run w := by
  unfold Cooc.transform
  simp only [Prog.run]
  cases hb : w.builtin input (some v.scope) 0 with
  | err e => rfl
  | panic => rfl
  | ok bs =>
    simp only
    cases hc : w.custom input none 0 with
    | err e => rfl
    | panic => rfl
    | ok cs =>
      simp only [Prog.run_ofOutcome, Outcome.bind_eq]
      cases hr : replaceChecked env.debugAssertions input
          ((bs.map BuiltinEntity.kindMatch).map (KindMatch.toMatched env.names) ++ cs.map CustomEntity.toMatched)
          (coocPlaceholder v.fns) with
      | err e => rfl
      | panic => rfl
      | ok r =>
        have hv := replaceChecked_value hr
        have hread : v.TextRead env w input r.2 := by
          refine ⟨bs, cs, hb, hc, ?_⟩
          rw [hv, List.map_map]
          rfl
        have hf : v.filterTokens words (v.fns.tokenizeLight r.2) = v.filterTokens env.stopWords (v.fns.tokenizeLight r.2) := by
          unfold Cooc.filterTokens
          refine List.filter_congr fun t ht => ?_
          have := h _ hread t ht
          simp [this]
        simp only [Outcome.bind, Cooc.extractWordPairs, hf]

theorem tfidf_transform {F : Type} (ops : FloatOps F) (env : FeatEnv) (o : HashOrd) (v : Tfidf F) (input : Text)
    (words : List Text) : v.transform ops { env with stopWords := words } o input = v.transform ops env o input := rfl

theorem classifier_intents (ops : FloatOps ℚ) (env : FeatEnv) (c : Classifier) (w : World) (input : Text)
    (words : List Text) (h : c.SameSkipped env w input words) (o : HashOrd) (filter : Option (List Text)) :
    (c.getIntentsWithWhitelist ops { env with stopWords := words } o input filter).run w
      = (c.getIntentsWithWhitelist ops env o input filter).run w := by
  unfold Classifier.getIntentsWithWhitelist
  split
  · rfl
  · split
    · rfl
    · cases hf : c.featurizer with
      | none => rfl
      | some f =>
        cases c.logreg with
        | none => rfl
        | some m =>
          simp only
          refine run_bind_congr ?_ fun _ _ => rfl
          unfold Featurizer.transform
          refine run_bind_congr (by rw [tfidf_transform]) fun features _ => ?_
          cases hv : f.cooc with
          | none => rfl
          | some v =>
            simp only
            exact run_bind_congr (cooc_transform ops env o v w input words (h f v hf hv)) fun _ _ => rfl

/-! ### Engine -/

/-- Two implementations that answer the query alike. -/
structure AnswersAlike (w : World) (input : Text) (p p' : ParserImpl) : Prop where
  parse : ∀ o filter, (p.parse o input filter).run w = (p'.parse o input filter).run w
  getIntents : ∀ o, (p.getIntents o input).run w = (p'.getIntents o input).run w
  getSlots : ∀ o intent, (p.getSlots o input intent).run w = (p'.getSlots o input intent).run w

variable {w : World} {input : Text}

theorem resolveSlots_eq (e e' : Engine) (hd : e'.dataset = e.dataset) (hn : e'.names = e.names) (text : Text)
    (slots : List InternalSlot) (ns : Nat) : e'.resolveSlots text slots ns = e.resolveSlots text slots ns := by
  have he : ∀ b c l, e'.resolveEach ns b c l = e.resolveEach ns b c l := by
    intro b c l
    induction l with
    | nil => rfl
    | cons s l ihl => simp only [Engine.resolveEach, ihl, Engine.resolveOne, hd, hn]
  simp only [Engine.resolveSlots, hn, he]

theorem cascade_eq (e e' : Engine) (hd : e'.dataset = e.dataset) (hn : e'.names = e.names) (o : HashOrd)
    (eff : Option (List Text)) (ns : Nat) {ps ps' : List ParserImpl} (h : List.Forall₂ (AnswersAlike w input) ps ps') :
    ∀ (i : Nat) (sc : ℚ), (e'.cascade o input eff ns i ps' sc).run w = (e.cascade o input eff ns i ps sc).run w := by
  induction h with
  | nil => intro i sc; rfl
  | cons h1 _ ih =>
    intro i sc
    simp only [Engine.cascade, Prog.bind_eq]
    refine run_bind_congr (h1.parse _ _).symm fun r _ => ?_
    cases r.intent.name with
    | none => exact ih _ _
    | some n => simp only [resolveSlots_eq e e' hd hn]

theorem collect_eq (o : HashOrd) {ps ps' : List ParserImpl} (h : List.Forall₂ (AnswersAlike w input) ps ps') :
    ∀ (i : Nat) (m : Map (Option Text) IntentResult),
      (Engine.collectIntents o input i ps' m).run w = (Engine.collectIntents o input i ps m).run w := by
  induction h with
  | nil => intro i m; rfl
  | cons h1 _ ih =>
    intro i m
    simp only [Engine.collectIntents, Prog.bind_eq]
    exact run_bind_congr (h1.getIntents _).symm fun r _ => ih _ _

theorem slotsCascade_eq (e e' : Engine) (hd : e'.dataset = e.dataset) (hn : e'.names = e.names) (o : HashOrd)
    (intent : Text) (ns : Nat) {ps ps' : List ParserImpl} (h : List.Forall₂ (AnswersAlike w input) ps ps') :
    ∀ i : Nat, (e'.slotsCascade o input intent ns i ps').run w = (e.slotsCascade o input intent ns i ps).run w := by
  induction h with
  | nil => intro i; rfl
  | cons h1 _ ih =>
    intro i
    simp only [Engine.slotsCascade, Prog.bind_eq]
    refine run_bind_congr (h1.getSlots _ _).symm fun r _ => ?_
    split
    · exact ih _
    · rw [resolveSlots_eq e e' hd hn]

theorem getIntents_eq (e e' : Engine) (h : List.Forall₂ (AnswersAlike w input) e.parsers e'.parsers) (o : HashOrd) :
    (e'.getIntents o input).run w = (e.getIntents o input).run w := by
  unfold Engine.getIntents
  simp only [Prog.bind_eq]
  exact run_bind_congr (collect_eq _ h 0 []) fun _ _ => rfl

theorem getSlots_eq (e e' : Engine) (hd : e'.dataset = e.dataset) (hn : e'.names = e.names)
    (h : List.Forall₂ (AnswersAlike w input) e.parsers e'.parsers) (o : HashOrd) (intent : Text) (ns : Nat) :
    (e'.getSlotsWithAlternatives o input intent ns).run w = (e.getSlotsWithAlternatives o input intent ns).run w :=
  slotsCascade_eq e e' hd hn o intent ns h 0

theorem alternatives_eq (e e' : Engine) (hd : e'.dataset = e.dataset) (hn : e'.names = e.names)
    (h : List.Forall₂ (AnswersAlike w input) e.parsers e'.parsers) (o : HashOrd) (ns : Nat) :
    ∀ (rs : List IntentResult) (i : Nat),
      (e'.alternativesSlots o input ns i rs).run w = (e.alternativesSlots o input ns i rs).run w
  | [], _ => rfl
  | r :: rs, i => by
    simp only [Engine.alternativesSlots, Prog.bind_eq]
    refine run_bind_congr ?_ fun slots _ => run_bind_congr (alternatives_eq e e' hd hn h o ns rs _) fun _ _ => rfl
    cases r.name with
    | none => rfl
    | some n => exact getSlots_eq e e' hd hn h _ n ns

theorem parse_eq (e e' : Engine) (hd : e'.dataset = e.dataset) (hn : e'.names = e.names)
    (h : List.Forall₂ (AnswersAlike w input) e.parsers e'.parsers) (o : HashOrd) (wl bl : Option (List Text))
    (ni ns : Nat) :
    (e'.parseWithAlternatives o input wl bl ni ns).run w = (e.parseWithAlternatives o input wl bl ni ns).run w := by
  unfold Engine.parseWithAlternatives
  simp only [Prog.bind_eq]
  refine run_bind_congr (by simp only [Engine.getIntentsWhitelist, hd]) fun eff _ => ?_
  refine run_bind_congr (cascade_eq e e' hd hn _ eff ns h 0 0) fun main _ => ?_
  split
  · rfl
  · refine run_bind_congr (getIntents_eq e e' h _) fun ranked _ => ?_
    exact run_bind_congr (alternatives_eq e e' hd hn h _ ns _ 0) fun _ _ => rfl

end OtherStopWords
end Snips
