import Verif.Spec.Builds
import Verif.Proofs.Prog
import Verif.Proofs.LookupTable
import Verif.Props.C17_Replace

/-! Debug builds and release builds. -/

namespace Snips

/-- The first panics or both are the same. -/
inductive Outcome.Upto {α : Type} : Outcome α → Outcome α → Prop where
  | panic (o : Outcome α) : Upto .panic o
  | same (o : Outcome α) : Upto o o

theorem Outcome.Upto.eq {α : Type} {a b : Outcome α} (h : a.Upto b) (hn : a ≠ .panic) : b = a := by
  cases h with
  | panic => exact absurd rfl hn
  | same => rfl

theorem Outcome.Upto.bind {α β : Type} {a b : Outcome α} {f g : α → Outcome β} (h : a.Upto b)
    (hf : ∀ x, (f x).Upto (g x)) : (a >>= f).Upto (b >>= g) := by
  cases h with
  | panic => exact .panic _
  | same => cases a with
    | ok a => exact hf a
    | err e => exact .same _
    | panic => exact .same _

theorem Outcome.upto_mapOutcome {α β : Type} {f g : α → Outcome β} (h : ∀ a, (f a).Upto (g a)) :
    ∀ l : List α, (mapOutcome f l).Upto (mapOutcome g l)
  | [] => .same _
  | a :: l => by
    have h1 := h a
    have h2 := Outcome.upto_mapOutcome h l
    unfold mapOutcome
    cases hfa : f a with
    | panic => exact .panic _
    | err e =>
      rw [hfa] at h1
      rw [h1.eq (by simp)]
      exact .same _
    | ok b =>
      rw [hfa] at h1
      rw [h1.eq (by simp)]
      cases hfl : mapOutcome f l with
      | panic => exact .panic _
      | err e => rw [hfl] at h2; rw [h2.eq (by simp)]; exact .same _
      | ok bs => rw [hfl] at h2; rw [h2.eq (by simp)]; exact .same _

/-- The first panics, after the same requests, or both are the same. -/
inductive Prog.Upto {α : Type} : Prog α → Prog α → Prop where
  | panic (q : Prog α) : Upto .panic q
  | ret (a : α) : Upto (.ret a) (.ret a)
  | fail (e : Err) : Upto (.fail e) (.fail e)
  | cached (s : Text) (kinds : Option (List Kind)) {k k' : List KindMatch → Prog α} (h : ∀ r, Upto (k r) (k' r)) :
      Upto (.builtinCached s kinds k) (.builtinCached s kinds k')
  | fresh (s : Text) (kinds : Option (List Kind)) (n : Nat) {k k' : List BuiltinEntity → Prog α}
      (h : ∀ r, Upto (k r) (k' r)) : Upto (.builtinFresh s kinds n k) (.builtinFresh s kinds n k')
  | custom (s : Text) (kinds : Option (List Text)) (n : Nat) {k k' : List CustomEntity → Prog α}
      (h : ∀ r, Upto (k r) (k' r)) : Upto (.custom s kinds n k) (.custom s kinds n k')

theorem Prog.Upto.refl {α : Type} : ∀ p : Prog α, p.Upto p
  | .ret a => .ret a
  | .fail e => .fail e
  | .panic => .panic _
  | .builtinCached s kinds k => .cached s kinds fun r => Prog.Upto.refl (k r)
  | .builtinFresh s kinds n k => .fresh s kinds n fun r => Prog.Upto.refl (k r)
  | .custom s kinds n k => .custom s kinds n fun r => Prog.Upto.refl (k r)

theorem Prog.Upto.bind {α β : Type} {p q : Prog α} {f g : α → Prog β} (h : p.Upto q) (hf : ∀ x, (f x).Upto (g x)) :
    (p.bind f).Upto (q.bind g) := by
  induction h with
  | panic => exact .panic _
  | ret a => exact hf a
  | fail e => exact .fail e
  | cached s kinds _ ih => exact .cached s kinds ih
  | fresh s kinds n _ ih => exact .fresh s kinds n ih
  | custom s kinds n _ ih => exact .custom s kinds n ih

theorem Prog.upto_ofOutcome {α : Type} {a b : Outcome α} (h : a.Upto b) : (Prog.ofOutcome a).Upto (Prog.ofOutcome b) := by
  cases h with
  | panic => exact .panic _
  | same => exact .refl _

theorem Prog.upto_mapM {α β : Type} {f g : α → Prog β} (h : ∀ a, (f a).Upto (g a)) :
    ∀ l : List α, (Prog.mapM f l).Upto (Prog.mapM g l)
  | [] => .refl _
  | a :: l => (h a).bind fun _ => (Prog.upto_mapM h l).bind fun _ => .refl _

theorem Prog.Upto.run {α : Type} {p q : Prog α} (h : p.Upto q) (w : World) : (p.run w).Upto (q.run w) := by
  induction h with
  | panic => exact .panic _
  | ret a => exact .same _
  | fail e => exact .same _
  | cached s kinds _ ih =>
    unfold Prog.run
    cases w.builtin s kinds 0 with
    | ok es => exact ih _
    | err e => exact .same _
    | panic => exact .same _
  | fresh s kinds n _ ih =>
    unfold Prog.run
    cases w.builtin s kinds n with
    | ok es => exact ih _
    | err e => exact .same _
    | panic => exact .same _
  | custom s kinds n _ ih =>
    unfold Prog.run
    cases w.custom s kinds n with
    | ok es => exact ih _
    | err e => exact .same _
    | panic => exact .same _

theorem Prog.Upto.runCached {α : Type} {p q : Prog α} (h : p.Upto q) (x : Ext) (t : Nat) (c : Caches)
    (hn : (p.runCached x t c).1 ≠ .panic) : q.runCached x t c = p.runCached x t c := by
  induction h generalizing c with
  | panic => exact absurd rfl hn
  | ret a => rfl
  | fail e => rfl
  | cached s kinds _ ih =>
    unfold Prog.runCached at hn ⊢
    rcases hx : x.builtinCachedAccess t s kinds 0 c with ⟨r, c'⟩
    cases r with
    | ok es =>
      rw [hx] at hn
      exact ih _ _ hn
    | err e => rfl
    | panic => rfl
  | fresh s kinds n _ ih =>
    unfold Prog.runCached at hn ⊢
    cases hx : x.builtinRaw t (x.lower s) kinds n with
    | ok es =>
      rw [hx] at hn
      exact ih _ _ hn
    | err e => rfl
    | panic => rfl
  | custom s kinds n _ ih =>
    unfold Prog.runCached at hn ⊢
    rcases hx : x.customCachedAccess s kinds n c with ⟨r, c'⟩
    cases r with
    | ok es =>
      rw [hx] at hn
      exact ih _ _ hn
    | err e => rfl
    | panic => rfl

theorem runHistory_upto.{u} {α : Type} {ι : Type u} (x : Ext) (f g : ι → Prog α) (h : ∀ i, (f i).Upto (g i)) :
    ∀ (calls : List (Nat × ι)) (c : Caches),
      (∀ o ∈ (runHistory x (calls.map fun i => (i.1, f i.2)) c).1, o ≠ .panic) →
      runHistory x (calls.map fun i => (i.1, g i.2)) c = runHistory x (calls.map fun i => (i.1, f i.2)) c
  | [], _, _ => rfl
  | (t, i) :: calls, c, hn => by
    simp only [List.map_cons, runHistory] at hn ⊢
    have h1 := (h i).runCached x t c (hn _ (List.mem_cons_self ..))
    rw [h1, runHistory_upto x f g h calls _ fun o ho => hn o (List.mem_cons_of_mem _ ho)]

/-! ### The parsers -/

/-- The three functions of a parser. -/
structure ParserImpl.Upto (p q : ParserImpl) : Prop where
  parse : ∀ o t f, (p.parse o t f).Upto (q.parse o t f)
  intents : ∀ o t, (p.getIntents o t).Upto (q.getIntents o t)
  slots : ∀ o t i, (p.getSlots o t i).Upto (q.getSlots o t i)

theorem lookupOne_upto (env : RuleEnv) (p : Lookup) (input : Text) (f : Option (List Text)) (c : Text × List MatchedEntity) :
    (p.lookupOne env input f c).Upto (p.lookupOne env.inRelease input f c) := by
  unfold Lookup.lookupOne
  rw [show env.inRelease.fns = env.fns from rfl]
  cases p.map.get (env.fns.hashStr c.1) with
  | none => exact .same _
  | some output =>
    simp only [Lookup.parseMapOutput]
    by_cases h : env.debugAssertions = true ∧ output.2.length ≠ c.2.length
    · rw [if_pos h]; exact .panic _
    · rw [if_neg h, if_neg (fun h' => by simp [RuleEnv.inRelease] at h')]
      exact .same _

theorem lookup_candidates_release (env : RuleEnv) (p : Lookup) (input : Text) (f : Option (List Text)) :
    p.getCandidates env.inRelease input f = p.getCandidates env input f := by
  have : ∀ scopes, p.candidatesFrom env.inRelease input f scopes = p.candidatesFrom env input f scopes := by
    intro scopes
    induction scopes with
    | nil => rfl
    | cons s ss ih =>
      unfold Lookup.candidatesFrom
      rw [ih]
      rfl
  unfold Lookup.getCandidates
  rw [this]

theorem lookup_top_upto (env : RuleEnv) (p : Lookup) (o : HashOrd) (input : Text) (n : Nat) (f : Option (List Text)) :
    (p.parseTopIntents env o input n f).Upto (p.parseTopIntents env.inRelease o input n f) := by
  unfold Lookup.parseTopIntents
  rw [lookup_candidates_release]
  exact (Prog.Upto.refl _).bind fun cs =>
    (Prog.upto_ofOutcome (Outcome.upto_mapOutcome (lookupOne_upto env p input f) cs)).bind fun rs => .refl _

theorem lookup_upto (env : RuleEnv) (p : Lookup) : (p.impl env).Upto (p.impl env.inRelease) where
  parse o t f := (lookup_top_upto env p o t 1 f).bind fun _ => .refl _
  intents o t := (lookup_top_upto env p o t _ none).bind fun _ => .refl _
  slots o t i := by
    show (p.getSlots env o t i).Upto (p.getSlots env.inRelease o t i)
    unfold Lookup.getSlots
    split
    · exact ((lookup_top_upto env p o t 1 _).bind fun _ => .refl _).bind fun _ => .refl _
    · exact .refl _

theorem replaceChecked_upto (b : Bool) (text : Text) (ms : List MatchedEntity) (ph : Text → Text) :
    (replaceChecked b text ms ph).Upto (replaceChecked false text ms ph) := by
  simp only [replaceChecked, Bool.false_and, Bool.false_eq_true, if_false]
  split
  · exact .panic _
  · exact .same _

theorem det_top_upto (env : RuleEnv) (p : Det) (o : HashOrd) (input : Text) (n : Nat) (f : Option (List Text)) :
    (p.parseTopIntents env o input n f).Upto (p.parseTopIntents env.inRelease o input n f) := by
  unfold Det.parseTopIntents
  refine (Prog.upto_mapM (fun scope => ?_) _).bind fun rs => .refl _
  unfold Det.matchIntent
  refine .cached _ _ fun bs => .custom _ _ _ fun cs => Prog.upto_ofOutcome ?_
  unfold Det.matchWith
  exact (replaceChecked_upto _ _ _ _).bind fun _ => .same _

theorem det_upto (env : RuleEnv) (p : Det) : (p.impl env).Upto (p.impl env.inRelease) where
  parse o t f := (det_top_upto env p o t 1 f).bind fun _ => .refl _
  intents o t := (det_top_upto env p o t _ none).bind fun _ => .refl _
  slots o t i := by
    show (p.getSlots env o t i).Upto (p.getSlots env.inRelease o t i)
    unfold Det.getSlots
    split
    · exact ((det_top_upto env p o t 1 _).bind fun _ => .refl _).bind fun _ => .refl _
    · exact .refl _

theorem cooc_upto (ops : FloatOps ℚ) (env : FeatEnv) (o : HashOrd) (v : Cooc) (input : Text) :
    (v.transform ops env o input).Upto (v.transform ops { env with debugAssertions := false } o input) :=
  .cached _ _ fun _ => .custom _ _ _ fun _ => Prog.upto_ofOutcome ((replaceChecked_upto _ _ _ _).bind fun _ => .same _)

theorem classifier_upto (ops : FloatOps ℚ) (env : FeatEnv) (o : HashOrd) (c : Classifier) (input : Text)
    (f : Option (List Text)) :
    (c.getIntentsWithWhitelist ops env o input f).Upto
      (c.getIntentsWithWhitelist ops { env with debugAssertions := false } o input f) := by
  unfold Classifier.getIntentsWithWhitelist
  by_cases h1 : c.intentList.length ≤ 1
  · rw [if_pos h1, if_pos h1]; exact .refl _
  · rw [if_neg h1, if_neg h1]
    by_cases h2 : input = []
    · rw [if_pos h2, if_pos h2]; exact .refl _
    · rw [if_neg h2, if_neg h2]
      cases c.featurizer with
      | none => exact .refl _
      | some fz =>
        cases c.logreg with
        | none => exact .refl _
        | some lr =>
          refine Prog.Upto.bind ?_ fun features => .refl _
          unfold Featurizer.transform
          refine (Prog.Upto.refl _).bind fun features => ?_
          cases fz.cooc with
          | none => exact .refl _
          | some v => exact (cooc_upto ops env o v input).bind fun _ => .refl _

theorem prob_upto (env : ProbEnv) (p : Prob) : (p.impl env).Upto (p.impl env.inRelease) where
  parse o t f := ((classifier_upto env.ops env.feat o p.classifier t f).bind fun _ => .refl _).bind fun _ => .refl _
  intents o t := classifier_upto env.ops env.feat o p.classifier t none
  slots _ _ _ := .refl _

theorem parser_upto (p : ParserModel) : p.impl.Upto p.inRelease.impl := by
  cases p with
  | lookup env p => exact lookup_upto env p
  | deterministic env p => exact det_upto env p
  | probabilistic env p => exact prob_upto env p

/-! ### The engine -/

/-- Engines whose parsers are so. -/
structure Engine.Upto (e f : Engine) : Prop where
  dataset : f.dataset = e.dataset
  names : f.names = e.names
  parsers : List.Forall₂ ParserImpl.Upto e.parsers f.parsers

theorem Engine.Upto.resolve {e f : Engine} (h : e.Upto f) : f.resolveSlots = e.resolveSlots := by
  obtain ⟨d, ps, n⟩ := e
  obtain ⟨d', ps', n'⟩ := f
  obtain ⟨rfl, rfl, _⟩ := h
  have hone : Engine.resolveOne ⟨d', ps', n'⟩ = Engine.resolveOne ⟨d', ps, n'⟩ := rfl
  have : ∀ a b c l, Engine.resolveEach ⟨d', ps', n'⟩ a b c l = Engine.resolveEach ⟨d', ps, n'⟩ a b c l := by
    intro a b c l
    induction l with
    | nil => rfl
    | cons s l ih => unfold Engine.resolveEach; rw [ih, hone]
  funext t sl n
  unfold Engine.resolveSlots
  simp only [this]

theorem cascade_upto {e f : Engine} (h : e.Upto f) (o : HashOrd) (t : Text) (wl : Option (List Text)) (n : Nat) :
    ∀ {ps qs : List ParserImpl}, List.Forall₂ ParserImpl.Upto ps qs → ∀ i score,
      (e.cascade o t wl n i ps score).Upto (f.cascade o t wl n i qs score)
  | _, _, .nil, _, _ => .refl _
  | p :: ps, q :: qs, .cons hp ht, i, score => by
    unfold Engine.cascade
    refine (hp.parse (o.sub i) t wl).bind fun r => ?_
    cases r.intent.name with
    | none => exact cascade_upto h o t wl n ht _ _
    | some _ => rw [h.resolve]; exact .refl _

theorem collect_upto (o : HashOrd) (t : Text) :
    ∀ {ps qs : List ParserImpl}, List.Forall₂ ParserImpl.Upto ps qs → ∀ i m,
      (Engine.collectIntents o t i ps m).Upto (Engine.collectIntents o t i qs m)
  | _, _, .nil, _, _ => .refl _
  | p :: ps, q :: qs, .cons hp ht, i, m => by
    unfold Engine.collectIntents
    exact (hp.intents (o.sub i) t).bind fun r => collect_upto o t ht _ _

theorem getIntents_upto {e f : Engine} (h : e.Upto f) (o : HashOrd) (t : Text) :
    (e.getIntents o t).Upto (f.getIntents o t) :=
  (collect_upto (o.sub 0) t h.parsers 0 []).bind fun _ => .refl _

theorem slotsCascade_upto {e f : Engine} (h : e.Upto f) (o : HashOrd) (t intent : Text) (n : Nat) :
    ∀ {ps qs : List ParserImpl}, List.Forall₂ ParserImpl.Upto ps qs → ∀ i,
      (e.slotsCascade o t intent n i ps).Upto (f.slotsCascade o t intent n i qs)
  | _, _, .nil, _ => .refl _
  | p :: ps, q :: qs, .cons hp ht, i => by
    unfold Engine.slotsCascade
    refine (hp.slots (o.sub i) t intent).bind fun r => ?_
    split
    · exact slotsCascade_upto h o t intent n ht _
    · rw [h.resolve]; exact .refl _

theorem alternativesSlots_upto {e f : Engine} (h : e.Upto f) (o : HashOrd) (t : Text) (n : Nat) :
    ∀ (l : List IntentResult) i, (e.alternativesSlots o t n i l).Upto (f.alternativesSlots o t n i l)
  | [], _ => .refl _
  | r :: l, i => by
    unfold Engine.alternativesSlots
    refine Prog.Upto.bind ?_ fun slots => (alternativesSlots_upto h o t n l _).bind fun _ => .refl _
    unfold Engine.alternativeSlots
    cases r.name with
    | none => exact .refl _
    | some name => exact slotsCascade_upto h (o.sub i) t name n h.parsers 0

theorem parseWith_upto {e f : Engine} (h : e.Upto f) (o : HashOrd) (t : Text) (wl bl : Option (List Text)) (ni ns : Nat) :
    (e.parseWithAlternatives o t wl bl ni ns).Upto (f.parseWithAlternatives o t wl bl ni ns) := by
  unfold Engine.parseWithAlternatives
  have hw : f.getIntentsWhitelist (o.sub 0) wl bl = e.getIntentsWhitelist (o.sub 0) wl bl := by
    unfold Engine.getIntentsWhitelist
    rw [h.dataset]
  rw [hw]
  refine (Prog.Upto.refl _).bind fun wl => (cascade_upto h _ _ _ _ h.parsers _ _).bind fun main => ?_
  split
  · exact .refl _
  · exact (getIntents_upto h _ _).bind fun ranked => (alternativesSlots_upto h _ _ _ _ _).bind fun _ => .refl _

theorem code_upto {e f : Engine} (h : e.Upto f) (call : EngineCall) : (e.code call).Upto (f.code call) := by
  cases call with
  | parse o t wl bl ni ns => exact (parseWith_upto h o t wl bl ni ns).bind fun _ => .refl _
  | intents o t => exact (getIntents_upto h o t).bind fun _ => .refl _
  | slots o t i n => exact (slotsCascade_upto h o t i n h.parsers 0).bind fun _ => .refl _
  | extract t i s n =>
    have : f.extractSlotWithAlternatives t i s n = e.extractSlotWithAlternatives t i s n := by
      unfold Engine.extractSlotWithAlternatives
      rw [h.dataset, h.names]
    show (Prog.bind _ _).Upto (Prog.bind _ _)
    rw [this]
    exact .refl _

theorem engine_upto (e : LoadedEngine) (names : KindNames) : (e.engine names).Upto (e.inRelease.engine names) where
  dataset := rfl
  names := rfl
  parsers := by
    show List.Forall₂ ParserImpl.Upto (e.parsers.map ParserModel.impl)
      ((e.parsers.map ParserModel.inRelease).map ParserModel.impl)
    rw [List.map_map, List.forall₂_map_left_iff, List.forall₂_map_right_iff]
    exact List.forall₂_same.2 fun p _ => parser_upto p

/-! ### Loading -/

/-- The value changed afterwards. -/
def Load.change {α β : Type} (g : α → β) (l : Load α) : Load β := l.bind fun a => Load.pure (g a)

theorem Load.change_bind {α β γ : Type} (g : β → γ) (l : Load α) (f : α → Load β) :
    Load.change g (l.bind f) = l.bind fun a => Load.change g (f a) := by
  funext fs
  unfold Load.change Load.bind
  rcases l fs with ⟨r, t⟩
  cases r with
  | ok a =>
    simp only
    rcases f a fs with ⟨r', t'⟩
    cases r' <;> simp [Load.pure]
  | err e => rfl
  | panic => rfl

theorem Load.change_lift {α β : Type} (g : α → β) (o : Outcome α) :
    Load.change g (Load.lift o) = Load.lift (o >>= fun a => .ok (g a)) := by
  funext fs
  cases o <;> rfl

theorem Load.bind_change {α β γ : Type} (g : α → β) (l : Load α) (f : β → Load γ) :
    (Load.change g l).bind f = l.bind fun a => f (g a) := by
  funext fs
  unfold Load.change Load.bind
  rcases l fs with ⟨r, t⟩
  cases r with
  | ok a => simp [Load.pure]
  | err e => rfl
  | panic => rfl

theorem Load.change_mapM {α β γ : Type} (g : β → γ) (f : α → Load β) : ∀ l : List α,
    Load.mapM (fun a => Load.change g (f a)) l = Load.change (List.map g) (Load.mapM f l)
  | [] => rfl
  | a :: l => by
    have ih := Load.change_mapM g f l
    show Load.bind _ _ = Load.change _ (Load.bind _ _)
    rw [Load.change_bind, Load.bind_change]
    congr 1
    funext b
    show Load.bind _ _ = Load.change _ (Load.bind _ _)
    rw [ih, Load.change_bind, Load.bind_change]
    rfl

theorem lookup_new_release (env : LoadEnv) (r : Resources) (m : LookupJson) :
    Lookup.new env.inRelease r m = (Lookup.new env r m >>= fun p => .ok p.inRelease) := by
  unfold Lookup.new
  rw [show env.inRelease.language = env.language from rfl]
  cases env.language m.languageCode <;> rfl

theorem det_new_release (env : LoadEnv) (r : Resources) (m : DetJson) :
    Det.new env.inRelease r m = (Det.new env r m >>= fun p => .ok p.inRelease) := by
  unfold Det.new
  rw [show env.inRelease.language = env.language from rfl,
    show compileRegexes env.inRelease m.patterns = compileRegexes env m.patterns from rfl]
  cases env.language m.languageCode with
  | ok l => cases compileRegexes env m.patterns <;> rfl
  | err e => rfl
  | panic => rfl

theorem loadProbabilistic_release (env : LoadEnv) (fns : TextFns) (o : HashOrd) (r : Resources) (path : Path) :
    loadProbabilistic env.inRelease fns o r path = Load.change ParserModel.inRelease (loadProbabilistic env fns o r path) := by
  show Load.bind _ _ = Load.change _ (Load.bind _ _)
  rw [Load.change_bind]
  congr 1
  funext m
  show Load.bind _ _ = Load.change _ (Load.bind _ _)
  rw [Load.change_bind]
  congr 1
  funext c
  show Load.bind _ _ = Load.change _ (Load.bind _ _)
  rw [Load.change_bind]
  rfl

theorem buildIntentParser_release (env : LoadEnv) (fns : TextFns) (o : HashOrd) (r : Resources) (kind : UnitKind)
    (path : Path) : buildIntentParser env.inRelease fns o r kind path =
      Load.change ParserModel.inRelease (buildIntentParser env fns o r kind path) := by
  unfold buildIntentParser
  cases kind with
  | lookupIntentParser =>
    show Load.bind _ _ = Load.change _ (Load.bind _ _)
    rw [Load.change_bind]
    congr 1
    funext m
    rw [Load.change_lift, lookup_new_release]
  | deterministicIntentParser =>
    show Load.bind _ _ = Load.change _ (Load.bind _ _)
    rw [Load.change_bind]
    congr 1
    funext m
    rw [Load.change_lift, det_new_release]
  | probabilisticIntentParser => exact loadProbabilistic_release env fns o r path
  | _ => rfl

theorem loadEngine_release (env : LoadEnv) (o : HashOrd) (dir : Path) :
    loadEngine env.inRelease o dir = Load.change LoadedEngine.inRelease (loadEngine env o dir) := by
  show Load.bind _ _ = Load.change _ (Load.bind _ _)
  rw [Load.change_bind]
  congr 1
  funext m
  show Load.bind _ _ = Load.change _ (Load.bind _ _)
  rw [Load.change_bind]
  congr 1
  funext res
  show Load.bind _ _ = Load.change _ (Load.bind _ _)
  rw [Load.change_bind]
  have h : loadIntentParser env.inRelease res.1 o res.2.1 dir =
      fun name => Load.change ParserModel.inRelease (loadIntentParser env res.1 o res.2.1 dir name) := by
    funext name
    show Load.bind _ _ = Load.change _ (Load.bind _ _)
    rw [Load.change_bind]
    congr 1
    funext kind
    exact buildIntentParser_release env res.1 o res.2.1 kind _
  rw [h, Load.change_mapM, Load.bind_change]
  rfl

/-! ### When a debug build panics -/

theorem bind_ret_panic {α β : Type} {p : Prog α} {w : World} (f : α → β) :
    (p.bind fun a => .ret (f a)).run w = .panic ↔ p.run w = .panic := by
  rw [Prog.run_bind]
  cases p.run w <;> simp [Outcome.bind, Prog.run_ret]

theorem mapOutcome_panic_iff {α β : Type} {f g : α → Outcome β} :
    ∀ {l : List α} {bs : List β}, (∀ a ∈ l, (f a).Upto (g a)) → mapOutcome g l = .ok bs →
      (mapOutcome f l = .panic ↔ ∃ a ∈ l, f a = .panic)
  | [], _, _, _ => by simp [mapOutcome]
  | a :: l, bs, h, hg => by
    have h1 := h a (List.mem_cons_self ..)
    unfold mapOutcome at hg ⊢
    cases hga : g a with
    | err e => rw [hga] at hg; cases hg
    | panic => rw [hga] at hg; cases hg
    | ok b =>
      rw [hga] at hg
      cases hgl : mapOutcome g l with
      | err e => rw [hgl] at hg; cases hg
      | panic => rw [hgl] at hg; cases hg
      | ok bs' =>
        have ih := mapOutcome_panic_iff (fun a ha => h a (List.mem_cons_of_mem _ ha)) hgl
        cases hfa : f a with
        | panic => simp [hfa]
        | err e =>
          rw [hfa] at h1
          rw [h1.eq (by simp)] at hga
          cases hga
        | ok b' =>
          rw [List.exists_mem_cons_iff, hfa]
          simp only [reduceCtorEq, false_or, ← ih]
          cases mapOutcome f l <;> simp

theorem lookupOne_panic_iff {env : RuleEnv} (hd : env.debugAssertions = true) {p : Lookup} {input : Text}
    {f : Option (List Text)} {c : Text × List MatchedEntity} {r : Option InternalResult}
    (h : p.lookupOne env.inRelease input f c = .ok r) :
    p.lookupOne env input f c = .panic ↔
      ∃ n ids, p.map.get (env.fns.hashStr c.1) = some (n, ids) ∧ ids.length ≠ c.2.length := by
  unfold Lookup.lookupOne at h ⊢
  rw [show env.inRelease.fns = env.fns from rfl] at h
  cases hm : p.map.get (env.fns.hashStr c.1) with
  | none => simp
  | some out =>
    rw [hm] at h
    simp only [Lookup.parseMapOutput] at h ⊢
    rw [if_neg (fun h' => by simp [RuleEnv.inRelease] at h')] at h
    obtain ⟨n, ids⟩ := out
    by_cases hl : ids.length = c.2.length
    · rw [if_neg (by simp [hl]), h]
      simp [hl]
    · rw [if_pos ⟨hd, hl⟩]
      simpa using hl

theorem lookup_top_panic {env : RuleEnv} {p : Lookup} {w : World} {o : HashOrd}
    {input : Text} {n : Nat} {f : Option (List Text)} {r : List InternalResult}
    (h : (p.parseTopIntents env.inRelease o input n f).run w = .ok r) :
    ∃ cs, (p.getCandidates env input f).run w = .ok cs ∧
      (∀ c ∈ cs, ∃ r, p.lookupOne env.inRelease input f c = .ok r) ∧
      ((p.parseTopIntents env o input n f).run w = .panic ↔ ∃ c ∈ cs, p.lookupOne env input f c = .panic) := by
  unfold Lookup.parseTopIntents at h ⊢
  rw [lookup_candidates_release, Prog.run_bind, Outcome.bind_ok] at h
  obtain ⟨cs, hcs, h⟩ := h
  rw [Prog.run_bind, Outcome.bind_ok] at h
  obtain ⟨rs, hrs, -⟩ := h
  rw [Prog.run_ofOutcome] at hrs
  refine ⟨cs, hcs, fun c hc => ?_, ?_⟩
  · obtain ⟨i, hi, rfl⟩ := List.getElem_of_mem hc
    have := mapOutcome_ok_iff.1 hrs
    rw [List.forall₂_iff_get] at this
    exact ⟨_, this.2 i hi (this.1 ▸ hi)⟩
  · rw [Prog.run_bind, hcs]
    show (Prog.bind _ _).run w = _ ↔ _
    rw [bind_ret_panic, Prog.run_ofOutcome]
    exact mapOutcome_panic_iff (fun c _ => lookupOne_upto env p input f c) hrs

theorem misfit_iff {env : RuleEnv} (hd : env.debugAssertions = true) {p : Lookup} (hs : p.Sound) {w : World} {input : Text}
    {f : Option (List Text)} (hg : p.GoodMatches env w input) (hn : p.NoRepeats env w input)
    {cs : List (Text × List MatchedEntity)} (hcs : (p.getCandidates env input f).run w = .ok cs)
    (hok : ∀ c ∈ cs, ∃ r, p.lookupOne env.inRelease input f c = .ok r) :
    (∃ c ∈ cs, p.lookupOne env input f c = .panic) ↔ p.Misfit env w input f := by
  constructor
  · rintro ⟨⟨key, es⟩, hc, hp⟩
    obtain ⟨r, hr⟩ := hok _ hc
    obtain ⟨n, ids, hget, hlen⟩ := (lookupOne_panic_iff hd hr).1 hp
    obtain ⟨scope, hsc, owner, how, hpo, found, hf, hes, rfl⟩ := (c34_candidates env p input f w cs hcs key es).1 hc
    obtain ⟨all, hall, rfl⟩ := allEntities_iff.1 hf
    have hgood := hg scope hsc all hall
    have hk := keptMatches_dedup fun e he => (hgood e he).1
    have hmem : ∀ e ∈ es, e.range.NonEmpty ∧ e.range.stop ≤ input.length :=
      fun e he => hgood e (hk.subset e (hes.subset he))
    obtain ⟨segs, h1, h2, h3⟩ := c34_replaced env.fns input es (fun e he => (hmem e he).1) (fun e he => (hmem e he).2)
      (hk.order.sublist hes)
    rw [entitiesOf_eq] at h2
    obtain ⟨ks, rfl, hlt⟩ := ids_cast fun id hid => hs.slots _ (Map.get_some_mem hget) id hid
    obtain ⟨names, hnames⟩ := forall2_getElem hlt
    obtain ⟨hn0, hn1⟩ := hs.intents _ (Map.get_some_mem hget)
    obtain ⟨k, rfl⟩ := Int.eq_ofNat_of_zero_le hn0
    refine ⟨scope, hsc, owner, how, hpo, all, _, segs, p.intentsNames[k]'(by simpa using hn1), names, hall, hk, h1,
      by rw [h2]; exact hes, ⟨k, ks, ?_, List.getElem?_eq_getElem _, hnames⟩, ?_⟩
    · rw [← hget, preprocess_keyOf, h3]
    · rw [h2, ← hnames.length_eq]
      simpa using hlen
  · rintro ⟨scope, hsc, owner, how, hpo, all, kept, segs, intent, names, hall, hk, h1, hes, ⟨n, ks, hget, _, hnames⟩, hlen⟩
    have hne := fun e he => (hg scope hsc all hall e he).1
    rw [keptMatches_unique (hn scope hsc all hall) hne hk (keptMatches_dedup hne)] at hes
    have hc := (c34_candidates env p input f w cs hcs _ _).2
      ⟨scope, hsc, owner, how, hpo, _, allEntities_iff.2 ⟨all, hall, rfl⟩, hes, rfl⟩
    obtain ⟨r, hr⟩ := hok _ hc
    refine ⟨_, hc, (lookupOne_panic_iff hd hr).2 ⟨n, ks.map fun i : Nat => (i : Int), ?_, ?_⟩⟩
    · rw [preprocess_keyOf, replace_segs env.fns h1]
      exact hget
    · rw [List.length_map, hnames.length_eq]
      exact hlen

theorem matchIntent_panic {env : RuleEnv} (hd : env.debugAssertions = true) {p : Det} {w : World} {o : HashOrd}
    {input : Text} {scope : Text × List Kind × List Text} {r : Option InternalResult} (hi : input.length < 32768)
    (hg : ∀ all, Det.Found env w input scope all → ∀ e ∈ all,
      e.range.NonEmpty ∧ e.range.stop ≤ input.length ∧ (entityPlaceholder env.fns e.name).length < 32768)
    (h : (p.matchIntent env.inRelease o input scope).run w = .ok r) :
    (p.matchIntent env o input scope).run w = .panic ↔
      ∃ all, Det.Found env w input scope all ∧ ¬ PlaceholdersEndBefore 32768 (entityPlaceholder env.fns) input all := by
  unfold Det.matchIntent at h
  rw [Prog.run_builtinCached_ok] at h
  obtain ⟨bs, hbs, h⟩ := h
  rw [Prog.run_custom_ok] at h
  obtain ⟨cs, hcs, h⟩ := h
  rw [Prog.run_ofOutcome] at h
  have hall : Det.Found env w input scope ((bs.map BuiltinEntity.kindMatch).map (KindMatch.toMatched env.names) ++
      cs.map CustomEntity.toMatched) := ⟨bs, cs, hbs, hcs, by rw [List.map_map]; rfl⟩
  have hun : ∀ all, Det.Found env w input scope all → all = (bs.map BuiltinEntity.kindMatch).map
      (KindMatch.toMatched env.names) ++ cs.map CustomEntity.toMatched := by
    rintro all ⟨bs', cs', hb', hc', rfl⟩
    rw [hbs] at hb'
    rw [hcs] at hc'
    cases hb'
    cases hc'
    rw [List.map_map]
    rfl
  have hrun : (p.matchIntent env o input scope).run w = p.matchWith env.fns env.debugAssertions o input scope.1
      ((bs.map BuiltinEntity.kindMatch).map (KindMatch.toMatched env.names) ++ cs.map CustomEntity.toMatched) := by
    unfold Det.matchIntent
    simp only [Prog.run, hbs, hcs, Prog.run_ofOutcome]
  rw [hrun]
  change p.matchWith env.fns false o input scope.1
      ((bs.map BuiltinEntity.kindMatch).map (KindMatch.toMatched env.names) ++ cs.map CustomEntity.toMatched) = .ok r at h
  rw [hd]
  generalize (bs.map BuiltinEntity.kindMatch).map (KindMatch.toMatched env.names) ++ cs.map CustomEntity.toMatched = all at *
  have hgood := hg all hall
  have h17 := c17_debug input all (entityPlaceholder env.fns) (fun m hm => (hgood m hm).1) (fun m hm => (hgood m hm).2.1) hi
    fun m hm => (hgood m hm).2.2
  have hrel : replaceChecked false input all (entityPlaceholder env.fns) = .ok (replaceEntities input all (entityPlaceholder env.fns)) := rfl
  by_cases hb : PlaceholdersEndBefore 32768 (entityPlaceholder env.fns) input all
  · have : p.matchWith env.fns true o input scope.1 all = .ok r := by
      rw [← h]
      unfold Det.matchWith
      rw [h17.1 hb, hrel]
    rw [this]
    simp only [reduceCtorEq, false_iff, not_exists, not_and, not_not]
    intro all' ha'
    rw [hun all' ha']
    exact hb
  · have : p.matchWith env.fns true o input scope.1 all = .panic := by
      unfold Det.matchWith
      rw [h17.2 hb]
      rfl
    exact ⟨fun _ => ⟨all, hall, hb⟩, fun _ => this⟩

theorem Prog.run_mapM {α β : Type} (w : World) (f : α → Prog β) : ∀ l : List α,
    (Prog.mapM f l).run w = mapOutcome (fun a => (f a).run w) l
  | [] => rfl
  | a :: l => by
    have ih := Prog.run_mapM w f l
    show (Prog.bind _ _).run w = _
    rw [Prog.run_bind]
    unfold mapOutcome
    cases (f a).run w with
    | ok b =>
      show (Prog.bind _ _).run w = _
      rw [Prog.run_bind, ih]
      cases mapOutcome (fun a => (f a).run w) l <;> rfl
    | err e => rfl
    | panic => rfl

theorem det_top_panic {env : RuleEnv} (hd : env.debugAssertions = true) {p : Det} {w : World} {o : HashOrd}
    {input : Text} {n : Nat} {f : Option (List Text)} {r : List InternalResult} (hi : input.length < 32768)
    (hg : p.GoodFinds env w input) (h : (p.parseTopIntents env.inRelease o input n f).run w = .ok r) :
    (p.parseTopIntents env o input n f).run w = .panic ↔ p.TooLong env w input f := by
  unfold Det.parseTopIntents at h ⊢
  rw [Prog.run_bind, Outcome.bind_ok] at h
  obtain ⟨rs, hrs, -⟩ := h
  rw [Prog.run_mapM] at hrs
  rw [bind_ret_panic, Prog.run_mapM]
  have hup : ∀ s ∈ (o.order 0 p.scopes).filter (fun s => p.inIntentsSet f s.1),
      ((p.matchIntent env o input s).run w).Upto ((p.matchIntent env.inRelease o input s).run w) := fun s _ => by
    refine Prog.Upto.run ?_ w
    unfold Det.matchIntent
    refine .cached _ _ fun bs => .custom _ _ _ fun cs => Prog.upto_ofOutcome ?_
    unfold Det.matchWith
    exact (replaceChecked_upto _ _ _ _).bind fun _ => .same _
  rw [mapOutcome_panic_iff hup hrs]
  have hmem : ∀ s, s ∈ (o.order 0 p.scopes).filter (fun s => p.inIntentsSet f s.1) ↔ s ∈ p.scopes ∧ (match f with
      | some l => s.1 ∈ l
      | none => ∃ slots, (s.1, slots) ∈ p.slotEntities) := by
    intro s
    rw [List.mem_filter, (o.perm 0 p.scopes).mem_iff]
    cases f with
    | some l => simp [Det.inIntentsSet]
    | none => simp [Det.inIntentsSet, Map.keys]
  have hok : ∀ s ∈ (o.order 0 p.scopes).filter (fun s => p.inIntentsSet f s.1),
      ∃ r, (p.matchIntent env.inRelease o input s).run w = .ok r := fun s hs => by
    obtain ⟨i, hi, rfl⟩ := List.getElem_of_mem hs
    have := mapOutcome_ok_iff.1 hrs
    rw [List.forall₂_iff_get] at this
    exact ⟨_, this.2 i hi (this.1 ▸ hi)⟩
  unfold Det.TooLong
  constructor
  · rintro ⟨s, hs, hp⟩
    obtain ⟨r, hr⟩ := hok s hs
    obtain ⟨h1, h2⟩ := (hmem s).1 hs
    exact ⟨s, h1, h2, (matchIntent_panic hd hi (hg s h1) hr).1 hp⟩
  · rintro ⟨s, h1, h2, hall⟩
    have hs := (hmem s).2 ⟨h1, h2⟩
    obtain ⟨r, hr⟩ := hok s hs
    exact ⟨s, hs, (matchIntent_panic hd hi (hg s h1) hr).2 hall⟩

end Snips
