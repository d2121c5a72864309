import Verif.Spec.EngineShared
import Verif.Proofs.Concurrent
import Verif.Proofs.Prog

/-! Lemmas on threads that share an engine. -/

namespace Snips

variable {α β : Type}

/-! ### The same code without state -/

theorem alone_bind (libs : Nat → CrfLib) (p : EProg α) (f : α → EProg β) :
    (p.bind f).alone libs = (p.alone libs).bind fun a => (f a).alone libs := by
  induction p with
  | ret a => rfl
  | fail e => rfl
  | panic => rfl
  | builtinCached s kinds k ih => simp only [EProg.bind, EProg.alone, Prog.bind, ih]
  | builtinFresh s kinds n k ih => simp only [EProg.bind, EProg.alone, Prog.bind, ih]
  | custom s kinds n k ih => simp only [EProg.bind, EProg.alone, Prog.bind, ih]
  | tags i f d k ih =>
    simp only [EProg.bind, EProg.alone]
    cases (libs i).stateless.tag f >>= d with
    | ok r => exact ih r
    | err e => rfl
    | panic => rfl

theorem Prog.bind_bind {γ : Type} (p : Prog α) (f : α → Prog β) (g : β → Prog γ) :
    (p.bind f).bind g = p.bind fun a => (f a).bind g := by
  induction p with
  | ret a => rfl
  | fail e => rfl
  | panic => rfl
  | builtinCached s kinds k ih => simp only [Prog.bind, ih]
  | builtinFresh s kinds n k ih => simp only [Prog.bind, ih]
  | custom s kinds n k ih => simp only [Prog.bind, ih]

theorem alone_lift (libs : Nat → CrfLib) (p : Prog α) : (EProg.lift p).alone libs = p := by
  induction p with
  | ret a => rfl
  | fail e => rfl
  | panic => rfl
  | builtinCached s kinds k ih => simp only [EProg.lift, EProg.alone, ih]
  | builtinFresh s kinds n k ih => simp only [EProg.lift, EProg.alone, ih]
  | custom s kinds n k ih => simp only [EProg.lift, EProg.alone, ih]

theorem ofOutcome_bind (o : Outcome α) (f : α → Outcome β) :
    Prog.ofOutcome (o >>= f) = match o with
      | .ok a => Prog.ofOutcome (f a)
      | .err e => .fail e
      | .panic => .panic := by
  cases o <;> rfl

theorem getSlotsE_alone {libs : Nat → CrfLib} (codec : TagCodec) (f : SlotFiller) (i : Nat)
    (h : ∀ tg, f.tagger = some tg → tg = (libs i).stateless) (text : Text) :
    (f.getSlotsE codec i text).alone libs = f.getSlots codec text := by
  unfold SlotFiller.getSlotsE SlotFiller.getSlots
  cases ht : f.tagger with
  | none => rfl
  | some tg =>
    cases hp : f.processor with
    | none => rfl
    | some os =>
      simp only
      by_cases he : f.fns.tokenize text = []
      · rw [if_pos he, if_pos he]; rfl
      · rw [if_neg he, if_neg he, alone_bind, alone_lift, h tg ht]
        congr 1
        funext features
        simp only [EProg.alone, alone_lift]
        cases h1 : (libs i).stateless.tag features with
        | err e => rfl
        | panic => rfl
        | ok enc =>
          show (match (mapOutcome codec.decode enc) with | .ok r => _ | .err e => _ | .panic => _) = Prog.ofOutcome
            ((mapOutcome codec.decode enc) >>= _)
          cases mapOutcome codec.decode enc <;> rfl

theorem slotsOfE_alone {libs : Nat → CrfLib} (env : ProbEnv) (p : Prob) (number : Text → Nat)
    (h : ∀ intent filler, p.slotFillers.get intent = some filler →
        ∀ tg, filler.tagger = some tg → tg = (libs (number intent)).stateless) (e : Err) (input intent : Text) :
    (p.slotsOfE env number e input intent).alone libs = p.slotsOf env e input intent := by
  unfold Prob.slotsOfE Prob.slotsOf
  cases hf : p.slotFillers.get intent with
  | none => rfl
  | some filler => exact getSlotsE_alone env.codec filler _ (h intent filler hf) input

/-- The operations of a parser without the state of taggers. -/
structure ParserAlone (libs : Nat → CrfLib) (p : EParser) (q : ParserImpl) : Prop where
  parse : ∀ o t w, (p.parse o t w).alone libs = q.parse o t w
  getIntents : ∀ o t, (p.getIntents o t).alone libs = q.getIntents o t
  getSlots : ∀ o t i, (p.getSlots o t i).alone libs = q.getSlots o t i

theorem SameParser.alone {libs : Nat → CrfLib} {p : EParser} {q : ParserImpl} (h : SameParser libs p q) :
    ParserAlone libs p q := by
  cases h with
  | rule => exact ⟨fun o t w => alone_lift _ _, fun o t => alone_lift _ _, fun o t i => alone_lift _ _⟩
  | prob env p number h =>
    refine ⟨?_, fun o t => alone_lift _ _, fun o t i => slotsOfE_alone env p number h _ t i⟩
    intro o t w
    simp only [Prob.implE, Prob.impl, Prob.parseE, Prob.parse]
    rw [alone_bind, alone_lift]
    congr 1
    funext res
    cases res.name with
    | none => rfl
    | some name => simp only [alone_bind, slotsOfE_alone env p number h]; rfl

theorem cascade_alone {libs : Nat → CrfLib} {e : EEngine} {e' : Engine} (hr : ∀ t s n, e.resolver.resolveSlots t s n =
    e'.resolveSlots t s n) (o : HashOrd) (input : Text) (wl : Option (List Text)) (ns : Nat) {ps : List EParser}
    {qs : List ParserImpl} (h : List.Forall₂ (ParserAlone libs) ps qs) : ∀ (i : Nat) (q : ℚ),
    (e.cascade o input wl ns i ps q).alone libs = e'.cascade o input wl ns i qs q := by
  induction h with
  | nil => intro i q; rfl
  | cons hp _ ih =>
    intro i q
    simp only [EEngine.cascade, Engine.cascade, alone_bind, hp.parse, Prog.bind_eq]
    congr 1
    funext r
    cases r.intent.name with
    | none => exact ih _ _
    | some name => simp only [alone_bind, alone_lift, hr]; rfl

theorem collectIntents_alone {libs : Nat → CrfLib} (o : HashOrd) (input : Text) {ps : List EParser}
    {qs : List ParserImpl} (h : List.Forall₂ (ParserAlone libs) ps qs) : ∀ (i : Nat) (m : Map (Option Text) IntentResult),
    (EEngine.collectIntents o input i ps m).alone libs = Engine.collectIntents o input i qs m := by
  induction h with
  | nil => intro i m; rfl
  | cons hp _ ih =>
    intro i m
    simp only [EEngine.collectIntents, Engine.collectIntents, alone_bind, hp.getIntents, ih, Prog.bind_eq]

theorem slotsCascade_alone {libs : Nat → CrfLib} {e : EEngine} {e' : Engine} (hr : ∀ t s n, e.resolver.resolveSlots t s n =
    e'.resolveSlots t s n) (o : HashOrd) (input intent : Text) (ns : Nat) {ps : List EParser}
    {qs : List ParserImpl} (h : List.Forall₂ (ParserAlone libs) ps qs) : ∀ (i : Nat),
    (e.slotsCascade o input intent ns i ps).alone libs = e'.slotsCascade o input intent ns i qs := by
  induction h with
  | nil => intro i; rfl
  | cons hp _ ih =>
    intro i
    simp only [EEngine.slotsCascade, Engine.slotsCascade, alone_bind, hp.getSlots, Prog.bind_eq]
    congr 1
    funext slots
    split
    · exact ih _
    · rw [alone_lift, hr]

theorem alternativesSlots_alone {libs : Nat → CrfLib} {e : EEngine} {e' : Engine}
    (hs : ∀ o t i n, (e.getSlotsWithAlternatives o t i n).alone libs = e'.getSlotsWithAlternatives o t i n) (o : HashOrd)
    (input : Text) (ns : Nat) (l : List IntentResult) : ∀ i : Nat,
    (e.alternativesSlots o input ns i l).alone libs = e'.alternativesSlots o input ns i l := by
  induction l with
  | nil => intro i; rfl
  | cons res l ih =>
    intro i
    have h1 : (e.alternativeSlots (o.sub i) input ns res.name).alone libs =
        e'.alternativeSlots (o.sub i) input ns res.name := by
      cases res.name with
      | none => rfl
      | some name => exact hs _ _ _ _
    simp only [EEngine.alternativesSlots, Engine.alternativesSlots, alone_bind, h1, ih, Prog.bind_eq]
    rfl

/-- Resolution and filters do not look at the parsers. -/
theorem resolver_eq {e : EEngine} {e' : Engine} (hd : e.dataset = e'.dataset) (hn : e.names = e'.names) :
    (∀ t s n, e.resolver.resolveSlots t s n = e'.resolveSlots t s n) ∧
    (∀ o w b, e.resolver.getIntentsWhitelist o w b = e'.getIntentsWhitelist o w b) ∧
    (∀ t i s n, e.resolver.extractSlotWithAlternatives t i s n = e'.extractSlotWithAlternatives t i s n) := by
  obtain ⟨d, ps, ns⟩ := e
  obtain ⟨d', ps', ns'⟩ := e'
  simp only at hd hn
  subst hd hn
  have heach : ∀ n bs cs s, (EEngine.resolver ⟨d, ps, ns⟩).resolveEach n bs cs s =
      Engine.resolveEach ⟨d, ps', ns⟩ n bs cs s := by
    intro n bs cs s
    induction s with
    | nil => rfl
    | cons x s ih => simp only [Engine.resolveEach, ih]; rfl
  refine ⟨?_, fun _ _ _ => rfl, fun _ _ _ _ => rfl⟩
  intro t s n
  simp only [Engine.resolveSlots, heach]
  rfl

theorem code_alone {libs : Nat → CrfLib} {e : EEngine} {e' : Engine} (h : SameEngine libs e e') (call : EngineCall) :
    (e.code call).alone libs = e'.code call := by
  obtain ⟨hr, hw, hx⟩ := resolver_eq h.dataset h.names
  have hp : List.Forall₂ (ParserAlone libs) e.parsers e'.parsers := h.parsers.imp fun _ _ h => h.alone
  have hi : ∀ o t, (e.getIntents o t).alone libs = e'.getIntents o t := by
    intro o t
    simp only [EEngine.getIntents, Engine.getIntents, alone_bind, collectIntents_alone _ _ hp, Prog.bind_eq]
    rfl
  have hs : ∀ o t i n, (e.getSlotsWithAlternatives o t i n).alone libs = e'.getSlotsWithAlternatives o t i n :=
    fun o t i n => slotsCascade_alone hr o t i n hp 0
  cases call with
  | parse o input wl bl ni ns =>
    simp only [EEngine.code, Engine.code, alone_bind]
    congr 1
    simp only [EEngine.parseWithAlternatives, Engine.parseWithAlternatives, alone_bind, alone_lift, hw, Prog.bind_eq]
    congr 1
    funext w
    rw [cascade_alone hr _ _ _ _ hp]
    congr 1
    funext main
    split
    · rfl
    · simp only [alone_bind, hi, alternativesSlots_alone hs]
      rfl
  | intents o input => simp only [EEngine.code, Engine.code, alone_bind, hi]; rfl
  | slots o input intent ns => simp only [EEngine.code, Engine.code, alone_bind, hs]; rfl
  | extract input intent slot ns => simp only [EEngine.code, Engine.code, alone_bind, alone_lift, hx]; rfl

/-! ### Answers at times -/

/-- Without looking at the clock, answers are those of the interpreter without caches. -/
theorem answers_run {x : Ext} {t t' : Nat} (hts : x.TimeStable) {p : Prog α} {times : List Nat} {o : Outcome α}
    (h : p.Answers x t times o) (hall : ∀ u ∈ times, x.builtinRaw u = x.builtinRaw t') : o = p.run (x.world t') := by
  have hstab : ∀ s kinds, ((x.world t).builtin s kinds 0).map (List.map BuiltinEntity.kindMatch) =
      ((x.world t').builtin s kinds 0).map (List.map BuiltinEntity.kindMatch) := fun s kinds => hts _ _ _ _ _
  induction h with
  | ret a => rfl
  | fail e => rfl
  | panic => rfl
  | @fresh s kinds n k es u times o he _ ih =>
    have : (x.world t').builtin s kinds n = .ok es := by
      simp only [Ext.world] at he ⊢
      rw [← hall u (by simp)]
      exact he
    simp only [Prog.run, this]
    exact ih fun u hu => hall u (by simp [hu])
  | @freshErr s kinds n k e u he =>
    have : (x.world t').builtin s kinds n = .err e := by
      simp only [Ext.world] at he ⊢
      rw [← hall u (by simp)]
      exact he
    simp only [Prog.run, this]
  | @freshPanic s kinds n k u he =>
    have : (x.world t').builtin s kinds n = .panic := by
      simp only [Ext.world] at he ⊢
      rw [← hall u (by simp)]
      exact he
    simp only [Prog.run, this]
  | @cached s kinds k es times o he _ ih =>
    have h1 := hstab s kinds
    rw [he] at h1
    simp only [Prog.run]
    cases h2 : (x.world t').builtin s kinds 0 with
    | ok es' =>
      rw [h2] at h1
      simp only [Outcome.map, Outcome.ok.injEq] at h1
      simp only
      rw [← h1]
      exact ih hall
    | err e => rw [h2] at h1; cases h1
    | panic => rw [h2] at h1; cases h1
  | @cachedErr s kinds k e he =>
    have h1 := hstab s kinds
    rw [he] at h1
    simp only [Prog.run]
    cases h2 : (x.world t').builtin s kinds 0 with
    | ok es' => rw [h2] at h1; cases h1
    | err e => rw [h2] at h1; cases h1; rfl
    | panic => rw [h2] at h1; cases h1
  | @cachedPanic s kinds k he =>
    have h1 := hstab s kinds
    rw [he] at h1
    simp only [Prog.run]
    cases h2 : (x.world t').builtin s kinds 0 with
    | ok es' => rw [h2] at h1; cases h1
    | err e => rw [h2] at h1; cases h1
    | panic => rfl
  | @custom s kinds n k es times o he _ ih =>
    have : (x.world t').custom s kinds n = .ok es := he
    simp only [Prog.run, this]
    exact ih hall
  | @customErr s kinds n k e he =>
    have : (x.world t').custom s kinds n = .err e := he
    simp only [Prog.run, this]
  | @customPanic s kinds n k he =>
    have : (x.world t').custom s kinds n = .panic := he
    simp only [Prog.run, this]

theorem answers_unique {x : Ext} {t : Nat} {p : Prog α} {times : List Nat} {o o' : Outcome α}
    (h : p.Answers x t times o) (h' : p.Answers x t times o') : o = o' := by
  induction h with
  | ret a => cases h'; rfl
  | fail e => cases h'; rfl
  | panic => cases h'; rfl
  | fresh he _ ih =>
    cases h' with
    | fresh he' h' => rw [he] at he'; cases he'; exact ih h'
    | freshErr he' => rw [he] at he'; cases he'
    | freshPanic he' => rw [he] at he'; cases he'
  | freshErr he =>
    cases h' with
    | fresh he' h' => rw [he] at he'; cases he'
    | freshErr he' => rw [he] at he'; cases he'; rfl
    | freshPanic he' => rw [he] at he'; cases he'
  | freshPanic he =>
    cases h' with
    | fresh he' h' => rw [he] at he'; cases he'
    | freshErr he' => rw [he] at he'; cases he'
    | freshPanic he' => rfl
  | cached he _ ih =>
    cases h' with
    | cached he' h' => rw [he] at he'; cases he'; exact ih h'
    | cachedErr he' => rw [he] at he'; cases he'
    | cachedPanic he' => rw [he] at he'; cases he'
  | cachedErr he =>
    cases h' with
    | cached he' h' => rw [he] at he'; cases he'
    | cachedErr he' => rw [he] at he'; cases he'; rfl
    | cachedPanic he' => rw [he] at he'; cases he'
  | cachedPanic he =>
    cases h' with
    | cached he' h' => rw [he] at he'; cases he'
    | cachedErr he' => rw [he] at he'; cases he'
    | cachedPanic he' => rfl
  | custom he _ ih =>
    cases h' with
    | custom he' h' => rw [he] at he'; cases he'; exact ih h'
    | customErr he' => rw [he] at he'; cases he'
    | customPanic he' => rw [he] at he'; cases he'
  | customErr he =>
    cases h' with
    | custom he' h' => rw [he] at he'; cases he'
    | customErr he' => rw [he] at he'; cases he'; rfl
    | customPanic he' => rw [he] at he'; cases he'
  | customPanic he =>
    cases h' with
    | custom he' h' => rw [he] at he'; cases he'
    | customErr he' => rw [he] at he'; cases he'
    | customPanic he' => rfl

/-- Every code has answers at one time, those of the interpreter. -/
theorem answers_exist (x : Ext) (t : Nat) (p : Prog α) : ∃ n, p.Answers x t (List.replicate n t) (p.run (x.world t)) := by
  induction p with
  | ret a => exact ⟨0, .ret a⟩
  | fail e => exact ⟨0, .fail e⟩
  | panic => exact ⟨0, .panic⟩
  | builtinFresh s kinds n k ih =>
    simp only [Prog.run]
    cases h : (x.world t).builtin s kinds n with
    | ok es => obtain ⟨m, hm⟩ := ih es; exact ⟨m + 1, .fresh h hm⟩
    | err e => exact ⟨1, .freshErr h⟩
    | panic => exact ⟨1, .freshPanic h⟩
  | builtinCached s kinds k ih =>
    simp only [Prog.run]
    cases h : (x.world t).builtin s kinds 0 with
    | ok es => obtain ⟨m, hm⟩ := ih (es.map BuiltinEntity.kindMatch); exact ⟨m, .cached h hm⟩
    | err e => exact ⟨0, .cachedErr h⟩
    | panic => exact ⟨0, .cachedPanic h⟩
  | custom s kinds n k ih =>
    simp only [Prog.run]
    cases h : (x.world t).custom s kinds n with
    | ok es => obtain ⟨m, hm⟩ := ih es; exact ⟨m, .custom h hm⟩
    | err e => exact ⟨0, .customErr h⟩
    | panic => exact ⟨0, .customPanic h⟩

/-! ### Locks -/

/-- Each mutex is held by as many threads as it says: one or none. -/
structure ELocks (s : ESystem α) : Prop where
  builtin : s.threads.countP (fun p => p.2.holdsBuiltin) = if s.shared.shared.builtinHeld then 1 else 0
  custom : s.threads.countP (fun p => p.2.holdsCustom) = if s.shared.shared.customHeld then 1 else 0
  tagger : ∀ i, s.threads.countP (fun p => p.2.holdsTagger i) = if (s.shared.taggers i).held then 1 else 0

theorem eresume_holds (r : Outcome β) (k : β → EProg α) : (EThread.resume r k).holdsBuiltin = false ∧
    (EThread.resume r k).holdsCustom = false ∧ ∀ i, (EThread.resume r k).holdsTagger i = false := by
  cases r <;> exact ⟨rfl, rfl, fun _ => rfl⟩

theorem put_held (sh : EShared) (i j : Nat) (ts : TaggerState) :
    ((sh.put i ts).taggers j) = if j = i then ts else sh.taggers j := rfl

theorem elocks_move {x : Ext} {libs : Nat → CrfLib} {s s' : ESystem α} (h : EMove x libs s s') (ih : ELocks s) :
    ELocks s' := by
  cases h with
  | step pre post th th' sh sh' h =>
    obtain ⟨i1, i2, i3⟩ := ih
    simp only [List.countP_append, List.countP_cons] at i1 i2 i3
    cases h with
    | begin p t => exact ⟨by simp only [List.countP_append, List.countP_cons]; exact i1,
        by simp only [List.countP_append, List.countP_cons]; exact i2,
        fun i => by simp only [List.countP_append, List.countP_cons]; exact i3 i⟩
    | ret a t => exact ⟨by simp only [List.countP_append, List.countP_cons]; exact i1,
        by simp only [List.countP_append, List.countP_cons]; exact i2,
        fun i => by simp only [List.countP_append, List.countP_cons]; exact i3 i⟩
    | fail a t => exact ⟨by simp only [List.countP_append, List.countP_cons]; exact i1,
        by simp only [List.countP_append, List.countP_cons]; exact i2,
        fun i => by simp only [List.countP_append, List.countP_cons]; exact i3 i⟩
    | panic t => exact ⟨by simp only [List.countP_append, List.countP_cons]; exact i1,
        by simp only [List.countP_append, List.countP_cons]; exact i2,
        fun i => by simp only [List.countP_append, List.countP_cons]; exact i3 i⟩
    | lockBuiltinPoisoned => exact ⟨by simp only [List.countP_append, List.countP_cons]; exact i1,
        by simp only [List.countP_append, List.countP_cons]; exact i2,
        fun i => by simp only [List.countP_append, List.countP_cons]; exact i3 i⟩
    | lockCustomPoisoned => exact ⟨by simp only [List.countP_append, List.countP_cons]; exact i1,
        by simp only [List.countP_append, List.countP_cons]; exact i2,
        fun i => by simp only [List.countP_append, List.countP_cons]; exact i3 i⟩
    | lockTaggerPoisoned => exact ⟨by simp only [List.countP_append, List.countP_cons]; exact i1,
        by simp only [List.countP_append, List.countP_cons]; exact i2,
        fun i => by simp only [List.countP_append, List.countP_cons]; exact i3 i⟩
    | fresh s kinds n k t =>
      obtain ⟨r1, r2, r3⟩ := eresume_holds (x.builtinRaw sh.now (x.lower s) kinds n) k
      refine ⟨?_, ?_, fun i => ?_⟩ <;> simp only [List.countP_append, List.countP_cons, r1, r2, r3]
      · exact i1
      · exact i2
      · exact i3 i
    | lockBuiltin s kinds k t _ hheld hp =>
      refine ⟨?_, by simp only [List.countP_append, List.countP_cons]; exact i2,
        fun i => by simp only [List.countP_append, List.countP_cons]; exact i3 i⟩
      simp only [List.countP_append, List.countP_cons]
      rw [hheld] at i1
      simp only [EThread.holdsBuiltin, Bool.false_eq_true, if_false, if_true] at i1 ⊢
      omega
    | serveBuiltin s kinds k t =>
      obtain ⟨r1, r2, r3⟩ := eresume_holds (x.builtinCachedAccess sh.now s kinds 0 sh.shared.caches).1
        (fun es => k (es.map BuiltinEntity.kindMatch))
      refine ⟨?_, ?_, fun i => ?_⟩ <;> simp only [List.countP_append, List.countP_cons, r1, r2, r3]
      · simp only [EThread.holdsBuiltin, Bool.false_eq_true, if_false, if_true] at i1 ⊢
        split at i1 <;> omega
      · exact i2
      · exact i3 i
    | lockCustom s kinds n k t _ hheld hp =>
      refine ⟨by simp only [List.countP_append, List.countP_cons]; exact i1, ?_,
        fun i => by simp only [List.countP_append, List.countP_cons]; exact i3 i⟩
      simp only [List.countP_append, List.countP_cons]
      rw [hheld] at i2
      simp only [EThread.holdsCustom, Bool.false_eq_true, if_false, if_true] at i2 ⊢
      omega
    | serveCustom s kinds n k t =>
      obtain ⟨r1, r2, r3⟩ := eresume_holds (x.customCachedAccess s kinds n sh.shared.caches).1 k
      refine ⟨?_, ?_, fun i => ?_⟩ <;> simp only [List.countP_append, List.countP_cons, r1, r2, r3]
      · exact i1
      · simp only [EThread.holdsCustom, Bool.false_eq_true, if_false, if_true] at i2 ⊢
        split at i2 <;> omega
      · exact i3 i
    | lockTagger i f d k t _ hheld hp =>
      refine ⟨by simp only [List.countP_append, List.countP_cons]; exact i1,
        by simp only [List.countP_append, List.countP_cons]; exact i2, fun j => ?_⟩
      have h3 := i3 j
      simp only [List.countP_append, List.countP_cons, put_held]
      by_cases hj : j = i
      · subst hj
        rw [hheld] at h3
        simp only [EThread.holdsTagger, Bool.false_eq_true, if_false, if_true, beq_self_eq_true] at h3 ⊢
        omega
      · have hj' : (i == j) = false := by simpa using fun h => hj h.symm
        simp only [EThread.holdsTagger, hj', Bool.false_eq_true, if_false, if_neg hj] at h3 ⊢
        exact h3
    | setOk i f d k t _ hset =>
      refine ⟨by simp only [List.countP_append, List.countP_cons]; exact i1,
        by simp only [List.countP_append, List.countP_cons]; exact i2, fun j => ?_⟩
      have h3 := i3 j
      simp only [List.countP_append, List.countP_cons, put_held]
      by_cases hj : j = i
      · subst hj
        simp only [EThread.holdsTagger, if_true, beq_self_eq_true] at h3 ⊢
        exact h3
      · simp only [EThread.holdsTagger, if_neg hj] at h3 ⊢
        exact h3
    | setFails i f d k t o _ hset hne =>
      obtain ⟨r1, r2, r3⟩ := eresume_holds o (fun _ => (EProg.panic : EProg α))
      refine ⟨?_, ?_, fun j => ?_⟩ <;> simp only [List.countP_append, List.countP_cons, r1, r2, r3]
      · exact i1
      · exact i2
      · have h3 := i3 j
        simp only [put_held]
        by_cases hj : j = i
        · subst hj
          simp only [EThread.holdsTagger, if_true, beq_self_eq_true, TaggerState.release, Bool.false_eq_true,
            if_false] at h3 ⊢
          split at h3 <;> omega
        · have hj' : (i == j) = false := by simpa using fun h => hj h.symm
          simp only [EThread.holdsTagger, hj', Bool.false_eq_true, if_false, if_neg hj] at h3 ⊢
          exact h3
    | serveTagger i d k t o _ ho =>
      obtain ⟨r1, r2, r3⟩ := eresume_holds o k
      refine ⟨?_, ?_, fun j => ?_⟩ <;> simp only [List.countP_append, List.countP_cons, r1, r2, r3]
      · exact i1
      · exact i2
      · have h3 := i3 j
        simp only [put_held]
        by_cases hj : j = i
        · subst hj
          simp only [EThread.holdsTagger, if_true, beq_self_eq_true, TaggerState.release, Bool.false_eq_true,
            if_false] at h3 ⊢
          split at h3 <;> omega
        · have hj' : (i == j) = false := by simpa using fun h => hj h.symm
          simp only [EThread.holdsTagger, hj', Bool.false_eq_true, if_false, if_neg hj] at h3 ⊢
          exact h3

theorem elocks_reachable {x : Ext} {libs : Nat → CrfLib} {now : Nat} {c : Caches} {current : Nat → Option TokenFeatures}
    {calls : List (EProg α)} {s : ESystem α} (h : EReachable x libs (ESystem.start now c current calls) s) : ELocks s := by
  induction h with
  | refl =>
    refine ⟨?_, ?_, fun i => ?_⟩ <;>
    · simp only [ESystem.start, Bool.false_eq_true, if_false]
      rw [List.countP_eq_zero]
      intro p hp
      obtain ⟨q, _, rfl⟩ := List.mem_map.1 hp
      simp [EThread.holdsBuiltin, EThread.holdsCustom, EThread.holdsTagger]
  | move _ hm ih => exact elocks_move hm ih
  | tick d _ ih => exact ⟨ih.builtin, ih.custom, ih.tagger⟩

theorem move_of_mem {x : Ext} {libs : Nat → CrfLib} {s : ESystem α} {th th' : Nat × EThread α} {sh' : EShared}
    (hm : th ∈ s.threads) (h : EThreadStep x libs th s.shared th' sh') : ∃ s', EMove x libs s s' := by
  obtain ⟨pre, post, he⟩ := List.append_of_mem hm
  obtain ⟨sh, ths⟩ := s
  simp only at he h
  subst he
  exact ⟨_, .step pre post th th' sh sh' h⟩

theorem holder_moves {x : Ext} {libs : Nat → CrfLib} {s : ESystem α} {th : Nat × EThread α} (hm : th ∈ s.threads)
    (h : th.2.holdsBuiltin = true ∨ th.2.holdsCustom = true ∨ ∃ i, th.2.holdsTagger i = true) :
    ∃ s', EMove x libs s s' := by
  obtain ⟨t, th⟩ := th
  cases th with
  | idle p => simp [EThread.holdsBuiltin, EThread.holdsCustom, EThread.holdsTagger] at h
  | running p => simp [EThread.holdsBuiltin, EThread.holdsCustom, EThread.holdsTagger] at h
  | done p => simp [EThread.holdsBuiltin, EThread.holdsCustom, EThread.holdsTagger] at h
  | inBuiltin ss kinds k => exact move_of_mem hm (.serveBuiltin ss kinds k t _)
  | inCustom ss kinds n k => exact move_of_mem hm (.serveCustom ss kinds n k t _)
  | inTagger i f d k =>
    by_cases hs : (libs i).set f = .ok ()
    · exact move_of_mem hm (.setOk i f d k t _ hs)
    · exact move_of_mem hm (.setFails i f d k t _ _ rfl hs)
  | tagging i d k => exact move_of_mem hm (.serveTagger i d k t _ _ rfl)

theorem eprogress {x : Ext} {libs : Nat → CrfLib} {s : ESystem α} (hl : ELocks s)
    (h : ∃ p ∈ s.threads, ∀ o, p.2 ≠ EThread.done o) : ∃ s', EMove x libs s s' := by
  obtain ⟨⟨t, th⟩, hm, hnd⟩ := h
  cases th with
  | done o => exact absurd rfl (hnd o)
  | idle p => exact move_of_mem hm (.begin p t _)
  | inBuiltin ss kinds k => exact holder_moves hm (.inl rfl)
  | inCustom ss kinds n k => exact holder_moves hm (.inr (.inl rfl))
  | inTagger i f d k => exact holder_moves hm (.inr (.inr ⟨i, by simp [EThread.holdsTagger]⟩))
  | tagging i d k => exact holder_moves hm (.inr (.inr ⟨i, by simp [EThread.holdsTagger]⟩))
  | running p =>
    cases p with
    | ret a => exact move_of_mem hm (.ret a t _)
    | fail e => exact move_of_mem hm (.fail e t _)
    | panic => exact move_of_mem hm (.panic t _)
    | builtinFresh ss kinds n k => exact move_of_mem hm (.fresh ss kinds n k t _)
    | builtinCached ss kinds k =>
      cases hb : s.shared.shared.builtinHeld with
      | true =>
        have h1 := hl.builtin
        rw [hb, if_pos rfl] at h1
        obtain ⟨th', hm', hth⟩ := List.countP_pos_iff.1 (show 0 < s.threads.countP _ by rw [h1]; decide)
        exact holder_moves hm' (.inl hth)
      | false =>
        cases hp : s.shared.shared.caches.builtin.poisoned with
        | true => exact move_of_mem hm (.lockBuiltinPoisoned ss kinds k t _ hb hp)
        | false => exact move_of_mem hm (.lockBuiltin ss kinds k t _ hb hp)
    | custom ss kinds n k =>
      cases hb : s.shared.shared.customHeld with
      | true =>
        have h1 := hl.custom
        rw [hb, if_pos rfl] at h1
        obtain ⟨th', hm', hth⟩ := List.countP_pos_iff.1 (show 0 < s.threads.countP _ by rw [h1]; decide)
        exact holder_moves hm' (.inr (.inl hth))
      | false =>
        cases hp : s.shared.shared.caches.custom.poisoned with
        | true => exact move_of_mem hm (.lockCustomPoisoned ss kinds n k t _ hb hp)
        | false => exact move_of_mem hm (.lockCustom ss kinds n k t _ hb hp)
    | tags i f d k =>
      cases hb : (s.shared.taggers i).held with
      | true =>
        have h1 := hl.tagger i
        rw [hb, if_pos rfl] at h1
        obtain ⟨th', hm', hth⟩ := List.countP_pos_iff.1 (show 0 < s.threads.countP _ by rw [h1]; decide)
        exact holder_moves hm' (.inr (.inr ⟨i, hth⟩))
      | false =>
        cases hp : (s.shared.taggers i).poisoned with
        | true => exact move_of_mem hm (.lockTaggerPoisoned i f d k t _ hb hp)
        | false => exact move_of_mem hm (.lockTagger i f d k t _ hb hp)

/-! ### Termination -/

/-- A step of a thread, whatever the shared state. -/
def EThreadNext (x : Ext) (libs : Nat → CrfLib) (q p : Nat × EThread α) : Prop :=
  ∃ sh sh', EThreadStep x libs p sh q sh'

theorem eacc_done (x : Ext) (libs : Nat → CrfLib) (t : Nat) (o : Outcome α) :
    Acc (EThreadNext x libs) (t, EThread.done o) :=
  Acc.intro _ (fun q hq => by obtain ⟨sh, sh', h⟩ := hq; cases h)

theorem eacc_resume (x : Ext) (libs : Nat → CrfLib) (t : Nat) (k : β → EProg α)
    (ih : ∀ b, Acc (EThreadNext x libs) (t, EThread.running (k b))) (r : Outcome β) :
    Acc (EThreadNext x libs) (t, EThread.resume r k) := by
  cases r with
  | ok b => exact ih b
  | err e => exact eacc_done x libs t _
  | panic => exact eacc_done x libs t _

theorem eacc_running (x : Ext) (libs : Nat → CrfLib) (t : Nat) (p : EProg α) :
    Acc (EThreadNext x libs) (t, EThread.running p) := by
  induction p with
  | ret a =>
    refine Acc.intro _ fun q hq => ?_
    obtain ⟨sh, sh', h⟩ := hq
    cases h; exact eacc_done x libs _ _
  | fail a =>
    refine Acc.intro _ fun q hq => ?_
    obtain ⟨sh, sh', h⟩ := hq
    cases h; exact eacc_done x libs _ _
  | panic =>
    refine Acc.intro _ fun q hq => ?_
    obtain ⟨sh, sh', h⟩ := hq
    cases h; exact eacc_done x libs _ _
  | builtinFresh s kinds n k ih =>
    refine Acc.intro _ fun q hq => ?_
    obtain ⟨sh, sh', h⟩ := hq
    cases h; exact eacc_resume x libs _ k ih _
  | builtinCached s kinds k ih =>
    refine Acc.intro _ fun q hq => ?_
    obtain ⟨sh, sh', h⟩ := hq
    cases h with
    | lockBuiltinPoisoned => exact eacc_done x libs _ _
    | lockBuiltin =>
      refine Acc.intro _ fun q hq => ?_
      obtain ⟨sh, sh', h⟩ := hq
      cases h
      exact eacc_resume x libs _ (fun (es : List BuiltinEntity) => k (es.map BuiltinEntity.kindMatch)) (fun es => ih _) _
  | custom s kinds n k ih =>
    refine Acc.intro _ fun q hq => ?_
    obtain ⟨sh, sh', h⟩ := hq
    cases h with
    | lockCustomPoisoned => exact eacc_done x libs _ _
    | lockCustom =>
      refine Acc.intro _ fun q hq => ?_
      obtain ⟨sh, sh', h⟩ := hq
      cases h; exact eacc_resume x libs _ k ih _
  | tags i f d k ih =>
    refine Acc.intro _ fun q hq => ?_
    obtain ⟨sh, sh', h⟩ := hq
    cases h with
    | lockTaggerPoisoned => exact eacc_done x libs _ _
    | lockTagger =>
      refine Acc.intro _ fun q hq => ?_
      obtain ⟨sh, sh', h⟩ := hq
      cases h with
      | setFails _ _ _ _ _ o _ ho hne =>
        cases o with
        | ok u => exact absurd rfl hne
        | err e => exact eacc_done x libs _ _
        | panic => exact eacc_done x libs _ _
      | setOk =>
        refine Acc.intro _ fun q hq => ?_
        obtain ⟨sh, sh', h⟩ := hq
        cases h; exact eacc_resume x libs _ k ih _

theorem eacc_start (x : Ext) (libs : Nat → CrfLib) (now : Nat) (c : Caches) (current : Nat → Option TokenFeatures)
    (calls : List (EProg α)) : Acc (ListNext (EThreadNext x libs)) (ESystem.start now c current calls).threads := by
  refine acc_list ?_
  intro a ha
  simp only [ESystem.start] at ha
  obtain ⟨q, _, rfl⟩ := List.mem_map.1 ha
  refine Acc.intro _ fun q hq => ?_
  obtain ⟨sh, sh', h⟩ := hq
  cases h
  exact eacc_running x libs _ _

theorem listNext_of_move {x : Ext} {libs : Nat → CrfLib} {s s' : ESystem α} (h : EMove x libs s s') :
    ListNext (EThreadNext x libs) s'.threads s.threads := by
  cases h with
  | step pre post th th' sh sh' h => exact ListNext.mk pre post _ _ ⟨sh, sh', h⟩

/-! ### What threads answer -/

/-- The code that a thread still has to run. -/
inductive EThread.At (libs : Nat → CrfLib) (taggers : Nat → TaggerState) : EThread α → EProg α → Prop where
  | running (p : EProg α) : At libs taggers (.running p) p
  | inBuiltin (s kinds k) : At libs taggers (.inBuiltin s kinds k) (.builtinCached s kinds k)
  | inCustom (s kinds n k) : At libs taggers (.inCustom s kinds n k) (.custom s kinds n k)
  | inTagger (i f d k) : At libs taggers (.inTagger i f d k) (.tags i f d k)
  | tagging (i f d k) : (taggers i).current = some f → (libs i).set f = .ok () →
      At libs taggers (.tagging i d k) (.tags i f d k)

/-- A thread that began at `t` will answer what its call answers alone. -/
inductive ThreadOk (x : Ext) (libs : Nat → CrfLib) (s : ESystem α) (call : EProg α) : Nat × EThread α → Prop where
  | idle (t : Nat) : ThreadOk x libs s call (t, .idle call)
  | going {t th q times} (ha : EThread.At libs s.shared.taggers th q) (hw : TimesWithin times t s.shared.now)
      (ht : t ≤ s.shared.now)
      (hc : ∀ ts o, (q.alone libs).Answers x t ts o → (call.alone libs).Answers x t (times ++ ts) o) :
      ThreadOk x libs s call (t, th)
  | done {t o times} (hw : TimesWithin times t s.shared.now) (ha : (call.alone libs).Answers x t times o) :
      ThreadOk x libs s call (t, .done o)
  | poisoned {t} (hp : ∃ p ∈ s.threads, p.2 = .done .panic) : ThreadOk x libs s call (t, .done (.err (.external 245)))

/-- The invariant. -/
structure EInv (x : Ext) (libs : Nat → CrfLib) (calls : List (EProg α)) (s : ESystem α) : Prop where
  locks : ELocks s
  sound : s.shared.shared.caches.Sound x
  healthy : s.shared.shared.caches.Healthy
  poisoned : ∀ i, (s.shared.taggers i).poisoned = true → ∃ p ∈ s.threads, p.2 = .done .panic
  threads : ∀ (i : Nat) th, s.threads[i]? = some th → ∃ call, calls[i]? = some call ∧ ThreadOk x libs s call th

theorem TimesWithin.mono {times : List Nat} {t a b : Nat} (h : TimesWithin times t a) (hab : a ≤ b) :
    TimesWithin times t b := ⟨h.sorted, fun u hu => ⟨(h.within u hu).1, (h.within u hu).2.trans hab⟩⟩

theorem TimesWithin.snoc {times : List Nat} {t now : Nat} (h : TimesWithin times t now) (ht : t ≤ now) :
    TimesWithin (times ++ [now]) t now := by
  refine ⟨?_, ?_⟩
  · rw [List.pairwise_append]
    refine ⟨h.sorted, List.pairwise_singleton _ _, ?_⟩
    intro a ha b hb
    rw [List.mem_singleton] at hb
    subst hb
    exact (h.within a ha).2
  · intro u hu
    rcases List.mem_append.1 hu with hu | hu
    · exact h.within u hu
    · rw [List.mem_singleton] at hu
      subst hu
      exact ⟨ht, Nat.le_refl _⟩

theorem threadStep_not_done {x : Ext} {libs : Nat → CrfLib} {th th' : Nat × EThread α} {sh sh' : EShared}
    (h : EThreadStep x libs th sh th' sh') (o : Outcome α) : th.2 ≠ .done o := by
  cases h <;> simp

/-- A thread that takes a step goes on as its call does alone. -/
theorem threadStep_ok {x : Ext} (hts : x.TimeStable) {libs : Nat → CrfLib} {call : EProg α}
    {th th' : Nat × EThread α} {sh sh' : EShared} {l l' : List (Nat × EThread α)} (h : EThreadStep x libs th sh th' sh')
    (hs : sh.shared.caches.Sound x) (hh : sh.shared.caches.Healthy)
    (hpo : ∀ i, (sh.taggers i).poisoned = true → ∃ p ∈ l', p.2 = .done .panic)
    (hok : ThreadOk x libs ⟨sh, l⟩ call th) : ThreadOk x libs ⟨sh', l'⟩ call th' := by
  cases hok with
  | idle t =>
    cases h
    exact .going (times := []) (.running _) ⟨List.Pairwise.nil, by simp⟩ (Nat.le_refl _) (fun ts o h => h)
  | done hw ha => cases h
  | poisoned hp => cases h
  | @going t th q times ha hw ht hc =>
    simp only at hw ht
    cases h with
    | begin p => cases ha
    | ret a =>
      cases ha
      have := hc [] (.ok a) (.ret a)
      rw [List.append_nil] at this
      exact .done hw this
    | fail e =>
      cases ha
      have := hc [] (.err e) (.fail e)
      rw [List.append_nil] at this
      exact .done hw this
    | panic =>
      cases ha
      have := hc [] .panic .panic
      rw [List.append_nil] at this
      exact .done hw this
    | fresh s kinds n k =>
      cases ha
      have hw' := hw.snoc ht
      cases hr : x.builtinRaw sh.now (x.lower s) kinds n with
      | ok es =>
        refine .going (.running _) hw' ht ?_
        intro ts o h
        rw [List.append_assoc]
        exact hc _ _ (.fresh (time := sh.now) hr h)
      | err e => exact .done hw' (hc _ _ (.freshErr (time := sh.now) hr))
      | panic => exact .done hw' (hc _ _ (.freshPanic (time := sh.now) hr))
    | lockBuiltin s kinds k => cases ha; exact .going (.inBuiltin _ _ _) hw ht hc
    | lockBuiltinPoisoned s kinds k _ _ _ hp => rw [hh.1] at hp; cases hp
    | serveBuiltin s kinds k =>
      cases ha
      have h1 := (builtinAccess_spec hts hs hh sh.now s kinds 0).1
      rw [hts sh.now t] at h1
      rcases Outcome.map_ok_inv h1 with ⟨a, a', ha, ha', hf⟩ | ⟨e, he, he'⟩ | ⟨he, he'⟩
      · rw [ha]
        refine .going (.running _) hw ht ?_
        intro ts o h
        refine hc _ _ (.cached (es := a') ha' ?_)
        rw [← hf]
        exact h
      · rw [he]
        have := hc _ _ (.cachedErr (k := fun r => (k r).alone libs) he')
        rw [List.append_nil] at this
        exact .done hw this
      · rw [he]
        have := hc _ _ (.cachedPanic (k := fun r => (k r).alone libs) he')
        rw [List.append_nil] at this
        exact .done hw this
    | lockCustom s kinds n k => cases ha; exact .going (.inCustom _ _ _ _) hw ht hc
    | lockCustomPoisoned s kinds n k _ _ _ hp => rw [hh.2] at hp; cases hp
    | serveCustom s kinds n k =>
      cases ha
      have h1 := (customAccess_spec hs hh s kinds n).1
      rw [h1]
      cases hr : x.customExtract (x.lower s) kinds n with
      | ok es =>
        refine .going (.running _) hw ht ?_
        intro ts o h
        exact hc _ _ (.custom hr h)
      | err e =>
        have := hc _ _ (.customErr (k := fun r => (k r).alone libs) hr)
        rw [List.append_nil] at this
        exact .done hw this
      | panic =>
        have := hc _ _ (.customPanic (k := fun r => (k r).alone libs) hr)
        rw [List.append_nil] at this
        exact .done hw this
    | lockTagger i f d k => cases ha; exact .going (.inTagger _ _ _ _) hw ht hc
    | lockTaggerPoisoned i f d k _ _ hheld hp => cases ha; exact .poisoned (hpo i hp)
    | setOk i f d k _ _ hset =>
      cases ha
      refine .going (.tagging i f d k ?_ hset) hw ht hc
      simp only [EShared.put, if_true]
    | setFails i f d k _ o _ hset hne =>
      cases ha
      have hal : (EProg.tags i f d k).alone libs = match o with
          | .ok _ => .panic
          | .err e => .fail e
          | .panic => .panic := by
        simp only [EProg.alone, CrfLib.stateless, hset]
        cases o with
        | ok u => exact absurd rfl hne
        | err e => rfl
        | panic => rfl
      cases o with
      | ok u => exact absurd rfl hne
      | err e =>
        have := hc [] (.err e) (by rw [hal]; exact .fail e)
        rw [List.append_nil] at this
        exact .done hw this
      | panic =>
        have := hc [] .panic (by rw [hal]; exact .panic)
        rw [List.append_nil] at this
        exact .done hw this
    | serveTagger i d k _ o _ ho =>
      cases ha with
      | tagging _ f _ _ hcur hset =>
        simp only at hcur
        rw [hcur] at ho
        have htag : ((libs i).stateless.tag f >>= d) = o := by
          rw [ho]
          simp only [CrfLib.stateless, hset, CrfLib.viterbiCurrent]
          rfl
        clear ho
        have hal : (EProg.tags i f d k).alone libs = match o with
            | .ok r => (k r).alone libs
            | .err e => .fail e
            | .panic => .panic := by
          simp only [EProg.alone, htag]
          cases o <;> rfl
        cases o with
        | ok r =>
          refine .going (.running _) hw ht ?_
          intro ts o h
          exact hc _ _ (by rw [hal]; exact h)
        | err e =>
          have := hc [] (.err e) (by rw [hal]; exact .fail e)
          rw [List.append_nil] at this
          exact .done hw this
        | panic =>
          have := hc [] .panic (by rw [hal]; exact .panic)
          rw [List.append_nil] at this
          exact .done hw this

/-- What a step leaves alone. -/
theorem threadStep_frame {x : Ext} (hts : x.TimeStable) (hnp : x.NoPanic) {libs : Nat → CrfLib}
    {th th' : Nat × EThread α} {sh sh' : EShared} (h : EThreadStep x libs th sh th' sh')
    (hs : sh.shared.caches.Sound x) (hh : sh.shared.caches.Healthy) :
    sh'.now = sh.now ∧ sh'.shared.caches.Sound x ∧ sh'.shared.caches.Healthy ∧
    (∀ i, th.2.holdsTagger i = false → (sh'.taggers i).current = (sh.taggers i).current) ∧
    (∀ i, (sh'.taggers i).poisoned = true → (sh.taggers i).poisoned = true ∨ th'.2 = .done .panic) := by
  cases h with
  | begin => exact ⟨rfl, hs, hh, fun _ _ => rfl, fun _ h => .inl h⟩
  | ret => exact ⟨rfl, hs, hh, fun _ _ => rfl, fun _ h => .inl h⟩
  | fail => exact ⟨rfl, hs, hh, fun _ _ => rfl, fun _ h => .inl h⟩
  | panic => exact ⟨rfl, hs, hh, fun _ _ => rfl, fun _ h => .inl h⟩
  | fresh => exact ⟨rfl, hs, hh, fun _ _ => rfl, fun _ h => .inl h⟩
  | lockBuiltin => exact ⟨rfl, hs, hh, fun _ _ => rfl, fun _ h => .inl h⟩
  | lockBuiltinPoisoned => exact ⟨rfl, hs, hh, fun _ _ => rfl, fun _ h => .inl h⟩
  | serveBuiltin s kinds k =>
    obtain ⟨_, h2, h3⟩ := builtinAccess_spec hts hs hh sh.now s kinds 0
    exact ⟨rfl, h2, h3 (fun t => hnp.1 t _ _ _), fun _ _ => rfl, fun _ h => .inl h⟩
  | lockCustom => exact ⟨rfl, hs, hh, fun _ _ => rfl, fun _ h => .inl h⟩
  | lockCustomPoisoned => exact ⟨rfl, hs, hh, fun _ _ => rfl, fun _ h => .inl h⟩
  | serveCustom s kinds n k =>
    obtain ⟨_, h2, h3⟩ := customAccess_spec hs hh s kinds n
    exact ⟨rfl, h2, h3 (hnp.2 _ _ _), fun _ _ => rfl, fun _ h => .inl h⟩
  | lockTagger i f d k =>
    refine ⟨rfl, hs, hh, fun j _ => ?_, fun j h => ?_⟩
    · simp only [put_held]; split
      · rename_i hj; subst hj; rfl
      · rfl
    · simp only [put_held] at h
      split at h
      · rename_i hj; subst hj; exact .inl h
      · exact .inl h
  | lockTaggerPoisoned => exact ⟨rfl, hs, hh, fun _ _ => rfl, fun _ h => .inl h⟩
  | setOk i f d k =>
    refine ⟨rfl, hs, hh, fun j hj => ?_, fun j h => ?_⟩
    · simp only [put_held]
      have : j ≠ i := by
        rintro rfl
        simp [EThread.holdsTagger] at hj
      rw [if_neg this]
    · simp only [put_held] at h
      split at h
      · rename_i hj; subst hj; exact .inl h
      · exact .inl h
  | setFails i f d k t o _ hset hne =>
    refine ⟨rfl, hs, hh, fun j hj => ?_, fun j h => ?_⟩
    · simp only [put_held]
      have : j ≠ i := by
        rintro rfl
        simp [EThread.holdsTagger] at hj
      rw [if_neg this]
    · simp only [put_held] at h
      split at h
      · rename_i hj
        subst hj
        cases o with
        | ok u => exact absurd rfl hne
        | err e => exact .inl h
        | panic => exact .inr rfl
      · exact .inl h
  | serveTagger i d k t o _ ho =>
    refine ⟨rfl, hs, hh, fun j hj => ?_, fun j h => ?_⟩
    · simp only [put_held]
      have : j ≠ i := by
        rintro rfl
        simp [EThread.holdsTagger] at hj
      rw [if_neg this]
    · simp only [put_held] at h
      split at h
      · rename_i hj
        subst hj
        cases o with
        | ok u => exact .inl h
        | err e => exact .inl h
        | panic => exact .inr rfl
      · exact .inl h

theorem einv_move {x : Ext} (hts : x.TimeStable) (hnp : x.NoPanic) {libs : Nat → CrfLib} {calls : List (EProg α)}
    {s s' : ESystem α} (hm : EMove x libs s s') (h : EInv x libs calls s) : EInv x libs calls s' := by
  have hl' := elocks_move hm h.locks
  cases hm with
  | step pre post th th' sh sh' hstep =>
    obtain ⟨hl, hs, hh, hpo, hth⟩ := h
    simp only at hs hh hpo hth
    obtain ⟨f1, f2, f3, f4, f5⟩ := threadStep_frame hts hnp hstep hs hh
    have hkeep : (∃ p ∈ pre ++ th :: post, p.2 = EThread.done .panic) →
        ∃ p ∈ pre ++ th' :: post, p.2 = EThread.done .panic := by
      rintro ⟨p, hp, he⟩
      have hne : p ≠ th := by
        rintro rfl
        exact threadStep_not_done hstep _ he
      refine ⟨p, ?_, he⟩
      simp only [List.mem_append, List.mem_cons] at hp ⊢
      rcases hp with hp | hp | hp
      · exact .inl hp
      · exact absurd hp hne
      · exact .inr (.inr hp)
    refine ⟨hl', f2, f3, ?_, ?_⟩
    · intro i hi
      rcases f5 i hi with h1 | h1
      · exact hkeep (hpo i h1)
      · exact ⟨th', by simp, h1⟩
    · intro i y hy
      by_cases hi : i = pre.length
      · subst hi
        have : y = th' := by simpa using hy.symm
        subst this
        obtain ⟨call, hc, hok⟩ := hth pre.length th (by simp)
        exact ⟨call, hc, threadStep_ok hts hstep hs hh (fun i hi => hkeep (hpo i hi)) hok⟩
      · have hy' : (pre ++ th :: post)[i]? = some y := by
          rw [← hy]
          rcases Nat.lt_or_ge i pre.length with hlt | hge
          · rw [List.getElem?_append_left hlt, List.getElem?_append_left hlt]
          · rw [List.getElem?_append_right hge, List.getElem?_append_right hge]
            obtain ⟨j, hj⟩ : ∃ j, i - pre.length = j + 1 := ⟨i - pre.length - 1, by omega⟩
            rw [hj, List.getElem?_cons_succ, List.getElem?_cons_succ]
        have hym : y ∈ pre ∨ y ∈ post := by
          rcases Nat.lt_or_ge i pre.length with hlt | hge
          · rw [List.getElem?_append_left hlt] at hy
            exact .inl (List.mem_of_getElem? hy)
          · rw [List.getElem?_append_right hge] at hy
            obtain ⟨j, hj⟩ : ∃ j, i - pre.length = j + 1 := ⟨i - pre.length - 1, by omega⟩
            rw [hj, List.getElem?_cons_succ] at hy
            exact .inr (List.mem_of_getElem? hy)
        obtain ⟨call, hc, hok⟩ := hth i y hy'
        refine ⟨call, hc, ?_⟩
        cases hok with
        | idle t => exact .idle t
        | done hw ha => exact .done (hw.mono (Nat.le_of_eq f1.symm)) ha
        | poisoned hp => exact .poisoned (hkeep hp)
        | @going t yt q times ha hw ht hcont =>
          refine .going ?_ (hw.mono (Nat.le_of_eq f1.symm)) (ht.trans (Nat.le_of_eq f1.symm)) hcont
          cases ha with
          | running => exact .running _
          | inBuiltin s kinds k => exact .inBuiltin s kinds k
          | inCustom s kinds n k => exact .inCustom s kinds n k
          | inTagger i f d k => exact .inTagger i f d k
          | tagging j f d k hcur hset =>
            refine .tagging j f d k ?_ hset
            simp only at hcur ⊢
            rw [f4 j, hcur]
            have hcount := hl.tagger j
            simp only [List.countP_append, List.countP_cons] at hcount
            by_contra hn
            rw [Bool.not_eq_false] at hn
            rw [if_pos hn] at hcount
            have hle : (if (sh.taggers j).held = true then 1 else 0) ≤ 1 := by split <;> omega
            have hpos : 0 < pre.countP (fun p => p.2.holdsTagger j) ∨ 0 < post.countP (fun p => p.2.holdsTagger j) := by
              rcases hym with hym | hym
              · exact .inl (List.countP_pos_iff.2 ⟨_, hym, by simp [EThread.holdsTagger]⟩)
              · exact .inr (List.countP_pos_iff.2 ⟨_, hym, by simp [EThread.holdsTagger]⟩)
            omega

theorem einv_reachable {x : Ext} (hts : x.TimeStable) (hnp : x.NoPanic) {libs : Nat → CrfLib} {now : Nat} {c : Caches}
    (hs : c.Sound x) (hh : c.Healthy) {current : Nat → Option TokenFeatures}
    {calls : List (EProg α)} {s : ESystem α} (h : EReachable x libs (ESystem.start now c current calls) s) :
    EInv x libs calls s := by
  induction h with
  | refl =>
    refine ⟨elocks_reachable (x := x) (libs := libs) .refl, hs, hh, fun i hi => by simp [ESystem.start] at hi, ?_⟩
    intro i th hi
    simp only [ESystem.start, List.getElem?_map, Option.map_eq_some_iff] at hi
    obtain ⟨p, hp, rfl⟩ := hi
    exact ⟨p, hp, .idle _⟩
  | move _ hm ih => exact einv_move hts hnp hm ih
  | tick d _ ih =>
    refine ⟨⟨ih.locks.builtin, ih.locks.custom, ih.locks.tagger⟩, ih.sound, ih.healthy, ih.poisoned, ?_⟩
    intro i th hi
    obtain ⟨call, hc, hok⟩ := ih.threads i th hi
    refine ⟨call, hc, ?_⟩
    cases hok with
    | idle t => exact .idle t
    | done hw ha => exact .done (hw.mono (Nat.le_add_right _ _)) ha
    | poisoned hp => exact .poisoned hp
    | going ha hw ht hcont => exact .going ha (hw.mono (Nat.le_add_right _ _)) (ht.trans (Nat.le_add_right _ _)) hcont

/-! ### Every answer is reached -/

theorem EReachable.trans {x : Ext} {libs : Nat → CrfLib} {a b c : ESystem α} (h : EReachable x libs a b)
    (h' : EReachable x libs b c) : EReachable x libs a c := by
  induction h' with
  | refl => exact h
  | move _ hm ih => exact ih.move hm
  | tick d _ ih => exact ih.tick d

theorem EReachable.one {x : Ext} {libs : Nat → CrfLib} {pre post : List (Nat × EThread α)} {th th' : Nat × EThread α}
    {sh sh' : EShared} (h : EThreadStep x libs th sh th' sh') :
    EReachable x libs ⟨sh, pre ++ th :: post⟩ ⟨sh', pre ++ th' :: post⟩ :=
  EReachable.refl.move (.step pre post th th' sh sh' h)

/-- Nothing is held and nothing is poisoned. -/
structure EFree (x : Ext) (sh : EShared) : Prop where
  builtin : sh.shared.builtinHeld = false
  custom : sh.shared.customHeld = false
  sound : sh.shared.caches.Sound x
  healthy : sh.shared.caches.Healthy
  tagger : ∀ i, (sh.taggers i).held = false ∧ (sh.taggers i).poisoned = false

theorem complete_running {x : Ext} (hts : x.TimeStable) (hnp : x.NoPanic) {libs : Nat → CrfLib}
    {pre post : List (Nat × EThread α)} {t : Nat} (p : EProg α) : ∀ {sh : EShared} {times : List Nat} {o : Outcome α},
    EFree x sh → times.Pairwise (· ≤ ·) → (∀ u ∈ times, sh.now ≤ u) → (p.alone libs).Answers x t times o →
    ∃ sh', EReachable x libs ⟨sh, pre ++ (t, .running p) :: post⟩ ⟨sh', pre ++ (t, .done o) :: post⟩ := by
  induction p with
  | ret a => intro sh times o _ _ _ h; cases h; exact ⟨_, .one (.ret _ _ _)⟩
  | fail a => intro sh times o _ _ _ h; cases h; exact ⟨_, .one (.fail _ _ _)⟩
  | panic => intro sh times o _ _ _ h; cases h; exact ⟨_, .one (.panic _ _)⟩
  | builtinFresh s kinds n k ih =>
    intro sh times o hf hsorted hge h
    have tickTo : ∀ u, sh.now ≤ u → ∃ sh1 : EShared, sh1.now = u ∧ EFree x sh1 ∧
        EReachable x libs ⟨sh, pre ++ (t, .running (.builtinFresh s kinds n k)) :: post⟩
          ⟨sh1, pre ++ (t, EThread.resume (x.builtinRaw u (x.lower s) kinds n) k) :: post⟩ := by
      intro u hu
      refine ⟨{ sh with now := sh.now + (u - sh.now) }, by simp only; omega,
        ⟨hf.builtin, hf.custom, hf.sound, hf.healthy, hf.tagger⟩, ?_⟩
      have h1 : EReachable x libs ⟨sh, pre ++ (t, .running (.builtinFresh s kinds n k)) :: post⟩ _ :=
        (EReachable.refl.tick (u - sh.now))
      have h2 := h1.trans (EReachable.one (pre := pre) (post := post)
        (EThreadStep.fresh s kinds n k t { sh with now := sh.now + (u - sh.now) }))
      have e : sh.now + (u - sh.now) = u := by omega
      simp only [e] at h2 ⊢
      exact h2
    simp only [EProg.alone] at h
    cases h with
    | @fresh _ _ _ _ es u times _ he h =>
      obtain ⟨sh1, h1, h2, h3⟩ := tickTo u (hge u (by simp))
      have he' : x.builtinRaw u (x.lower s) kinds n = .ok es := he
      rw [he'] at h3
      obtain ⟨sh2, h4⟩ := ih es h2 (List.pairwise_cons.1 hsorted).2
        (by rw [h1]; exact (List.pairwise_cons.1 hsorted).1) h
      exact ⟨sh2, h3.trans h4⟩
    | @freshErr _ _ _ _ e u he =>
      obtain ⟨sh1, h1, h2, h3⟩ := tickTo u (hge u (by simp))
      have he' : x.builtinRaw u (x.lower s) kinds n = .err e := he
      rw [he'] at h3
      exact ⟨_, h3⟩
    | @freshPanic _ _ _ _ u he =>
      obtain ⟨sh1, h1, h2, h3⟩ := tickTo u (hge u (by simp))
      have he' : x.builtinRaw u (x.lower s) kinds n = .panic := he
      rw [he'] at h3
      exact ⟨_, h3⟩
  | builtinCached s kinds k ih =>
    intro sh times o hf hsorted hge h
    obtain ⟨b1, b2, b3⟩ := builtinAccess_spec hts hf.sound hf.healthy sh.now s kinds 0
    rw [hts sh.now t] at b1
    have hgo : EReachable x libs ⟨sh, pre ++ (t, .running (.builtinCached s kinds k)) :: post⟩
        ⟨_, pre ++ (t, EThread.resume (x.builtinCachedAccess sh.now s kinds 0 sh.shared.caches).1
          (fun es => k (es.map BuiltinEntity.kindMatch))) :: post⟩ :=
      (EReachable.one (.lockBuiltin s kinds k t sh hf.builtin hf.healthy.1)).trans (.one (.serveBuiltin s kinds k t _))
    simp only [EProg.alone] at h
    rcases Outcome.map_ok_inv b1 with ⟨a, a', ha, ha', heq⟩ | ⟨e, he, he'⟩ | ⟨he, he'⟩
    · rw [ha] at hgo
      cases h with
      | @cached _ _ _ es _ _ he h =>
        have : a' = es := Outcome.ok.inj (ha'.symm.trans he)
        subst this
        rw [← heq] at h
        obtain ⟨sh2, h4⟩ := ih (a.map BuiltinEntity.kindMatch) (sh := { sh with shared := { sh.shared with
            caches := (x.builtinCachedAccess sh.now s kinds 0 sh.shared.caches).2, builtinHeld := false } })
          ⟨rfl, hf.custom, b2, b3 (fun t => hnp.1 t _ _ _), hf.tagger⟩ hsorted hge h
        exact ⟨sh2, hgo.trans h4⟩
      | cachedErr he => cases ha'.symm.trans he
      | cachedPanic he => cases ha'.symm.trans he
    · rw [he] at hgo
      cases h with
      | cached h1 => cases he'.symm.trans h1
      | cachedErr h1 => cases he'.symm.trans h1; exact ⟨_, hgo⟩
      | cachedPanic h1 => cases he'.symm.trans h1
    · rw [he] at hgo
      cases h with
      | cached h1 => cases he'.symm.trans h1
      | cachedErr h1 => cases he'.symm.trans h1
      | cachedPanic h1 => exact ⟨_, hgo⟩
  | custom s kinds n k ih =>
    intro sh times o hf hsorted hge h
    obtain ⟨b1, b2, b3⟩ := customAccess_spec hf.sound hf.healthy s kinds n
    have hgo : EReachable x libs ⟨sh, pre ++ (t, .running (.custom s kinds n k)) :: post⟩
        ⟨_, pre ++ (t, EThread.resume (x.customCachedAccess s kinds n sh.shared.caches).1 k) :: post⟩ :=
      (EReachable.one (.lockCustom s kinds n k t sh hf.custom hf.healthy.2)).trans (.one (.serveCustom s kinds n k t _))
    simp only [EProg.alone] at h
    rw [b1] at hgo
    cases h with
    | @custom _ _ _ _ es _ _ he h =>
      have he' : x.customExtract (x.lower s) kinds n = .ok es := he
      rw [he'] at hgo
      obtain ⟨sh2, h4⟩ := ih es (sh := { sh with shared := { sh.shared with
          caches := (x.customCachedAccess s kinds n sh.shared.caches).2, customHeld := false } })
        ⟨hf.builtin, rfl, b2, b3 (hnp.2 _ _ _), hf.tagger⟩ hsorted hge h
      exact ⟨sh2, hgo.trans h4⟩
    | @customErr _ _ _ _ e he =>
      have he' : x.customExtract (x.lower s) kinds n = .err e := he
      rw [he'] at hgo
      exact ⟨_, hgo⟩
    | customPanic he =>
      have he' : x.customExtract (x.lower s) kinds n = .panic := he
      rw [he'] at hgo
      exact ⟨_, hgo⟩
  | tags i f d k ih =>
    intro sh times o hf hsorted hge h
    have hlock : EReachable x libs ⟨sh, pre ++ (t, .running (.tags i f d k)) :: post⟩
        ⟨_, pre ++ (t, .inTagger i f d k) :: post⟩ :=
      .one (.lockTagger i f d k t sh (hf.tagger i).1 (hf.tagger i).2)
    by_cases hset : (libs i).set f = .ok ()
    · have hgo := (hlock.trans (.one (.setOk i f d k t _ hset))).trans (.one (.serveTagger i d k t _ _ rfl))
      have hv : ∀ sh0 : EShared, ∀ ts : TaggerState, ((libs i).viterbiCurrent ((sh0.put i { ts with current := some f }).taggers
          i).current >>= d) = ((libs i).stateless.tag f >>= d) := by
        intro sh0 ts
        simp only [EShared.put, if_true, CrfLib.viterbiCurrent, CrfLib.stateless, hset]
        rfl
      rw [hv] at hgo
      simp only [EProg.alone] at h
      cases hr : (libs i).stateless.tag f >>= d with
      | ok r =>
        rw [hr] at h hgo
        refine Exists.elim (ih r ?_ hsorted ?_ h) fun sh2 h4 => ⟨sh2, hgo.trans h4⟩
        · refine ⟨hf.builtin, hf.custom, hf.sound, hf.healthy, fun j => ?_⟩
          simp only [EShared.put]
          by_cases hj : j = i
          · subst hj
            simp only [if_true, TaggerState.release]
            exact ⟨trivial, (hf.tagger j).2⟩
          · simp only [if_neg hj]
            exact hf.tagger j
        · exact hge
      | err e => rw [hr] at h hgo; cases h; exact ⟨_, hgo⟩
      | panic => rw [hr] at h hgo; cases h; exact ⟨_, hgo⟩
    · have hgo := hlock.trans (.one (.setFails i f d k t _ _ rfl hset))
      simp only [EProg.alone, CrfLib.stateless] at h
      cases hr : (libs i).set f with
      | ok r => exact absurd hr hset
      | err e => rw [hr] at h hgo; cases h; exact ⟨_, hgo⟩
      | panic => rw [hr] at h hgo; cases h; exact ⟨_, hgo⟩

theorem complete_start {x : Ext} (hts : x.TimeStable) (hnp : x.NoPanic) {libs : Nat → CrfLib} {now : Nat} {c : Caches}
    (hs : c.Sound x) (hh : c.Healthy) {current : Nat → Option TokenFeatures} {calls : List (EProg α)} {i : Nat}
    {call : EProg α} (hc : calls[i]? = some call) {times : List Nat} {t : Nat} {o : Outcome α} (ht : now ≤ t)
    (hsorted : times.Pairwise (· ≤ ·)) (hge : ∀ u ∈ times, t ≤ u) (h : (call.alone libs).Answers x t times o) :
    ∃ s, EReachable x libs (ESystem.start now c current calls) s ∧ s.threads[i]? = some (t, .done o) := by
  obtain ⟨hlt, hget⟩ := List.getElem?_eq_some_iff.1 hc
  have hsplit : calls = calls.take i ++ call :: calls.drop (i + 1) := by
    rw [← hget, List.getElem_cons_drop hlt, List.take_append_drop]
  have r1 : EReachable x libs (ESystem.start now c current calls) _ := EReachable.refl.tick (t - now)
  have e1 : ((ESystem.start now c current calls).later (t - now)) =
      ⟨⟨t, ⟨c, false, false⟩, fun i => ⟨current i, false, false⟩⟩,
        (calls.take i).map (fun p => (now, EThread.idle p)) ++ (now, .idle call) ::
          (calls.drop (i + 1)).map (fun p => (now, EThread.idle p))⟩ := by
    have e2 : now + (t - now) = t := by omega
    simp only [ESystem.later, ESystem.start, e2]
    congr 1
    conv_lhs => rw [hsplit]
    simp
  rw [e1] at r1
  have r2 := r1.trans (.one (.begin call now _))
  obtain ⟨sh', r3⟩ := complete_running hts hnp call (sh := ⟨t, ⟨c, false, false⟩, fun i => ⟨current i, false, false⟩⟩)
    ⟨rfl, rfl, hs, hh, fun _ => ⟨rfl, rfl⟩⟩ hsorted hge h
  refine ⟨_, r2.trans r3, ?_⟩
  have hl : ((calls.take i).map (fun p => (now, EThread.idle p))).length = i := by
    rw [List.length_map, List.length_take]; omega
  simp only
  rw [List.getElem?_append_right (by omega), hl, Nat.sub_self]
  rfl

end Snips
