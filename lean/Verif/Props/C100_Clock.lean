import Verif.Proofs.Clock
import Verif.Props.C83_Reading
import Verif.Props.C88_EngineThreads

/-! # C100: the time of a call changes resolved builtin values and nothing else -/

namespace Snips

open Prog

/-- What a parser answers does not depend on the time at all. -/
theorem c100_parsers (x : Ext) (hts : x.TimeStable) (p : ParserModel) (t t' : Nat) :
    (∀ o input whitelist, (p.impl.parse o input whitelist).run (x.world t) = (p.impl.parse o input whitelist).run (x.world t')) ∧
    (∀ o input, (p.impl.getIntents o input).run (x.world t) = (p.impl.getIntents o input).run (x.world t')) ∧
    ∀ o input intent, (p.impl.getSlots o input intent).run (x.world t) = (p.impl.getSlots o input intent).run (x.world t') := by
  have key : ∀ {α : Type} {q : Prog α}, InStep Eq q q → q.run (x.world t) = q.run (x.world t') := by
    intro α q hq
    obtain ⟨n, ha⟩ := answers_exist x t q
    have := hq.answers hts (t' := t') ha
    revert this
    generalize q.run (x.world t) = a
    generalize q.run (x.world t') = b
    intro this
    cases this with
    | ok h => rw [h]
    | err e => rfl
    | panic => rfl
  exact ⟨fun o input wl => key ((parser_steady p).parse o input wl), fun o input => key ((parser_steady p).intents o input),
    fun o input intent => key ((parser_steady p).slots o input intent)⟩

theorem ofParsers_steady (dataset : DatasetMetadata) (names : KindNames) (ps : List ParserModel) :
    ∀ q ∈ (Engine.ofParsers dataset names ps).parsers, q.Steady := by
  intro q hq
  obtain ⟨p, -, rfl⟩ := List.mem_map.1 hq
  exact parser_steady p

/-- A call during which the clock advances is answered as at any instant, up to resolved builtin values. -/
theorem c100_call (x : Ext) (hts : x.TimeStable) (dataset : DatasetMetadata) (names : KindNames) (ps : List ParserModel)
    (call : EngineCall) (t : Nat) (times : List Nat) (o : Outcome EngineAnswer)
    (h : ((Engine.ofParsers dataset names ps).code call).Answers x t times o) (t' : Nat) :
    SameOutcome (SameAnswer dataset) o (((Engine.ofParsers dataset names ps).code call).run (x.world t')) :=
  (code_inStep (ofParsers_steady dataset names ps) call).answers hts h

/-- The same call at two instants. -/
theorem c100_instants (x : Ext) (hts : x.TimeStable) (dataset : DatasetMetadata) (names : KindNames) (ps : List ParserModel)
    (call : EngineCall) (t t' : Nat) :
    SameOutcome (SameAnswer dataset) (((Engine.ofParsers dataset names ps).code call).run (x.world t))
      (((Engine.ofParsers dataset names ps).code call).run (x.world t')) := by
  obtain ⟨n, ha⟩ := answers_exist x t ((Engine.ofParsers dataset names ps).code call)
  exact c100_call x hts dataset names ps call t _ _ ha t'

/-- The same calls one after the other, at other times and with caches of another size. -/
theorem c100_history (x : Ext) (hts : x.TimeStable) (hnp : x.NoPanic) (dataset : DatasetMetadata) (names : KindNames)
    (ps : List ParserModel) (calls : List (Nat × Nat × EngineCall)) (cap cap' : Nat) :
    List.Forall₂ (SameOutcome (SameAnswer dataset))
      (runHistory x (calls.map fun c => (c.1, (Engine.ofParsers dataset names ps).code c.2.2)) (Caches.empty cap)).1
      (runHistory x (calls.map fun c => (c.2.1, (Engine.ofParsers dataset names ps).code c.2.2)) (Caches.empty cap')).1 := by
  rw [(runHistory_spec hts hnp _ _ (Caches.empty_sound x cap) (Caches.empty_healthy cap)).1,
    (runHistory_spec hts hnp _ _ (Caches.empty_sound x cap') (Caches.empty_healthy cap')).1]
  induction calls with
  | nil => exact .nil
  | cons c calls ih => exact .cons (c100_instants x hts dataset names ps c.2.2 c.1 c.2.1) ih

/-- Threads that share the caches, the taggers and a clock that advances: one that ends was answered as if it had been alone, at
any instant, up to resolved builtin values; or it met a tagger poisoned by a call that panicked. -/
theorem c100_threads (x : Ext) (hts : x.TimeStable) (hnp : x.NoPanic) (libs : Nat → CrfLib) (e : EEngine)
    (dataset : DatasetMetadata) (names : KindNames) (ps : List ParserModel)
    (he : SameEngine libs e (Engine.ofParsers dataset names ps)) (now cap : Nat) (current : Nat → Option TokenFeatures)
    (calls : List EngineCall) (s : ESystem EngineAnswer)
    (h : EReachable x libs (ESystem.start now (Caches.empty cap) current (calls.map e.code)) s) (i t : Nat)
    (o : Outcome EngineAnswer) (hi : s.threads[i]? = some (t, .done o)) (t' : Nat) :
    ∃ call, calls[i]? = some call ∧
      (SameOutcome (SameAnswer dataset) o (((Engine.ofParsers dataset names ps).code call).run (x.world t')) ∨
       (o = .err (.external 245) ∧ ∃ (j u : Nat), s.threads[j]? = some (u, EThread.done .panic))) := by
  obtain ⟨p, hp, hr⟩ := c88_isolated x hts hnp libs now cap current (calls.map e.code) s h i t o hi
  rw [List.getElem?_map, Option.map_eq_some_iff] at hp
  obtain ⟨call, hc, rfl⟩ := hp
  refine ⟨call, hc, ?_⟩
  rcases hr with ⟨times, -, ha⟩ | hpoison
  · rw [code_alone he] at ha
    exact .inl (c100_call x hts dataset names ps call t times o ha t')
  · exact .inr hpoison

/-- The hypothesis of `c100_threads`: every engine is, for some libraries of taggers, the engine without their state. -/
theorem c100_shared (dataset : DatasetMetadata) (names : KindNames) (ps : List ParserModel) :
    ∃ libs e, SameEngine libs e (Engine.ofParsers dataset names ps) :=
  shared_exists dataset names ps

/-! ### A concrete case: numbers resolved to the time -/

/-- The extractors of the examples, with the time as the value of every number. -/
def clockExt : Ext where
  lower t := t
  tokenize t := ruleFns.tokenize t
  builtinRaw time s kinds n := (ruleWorld.builtin s kinds n).map (List.map fun b => { b with entity := .builtin time })
  gazetteer s kinds n := ruleWorld.custom s kinds n

theorem clockExt_timeStable : clockExt.TimeStable := by
  intro t t' s kinds n
  simp only [clockExt]
  cases ruleWorld.builtin s kinds n <;> simp [Outcome.map, BuiltinEntity.kindMatch, Function.comp_def]

/-- The value of `two` is the time of the call; all else is the same. -/
def clockAnswer (t : Nat) : ParseResult :=
  ⟨"make the two tea".toList, ⟨some "brew".toList, 1⟩,
    [⟨"two".toList, .builtin t, [], ⟨9, 12⟩, "snips/number".toList, "count".toList⟩,
     ⟨"tea".toList, .custom "tea".toList, [], ⟨13, 16⟩, "drink".toList, "kind".toList⟩], []⟩

example : ∀ t ∈ [3, 4], ((Engine.ofParsers readersDataset demoKinds readers).parseWithAlternatives HashOrd.insertion
    "make the two tea".toList (some ["brew".toList, ['b']]) none 0 0).run (clockExt.world t) = .ok (clockAnswer t) := by
  decide +kernel

example : clockAnswer 3 ≠ clockAnswer 4 := by decide

example : SameAnswer readersDataset (.parse (clockAnswer 3)) (.parse (clockAnswer 4)) :=
  .parse rfl rfl (.cons ⟨rfl, rfl, rfl, rfl, fun ⟨x, hx⟩ => by revert hx; cases x <;> decide⟩
    (.cons ⟨rfl, rfl, rfl, rfl, fun _ => rfl⟩ .nil)) .nil

/-- Slots with other texts, other intents or another value of a drink would not count as the same. -/
example : ¬ SameAnswer readersDataset (.parse (clockAnswer 3))
    (.parse { clockAnswer 3 with slots := [⟨"two".toList, .builtin 3, [], ⟨9, 12⟩, "snips/number".toList, "count".toList⟩,
      ⟨"tea".toList, .custom "coffee".toList, [], ⟨13, 16⟩, "drink".toList, "kind".toList⟩] }) := by
  intro h
  cases h with
  | parse _ _ h _ =>
    cases h with
    | cons _ h =>
      cases h with
      | cons h _ =>
        have := h.custom ⟨true, by decide⟩
        revert this
        decide

end Snips
