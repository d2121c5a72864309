import Verif.Proofs.Cache
import Verif.Spec.Demo

/-! # C21: caching is invisible

Calls are arbitrary programs over entity extraction (`Prog`), run one after the other on one engine
(`runHistory`), each at its own time.  `run (x.world t)` is the call without any cache. -/

namespace Snips

/-- Each call of any history on a newly loaded engine gives the answer it gives without caches. -/
theorem c21_history {α : Type} (x : Ext) (hts : x.TimeStable) (hnp : x.NoPanic) (cap : Nat)
    (calls : List (Nat × Prog α)) :
    (runHistory x calls (Caches.empty cap)).1 = calls.map (fun call => call.2.run (x.world call.1)) :=
  (runHistory_spec hts hnp calls _ (Caches.empty_sound x cap) (Caches.empty_healthy cap)).1

/-- The answer of a call does not depend on what was called before. -/
theorem c21_history_independent {α : Type} (x : Ext) (hts : x.TimeStable) (hnp : x.NoPanic) (cap : Nat)
    (past past' : List (Nat × Prog α)) (time : Nat) (call : Prog α) :
    (call.runCached x time (runHistory x past (Caches.empty cap)).2).1
      = (call.runCached x time (runHistory x past' (Caches.empty cap)).2).1 := by
  obtain ⟨_, h2, h3⟩ := runHistory_spec hts hnp past _ (Caches.empty_sound x cap) (Caches.empty_healthy cap)
  obtain ⟨_, h2', h3'⟩ := runHistory_spec hts hnp past' _ (Caches.empty_sound x cap) (Caches.empty_healthy cap)
  rw [(runCached_spec hts hnp time call _ h2 h3).1, (runCached_spec hts hnp time call _ h2' h3').1]

/-- A custom entity extraction after any history returns exactly what the uncached one returns,
values included. -/
theorem c21_custom_extraction {α : Type} (x : Ext) (hts : x.TimeStable) (hnp : x.NoPanic) (cap : Nat)
    (past : List (Nat × Prog α)) (s : Text) (kinds : Option (List Text)) (n : Nat) :
    (x.customCachedAccess s kinds n (runHistory x past (Caches.empty cap)).2).1
      = x.customExtract (x.lower s) kinds n := by
  obtain ⟨_, h2, h3⟩ := runHistory_spec hts hnp past _ (Caches.empty_sound x cap) (Caches.empty_healthy cap)
  exact (customAccess_spec h2 h3 s kinds n).1

/-- A cached builtin extraction after any history fails or succeeds as the uncached one does and finds
the same ranges and kinds. -/
theorem c21_builtin_extraction {α : Type} (x : Ext) (hts : x.TimeStable) (hnp : x.NoPanic) (cap : Nat)
    (past : List (Nat × Prog α)) (time : Nat) (s : Text) (kinds : Option (List Kind)) (n : Nat) :
    (x.builtinCachedAccess time s kinds n (runHistory x past (Caches.empty cap)).2).1.map
        (List.map fun e => (e.range, e.kind))
      = (x.builtinRaw time (x.lower s) kinds n).map (List.map fun e => (e.range, e.kind)) := by
  obtain ⟨_, h2, h3⟩ := runHistory_spec hts hnp past _ (Caches.empty_sound x cap) (Caches.empty_healthy cap)
  have h := (builtinAccess_spec hts h2 h3 time s kinds n).1
  have g : ∀ o : Outcome (List BuiltinEntity), o.map (List.map fun e => (e.range, e.kind))
      = (o.map (List.map BuiltinEntity.kindMatch)).map (List.map fun m => (m.range, m.kind)) := by
    intro o
    cases o <;> simp [Outcome.map, BuiltinEntity.kindMatch]
  rw [g, h, ← g]

/-- If the extractor is a function of the sentence alone, cached builtin extraction is exact, values
included. -/
theorem c21_builtin_extraction_exact {α : Type} (x : Ext)
    (hconst : ∀ t t' s kinds n, x.builtinRaw t s kinds n = x.builtinRaw t' s kinds n) (hnp : x.NoPanic)
    (cap : Nat) (past : List (Nat × Prog α)) (time : Nat) (s : Text) (kinds : Option (List Kind)) (n : Nat) :
    (x.builtinCachedAccess time s kinds n (runHistory x past (Caches.empty cap)).2).1
      = x.builtinRaw time (x.lower s) kinds n := by
  have hts : x.TimeStable := fun t t' s kinds n => by rw [hconst t t']
  obtain ⟨_, h2, h3⟩ := runHistory_spec hts hnp past _ (Caches.empty_sound x cap) (Caches.empty_healthy cap)
  unfold Ext.builtinCachedAccess Guarded.access
  simp only [h3.1, Bool.false_eq_true, if_false]
  rcases Lru.tryCache_result (runHistory x past (Caches.empty cap)).2.builtin.cache ⟨x.lower s, kinds, n⟩
      (fun key => x.builtinRaw time key.input kinds n) with ⟨v, hv, hr⟩ | hr
  · rw [hr]
    obtain ⟨t', ht'⟩ := h2.builtin _ hv
    rw [hconst time t', ht']
  · rw [hr]

/-! Non-vacuity: the demo extractor meets the hypotheses; a repeated request is really served from the
cache, after which the cache differs from the initial one. -/

example : demoExt.TimeStable ∧ demoExt.NoPanic := ⟨demoExt_timeStable, demoExt_noPanic⟩

example :
    let ask : Prog Nat := .builtinCached ['A', 'b'] none (fun ms => .ret ms.length)
    (runHistory demoExt [(1, ask), (2, ask)] (Caches.empty 5)).1 = [.ok 1, .ok 1] ∧
    (runHistory demoExt [(1, ask), (2, ask)] (Caches.empty 5)).2.builtin.cache.entries.length = 1 := by
  decide

example : ∃ x : Ext, (∀ t t' s kinds n, x.builtinRaw t s kinds n = x.builtinRaw t' s kinds n) ∧ x.NoPanic :=
  ⟨{ demoExt with builtinRaw := fun _ s _ _ => .ok [⟨s, ⟨0, s.length⟩, .builtin 3, [], 0⟩] },
    fun _ _ _ _ _ => rfl, ⟨by simp, demoExt_noPanic.2⟩⟩

end Snips
