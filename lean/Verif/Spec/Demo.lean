import Verif.Spec.Extraction

/-! A concrete extractor used to show that hypotheses are satisfiable. -/

namespace Snips

/-- Lower-casing on ASCII letters, one token per sentence, a builtin extractor whose resolved value is
the time of the call (a "now" entity), which fails on the empty sentence, and a gazetteer that knows
every sentence. -/
def demoExt : Ext where
  lower t := t.map Char.toLower
  tokenize t := if t = [] then [] else [⟨t, ⟨0, t.length⟩, ⟨0, t.length⟩⟩]
  builtinRaw time s _ _ :=
    if s = [] then .err (.external 1) else .ok [⟨s, ⟨0, s.length⟩, .builtin time, [], 0⟩]
  gazetteer s _ _ := if s = [] then .ok [] else .ok [⟨s, s, [], ⟨0, s.length⟩, ['e']⟩]

theorem demoExt_timeStable : demoExt.TimeStable := by
  intro t t' s kinds n
  simp only [demoExt]
  by_cases h : s = []
  · simp [h]
  · simp [h, Outcome.map, BuiltinEntity.kindMatch]

theorem demoExt_noPanic : demoExt.NoPanic := by
  refine ⟨?_, ?_⟩
  · intro t s kinds n
    simp only [demoExt]
    by_cases h : s = [] <;> simp [h]
  · intro s kinds n
    simp only [Ext.customExtract, demoExt]
    by_cases h : s = []
    · simp [h, joinWith, mapOutcome]
    · simp only [h, if_false, List.map_cons, List.map_nil, joinWith, mapOutcome]
      have hlen : 0 < s.length := List.length_pos_of_ne_nil h
      obtain ⟨m, hm⟩ : ∃ m, s.length = m + 1 := ⟨s.length - 1, by omega⟩
      simp [remapEntity, computeCharShifts, charShiftsFrom, Rng.count, hm]

end Snips
