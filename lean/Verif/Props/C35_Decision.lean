import Verif.Proofs.LookupRun
import Verif.Proofs.DetRun

/-! # C35: ambiguous sentences yield no intent; C37: no dependence on hash order -/

namespace Snips

/-! ### Deterministic parser -/

/-- Exact arithmetic, deterministic parser.  The matches are those of the permitted intents, each as
recognised when asked about alone; `parse` returns the intent whose weight exceeds the total weight of
all others, with its slots, if there is one, and no intent otherwise. -/
theorem c35_deterministic (env : RuleEnv) (hrd : env.rd = Rounding.exact) (p : Det) (hb : p.Built env.names)
    (o : HashOrd) (w : World) (input : Text) (filter : Option (List Text)) (out : InternalResult)
    (h : (p.parse env o input filter).run w = .ok out) :
    ∃ ms : List (Text × List InternalSlot), (ms.map Prod.fst).Nodup ∧
      (∀ i sl, (i, sl) ∈ ms ↔ Permits filter i ∧ p.MatchesAlone env o w input i sl) ∧ Verdict ms out := by
  unfold Det.parse at h
  rw [Prog.run_bind, Outcome.bind_ok] at h
  obtain ⟨top, htop, h⟩ := h
  simp only [Prog.run_ret, Outcome.ok.injEq] at h
  obtain ⟨ms, rfl, hn, h3, _⟩ := det_top_run hb htop
  refine ⟨ms, hn, ?_, ?_⟩
  · intro i sl; rw [h3, matchesAlone_iff hb]
  · rw [← h, hrd]; exact verdict_of hn

/-- Any rounding, deterministic parser. -/
theorem c35_deterministic_rounded (env : RuleEnv) (p : Det) (hb : p.Built env.names)
    (o : HashOrd) (w : World) (input : Text) (filter : Option (List Text)) (out : InternalResult)
    (h : (p.parse env o input filter).run w = .ok out) :
    ∃ ms : List (Text × List InternalSlot), (ms.map Prod.fst).Nodup ∧
      (∀ i sl, (i, sl) ∈ ms ↔ Permits filter i ∧ p.MatchesAlone env o w input i sl) ∧ RoundedVerdict ms out := by
  unfold Det.parse at h
  rw [Prog.run_bind, Outcome.bind_ok] at h
  obtain ⟨top, htop, h⟩ := h
  simp only [Prog.run_ret, Outcome.ok.injEq] at h
  obtain ⟨ms, rfl, hn, h3, _⟩ := det_top_run hb htop
  refine ⟨ms, hn, ?_, ?_⟩
  · intro i sl; rw [h3, matchesAlone_iff hb]
  · rw [← h]; exact roundedVerdict_of env.rd

/-! ### Lookup parser -/

theorem lookup_parse_run {env : RuleEnv} {p : Lookup} {o : HashOrd} {w : World} {input : Text}
    {filter : Option (List Text)} {out : InternalResult} (h : (p.parse env o input filter).run w = .ok out) :
    ∃ ms ms' : List (Text × List InternalSlot), (ms.map Prod.fst).Nodup ∧ ms'.Perm ms ∧
      out = pickUnambiguous (rankByWeight env.rd (ms'.map mkRes) 1) ∧
      (∀ i sl, (i, sl) ∈ ms → p.Hit env w input filter i sl ∧
        ∀ sl', p.Hit env w input filter i sl' → slotWeight env.rd sl'.length ≤ slotWeight env.rd sl.length) ∧
      (∀ i sl', p.Hit env w input filter i sl' → ∃ sl, (i, sl) ∈ ms) ∧
      (∀ o' : HashOrd, ∃ ms'' : List (Text × List InternalSlot), ms''.Perm ms ∧
        (p.parse env o' input filter).run w
          = .ok (pickUnambiguous (rankByWeight env.rd (ms''.map mkRes) 1))) := by
  unfold Lookup.parse at h
  rw [Prog.run_bind, Outcome.bind_ok] at h
  obtain ⟨top, htop, h⟩ := h
  simp only [Prog.run_ret, Outcome.ok.injEq] at h
  obtain ⟨ms, hn, h1, h2, h3⟩ := lookup_top_run htop
  obtain ⟨ms', hp, hrun⟩ := h3 o
  rw [hrun 1] at htop
  simp only [Outcome.ok.injEq] at htop
  refine ⟨ms, ms', hn, hp, by rw [← h, htop], h1, h2, ?_⟩
  intro o'
  obtain ⟨ms'', hp'', hrun''⟩ := h3 o'
  refine ⟨ms'', hp'', ?_⟩
  unfold Lookup.parse
  rw [Prog.run_bind, hrun'' 1]
  rfl

theorem exact_weight_le {a b : List InternalSlot}
    (h : slotWeight Rounding.exact a.length ≤ slotWeight Rounding.exact b.length) : b.length ≤ a.length := by
  rw [slotWeight_exact, slotWeight_exact] at h
  rw [one_div_le_one_div (by positivity) (by positivity)] at h
  have : (b.length : ℚ) ≤ a.length := by linarith
  exact_mod_cast this

/-- Exact arithmetic, lookup parser.  The matches are, for each permitted intent with an entry in the table
for some reading of the input, one with the fewest slots; `parse` returns the intent whose weight
exceeds the total weight of all others, with its slots, if there is one, and no intent otherwise. -/
theorem c35_lookup (env : RuleEnv) (hrd : env.rd = Rounding.exact) (p : Lookup)
    (o : HashOrd) (w : World) (input : Text) (filter : Option (List Text)) (out : InternalResult)
    (h : (p.parse env o input filter).run w = .ok out) :
    ∃ ms : List (Text × List InternalSlot), (ms.map Prod.fst).Nodup ∧
      (∀ i sl, (i, sl) ∈ ms → p.Hit env w input filter i sl ∧
        ∀ sl', p.Hit env w input filter i sl' → sl.length ≤ sl'.length) ∧
      (∀ i sl', p.Hit env w input filter i sl' → ∃ sl, (i, sl) ∈ ms) ∧ Verdict ms out := by
  obtain ⟨ms, ms', hn, hp, hout, h1, h2, _⟩ := lookup_parse_run h
  refine ⟨ms', (hp.map Prod.fst).nodup_iff.2 hn, ?_, ?_, ?_⟩
  · intro i sl hm
    obtain ⟨ha, hb⟩ := h1 i sl (hp.mem_iff.1 hm)
    refine ⟨ha, fun sl' hsl' => ?_⟩
    have := hb sl' hsl'
    rw [hrd] at this
    exact exact_weight_le this
  · intro i sl' hh
    obtain ⟨sl, hsl⟩ := h2 i sl' hh
    exact ⟨sl, hp.mem_iff.2 hsl⟩
  · rw [hout, hrd]; exact verdict_of ((hp.map Prod.fst).nodup_iff.2 hn)

/-- Any rounding, lookup parser; the match of an intent is one of maximal (rounded) weight. -/
theorem c35_lookup_rounded (env : RuleEnv) (p : Lookup)
    (o : HashOrd) (w : World) (input : Text) (filter : Option (List Text)) (out : InternalResult)
    (h : (p.parse env o input filter).run w = .ok out) :
    ∃ ms : List (Text × List InternalSlot), (ms.map Prod.fst).Nodup ∧
      (∀ i sl, (i, sl) ∈ ms → p.Hit env w input filter i sl ∧
        ∀ sl', p.Hit env w input filter i sl' →
          slotWeight env.rd sl'.length ≤ slotWeight env.rd sl.length) ∧
      (∀ i sl', p.Hit env w input filter i sl' → ∃ sl, (i, sl) ∈ ms) ∧ RoundedVerdict ms out := by
  obtain ⟨ms, ms', hn, hp, hout, h1, h2, _⟩ := lookup_parse_run h
  refine ⟨ms', (hp.map Prod.fst).nodup_iff.2 hn, ?_, ?_, ?_⟩
  · intro i sl hm
    exact h1 i sl (hp.mem_iff.1 hm)
  · intro i sl' hh
    obtain ⟨sl, hsl⟩ := h2 i sl' hh
    exact ⟨sl, hp.mem_iff.2 hsl⟩
  · rw [hout]; exact roundedVerdict_of env.rd

/-! ### C37 -/

/-- Lookup parser, exact arithmetic: if `parse` succeeds under one iteration order of the hash maps it
gives the same answer under every other. -/
theorem c37_lookup (env : RuleEnv) (hrd : env.rd = Rounding.exact) (p : Lookup) (o o' : HashOrd)
    (w : World) (input : Text) (filter : Option (List Text)) (out : InternalResult)
    (h : (p.parse env o input filter).run w = .ok out) :
    (p.parse env o' input filter).run w = .ok out := by
  obtain ⟨ms, ms', hn, hp, hout, _, _, h3⟩ := lookup_parse_run h
  obtain ⟨ms'', hp'', hrun⟩ := h3 o'
  rw [hrun, hout, hrd]
  rw [pick_perm (hp''.trans hp.symm)]

/-- Lookup parser, any rounding: two iteration orders never lead to different intents, and the slots of
an intent returned under both are the same. -/
theorem c37_lookup_rounded (env : RuleEnv) (p : Lookup) (o o' : HashOrd)
    (w : World) (input : Text) (filter : Option (List Text)) (out : InternalResult)
    (h : (p.parse env o input filter).run w = .ok out) :
    ∃ out', (p.parse env o' input filter).run w = .ok out' ∧
      ∀ i j, out.intent.name = some i → out'.intent.name = some j → i = j ∧ out.slots = out'.slots := by
  obtain ⟨ms, ms', hn, hp, hout, _, _, h3⟩ := lookup_parse_run h
  obtain ⟨ms'', hp'', hrun⟩ := h3 o'
  refine ⟨_, hrun, ?_⟩
  intro i j hi hj
  rw [hout] at hi ⊢
  exact pick_same_intent env.rd (hp.trans hp''.symm) hi hj ((hp.map Prod.fst).nodup_iff.2 hn)

/-- The entity matches found for an intent's scope lie in the input and are not empty, and their placeholders
end before position 2^15 of the text after substitution. -/
def Det.SmallMatches (env : RuleEnv) (p : Det) (w : World) (input : Text) : Prop :=
  ∀ s ∈ p.scopes, ∀ bs cs, w.builtin input (some s.2.1) 0 = .ok bs → w.custom input (some s.2.2) 0 = .ok cs →
    (∀ b ∈ bs, b.range.NonEmpty ∧ b.range.stop ≤ input.length) ∧
    (∀ c ∈ cs, c.range.NonEmpty ∧ c.range.stop ≤ input.length) ∧
    PlaceholdersEndBefore 32768 (entityPlaceholder env.fns) input
      (bs.map (fun b => ⟨b.range, env.names.identifier b.kind⟩) ++ cs.map fun c => ⟨c.range, c.identifier⟩)

/-- In particular if the texts after substitution have less than 2^15 characters. -/
theorem smallMatches_of_length {env : RuleEnv} {p : Det} {w : World} {input : Text}
    (h : ∀ s ∈ p.scopes, ∀ bs cs, w.builtin input (some s.2.1) 0 = .ok bs → w.custom input (some s.2.2) 0 = .ok cs →
      (∀ b ∈ bs, b.range.NonEmpty ∧ b.range.stop ≤ input.length) ∧
      (∀ c ∈ cs, c.range.NonEmpty ∧ c.range.stop ≤ input.length) ∧
      (replaceEntities input (bs.map (fun b => ⟨b.range, env.names.identifier b.kind⟩) ++
        cs.map fun c => ⟨c.range, c.identifier⟩) (entityPlaceholder env.fns)).2.length < 32768) :
    p.SmallMatches env w input := by
  intro s hs bs cs hbs hcs
  obtain ⟨h1, h2, h3⟩ := h s hs bs cs hbs hcs
  have hall : ∀ m ∈ bs.map (fun b => (⟨b.range, env.names.identifier b.kind⟩ : MatchedEntity)) ++
      cs.map (fun c => (⟨c.range, c.identifier⟩ : MatchedEntity)), m.range.NonEmpty ∧ m.range.stop ≤ input.length := by
    intro m hm
    rcases List.mem_append.1 hm with hm | hm
    · obtain ⟨b, hb', rfl⟩ := List.mem_map.1 hm
      exact h1 b hb'
    · obtain ⟨c, hc', rfl⟩ := List.mem_map.1 hm
      exact h2 c hc'
  exact ⟨h1, h2, endBefore_of_new_text (fun m hm => (hall m hm).1) (fun m hm => (hall m hm).2) h3⟩

theorem mapOutcome_congr {α β : Type} {f g : α → Outcome β} (h : ∀ a, f a = g a) (l : List α) :
    mapOutcome f l = mapOutcome g l := by
  rw [funext h]

theorem slotOf_order {o o' : HashOrd} {m : Option (Map Rng Rng)}
    (hm : ∀ r, originalRange o m r = originalRange o' m r) (p : Det) (input formatted intent : Text)
    (c : Rng × Text) : p.slotOf o input formatted intent m c = p.slotOf o' input formatted intent m c := by
  unfold Det.slotOf
  simp only [hm]

theorem matchingResult_order {o o' : HashOrd} {m : Option (Map Rng Rng)}
    (hm : ∀ r, originalRange o m r = originalRange o' m r) (fns : TextFns) (p : Det)
    (input formatted : Text) (regex : Regex) (intent : Text) :
    p.matchingResult fns o input formatted regex intent m
      = p.matchingResult fns o' input formatted regex intent m := by
  unfold Det.matchingResult
  simp only [funext (slotOf_order hm p input formatted intent)]

theorem entityPlaceholder_ne_nil (fns : TextFns) (name : Text) : entityPlaceholder fns name ≠ [] := by
  simp [entityPlaceholder]

theorem matchIntent_order {env : RuleEnv} {p : Det} {w : World} {input : Text}
    (hsm : p.SmallMatches env w input) (o o' : HashOrd) {s : Text × (List Kind × List Text)} (hs : s ∈ p.scopes) :
    (p.matchIntent env o input s).run w = (p.matchIntent env o' input s).run w := by
  unfold Det.matchIntent
  simp only [Prog.run]
  cases hbs : w.builtin input (some s.2.1) 0 with
  | err e => rfl
  | panic => rfl
  | ok bs =>
    simp only
    cases hcs : w.custom input (some s.2.2) 0 with
    | err e => rfl
    | panic => rfl
    | ok cs =>
      simp only
      obtain ⟨h1, h2, h3⟩ := hsm s hs bs cs hbs hcs
      have hall : ∀ m ∈ (bs.map BuiltinEntity.kindMatch).map (KindMatch.toMatched env.names) ++
          cs.map CustomEntity.toMatched, m.range.NonEmpty ∧ m.range.stop ≤ input.length := by
        intro m hm
        rcases List.mem_append.1 hm with hm | hm
        · rw [List.map_map] at hm
          obtain ⟨b, hb', rfl⟩ := List.mem_map.1 hm
          exact h1 b hb'
        · obtain ⟨c, hc', rfl⟩ := List.mem_map.1 hm
          exact h2 c hc'
      have h3' : PlaceholdersEndBefore 32768 (entityPlaceholder env.fns) input
          ((bs.map BuiltinEntity.kindMatch).map (KindMatch.toMatched env.names) ++ cs.map CustomEntity.toMatched) := by
        rw [List.map_map]; exact h3
      have hor := c18_order_partial input _ (entityPlaceholder env.fns) (fun m hm => (hall m hm).1)
        (fun m hm => (hall m hm).2) (entityPlaceholder_ne_nil env.fns) h3' o o'
      unfold Det.matchWith replaceChecked
      split
      · rfl
      · have ht : ∀ cleaned cf intent, p.tryRegex env.fns o input cleaned cf (replaceEntities input
            ((bs.map BuiltinEntity.kindMatch).map (KindMatch.toMatched env.names) ++
              cs.map CustomEntity.toMatched) (entityPlaceholder env.fns)).1 intent
            = p.tryRegex env.fns o' input cleaned cf (replaceEntities input
            ((bs.map BuiltinEntity.kindMatch).map (KindMatch.toMatched env.names) ++
              cs.map CustomEntity.toMatched) (entityPlaceholder env.fns)).1 intent := by
          intro cleaned cf intent
          funext regex
          unfold Det.tryRegex
          rw [matchingResult_order (m := none) (o := o) (o' := o') (fun r => rfl),
            matchingResult_order (o := o) (o' := o') hor]
        simp only [Outcome.bind_eq, Outcome.bind, ht]

theorem det_parse_matches {env : RuleEnv} {p : Det} (hb : p.Built env.names) {w : World} {input : Text}
    (hsm : p.SmallMatches env w input) (o o' : HashOrd) {filter : Option (List Text)} {out : InternalResult}
    (h : (p.parse env o input filter).run w = .ok out) :
    ∃ ms ms' : List (Text × List InternalSlot), ms.Perm ms' ∧ (ms.map Prod.fst).Nodup ∧
      out = pickUnambiguous (rankByWeight env.rd (ms.map mkRes) 1) ∧
      (∀ i sl, (i, sl) ∈ ms ↔ Permits filter i ∧ p.MatchesAlone env o w input i sl) ∧
      (p.parse env o' input filter).run w = .ok (pickUnambiguous (rankByWeight env.rd (ms'.map mkRes) 1)) := by
  unfold Det.parse at h
  rw [Prog.run_bind, Outcome.bind_ok] at h
  obtain ⟨top, htop, h⟩ := h
  simp only [Prog.run_ret, Outcome.ok.injEq] at h
  obtain ⟨ms, rfl, hn, h3, h4⟩ := det_top_run hb htop
  have hok : ∃ top', (p.parseTopIntents env o' input 1 filter).run w = .ok top' := by
    unfold Det.parseTopIntents
    rw [Prog.run_bind]
    have : ∀ l : List (Text × (List Kind × List Text)),
        (∀ s ∈ l, ∃ r, (p.matchIntent env o' input s).run w = .ok r) →
        ∃ rs, (Prog.mapM (p.matchIntent env o' input) l).run w = .ok rs := by
      intro l
      induction l with
      | nil => intro _; exact ⟨[], rfl⟩
      | cons s l ih =>
        intro hall
        obtain ⟨r, hr⟩ := hall s (by simp)
        obtain ⟨rs, hrs⟩ := ih (fun s' hs' => hall s' (by simp [hs']))
        refine ⟨r :: rs, ?_⟩
        rw [Prog.run_mapM_ok] at hrs ⊢
        exact List.Forall₂.cons hr hrs
    obtain ⟨rs, hrs⟩ := this ((o'.order 0 p.scopes).filter fun s => p.inIntentsSet filter s.1) (by
      intro s hs
      rw [List.mem_filter, (o'.perm 0 p.scopes).mem_iff] at hs
      rw [matchIntent_order hsm o' o hs.1]
      exact h4 s hs.1 ((inIntentsSet_iff hb filter hs.1).1 hs.2))
    rw [hrs]
    exact ⟨_, rfl⟩
  obtain ⟨top', htop'⟩ := hok
  obtain ⟨ms', rfl, hn', h3', _⟩ := det_top_run hb htop'
  refine ⟨ms, ms', ?_, hn, h.symm, fun i sl => by rw [h3, matchesAlone_iff hb], ?_⟩
  · refine (List.perm_ext_iff_of_nodup (List.Nodup.of_map _ hn) (List.Nodup.of_map _ hn')).2 ?_
    rintro ⟨i, sl⟩
    rw [h3, h3']
    refine and_congr_right fun _ => ?_
    constructor
    · rintro ⟨s, hs, hi, hrun⟩
      exact ⟨s, hs, hi, by rw [matchIntent_order hsm o' o hs]; exact hrun⟩
    · rintro ⟨s, hs, hi, hrun⟩
      exact ⟨s, hs, hi, by rw [matchIntent_order hsm o o' hs]; exact hrun⟩
  · unfold Det.parse
    rw [Prog.run_bind, htop']
    rfl

theorem det_parse_order {env : RuleEnv} {p : Det} (hb : p.Built env.names) {w : World} {input : Text}
    (hsm : p.SmallMatches env w input) (o o' : HashOrd) {filter : Option (List Text)} {out : InternalResult}
    (h : (p.parse env o input filter).run w = .ok out) :
    ∃ ms ms' : List (Text × List InternalSlot), ms.Perm ms' ∧ (ms.map Prod.fst).Nodup ∧
      out = pickUnambiguous (rankByWeight env.rd (ms.map mkRes) 1) ∧
      (p.parse env o' input filter).run w = .ok (pickUnambiguous (rankByWeight env.rd (ms'.map mkRes) 1)) := by
  obtain ⟨ms, ms', h1, h2, h3, _, h4⟩ := det_parse_matches hb hsm o o' h
  exact ⟨ms, ms', h1, h2, h3, h4⟩

/-- Deterministic parser, exact arithmetic: if `parse` succeeds under one iteration order of the hash
maps it gives the same answer under every other.  Missing from the full statement: placeholders
beyond position 2^15 and out-of-range matches, for which the range table may have clashing entries. -/
theorem c37_deterministic_partial (env : RuleEnv) (hrd : env.rd = Rounding.exact) (p : Det)
    (hb : p.Built env.names) (o o' : HashOrd) (w : World) (input : Text) (filter : Option (List Text))
    (hsm : p.SmallMatches env w input) (out : InternalResult)
    (h : (p.parse env o input filter).run w = .ok out) :
    (p.parse env o' input filter).run w = .ok out := by
  obtain ⟨ms, ms', hp, hn, hout, hrun⟩ := det_parse_order hb hsm o o' h
  rw [hrun, hout, hrd, pick_perm hp]

/-- Deterministic parser, any rounding: two iteration orders never lead to different intents, and the
slots of an intent returned under both are the same.  Missing: placeholders far in the text, as above. -/
theorem c37_deterministic_rounded_partial (env : RuleEnv) (p : Det) (hb : p.Built env.names) (o o' : HashOrd)
    (w : World) (input : Text) (filter : Option (List Text)) (hsm : p.SmallMatches env w input)
    (out : InternalResult) (h : (p.parse env o input filter).run w = .ok out) :
    ∃ out', (p.parse env o' input filter).run w = .ok out' ∧
      ∀ i j, out.intent.name = some i → out'.intent.name = some j → i = j ∧ out.slots = out'.slots := by
  obtain ⟨ms, ms', hp, hn, hout, hrun⟩ := det_parse_order hb hsm o o' h
  refine ⟨_, hrun, ?_⟩
  intro i j hi hj
  rw [hout] at hi ⊢
  exact pick_same_intent env.rd hp hi hj hn

end Snips
