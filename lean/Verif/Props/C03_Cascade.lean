import Verif.Props.C02_Filter

/-! # C03, C04: the first parser that recognises an intent wins

`e.parserAnswer (o.sub 1) w input eff i` is what the `i`-th parser answers to `parse(input, eff)` within
the engine call. -/

namespace Snips

theorem parse_eq_cascade (e : Engine) (o : HashOrd) (input : Text) (wl bl eff : Option (List Text))
    (ns : Nat) (w : World) (h : e.getIntentsWhitelist (o.sub 0) wl bl = .ok eff) :
    (e.parseWithAlternatives o input wl bl 0 ns).run w
      = (e.cascade (o.sub 1) input eff ns 0 e.parsers 0).run w := by
  unfold Engine.parseWithAlternatives
  rw [h, Prog.run_bind', Prog.run_ofOutcome]
  simp only [Outcome.bind, if_true]
  rw [Prog.run_bind']
  cases (e.cascade (o.sub 1) input eff ns 0 e.parsers 0).run w <;> rfl

theorem abstains_iff (e : Engine) (o : HashOrd) (w : World) (input : Text) (eff : Option (List Text))
    (j : Nat) : e.Abstains o w input eff j ↔ ∃ (q : ParserImpl) (r : InternalResult), e.parsers[j]? = some q ∧
      (q.parse (o.sub (0 + j)) input eff).run w = .ok r ∧ r.intent.name = none := by
  unfold Engine.Abstains Engine.parserAnswer
  rw [Nat.zero_add]
  cases e.parsers[j]? with
  | none => simp
  | some q => simp

theorem parserAnswer_iff {e : Engine} {o : HashOrd} {w : World} {input : Text}
    {eff : Option (List Text)} {j : Nat} {out : Outcome InternalResult} :
    e.parserAnswer o w input eff j = some out ↔ ∃ q : ParserImpl, e.parsers[j]? = some q ∧
      (q.parse (o.sub (0 + j)) input eff).run w = out := by
  unfold Engine.parserAnswer
  rw [Nat.zero_add]
  cases e.parsers[j]? <;> simp

/-- Complete description of `parse` (with any number of slot alternatives, no intent alternatives): there
is an effective filter such that
* if the parsers before `k` abstain and parser `k` recognises an intent, the result carries exactly that
  intent, its confidence and the resolved slots of that parser (an error while resolving is the error
  of the call), whatever the parsers after `k` are;
* if the parsers before `k` abstain and parser `k` fails, the call fails with the same error;
* likewise for a panic. -/
theorem c03_first_parser_wins (e : Engine) (o : HashOrd) (w : World) (input : Text)
    (whitelist blacklist : Option (List Text)) (ns : Nat) (h : e.FilterKnown whitelist blacklist) :
    ∃ eff, e.IsFilterFor whitelist blacklist eff ∧ ∀ k,
      (∀ j < k, e.Abstains (o.sub 1) w input eff j) →
      (∀ r, e.parserAnswer (o.sub 1) w input eff k = some (.ok r) → r.intent.name ≠ none →
        (e.parseWithAlternatives o input whitelist blacklist 0 ns).run w
          = ((e.resolveSlots input r.slots ns).run w).map (fun slots => ⟨input, r.intent, slots, []⟩)) ∧
      (∀ err, e.parserAnswer (o.sub 1) w input eff k = some (.err err) →
        (e.parseWithAlternatives o input whitelist blacklist 0 ns).run w = .err err) ∧
      (e.parserAnswer (o.sub 1) w input eff k = some .panic →
        (e.parseWithAlternatives o input whitelist blacklist 0 ns).run w = .panic) := by
  obtain ⟨eff, h1, h2⟩ := getIntentsWhitelist_known e (o.sub 0) whitelist blacklist h
  refine ⟨eff, h2, fun k hprev => ?_⟩
  have hprev' := fun j hj => (abstains_iff e (o.sub 1) w input eff j).1 (hprev j hj)
  rw [parse_eq_cascade e o input whitelist blacklist eff ns w h1]
  refine ⟨?_, ?_, ?_⟩
  · intro r hr hn
    obtain ⟨q, hq, hrun⟩ := parserAnswer_iff.1 hr
    rw [Engine.cascade_at e (o.sub 1) w input eff ns k e.parsers 0 0 q _ hprev' hq hrun]
    simp only [Outcome.bind]
    cases hnm : r.intent.name with
    | none => exact absurd hnm hn
    | some nm =>
      simp only
      cases (e.resolveSlots input r.slots ns).run w <;> rfl
  · intro err hr
    obtain ⟨q, hq, hrun⟩ := parserAnswer_iff.1 hr
    rw [Engine.cascade_at e (o.sub 1) w input eff ns k e.parsers 0 0 q _ hprev' hq hrun]
    rfl
  · intro hr
    obtain ⟨q, hq, hrun⟩ := parserAnswer_iff.1 hr
    rw [Engine.cascade_at e (o.sub 1) w input eff ns k e.parsers 0 0 q _ hprev' hq hrun]
    rfl

/-- Conversely, a successful call comes from the first parser that recognises an intent, or from all
parsers abstaining. -/
theorem c03_result_origin (e : Engine) (o : HashOrd) (w : World) (input : Text)
    (whitelist blacklist : Option (List Text)) (ni ns : Nat) (res : ParseResult)
    (h : (e.parseWithAlternatives o input whitelist blacklist ni ns).run w = .ok res) :
    ∃ eff, e.IsFilterFor whitelist blacklist eff ∧ res.input = input ∧
      ((∃ k r, (∀ j < k, e.Abstains (o.sub 1) w input eff j) ∧
          e.parserAnswer (o.sub 1) w input eff k = some (.ok r) ∧ r.intent.name ≠ none ∧
          res.intent = r.intent ∧ (e.resolveSlots input r.slots ns).run w = .ok res.slots) ∨
        ((∀ j < e.parsers.length, e.Abstains (o.sub 1) w input eff j) ∧
          res.intent.name = none ∧ res.slots = [])) := by
  obtain ⟨eff, main, hwl, hmain, hres⟩ := Engine.parseWith_ok h
  have hfields : res.input = main.input ∧ res.intent = main.intent ∧ res.slots = main.slots := by
    rcases hres with ⟨_, rfl⟩ | ⟨_, _, _, _, _, rfl⟩ <;> exact ⟨rfl, rfl, rfl⟩
  have hknown : e.FilterKnown whitelist blacklist := by
    by_contra hk
    obtain ⟨i, _, _, h3⟩ := getIntentsWhitelist_unknown e (o.sub 0) whitelist blacklist hk
    rw [h3] at hwl; cases hwl
  obtain ⟨eff', h1, h2⟩ := getIntentsWhitelist_known e (o.sub 0) whitelist blacklist hknown
  rw [hwl] at h1
  injection h1 with h1
  subst h1
  refine ⟨eff, h2, ?_⟩
  rcases Engine.cascade_cases (o.sub 1) w input eff e.parsers with hall | ⟨k, p, out, hprev, hp, hout, hne⟩
  · obtain ⟨s, hs, _, _⟩ := Engine.cascade_none e (o.sub 1) w input eff ns e.parsers 0 0
      (fun j hj => by rw [Nat.zero_add]; exact hall j hj)
    rw [hs] at hmain
    injection hmain with hmain
    rw [hfields.1, hfields.2.1, hfields.2.2, ← hmain]
    exact ⟨rfl, Or.inr ⟨fun j hj => (abstains_iff e _ w input eff j).2 (by
      rw [Nat.zero_add]; exact hall j hj), rfl, rfl⟩⟩
  · have := Engine.cascade_at e (o.sub 1) w input eff ns k e.parsers 0 0 p out
      (fun j hj => by rw [Nat.zero_add]; exact hprev j hj) hp (by rw [Nat.zero_add]; exact hout)
    rw [this] at hmain
    rw [Outcome.bind_ok] at hmain
    obtain ⟨r, hr, hmain⟩ := hmain
    have hn := hne r hr
    cases hnm : r.intent.name with
    | none => exact absurd hnm hn
    | some nm =>
      simp only [hnm] at hmain
      rw [Outcome.bind_ok] at hmain
      obtain ⟨slots, hs, hmain⟩ := hmain
      injection hmain with hmain
      rw [hfields.1, hfields.2.1, hfields.2.2, ← hmain]
      refine ⟨rfl, Or.inl ⟨k, r, fun j hj => (abstains_iff e _ w input eff j).2 (by
        rw [Nat.zero_add]; exact hprev j hj), ?_, hn, rfl, hs⟩⟩
      rw [parserAnswer_iff]
      exact ⟨p, hp, by rw [Nat.zero_add, hout, hr]⟩

/-- C04: if every parser abstains, the call succeeds with no intent, no slots and no alternatives, and
the confidence is that reported by the last parser, 0 if there is none. -/
theorem c04_no_intent (e : Engine) (o : HashOrd) (w : World) (input : Text)
    (whitelist blacklist : Option (List Text)) (ns : Nat) (h : e.FilterKnown whitelist blacklist) :
    ∃ eff, e.IsFilterFor whitelist blacklist eff ∧
      ((∀ j < e.parsers.length, e.Abstains (o.sub 1) w input eff j) →
        ∃ score, (e.parseWithAlternatives o input whitelist blacklist 0 ns).run w
            = .ok ⟨input, ⟨none, score⟩, [], []⟩ ∧
          (e.parsers = [] → score = 0) ∧
          (e.parsers ≠ [] → ∃ r,
            e.parserAnswer (o.sub 1) w input eff (e.parsers.length - 1) = some (.ok r) ∧
            score = r.intent.score)) := by
  obtain ⟨eff, h1, h2⟩ := getIntentsWhitelist_known e (o.sub 0) whitelist blacklist h
  refine ⟨eff, h2, fun hall => ?_⟩
  rw [parse_eq_cascade e o input whitelist blacklist eff ns w h1]
  obtain ⟨s, hs, h3, h4⟩ := Engine.cascade_none e (o.sub 1) w input eff ns e.parsers 0 0
    (fun j hj => (abstains_iff e (o.sub 1) w input eff j).1 (hall j hj))
  refine ⟨s, hs, h3, ?_⟩
  intro hne
  have hlen : 0 < e.parsers.length := List.length_pos_of_ne_nil hne
  have hget : e.parsers[e.parsers.length - 1]? = some e.parsers[e.parsers.length - 1] :=
    List.getElem?_eq_getElem _
  obtain ⟨r, hr, hsc⟩ := h4 _ hget
  exact ⟨r, parserAnswer_iff.2 ⟨_, hget, hr⟩, hsc.symm⟩

/-! Non-vacuity: an abstaining parser followed by one that recognises `a`, and an engine with only the
abstaining one. -/

/-- A parser that never recognises an intent. -/
def abstainingParser (score : ℚ) : ParserImpl :=
  ⟨fun _ _ _ => .ret ⟨⟨none, score⟩, []⟩, fun _ _ => .ret [], fun _ _ _ => .ret []⟩

/-- A parser that always recognises intent `a`. -/
def constantParser : ParserImpl :=
  ⟨fun _ _ _ => .ret ⟨⟨some ['a'], 1 / 2⟩, []⟩, fun _ _ => .ret [⟨some ['a'], 1 / 2⟩],
    fun _ _ _ => .ret []⟩

/-- A world without entities. -/
def noEntities : World := ⟨fun _ _ _ => .ok [], fun _ _ _ => .ok []⟩

example :
    let e : Engine := { filterDemo with parsers := [abstainingParser (1 / 3), constantParser] }
    e.FilterKnown none none ∧ (∀ j < 1, e.Abstains (HashOrd.insertion.sub 1) noEntities ['x'] none j) ∧
    e.parserAnswer (HashOrd.insertion.sub 1) noEntities ['x'] none 1 = some (.ok ⟨⟨some ['a'], 1 / 2⟩, []⟩) ∧
    (e.parseWithAlternatives HashOrd.insertion ['x'] none none 0 0).run noEntities
      = .ok ⟨['x'], ⟨some ['a'], 1 / 2⟩, [], []⟩ := by
  refine ⟨by intro i hi; simp at hi, ?_, rfl, rfl⟩
  intro j hj
  obtain rfl : j = 0 := by omega
  exact ⟨⟨⟨none, 1 / 3⟩, []⟩, rfl, rfl⟩

example :
    let e : Engine := { filterDemo with parsers := [abstainingParser (1 / 3)] }
    (∀ j < e.parsers.length, e.Abstains (HashOrd.insertion.sub 1) noEntities ['x'] none j) ∧
    (e.parseWithAlternatives HashOrd.insertion ['x'] none none 0 0).run noEntities
      = .ok ⟨['x'], ⟨none, 1 / 3⟩, [], []⟩ := by
  refine ⟨?_, rfl⟩
  intro j hj
  have hj' : j < 1 := hj
  obtain rfl : j = 0 := by omega
  exact ⟨⟨⟨none, 1 / 3⟩, []⟩, rfl, rfl⟩

end Snips
