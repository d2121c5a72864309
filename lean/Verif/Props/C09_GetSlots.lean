import Verif.Props.C06_AltRanking

/-! # C09: `get_slots` takes the first non-empty answer

`e.parserSlots o w input intent i` is what the `i`-th parser answers to `get_slots(input, intent)` within
the call.  What each kind of parser answers for an intent it does not know is in the files on the
parsers (`c09_lookup_unknown_intent` and similar). -/

namespace Snips

theorem slotsCascade_at (e : Engine) (o : HashOrd) (w : World) (input intent : Text) (n : Nat) :
    ∀ (k : Nat) (ps : List ParserImpl) (i : Nat) (p : ParserImpl) (out : Outcome (List InternalSlot)),
    (∀ j < k, ∃ (q : ParserImpl), ps[j]? = some q ∧ (q.getSlots (o.sub (i + j)) input intent).run w = .ok []) →
    ps[k]? = some p → (p.getSlots (o.sub (i + k)) input intent).run w = out →
    (e.slotsCascade o input intent n i ps).run w = out.bind fun slots =>
      if slots.isEmpty then (e.slotsCascade o input intent n (i + k + 1) (ps.drop (k + 1))).run w
      else (e.resolveSlots input slots n).run w
  | 0, ps, i, p, out, _, hp, hout => by
    cases ps with
    | nil => simp at hp
    | cons q ps =>
      simp only [List.getElem?_cons_zero, Option.some.injEq] at hp
      subst hp
      simp only [Engine.slotsCascade]
      rw [Prog.run_bind']
      simp only [Nat.add_zero] at hout
      rw [hout]
      cases out with
      | ok r =>
        simp only [Outcome.bind]
        cases r <;> rfl
      | err e => rfl
      | panic => rfl
  | k + 1, ps, i, p, out, hprev, hp, hout => by
    cases ps with
    | nil => simp at hp
    | cons q ps =>
      obtain ⟨q', hq, hr⟩ := hprev 0 (by omega)
      simp only [List.getElem?_cons_zero, Option.some.injEq] at hq
      subst hq
      simp only [Nat.add_zero] at hr
      simp only [Engine.slotsCascade]
      rw [Prog.run_bind', hr]
      simp only [Outcome.bind, List.isEmpty_nil, if_true]
      have := slotsCascade_at e o w input intent n k ps (i + 1) p out ?_ ?_ ?_
      · rw [this]
        have h1 : i + 1 + k + 1 = i + (k + 1) + 1 := by omega
        rw [h1]
        rfl
      · intro j hj
        obtain ⟨q', h1, h2⟩ := hprev (j + 1) (by omega)
        refine ⟨q', by simpa using h1, ?_⟩
        rw [show i + 1 + j = i + (j + 1) by omega]; exact h2
      · simpa using hp
      · rw [show i + 1 + k = i + (k + 1) by omega]; exact hout

theorem slotsCascade_none (e : Engine) (o : HashOrd) (w : World) (input intent : Text) (n : Nat) :
    ∀ (ps : List ParserImpl) (i : Nat),
    (∀ j < ps.length, ∃ (q : ParserImpl), ps[j]? = some q ∧
      (q.getSlots (o.sub (i + j)) input intent).run w = .ok []) →
    (e.slotsCascade o input intent n i ps).run w = .ok []
  | [], _, _ => rfl
  | p :: ps, i, h => by
    obtain ⟨q, hq, hr⟩ := h 0 (by simp)
    simp only [List.getElem?_cons_zero, Option.some.injEq] at hq
    subst hq
    simp only [Nat.add_zero] at hr
    simp only [Engine.slotsCascade]
    rw [Prog.run_bind', hr]
    simp only [Outcome.bind, List.isEmpty_nil, if_true]
    apply slotsCascade_none
    intro j hj
    obtain ⟨q', h1, h2⟩ := h (j + 1) (by simp only [List.length_cons]; omega)
    refine ⟨q', by simpa using h1, ?_⟩
    rw [show i + 1 + j = i + (j + 1) by omega]; exact h2

theorem parserSlots_iff {e : Engine} {o : HashOrd} {w : World} {input intent : Text} {j : Nat}
    {out : Outcome (List InternalSlot)} :
    e.parserSlots o w input intent j = some out ↔ ∃ q : ParserImpl, e.parsers[j]? = some q ∧
      (q.getSlots (o.sub (0 + j)) input intent).run w = out := by
  unfold Engine.parserSlots
  rw [Nat.zero_add]
  cases e.parsers[j]? <;> simp

/-- If the parsers before `k` find no slot, then: if parser `k` finds slots, the call returns these slots
resolved, whatever the later parsers are; if parser `k` fails (or panics), so does the call. -/
theorem c09_first_nonempty (e : Engine) (o : HashOrd) (w : World) (input intent : Text) (ns k : Nat)
    (hprev : ∀ j < k, e.parserSlots o w input intent j = some (.ok [])) :
    (∀ slots, e.parserSlots o w input intent k = some (.ok slots) → slots ≠ [] →
      (e.getSlotsWithAlternatives o input intent ns).run w = (e.resolveSlots input slots ns).run w) ∧
    (∀ err, e.parserSlots o w input intent k = some (.err err) →
      (e.getSlotsWithAlternatives o input intent ns).run w = .err err) ∧
    (e.parserSlots o w input intent k = some .panic →
      (e.getSlotsWithAlternatives o input intent ns).run w = .panic) := by
  have hprev' := fun j hj => parserSlots_iff.1 (hprev j hj)
  unfold Engine.getSlotsWithAlternatives
  refine ⟨?_, ?_, ?_⟩
  · intro slots hs hne
    obtain ⟨q, hq, hrun⟩ := parserSlots_iff.1 hs
    rw [slotsCascade_at e o w input intent ns k e.parsers 0 q _ hprev' hq hrun]
    cases slots with
    | nil => exact absurd rfl hne
    | cons s ss => rfl
  · intro err hs
    obtain ⟨q, hq, hrun⟩ := parserSlots_iff.1 hs
    rw [slotsCascade_at e o w input intent ns k e.parsers 0 q _ hprev' hq hrun]
    rfl
  · intro hs
    obtain ⟨q, hq, hrun⟩ := parserSlots_iff.1 hs
    rw [slotsCascade_at e o w input intent ns k e.parsers 0 q _ hprev' hq hrun]
    rfl

/-- If no parser finds a slot the answer is the empty list. -/
theorem c09_all_empty (e : Engine) (o : HashOrd) (w : World) (input intent : Text) (ns : Nat)
    (h : ∀ j < e.parsers.length, e.parserSlots o w input intent j = some (.ok [])) :
    (e.getSlotsWithAlternatives o input intent ns).run w = .ok [] :=
  slotsCascade_none e o w input intent ns e.parsers 0 (fun j hj => parserSlots_iff.1 (h j hj))

/-- Conversely a non-empty answer is the resolution of the slots of the first parser that found some. -/
theorem c09_origin (e : Engine) (o : HashOrd) (w : World) (input intent : Text) (ns : Nat)
    (out : List Slot) (h : (e.getSlotsWithAlternatives o input intent ns).run w = .ok out) :
    ((∀ j < e.parsers.length, e.parserSlots o w input intent j = some (.ok [])) ∧ out = []) ∨
    ∃ k slots, (∀ j < k, e.parserSlots o w input intent j = some (.ok [])) ∧
      e.parserSlots o w input intent k = some (.ok slots) ∧ slots ≠ [] ∧
      (e.resolveSlots input slots ns).run w = .ok out := by
  by_cases hall : ∀ j < e.parsers.length, e.parserSlots o w input intent j = some (.ok [])
  · left
    rw [c09_all_empty e o w input intent ns hall] at h
    injection h with h
    exact ⟨hall, h.symm⟩
  · right
    have hex : ∃ j, j < e.parsers.length ∧ e.parserSlots o w input intent j ≠ some (.ok []) := by
      by_contra hc
      exact hall fun j hj => by by_contra hj'; exact hc ⟨j, hj, hj'⟩
    classical
    obtain ⟨hk1, hk2⟩ := Nat.find_spec hex
    have hprev : ∀ j < Nat.find hex, e.parserSlots o w input intent j = some (.ok []) := by
      intro j hj
      have := Nat.find_min hex hj
      by_contra hc
      exact this ⟨by omega, hc⟩
    obtain ⟨g1, g2, g3⟩ := c09_first_nonempty e o w input intent ns _ hprev
    cases hs : e.parserSlots o w input intent (Nat.find hex) with
    | none =>
      exfalso
      have : ∀ k, k < e.parsers.length → e.parserSlots o w input intent k ≠ none := by
        intro k hk hc
        unfold Engine.parserSlots at hc
        rw [List.getElem?_eq_getElem hk] at hc
        cases hc
      exact this _ hk1 hs
    | some out' =>
      cases out' with
      | err er => rw [g2 er hs] at h; cases h
      | panic => rw [g3 hs] at h; cases h
      | ok slots =>
        have hne : slots ≠ [] := fun hc => hk2 (by rw [hs, hc])
        exact ⟨_, slots, hprev, hs, hne, by rw [← g1 slots hs hne]; exact h⟩

/-- `get_slots` is the call without slot alternatives. -/
theorem c09_get_slots (e : Engine) (o : HashOrd) (input intent : Text) :
    e.getSlots o input intent = e.getSlotsWithAlternatives o input intent 0 := rfl

/-! Non-vacuity: a parser without slots followed by one that finds a (builtin) slot. -/

/-- A parser that finds the whole input as slot `s` of builtin entity `n`. -/
def wholeInputParser : ParserImpl :=
  ⟨fun _ input _ => .ret ⟨⟨some ['a'], 1⟩, [⟨input, ⟨0, input.length⟩, ['n'], ['s']⟩]⟩,
   fun _ _ => .ret [⟨some ['a'], 1⟩],
   fun _ input _ => .ret [⟨input, ⟨0, input.length⟩, ['n'], ['s']⟩]⟩

/-- An engine whose only builtin entity is `n`, of kind 0, and with an extensible custom entity `c` and
a strict one `d`. -/
def slotDemo : Engine where
  dataset := ⟨[(['c'], true), (['d'], false)], [(['a'], [(['s'], ['n']), (['t'], ['c']), (['u'], ['d'])])]⟩
  parsers := [constantParser, wholeInputParser]
  names := ⟨fun t => if t = ['n'] then some 0 else none, fun t => if t = ['n'] then some 0 else none,
    fun _ => ['n']⟩

/-- A world in which every text is one builtin entity of kind 0 and nothing is a custom entity. -/
def numbersEverywhere : World :=
  ⟨fun t _ _ => .ok [⟨t, ⟨0, t.length⟩, .builtin 7, [], 0⟩], fun _ _ _ => .ok []⟩

example :
    (∀ j < 1, slotDemo.parserSlots HashOrd.insertion numbersEverywhere ['x', 'y'] ['a'] j = some (.ok [])) ∧
    slotDemo.parserSlots HashOrd.insertion numbersEverywhere ['x', 'y'] ['a'] 1
      = some (.ok [⟨['x', 'y'], ⟨0, 2⟩, ['n'], ['s']⟩]) ∧
    (slotDemo.getSlotsWithAlternatives HashOrd.insertion ['x', 'y'] ['a'] 0).run numbersEverywhere
      = .ok [⟨['x', 'y'], .builtin 7, [], ⟨0, 2⟩, ['n'], ['s']⟩] := by
  refine ⟨?_, by decide +kernel, by decide +kernel⟩
  intro j hj
  obtain rfl : j = 0 := by omega
  decide +kernel

end Snips
