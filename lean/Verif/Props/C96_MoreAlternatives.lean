import Verif.Proofs.MoreAlternatives
import Verif.Props.C05_Alternatives
import Verif.Props.C09_GetSlots
import Verif.Spec.Demo

/-! # C96: asking for more alternatives only adds to the answer -/

namespace Snips

/-- **C96**: a successful call with more intent alternatives gives the answer of the call with fewer, which succeeds too, and
possibly further alternatives after those. -/
theorem c96_intents (e : Engine) (o : HashOrd) (w : World) (input : Text) (whitelist blacklist : Option (List Text))
    (ni ni' ns : Nat) (hle : ni ≤ ni') (res' : ParseResult)
    (h : (e.parseWithAlternatives o input whitelist blacklist ni' ns).run w = .ok res') :
    ∃ res, (e.parseWithAlternatives o input whitelist blacklist ni ns).run w = .ok res ∧ res.input = res'.input ∧
      res.intent = res'.intent ∧ res.slots = res'.slots ∧ res.alternatives = res'.alternatives.take ni := by
  by_cases h0 : ni = 0
  · subst h0
    obtain ⟨res0, h1, h2, h3, h4, h5, h6, -⟩ := c05_main_unchanged e o w input whitelist blacklist ni' ns res' h
    exact ⟨res0, h1, h3.trans h2.symm, h4.symm, h5.symm, by rw [h6]; rfl⟩
  · have key : ReplyFollows w (fun r r' : ParseResult => r.input = r'.input ∧ r.intent = r'.intent ∧ r.slots = r'.slots ∧
        r.alternatives = r'.alternatives.take ni)
        (e.parseWithAlternatives o input whitelist blacklist ni ns)
        (e.parseWithAlternatives o input whitelist blacklist ni' ns) := by
      unfold Engine.parseWithAlternatives
      refine (ReplyFollows.same _).bind ?_
      rintro wl _ rfl
      refine (ReplyFollows.same _).bind ?_
      rintro main _ rfl
      rw [if_neg h0, if_neg (by omega)]
      refine (ReplyFollows.same _).bind ?_
      rintro ranked _ rfl
      simp only
      have ht : ((ranked.filter (Engine.passesFilter wl)).drop 1).take ni
          = (((ranked.filter (Engine.passesFilter wl)).drop 1).take ni').take ni := by
        rw [List.take_take, Nat.min_eq_left hle]
      rw [ht]
      refine (alternativesSlots_take e _ input ns _ 0 ni).bind ?_
      rintro a a' rfl
      exact .ret ⟨rfl, rfl, rfl, rfl⟩
    obtain ⟨res, h1, h2⟩ := key res' h
    exact ⟨res, h1, h2⟩

/-- **C96**: if the libraries, asked for more alternatives, only add some, then a call with more slot alternatives gives the
answer of the call with fewer, with possibly further alternatives after those of each slot. -/
theorem c96_slots (e : Engine) (o : HashOrd) (x : Ext) (time : Nat) (input : Text) (whitelist blacklist : Option (List Text))
    (ni ns ns' : Nat) (hx : x.MoreAdds ns ns') (res' : ParseResult)
    (h : (e.parseWithAlternatives o input whitelist blacklist ni ns').run (x.world time) = .ok res') :
    ∃ res, (e.parseWithAlternatives o input whitelist blacklist ni ns).run (x.world time) = .ok res ∧
      res.input = res'.input ∧ res.intent = res'.intent ∧ List.Forall₂ Slot.More res.slots res'.slots ∧
      List.Forall₂ Alternative.More res.alternatives res'.alternatives := by
  obtain ⟨res, h1, h2, h3, h4, h5⟩ := parseWith_follows (hx.world time) e o input whitelist blacklist ni res' h
  exact ⟨res, h1, h2, h3, h4, h5⟩

/-- **C96** for `get_slots_with_alternatives`. -/
theorem c96_get_slots (e : Engine) (o : HashOrd) (x : Ext) (time : Nat) (input intent : Text) (ns ns' : Nat)
    (hx : x.MoreAdds ns ns') (slots' : List Slot)
    (h : (e.getSlotsWithAlternatives o input intent ns').run (x.world time) = .ok slots') :
    ∃ slots, (e.getSlotsWithAlternatives o input intent ns).run (x.world time) = .ok slots ∧
      List.Forall₂ Slot.More slots slots' := slotsCascade_follows (hx.world time) e o input intent e.parsers 0 slots' h

/-- **C96** for `extract_slot_with_alternatives`. -/
theorem c96_extract_slot (e : Engine) (x : Ext) (time : Nat) (input intent slot : Text) (ns ns' : Nat)
    (hx : x.MoreAdds ns ns') (r' : Option Slot)
    (h : (e.extractSlotWithAlternatives input intent slot ns').run (x.world time) = .ok r') :
    ∃ r, (e.extractSlotWithAlternatives input intent slot ns).run (x.world time) = .ok r ∧
      ((r = none ∧ r' = none) ∨ ∃ s s', r = some s ∧ r' = some s' ∧ s.More s') := by
  have key : ReplyFollows (x.world time) (OptMore Slot.More) (e.extractSlotWithAlternatives input intent slot ns)
      (e.extractSlotWithAlternatives input intent slot ns') := by
    unfold Engine.extractSlotWithAlternatives
    refine (ReplyFollows.same _).bind ?_
    rintro mapping _ rfl
    refine (ReplyFollows.same _).bind ?_
    rintro entity _ rfl
    split
    · unfold Engine.extractCustomSlot
      refine follows_custom (hx.world time) _ _ fun es es' hes => .ret ?_
      have hg := getLast_more hes
      generalize es.getLast? = y at hg
      generalize es'.getLast? = y' at hg
      cases hg with
      | none =>
        simp only
        split
        · exact .some ⟨rfl, rfl, rfl, rfl, rfl, List.prefix_refl _⟩
        · exact .none
      | some h => exact .some ⟨h.value, congrArg SlotValue.custom h.resolved, h.range, rfl, rfl, prefix_map h.alternatives⟩
    · unfold Engine.extractBuiltinSlot
      refine (ReplyFollows.same _).bind ?_
      rintro kind _ rfl
      refine follows_builtin (hx.world time) _ _ fun es es' hes => .ret ?_
      have hg := head_more hes
      generalize es.head? = y at hg
      generalize es'.head? = y' at hg
      cases hg with
      | none => exact .none
      | some h =>
        refine .some ⟨?_, h.entity, h.range, rfl, rfl, h.alternatives⟩
        simp only [h.range]
  obtain ⟨r, h1, h2⟩ := key r' h
  refine ⟨r, h1, ?_⟩
  cases h2 with
  | none => exact .inl ⟨rfl, rfl⟩
  | some hm => exact .inr ⟨_, _, rfl, rfl, hm⟩

/-! Non-vacuity: libraries for which every text is a number with the further readings 8 and 9; asked for one or for two
alternatives the engine gives the same slot with one or with two. -/

/-- Libraries with two alternatives for everything. -/
def twoReadings : Ext where
  lower t := t
  tokenize _ := []
  builtinRaw _ t _ n := .ok [⟨t, ⟨0, t.length⟩, .builtin 7, [SlotValue.builtin 8, .builtin 9].take n, 0⟩]
  gazetteer _ _ _ := .ok []

theorem twoReadings_moreAdds {n n' : Nat} (h : n ≤ n') : twoReadings.MoreAdds n n' := by
  constructor
  · intro time s kinds es' he
    cases he
    refine ⟨_, rfl, .cons ⟨rfl, rfl, rfl, rfl, ?_⟩ .nil⟩
    exact List.take_prefix_take_left h
  · intro s kinds es' he
    cases he
    exact ⟨_, rfl, .nil⟩

example : twoReadings.MoreAdds 1 2 ∧
    (slotDemo.getSlotsWithAlternatives HashOrd.insertion ['x', 'y'] ['a'] 1).run (twoReadings.world 0)
      = .ok [⟨['x', 'y'], .builtin 7, [.builtin 8], ⟨0, 2⟩, ['n'], ['s']⟩] ∧
    (slotDemo.getSlotsWithAlternatives HashOrd.insertion ['x', 'y'] ['a'] 2).run (twoReadings.world 0)
      = .ok [⟨['x', 'y'], .builtin 7, [.builtin 8, .builtin 9], ⟨0, 2⟩, ['n'], ['s']⟩] ∧
    (slotDemo.extractSlotWithAlternatives ['x', 'y'] ['a'] ['s'] 2).run (twoReadings.world 0)
      = .ok (some ⟨['x', 'y'], .builtin 7, [.builtin 8, .builtin 9], ⟨0, 2⟩, ['n'], ['s']⟩) :=
  ⟨twoReadings_moreAdds (by omega), by decide +kernel, by decide +kernel, by decide +kernel⟩

example :
    let e : Engine := { slotDemo with parsers := [wholeInputParser] }
    (e.parseWithAlternatives HashOrd.insertion ['x', 'y'] none none 1 2).run (twoReadings.world 0)
      = .ok ⟨['x', 'y'], ⟨some ['a'], 1⟩, [⟨['x', 'y'], .builtin 7, [.builtin 8, .builtin 9], ⟨0, 2⟩, ['n'], ['s']⟩], []⟩ := by
  decide +kernel

/-- Three intents asked for with one and with two alternatives. -/
example :
    let e : Engine := { filterDemo with parsers := [rankingParser] }
    ∃ res res', (e.parseWithAlternatives HashOrd.insertion ['x'] none none 1 0).run noEntities = .ok res ∧
      (e.parseWithAlternatives HashOrd.insertion ['x'] none none 2 0).run noEntities = .ok res' ∧
      res.alternatives = [⟨⟨some ['b'], 1 / 3⟩, []⟩] ∧
      res'.alternatives = [⟨⟨some ['b'], 1 / 3⟩, []⟩, ⟨⟨none, 0⟩, []⟩] :=
  ⟨⟨['x'], ⟨some ['a'], 2 / 3⟩, [], [⟨⟨some ['b'], 1 / 3⟩, []⟩]⟩,
    ⟨['x'], ⟨some ['a'], 2 / 3⟩, [], [⟨⟨some ['b'], 1 / 3⟩, []⟩, ⟨⟨none, 0⟩, []⟩]⟩,
    by decide +kernel, by decide +kernel, rfl, rfl⟩

end Snips
