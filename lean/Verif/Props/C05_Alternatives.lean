import Verif.Props.C03_Cascade

/-! # C05: asking for alternatives never changes the main answer -/

namespace Snips

/-- With any number of intent alternatives a successful call reports the input, main intent, confidence
and slots of the call without intent alternatives (which succeeds too), and at most as many alternatives
as requested. -/
theorem c05_main_unchanged (e : Engine) (o : HashOrd) (w : World) (input : Text)
    (whitelist blacklist : Option (List Text)) (ni ns : Nat) (res : ParseResult)
    (h : (e.parseWithAlternatives o input whitelist blacklist ni ns).run w = .ok res) :
    ∃ res0, (e.parseWithAlternatives o input whitelist blacklist 0 ns).run w = .ok res0 ∧
      res.input = input ∧ res0.input = input ∧ res.intent = res0.intent ∧ res.slots = res0.slots ∧
      res0.alternatives = [] ∧ res.alternatives.length ≤ ni := by
  obtain ⟨eff, main, hwl, hmain, hres⟩ := Engine.parseWith_ok h
  have hm := parse_eq_cascade e o input whitelist blacklist eff ns w hwl
  rw [hmain] at hm
  have hmain0 : main.input = input ∧ main.alternatives = [] := by
    rcases Engine.cascade_cases (o.sub 1) w input eff e.parsers with hall | ⟨k, p, out, hprev, hp, hout, hne⟩
    · obtain ⟨s, hs, _, _⟩ := Engine.cascade_none e (o.sub 1) w input eff ns e.parsers 0 0
        (fun j hj => by rw [Nat.zero_add]; exact hall j hj)
      rw [hs] at hmain
      injection hmain with hmain
      subst hmain; exact ⟨rfl, rfl⟩
    · have := Engine.cascade_at e (o.sub 1) w input eff ns k e.parsers 0 0 p out
        (fun j hj => by rw [Nat.zero_add]; exact hprev j hj) hp (by rw [Nat.zero_add]; exact hout)
      rw [this, Outcome.bind_ok] at hmain
      obtain ⟨r, hr, hmain⟩ := hmain
      cases hnm : r.intent.name with
      | none => exact absurd hnm (hne r hr)
      | some nm =>
        simp only [hnm] at hmain
        rw [Outcome.bind_ok] at hmain
        obtain ⟨slots, hs, hmain⟩ := hmain
        injection hmain with hmain
        subst hmain; exact ⟨rfl, rfl⟩
  refine ⟨main, hm, ?_⟩
  rcases hres with ⟨rfl, rfl⟩ | ⟨_, ranked, alts, _, ha, rfl⟩
  · exact ⟨hmain0.1, hmain0.1, rfl, rfl, hmain0.2, by simp [hmain0.2]⟩
  · refine ⟨hmain0.1, hmain0.1, rfl, rfl, hmain0.2, ?_⟩
    obtain ⟨h1, _⟩ := Engine.alternativesSlots_run _ _ _ _ _ _ _ _ ha
    have : alts.length = (alts.map Alternative.intent).length := (List.length_map _).symm
    simp only
    rw [this, h1, List.length_take]
    exact Nat.min_le_left _ _

/-- The main intent and its confidence do not depend on the number of slot alternatives either. -/
theorem c05_intent_independent_of_slot_alternatives (e : Engine) (o : HashOrd) (w : World) (input : Text)
    (whitelist blacklist : Option (List Text)) (ni ni' ns ns' : Nat) (res res' : ParseResult)
    (h : (e.parseWithAlternatives o input whitelist blacklist ni ns).run w = .ok res)
    (h' : (e.parseWithAlternatives o input whitelist blacklist ni' ns').run w = .ok res') :
    res.intent = res'.intent := by
  obtain ⟨m, hm, _, _, hi, _⟩ := c05_main_unchanged e o w input whitelist blacklist ni ns res h
  obtain ⟨m', hm', _, _, hi', _⟩ := c05_main_unchanged e o w input whitelist blacklist ni' ns' res' h'
  rw [hi, hi']
  obtain ⟨eff, main, hwl, _⟩ := Engine.parseWith_ok hm
  rw [parse_eq_cascade e o input whitelist blacklist eff ns w hwl] at hm
  rw [parse_eq_cascade e o input whitelist blacklist eff ns' w hwl] at hm'
  rcases Engine.cascade_cases (o.sub 1) w input eff e.parsers with hall | ⟨k, p, out, hprev, hp, hout, hne⟩
  · have hall' := fun j hj => by have := hall j hj; rw [← Nat.zero_add j] at this; exact this
    have key : ∀ n, ∃ s, (e.cascade (o.sub 1) input eff n 0 e.parsers 0).run w
        = .ok ⟨input, ⟨none, s⟩, [], []⟩ ∧ (e.parsers = [] → s = 0) ∧
        (∀ q, e.parsers[e.parsers.length - 1]? = some q → ∃ r,
        (q.parse ((o.sub 1).sub (0 + (e.parsers.length - 1))) input eff).run w = .ok r ∧ r.intent.score = s) :=
      fun n => Engine.cascade_none e (o.sub 1) w input eff n e.parsers 0 0
        (fun j hj => by rw [Nat.zero_add]; exact hall j hj)
    obtain ⟨s, h1, h2, h3⟩ := key ns
    obtain ⟨s', h1', h2', h3'⟩ := key ns'
    rw [h1] at hm
    rw [h1'] at hm'
    injection hm with hm
    injection hm' with hm'
    subst hm; subst hm'
    have : s = s' := by
      cases hps : e.parsers with
      | nil => rw [h2 hps, h2' hps]
      | cons p ps =>
        have hlt : e.parsers.length - 1 < e.parsers.length := by rw [hps]; simp
        obtain ⟨r, g1, g2⟩ := h3 _ (List.getElem?_eq_getElem hlt)
        obtain ⟨r', g1', g2'⟩ := h3' _ (List.getElem?_eq_getElem hlt)
        rw [g1] at g1'
        injection g1' with g1'
        rw [← g2, ← g2', g1']
    rw [this]
  · have key := fun n => Engine.cascade_at e (o.sub 1) w input eff n k e.parsers 0 0 p out
      (fun j hj => by rw [Nat.zero_add]; exact hprev j hj) hp (by rw [Nat.zero_add]; exact hout)
    rw [key ns, Outcome.bind_ok] at hm
    rw [key ns', Outcome.bind_ok] at hm'
    obtain ⟨r, hr, hm⟩ := hm
    obtain ⟨r', hr', hm'⟩ := hm'
    rw [hr] at hr'
    injection hr' with hr'
    subst hr'
    cases hnm : r.intent.name with
    | none => exact absurd hnm (hne r hr)
    | some nm =>
      simp only [hnm] at hm hm'
      rw [Outcome.bind_ok] at hm hm'
      obtain ⟨slots, hs, hm⟩ := hm
      obtain ⟨slots', hs', hm'⟩ := hm'
      injection hm with hm
      injection hm' with hm'
      subst hm; subst hm'
      rfl

/-- Zero intent alternatives requested means none returned, and `parse` is the call with zero
alternatives of both kinds. -/
theorem c05_zero (e : Engine) (o : HashOrd) (w : World) (input : Text)
    (whitelist blacklist : Option (List Text)) (ns : Nat) (res : ParseResult) :
    ((e.parseWithAlternatives o input whitelist blacklist 0 ns).run w = .ok res → res.alternatives = []) ∧
    e.parse o input whitelist blacklist = e.parseWithAlternatives o input whitelist blacklist 0 0 := by
  refine ⟨fun h => ?_, rfl⟩
  obtain ⟨_, _, _, _, _, _, _, hlen⟩ := c05_main_unchanged e o w input whitelist blacklist 0 ns res h
  exact List.eq_nil_of_length_eq_zero (by omega)

/-! Non-vacuity: two parsers, two intents, one alternative requested and returned. -/

/-- A parser that prefers `a` over `b`. -/
def rankingParser : ParserImpl :=
  ⟨fun _ _ _ => .ret ⟨⟨some ['a'], 2 / 3⟩, []⟩,
   fun _ _ => .ret [⟨some ['a'], 2 / 3⟩, ⟨some ['b'], 1 / 3⟩, ⟨none, 0⟩],
   fun _ _ _ => .ret []⟩

example :
    let e : Engine := { filterDemo with parsers := [abstainingParser (1 / 3), rankingParser] }
    (e.parseWithAlternatives HashOrd.insertion ['x'] none none 1 0).run noEntities
      = .ok ⟨['x'], ⟨some ['a'], 2 / 3⟩, [], [⟨⟨some ['b'], 1 / 3⟩, []⟩]⟩ := by
  decide +kernel

end Snips
