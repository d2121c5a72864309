import Verif.Props.C03_Cascade

/-! # C04 for calls that ask for alternatives -/

namespace Snips

/-- C04, whatever number of alternatives is asked for: a result without intent comes from all parsers
abstaining, carries no slots, and its confidence is that reported by the last parser, 0 if there is none. -/
theorem c04_with_alternatives (e : Engine) (o : HashOrd) (w : World) (input : Text)
    (whitelist blacklist : Option (List Text)) (ni ns : Nat) (res : ParseResult)
    (h : (e.parseWithAlternatives o input whitelist blacklist ni ns).run w = .ok res)
    (hnone : res.intent.name = none) :
    ∃ eff, e.IsFilterFor whitelist blacklist eff ∧
      (∀ j < e.parsers.length, e.Abstains (o.sub 1) w input eff j) ∧ res.slots = [] ∧
      (e.parsers = [] → res.intent.score = 0) ∧
      (e.parsers ≠ [] → ∃ r,
        e.parserAnswer (o.sub 1) w input eff (e.parsers.length - 1) = some (.ok r) ∧
        res.intent.score = r.intent.score) := by
  obtain ⟨eff, main, hwl, hmain, hres⟩ := Engine.parseWith_ok h
  have hfields : res.intent = main.intent ∧ res.slots = main.slots := by
    rcases hres with ⟨_, rfl⟩ | ⟨_, _, _, _, _, rfl⟩ <;> exact ⟨rfl, rfl⟩
  have hknown : e.FilterKnown whitelist blacklist := by
    by_contra hk
    obtain ⟨i, _, _, h3⟩ := getIntentsWhitelist_unknown e (o.sub 0) whitelist blacklist hk
    rw [h3] at hwl; cases hwl
  obtain ⟨eff', h1, h2⟩ := getIntentsWhitelist_known e (o.sub 0) whitelist blacklist hknown
  rw [hwl] at h1
  injection h1 with h1
  subst h1
  refine ⟨eff, h2, ?_⟩
  rcases Engine.cascade_cases (o.sub 1) w input eff e.parsers with hall | ⟨k, p, out, hprev, hp, hout, hne⟩
  · obtain ⟨s, hs, h3, h4⟩ := Engine.cascade_none e (o.sub 1) w input eff ns e.parsers 0 0
      (fun j hj => by rw [Nat.zero_add]; exact hall j hj)
    rw [hs] at hmain
    injection hmain with hmain
    rw [hfields.1, hfields.2, ← hmain]
    refine ⟨fun j hj => (abstains_iff e _ w input eff j).2 (by rw [Nat.zero_add]; exact hall j hj), rfl, h3, ?_⟩
    intro hne
    have hlen : 0 < e.parsers.length := List.length_pos_of_ne_nil hne
    have hget : e.parsers[e.parsers.length - 1]? = some e.parsers[e.parsers.length - 1] :=
      List.getElem?_eq_getElem _
    obtain ⟨r, hr, hsc⟩ := h4 _ hget
    exact ⟨r, parserAnswer_iff.2 ⟨_, hget, hr⟩, hsc.symm⟩
  · have := Engine.cascade_at e (o.sub 1) w input eff ns k e.parsers 0 0 p out
      (fun j hj => by rw [Nat.zero_add]; exact hprev j hj) hp (by rw [Nat.zero_add]; exact hout)
    rw [this, Outcome.bind_ok] at hmain
    obtain ⟨r, hr, hmain⟩ := hmain
    have hn := hne r hr
    cases hnm : r.intent.name with
    | none => exact absurd hnm hn
    | some nm =>
      simp only [hnm] at hmain
      rw [Outcome.bind_ok] at hmain
      obtain ⟨slots, hs, hmain⟩ := hmain
      injection hmain with hmain
      rw [hfields.1, ← hmain] at hnone
      exact absurd hnone hn

/-- A parser that ranks the intents `a` and `b` but recognises neither. -/
def silentRankingParser : ParserImpl :=
  ⟨fun _ _ _ => .ret ⟨⟨none, 1 / 3⟩, []⟩, fun _ _ => .ret [⟨none, 1 / 3⟩, ⟨some ['a'], 1 / 4⟩],
    fun _ _ _ => .ret []⟩

example :
    let e : Engine := { filterDemo with parsers := [silentRankingParser] }
    ∃ res, (e.parseWithAlternatives HashOrd.insertion ['x'] none none 1 0).run noEntities = .ok res ∧
      res.intent = ⟨none, 1 / 3⟩ ∧ res.slots = [] := by
  exact ⟨⟨['x'], ⟨none, 1 / 3⟩, [], [⟨⟨some ['a'], 1 / 4⟩, []⟩]⟩, by decide +kernel, rfl, rfl⟩

end Snips
