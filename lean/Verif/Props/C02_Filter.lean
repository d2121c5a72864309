import Verif.Proofs.Engine

/-! # C02: unknown intents in a filter are rejected up front; the effective filter is exact -/

namespace Snips

theorem getIntentsWhitelist_known (e : Engine) (o : HashOrd) (wl bl : Option (List Text))
    (h : e.FilterKnown wl bl) : ∃ eff, e.getIntentsWhitelist o wl bl = .ok eff ∧ e.IsFilterFor wl bl eff := by
  unfold Engine.getIntentsWhitelist
  have hfind : (wl.getD [] ++ bl.getD []).find?
      (fun intent => !(e.dataset.slotNameMappings.keys).contains intent) = none := by
    rw [List.find?_eq_none]
    intro i hi
    have := h i (List.mem_append.1 hi)
    simpa [Engine.intents, Map.keys] using this
  simp only [hfind]
  refine ⟨_, rfl, ?_⟩
  have hmem : ∀ i, i ∈ o.order 0 e.dataset.slotNameMappings.keys ↔ i ∈ e.intents := fun i =>
    (o.perm 0 _).mem_iff
  cases wl with
  | none =>
    cases bl with
    | none => exact ⟨rfl, rfl⟩
    | some b =>
      refine ⟨by simp, ?_⟩
      intro i
      simp only [List.mem_filter, hmem, Allowed]
      simp
  | some w =>
    cases bl with
    | none =>
      refine ⟨by simp, ?_⟩
      intro i
      simp only [Option.map_none, Allowed]
      constructor
      · intro hi
        exact ⟨h i (Or.inl hi), by simpa using hi, by simp⟩
      · rintro ⟨_, hi, _⟩
        exact hi w rfl
    | some b =>
      refine ⟨by simp, ?_⟩
      intro i
      simp only [Option.map_some, intersect, List.mem_filter, hmem, Allowed]
      simp only [Bool.not_eq_true', List.contains_eq_mem, decide_eq_false_iff_not, List.any_eq_true,
        decide_eq_true_eq, exists_eq_right', Option.some.injEq, forall_eq']
      tauto

theorem getIntentsWhitelist_unknown (e : Engine) (o : HashOrd) (wl bl : Option (List Text))
    (h : ¬ e.FilterKnown wl bl) : ∃ i, (i ∈ wl.getD [] ∨ i ∈ bl.getD []) ∧ i ∉ e.intents ∧
      e.getIntentsWhitelist o wl bl = .err (.unknownFilterIntent i) := by
  unfold Engine.getIntentsWhitelist
  cases hfind : (wl.getD [] ++ bl.getD []).find?
      (fun intent => !(e.dataset.slotNameMappings.keys).contains intent) with
  | none =>
    exfalso
    apply h
    intro i hi
    rw [List.find?_eq_none] at hfind
    have := hfind i (List.mem_append.2 hi)
    simpa [Engine.intents, Map.keys] using this
  | some i =>
    refine ⟨i, List.mem_append.1 (List.mem_of_find?_eq_some hfind), ?_, by simp only [hfind]⟩
    have := List.find?_some hfind
    simpa [Engine.intents, Map.keys] using this

/-- A filter naming an intent the engine was not trained on: the call fails, naming such an intent,
whatever the parsers are and without any entity extraction (the program is the failure itself). -/
theorem c02_unknown_rejected (e : Engine) (o : HashOrd) (input : Text)
    (whitelist blacklist : Option (List Text)) (ni ns : Nat)
    (h : ¬ e.FilterKnown whitelist blacklist) :
    ∃ i, (i ∈ whitelist.getD [] ∨ i ∈ blacklist.getD []) ∧ i ∉ e.intents ∧
      ∀ parsers, ({ e with parsers := parsers } : Engine).parseWithAlternatives o input whitelist blacklist ni ns
        = .fail (.unknownFilterIntent i) := by
  obtain ⟨i, h1, h2, h3⟩ := getIntentsWhitelist_unknown e (o.sub 0) whitelist blacklist h
  refine ⟨i, h1, h2, fun parsers => ?_⟩
  unfold Engine.parseWithAlternatives
  have : ({ e with parsers := parsers } : Engine).getIntentsWhitelist (o.sub 0) whitelist blacklist
      = .err (.unknownFilterIntent i) := h3
  rw [this]
  rfl

theorem cascade_congr (e e' : Engine) (hd : e.dataset = e'.dataset) (hn : e.names = e'.names)
    (o : HashOrd) (input : Text) (eff : Option (List Text)) (ns : Nat) :
    ∀ (ps ps' : List ParserImpl) (i : Nat) (sc : ℚ),
    List.Forall₂ (fun p p' => ∀ o, p.parse o input eff = p'.parse o input eff) ps ps' →
    e.cascade o input eff ns i ps sc = e'.cascade o input eff ns i ps' sc := by
  intro ps
  induction ps with
  | nil => intro ps' i sc h; cases h; rfl
  | cons p ps ih =>
    intro ps' i sc h
    cases h with
    | cons h1 h2 =>
      rename_i p' ps'
      simp only [Engine.cascade]
      rw [h1]
      congr 1
      funext r
      have hres : ∀ slots, e.resolveSlots input slots ns = e'.resolveSlots input slots ns := by
        intro slots
        have he : ∀ b c l, e.resolveEach ns b c l = e'.resolveEach ns b c l := by
          intro b c l
          induction l with
          | nil => rfl
          | cons s l ihl => simp only [Engine.resolveEach, ihl, Engine.resolveOne, hd, hn]
        simp only [Engine.resolveSlots, hn, he]
      simp only [hres]
      rw [ih ps' (i + 1) r.intent.score h2]

/-- A filter naming only trained intents is never the cause of an error (with the parsers taken away the
call succeeds); there is an effective filter,
none if no list is given and otherwise exactly the trained intents allowed by both lists, such that
`parse` asks the parsers with this filter only: parsers that answer alike for this filter are
interchangeable. -/
theorem c02_effective_filter (e : Engine) (o : HashOrd) (input : Text)
    (whitelist blacklist : Option (List Text)) (ns : Nat) (h : e.FilterKnown whitelist blacklist) :
    ∃ eff, e.IsFilterFor whitelist blacklist eff ∧
      (∀ w, ∃ res, (({ e with parsers := [] } : Engine).parseWithAlternatives o input whitelist blacklist 0
        ns).run w = .ok res) ∧
      ∀ parsers, List.Forall₂ (fun p p' => ∀ o, p.parse o input eff = p'.parse o input eff) e.parsers parsers →
        ({ e with parsers := parsers } : Engine).parseWithAlternatives o input whitelist blacklist 0 ns
          = e.parseWithAlternatives o input whitelist blacklist 0 ns := by
  obtain ⟨eff, h1, h2⟩ := getIntentsWhitelist_known e (o.sub 0) whitelist blacklist h
  refine ⟨eff, h2, ?_, ?_⟩
  · intro w
    refine ⟨⟨input, ⟨none, 0⟩, [], []⟩, ?_⟩
    unfold Engine.parseWithAlternatives
    have h1' : ({ e with parsers := [] } : Engine).getIntentsWhitelist (o.sub 0) whitelist blacklist
      = .ok eff := h1
    rw [h1']
    rfl
  · intro parsers hps
    unfold Engine.parseWithAlternatives
    have h1' : ({ e with parsers := parsers } : Engine).getIntentsWhitelist (o.sub 0) whitelist blacklist
      = .ok eff := h1
    rw [h1, h1']
    have hc := cascade_congr e { e with parsers := parsers } rfl rfl (o.sub 1) input eff ns e.parsers parsers
      0 0 hps
    simp only [if_true]
    show (({ e with parsers := parsers } : Engine).cascade (o.sub 1) input eff ns 0 parsers 0).bind Prog.ret
      = (e.cascade (o.sub 1) input eff ns 0 e.parsers 0).bind Prog.ret
    rw [hc]

/-! Non-vacuity -/

/-- An engine trained on two intents, without parsers. -/
def filterDemo : Engine :=
  ⟨⟨[], [(['a'], []), (['b'], [])]⟩, [], ⟨fun _ => none, fun _ => none, fun _ => []⟩⟩

example : ¬ filterDemo.FilterKnown (some [['a']]) (some [['z']]) := by
  intro h
  have := h ['z'] (Or.inr (by simp))
  simp [Engine.intents, filterDemo] at this

example : filterDemo.FilterKnown (some [['a'], ['b']]) (some [['b']]) ∧
    filterDemo.IsFilterFor (some [['a'], ['b']]) (some [['b']]) (some [['a']]) := by
  constructor
  · intro i hi
    simp [Engine.intents, filterDemo] at hi ⊢
    tauto
  · refine ⟨by simp, ?_⟩
    intro i
    simp only [Engine.intents, filterDemo, Allowed, List.map_cons, List.map_nil, List.mem_cons,
      List.not_mem_nil, or_false, Option.some.injEq, forall_eq']
    constructor
    · rintro rfl; simp
    · rintro ⟨h1 | h1, _, h3⟩
      · exact h1
      · exact absurd h1 h3

end Snips
