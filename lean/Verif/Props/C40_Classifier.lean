import Verif.Props.C39_LogReg
import Verif.Spec.Rule
import Verif.Spec.Parsers
import Verif.Proofs.Prog
import Verif.Proofs.Map
import Verif.Props.C26_Tags

/-! # C40: classifier ranking and filter; C54: composition of the probabilistic parser;
C01 and C09 for the probabilistic parser -/

namespace Snips

/-- The classifier is able to compute scores for the input: it has at least two intents and the two
parts of the model, and the input is not empty. -/
structure Classifier.Scores (c : Classifier) (input : Text) : Prop where
  intents : 2 ≤ c.intentList.length
  input : input ≠ []
  featurizer : c.featurizer ≠ none
  logreg : c.logreg ≠ none

theorem classifier_run {ops : FloatOps ℚ} {env : FeatEnv} {o : HashOrd} {c : Classifier} {input : Text}
    (hc : c.Scores input) {w : World} {wl : Option (List Text)} {out : List IntentResult}
    (h : (c.getIntentsWithWhitelist ops env o input wl).run w = .ok out) :
    ∃ f m features scores, c.featurizer = some f ∧ c.logreg = some m ∧
      (f.transform ops env o input).run w = .ok features ∧ m.run ops features = .ok scores ∧
      out = c.rank scores wl ∧
      ∀ wl', (c.getIntentsWithWhitelist ops env o input wl').run w = .ok (c.rank scores wl') := by
  obtain ⟨h1, h2, h3, h4⟩ := hc
  cases hf : c.featurizer with
  | none => exact absurd hf h3
  | some f =>
    cases hm : c.logreg with
    | none => exact absurd hm h4
    | some m =>
      have key : ∀ wl', (c.getIntentsWithWhitelist ops env o input wl').run w =
          ((f.transform ops env o input).run w).bind fun features =>
            (m.run ops features).bind fun scores => .ok (c.rank scores wl') := by
        intro wl'
        unfold Classifier.getIntentsWithWhitelist
        rw [if_neg (by omega), if_neg h2, hf, hm]
        simp only
        rw [Prog.run_bind]
        congr 1
        funext features
        rw [Prog.run_bind]
        cases m.run ops features <;> rfl
      rw [key, Outcome.bind_ok] at h
      obtain ⟨features, hfe, h⟩ := h
      rw [Outcome.bind_ok] at h
      obtain ⟨scores, hs, h⟩ := h
      cases h
      refine ⟨f, m, features, scores, rfl, rfl, hfe, hs, rfl, ?_⟩
      intro wl'
      rw [key, hfe]
      simp only [Outcome.bind, hs]

/-- The scores of a ranking do not increase. -/
theorem c40_sorted (ops : FloatOps ℚ) (env : FeatEnv) (o : HashOrd) (c : Classifier) (input : Text)
    (hc : c.Scores input) (w : World) (wl : Option (List Text)) (out : List IntentResult)
    (h : (c.getIntentsWithWhitelist ops env o input wl).run w = .ok out) :
    out.Pairwise (fun a b => b.score ≤ a.score) := by
  obtain ⟨_, _, _, _, _, _, _, _, rfl, _⟩ := classifier_run hc h
  exact sortDesc_pairwise _ _

/-- The ranking pairs the intents of the model with the scores of the regression, in order. -/
theorem c40_scores (ops : FloatOps ℚ) (env : FeatEnv) (o : HashOrd) (c : Classifier) (input : Text)
    (hc : c.Scores input) (w : World) (out : List IntentResult)
    (h : (c.getIntents ops env o input).run w = .ok out) :
    ∃ f m features scores, c.featurizer = some f ∧ c.logreg = some m ∧
      (f.transform ops env o input).run w = .ok features ∧ m.run ops features = .ok scores ∧
      out.Perm (List.zipWith IntentResult.mk c.intentList scores) := by
  obtain ⟨f, m, features, scores, h1, h2, h3, h4, rfl, _⟩ := classifier_run hc h
  refine ⟨f, m, features, scores, h1, h2, h3, h4, (sortDesc_perm _ _).trans ?_⟩
  have : ∀ l : List IntentResult, l.filter (keptByWhitelist none) = l := by
    intro l
    apply List.filter_eq_self.2
    intro r _
    unfold keptByWhitelist
    cases r.name <;> rfl
  rw [this]
  have hz : ∀ (l : List (Option Text)) (s : List ℚ),
      (l.zip s).map (fun ns => (⟨ns.1, ns.2⟩ : IntentResult)) = List.zipWith IntentResult.mk l s := by
    intro l
    induction l with
    | nil => intro s; rfl
    | cons a l ih =>
      intro s
      cases s with
      | nil => rfl
      | cons b s => simp [ih s]
  rw [hz]

/-- A whitelist only removes entries: the ranking with the whitelist is the ranking without it, minus
the intents not in the list; scores and relative order are unchanged and the absent intent stays. -/
theorem c40_filter (ops : FloatOps ℚ) (env : FeatEnv) (o : HashOrd) (c : Classifier) (input : Text)
    (hc : c.Scores input) (w : World) (wl : List Text) (out : List IntentResult)
    (h : (c.getIntents ops env o input).run w = .ok out) :
    (c.getIntentsWithWhitelist ops env o input (some wl)).run w
      = .ok (out.filter fun r => decide (∀ i, r.name = some i → i ∈ wl)) := by
  obtain ⟨_, _, _, scores, _, _, _, _, rfl, hall⟩ := classifier_run hc h
  rw [hall]
  unfold Classifier.rank
  rw [filter_sortDesc, List.filter_filter]
  congr 2
  apply List.filter_congr
  intro r _
  unfold keptByWhitelist
  cases r.name with
  | none => simp
  | some i => simp

/-- `get_intent` is the first entry of the ranking; the absent intent if the ranking is empty. -/
theorem c40_first (ops : FloatOps ℚ) (env : FeatEnv) (o : HashOrd) (c : Classifier) (input : Text)
    (w : World) (wl : Option (List Text)) (out : List IntentResult)
    (h : (c.getIntentsWithWhitelist ops env o input wl).run w = .ok out) :
    (c.getIntent ops env o input wl).run w = .ok (out.head?.getD ⟨none, 1⟩) := by
  unfold Classifier.getIntent
  rw [Prog.run_bind, h]
  cases out <;> rfl

/-- With at most one intent, that intent (or the absent one) is certain, whatever the input and the whitelist. -/
theorem c40_certain (ops : FloatOps ℚ) (env : FeatEnv) (o : HashOrd) (c : Classifier) (input : Text)
    (w : World) (wl : Option (List Text)) :
    (c.intentList = [] → (c.getIntentsWithWhitelist ops env o input wl).run w = .ok [⟨none, 1⟩]) ∧
    (∀ i, c.intentList = [i] → (c.getIntentsWithWhitelist ops env o input wl).run w = .ok [⟨i, 1⟩]) := by
  unfold Classifier.getIntentsWithWhitelist
  constructor
  · intro h
    rw [h]
    rfl
  · intro i h
    rw [h]
    rfl

/-- An input or a model without features: all intents are listed, whatever the whitelist; the absent intent is certain
and comes first, the others have score zero. -/
theorem c40_no_features (ops : FloatOps ℚ) (env : FeatEnv) (o : HashOrd) (c : Classifier) (input : Text)
    (w : World) (wl : Option (List Text)) (h2 : 2 ≤ c.intentList.length) (hc : ¬ c.Scores input) :
    ∃ out, (c.getIntentsWithWhitelist ops env o input wl).run w = .ok out ∧
      (out.map IntentResult.name).Perm c.intentList ∧ out.Pairwise (fun a b => b.score ≤ a.score) ∧
      ∀ r ∈ out, (r.name = none → r.score = 1) ∧ (r.name ≠ none → r.score = 0) := by
  refine ⟨Classifier.getIntentsWithWhitelist.blank c, ?_, ?_, sortDesc_pairwise _ _, ?_⟩
  · unfold Classifier.getIntentsWithWhitelist
    rw [if_neg (by omega)]
    by_cases hin : input = []
    · rw [if_pos hin]
      rfl
    · rw [if_neg hin]
      cases hf : c.featurizer with
      | none => rfl
      | some f =>
        cases hm : c.logreg with
        | none => rfl
        | some m => exact absurd ⟨h2, hin, by rw [hf]; simp, by rw [hm]; simp⟩ hc
  · unfold Classifier.getIntentsWithWhitelist.blank
    refine ((sortDesc_perm _ _).map _).trans ?_
    rw [List.map_map]
    exact List.Perm.of_eq (List.map_id _)
  · intro r hr
    unfold Classifier.getIntentsWithWhitelist.blank at hr
    obtain ⟨n, -, rfl⟩ := List.mem_map.1 ((mem_sortDesc _).1 hr)
    constructor
    · intro h
      exact if_pos h
    · intro h
      exact if_neg h

/-- One entry per intent, when there are as many scores as intents (or one row and two intents). -/
theorem c40_one_score_per_intent (ops : FloatOps ℚ) (env : FeatEnv) (o : HashOrd) (c : Classifier) (input : Text)
    (hc : c.Scores input) (w : World) (out : List IntentResult)
    (hdim : ∀ m, c.logreg = some m → m.columns.length = c.intentList.length ∨
      (m.columns.length = 1 ∧ c.intentList.length = 2))
    (h : (c.getIntents ops env o input).run w = .ok out) :
    (out.map IntentResult.name).Perm c.intentList := by
  obtain ⟨f, m, features, scores, _, h2, _, h4, hp⟩ := c40_scores ops env o c input hc w out h
  have hlen : scores.length = c.intentList.length := by
    obtain ⟨_, hr1, hr2⟩ := run_ok h4
    rcases hdim m h2 with hd | ⟨hd, hd'⟩
    · have hge := hc.intents
      rw [hr1 (by omega), List.length_map, hd]
    · obtain ⟨col, hcol⟩ := List.length_eq_one_iff.1 hd
      rw [hr2 col hcol, hd']
      rfl
  refine (hp.map IntentResult.name).trans ?_
  have hz : ∀ (l : List (Option Text)) (s : List ℚ), s.length = l.length →
      (List.zipWith IntentResult.mk l s).map IntentResult.name = l := by
    intro l
    induction l with
    | nil => intro s _; rfl
    | cons a l ih =>
      intro s hs
      cases s with
      | nil => simp at hs
      | cons b s =>
        simp only [List.length_cons, Nat.add_right_cancel_iff] at hs
        simp [ih s hs]
  rw [hz _ _ hlen]

/-! ### C54 -/

/-- What the probabilistic parser answers when the classifier answers `res`. -/
theorem c54_parse (env : ProbEnv) (p : Prob) (o : HashOrd) (w : World) (input : Text)
    (wl : Option (List Text)) (res : IntentResult)
    (hres : (p.classifier.getIntent env.ops env.feat o input wl).run w = .ok res) :
    (res.name = none → (p.parse env o input wl).run w = .ok ⟨res, []⟩) ∧
    (∀ i filler, res.name = some i → p.slotFillers.get i = some filler →
      (p.parse env o input wl).run w
        = ((filler.getSlots env.codec input).run w).bind fun slots => .ok ⟨res, slots⟩) ∧
    (∀ i, res.name = some i → p.slotFillers.get i = none →
      (p.parse env o input wl).run w = .err (.unknownIntent i)) := by
  have hp : (p.parse env o input wl).run w = (match res.name with
      | some name => (p.slotsOf env (.unknownIntent name) input name).bind fun slots => .ret ⟨res, slots⟩
      | none => .ret ⟨res, []⟩ : Prog InternalResult).run w := by
    unfold Prob.parse
    rw [Prog.run_bind, hres]
    rfl
  refine ⟨?_, ?_, ?_⟩
  · intro hn; rw [hp, hn]; rfl
  · intro i filler hn hf
    rw [hp, hn]
    simp only [Prob.slotsOf, hf]
    rw [Prog.run_bind]
    rfl
  · intro i hn hf
    rw [hp, hn]
    simp only [Prob.slotsOf, hf]
    rfl

/-- The parser fails when the classifier does. -/
theorem c54_classifier_fails (env : ProbEnv) (p : Prob) (o : HashOrd) (w : World) (input : Text)
    (wl : Option (List Text)) :
    (∀ e, (p.classifier.getIntent env.ops env.feat o input wl).run w = .err e →
      (p.parse env o input wl).run w = .err e) ∧
    ((p.classifier.getIntent env.ops env.feat o input wl).run w = .panic →
      (p.parse env o input wl).run w = .panic) := by
  unfold Prob.parse
  rw [Prog.run_bind]
  constructor
  · intro e h; rw [h]; rfl
  · intro h; rw [h]; rfl

/-- Conversely, a successful answer of the parser: the classifier's intent, and no slots or the slots of
that intent's own slot filler. -/
theorem c54_answer (env : ProbEnv) (p : Prob) (o : HashOrd) (w : World) (input : Text)
    (wl : Option (List Text)) (r : InternalResult) (h : (p.parse env o input wl).run w = .ok r) :
    (p.classifier.getIntent env.ops env.feat o input wl).run w = .ok r.intent ∧
    (r.intent.name = none → r.slots = []) ∧
    (∀ i, r.intent.name = some i → ∃ filler, p.slotFillers.get i = some filler ∧
      (filler.getSlots env.codec input).run w = .ok r.slots) := by
  have hc := c54_classifier_fails env p o w input wl
  cases hres : (p.classifier.getIntent env.ops env.feat o input wl).run w with
  | err e => rw [hc.1 e hres] at h; cases h
  | panic => rw [hc.2 hres] at h; cases h
  | ok res =>
    obtain ⟨h1, h2, h3⟩ := c54_parse env p o w input wl res hres
    cases hn : res.name with
    | none =>
      rw [h1 hn] at h
      cases h
      exact ⟨rfl, fun _ => rfl, fun i hi => by rw [hn] at hi; cases hi⟩
    | some i =>
      cases hf : p.slotFillers.get i with
      | none => rw [h3 i hn hf] at h; cases h
      | some filler =>
        rw [h2 i filler hn hf, Outcome.bind_ok] at h
        obtain ⟨slots, hs, h⟩ := h
        cases h
        refine ⟨rfl, ?_, ?_⟩
        · intro (h : res.name = none)
          rw [hn] at h
          cases h
        intro j (hj : res.name = some j)
        rw [hn] at hj
        cases hj
        exact ⟨filler, hf, hs⟩

/-- `get_intents` is the classifier's ranking without a filter. -/
theorem c54_get_intents (env : ProbEnv) (p : Prob) (o : HashOrd) (w : World) (input : Text) :
    (p.getIntents env o input).run w
      = (p.classifier.getIntentsWithWhitelist env.ops env.feat o input none).run w := rfl

/-! ### C09 -/

/-- `get_slots` asks the slot filler of the intent; an intent without one is an error. -/
theorem c09_probabilistic (env : ProbEnv) (p : Prob) (o : HashOrd) (w : World) (input intent : Text) :
    (∀ filler, p.slotFillers.get intent = some filler →
      (p.getSlots env o input intent).run w = (filler.getSlots env.codec input).run w) ∧
    (intent ∉ p.slotFillers.keys → ∃ e, (p.getSlots env o input intent).run w = .err e) := by
  unfold Prob.getSlots Prob.slotsOf
  constructor
  · intro filler hf; rw [hf]
  · intro h; rw [Map.get_none_iff.2 h]; exact ⟨_, rfl⟩

/-! ### C01 -/

theorem blank_head (c : Classifier) (h : none ∈ c.intentList) :
    ∃ r rest, Classifier.getIntentsWithWhitelist.blank c = r :: rest ∧ r.name = none := by
  unfold Classifier.getIntentsWithWhitelist.blank
  have hmem : (⟨none, 1⟩ : IntentResult) ∈ sortDesc IntentResult.score
      (c.intentList.map fun n => (⟨n, if n = none then 1 else 0⟩ : IntentResult)) :=
    (mem_sortDesc _).2 (List.mem_map.2 ⟨none, h, by simp⟩)
  cases hl : sortDesc IntentResult.score
      (c.intentList.map fun n => (⟨n, if n = none then 1 else 0⟩ : IntentResult)) with
  | nil => rw [hl] at hmem; simp at hmem
  | cons r rest =>
    refine ⟨r, rest, rfl, ?_⟩
    have hs := sortDesc_pairwise IntentResult.score
      (c.intentList.map fun n => (⟨n, if n = none then 1 else 0⟩ : IntentResult))
    rw [hl] at hs hmem
    have hr : r ∈ c.intentList.map fun n => (⟨n, if n = none then 1 else 0⟩ : IntentResult) :=
      (mem_sortDesc IntentResult.score).1 (by rw [hl]; simp)
    obtain ⟨n, _, rfl⟩ := List.mem_map.1 hr
    rcases List.mem_cons.1 hmem with h | h
    · exact (congrArg IntentResult.name h).symm
    · have := (List.pairwise_cons.1 hs).1 _ h
      by_contra hne
      simp only at hne this
      rw [if_neg hne] at this
      norm_num at this

/-- The classifier returns a permitted intent or none, if it can compute scores for the input, has the absent
intent in its list, or has no intents at all. -/
theorem classifier_honours_filter (ops : FloatOps ℚ) (env : FeatEnv) (o : HashOrd) (c : Classifier) (w : World)
    (input : Text) (hp : c.Fair ∨ c.Scores input) (filter : List Text) (r : IntentResult)
    (hc : (c.getIntent ops env o input (some filter)).run w = .ok r) : ∀ i, r.name = some i → i ∈ filter := by
  intro i hi
  by_cases hs : c.Scores input
  · unfold Classifier.getIntent at hc
    rw [Prog.run_bind, Outcome.bind_ok] at hc
    obtain ⟨rs, hrs, hc⟩ := hc
    simp only [Prog.run_ret, Outcome.ok.injEq] at hc
    obtain ⟨_, _, _, scores, _, _, _, _, rfl, _⟩ := classifier_run hs hrs
    cases hr : c.rank scores (some filter) with
    | nil => rw [hr] at hc; rw [← hc] at hi; cases hi
    | cons r rest =>
      rw [hr] at hc
      simp only at hc
      have hmem : r ∈ c.rank scores (some filter) := by rw [hr]; simp
      unfold Classifier.rank at hmem
      rw [mem_sortDesc, List.mem_filter] at hmem
      have hk := hmem.2
      unfold keptByWhitelist at hk
      rw [hc, hi] at hk
      simpa using hk
  · have hf := hp.resolve_right hs
    by_cases h2 : 2 ≤ c.intentList.length
    · have hnone : none ∈ c.intentList := hf.resolve_left (by intro h; rw [h] at h2; simp at h2)
      have hblank : (c.getIntentsWithWhitelist ops env o input (some filter)).run w
          = .ok (Classifier.getIntentsWithWhitelist.blank c) := by
        unfold Classifier.getIntentsWithWhitelist
        rw [if_neg (by omega)]
        split
        · rfl
        · rename_i hin
          cases hf : c.featurizer with
          | none => rfl
          | some f =>
            cases hm : c.logreg with
            | none => rfl
            | some m => exact absurd ⟨h2, hin, by rw [hf]; simp, by rw [hm]; simp⟩ hs
      obtain ⟨r', rest, hb, hr⟩ := blank_head c hnone
      have := c40_first ops env o c input w (some filter) _ hblank
      rw [hc, hb] at this
      simp only [List.head?_cons, Option.getD_some, Outcome.ok.injEq] at this
      rw [this, hr] at hi
      cases hi
    · have hnil : c.intentList.head?.join = none := by
        rcases hf with h | h
        · rw [h]; rfl
        · match hl : c.intentList with
          | [] => rfl
          | [x] => rw [hl, List.mem_singleton] at h; rw [← h]; rfl
          | _ :: _ :: _ => rw [hl] at h2; simp at h2
      unfold Classifier.getIntent Classifier.getIntentsWithWhitelist at hc
      rw [if_pos (by omega), hnil] at hc
      cases hc
      cases hi

/-- The probabilistic parser returns a permitted intent or none, if it can compute scores for the input
or has the absent intent in its list.  Missing from the full statement: see the counterexamples. -/
theorem c01_probabilistic_partial (env : ProbEnv) (p : Prob) (o : HashOrd) (w : World) (input : Text)
    (hp : p.classifier.Fair ∨ p.classifier.Scores input)
    (filter : List Text) (out : InternalResult) (h : (p.parse env o input (some filter)).run w = .ok out) :
    ∀ i, out.intent.name = some i → i ∈ filter := by
  obtain ⟨hc, _, _⟩ := c54_answer env p o w input _ out h
  exact classifier_honours_filter env.ops env.feat o p.classifier w input hp filter out.intent hc

/-- Exactly how far the filter can be trusted: a classifier respects all filters on all inputs if and only if its
list of intents is empty or contains the absent intent. -/
theorem c01_classifier_exact (ops : FloatOps ℚ) (env : FeatEnv) (c : Classifier) (o : HashOrd) (w : World) :
    (∀ (input : Text) (filter : List Text) (r : IntentResult),
      (c.getIntent ops env o input (some filter)).run w = .ok r → ∀ i, r.name = some i → i ∈ filter) ↔
    (c.intentList = [] ∨ none ∈ c.intentList) := by
  constructor
  · intro h
    by_contra hn
    have hn1 : c.intentList ≠ [] := fun h => hn (.inl h)
    have hn2 : none ∉ c.intentList := fun h => hn (.inr h)
    have key : ∃ i s, (c.getIntent ops env o [] (some [])).run w = .ok ⟨some i, s⟩ := by
      by_cases h2 : 2 ≤ c.intentList.length
      · obtain ⟨out, hout, hperm, _, _⟩ := c40_no_features ops env o c [] w (some []) h2
          (fun hs => hs.input rfl)
        have := c40_first ops env o c [] w (some []) out hout
        match out, hperm, this with
        | [], hperm, _ => exact absurd (List.Perm.nil_eq hperm).symm hn1
        | r :: rest, hperm, this =>
          obtain ⟨name, s⟩ := r
          cases name with
          | none => exact absurd (hperm.mem_iff.1 (by simp)) hn2
          | some i => exact ⟨i, s, this⟩
      · match hl : c.intentList with
        | [] => exact absurd hl hn1
        | [none] => rw [hl] at hn2; simp at hn2
        | [some i] =>
          have := c40_first ops env o c [] w (some []) _
            ((c40_certain ops env o c [] w (some [])).2 _ hl)
          exact ⟨i, 1, this⟩
        | _ :: _ :: _ => rw [hl] at h2; simp at h2
    obtain ⟨i, s, hk⟩ := key
    have := h _ _ _ hk i rfl
    simp at this
  · intro hf input filter r hr
    exact classifier_honours_filter ops env o c w input (.inl hf) filter r hr

/-- A classifier with a single intent returns it whatever the filter. -/
theorem c01_single_intent_counterexample (ops : FloatOps ℚ) (env : FeatEnv) (o : HashOrd) (w : World)
    (intent : Text) (input : Text) (filter : List Text) :
    (Classifier.getIntent ops env o ⟨[some intent], none, none⟩ input (some filter)).run w
      = .ok ⟨some intent, 1⟩ := rfl

/-- On an empty input, a classifier without the absent intent returns its first intent whatever the
filter. -/
theorem c01_empty_input_counterexample (ops : FloatOps ℚ) (env : FeatEnv) (o : HashOrd) (w : World)
    (f : Option (Featurizer ℚ)) (m : Option (LogReg ℚ)) (filter : List Text) :
    (Classifier.getIntent ops env o ⟨[some ['a'], some ['b']], f, m⟩ [] (some filter)).run w
      = .ok ⟨some ['a'], 0⟩ := rfl

/-! ### Concrete cases -/

/-- A featurizer, a regression and a parser for the examples: one word, two intents and the absent one. -/
def demoFeatEnv : FeatEnv := ⟨⟨fun _ => none, fun _ => none, fun _ => []⟩, fun _ _ => [], [], false⟩

/-- Single words; nothing is changed by normalisation. -/
def singleFns : TextFns := ⟨id, id, id, id, fun t => [⟨t, ⟨0, byteLen t⟩, ⟨0, t.length⟩⟩], fun t => [t],
  fun t => [t], fun _ => 0⟩

def demoClassifier : Classifier where
  intentList := [some ['a'], some ['b'], none]
  featurizer := some ⟨⟨singleFns, [], [(['x'], 0), (['y'], 1)], [2, 3], none, none⟩, none⟩
  logreg := some ⟨2, [[0, 1, 0], [0, 0, 1], [-3, 0, 0]]⟩

def demoWorld0 : World := ⟨fun _ _ _ => .ok [], fun _ _ _ => .ok []⟩

example : demoClassifier.Scores ['x'] := ⟨by decide, by decide, by decide +kernel, by decide +kernel⟩

example : demoClassifier.Fair := .inr (by decide)

example : (demoClassifier.getIntents crudeOps demoFeatEnv HashOrd.insertion ['x']).run demoWorld0
    = .ok [⟨some ['a'], 2/3⟩, ⟨some ['b'], 1/2⟩, ⟨none, 1/5⟩] := by decide +kernel

example : (demoClassifier.getIntent crudeOps demoFeatEnv HashOrd.insertion ['x'] (some [['b']])).run demoWorld0
    = .ok ⟨some ['b'], 1/2⟩ := by decide +kernel

/-- The slot filler of `b` is an untrained one. -/
def demoProb : Prob := ⟨demoClassifier, [(['b'], ⟨singleFns, .bio, none, none, []⟩)]⟩

def demoProbEnv : ProbEnv := ⟨crudeOps, demoFeatEnv, ⟨id, .ok⟩⟩

example : (demoProb.parse demoProbEnv HashOrd.insertion ['x'] (some [['b']])).run demoWorld0
    = .ok ⟨⟨some ['b'], 1/2⟩, []⟩ := by decide +kernel

example : (demoProb.parse demoProbEnv HashOrd.insertion ['x'] none).run demoWorld0
    = .err (.unknownIntent ['a']) := by decide +kernel

example : (demoProb.parse demoProbEnv HashOrd.insertion [] (some [['b']])).run demoWorld0
    = .ok ⟨⟨none, 1⟩, []⟩ := by decide +kernel

end Snips
