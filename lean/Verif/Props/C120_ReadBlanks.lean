import Verif.Spec.BlanksRead
import Verif.Proofs.BlanksClassifier
import Verif.Proofs.Safety
import Verif.Props.C119_SlotFillerBlanks

/-! C120: further blanks in a query do not change what the probabilistic parser reads in it. -/

namespace Snips

namespace Blanks

variable {x : Spot} {n : Nat}

theorem map_forall₂ {α β γ : Type} {R : α → β → Prop} {f : α → γ} {g : β → γ} (hR : ∀ a b, R a b → g b = f a)
    {l : List α} {l' : List β} (h : List.Forall₂ R l l') : l'.map g = l.map f := by
  induction h with
  | nil => rfl
  | cons hab _ ih => rw [List.map_cons, List.map_cons, hR _ _ hab, ih]

theorem builtin_run {w : World} (hm : w.SameMatches x (List.replicate n ' ')) {kinds : List Kind} {α : Type}
    {k k' : List KindMatch → Prog α} {out : α} (h : (Prog.builtinCached x.short (some kinds) k).run w = .ok out)
    (hk : ∀ bs bs', (∀ b ∈ bs, x.Beside b.range) →
      (∃ raw, w.builtin (x.long (List.replicate n ' ')) (some kinds) 0 = .ok raw ∧ bs' = raw.map BuiltinEntity.kindMatch) →
      List.Forall₂ (fun b b' : KindMatch => b'.kind = b.kind ∧ b'.range = x.moved (List.replicate n ' ') b.range) bs bs' →
      (k bs).run w = .ok out → (k' bs').run w = .ok out) :
    (Prog.builtinCached (x.long (List.replicate n ' ')) (some kinds) k').run w = .ok out := by
  simp only [Prog.run] at h ⊢
  cases hb : w.builtin x.short (some kinds) 0 with
  | ok bs =>
    rw [hb] at h
    obtain ⟨h1, bs', h2, h3⟩ := hm.builtin kinds bs hb
    rw [h2]
    refine hk _ _ ?_ ⟨bs', h2, rfl⟩ ?_ h
    · intro b hb
      obtain ⟨b', hb', rfl⟩ := List.mem_map.1 hb
      exact h1 b' hb'
    · exact List.forall₂_map_left_iff.2 (List.forall₂_map_right_iff.2 h3)
  | err e => rw [hb] at h; cases h
  | panic => rw [hb] at h; cases h

theorem custom_run {w : World} (hc : w.SameCustom x (List.replicate n ' ')) {α : Type} {k k' : List CustomEntity → Prog α}
    {out : α} (h : (Prog.custom x.short none 0 k).run w = .ok out)
    (hk : ∀ cs cs', (∀ c ∈ cs, x.Beside c.range) → w.custom (x.long (List.replicate n ' ')) none 0 = .ok cs' →
      List.Forall₂ (fun c c' : CustomEntity => c'.identifier = c.identifier ∧ c'.range = x.moved (List.replicate n ' ') c.range)
        cs cs' → (k cs).run w = .ok out → (k' cs').run w = .ok out) :
    (Prog.custom (x.long (List.replicate n ' ')) none 0 k').run w = .ok out := by
  simp only [Prog.run] at h ⊢
  cases hb : w.custom x.short none 0 with
  | ok cs =>
    rw [hb] at h
    obtain ⟨h1, cs', h2, h3⟩ := hc cs hb
    rw [h2]
    exact hk _ _ h1 h2 h3 h
  | err e => rw [hb] at h; cases h
  | panic => rw [hb] at h; cases h

theorem tfidf_same (ops : FloatOps ℚ) (env : FeatEnv) (o : HashOrd) {v : Tfidf ℚ} (hsplit : v.fns.SplitsAtBlanks)
    (h0 : v.fns.tokenizeLight [] = []) {w : World} (hm : w.SameMatches x (List.replicate n ' ')) {out : List ℚ}
    (h : (v.transform ops env o x.short).run w = .ok out) :
    (v.transform ops env o (x.long (List.replicate n ' '))).run w = .ok out := by
  unfold Tfidf.transform at h ⊢
  rw [words_gap hsplit h0 (long_gap x (List.replicate n ' '))]
  refine builtin_run hm h fun bs bs' _ _ hbs h => ?_
  rw [map_forall₂ (f := fun b : KindMatch => builtinFeatureName v.fns env b.kind)
    (fun (a b : KindMatch) hab => by rw [hab.1]) hbs]
  exact h

theorem cooc_same (ops : FloatOps ℚ) (env : FeatEnv) (o : HashOrd) {v : Cooc}
    (hsplit : v.fns.SplitsAtBlanks) (h0 : v.fns.tokenizeLight [] = []) {w : World}
    (hd : env.debugAssertions = true →
      ReplacementFits env.names (coocPlaceholder v.fns) w (x.long (List.replicate n ' ')) v.scope none)
    (hm : w.SameMatches x (List.replicate n ' ')) (hc : w.SameCustom x (List.replicate n ' ')) {out : List ℚ}
    (h : (v.transform ops env o x.short).run w = .ok out) :
    (v.transform ops env o (x.long (List.replicate n ' '))).run w = .ok out := by
  unfold Cooc.transform at h ⊢
  refine builtin_run hm h fun bs bs' hb hraw hbs h => custom_run hc h fun cs cs' hb' hcs' hcs h => ?_
  obtain ⟨raw, hraw, rfl⟩ := hraw
  have hsafe := replaceChecked_safe hd hraw hcs'
  have e1 : (raw.map BuiltinEntity.kindMatch).map (KindMatch.toMatched env.names)
      = (bs.map (KindMatch.toMatched env.names)).map (Inserted.mv x (List.replicate n ' ')) := by
    rw [List.map_map (l := bs)]
    exact map_forall₂ (fun a b hab => by simp [KindMatch.toMatched, Inserted.mv, hab.1, hab.2]) hbs
  have e2 : cs'.map CustomEntity.toMatched = (cs.map CustomEntity.toMatched).map (Inserted.mv x (List.replicate n ' ')) := by
    rw [List.map_map]
    exact map_forall₂ (fun a b hab => by simp [CustomEntity.toMatched, Inserted.mv, hab.1, hab.2]) hcs
  rw [e1, e2, ← List.map_append] at hsafe ⊢
  have hall : ∀ e ∈ bs.map (KindMatch.toMatched env.names) ++ cs.map CustomEntity.toMatched, x.Beside e.range := by
    intro e he
    rcases List.mem_append.1 he with he | he
    · obtain ⟨b, hb1, rfl⟩ := List.mem_map.1 he
      exact hb b hb1
    · obtain ⟨c, hc1, rfl⟩ := List.mem_map.1 he
      exact hb' c hc1
  have := enriched_words hsplit h0 (n := n) (coocPlaceholder v.fns) hall
  rw [Prog.run_ofOutcome, Outcome.bind_eq, Outcome.bind_ok] at h ⊢
  obtain ⟨en, hen, h⟩ := h
  rw [replaceChecked_value hen] at h
  unfold replaceChecked at hsafe ⊢
  split at hsafe
  · exact absurd rfl hsafe
  · next hno =>
    rw [if_neg hno]
    refine ⟨_, rfl, ?_⟩
    rw [this]
    exact h

theorem featurizer_same (ops : FloatOps ℚ) (env : FeatEnv) (o : HashOrd) {f : Featurizer ℚ}
    (hf : (f.tfidf.fns.SplitsAtBlanks ∧ f.tfidf.fns.tokenizeLight [] = []) ∧
      ∀ v, f.cooc = some v → v.fns.SplitsAtBlanks ∧ v.fns.tokenizeLight [] = [])
    {w : World} (hd : env.debugAssertions = true → ∀ v, f.cooc = some v →
      ReplacementFits env.names (coocPlaceholder v.fns) w (x.long (List.replicate n ' ')) v.scope none)
    (hm : w.SameMatches x (List.replicate n ' ')) (hc : w.SameCustom x (List.replicate n ' ')) {out : List ℚ}
    (h : (f.transform ops env o x.short).run w = .ok out) :
    (f.transform ops env o (x.long (List.replicate n ' '))).run w = .ok out := by
  unfold Featurizer.transform at h ⊢
  rw [bind_run] at h ⊢
  obtain ⟨a, h1, h2⟩ := h
  refine ⟨a, tfidf_same ops env o hf.1.1 hf.1.2 hm h1, ?_⟩
  cases hv : f.cooc with
  | none => rw [hv] at h2; exact h2
  | some v =>
    rw [hv] at h2
    simp only at h2 ⊢
    rw [bind_run] at h2 ⊢
    obtain ⟨b, h3, h4⟩ := h2
    exact ⟨b, cooc_same ops env o (hf.2 v hv).1 (hf.2 v hv).2 (fun h => hd h v hv) hm hc h3, h4⟩

end Blanks

/-- The ranking of the intents is the same with `n + 1` further blanks in front of the query, behind it, or at a blank in it, if
the query is not empty. -/
theorem c120_classifier (ops : FloatOps ℚ) (env : FeatEnv) (o : HashOrd) (c : Classifier) (hc : c.WordWise) (w : World)
    (x : Spot) (n : Nat) (hd : c.RoomFor env w (x.long (List.replicate n ' '))) (hm : w.SameMatches x (List.replicate n ' '))
    (hcu : w.SameCustom x (List.replicate n ' ')) (hx : x.short ≠ []) (whitelist : Option (List Text))
    (out : List IntentResult) (h : (c.getIntentsWithWhitelist ops env o x.short whitelist).run w = .ok out) :
    (c.getIntentsWithWhitelist ops env o (x.long (List.replicate n ' ')) whitelist).run w = .ok out := by
  have hx' : x.long (List.replicate n ' ') ≠ [] := by cases x <;> simp [Spot.long]
  unfold Classifier.getIntentsWithWhitelist at h ⊢
  rw [if_neg hx] at h
  rw [if_neg hx']
  split at h
  · next h1 => rw [if_pos h1]; exact h
  · next h1 =>
    rw [if_neg h1]
    split at h
    · next f l hf hl =>
      rw [Blanks.bind_run] at h ⊢
      obtain ⟨features, h2, h3⟩ := h
      exact ⟨features, Blanks.featurizer_same ops env o (hc f hf) (fun h => hd h f hf) hm hcu h2, h3⟩
    · exact h

/-- Probabilistic parser, `get_intents`. -/
theorem c120_get_intents (env : ProbEnv) (o : HashOrd) (p : Prob) (hc : p.classifier.WordWise) (w : World) (x : Spot) (n : Nat)
    (hd : p.classifier.RoomFor env.feat w (x.long (List.replicate n ' '))) (hm : w.SameMatches x (List.replicate n ' '))
    (hcu : w.SameCustom x (List.replicate n ' ')) (hx : x.short ≠ []) (out : List IntentResult)
    (h : (p.getIntents env o x.short).run w = .ok out) :
    (p.getIntents env o (x.long (List.replicate n ' '))).run w = .ok out :=
  c120_classifier env.ops env.feat o p.classifier hc w x n hd hm hcu hx none out h

/-- Probabilistic parser, `get_slots`: the same slots, at their places in the longer query, if none of those of the shorter
query goes across the gap. -/
theorem c120_get_slots (env : ProbEnv) (o o' : HashOrd) (p : Prob) (x : Spot) (intent : Text)
    (hs : ∀ f, p.slotFillers.get intent = some f → f.WordWise ∧ f.fns.Plain x.short) (w : World) (n : Nat)
    (hm : w.SameMatches x (List.replicate n ' ')) (out : List InternalSlot)
    (h : (p.getSlots env o x.short intent).run w = .ok out) (hb : ∀ s ∈ out, x.Beside s.charRange) :
    (p.getSlots env o' (x.long (List.replicate n ' ')) intent).run w
      = .ok (out.map (InternalSlot.moved x (List.replicate n ' '))) := by
  unfold Prob.getSlots Prob.slotsOf at h ⊢
  cases hf : p.slotFillers.get intent with
  | none => rw [hf] at h; cases h
  | some f =>
    rw [hf] at h
    obtain ⟨hw, hp⟩ := hs f hf
    exact c119_get_slots env.codec f hw.tokenized hw.bytes hw.apart w x n hm hp out h hb

/-- Probabilistic parser, `parse`: the same intent with the same probability, and the same slots at their places in the longer
query, if none of those of the shorter query goes across the gap. -/
theorem c120_parse (env : ProbEnv) (o : HashOrd) (p : Prob) (x : Spot)
    (hc : p.classifier.WordWise) (hs : ∀ e ∈ p.slotFillers, e.2.WordWise ∧ e.2.fns.Plain x.short) (w : World) (n : Nat)
    (hd : p.classifier.RoomFor env.feat w (x.long (List.replicate n ' ')))
    (hm : w.SameMatches x (List.replicate n ' ')) (hcu : w.SameCustom x (List.replicate n ' ')) (hx : x.short ≠ [])
    (whitelist : Option (List Text)) (out : InternalResult) (h : (p.parse env o x.short whitelist).run w = .ok out)
    (hb : ∀ s ∈ out.slots, x.Beside s.charRange) :
    (p.parse env o (x.long (List.replicate n ' ')) whitelist).run w = .ok (out.moved x (List.replicate n ' ')) := by
  unfold Prob.parse at h ⊢
  rw [Blanks.bind_run] at h ⊢
  obtain ⟨res, h1, h2⟩ := h
  refine ⟨res, ?_, ?_⟩
  · unfold Classifier.getIntent at h1 ⊢
    rw [Blanks.bind_run] at h1 ⊢
    obtain ⟨rs, h3, h4⟩ := h1
    exact ⟨rs, c120_classifier env.ops env.feat o p.classifier hc w x n hd hm hcu hx whitelist rs h3, h4⟩
  · split at h2
    · next name hn =>
      rw [Blanks.bind_run] at h2 ⊢
      obtain ⟨slots, h3, h4⟩ := h2
      cases h4
      refine ⟨_, ?_, rfl⟩
      unfold Prob.slotsOf at h3 ⊢
      cases hf : p.slotFillers.get name with
      | none => rw [hf] at h3; cases h3
      | some f =>
        rw [hf] at h3
        obtain ⟨hw, hp⟩ := hs _ (Map.get_some_mem hf)
        exact c119_get_slots env.codec f hw.tokenized hw.bytes hw.apart w x n hm hp slots h3 hb
    · cases h2
      rfl

/-- Not so for the empty query: the classifier says that it has no intent, without looking at it, but it looks at a blank. -/
theorem c120_empty_counterexample : ∃ (ops : FloatOps ℚ) (env : FeatEnv) (c : Classifier) (w : World) (x : Spot),
    c.WordWise ∧ w.SameMatches x [] ∧ w.SameCustom x [] ∧ env.debugAssertions = false ∧ x.short = [] ∧ x.long [] = [' '] ∧
    (c.getIntentsWithWhitelist ops env HashOrd.insertion x.short none).run w = .ok [⟨none, 1⟩, ⟨some "brew".toList, 0⟩] ∧
    (c.getIntentsWithWhitelist ops env HashOrd.insertion (x.long []) none).run w
      = .ok [⟨some "brew".toList, 4 / 5⟩, ⟨none, 1 / 5⟩] := by
  let ops : FloatOps ℚ := ⟨0, 1, (· + ·), (· - ·), (· * ·), (· / ·), (- ·), fun x => if x < 0 then 1 / 4 else 4, id,
    fun x => decide (0 < x), fun a b => (a.zipWith (· * ·) b).sum⟩
  let v : Tfidf ℚ := ⟨byteFns, [], [("make".toList, 0)], [1], none, none⟩
  refine ⟨ops, ⟨demoKinds, fun _ _ => [], [], false⟩, ⟨[none, some "brew".toList], some ⟨v, none⟩, some ⟨1, [[1, 1]]⟩⟩,
    ⟨fun _ _ _ => .ok [], fun _ _ _ => .ok []⟩, .front [], ?_, ?_, ?_, rfl, rfl, rfl, by decide +kernel, by decide +kernel⟩
  · intro f hf
    cases hf
    exact ⟨⟨demoEnv_splits, by decide +kernel⟩, fun v hv => by cases hv⟩
  · constructor
    · intro kinds bs h
      cases h
      exact ⟨by simp, [], rfl, .nil⟩
    · intro kinds bs h
      cases h
      exact ⟨by simp, [], rfl, .nil⟩
  · intro cs h
    cases h
    exact ⟨by simp, [], rfl, .nil⟩

/-! Non-vacuity: `make two tea` and `make   two tea`. -/

/-- The extractors of the examples; asked for all custom entities, they find the drinks. -/
def drinkWorld : World :=
  ⟨ruleWorld.builtin, fun s kinds n => ruleWorld.custom s (some (kinds.getD ["drink".toList])) n⟩

theorem drinkWorld_sameMatches : drinkWorld.SameMatches (.between "make".toList "two tea".toList) (List.replicate 1 ' ') :=
  ⟨ruleWorld_sameMatches_blanks.builtin, ruleWorld_sameMatches_blanks.custom⟩

theorem drinkWorld_sameCustom : drinkWorld.SameCustom (.between "make".toList "two tea".toList) (List.replicate 1 ' ') :=
  ruleWorld_sameMatches_blanks.custom ["drink".toList]

/-- `make` is for brewing, and so is a number of drinks. -/
def brewProb : Prob where
  classifier := ⟨[none, some "brew".toList], some ⟨⟨byteFns, [0], [("make".toList, 0), ("entityfeaturedrink".toList, 1)], [1, 1],
    none, none⟩, some ⟨byteFns, [0], [(("SNIPS/NUMBER".toList, "DRINK".toList), 0)], false, none, true, none⟩⟩,
    some ⟨3, [[-1, 0, 0, 2]]⟩⟩
  slotFillers := [("brew".toList, countFiller)]

def brewProbEnv : ProbEnv where
  ops := ⟨0, 1, (· + ·), (· - ·), (· * ·), (· / ·), (- ·), fun x => if x < 0 then 1 / 4 else 4, id, fun x => decide (0 < x),
    fun a b => (a.zipWith (· * ·) b).sum⟩
  feat := ⟨demoKinds, fun _ _ => [], [], false⟩
  codec := ⟨id, .ok⟩

theorem brewProb_wordWise : brewProb.classifier.WordWise := by
  intro f hf
  cases hf
  refine ⟨⟨demoEnv_splits, by decide +kernel⟩, fun v hv => ?_⟩
  cases hv
  exact ⟨demoEnv_splits, by decide +kernel⟩

example : (brewProb.parse brewProbEnv HashOrd.insertion "make   two tea".toList none).run drinkWorld
    = .ok ⟨⟨some "brew".toList, 4 / 5⟩, [⟨"two".toList, ⟨7, 10⟩, "snips/number".toList, "count".toList⟩]⟩ :=
  c120_parse brewProbEnv HashOrd.insertion brewProb (.between "make".toList "two tea".toList) brewProb_wordWise
    (by
      intro e he
      rw [List.mem_singleton.1 he]
      exact ⟨countFiller_wordWise, countFiller_plain⟩)
    drinkWorld 1 (fun h => absurd h (by decide)) drinkWorld_sameMatches drinkWorld_sameCustom (by decide) none
    ⟨⟨some "brew".toList, 4 / 5⟩, [⟨"two".toList, ⟨5, 8⟩, "snips/number".toList, "count".toList⟩]⟩ (by decide +kernel)
    (by simp [Spot.Beside])

/-- The same in a build with overflow checks. -/
example : (brewProb.parse { brewProbEnv with feat := ⟨demoKinds, fun _ _ => [], [], true⟩ } HashOrd.insertion
      "make   two tea".toList none).run drinkWorld
    = .ok ⟨⟨some "brew".toList, 4 / 5⟩, [⟨"two".toList, ⟨7, 10⟩, "snips/number".toList, "count".toList⟩]⟩ :=
  c120_parse { brewProbEnv with feat := ⟨demoKinds, fun _ _ => [], [], true⟩ } HashOrd.insertion brewProb
    (.between "make".toList "two tea".toList) brewProb_wordWise
    (by
      intro e he
      rw [List.mem_singleton.1 he]
      exact ⟨countFiller_wordWise, countFiller_plain⟩)
    drinkWorld 1
    (by
      intro _ f hf v hv
      cases hf
      cases hv
      refine ⟨by decide, fun bs cs hbs hcs => ?_⟩
      have hbs' : bs = [⟨"two".toList, ⟨7, 10⟩, .builtin 2, [], 0⟩] := by
        rw [← Outcome.ok.injEq, ← hbs]; decide +kernel
      have hcs' : cs = [⟨"tea".toList, "tea".toList, [], ⟨11, 14⟩, "drink".toList⟩] := by
        rw [← Outcome.ok.injEq, ← hcs]; decide +kernel
      subst hbs' hcs'
      simp only [Rng.NonEmpty]
      decide +kernel)
    drinkWorld_sameMatches drinkWorld_sameCustom (by decide) none
    ⟨⟨some "brew".toList, 4 / 5⟩, [⟨"two".toList, ⟨5, 8⟩, "snips/number".toList, "count".toList⟩]⟩ (by decide +kernel)
    (by simp [Spot.Beside])

end Snips
