import Verif.Proofs.LetterCaseEngine
import Verif.Props.C63_Reproducible
import Verif.Props.C01_Engine
import Verif.Spec.RuleDemo

/-! # C108: the case of letters -/

namespace Snips

variable {same : Char → Char → Prop}

/-- Both entity parsers look at the lower-cased text only: what they find is the same. -/
theorem c108_world (x : Ext) (hx : ∀ {t t'}, SameLetters same t t' → x.lower t = x.lower t') (time : Nat) :
    (x.world time).CaseBlind same :=
  ⟨fun h kinds n => by simp only [Ext.world, hx h], fun h kinds n => by simp only [Ext.world, hx h]⟩

/-- The same question about two texts that differ in the case of letters: the engine answers with the same intents and scores and
the same slots at the same places, their raw values being read off the texts; or it fails with the same error; or it panics for
both.  The parsers may be of any kind, but must have no word pairs and no shape features (see the counterexamples). -/
theorem c108_call_partial (hr : LetterRel same) (dataset : DatasetMetadata) (names : KindNames) (ps : List ParserModel)
    (hps : ∀ m ∈ ps, m.CaseBlind same) {call call' : EngineCall} (hc : CasedCall same call call') (hb : call.Blind) (w : World)
    (hw : w.CaseBlind same) :
    SameOutcome (CasedAnswer same) (((Engine.ofParsers dataset names ps).code call).run w)
      (((Engine.ofParsers dataset names ps).code call').run w) := by
  refine (code_cased hr ?_ hc hb).run hw
  intro p hp
  obtain ⟨m, hm, rfl⟩ := List.mem_map.1 hp
  exact parser_cased hr (hps m hm)

/-- The same with the caches: any sequence of questions, and the same with other letters.  The caches end up the same too, so that
later questions cannot tell which letters the earlier ones had. -/
theorem c108_history_partial (hr : LetterRel same) (dataset : DatasetMetadata) (names : KindNames) (ps : List ParserModel)
    (hps : ∀ m ∈ ps, m.CaseBlind same) (x : Ext) (hx : ∀ {t t'}, SameLetters same t t' → x.lower t = x.lower t')
    (calls calls' : List (Nat × EngineCall))
    (hc : List.Forall₂ (fun a b => b.1 = a.1 ∧ CasedCall same a.2 b.2) calls calls') (hb : ∀ c ∈ calls, c.2.Blind) (caches : Caches) :
    let before := runHistory x (calls.map fun c => (c.1, (Engine.ofParsers dataset names ps).code c.2)) caches
    let after := runHistory x (calls'.map fun c => (c.1, (Engine.ofParsers dataset names ps).code c.2)) caches
    List.Forall₂ (SameOutcome (CasedAnswer same)) before.1 after.1 ∧ after.2 = before.2 := by
  refine history_cased hx ?_ caches
  rw [List.forall₂_map_left_iff, List.forall₂_map_right_iff]
  induction hc with
  | nil => exact .nil
  | cons h _ ih =>
    refine .cons ⟨h.1, code_cased hr ?_ h.2 (hb _ List.mem_cons_self)⟩ (ih fun c hc => hb c (List.mem_cons_of_mem _ hc))
    intro p hp
    obtain ⟨m, hm, rfl⟩ := List.mem_map.1 hp
    exact parser_cased hr (hps m hm)

/-- Whatever the two iteration orders of hash maps are, for parsers whose answers do not depend on them (C63). -/
theorem c108_parse_partial (hr : LetterRel same) (dataset : DatasetMetadata) (names : KindNames) (ps : List ParserModel)
    (hps : ∀ m ∈ ps, m.CaseBlind same) (o o' : HashOrd) (w : World) (hw : w.CaseBlind same) {t t' : Text}
    (h : SameLetters same t t') (hrep : ∀ m ∈ ps, m.Reproducible w t) (hrep' : ∀ m ∈ ps, m.Reproducible w t')
    (whitelist blacklist : Option (List Text)) (ns : Nat) (res : ParseResult)
    (hres : ((Engine.ofParsers dataset names ps).parseWithAlternatives o t whitelist blacklist 0 ns).run w = .ok res) :
    ∃ res', ((Engine.ofParsers dataset names ps).parseWithAlternatives o' t' whitelist blacklist 0 ns).run w = .ok res' ∧
      CasedResult same res res' := by
  have h1 := c63_parse dataset names ps o HashOrd.insertion w t hrep whitelist blacklist ns res hres
  have h2 := (parseWith_cased (e := Engine.ofParsers dataset names ps) (fun p hp => by
    obtain ⟨m, hm, rfl⟩ := List.mem_map.1 hp
    exact parser_cased hr (hps m hm)) (o := HashOrd.insertion) (fun _ _ _ _ _ => rfl) h whitelist blacklist 0 ns).run hw
  rw [h1] at h2
  revert h2
  generalize hout : ((Engine.ofParsers dataset names ps).parseWithAlternatives HashOrd.insertion t' whitelist blacklist 0 ns).run w = out
  intro h2
  cases h2 with
  | ok h2 => exact ⟨_, c63_parse dataset names ps HashOrd.insertion o' w t' hrep' whitelist blacklist ns _ hout, h2⟩

/-- For engines of rule-based parsers nothing is left out: it is enough that text functions and regular expressions ignore case. -/
theorem c108_rules (hr : LetterRel same) (dataset : DatasetMetadata) (names : KindNames) (ps : List ParserModel)
    (hps : ∀ m ∈ ps, (∃ env p, m = .lookup env p ∧ env.fns.CaseBlind same) ∨
      ∃ env p, m = .deterministic env p ∧ env.fns.CaseBlind same ∧ ∀ e ∈ p.regexes, ∀ r ∈ e.2, r.CaseBlind same)
    {call call' : EngineCall} (hc : CasedCall same call call') (hb : call.Blind) (w : World) (hw : w.CaseBlind same) :
    SameOutcome (CasedAnswer same) (((Engine.ofParsers dataset names ps).code call).run w)
      (((Engine.ofParsers dataset names ps).code call').run w) := by
  refine c108_call_partial hr dataset names ps (fun m hm => ?_) hc hb w hw
  rcases hps m hm with ⟨env, p, rfl, hf⟩ | ⟨env, p, rfl, hf, hre⟩
  · exact hf
  · exact ⟨hf, hre⟩

/-! ### Letters of ASCII and the text functions of the examples -/

theorem toLower_cases (c : Char) : c.toLower = c ∧ ¬ ('A' ≤ c ∧ c ≤ 'Z') ∨ ('A' ≤ c ∧ c ≤ 'Z') ∧ c.toLower.val = c.val + 32 := by
  unfold Char.toLower
  split
  · next h => exact Or.inr ⟨⟨h.1, h.2⟩, rfl⟩
  · next h => exact Or.inl ⟨rfl, fun h' => h ⟨h'.1, h'.2⟩⟩

theorem asciiCase_rel : LetterRel asciiCase := by
  have hsize : ∀ c : Char, c.toLower.utf8Size = c.utf8Size := by
    intro c
    rcases toLower_cases c with ⟨h, _⟩ | ⟨⟨h1, h2⟩, h⟩
    · rw [h]
    · unfold Char.utf8Size
      rw [Char.le_def, UInt32.le_iff_toNat_le] at h1 h2
      have e1 : 'A'.val.toNat = 65 := rfl
      have e2 : 'Z'.val.toNat = 90 := rfl
      have e3 : (c.val + 32).toNat = c.val.toNat + 32 := by
        rw [UInt32.toNat_add]
        exact Nat.mod_eq_of_lt (by show _ + 32 < 2 ^ 32; omega)
      simp only [h]
      rw [if_pos (UInt32.le_iff_toNat_le.2 (by rw [e3]; show _ ≤ 127; omega)),
        if_pos (UInt32.le_iff_toNat_le.2 (by show _ ≤ 127; omega))]
  have hdigit : ∀ c : Char, c.toLower.isDigit = c.isDigit := by
    intro c
    rcases toLower_cases c with ⟨h, _⟩ | ⟨⟨h1, h2⟩, h⟩
    · rw [h]
    · unfold Char.isDigit
      rw [Char.le_def, UInt32.le_iff_toNat_le] at h1 h2
      have e1 : 'A'.val.toNat = 65 := rfl
      have e2 : 'Z'.val.toNat = 90 := rfl
      have e3 : (c.val + 32).toNat = c.val.toNat + 32 := by
        rw [UInt32.toNat_add]
        exact Nat.mod_eq_of_lt (by show _ + 32 < 2 ^ 32; omega)
      have e4 : '9'.val.toNat = 57 := rfl
      have n1 : ¬ c.toLower.val ≤ '9'.val := fun hle => by
        rw [h, UInt32.le_iff_toNat_le] at hle
        omega
      have n2 : ¬ c.val ≤ '9'.val := fun hle => by
        rw [UInt32.le_iff_toNat_le] at hle
        omega
      change (_ && decide (c.toLower.val ≤ '9'.val)) = (_ && decide (c.val ≤ '9'.val))
      rw [decide_eq_false n1, decide_eq_false n2, Bool.and_false, Bool.and_false]
  refine ⟨fun _ => rfl, fun {c c'} h => ?_, fun {c c'} h => ?_⟩
  · rw [← hsize c, ← hsize c', show c.toLower = c'.toLower from h]
  · rw [← hdigit c, ← hdigit c', show c.toLower = c'.toLower from h]

theorem asciiCase_space {c c' : Char} (h : asciiCase c c') : (c == ' ') = (c' == ' ') := by
  have hs : ∀ c : Char, (c.toLower == ' ') = (c == ' ') := by
    intro c
    rcases toLower_cases c with ⟨h, _⟩ | ⟨⟨h1, h2⟩, h⟩
    · rw [h]
    · rw [Char.le_def, UInt32.le_iff_toNat_le] at h1 h2
      have e1 : 'A'.val.toNat = 65 := rfl
      have e2 : 'Z'.val.toNat = 90 := rfl
      have e5 : ' '.val.toNat = 32 := rfl
      have e3 : (c.val + 32).toNat = c.val.toNat + 32 := by
        rw [UInt32.toNat_add]
        exact Nat.mod_eq_of_lt (by show _ + 32 < 2 ^ 32; omega)
      have n1 : c.toLower ≠ ' ' := fun he => by
        have := congrArg (fun c : Char => c.val.toNat) he
        simp only [h, e3] at this
        omega
      have n2 : c ≠ ' ' := fun he => by
        have : c.val.toNat = ' '.val.toNat := congrArg (fun c : Char => c.val.toNat) he
        omega
      simp [n1, n2]
  rw [← hs c, ← hs c', show c.toLower = c'.toLower from h]

theorem splitOn_cased {t t' : Text} (h : SameLetters asciiCase t t') :
    List.Forall₂ (SameLetters asciiCase) (t.splitOn ' ') (t'.splitOn ' ') := by
  unfold List.splitOn
  induction h with
  | nil => exact .cons .nil .nil
  | @cons c c' l l' hc _ ih =>
    rw [List.splitOnP_cons_eq_if_modifyHead, List.splitOnP_cons_eq_if_modifyHead, asciiCase_space hc]
    split
    · exact .cons .nil ih
    · revert ih
      generalize l.splitOnP (fun x => x == ' ') = m
      generalize l'.splitOnP (fun x => x == ' ') = m'
      intro ih
      cases ih with
      | nil => exact .nil
      | cons h1 h2 => exact .cons (.cons hc h1) h2

theorem spaceTokens_cased {l l' : List Text} (h : List.Forall₂ (SameLetters asciiCase) l l') : ∀ cur,
    List.Forall₂ (SameToken asciiCase) (spaceTokens cur l) (spaceTokens cur l') := by
  induction h with
  | nil => exact fun _ => .nil
  | cons hw _ ih =>
    intro cur
    simp only [spaceTokens, hw.length]
    exact .cons ⟨hw, rfl, rfl⟩ (ih _)

/-- The text functions of the examples ignore the case of the letters `a` to `z`. -/
theorem ruleFns_cased : ruleFns.CaseBlind asciiCase where
  lower h := map_eq_of_forall₂ (fun _ _ hab => hab) h
  normalize h := map_eq_of_forall₂ (fun _ _ hab => hab) h
  tokenize h := filter_forall₂ (fun _ _ hab => decide_eq_decide.2 (not_congr (iff_of_eq (nil_iff_forall₂ hab.value)))) (spaceTokens_cased (splitOn_cased h) 0)
  tokenizeLight h := filter_forall₂ (fun _ _ hab => decide_eq_decide.2 (not_congr (iff_of_eq (nil_iff_forall₂ hab)))) (splitOn_cased h)

/-- A regular expression compiled to ignore case. -/
def Regex.ignoreCase (r : Regex) : Regex :=
  { r with isMatch := fun t => r.isMatch (ruleFns.lower t), capturesIter := fun t => r.capturesIter (ruleFns.lower t) }

theorem ignoreCase_cased (r : Regex) : r.ignoreCase.CaseBlind asciiCase :=
  ⟨fun h => by simp only [Regex.ignoreCase, ruleFns_cased.lower h], fun h => by simp only [Regex.ignoreCase, ruleFns_cased.lower h]⟩

/-- The deterministic parser of the examples with regular expressions that ignore case. -/
def casedDet : Det :=
  { demoDet with regexes := [("brew".toList, [(literalRegex "g0_1".toList "%snips/number%".toList).ignoreCase]),
    ("idiom".toList, [(plainRegex "two tea".toList).ignoreCase]), ("halt".toList, [(plainRegex "stop".toList).ignoreCase])] }

/-- The entity parsers of the examples, on lower-cased texts. -/
def casedWorld : World :=
  ⟨fun s => ruleWorld.builtin (ruleFns.lower s), fun s => ruleWorld.custom (ruleFns.lower s)⟩

theorem casedWorld_blind : casedWorld.CaseBlind asciiCase :=
  ⟨fun h kinds n => by simp only [casedWorld, ruleFns_cased.lower h], fun h kinds n => by simp only [casedWorld, ruleFns_cased.lower h]⟩

/-- `c108_rules` with the rule-based parsers of the examples: `Make the TWO tea` is understood like `make the two tea`. -/
example : (∀ m ∈ [ParserModel.deterministic demoEnv casedDet, .lookup demoEnv demoLookup],
      (∃ env p, m = .lookup env p ∧ env.fns.CaseBlind asciiCase) ∨
      ∃ env p, m = .deterministic env p ∧ env.fns.CaseBlind asciiCase ∧ ∀ e ∈ p.regexes, ∀ r ∈ e.2, r.CaseBlind asciiCase) ∧
    SameLetters asciiCase "Make the TWO tea".toList "make the two tea".toList := by
  refine ⟨?_, by unfold SameLetters asciiCase; decide⟩
  have hf : demoEnv.fns.CaseBlind asciiCase := ⟨ruleFns_cased.lower, ruleFns_cased.normalize, ruleFns_cased.tokenize, ruleFns_cased.tokenizeLight⟩
  intro m hm
  simp only [List.mem_cons, List.not_mem_nil, or_false] at hm
  rcases hm with rfl | rfl
  · refine Or.inr ⟨_, _, rfl, hf, fun e he r hre => ?_⟩
    simp only [casedDet, List.mem_cons, List.not_mem_nil, or_false] at he
    rcases he with rfl | rfl | rfl <;> (simp only [List.mem_singleton] at hre; subst hre; exact ignoreCase_cased _)
  · exact Or.inl ⟨_, _, rfl, hf⟩

example :
    let e := Engine.ofParsers ⟨[("drink".toList, false)], [("brew".toList, []), ("idiom".toList, []), ("halt".toList, [])]⟩ demoKinds
      [ParserModel.deterministic demoEnv casedDet, .lookup demoEnv demoLookup]
    (e.parseWithAlternatives HashOrd.insertion "Make the TWO tea".toList none (some ["idiom".toList]) 0 0).run casedWorld
      = .ok ⟨"Make the TWO tea".toList, ⟨some "brew".toList, 1⟩,
        [⟨"TWO".toList, .builtin 2, [], ⟨9, 12⟩, "snips/number".toList, "count".toList⟩], []⟩ ∧
    (e.parseWithAlternatives HashOrd.insertion "make the two tea".toList none (some ["idiom".toList]) 0 0).run casedWorld
      = .ok ⟨"make the two tea".toList, ⟨some "brew".toList, 1⟩,
        [⟨"two".toList, .builtin 2, [], ⟨9, 12⟩, "snips/number".toList, "count".toList⟩], []⟩ := by
  decide +kernel

/-! ### Word pairs and shapes -/

/-- A classifier whose only feature with a weight is the word pair `turn`, `on`. -/
def pairClassifier : Classifier where
  intentList := [none, some "lights".toList]
  featurizer := some ⟨⟨ruleFns, [], [("turn".toList, 0)], [1], none, none⟩,
    some ⟨ruleFns, [], [(("turn".toList, "on".toList), 0)], false, none, true, none⟩⟩
  logreg := some ⟨2, [[0, 0, 1]]⟩

/-- The slot filler of an intent without slots. -/
def noSlotFiller : SlotFiller := ⟨ruleFns, .bio, none, none, []⟩

/-- Word pairs are compared as they are written (featurizer.rs:313-348, 356-381: no normalisation).  With a word pair among its
features an engine finds an intent in `turn on` and none in `Turn on`. -/
theorem c108_pairs_counterexample :
    let e := Engine.ofParsers ⟨[], [("lights".toList, [])]⟩ demoKinds
      [.probabilistic demoEngineEnv ⟨pairClassifier, [("lights".toList, noSlotFiller)]⟩]
    SameLetters asciiCase "turn on".toList "Turn on".toList ∧ noSlotFiller.CaseBlind asciiCase ∧ demoEngineEnv.feat.CaseBlind asciiCase ∧
    (∀ f, pairClassifier.featurizer = some f → f.tfidf.fns.CaseBlind asciiCase) ∧
    (e.parse HashOrd.insertion "turn on".toList none none).run casedWorld
      = .ok ⟨"turn on".toList, ⟨some "lights".toList, 1⟩, [], []⟩ ∧
    (e.parse HashOrd.insertion "Turn on".toList none none).run casedWorld = .ok ⟨"Turn on".toList, ⟨none, 1 / 2⟩, [], []⟩ := by
  refine ⟨by unfold SameLetters asciiCase; decide, ⟨ruleFns_cased, fun os hos => by cases hos⟩, fun _ _ => .nil, ?_, by decide +kernel,
    by decide +kernel⟩
  intro f hf
  cases hf
  exact ruleFns_cased

/-- The same classifier without the word pair meets the hypotheses of `c108_call_partial`, and finds no difference. -/
example :
    let c : Classifier := ⟨pairClassifier.intentList, some ⟨⟨ruleFns, [], [("turn".toList, 0)], [1], none, none⟩, none⟩, some ⟨1, [[0, 1]]⟩⟩
    (ParserModel.probabilistic demoEngineEnv ⟨c, [("lights".toList, noSlotFiller)]⟩).CaseBlind asciiCase ∧
    ((Engine.ofParsers ⟨[], [("lights".toList, [])]⟩ demoKinds
      [.probabilistic demoEngineEnv ⟨c, [("lights".toList, noSlotFiller)]⟩]).parse HashOrd.insertion "Turn ON".toList none none).run casedWorld
      = .ok ⟨"Turn ON".toList, ⟨some "lights".toList, 1⟩, [], []⟩ := by
  refine ⟨⟨fun _ _ => .nil, ⟨?_, ?_⟩, ?_⟩, by decide +kernel⟩
  · intro f hf
    cases hf
    exact ruleFns_cased
  · intro f hf
    cases hf
    rfl
  · intro e he
    simp only [List.mem_singleton] at he
    subst he
    exact ⟨ruleFns_cased, fun os hos => by cases hos⟩

/-- A slot filler that marks the words in small letters. -/
def shapeFiller : SlotFiller where
  fns := { ruleFns with shape := fun t => if t.all Char.isLower then "xxx".toList else "Xxx".toList }
  scheme := .bio
  tagger := some ⟨fun fs => .ok (fs.map fun l => if l.contains ("shape_ngram_1".toList, "xxx".toList) then "B-kind".toList else "O".toList),
    .ok [], fun _ _ => .ok 0⟩
  processor := some [⟨.shapeNgram 1, [0]⟩]
  mapping := [("kind".toList, "drink".toList)]

/-- Shapes are about case, so with a shape feature the slots depend on it. -/
theorem c108_shape_counterexample :
    let e := Engine.ofParsers ⟨[("drink".toList, true)], [("brew".toList, [])]⟩ demoKinds
      [.probabilistic demoEngineEnv ⟨pairClassifier, [("brew".toList, shapeFiller)]⟩]
    SameLetters asciiCase "tea".toList "Tea".toList ∧
    (e.getSlots HashOrd.insertion "tea".toList "brew".toList).run casedWorld
      = .ok [⟨"tea".toList, .custom "tea".toList, [], ⟨0, 3⟩, "drink".toList, "kind".toList⟩] ∧
    (e.getSlots HashOrd.insertion "Tea".toList "brew".toList).run casedWorld = .ok [] :=
  ⟨by unfold SameLetters asciiCase; decide, by decide +kernel, by decide +kernel⟩

end Snips
