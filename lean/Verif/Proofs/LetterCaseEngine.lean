import Verif.Proofs.LetterCaseRules

/-! The probabilistic parser and the engine on texts that differ in the case of letters. -/

namespace Snips

open Prog

variable {same : Char → Char → Prop}

/-! ### The classifier -/

section Classifier

variable (hr : LetterRel same) {t t' : Text}

theorem map_eq_of_forall₂ {α β γ : Type} {R : α → β → Prop} {f : α → γ} {g : β → γ} (h : ∀ a b, R a b → f a = g b)
    {l : List α} {l' : List β} (hl : List.Forall₂ R l l') : l.map f = l'.map g := by
  induction hl with
  | nil => rfl
  | cons hab _ ih => rw [List.map_cons, List.map_cons, ih, h _ _ hab]

theorem filterMap_eq_of_forall₂ {α β γ : Type} {R : α → β → Prop} {f : α → Option γ} {g : β → Option γ} (h : ∀ a b, R a b → f a = g b)
    {l : List α} {l' : List β} (hl : List.Forall₂ R l l') : l.filterMap f = l'.filterMap g := by
  induction hl with
  | nil => rfl
  | cons hab _ ih => rw [List.filterMap_cons, List.filterMap_cons, ih, h _ _ hab]

include hr in
theorem tfidf_cased {F : Type} (ops : FloatOps F) {env : FeatEnv} (he : env.CaseBlind same) (o : HashOrd) {v : Tfidf F}
    (hf : v.fns.CaseBlind same) (h : SameLetters same t t') :
    Prog.Cased same Eq (v.transform ops env o t) (v.transform ops env o t') := by
  have htok := hf.tokenizeLight h
  have hn : normalizeStem v.fns (v.fns.tokenizeLight t) v.stemmer = normalizeStem v.fns (v.fns.tokenizeLight t') v.stemmer := by
    unfold normalizeStem
    cases v.stemmer with
    | none => exact map_eq_of_forall₂ (fun a b hab => hf.normalize hab) htok
    | some stem => exact map_eq_of_forall₂ (fun a b hab => by rw [hf.normalize hab]) htok
  have hc : ∀ g, getWordClusters v.fns env (v.fns.tokenizeLight t) g = getWordClusters v.fns env (v.fns.tokenizeLight t') g := by
    intro g
    simp only [getWordClusters, htok.length_eq]
    rw [filterMap_eq_of_forall₂ (fun a b hab => by rw [hf.lower hab]) (he htok _)]
  unfold Tfidf.transform
  simp only [hn, hc]
  exact .cached h fun bs => .custom (.refl hr _) fun cs => Cased.ofOutcome_eq rfl

include hr in
theorem classifier_cased (ops : FloatOps ℚ) {env : FeatEnv} (he : env.CaseBlind same) (o : HashOrd) {c : Classifier}
    (hc : c.CaseBlind same) (h : SameLetters same t t') (wl : Option (List Text)) :
    Prog.Cased same Eq (c.getIntentsWithWhitelist ops env o t wl) (c.getIntentsWithWhitelist ops env o t' wl) := by
  unfold Classifier.getIntentsWithWhitelist
  have h0 : (t = []) = (t' = []) := by
    cases h with
    | nil => rfl
    | cons _ _ => simp
  simp only [h0]
  split
  · exact .ret rfl
  · split
    · exact .ret rfl
    · split
      · next f l hf _ =>
        refine Cased.eq_bind ?_ fun _ => (Cased.ofOutcome_eq rfl).eq_bind fun _ => .ret rfl
        unfold Featurizer.transform
        rw [hc.pairs f hf]
        exact (tfidf_cased hr ops he o (hc.fns f hf) h).eq_bind fun _ => .ret rfl
      · exact .ret rfl

end Classifier

/-! ### The slot filler -/

section SlotFiller

variable (hr : LetterRel same) {t t' : Text} {toks toks' : List Token}

theorem getElem?_forall₂ {α β : Type} {R : α → β → Prop} {l : List α} {l' : List β} (h : List.Forall₂ R l l') :
    ∀ i : Nat, Option.Rel R l[i]? l'[i]? := by
  induction h with
  | nil => exact fun i => .none
  | cons hab _ ih =>
    intro i
    cases i with
    | zero => exact .some hab
    | succ i => exact ih i

theorem unwrap_forall₂ {α β : Type} {R : α → β → Prop} {l : List α} {l' : List β} (h : List.Forall₂ R l l') (i : Nat) :
    SameOutcome R (Outcome.unwrap l[i]?) (Outcome.unwrap l'[i]?) := by
  have := getElem?_forall₂ h i
  revert this
  generalize l[i]? = x
  generalize l'[i]? = y
  intro this
  cases this with
  | some h => exact .ok h
  | none => exact .panic

include hr in
theorem initialStringFrom_cased (h : List.Forall₂ (SameToken same) toks toks') : ∀ cur,
    SameLetters same (initialStringFrom cur toks) (initialStringFrom cur toks') := by
  induction h with
  | nil => exact fun _ => .nil
  | cons hab _ ih =>
    intro cur
    simp only [initialStringFrom, ← hab.charRange]
    exact ((SameLetters.refl hr _).append hab.value).append (ih _)

theorem nil_iff_forall₂ {α β : Type} {R : α → β → Prop} {l : List α} {l' : List β} (h : List.Forall₂ R l l') :
    (l = []) = (l' = []) := by
  cases h with
  | nil => simp
  | cons _ _ => simp

theorem touched_cased (h : List.Forall₂ (SameToken same) toks toks') (r : Rng) : touchedTokens toks r = touchedTokens toks' r := by
  unfold touchedTokens
  rw [h.length_eq]
  refine List.filter_congr fun j _ => ?_
  have := getElem?_forall₂ h j
  revert this
  generalize toks[j]? = x
  generalize toks'[j]? = y
  intro this
  cases this with
  | some h => simp only [h.charRange]
  | none => rfl

theorem entityPrefix_cased (scheme : Scheme) (h : List.Forall₂ (SameToken same) toks toks') (i : Nat) : ∀ rs,
    entityPrefix scheme toks i rs = entityPrefix scheme toks' i rs
  | [] => rfl
  | r :: rs => by
    simp only [entityPrefix, entityPrefix_cased scheme h i rs, touched_cased h]
    have := getElem?_forall₂ h i
    revert this
    generalize toks[i]? = x
    generalize toks'[i]? = y
    intro this
    cases this with
    | some h => simp only [h.charRange]
    | none => rfl

theorem transform_cased {fns : TextFns} (hf : fns.CaseBlind same) (stemmer : Option (Text → Text))
    (h : List.Forall₂ (SameToken same) toks toks') : ∀ ci bi,
    transformTokensFrom fns stemmer ci bi toks = transformTokensFrom fns stemmer ci bi toks' := by
  induction h with
  | nil => exact fun _ _ => rfl
  | cons hab _ ih =>
    intro ci bi
    have hn : ∀ v v', SameLetters same v v' → normStem fns stemmer v = normStem fns stemmer v' := by
      intro v v' hv
      unfold normStem
      rw [hf.normalize hv]
    simp only [transformTokensFrom, hn _ _ hab.value, ih]

theorem all_digit_cased (hr : LetterRel same) (h : SameLetters same t t') : t.all Char.isDigit = t'.all Char.isDigit := by
  induction h with
  | nil => rfl
  | cons hc _ ih => rw [List.all_cons, List.all_cons, ih, hr.digit hc]

include hr in
theorem feature_cased {fns : TextFns} (hf : fns.CaseBlind same) (h : List.Forall₂ (SameToken same) toks toks') (i : Nat)
    {f : Feature} (hs : ¬ f.IsShape) : Prog.Cased same Eq (f.compute fns toks i) (f.compute fns toks' i) := by
  cases f with
  | isDigit =>
    exact Cased.ofOutcome ((unwrap_forall₂ h i).bind fun a b hab => .ok (by rw [all_digit_cased hr hab.value]))
  | length => exact Cased.ofOutcome ((unwrap_forall₂ h i).bind fun a b hab => .ok (by rw [hab.value.length]))
  | isFirst => exact .ret rfl
  | isLast =>
    simp only [Feature.compute, nil_iff_forall₂ h, h.length_eq]
    split
    · exact .panic
    · exact .ret rfl
  | ngram n common stemmer =>
    simp only [Feature.compute, h.length_eq]
    split
    · exact .panic
    · rw [map_eq_of_forall₂ (g := fun t => ngramWord fns common stemmer t.value)
        (fun (a b : Token) hab => by unfold ngramWord normStem; rw [hf.normalize hab.value]) (List.forall₂_take n (List.forall₂_drop i h))]
      exact .ret rfl
  | shapeNgram n => exact absurd trivial hs
  | pfx n => exact Cased.ofOutcome ((unwrap_forall₂ h i).bind fun a b hab => .ok (by rw [hf.normalize hab.value]))
  | sfx n => exact Cased.ofOutcome ((unwrap_forall₂ h i).bind fun a b hab => .ok (by rw [hf.normalize hab.value]))
  | entityMatch entity scheme stemmer =>
    simp only [Feature.compute, transformTokens, transform_cased hf stemmer h]
    exact (Cased.ofOutcome_eq rfl).eq_bind fun _ => .custom (.refl hr _) fun _ => Cased.ofOutcome_eq rfl
  | builtinEntityMatch kind k scheme =>
    simp only [Feature.compute, initialStringFromTokens, nil_iff_forall₂ h]
    split
    · exact .panic
    · exact .cached (initialStringFrom_cased hr h 0) fun _ => Cased.ofOutcome_eq (entityPrefix_cased scheme h i _)
  | wordCluster name g => exact Cased.ofOutcome ((unwrap_forall₂ h i).bind fun a b hab => .ok (by rw [hf.lower hab.value]))

include hr in
theorem featureLoop_cased {fns : TextFns} (hf : fns.CaseBlind same) (h : List.Forall₂ (SameToken same) toks toks') {o : Offsetter}
    (hs : ¬ o.feature.IsShape) : ∀ is features,
    Prog.Cased same Eq (featureLoop fns toks o is features) (featureLoop fns toks' o is features)
  | [], _ => .ret rfl
  | i :: is, features => by
    unfold featureLoop
    refine (feature_cased hr hf h i hs).eq_bind fun v => ?_
    split <;> exact featureLoop_cased hf h hs is _

include hr in
theorem offsetters_cased {fns : TextFns} (hf : fns.CaseBlind same) (h : List.Forall₂ (SameToken same) toks toks') :
    ∀ (os : List Offsetter), (∀ o ∈ os, ¬ o.feature.IsShape) → ∀ features,
    Prog.Cased same Eq (offsettersLoop fns toks os features) (offsettersLoop fns toks' os features)
  | [], _, _ => .ret rfl
  | o :: os, hs, features => by
    unfold offsettersLoop
    rw [h.length_eq]
    exact (featureLoop_cased hr hf h (hs o List.mem_cons_self) _ _).eq_bind fun _ =>
      offsetters_cased hf h os (fun o ho => hs o (List.mem_cons_of_mem _ ho)) _

theorem tagsLoop_cased (tags : List Text) (h : List.Forall₂ (SameToken same) toks toks') (st en : List Text → Nat → Bool) :
    ∀ (rest : List Text) (i cur : Nat), tagsToSlotsLoop tags toks st en i cur rest = tagsToSlotsLoop tags toks' st en i cur rest
  | [], _, _ => rfl
  | tag :: rest, i, cur => by
    simp only [tagsToSlotsLoop, tagsLoop_cased tags h st en rest]
    split
    · have h1 := getElem?_forall₂ h (if st tags i then i else cur)
      have h2 := getElem?_forall₂ h i
      revert h1 h2
      generalize toks[if st tags i then i else cur]? = x
      generalize toks'[if st tags i then i else cur]? = y
      generalize toks[i]? = z
      generalize toks'[i]? = w
      intro h1 h2
      cases h1 with
      | none => rfl
      | some h1 =>
        cases h2 with
        | none => rfl
        | some h2 => simp only [h1.range, h1.charRange, h2.range, h2.charRange]
    · rfl

include hr in
theorem tagsToSlots_cased (h : List.Forall₂ (SameToken same) toks toks') (ht : SameLetters same t t') (tags : List Text)
    (scheme : Scheme) (mapping : Map Text Text) :
    SameOutcome (List.Forall₂ (CasedInternal same)) (tagsToSlots t toks tags scheme mapping) (tagsToSlots t' toks' tags scheme mapping) := by
  have hranges : tagsToSlotRanges toks tags scheme = tagsToSlotRanges toks' tags scheme := by
    cases scheme <;> exact tagsLoop_cased tags h _ _ _ _ _
  unfold tagsToSlots
  rw [hranges]
  refine SameOutcome.eq_bind _ fun ranges => mapOutcome_forall₂ (R := Eq) (List.forall₂_same.2 fun _ _ => rfl) fun a b hab => ?_
  subst hab
  exact (ht.slice hr a.range).bind fun v v' hv => SameOutcome.eq_bind _ fun _ => .ok ⟨hv, rfl, rfl, rfl⟩

include hr in
theorem slotFiller_cased (codec : TagCodec) {f : SlotFiller} (hf : f.CaseBlind same) (h : SameLetters same t t') :
    Prog.Cased same (List.Forall₂ (CasedInternal same)) (f.getSlots codec t) (f.getSlots codec t') := by
  unfold SlotFiller.getSlots
  have htok := hf.fns.tokenize h
  split
  · next tagger os _ hos =>
    simp only [nil_iff_forall₂ htok]
    split
    · exact .ret .nil
    · unfold Snips.computeFeatures
      rw [htok.length_eq]
      exact (offsetters_cased hr hf.fns htok os (hf.features os hos) _).eq_bind fun features => Cased.ofOutcome
        (SameOutcome.eq_bind _ fun _ => SameOutcome.eq_bind _ fun tags => tagsToSlots_cased hr htok h tags _ _)
  · exact .ret .nil

end SlotFiller

/-! ### The parsers -/

theorem prob_cased (hr : LetterRel same) {env : ProbEnv} {p : Prob} (he : env.feat.CaseBlind same)
    (hc : p.classifier.CaseBlind same) (hs : ∀ e ∈ p.slotFillers, e.2.CaseBlind same) : ParserImpl.Cased same (p.impl env) := by
  have hslots : ∀ (e : Err) {t t' : Text}, SameLetters same t t' → ∀ i,
      Prog.Cased same (List.Forall₂ (CasedInternal same)) (p.slotsOf env e t i) (p.slotsOf env e t' i) := by
    intro e t t' h i
    unfold Prob.slotsOf
    cases hget : p.slotFillers.get i with
    | none => exact .fail e
    | some f => exact slotFiller_cased hr env.codec (hs _ (Map.get_some_mem hget)) h
  refine ⟨fun {o} _ t t' h wl => ?_, fun {o} _ t t' h => ?_, fun {o} _ t t' h i => hslots _ h i⟩
  · refine Cased.eq_bind ((classifier_cased hr env.ops he o hc h wl).eq_bind fun rs => Prog.Cased.ret (R := Eq) rfl) fun res => ?_
    split
    · exact (hslots _ h _).bind fun a b hab => .ret ⟨rfl, hab⟩
    · exact .ret ⟨rfl, .nil⟩
  · exact classifier_cased hr env.ops he o hc h none

theorem parser_cased (hr : LetterRel same) {m : ParserModel} (h : m.CaseBlind same) : ParserImpl.Cased same m.impl := by
  cases m with
  | lookup env p => exact lookup_cased hr h p
  | deterministic env p => exact det_cased hr h.1 p h.2
  | probabilistic env p => exact prob_cased hr h.1 h.2.1 h.2.2

/-! ### The engine -/

section Engine

variable (hr : LetterRel same) (e : Engine) {t t' : Text}

theorem finish_cased {a b : InternalSlot} (h : CasedInternal same a b) (ext : Bool) (m : Option CustomEntity) :
    Option.Rel (CasedSlot same) (finishCustomSlot a ext m) (finishCustomSlot b ext m) := by
  cases m with
  | some m => exact .some ⟨h.value, .inl rfl, rfl, h.charRange, h.entity, h.slotName⟩
  | none =>
    cases ext with
    | true => exact .some ⟨h.value, .inr ⟨rfl, rfl⟩, rfl, h.charRange, h.entity, h.slotName⟩
    | false => exact .none

theorem builtin_cased {a b : InternalSlot} (h : CasedInternal same a b) (m : BuiltinEntity) :
    CasedSlot same (convertToBuiltinSlot a m) (convertToBuiltinSlot b m) :=
  ⟨h.value, .inl rfl, rfl, h.charRange, h.entity, h.slotName⟩

theorem resolveOne_cased (n : Nat) (bs : List BuiltinEntity) (cs : List CustomEntity) {a b : InternalSlot} (h : CasedInternal same a b) :
    Prog.Cased same (Option.Rel (CasedSlot same)) (e.resolveOne n bs cs a) (e.resolveOne n bs cs b) := by
  unfold Engine.resolveOne
  rw [h.entity]
  cases e.dataset.entities.get b.entity with
  | some ext =>
    simp only [resolveCustomSlot, h.entity, h.charRange]
    split
    · exact .ret (finish_cased h ext _)
    · refine .custom h.value fun es => .ret ?_
      rw [h.value.length]
      exact finish_cased h ext _
  | none =>
    simp only [resolveBuiltinSlot, h.entity, h.charRange]
    refine (Cased.ofOutcome_eq rfl).eq_bind fun kind => ?_
    split
    · exact .ret (.some (builtin_cased h _))
    · refine .fresh h.value fun es => .ret ?_
      cases es.getLast? with
      | none => exact .none
      | some m => exact .some (builtin_cased h m)

theorem resolveEach_cased (n : Nat) (bs : List BuiltinEntity) (cs : List CustomEntity) {l l' : List InternalSlot}
    (h : List.Forall₂ (CasedInternal same) l l') :
    Prog.Cased same (List.Forall₂ (CasedSlot same)) (e.resolveEach n bs cs l) (e.resolveEach n bs cs l') := by
  induction h with
  | nil => exact .ret .nil
  | cons hab _ ih =>
    refine (resolveOne_cased e n bs cs hab).bind fun a b hr => ih.bind fun rest rest' hrest => .ret ?_
    cases hr with
    | none => exact hrest
    | some hr => exact .cons hr hrest

theorem resolveSlots_cased (n : Nat) (h : SameLetters same t t') {l l' : List InternalSlot}
    (hl : List.Forall₂ (CasedInternal same) l l') :
    Prog.Cased same (List.Forall₂ (CasedSlot same)) (e.resolveSlots t l n) (e.resolveSlots t' l' n) := by
  unfold Engine.resolveSlots
  have h1 : (l.filterMap fun s => e.names.fromStr s.entity) = l'.filterMap fun s => e.names.fromStr s.entity :=
    filterMap_eq_of_forall₂ (fun a b hab => by rw [hab.entity]) hl
  have h2 : (l.filterMap fun s => if (e.names.fromStr s.entity).isSome then none else some s.entity) =
      l'.filterMap fun s => if (e.names.fromStr s.entity).isSome then none else some s.entity :=
    filterMap_eq_of_forall₂ (fun a b hab => by rw [hab.entity]) hl
  have h3 : l.isEmpty = l'.isEmpty := by cases hl <;> rfl
  simp only [h1, h2, h3]
  split
  · exact .ret .nil
  · exact .fresh h fun bs => .custom h fun cs => resolveEach_cased e n bs cs hl

theorem cascade_cased {o : HashOrd} (ho : o.Blind) (h : SameLetters same t t') (wl : Option (List Text)) (n : Nat) :
    ∀ {ps : List ParserImpl}, (∀ p ∈ ps, ParserImpl.Cased same p) → ∀ i score,
    Prog.Cased same (CasedResult same) (e.cascade o t wl n i ps score) (e.cascade o t' wl n i ps score)
  | [], _, _, _ => .ret ⟨h, rfl, .nil, .nil⟩
  | p :: ps, hps, i, _ => by
    unfold Engine.cascade
    refine ((hps p List.mem_cons_self).parse (ho.sub i) h wl).bind fun a b hab => ?_
    rw [← hab.intent]
    split
    · exact (resolveSlots_cased e n h hab.slots).bind fun s s' hs => .ret ⟨h, rfl, hs, .nil⟩
    · exact cascade_cased ho h wl n (fun p hp => hps p (List.mem_cons_of_mem _ hp)) _ _

theorem collect_cased {o : HashOrd} (ho : o.Blind) (h : SameLetters same t t') :
    ∀ {ps : List ParserImpl}, (∀ p ∈ ps, ParserImpl.Cased same p) → ∀ i m,
    Prog.Cased same Eq (Engine.collectIntents o t i ps m) (Engine.collectIntents o t' i ps m)
  | [], _, _, _ => .ret rfl
  | p :: ps, hps, i, _ => by
    unfold Engine.collectIntents
    exact ((hps p List.mem_cons_self).getIntents (ho.sub i) h).eq_bind fun rs =>
      collect_cased ho h (fun p hp => hps p (List.mem_cons_of_mem _ hp)) _ _

theorem slotsCascade_cased {o : HashOrd} (ho : o.Blind) (h : SameLetters same t t') (intent : Text) (n : Nat) :
    ∀ {ps : List ParserImpl}, (∀ p ∈ ps, ParserImpl.Cased same p) → ∀ i,
    Prog.Cased same (List.Forall₂ (CasedSlot same)) (e.slotsCascade o t intent n i ps) (e.slotsCascade o t' intent n i ps)
  | [], _, _ => .ret .nil
  | p :: ps, hps, i => by
    unfold Engine.slotsCascade
    refine ((hps p List.mem_cons_self).getSlots (ho.sub i) h intent).bind fun l l' hl => ?_
    have h3 : l.isEmpty = l'.isEmpty := by cases hl <;> rfl
    rw [h3]
    split
    · exact slotsCascade_cased ho h intent n (fun p hp => hps p (List.mem_cons_of_mem _ hp)) _
    · exact resolveSlots_cased e n h hl

variable {e} (hps : ∀ p ∈ e.parsers, ParserImpl.Cased same p)
include hps

theorem intents_engine_cased {o : HashOrd} (ho : o.Blind) (h : SameLetters same t t') :
    Prog.Cased same Eq (e.getIntents o t) (e.getIntents o t') :=
  (collect_cased (ho.sub 0) h hps 0 []).eq_bind fun _ => .ret rfl

theorem alternatives_cased {o : HashOrd} (ho : o.Blind) (h : SameLetters same t t') (n : Nat) : ∀ (rs : List IntentResult) (i : Nat),
    Prog.Cased same (List.Forall₂ (CasedAlternative same)) (e.alternativesSlots o t n i rs) (e.alternativesSlots o t' n i rs)
  | [], _ => .ret .nil
  | r :: rs, i => by
    unfold Engine.alternativesSlots
    have h1 : Prog.Cased same (List.Forall₂ (CasedSlot same)) (e.alternativeSlots (o.sub i) t n r.name)
        (e.alternativeSlots (o.sub i) t' n r.name) := by
      cases r.name with
      | none => exact .ret .nil
      | some name => exact slotsCascade_cased e (ho.sub i) h name n hps 0
    exact h1.bind fun s s' hs => (alternatives_cased ho h n rs (i + 1)).bind fun l l' hl => .ret (.cons ⟨rfl, hs⟩ hl)

theorem parseWith_cased {o : HashOrd} (ho : o.Blind) (h : SameLetters same t t') (wl bl : Option (List Text)) (ni ns : Nat) :
    Prog.Cased same (CasedResult same) (e.parseWithAlternatives o t wl bl ni ns) (e.parseWithAlternatives o t' wl bl ni ns) := by
  unfold Engine.parseWithAlternatives
  refine Cased.eq_bind (Cased.ofOutcome_eq rfl) fun wl => ?_
  refine (cascade_cased e (ho.sub 1) h wl ns hps 0 0).bind fun a b hab => ?_
  split
  · exact .ret hab
  · exact Cased.eq_bind (intents_engine_cased hps (ho.sub 2) h) fun ranked =>
      (alternatives_cased hps (ho.sub 3) h ns _ 0).bind fun l l' hl => .ret ⟨hab.input, hab.intent, hab.slots, hl⟩

omit hps in
theorem extract_cased (hr : LetterRel same) (e : Engine) (h : SameLetters same t t') (intent slot : Text) (n : Nat) :
    Prog.Cased same (Option.Rel (CasedSlot same)) (e.extractSlotWithAlternatives t intent slot n)
      (e.extractSlotWithAlternatives t' intent slot n) := by
  unfold Engine.extractSlotWithAlternatives
  refine Cased.eq_bind (Cased.ofOutcome_eq rfl) fun mapping => Cased.eq_bind (Cased.ofOutcome_eq rfl) fun entity => ?_
  split
  · refine .custom h fun es => .ret ?_
    split
    · exact .some ⟨.refl hr _, .inl rfl, rfl, rfl, rfl, rfl⟩
    · split
      · exact .some ⟨h, .inr ⟨rfl, rfl⟩, rfl, by rw [h.length], rfl, rfl⟩
      · exact .none
  · refine Cased.eq_bind (Cased.ofOutcome_eq rfl) fun kind => .fresh h fun es => .ret ?_
    cases es.head? with
    | none => exact .none
    | some b => exact .some ⟨h.substr _, .inl rfl, rfl, rfl, rfl, rfl⟩

include hr in
theorem code_cased {call call' : EngineCall} (hc : CasedCall same call call') (hb : call.Blind) :
    Prog.Cased same (CasedAnswer same) (e.code call) (e.code call') := by
  cases hc with
  | parse o wl bl ni ns h => exact (parseWith_cased hps hb h wl bl ni ns).bind fun a b hab => .ret (.parse hab)
  | intents o h => exact (intents_engine_cased hps hb h).eq_bind fun l => .ret (.intents l)
  | slots o intent ns h => exact (slotsCascade_cased e hb h intent ns hps 0).bind fun a b hab => .ret (.slots hab)
  | extract intent slot ns h =>
    refine (extract_cased hr e h intent slot ns).bind fun a b hab => .ret ?_
    cases hab with
    | none => exact .noSlot
    | some hab => exact .extract hab

end Engine

theorem history_cased {α β : Type} {R : α → β → Prop} {x : Ext} (hx : ∀ {t t'}, SameLetters same t t' → x.lower t = x.lower t')
    {l : List (Nat × Prog α)} {l' : List (Nat × Prog β)}
    (h : List.Forall₂ (fun a b => b.1 = a.1 ∧ Prog.Cased same R a.2 b.2) l l') : ∀ c,
    List.Forall₂ (SameOutcome R) (runHistory x l c).1 (runHistory x l' c).1 ∧ (runHistory x l' c).2 = (runHistory x l c).2 := by
  induction h with
  | nil => exact fun c => ⟨.nil, rfl⟩
  | @cons a b _ _ hab _ ih =>
    intro c
    obtain ⟨t, p⟩ := a
    obtain ⟨t', q⟩ := b
    obtain ⟨ht, hpq⟩ := hab
    obtain rfl : t' = t := ht
    simp only [runHistory]
    obtain ⟨h1, h2⟩ := hpq.runCached hx t' c
    rw [h2]
    obtain ⟨h3, h4⟩ := ih (p.runCached x t' c).2
    exact ⟨.cons h1 h3, h4⟩

end Snips
