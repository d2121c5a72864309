import Verif.Proofs.LetterCase

/-! The rule-based parsers on texts that differ in the case of letters. -/

namespace Snips

open Prog

variable {same : Char → Char → Prop}

/-- The same slot of a parser. -/
structure CasedInternal (same : Char → Char → Prop) (a b : InternalSlot) : Prop where
  value : SameLetters same a.value b.value
  charRange : a.charRange = b.charRange
  entity : a.entity = b.entity
  slotName : a.slotName = b.slotName

/-- The same answer of a parser. -/
structure CasedInternalResult (same : Char → Char → Prop) (a b : InternalResult) : Prop where
  intent : a.intent = b.intent
  slots : List.Forall₂ (CasedInternal same) a.slots b.slots

/-! ### Choice among results -/

theorem map_get_forall₂ {κ ν ν' : Type} [DecidableEq κ] {R : ν → ν' → Prop} {m : Map κ ν} {m' : Map κ ν'}
    (h : List.Forall₂ (fun a b => a.1 = b.1 ∧ R a.2 b.2) m m') (k : κ) : Option.Rel R (m.get k) (m'.get k) := by
  induction h with
  | nil => exact .none
  | @cons a b _ _ hab _ ih =>
    obtain ⟨k1, v1⟩ := a
    obtain ⟨k2, v2⟩ := b
    obtain ⟨rfl, hv⟩ : k1 = k2 ∧ R v1 v2 := hab
    simp only [Map.get_cons]
    split
    · exact .some hv
    · exact ih

theorem map_insert_forall₂ {κ ν ν' : Type} [DecidableEq κ] {R : ν → ν' → Prop} {m : Map κ ν} {m' : Map κ ν'}
    (h : List.Forall₂ (fun a b => a.1 = b.1 ∧ R a.2 b.2) m m') (k : κ) {v : ν} {v' : ν'} (hv : R v v') :
    List.Forall₂ (fun a b => a.1 = b.1 ∧ R a.2 b.2) (m.insert k v) (m'.insert k v') := by
  induction h with
  | nil => exact .cons ⟨rfl, hv⟩ .nil
  | @cons a b l l' hab hl ih =>
    obtain ⟨k1, v1⟩ := a
    obtain ⟨k2, v2⟩ := b
    obtain ⟨rfl, hv'⟩ : k1 = k2 ∧ R v1 v2 := hab
    simp only [Map.insert]
    split
    · exact .cons ⟨rfl, hv⟩ hl
    · exact .cons ⟨rfl, hv'⟩ ih

theorem pushResult_forall₂ {m m' : Map Text (List InternalResult)} {r r' : InternalResult}
    (h : List.Forall₂ (fun a b => a.1 = b.1 ∧ List.Forall₂ (CasedInternalResult same) a.2 b.2) m m')
    (hr : CasedInternalResult same r r') :
    List.Forall₂ (fun a b => a.1 = b.1 ∧ List.Forall₂ (CasedInternalResult same) a.2 b.2) (pushResult m r) (pushResult m' r') := by
  unfold pushResult
  rw [← hr.intent]
  cases r.intent.name with
  | none => exact h
  | some name =>
    have hg := map_get_forall₂ h name
    revert hg
    dsimp only
    generalize m.get name = x
    generalize m'.get name = y
    intro hg
    cases hg with
    | none => exact map_insert_forall₂ h name (.cons hr .nil)
    | some hg => exact map_insert_forall₂ h name (List.rel_append hg (.cons hr .nil))

theorem pushAll_forall₂ {l l' : List InternalResult} (hl : List.Forall₂ (CasedInternalResult same) l l') :
    ∀ {m m' : Map Text (List InternalResult)},
    List.Forall₂ (fun a b => a.1 = b.1 ∧ List.Forall₂ (CasedInternalResult same) a.2 b.2) m m' →
    List.Forall₂ (fun a b => a.1 = b.1 ∧ List.Forall₂ (CasedInternalResult same) a.2 b.2)
      (l.foldl pushResult m) (l'.foldl pushResult m') := by
  induction hl with
  | nil => exact fun h => h
  | cons hr _ ih => exact fun h => ih (pushResult_forall₂ h hr)

theorem maxByLast_forall₂ {α β : Type} {R : α → β → Prop} {s : α → ℚ} {s' : β → ℚ} (hs : ∀ a b, R a b → s a = s' b)
    {l : List α} {l' : List β} (h : List.Forall₂ R l l') : Option.Rel R (maxByLast s l) (maxByLast s' l') := by
  obtain ⟨L, rfl, rfl⟩ := forall₂_pairs h
  rw [maxByLast_map (fun p : {p : α × β // R p.1 p.2} => p.1.1) (fun p => s p.1.1) s (fun _ => rfl),
    maxByLast_map (fun p : {p : α × β // R p.1 p.2} => p.1.2) (fun p => s p.1.1) s' (fun p => (hs _ _ p.2).symm)]
  cases maxByLast (fun p : {p : α × β // R p.1 p.2} => s p.1.1) L with
  | none => exact .none
  | some p => exact .some p.2

theorem weight_cased (rd : Rounding) (a b : InternalResult) (h : CasedInternalResult same a b) :
    slotWeight rd a.slots.length = slotWeight rd b.slots.length := by rw [h.slots.length_eq]

theorem bestPerIntent_cased (rd : Rounding) {o : HashOrd} (ho : o.Blind) {l l' : List InternalResult}
    (h : List.Forall₂ (CasedInternalResult same) l l') :
    List.Forall₂ (CasedInternalResult same) (bestPerIntent rd o l) (bestPerIntent rd o l') :=
  filterMap_forall₂ (fun _ _ hab => maxByLast_forall₂ (weight_cased rd) hab.2) (ho.forall₂ 0 (pushAll_forall₂ h .nil))

theorem rankByWeight_cased (rd : Rounding) {l l' : List InternalResult} (h : List.Forall₂ (CasedInternalResult same) l l') (n : Nat) :
    List.Forall₂ (CasedInternalResult same) (rankByWeight rd l n) (rankByWeight rd l' n) := by
  unfold rankByWeight
  have hw : (l.map fun r => slotWeight rd r.slots.length) = l'.map fun r => slotWeight rd r.slots.length := by
    induction h with
    | nil => rfl
    | cons hr _ ih => rw [List.map_cons, List.map_cons, ih, weight_cased rd _ _ hr]
  simp only [hw]
  refine List.forall₂_take n (sortDesc_forall₂ (fun a b hab => by rw [hab.intent]) ?_)
  rw [List.forall₂_map_left_iff, List.forall₂_map_right_iff]
  refine h.imp fun a b hab => ⟨?_, hab.slots⟩
  simp only [weight_cased rd a b hab, hab.intent]

theorem pickUnambiguous_cased {l l' : List InternalResult} (h : List.Forall₂ (CasedInternalResult same) l l') :
    CasedInternalResult same (pickUnambiguous l) (pickUnambiguous l') := by
  cases h with
  | nil => exact ⟨rfl, .nil⟩
  | cons hr _ =>
    simp only [pickUnambiguous, ← hr.intent]
    split
    · exact ⟨rfl, .nil⟩
    · exact hr

theorem intents_cased {l l' : List InternalResult} (h : List.Forall₂ (CasedInternalResult same) l l') :
    l.map InternalResult.intent = l'.map InternalResult.intent := by
  induction h with
  | nil => rfl
  | cons hr _ ih => rw [List.map_cons, List.map_cons, ih, hr.intent]

/-- A parser that gives the same answers to both texts. -/
structure ParserImpl.Cased (same : Char → Char → Prop) (p : ParserImpl) : Prop where
  parse : ∀ {o : HashOrd}, o.Blind → ∀ {t t'}, SameLetters same t t' → ∀ wl,
    Prog.Cased same (CasedInternalResult same) (p.parse o t wl) (p.parse o t' wl)
  getIntents : ∀ {o : HashOrd}, o.Blind → ∀ {t t'}, SameLetters same t t' → Prog.Cased same Eq (p.getIntents o t) (p.getIntents o t')
  getSlots : ∀ {o : HashOrd}, o.Blind → ∀ {t t'}, SameLetters same t t' → ∀ i,
    Prog.Cased same (List.Forall₂ (CasedInternal same)) (p.getSlots o t i) (p.getSlots o t' i)

/-! ### The lookup parser -/

section Lookup

variable (hr : LetterRel same) {env : RuleEnv} (hf : env.fns.CaseBlind same) {t t' : Text}

include hr hf in
theorem lookup_preprocess_cased (p : Lookup) (h : SameLetters same t t') (i : Text) :
    p.preprocess env t i = p.preprocess env t' i :=
  hf.lower (SameLetters.join hr _ (filter_forall₂ (fun a b hab => by rw [hf.normalize hab]) (hf.tokenizeLight h)))

include hr in
theorem replaceFrom_cased (fns : TextFns) (h : SameLetters same t t') : ∀ (es : List MatchedEntity) (cur : Nat),
    SameLetters same (replaceWithPlaceholdersFrom fns t cur es) (replaceWithPlaceholdersFrom fns t' cur es)
  | [], cur => h.drop cur
  | _ :: es, _ => ((h.substr _).append (.refl hr _)).append (replaceFrom_cased fns h es _)

include hr in
theorem replaceWith_cased (fns : TextFns) (h : SameLetters same t t') (es : List MatchedEntity) :
    SameLetters same (replaceWithPlaceholders fns t es) (replaceWithPlaceholders fns t' es) := by
  unfold replaceWithPlaceholders
  split
  · exact h
  · exact replaceFrom_cased hr fns h es 0

include hr hf in
theorem scopeCandidates_cased (p : Lookup) (h : SameLetters same t t') (group : List Text) (es : List MatchedEntity) :
    p.scopeCandidates env t group es = p.scopeCandidates env t' group es := by
  unfold Lookup.scopeCandidates
  simp only [lookup_preprocess_cased hr hf p h, lookup_preprocess_cased hr hf p (replaceWith_cased hr env.fns h _)]

theorem allEntities_cased (h : SameLetters same t t') (s : GroupedScope) :
    Prog.Cased same Eq (Lookup.allEntities env t s) (Lookup.allEntities env t' s) :=
  (Cased.ofOutcome_eq rfl).eq_bind fun _ => .cached h fun _ => .custom h fun _ => .ret rfl

include hr hf in
theorem candidatesFrom_cased (p : Lookup) (h : SameLetters same t t') (wl : Option (List Text)) : ∀ ss : List GroupedScope,
    Prog.Cased same Eq (p.candidatesFrom env t wl ss) (p.candidatesFrom env t' wl ss)
  | [] => .ret rfl
  | s :: ss => by
    unfold Lookup.candidatesFrom
    split
    · exact candidatesFrom_cased p h wl ss
    · exact (allEntities_cased h s).eq_bind fun es => (candidatesFrom_cased p h wl ss).eq_bind fun rest =>
        .ret (by rw [scopeCandidates_cased hr hf p h])

theorem lookup_slotOf_cased (p : Lookup) (h : SameLetters same t t') (ie : Int × MatchedEntity) :
    SameOutcome (CasedInternal same) (p.slotOf t ie) (p.slotOf t' ie) :=
  SameOutcome.eq_bind _ fun _ => .ok ⟨h.substr _, rfl, rfl, rfl⟩

theorem parseMapOutput_cased (p : Lookup) (h : SameLetters same t t') (out : Int × List Int) (es : List MatchedEntity)
    (wl : Option (List Text)) :
    SameOutcome (Option.Rel (CasedInternalResult same)) (p.parseMapOutput env t out es wl) (p.parseMapOutput env t' out es wl) := by
  unfold Lookup.parseMapOutput
  split
  · exact .panic
  · refine SameOutcome.eq_bind _ fun i => ?_
    split
    · exact (mapOutcome_forall₂ (List.forall₂_same.2 fun _ _ => rfl) fun a b hab => hab ▸ lookup_slotOf_cased p h a).bind
        fun a b hab => .ok (.some ⟨rfl, hab⟩)
    · exact .ok .none

theorem lookupOne_cased (p : Lookup) (h : SameLetters same t t') (wl : Option (List Text)) (c : Text × List MatchedEntity) :
    SameOutcome (Option.Rel (CasedInternalResult same)) (p.lookupOne env t wl c) (p.lookupOne env t' wl c) := by
  unfold Lookup.lookupOne
  split
  · exact parseMapOutput_cased p h _ _ wl
  · exact .ok .none

include hr hf in
theorem lookup_top_cased (p : Lookup) {o : HashOrd} (ho : o.Blind) (h : SameLetters same t t') (n : Nat) (wl : Option (List Text)) :
    Prog.Cased same (List.Forall₂ (CasedInternalResult same)) (p.parseTopIntents env o t n wl) (p.parseTopIntents env o t' n wl) := by
  unfold Lookup.parseTopIntents Lookup.getCandidates
  refine ((candidatesFrom_cased hr hf p h wl p.scopes).eq_bind fun cs => Prog.Cased.ret (R := Eq) rfl).eq_bind fun cs => ?_
  refine (Cased.ofOutcome (mapOutcome_forall₂ (List.forall₂_same.2 fun _ _ => rfl) fun a b hab => hab ▸ lookupOne_cased p h wl a)).bind
    fun rs rs' hrs => .ret (rankByWeight_cased env.rd (bestPerIntent_cased env.rd ho (filterMap_forall₂ (fun a b hab => hab) hrs)) n)

include hr hf in
theorem lookup_cased (p : Lookup) : ParserImpl.Cased same (p.impl env) where
  parse ho _ _ h wl := (lookup_top_cased hr hf p ho h 1 wl).bind fun _ _ hl => .ret (pickUnambiguous_cased hl)
  getIntents ho _ _ h := (lookup_top_cased hr hf p ho h _ none).bind fun _ _ hl => .ret (by rw [intents_cased hl])
  getSlots ho _ _ h i := by
    simp only [Lookup.impl, Lookup.getSlots]
    split
    · exact ((lookup_top_cased hr hf p ho h 1 _).bind fun _ _ hl => Prog.Cased.ret (pickUnambiguous_cased hl)).bind
        fun _ _ hl => .ret hl.slots
    · exact .fail _

end Lookup

/-! ### The deterministic parser -/

section Det

variable (hr : LetterRel same) {env : RuleEnv} (hf : env.fns.CaseBlind same) {t t' : Text}

include hr hf in
theorem detPreprocessFrom_cased (stop : List Text) {l l' : List Token} (hl : List.Forall₂ (SameToken same) l l') : ∀ cur,
    SameOutcome (fun a b => SameLetters same a.1 b.1 ∧ a.2 = b.2) (detPreprocessFrom env.fns stop cur l)
      (detPreprocessFrom env.fns stop cur l') := by
  induction hl with
  | nil => exact fun cur => .ok ⟨.nil, rfl⟩
  | @cons a b l l' hab _ ih =>
    intro cur
    simp only [detPreprocessFrom, ← hab.charRange, hf.normalize hab.value]
    split
    · exact .panic
    · refine (ih a.charRange.stop).bind fun x y hxy => .ok ⟨?_, hxy.2⟩
      refine ((SameLetters.refl hr _).append ?_).append hxy.1
      split
      · rw [hab.value.length]
        exact .refl hr _
      · exact hab.value

include hr hf in
theorem det_preprocess_cased (p : Det) (h : SameLetters same t t') (i : Text) :
    SameOutcome (SameLetters same) (p.preprocess env.fns t i) (p.preprocess env.fns t' i) := by
  refine (detPreprocessFrom_cased hr hf _ (hf.tokenize h) 0).bind fun x y hxy => ?_
  rw [h.length, hxy.2]
  split
  · exact .panic
  · exact .ok (hxy.1.append (.refl hr _))

theorem det_slotOf_cased {g g' : Text} (o : HashOrd) (p : Det) (h : SameLetters same t t') (hg : SameLetters same g g') (i : Text)
    (hr : LetterRel same) (m : Option (Map Rng Rng)) (c : Rng × Text) :
    SameOutcome (CasedInternal same) (p.slotOf o t g i m c) (p.slotOf o t' g' i m c) := by
  refine SameOutcome.eq_bind _ fun _ => SameOutcome.eq_bind _ fun _ => SameOutcome.eq_bind _ fun _ => ?_
  simp only [hg.convert hr]
  exact .ok ⟨h.substr _, rfl, rfl, rfl⟩

theorem dedupItems_forall₂ {α β : Type} {R : α → β → Prop} {ov : α → α → Bool} {ov' : β → β → Bool} {k : α → Int} {k' : β → Int}
    (hk : ∀ a b, R a b → k a = k' b) (ho : ∀ a b c d, R a b → R c d → ov a c = ov' b d) {l : List α} {l' : List β}
    (h : List.Forall₂ R l l') : List.Forall₂ R (dedupItems ov k l) (dedupItems ov' k' l') := by
  unfold dedupItems
  have hs := sortByKey_forall₂ hk h
  revert hs
  generalize sortByKey k l = m
  generalize sortByKey k' l' = m'
  intro hs
  have : ∀ {acc : List α} {acc' : List β}, List.Forall₂ R acc acc' →
      List.Forall₂ R (m.foldl (dedupStep ov) acc) (m'.foldl (dedupStep ov') acc') := by
    induction hs with
    | nil => exact fun h => h
    | @cons a b _ _ hab _ ih =>
      intro acc acc' hacc
      refine ih ?_
      unfold dedupStep
      have hany : (acc.any fun d => ov d a) = acc'.any fun d => ov' d b := by
        clear ih
        induction hacc with
        | nil => rfl
        | cons hcd _ ih => rw [List.any_cons, List.any_cons, ih, ho _ _ _ _ hcd hab]
      rw [hany]
      split
      · exact hacc
      · exact List.rel_append hacc (.cons hab .nil)
  exact this .nil

include hf in
theorem dedupSlots_cased {l l' : List InternalSlot} (h : List.Forall₂ (CasedInternal same) l l') :
    List.Forall₂ (CasedInternal same) (dedupSlots env.fns l) (dedupSlots env.fns l') :=
  sortByKey_forall₂ (fun a b hab => by rw [hab.charRange]) (dedupItems_forall₂
    (fun a b hab => by rw [(hf.tokenize hab.value).length_eq, hab.value.length])
    (fun a b c d hab hcd => by rw [hab.charRange, hcd.charRange]) h)

include hr hf in
theorem matchingResult_cased {g g' : Text} (o : HashOrd) (p : Det) (h : SameLetters same t t') (hg : SameLetters same g g') {r : Regex}
    (hre : r.CaseBlind same) (i : Text) (m : Option (Map Rng Rng)) :
    SameOutcome (Option.Rel (CasedInternalResult same)) (p.matchingResult env.fns o t g r i m)
      (p.matchingResult env.fns o t' g' r i m) := by
  unfold Det.matchingResult
  rw [hre.isMatch hg, hre.captures hg]
  split
  · split
    · exact (mapOutcome_forall₂ (List.forall₂_same.2 fun _ _ => rfl) fun a b hab => hab ▸ det_slotOf_cased o p h hg i hr m a).bind
        fun a b hab => .ok (.some ⟨rfl, dedupSlots_cased hf hab⟩)
    · exact .ok .none
  · exact .ok .none

include hr hf in
theorem tryRegex_cased {c c' g g' : Text} (o : HashOrd) (p : Det) (h : SameLetters same t t') (hc : SameLetters same c c')
    (hg : SameLetters same g g') (m : Map Rng Rng) (i : Text) {r : Regex} (hre : r.CaseBlind same) :
    SameOutcome (Option.Rel (CasedInternalResult same)) (p.tryRegex env.fns o t c g m i r) (p.tryRegex env.fns o t' c' g' m i r) := by
  refine (matchingResult_cased hr hf o p h hc hre i none).bind fun a b hab => ?_
  cases hab with
  | some hab => exact .ok (.some hab)
  | none => exact matchingResult_cased hr hf o p h hg hre i _

theorem findMap_cased {α β γ : Type} {R : β → γ → Prop} {f : α → Outcome (Option β)} {g : α → Outcome (Option γ)} :
    ∀ {l : List α}, (∀ a ∈ l, SameOutcome (Option.Rel R) (f a) (g a)) →
    SameOutcome (Option.Rel R) (findMapOutcome f l) (findMapOutcome g l)
  | [], _ => .ok .none
  | a :: l, h => by
    have ih := findMap_cased fun b hb => h b (List.mem_cons_of_mem _ hb)
    have ha := h a List.mem_cons_self
    simp only [findMapOutcome]
    revert ha
    generalize f a = x
    generalize g a = y
    intro ha
    cases ha with
    | ok ha =>
      cases ha with
      | some ha => exact .ok (.some ha)
      | none => exact ih
    | err e => exact .err e
    | panic => exact .panic

/-- The same state of the replacement of entities. -/
structure CasedState (same : Char → Char → Prop) (a b : ReplaceState) : Prop where
  mapping : a.mapping = b.mapping
  processed : SameLetters same a.processed b.processed
  offset : a.offset = b.offset
  currentIx : a.currentIx = b.currentIx

include hr in
theorem replaceStep_cased (pl : Text → Text) (h : SameLetters same t t') {a b : ReplaceState} (hab : CasedState same a b)
    (m : MatchedEntity) : CasedState same (replaceStep t pl a m) (replaceStep t' pl b m) where
  mapping := by simp only [replaceStep, hab.mapping, hab.offset]
  processed := by
    simp only [replaceStep, hab.currentIx]
    exact (hab.processed.append (h.substr _)).append (.refl hr _)
  offset := by simp only [replaceStep, hab.offset]
  currentIx := rfl

include hr in
theorem replaceAll_cased (pl : Text → Text) (h : SameLetters same t t') : ∀ (ms : List MatchedEntity) {a b : ReplaceState},
    CasedState same a b → CasedState same (ms.foldl (replaceStep t pl) a) (ms.foldl (replaceStep t' pl) b)
  | [], _, _, hab => hab
  | m :: ms, _, _, hab => replaceAll_cased pl h ms (replaceStep_cased hr pl h hab m)

include hr in
theorem replaceOverflows_cased (pl : Text → Text) (h : SameLetters same t t') : ∀ (ms : List MatchedEntity) {a b : ReplaceState},
    CasedState same a b → replaceOverflows t pl a ms = replaceOverflows t' pl b ms
  | [], _, _, _ => rfl
  | m :: ms, a, b, hab => by
    simp only [replaceOverflows, replaceOverflows_cased pl h ms (replaceStep_cased hr pl h hab m), replaceStepOverflows, hab.offset]

include hr in
theorem replaceChecked_cased (debug : Bool) (pl : Text → Text) (h : SameLetters same t t') (ms : List MatchedEntity) :
    SameOutcome (fun a b => a.1 = b.1 ∧ SameLetters same a.2 b.2) (replaceChecked debug t ms pl) (replaceChecked debug t' ms pl) := by
  have h0 : CasedState same ⟨[], [], 0, 0⟩ ⟨[], [], 0, 0⟩ := ⟨rfl, .nil, rfl, rfl⟩
  unfold replaceChecked
  rw [replaceOverflows_cased hr pl h _ h0]
  split
  · exact .panic
  · refine .ok ?_
    unfold replaceEntities
    split
    · exact ⟨rfl, h⟩
    · have hs := replaceAll_cased hr pl h (sortByKey (fun e => e.range.start) (dedupEntities ms)) h0
      refine ⟨hs.mapping, hs.processed.append ?_⟩
      rw [hs.currentIx]
      exact h.drop _

include hr hf in
theorem matchIntent_cased (o : HashOrd) (p : Det) (hp : ∀ e ∈ p.regexes, ∀ r ∈ e.2, r.CaseBlind same) (h : SameLetters same t t')
    (s : Text × (List Kind × List Text)) :
    Prog.Cased same (Option.Rel (CasedInternalResult same)) (p.matchIntent env o t s) (p.matchIntent env o t' s) := by
  unfold Det.matchIntent
  refine .cached h fun bs => .custom h fun cs => Cased.ofOutcome ?_
  refine (replaceChecked_cased hr env.debugAssertions _ h _).bind fun a b hab => ?_
  refine (det_preprocess_cased hr hf p h s.1).bind fun c c' hc => ?_
  refine (det_preprocess_cased hr hf p hab.2 s.1).bind fun g g' hg => ?_
  rw [hab.1]
  cases hget : p.regexes.get s.1 with
  | none => exact .err _
  | some rs =>
    exact findMap_cased fun r hrm => tryRegex_cased hr hf o p h hc hg _ _ (hp _ (Map.get_some_mem hget) r hrm)

include hr hf in
theorem det_top_cased (o : HashOrd) (p : Det) (hp : ∀ e ∈ p.regexes, ∀ r ∈ e.2, r.CaseBlind same) (h : SameLetters same t t')
    (n : Nat) (wl : Option (List Text)) :
    Prog.Cased same (List.Forall₂ (CasedInternalResult same)) (p.parseTopIntents env o t n wl) (p.parseTopIntents env o t' n wl) := by
  unfold Det.parseTopIntents
  exact (Cased.mapM (R := Eq) (List.forall₂_same.2 fun _ _ => rfl)
    fun a b _ hab => hab ▸ matchIntent_cased hr hf o p hp h a).bind
    fun rs rs' hrs => .ret (rankByWeight_cased env.rd (filterMap_forall₂ (fun a b hab => hab) hrs) n)

include hr hf in
theorem det_cased (p : Det) (hp : ∀ e ∈ p.regexes, ∀ r ∈ e.2, r.CaseBlind same) : ParserImpl.Cased same (p.impl env) where
  parse _ _ _ h wl := (det_top_cased hr hf _ p hp h 1 wl).bind fun _ _ hl => .ret (pickUnambiguous_cased hl)
  getIntents _ _ _ h := (det_top_cased hr hf _ p hp h _ none).bind fun _ _ hl => .ret (by rw [intents_cased hl])
  getSlots _ _ _ h i := by
    simp only [Det.impl, Det.getSlots]
    split
    · exact ((det_top_cased hr hf _ p hp h 1 _).bind fun _ _ hl => Prog.Cased.ret (pickUnambiguous_cased hl)).bind
        fun _ _ hl => .ret hl.slots
    · exact .fail _

end Det

end Snips
