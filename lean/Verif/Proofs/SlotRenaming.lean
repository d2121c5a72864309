import Verif.Spec.SlotRenaming
import Verif.Proofs.LetterCase

/-! Code that does the same up to the names of slots. -/

namespace Snips

open Prog

namespace SlotNames

variable {f : Text → Text}

/-- Codes that do the same, the second with a result that is a function of that of the first. -/
abbrev Does {α β : Type} (g : α → β) (p : Prog α) (q : Prog β) : Prop := Prog.Alike (id : Text → Text) g p q

/-- Outcomes of which the second is a function of the first. -/
abbrev Ends {α β : Type} (g : α → β) (p : Outcome α) (q : Outcome β) : Prop := Outcome.Renamed (id : Text → Text) g p q

theorem err_eq {e e' : Err} (h : Err.Renamed (id : Text → Text) e e') : e' = e := by
  cases h <;> rfl

/-! ### Lists -/

theorem sortByKey_map {α β κ : Type} [LE κ] [DecidableLE κ] (g : α → β) (s : α → κ) (s' : β → κ) (h : ∀ a, s' (g a) = s a)
    (l : List α) : sortByKey s' (l.map g) = (sortByKey s l).map g := by
  unfold sortByKey
  refine (List.map_insertionSort _ _ g l ?_).symm
  intro a _ b _
  rw [h, h]

theorem dedupItems_map {α β κ : Type} [LE κ] [DecidableLE κ] (g : α → β) (v : α → α → Bool) (v' : β → β → Bool)
    (hv : ∀ a b, v' (g a) (g b) = v a b) (s : α → κ) (s' : β → κ) (h : ∀ a, s' (g a) = s a) (l : List α) :
    dedupItems v' s' (l.map g) = (dedupItems v s l).map g := by
  unfold dedupItems
  rw [sortByKey_map g s s' h]
  have : ∀ (l k : List α), (l.map g).foldl (dedupStep v') (k.map g) = (l.foldl (dedupStep v) k).map g := by
    intro l
    induction l with
    | nil => exact fun k => rfl
    | cons a l ih =>
      intro k
      have hs : dedupStep v' (k.map g) (g a) = (dedupStep v k a).map g := by
        unfold dedupStep
        have ha : ((k.map g).any fun d => v' d (g a)) = k.any fun d => v d a := by
          rw [List.any_map]
          congr 1
          funext d
          exact hv d a
        rw [ha]
        split
        · rfl
        · rw [List.map_append]; rfl
      rw [List.map_cons, List.foldl_cons, List.foldl_cons, hs]
      exact ih _
  exact this _ []

/-! ### Ranking -/

theorem pushResult_slots (m : Map Text (List InternalResult)) (r : InternalResult) :
    pushResult (m.map fun e => (e.1, e.2.map (·.renameSlots f))) (r.renameSlots f) =
      (pushResult m r).map fun e => (e.1, e.2.map (·.renameSlots f)) := by
  have hget := Map.get_mapBoth (h := (id : Text → Text)) Function.injective_id (List.map (InternalResult.renameSlots f)) m
  have hins := Map.insert_mapBoth (h := (id : Text → Text)) Function.injective_id (List.map (InternalResult.renameSlots f))
  simp only [id] at hget hins
  unfold pushResult
  rw [show (r.renameSlots f).intent = r.intent from rfl]
  cases r.intent.name with
  | none => rfl
  | some i =>
    simp only [hget]
    cases m.get i with
    | none => simpa using hins m i [r]
    | some rs => simpa using hins m i (rs ++ [r])

theorem bestPerIntent_slots (rd : Rounding) {o : HashOrd} (ho : o.Blind) (l : List InternalResult) :
    bestPerIntent rd o (l.map (·.renameSlots f)) = (bestPerIntent rd o l).map (·.renameSlots f) := by
  unfold bestPerIntent
  have hfold : ∀ (l : List InternalResult) (m : Map Text (List InternalResult)),
      (l.map (InternalResult.renameSlots f)).foldl pushResult (m.map fun e => (e.1, e.2.map (·.renameSlots f))) =
        (l.foldl pushResult m).map fun e => (e.1, e.2.map (·.renameSlots f)) := by
    intro l
    induction l with
    | nil => exact fun m => rfl
    | cons r l ih =>
      intro m
      simp only [List.map_cons, List.foldl_cons, pushResult_slots]
      exact ih _
  rw [show ([] : Map Text (List InternalResult)) = ([] : Map Text (List InternalResult)).map
    (fun e => (e.1, e.2.map (InternalResult.renameSlots f))) from rfl, hfold, ho, List.filterMap_map, List.map_filterMap]
  congr 1
  funext e
  exact maxByLast_map _ _ _ (fun r => by simp [InternalResult.renameSlots]) _

theorem rankByWeight_slots (rd : Rounding) (l : List InternalResult) (n : Nat) :
    rankByWeight rd (l.map (·.renameSlots f)) n = (rankByWeight rd l n).map (·.renameSlots f) := by
  unfold rankByWeight
  have h1 : ((l.map (InternalResult.renameSlots f)).map fun r => slotWeight rd r.slots.length) =
      l.map fun r => slotWeight rd r.slots.length := by
    rw [List.map_map]
    refine List.map_congr_left fun r _ => ?_
    simp [InternalResult.renameSlots]
  rw [h1]
  simp only [List.map_map, List.map_take]
  congr 1
  rw [← sortDesc_map (InternalResult.renameSlots f) (fun r => r.intent.score) (fun r => r.intent.score) (fun _ => rfl),
    List.map_map]
  congr 1
  refine List.map_congr_left fun r _ => ?_
  simp [InternalResult.renameSlots]

theorem pickUnambiguous_slots (l : List InternalResult) :
    pickUnambiguous (l.map (·.renameSlots f)) = (pickUnambiguous l).renameSlots f := by
  cases l with
  | nil => rfl
  | cons r l =>
    simp only [List.map_cons, pickUnambiguous]
    have : (r.renameSlots f).intent.score = r.intent.score := rfl
    rw [this]
    split <;> rfl

theorem map_intent_slots (l : List InternalResult) :
    (l.map (InternalResult.renameSlots f)).map InternalResult.intent = l.map InternalResult.intent := by
  simp only [List.map_map]
  rfl

/-- A parser and the parser with the renamed slots. -/
structure Parsers (f : Text → Text) (p q : ParserImpl) : Prop where
  parse : ∀ o : HashOrd, o.Blind → ∀ input wl, Does (InternalResult.renameSlots f) (p.parse o input wl) (q.parse o input wl)
  intents : ∀ o : HashOrd, o.Blind → ∀ input, Does id (p.getIntents o input) (q.getIntents o input)
  slots : ∀ o : HashOrd, o.Blind → ∀ input intent,
    Does (List.map (InternalSlot.renameSlot f)) (p.getSlots o input intent) (q.getSlots o input intent)

/-! ### The lookup parser -/

theorem lookup_slotOf (p : Lookup) (input : Text) (ie : Int × MatchedEntity) :
    Ends (InternalSlot.renameSlot f) (p.slotOf input ie) ((p.renameSlots f).slotOf input ie) := by
  unfold Lookup.slotOf indexName
  simp only [Lookup.renameSlots]
  split
  · rw [List.getElem?_map]
    cases p.slotsNames[ie.1.toNat]? with
    | none => exact .panic
    | some n => exact .ok _
  · exact .panic

theorem lookupOne_slots (env : RuleEnv) (p : Lookup) (input : Text) (wl : Option (List Text)) (c : Text × List MatchedEntity) :
    Ends (Option.map (InternalResult.renameSlots f)) (p.lookupOne env input wl c)
      ((p.renameSlots f).lookupOne env input wl c) := by
  unfold Lookup.lookupOne
  have : (p.renameSlots f).map = p.map := rfl
  rw [this]
  cases p.map.get (env.fns.hashStr c.1) with
  | none => exact .ok none
  | some out =>
    simp only [Lookup.parseMapOutput]
    split
    · exact .panic
    · refine (Outcome.Renamed.refl (indexName p.intentsNames out.1)).bind fun i => ?_
      simp only [id]
      split
      · have h := mapOutcome_alike (g := id) (lookup_slotOf (f := f) p input) (out.2.zip c.2)
        rw [List.map_id] at h
        exact h.bind fun slots => .ok _
      · exact .ok none

theorem lookup_candidates (env : RuleEnv) (p : Lookup) (input : Text) (wl : Option (List Text)) :
    (p.renameSlots f).getCandidates env input wl = p.getCandidates env input wl := by
  unfold Lookup.getCandidates
  have : ∀ scopes, (p.renameSlots f).candidatesFrom env input wl scopes = p.candidatesFrom env input wl scopes := by
    intro scopes
    induction scopes with
    | nil => rfl
    | cons s scopes ih =>
      simp only [Lookup.candidatesFrom, ih]
      rfl
  rw [this]
  rfl

theorem lookupTop (env : RuleEnv) {o : HashOrd} (ho : o.Blind) (p : Lookup) (input : Text) (n : Nat)
    (wl : Option (List Text)) :
    Does (List.map (InternalResult.renameSlots f)) (p.parseTopIntents env o input n wl)
      ((p.renameSlots f).parseTopIntents env o input n wl) := by
  unfold Lookup.parseTopIntents
  rw [lookup_candidates]
  refine Alike.same_bind _ fun cs => ?_
  have h := mapOutcome_alike (g := id) (lookupOne_slots (f := f) env p input wl) cs
  rw [List.map_id] at h
  refine (Alike.ofOutcome h).bind fun rs => Alike.ret' ?_
  rw [filterMap_id_map, bestPerIntent_slots _ ho, rankByWeight_slots]

theorem lookup_parsers (env : RuleEnv) (p : Lookup) : Parsers f (p.impl env) ((p.renameSlots f).impl env) := by
  have hparse : ∀ o : HashOrd, o.Blind → ∀ input wl,
      Does (InternalResult.renameSlots f) (p.parse env o input wl) ((p.renameSlots f).parse env o input wl) :=
    fun o ho input wl => (lookupTop env ho p input 1 wl).bind fun l => Alike.ret' (pickUnambiguous_slots l)
  refine ⟨hparse, fun o ho input => ?_, fun o ho input intent => ?_⟩
  · exact (lookupTop env ho p input _ none).bind fun l => Alike.ret' (by rw [map_intent_slots]; rfl)
  · show Does _ (p.getSlots env o input intent) ((p.renameSlots f).getSlots env o input intent)
    unfold Lookup.getSlots
    have hn : (p.renameSlots f).intentsNames = p.intentsNames := rfl
    rw [hn]
    split
    · exact (hparse o ho input (some [intent])).bind fun r => .ret _
    · exact .fail (.same _)

/-! ### The deterministic parser -/

theorem det_slotOf (hf : Function.Injective f) (o : HashOrd) (p : Det) (input formatted i : Text)
    (mapping : Option (Map Rng Rng)) (c : Rng × Text) :
    Ends (InternalSlot.renameSlot f) (p.slotOf o input formatted i mapping c)
      ((p.renameSlots f).slotOf o input formatted i mapping c) := by
  have hg := Map.get_mapBoth (h := (id : Text → Text)) Function.injective_id f p.groupNames (groupPrefix c.2)
  have hs := Map.get_mapBoth (h := (id : Text → Text)) Function.injective_id (Map.renameKeys (ν := Text) f) p.slotEntities i
  simp only [id] at hg hs
  unfold Det.slotOf
  simp only [Det.renameSlots, hg, hs]
  cases p.groupNames.get (groupPrefix c.2) with
  | none => exact .panic
  | some n =>
    cases p.slotEntities.get i with
    | none => exact .panic
    | some m =>
      show Ends _ ((Outcome.unwrap (Map.get m n)).bind _) ((Outcome.unwrap ((m.renameKeys f).get (f n))).bind _)
      rw [Map.get_renameKeys hf]
      cases Map.get m n with
      | none => exact .panic
      | some e => exact .ok _

theorem dedupSlots_map (fns : TextFns) (l : List InternalSlot) :
    dedupSlots fns (l.map (·.renameSlot f)) = (dedupSlots fns l).map (·.renameSlot f) := by
  unfold dedupSlots
  rw [← sortByKey_map (InternalSlot.renameSlot f) (fun s => s.charRange.start) (fun s => s.charRange.start) fun _ => rfl]
  congr 1
  exact dedupItems_map (InternalSlot.renameSlot f) _ _ (fun _ _ => rfl) _ _ (fun _ => rfl) l

theorem matchingResult_slots (hf : Function.Injective f) (fns : TextFns) (o : HashOrd) (p : Det) (input formatted : Text)
    (regex : Regex) (i : Text) (mapping : Option (Map Rng Rng)) :
    Ends (Option.map (InternalResult.renameSlots f)) (p.matchingResult fns o input formatted regex i mapping)
      ((p.renameSlots f).matchingResult fns o input formatted regex i mapping) := by
  unfold Det.matchingResult
  split
  · split
    · rename_i caps _
      have h := mapOutcome_alike (g := id) (det_slotOf hf o p input formatted i mapping)
        (namedCaptures caps regex.captureNames)
      rw [List.map_id] at h
      refine h.bind fun slots => ?_
      rw [dedupSlots_map]
      exact .ok _
    · exact .ok none
  · exact .ok none

theorem matchIntent_slots (hf : Function.Injective f) (env : RuleEnv) (o : HashOrd) (p : Det) (input : Text)
    (scope : Text × (List Kind × List Text)) :
    Does (Option.map (InternalResult.renameSlots f)) (p.matchIntent env o input scope)
      ((p.renameSlots f).matchIntent env o input scope) := by
  unfold Det.matchIntent
  refine .cached fun bs => .custom fun cs => Alike.ofOutcome ?_
  unfold Det.matchWith
  refine (Outcome.Renamed.refl _).bind fun replaced => ?_
  refine (Outcome.Renamed.refl _).bind fun cleaned => (Outcome.Renamed.refl _).bind fun formatted => ?_
  refine (Outcome.Renamed.refl _).bind fun rs => findMap_rename (fun regex => ?_) rs
  unfold Det.tryRegex
  refine (matchingResult_slots hf _ o p input _ regex scope.1 none).bind fun raw => ?_
  cases raw with
  | some r => exact .ok (some r)
  | none => exact matchingResult_slots hf _ o p input _ regex scope.1 _

theorem detTop (hf : Function.Injective f) (env : RuleEnv) (o : HashOrd) (p : Det) (input : Text) (n : Nat)
    (wl : Option (List Text)) :
    Does (List.map (InternalResult.renameSlots f)) (p.parseTopIntents env o input n wl)
      ((p.renameSlots f).parseTopIntents env o input n wl) := by
  unfold Det.parseTopIntents
  have hk : (p.renameSlots f).slotEntities.keys = p.slotEntities.keys := by
    simp [Det.renameSlots, Map.keys, List.map_map, Function.comp_def]
  have hin : (p.renameSlots f).inIntentsSet wl = p.inIntentsSet wl := by
    funext i
    unfold Det.inIntentsSet
    rw [hk]
  rw [hin]
  have h := Alike.mapM (g := id) (matchIntent_slots hf env o p input)
    ((o.order 0 p.scopes).filter fun s => p.inIntentsSet wl s.1)
  rw [List.map_id] at h
  refine h.bind fun rs => Alike.ret' ?_
  rw [filterMap_id_map, rankByWeight_slots]

theorem det_parsers (hf : Function.Injective f) (env : RuleEnv) (p : Det) :
    Parsers f (p.impl env) ((p.renameSlots f).impl env) := by
  have hparse : ∀ o : HashOrd, o.Blind → ∀ input wl,
      Does (InternalResult.renameSlots f) (p.parse env o input wl) ((p.renameSlots f).parse env o input wl) :=
    fun o ho input wl => (detTop hf env o p input 1 wl).bind fun l => Alike.ret' (pickUnambiguous_slots l)
  refine ⟨hparse, fun o ho input => ?_, fun o ho input intent => ?_⟩
  · exact (detTop hf env o p input _ none).bind fun l => Alike.ret' (by rw [map_intent_slots]; rfl)
  · show Does _ (p.getSlots env o input intent) ((p.renameSlots f).getSlots env o input intent)
    unfold Det.getSlots
    have hn : (p.renameSlots f).regexes = p.regexes := rfl
    rw [hn]
    split
    · exact (hparse o ho input (some [intent])).bind fun r => .ret _
    · exact .fail (.same _)

/-! ### The probabilistic parser -/

theorem outside_iff {t t' : Text} (h : TagRenamed f t t') : t' = outside ↔ t = outside := by
  have h1 := h.1
  constructor <;> rintro rfl
  · match t, h1 with
    | [a], h1 => simpa [outside, eq_comm] using h1
    | [], h1 => simp [outside] at h1
    | a :: b :: t, h1 => simp [outside] at h1
  · match t', h1 with
    | [a], h1 => simpa [outside] using h1
    | [], h1 => simp [outside] at h1
    | a :: b :: t, h1 => simp [outside] at h1

theorem getElem_tags {tags tags' : List Text} (h : List.Forall₂ (TagRenamed f) tags tags') :
    ∀ i : Nat, Option.Rel (TagRenamed f) tags[i]? tags'[i]? := by
  induction h with
  | nil => intro i; simp
  | cons hab _ ih =>
    intro i
    cases i with
    | zero => simpa using Option.Rel.some hab
    | succ i => simpa using ih i

theorem isOutside_tags {tags tags' : List Text} (h : List.Forall₂ (TagRenamed f) tags tags') :
    isOutside tags' = isOutside tags := by
  funext i
  unfold isOutside
  have hi := getElem_tags h i
  revert hi
  generalize tags[i]? = a
  generalize tags'[i]? = b
  intro hi
  cases hi with
  | none => rfl
  | some hab =>
    rw [Bool.eq_iff_iff]
    simpa using outside_iff hab

theorem isPrefixOf_two {p t : Text} (hp : p.length = 2) : p.isPrefixOf t = (t.take 2 == p) := by
  rw [Bool.eq_iff_iff, List.isPrefixOf_iff_prefix, beq_iff_eq, List.prefix_iff_eq_take, hp]
  exact eq_comm

theorem hasPrefix_tags {tags tags' : List Text} (h : List.Forall₂ (TagRenamed f) tags tags') {p : Text} (hp : p.length = 2)
    (i : Nat) : hasPrefix tags' i p = hasPrefix tags i p := by
  unfold hasPrefix
  have hi := getElem_tags h i
  revert hi
  generalize tags[i]? = a
  generalize tags'[i]? = b
  intro hi
  cases hi with
  | none => rfl
  | some hab =>
    show p.isPrefixOf _ = p.isPrefixOf _
    rw [isPrefixOf_two hp, isPrefixOf_two hp, hab.1]

/-- A slot range, renamed. -/
def renameRange (f : Text → Text) (s : SlotRange) : SlotRange := { s with slotName := f s.slotName }

theorem tagsLoop {tags tags' : List Text} (tokens : List Token)
    {isStart isEnd isStart' isEnd' : List Text → Nat → Bool}
    (hs : ∀ i, isStart' tags' i = isStart tags i) (he : ∀ i, isEnd' tags' i = isEnd tags i)
    (hend : ∀ i, isEnd tags i = true → isOutside tags i = false) {rest rest' : List Text}
    (h : List.Forall₂ (TagRenamed f) rest rest') : ∀ i cur, rest = tags.drop i →
    Ends (List.map (renameRange f)) (tagsToSlotsLoop tags tokens isStart isEnd i cur rest)
      (tagsToSlotsLoop tags' tokens isStart' isEnd' i cur rest') := by
  induction h with
  | nil => exact fun i cur _ => .ok []
  | @cons tag tag' rest rest' hab _ ih =>
    intro i cur hr
    have hnext : rest = tags.drop (i + 1) := by
      rw [← List.drop_drop, ← hr]; rfl
    have htag : tags[i]? = some tag := by
      have := congrArg List.head? hr
      simpa [List.head?_drop] using this.symm
    simp only [tagsToSlotsLoop, hs, he]
    cases hE : isEnd tags i with
    | false => exact ih _ _ hnext
    | true =>
      have ho : tag ≠ outside := by
        have := hend i hE
        simpa [isOutside, htag] using this
      simp only [if_true]
      cases tokens[if isStart tags i = true then i else cur]? with
      | none => exact .panic
      | some first =>
        cases tokens[i]? with
        | none => exact .panic
        | some last =>
          refine (ih (i + 1) i hnext).bind fun slots => ?_
          rw [show tagNameToSlotName tag' = f (tagNameToSlotName tag) from hab.2 ho]
          exact .ok _

theorem tagsToSlotRanges_slots {tags tags' : List Text} (tokens : List Token) (h : List.Forall₂ (TagRenamed f) tags tags')
    (scheme : Scheme) : Ends (List.map (renameRange f)) (tagsToSlotRanges tokens tags scheme)
      (tagsToSlotRanges tokens tags' scheme) := by
  have ho := isOutside_tags h
  have hl : tags'.length = tags.length := h.length_eq.symm
  have hb := fun i => hasPrefix_tags h (p := beginningPrefix) rfl i
  have hi := fun i => hasPrefix_tags h (p := insidePrefix) rfl i
  have hu := fun i => hasPrefix_tags h (p := unitPrefix) rfl i
  have hla := fun i => hasPrefix_tags h (p := lastPrefix) rfl i
  cases scheme with
  | io =>
    refine tagsLoop tokens ?_ ?_ ?_ h 0 0 rfl
    · intro i; simp only [isStartOfIoSlot, ho]
    · intro i; simp only [isEndOfIoSlot, ho, hl]
    · intro i; unfold isEndOfIoSlot; cases isOutside tags i <;> simp
  | bio =>
    refine tagsLoop tokens ?_ ?_ ?_ h 0 0 rfl
    · intro i; simp only [isStartOfBioSlot, ho, hb]
    · intro i; simp only [isEndOfBioSlot, ho, hl, hi]
    · intro i; unfold isEndOfBioSlot; cases isOutside tags i <;> simp
  | bilou =>
    refine tagsLoop tokens ?_ ?_ ?_ h 0 0 rfl
    · intro i; simp only [isStartOfBilouSlot, ho, hb, hu, hla]
    · intro i; simp only [isEndOfBilouSlot, ho, hl, hb, hu, hla]
    · intro i; unfold isEndOfBilouSlot; cases isOutside tags i <;> simp

theorem tagsToSlots_slots (hf : Function.Injective f) {tags tags' : List Text} (text : Text) (tokens : List Token)
    (h : List.Forall₂ (TagRenamed f) tags tags') (scheme : Scheme) (mapping : Map Text Text) :
    Ends (List.map (InternalSlot.renameSlot f)) (tagsToSlots text tokens tags scheme mapping)
      (tagsToSlots text tokens tags' scheme (mapping.renameKeys f)) := by
  unfold tagsToSlots
  refine (tagsToSlotRanges_slots tokens h scheme).bind fun ranges => ?_
  refine mapOutcome_alike (fun s => ?_) ranges
  unfold slotRangeToSlot
  refine (Outcome.Renamed.refl _).bind fun value => ?_
  simp only [renameRange, Map.get_renameKeys hf]
  exact (Outcome.Renamed.refl _).bind fun entity => .ok _

theorem filler_slots (hf : Function.Injective f) (codec : TagCodec) {a b : SlotFiller} (h : a.SlotsRenamed codec f b)
    (text : Text) : Does (List.map (InternalSlot.renameSlot f)) (a.getSlots codec text) (b.getSlots codec text) := by
  obtain ⟨fns, scheme, tagger, processor, mapping⟩ := a
  obtain ⟨fns', scheme', tagger', processor', mapping'⟩ := b
  obtain ⟨h1, h2, h3, h4, h5⟩ := h
  simp only at h1 h2 h3 h4 h5
  subst h1 h2 h3 h4
  unfold SlotFiller.getSlots
  cases tagger with
  | none =>
    cases tagger' with
    | none => exact .ret _
    | some t => exact absurd (h5 []) (by simp)
  | some s =>
    cases tagger' with
    | none => exact absurd (h5 []) (by simp)
    | some t =>
      cases processor' with
      | none => exact .ret _
      | some os =>
        simp only
        split
        · exact .ret _
        · refine Alike.same_bind _ fun features => Alike.ofOutcome ?_
          have ht := h5 features
          simp only [Option.rel_some_some] at ht
          have e1 : ∀ (t : Tagger) (m : Map Text Text), (do
              let encoded ← t.tag features
              let tags ← mapOutcome codec.decode encoded
              tagsToSlots text (fns'.tokenize text) tags scheme' m) =
              ((t.tag features).bind (mapOutcome codec.decode)).bind fun tags =>
                tagsToSlots text (fns'.tokenize text) tags scheme' m := by
            intro t m
            cases t.tag features <;> rfl
          rw [e1, e1]
          revert ht
          generalize (s.tag features).bind (mapOutcome codec.decode) = x
          generalize (t.tag features).bind (mapOutcome codec.decode) = y
          intro ht
          cases ht with
          | ok hab => exact tagsToSlots_slots hf text _ hab scheme' mapping
          | err e => exact .err (.same e)
          | panic => exact .panic

theorem fillers_get {codec : TagCodec} {l l' : Map Text SlotFiller}
    (h : List.Forall₂ (fun a b : Text × SlotFiller => b.1 = a.1 ∧ a.2.SlotsRenamed codec f b.2) l l') (i : Text) :
    Option.Rel (SlotFiller.SlotsRenamed codec f) (l.get i) (l'.get i) := by
  induction h with
  | nil => exact .none
  | @cons a b l l' hab _ ih =>
    obtain ⟨k, v⟩ := a
    obtain ⟨k', v'⟩ := b
    obtain ⟨rfl, hv⟩ := hab
    rw [Map.get_cons, Map.get_cons]
    split
    · exact .some hv
    · exact ih

theorem prob_parsers (hf : Function.Injective f) (env : ProbEnv) {p q : Prob} (hc : q.classifier = p.classifier)
    (h : List.Forall₂ (fun a b : Text × SlotFiller => b.1 = a.1 ∧ a.2.SlotsRenamed env.codec f b.2) p.slotFillers q.slotFillers) :
    Parsers f (p.impl env) (q.impl env) := by
  have hslots : ∀ e input intent, Does (List.map (InternalSlot.renameSlot f)) (p.slotsOf env e input intent)
      (q.slotsOf env e input intent) := by
    intro e input intent
    unfold Prob.slotsOf
    have hi := fillers_get h intent
    revert hi
    generalize p.slotFillers.get intent = a
    generalize q.slotFillers.get intent = b
    intro hi
    cases hi with
    | none => exact .fail (.same _)
    | some hab => exact filler_slots hf env.codec hab input
  refine ⟨fun o ho input wl => ?_, fun o ho input => ?_, fun o ho input intent => hslots _ input intent⟩
  · show Does _ (p.parse env o input wl) (q.parse env o input wl)
    unfold Prob.parse
    rw [hc]
    refine Alike.same_bind _ fun res => ?_
    cases res.name with
    | none => exact .ret _
    | some i => exact (hslots _ input i).bind fun slots => .ret _
  · show Does _ (p.getIntents env o input) (q.getIntents env o input)
    unfold Prob.getIntents
    rw [hc]
    exact Alike.refl _

theorem parsers (hf : Function.Injective f) {p q : ParserModel} (h : p.SlotsRenamed f q) : Parsers f p.impl q.impl := by
  cases h with
  | lookup env p => exact lookup_parsers env p
  | deterministic env p => exact det_parsers hf env p
  | probabilistic env p q hc h => exact prob_parsers hf env hc h

/-! ### The engine -/

/-- An engine and the engine with the renamed slots. -/
structure Engines (f : Text → Text) (e e' : Engine) : Prop where
  dataset : e'.dataset = e.dataset.renameSlots f
  names : e'.names = e.names
  parsers : List.Forall₂ (Parsers f) e.parsers e'.parsers

theorem ofParsers (hf : Function.Injective f) (d : DatasetMetadata) (names : KindNames) {ps qs : List ParserModel}
    (h : List.Forall₂ (ParserModel.SlotsRenamed f) ps qs) :
    Engines f (Engine.ofParsers d names ps) (Engine.ofParsers (d.renameSlots f) names qs) := by
  refine ⟨rfl, rfl, ?_⟩
  simp only [Engine.ofParsers]
  induction h with
  | nil => exact .nil
  | cons hp _ ih => exact .cons (SlotNames.parsers hf hp) ih

variable {e e' : Engine}

theorem keys_eq (h : Engines f e e') : e'.dataset.slotNameMappings.keys = e.dataset.slotNameMappings.keys := by
  rw [h.dataset]
  simp [DatasetMetadata.renameSlots, Map.keys, List.map_map, Function.comp_def]

theorem resolveOne (h : Engines f e e') (n : Nat) (bs : List BuiltinEntity) (cs : List CustomEntity) (s : InternalSlot) :
    Does (Option.map (Slot.renameSlot f)) (e.resolveOne n bs cs s) (e'.resolveOne n bs cs (s.renameSlot f)) := by
  have hent : e'.dataset.entities = e.dataset.entities := by rw [h.dataset]; rfl
  unfold Engine.resolveOne
  rw [hent, h.names]
  simp only [InternalSlot.renameSlot]
  cases e.dataset.entities.get s.entity with
  | some extensible =>
    show Does _ (resolveCustomSlot s extensible cs n) (resolveCustomSlot (s.renameSlot f) extensible cs n)
    have hfin : ∀ m, finishCustomSlot (s.renameSlot f) extensible m =
        (finishCustomSlot s extensible m).map (Slot.renameSlot f) := by
      intro m
      cases m with
      | some m => rfl
      | none => unfold finishCustomSlot; cases extensible <;> rfl
    unfold resolveCustomSlot
    simp only [hfin]
    rw [show (s.renameSlot f).entity = s.entity from rfl, show (s.renameSlot f).charRange = s.charRange from rfl,
      show (s.renameSlot f).value = s.value from rfl]
    cases cs.find? fun e => decide (e.identifier = s.entity ∧ e.range = s.charRange) with
    | some m => exact .ret _
    | none => exact .custom fun es => .ret _
  | none =>
    show Does _ (resolveBuiltinSlot e.names s bs n) (resolveBuiltinSlot e.names (s.renameSlot f) bs n)
    unfold resolveBuiltinSlot
    rw [show (s.renameSlot f).entity = s.entity from rfl, show (s.renameSlot f).charRange = s.charRange from rfl,
      show (s.renameSlot f).value = s.value from rfl]
    refine Alike.same_bind _ fun kind => ?_
    cases bs.find? fun e => decide (e.kind = kind ∧ e.range = s.charRange) with
    | some m => exact .ret _
    | none =>
      refine .fresh fun es => Alike.ret' ?_
      cases es.getLast? <;> rfl

theorem resolveEach (h : Engines f e e') (n : Nat) (bs : List BuiltinEntity) (cs : List CustomEntity) :
    ∀ l : List InternalSlot, Does (List.map (Slot.renameSlot f)) (e.resolveEach n bs cs l)
      (e'.resolveEach n bs cs (l.map (·.renameSlot f)))
  | [] => .ret []
  | s :: l => by
    simp only [List.map_cons, Engine.resolveEach]
    refine (resolveOne h n bs cs s).bind fun r => (resolveEach h n bs cs l).bind fun rest => Alike.ret' ?_
    cases r <;> rfl

theorem resolve (h : Engines f e e') (text : Text) (l : List InternalSlot) (n : Nat) :
    Does (List.map (Slot.renameSlot f)) (e.resolveSlots text l n) (e'.resolveSlots text (l.map (·.renameSlot f)) n) := by
  unfold Engine.resolveSlots
  rw [List.isEmpty_map, h.names, List.filterMap_map, List.filterMap_map]
  split
  · exact .ret _
  · exact .fresh fun bs => .custom fun cs => resolveEach h n bs cs l

theorem cascade (h : Engines f e e') {o : HashOrd} (ho : o.Blind) (input : Text) (wl : Option (List Text)) (n : Nat)
    {ps qs : List ParserImpl} (hps : List.Forall₂ (Parsers f) ps qs) : ∀ i score,
    Does (ParseResult.renameSlots f) (e.cascade o input wl n i ps score) (e'.cascade o input wl n i qs score) := by
  induction hps with
  | nil => exact fun i score => .ret _
  | cons hp _ ih =>
    intro i score
    simp only [Engine.cascade]
    refine (hp.parse _ (ho.sub i) input wl).bind fun r => ?_
    simp only [InternalResult.renameSlots]
    cases hn : r.intent.name with
    | none => exact ih _ _
    | some name => exact (resolve h input r.slots n).bind fun slots => .ret _

theorem collect {o : HashOrd} (ho : o.Blind) (input : Text) {ps qs : List ParserImpl} (hps : List.Forall₂ (Parsers f) ps qs) :
    ∀ i (m : Map (Option Text) IntentResult),
    Does id (Engine.collectIntents o input i ps m) (Engine.collectIntents o input i qs m) := by
  induction hps with
  | nil => exact fun i m => .ret _
  | cons hp _ ih =>
    intro i m
    simp only [Engine.collectIntents]
    exact (hp.intents _ (ho.sub i) input).bind fun rs => ih _ _

theorem intents (h : Engines f e e') {o : HashOrd} (ho : o.Blind) (input : Text) :
    Does id (e.getIntents o input) (e'.getIntents o input) := by
  unfold Engine.getIntents
  exact (collect (ho.sub 0) input h.parsers 0 []).bind fun m => .ret _

theorem slotsCascade (h : Engines f e e') {o : HashOrd} (ho : o.Blind) (input intent : Text) (n : Nat)
    {ps qs : List ParserImpl} (hps : List.Forall₂ (Parsers f) ps qs) : ∀ i,
    Does (List.map (Slot.renameSlot f)) (e.slotsCascade o input intent n i ps) (e'.slotsCascade o input intent n i qs) := by
  induction hps with
  | nil => exact fun i => .ret _
  | cons hp _ ih =>
    intro i
    simp only [Engine.slotsCascade]
    refine (hp.slots _ (ho.sub i) input intent).bind fun slots => ?_
    rw [List.isEmpty_map]
    split
    · exact ih _
    · exact resolve h input slots n

theorem alternatives (h : Engines f e e') {o : HashOrd} (ho : o.Blind) (input : Text) (n : Nat) :
    ∀ (l : List IntentResult) i, Does (List.map (Alternative.renameSlots f)) (e.alternativesSlots o input n i l)
      (e'.alternativesSlots o input n i l)
  | [], _ => .ret _
  | r :: l, i => by
    simp only [Engine.alternativesSlots]
    have hone : Does (List.map (Slot.renameSlot f)) (e.alternativeSlots (o.sub i) input n r.name)
        (e'.alternativeSlots (o.sub i) input n r.name) := by
      cases r.name with
      | none => exact .ret _
      | some name => exact slotsCascade h (ho.sub i) input name n h.parsers 0
    exact hone.bind fun slots => (alternatives h ho input n l (i + 1)).bind fun alts => .ret _

theorem parseWith (h : Engines f e e') {o : HashOrd} (ho : o.Blind) (input : Text) (wl bl : Option (List Text)) (ni ns : Nat) :
    Does (ParseResult.renameSlots f) (e.parseWithAlternatives o input wl bl ni ns)
      (e'.parseWithAlternatives o input wl bl ni ns) := by
  unfold Engine.parseWithAlternatives
  have hw : e'.getIntentsWhitelist = e.getIntentsWhitelist := by
    unfold Engine.getIntentsWhitelist
    rw [keys_eq h]
  rw [hw]
  refine Alike.same_bind _ fun w => ?_
  refine (cascade h (ho.sub 1) input w ns h.parsers 0 0).bind fun main => ?_
  split
  · exact .ret _
  · refine (intents h (ho.sub 2) input).bind fun ranked => ?_
    exact (alternatives h (ho.sub 3) input ns _ 0).bind fun alts => .ret _

/-- The extraction of a slot of an entity. -/
def extractKnown (dataset : DatasetMetadata) (names : KindNames) (input slot : Text) (n : Nat) (entity : Text) :
    Prog (Option Slot) :=
  match dataset.entities.get entity with
  | some extensible => Engine.extractCustomSlot input entity slot extensible n
  | none => Engine.extractBuiltinSlot names input entity slot n

theorem extract_eq (e : Engine) (input intent slot : Text) (n : Nat) :
    e.extractSlotWithAlternatives input intent slot n =
      (Prog.ofOutcome (Outcome.ofOption (.extractUnknownIntent intent) (e.dataset.slotNameMappings.get intent))).bind fun m =>
        (Prog.ofOutcome (Outcome.ofOption (.extractUnknownSlot slot) (Map.get m slot))).bind
          (extractKnown e.dataset e.names input slot n) := rfl

/-- The extraction of a slot: an unknown slot is refused with its new name. -/
theorem extract (hf : Function.Injective f) (h : Engines f e e') (input intent slot : Text) (n : Nat) :
    Does (Option.map (Slot.renameSlot f)) (e.extractSlotWithAlternatives input intent slot n)
      (e'.extractSlotWithAlternatives input intent (f slot) n) ∨
    (e.extractSlotWithAlternatives input intent slot n = .fail (.extractUnknownSlot slot) ∧
      e'.extractSlotWithAlternatives input intent (f slot) n = .fail (.extractUnknownSlot (f slot))) := by
  rw [extract_eq, extract_eq]
  have hg : e'.dataset.slotNameMappings.get intent = (e.dataset.slotNameMappings.get intent).map (Map.renameKeys f) := by
    rw [h.dataset]
    have := Map.get_mapBoth (h := (id : Text → Text)) Function.injective_id (Map.renameKeys (ν := Text) f)
      e.dataset.slotNameMappings intent
    exact this
  have hent : e'.dataset.entities = e.dataset.entities := by rw [h.dataset]; rfl
  rw [hg]
  cases e.dataset.slotNameMappings.get intent with
  | none => exact .inl (.fail (.same _))
  | some m =>
    have hm := Map.get_renameKeys hf m slot
    simp only [Option.map_some, Outcome.ofOption, Prog.ofOutcome, Prog.bind, hm]
    cases Map.get m slot with
    | none => exact .inr ⟨rfl, rfl⟩
    | some entity =>
      refine .inl ?_
      simp only [Prog.bind, extractKnown]
      rw [hent, h.names]
      cases e.dataset.entities.get entity with
      | some extensible =>
        refine .custom fun es => Alike.ret' ?_
        cases es.getLast? with
        | some m => rfl
        | none => cases extensible <;> rfl
      | none =>
        refine Alike.same_bind _ fun kind => .fresh fun es => Alike.ret' ?_
        cases es.head? <;> rfl

/-- A call of an engine and of the engine with renamed slots. -/
theorem code (hf : Function.Injective f) (h : Engines f e e') (call : EngineCall) (hb : call.Blind) :
    Does (EngineAnswer.renameSlots f) (e.code call) (e'.code (call.renameSlots f)) ∨
    ∃ s, e.code call = .fail (.extractUnknownSlot s) ∧ e'.code (call.renameSlots f) = .fail (.extractUnknownSlot (f s)) := by
  cases call with
  | parse o input wl bl ni ns => exact .inl ((parseWith h hb input wl bl ni ns).bind fun r => .ret _)
  | intents o input => exact .inl ((intents h hb input).bind fun r => .ret _)
  | slots o input intent ns => exact .inl ((slotsCascade h hb input intent ns h.parsers 0).bind fun r => .ret _)
  | extract input intent slot ns =>
    rcases extract hf h input intent slot ns with hx | ⟨h1, h2⟩
    · exact .inl (hx.bind fun r => .ret _)
    · refine .inr ⟨slot, ?_, ?_⟩
      · show Prog.bind _ _ = _
        rw [h1]; rfl
      · show Prog.bind _ _ = _
        rw [h2]; rfl

theorem ends {o o' : Outcome EngineAnswer} (h : Ends (EngineAnswer.renameSlots f) o o') : Outcome.SlotsRenamed f o o' := by
  cases h with
  | ok a => exact .ok a
  | err h => rw [err_eq h]; exact .err _
  | panic => exact .panic

theorem history (hf : Function.Injective f) (h : Engines f e e') (x : Ext) : ∀ (calls : List (Nat × EngineCall)),
    (∀ c ∈ calls, c.2.Blind) → ∀ caches,
    List.Forall₂ (Outcome.SlotsRenamed f) (runHistory x (calls.map fun c => (c.1, e.code c.2)) caches).1
      (runHistory x (calls.map fun c => (c.1, e'.code (c.2.renameSlots f))) caches).1 ∧
    (runHistory x (calls.map fun c => (c.1, e'.code (c.2.renameSlots f))) caches).2 =
      (runHistory x (calls.map fun c => (c.1, e.code c.2)) caches).2
  | [], _, _ => ⟨.nil, rfl⟩
  | (t, call) :: calls, hb, caches => by
    simp only [List.map_cons, runHistory]
    have hone : Outcome.SlotsRenamed f ((e.code call).runCached x t caches).1
        ((e'.code (call.renameSlots f)).runCached x t caches).1 ∧
        ((e'.code (call.renameSlots f)).runCached x t caches).2 = ((e.code call).runCached x t caches).2 := by
      rcases code hf h call (hb _ List.mem_cons_self) with hd | ⟨s, h1, h2⟩
      · have := hd.runCached x t caches
        exact ⟨ends this.1, this.2⟩
      · rw [h1, h2]
        exact ⟨.unknown s, rfl⟩
    rw [hone.2]
    have := history hf h x calls (fun c hc => hb c (List.mem_cons_of_mem _ hc)) ((e.code call).runCached x t caches).2
    exact ⟨.cons hone.1 this.1, this.2⟩

end SlotNames

end Snips
