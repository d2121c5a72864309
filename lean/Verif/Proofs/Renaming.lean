import Verif.Spec.Renaming
import Verif.Proofs.Clock

/-! Code that does the same up to the names of intents. -/

namespace Snips

/-- Two codes that make the same requests, the second ending with the renamed result of the first. -/
inductive Prog.Alike {α β : Type} (f : Text → Text) (g : α → β) : Prog α → Prog β → Prop where
  | ret (a : α) : Alike f g (.ret a) (.ret (g a))
  | fail {e e' : Err} : Err.Renamed f e e' → Alike f g (.fail e) (.fail e')
  | panic : Alike f g .panic .panic
  | cached {s kinds k k'} : (∀ r, Alike f g (k r) (k' r)) → Alike f g (.builtinCached s kinds k) (.builtinCached s kinds k')
  | fresh {s kinds n k k'} : (∀ r, Alike f g (k r) (k' r)) → Alike f g (.builtinFresh s kinds n k) (.builtinFresh s kinds n k')
  | custom {s kinds n k k'} : (∀ r, Alike f g (k r) (k' r)) → Alike f g (.custom s kinds n k) (.custom s kinds n k')

namespace Prog.Alike

variable {α β γ δ : Type} {f : Text → Text} {g : α → β} {g' : γ → δ}

theorem ret' {a : α} {b : β} (h : b = g a) : Alike f g (.ret a) (.ret b) := h ▸ .ret a

theorem refl (p : Prog α) : Alike f id p p := by
  induction p with
  | ret a => exact .ret a
  | fail e => exact .fail (.same e)
  | panic => exact .panic
  | builtinCached s kinds k ih => exact .cached ih
  | builtinFresh s kinds n k ih => exact .fresh ih
  | custom s kinds n k ih => exact .custom ih

theorem bind {p : Prog α} {q : Prog β} {k : α → Prog γ} {k' : β → Prog δ} (h : Alike f g p q)
    (hk : ∀ a, Alike f g' (k a) (k' (g a))) : Alike f g' (p.bind k) (q.bind k') := by
  induction h with
  | ret a => exact hk a
  | fail e => exact .fail e
  | panic => exact .panic
  | cached _ ih => exact .cached ih
  | fresh _ ih => exact .fresh ih
  | custom _ ih => exact .custom ih

theorem same_bind (p : Prog α) {k : α → Prog γ} {k' : α → Prog δ} (hk : ∀ a, Alike f g' (k a) (k' a)) :
    Alike f g' (p.bind k) (p.bind k') := (refl p).bind hk

theorem ofOutcome {o : Outcome α} {o' : Outcome β} (h : Outcome.Renamed f g o o') :
    Alike f g (Prog.ofOutcome o) (Prog.ofOutcome o') := by
  cases h with
  | ok a => exact .ret a
  | err h => exact .fail h
  | panic => exact .panic

theorem mapM {k : α → Prog γ} {k' : β → Prog δ} (hk : ∀ a, Alike f g' (k a) (k' (g a))) :
    ∀ l : List α, Alike f (List.map g') (Prog.mapM k l) (Prog.mapM k' (l.map g))
  | [] => .ret []
  | a :: l => by
    simp only [List.map_cons, Prog.mapM]
    exact (hk a).bind fun b => (mapM hk l).bind fun bs => .ret _

theorem run {p : Prog α} {q : Prog β} (h : Alike f g p q) (w : World) : Outcome.Renamed f g (p.run w) (q.run w) := by
  induction h with
  | ret a => exact .ok a
  | fail e => exact .err e
  | panic => exact .panic
  | @cached s kinds k k' _ ih =>
    simp only [Prog.run]
    cases w.builtin s kinds 0 with
    | ok es => exact ih _
    | err e => exact .err (.same e)
    | panic => exact .panic
  | @fresh s kinds n k k' _ ih =>
    simp only [Prog.run]
    cases w.builtin s kinds n with
    | ok es => exact ih _
    | err e => exact .err (.same e)
    | panic => exact .panic
  | @custom s kinds n k k' _ ih =>
    simp only [Prog.run]
    cases w.custom s kinds n with
    | ok es => exact ih _
    | err e => exact .err (.same e)
    | panic => exact .panic

theorem runCached {p : Prog α} {q : Prog β} (h : Alike f g p q) (x : Ext) (t : Nat) :
    ∀ c, Outcome.Renamed f g (p.runCached x t c).1 (q.runCached x t c).1 ∧ (q.runCached x t c).2 = (p.runCached x t c).2 := by
  induction h with
  | ret a => exact fun c => ⟨.ok a, rfl⟩
  | fail e => exact fun c => ⟨.err e, rfl⟩
  | panic => exact fun c => ⟨.panic, rfl⟩
  | @cached s kinds k k' _ ih =>
    intro c
    simp only [Prog.runCached]
    rcases x.builtinCachedAccess t s kinds 0 c with ⟨o, c'⟩
    cases o with
    | ok es => exact ih _ c'
    | err e => exact ⟨.err (.same e), rfl⟩
    | panic => exact ⟨.panic, rfl⟩
  | @fresh s kinds n k k' _ ih =>
    intro c
    simp only [Prog.runCached]
    cases x.builtinRaw t (x.lower s) kinds n with
    | ok es => exact ih _ c
    | err e => exact ⟨.err (.same e), rfl⟩
    | panic => exact ⟨.panic, rfl⟩
  | @custom s kinds n k k' _ ih =>
    intro c
    simp only [Prog.runCached]
    rcases x.customCachedAccess s kinds n c with ⟨o, c'⟩
    cases o with
    | ok es => exact ih _ c'
    | err e => exact ⟨.err (.same e), rfl⟩
    | panic => exact ⟨.panic, rfl⟩

end Prog.Alike

open Prog

/-! ### Tables and lists -/

variable {f : Text → Text}

theorem contains_map_injective (hf : Function.Injective f) (l : List Text) (i : Text) :
    (l.map f).contains (f i) = l.contains i := by
  rw [Bool.eq_iff_iff]
  simp only [List.contains_iff_mem]
  exact List.mem_map_of_injective hf

theorem Map.get_mapBoth {κ κ' ν ν' : Type} [DecidableEq κ] [DecidableEq κ'] {h : κ → κ'} (hh : Function.Injective h)
    (g : ν → ν') (m : Map κ ν) (k : κ) : Map.get (m.map fun e => (h e.1, g e.2)) (h k) = (m.get k).map g := by
  induction m with
  | nil => rfl
  | cons e m ih =>
    obtain ⟨k', v⟩ := e
    rw [List.map_cons, Map.get_cons, Map.get_cons]
    by_cases hk : k = k'
    · subst hk; simp
    · have : h k ≠ h k' := fun hc => hk (hh hc)
      simpa [hk, this] using ih

theorem Map.insert_mapBoth {κ κ' ν ν' : Type} [DecidableEq κ] [DecidableEq κ'] {h : κ → κ'} (hh : Function.Injective h)
    (g : ν → ν') (m : Map κ ν) (k : κ) (v : ν) :
    Map.insert (m.map fun e => (h e.1, g e.2)) (h k) (g v) = (m.insert k v).map fun e => (h e.1, g e.2) := by
  induction m with
  | nil => rfl
  | cons e m ih =>
    obtain ⟨k', v'⟩ := e
    simp only [List.map_cons, Map.insert]
    by_cases hk : k' = k
    · subst hk; simp
    · have : h k' ≠ h k := fun hc => hk (hh hc)
      simp [hk, this, ih]

theorem Map.get_renameKeys {ν : Type} (hf : Function.Injective f) (m : Map Text ν) (k : Text) :
    (m.renameKeys f).get (f k) = m.get k := by
  have := Map.get_mapBoth hf (id : ν → ν) m k
  simpa [Map.renameKeys] using this

theorem Map.keys_renameKeys {ν : Type} (m : Map Text ν) : (m.renameKeys f).keys = m.keys.map f := by
  simp [Map.keys, Map.renameKeys]

theorem forIntent_rename (hf : Function.Injective f) (s : StopWords) (i : Text) :
    (s.rename f).forIntent (f i) = s.forIntent i := by
  unfold StopWords.forIntent
  simp only [StopWords.rename, Map.get_renameKeys hf]

theorem allowedBy_rename (hf : Function.Injective f) (wl : Option (List Text)) (i : Text) :
    allowedBy (wl.map (·.map f)) (f i) = allowedBy wl i := by
  cases wl with
  | none => rfl
  | some l => exact contains_map_injective hf l i

theorem filter_map_of {α β : Type} {g : α → β} {p : β → Bool} {q : α → Bool} (h : ∀ a, p (g a) = q a) (l : List α) :
    (l.map g).filter p = (l.filter q).map g := by
  rw [List.filter_map]
  congr 1
  exact List.filter_congr fun a _ => h a

theorem sortDesc_map {α β : Type} (g : α → β) (s : α → ℚ) (s' : β → ℚ) (h : ∀ a, s' (g a) = s a) (l : List α) :
    sortDesc s' (l.map g) = (sortDesc s l).map g := by
  unfold sortDesc
  refine (List.map_insertionSort _ _ g l ?_).symm
  intro a _ b _
  rw [h, h]

theorem mapOutcome_alike {α β γ δ : Type} {k : α → Outcome γ} {k' : β → Outcome δ} {g : α → β} {g' : γ → δ}
    (h : ∀ a, Outcome.Renamed f g' (k a) (k' (g a))) :
    ∀ l : List α, Outcome.Renamed f (List.map g') (mapOutcome k l) (mapOutcome k' (l.map g))
  | [] => .ok []
  | a :: l => by
    simp only [List.map_cons, mapOutcome]
    have ha := h a
    have hl := mapOutcome_alike h l
    cases hk : k a <;> cases hk' : k' (g a) <;> rw [hk, hk'] at ha <;> cases ha
    · cases hm : mapOutcome k l <;> cases hm' : mapOutcome k' (l.map g) <;> rw [hm, hm'] at hl <;> cases hl
      · exact .ok _
      · rename_i h; exact .err h
      · exact .panic
    · rename_i h; exact .err h
    · exact .panic

/-! ### Rule-based parsers -/

theorem pushResult_rename (hf : Function.Injective f) (m : Map Text (List InternalResult)) (r : InternalResult) :
    pushResult (m.map fun e => (f e.1, e.2.map (·.rename f))) (r.rename f) =
      (pushResult m r).map fun e => (f e.1, e.2.map (·.rename f)) := by
  have hget := Map.get_mapBoth hf (List.map (InternalResult.rename f)) m
  have hins := Map.insert_mapBoth hf (List.map (InternalResult.rename f))
  unfold pushResult
  cases hn : r.intent.name with
  | none => simp [InternalResult.rename, IntentResult.rename, hn]
  | some i =>
    have hn' : (r.rename f).intent.name = some (f i) := by simp [InternalResult.rename, IntentResult.rename, hn]
    simp only [hn', hget]
    cases m.get i with
    | none => simpa using hins m i [r]
    | some rs => simpa using hins m i (rs ++ [r])

theorem maxByLast_map {α β : Type} (g : α → β) (s : α → ℚ) (s' : β → ℚ) (h : ∀ a, s' (g a) = s a) (l : List α) :
    maxByLast s' (l.map g) = (maxByLast s l).map g := by
  cases l with
  | nil => rfl
  | cons a l =>
    simp only [List.map_cons, maxByLast, Option.map_some, Option.some.injEq]
    induction l generalizing a with
    | nil => rfl
    | cons b l ih =>
      simp only [List.map_cons, List.foldl_cons, h]
      by_cases hab : s a ≤ s b
      · simp only [hab, if_true]; exact ih b
      · simp only [hab, if_false]; exact ih a

theorem rankByWeight_rename (rd : Rounding) (l : List InternalResult) (n : Nat) :
    rankByWeight rd (l.map (·.rename f)) n = (rankByWeight rd l n).map (·.rename f) := by
  unfold rankByWeight
  have h1 : ((l.map (InternalResult.rename f)).map fun r => slotWeight rd r.slots.length) =
      l.map fun r => slotWeight rd r.slots.length := by
    rw [List.map_map]; rfl
  rw [h1]
  simp only [List.map_map, List.map_take]
  congr 1
  rw [← sortDesc_map (InternalResult.rename f) (fun r => r.intent.score) (fun r => r.intent.score) (fun _ => rfl), List.map_map]
  rfl

theorem pickUnambiguous_rename (l : List InternalResult) :
    pickUnambiguous (l.map (·.rename f)) = (pickUnambiguous l).rename f := by
  cases l with
  | nil => rfl
  | cons r l =>
    simp only [List.map_cons, pickUnambiguous]
    have : (r.rename f).intent.score = r.intent.score := rfl
    rw [this]
    split <;> rfl

theorem completeRanking_rename (hf : Function.Injective f) (names : List Text) (top : List IntentResult) :
    completeRanking (names.map f) (top.map (·.rename f)) = (completeRanking names top).map (·.rename f) := by
  have hn : (top.map (IntentResult.rename f)).filterMap IntentResult.name = (top.filterMap IntentResult.name).map f := by
    rw [List.filterMap_map, List.map_filterMap]
    rfl
  unfold completeRanking
  rw [hn, filter_map_of (q := fun i => !(top.filterMap IntentResult.name).contains i) fun i => by
    rw [contains_map_injective hf]]
  simp only [List.map_append, List.map_map, List.map_cons, List.map_nil]
  rfl

theorem lookup_preprocess_rename (hf : Function.Injective f) (env : RuleEnv) (p : Lookup) (t i : Text) :
    (p.rename f).preprocess env t (f i) = p.preprocess env t i := by
  unfold Lookup.preprocess
  simp only [Lookup.rename, forIntent_rename hf]

theorem scopeCandidates_rename (hf : Function.Injective f) (env : RuleEnv) (p : Lookup) (input : Text) (group : List Text)
    (es : List MatchedEntity) :
    (p.rename f).scopeCandidates env input (group.map f) es = p.scopeCandidates env input group es := by
  unfold Lookup.scopeCandidates
  simp only [List.flatMap_map, lookup_preprocess_rename hf]

theorem candidatesFrom_rename (hf : Function.Injective f) (env : RuleEnv) (p : Lookup) (input : Text)
    (wl : Option (List Text)) : ∀ scopes : List GroupedScope,
    (p.rename f).candidatesFrom env input (wl.map (·.map f)) (scopes.map (·.rename f)) =
      p.candidatesFrom env input wl scopes
  | [] => rfl
  | scope :: scopes => by
    have hg : (scope.rename f).intentGroup.filter (allowedBy (wl.map (·.map f))) =
        (scope.intentGroup.filter (allowedBy wl)).map f := filter_map_of (allowedBy_rename hf wl) _
    have ha : Lookup.allEntities env input (scope.rename f) = Lookup.allEntities env input scope := rfl
    simp only [List.map_cons, Lookup.candidatesFrom, hg, ha, candidatesFrom_rename hf env p input wl scopes,
      scopeCandidates_rename hf, List.isEmpty_map]

theorem indexName_rename (names : List Text) (id : Int) : Outcome.Renamed f f (indexName names id) (indexName (names.map f) id) := by
  unfold indexName
  split
  · rw [List.getElem?_map]
    cases names[id.toNat]? with
    | none => exact .panic
    | some n => exact .ok n
  · exact .panic

theorem Outcome.Renamed.refl {α : Type} (o : Outcome α) : Outcome.Renamed f id o o := by
  cases o with
  | ok a => exact .ok a
  | err e => exact .err (.same e)
  | panic => exact .panic

theorem Outcome.Renamed.bind {α β γ δ : Type} {g : α → β} {g' : γ → δ} {o : Outcome α} {o' : Outcome β}
    {k : α → Outcome γ} {k' : β → Outcome δ} (h : Outcome.Renamed f g o o')
    (hk : ∀ a, Outcome.Renamed f g' (k a) (k' (g a))) : Outcome.Renamed f g' (o.bind k) (o'.bind k') := by
  cases h with
  | ok a => exact hk a
  | err h => exact .err h
  | panic => exact .panic

theorem lookupOne_rename (hf : Function.Injective f) (env : RuleEnv) (p : Lookup) (input : Text) (wl : Option (List Text))
    (c : Text × List MatchedEntity) :
    Outcome.Renamed f (Option.map (InternalResult.rename f)) (p.lookupOne env input wl c)
      ((p.rename f).lookupOne env input (wl.map (·.map f)) c) := by
  unfold Lookup.lookupOne
  have : (p.rename f).map = p.map := rfl
  rw [this]
  cases p.map.get (env.fns.hashStr c.1) with
  | none => exact .ok none
  | some out =>
    simp only [Lookup.parseMapOutput]
    split
    · exact .panic
    · refine (indexName_rename p.intentsNames out.1).bind fun i => ?_
      rw [allowedBy_rename hf]
      split
      · exact (Outcome.Renamed.refl _).bind fun slots => .ok _
      · exact .ok none

theorem filterMap_id_map {α β : Type} (g : α → β) (l : List (Option α)) :
    (l.map (Option.map g)).filterMap id = (l.filterMap id).map g := by
  rw [List.filterMap_map, List.map_filterMap]
  rfl

theorem HashOrd.Blind.sub {o : HashOrd} (h : o.Blind) (i : Nat) : (o.sub i).Blind :=
  fun site _ _ g l => h (Nat.pair i site + 3) g l

theorem bestPerIntent_rename (hf : Function.Injective f) (rd : Rounding) {o : HashOrd} (ho : o.Blind) (l : List InternalResult) :
    bestPerIntent rd o (l.map (·.rename f)) = (bestPerIntent rd o l).map (·.rename f) := by
  unfold bestPerIntent
  have hfold : ∀ (l : List InternalResult) (m : Map Text (List InternalResult)),
      (l.map (InternalResult.rename f)).foldl pushResult (m.map fun e => (f e.1, e.2.map (·.rename f))) =
        (l.foldl pushResult m).map fun e => (f e.1, e.2.map (·.rename f)) := by
    intro l
    induction l with
    | nil => exact fun m => rfl
    | cons r l ih =>
      intro m
      simp only [List.map_cons, List.foldl_cons, pushResult_rename hf]
      exact ih _
  rw [show ([] : Map Text (List InternalResult)) = ([] : Map Text (List InternalResult)).map
    (fun e => (f e.1, e.2.map (InternalResult.rename f))) from rfl, hfold, ho, List.filterMap_map, List.map_filterMap]
  congr 1
  funext e
  exact maxByLast_map _ _ _ (fun _ => rfl) _

theorem lookupTop_rename (hf : Function.Injective f) (env : RuleEnv) {o : HashOrd} (ho : o.Blind) (p : Lookup) (input : Text)
    (n : Nat) (wl : Option (List Text)) :
    Alike f (List.map (InternalResult.rename f)) (p.parseTopIntents env o input n wl)
      ((p.rename f).parseTopIntents env o input n (wl.map (·.map f))) := by
  unfold Lookup.parseTopIntents Lookup.getCandidates
  rw [show (p.rename f).scopes = p.scopes.map (·.rename f) from rfl, candidatesFrom_rename hf]
  refine Alike.same_bind _ fun cs => ?_
  have h := mapOutcome_alike (g := id) (lookupOne_rename hf env p input wl) cs
  rw [List.map_id] at h
  refine (Alike.ofOutcome h).bind fun rs => Alike.ret' ?_
  rw [filterMap_id_map, bestPerIntent_rename hf _ ho, rankByWeight_rename]

/-- A parser and the parser with the renamed intents. -/
structure ParserImpl.Alike (f : Text → Text) (p q : ParserImpl) : Prop where
  parse : ∀ o : HashOrd, o.Blind → ∀ input wl,
    Prog.Alike f (InternalResult.rename f) (p.parse o input wl) (q.parse o input (wl.map (·.map f)))
  intents : ∀ o : HashOrd, o.Blind → ∀ input,
    Prog.Alike f (List.map (IntentResult.rename f)) (p.getIntents o input) (q.getIntents o input)
  slots : ∀ o : HashOrd, o.Blind → ∀ input intent, Prog.Alike f id (p.getSlots o input intent) (q.getSlots o input (f intent))

theorem map_intent_rename (l : List InternalResult) :
    (l.map (InternalResult.rename f)).map InternalResult.intent = (l.map InternalResult.intent).map (IntentResult.rename f) := by
  simp only [List.map_map]
  rfl

theorem lookup_alike (hf : Function.Injective f) (env : RuleEnv) (p : Lookup) :
    ParserImpl.Alike f (p.impl env) ((p.rename f).impl env) := by
  have hparse : ∀ o : HashOrd, o.Blind → ∀ input wl,
      Prog.Alike f (InternalResult.rename f) (p.parse env o input wl) ((p.rename f).parse env o input (wl.map (·.map f))) :=
    fun o ho input wl => (lookupTop_rename hf env ho p input 1 wl).bind fun l => Alike.ret' (pickUnambiguous_rename l)
  refine ⟨hparse, fun o ho input => ?_, fun o ho input intent => ?_⟩
  · show Prog.Alike f _ (p.getIntents env o input) ((p.rename f).getIntents env o input)
    unfold Lookup.getIntents
    have hn : (p.rename f).intentsNames = p.intentsNames.map f := rfl
    rw [hn, List.length_map]
    refine (lookupTop_rename hf env ho p input _ none).bind fun l => Alike.ret' ?_
    rw [map_intent_rename, completeRanking_rename hf]
  · show Prog.Alike f _ (p.getSlots env o input intent) ((p.rename f).getSlots env o input (f intent))
    unfold Lookup.getSlots
    have hn : (p.rename f).intentsNames = p.intentsNames.map f := rfl
    rw [hn, contains_map_injective hf]
    split
    · exact (hparse o ho input (some [intent])).bind fun r => .ret _
    · exact .fail (.unknownIntent intent)

/-! ### The deterministic parser -/

theorem det_preprocess_rename (hf : Function.Injective f) (fns : TextFns) (p : Det) (t i : Text) :
    (p.rename f).preprocess fns t (f i) = p.preprocess fns t i := by
  unfold Det.preprocess
  simp only [Det.rename, forIntent_rename hf]

theorem det_slotOf_rename (hf : Function.Injective f) (o : HashOrd) (p : Det) (input formatted i : Text)
    (mapping : Option (Map Rng Rng)) :
    (p.rename f).slotOf o input formatted (f i) mapping = p.slotOf o input formatted i mapping := by
  funext c
  unfold Det.slotOf
  simp only [Det.rename, Map.get_renameKeys hf]

theorem matchingResult_rename (hf : Function.Injective f) (fns : TextFns) (o : HashOrd) (p : Det) (input formatted : Text)
    (regex : Regex) (i : Text) (mapping : Option (Map Rng Rng)) :
    Outcome.Renamed f (Option.map (InternalResult.rename f)) (p.matchingResult fns o input formatted regex i mapping)
      ((p.rename f).matchingResult fns o input formatted regex (f i) mapping) := by
  unfold Det.matchingResult
  rw [det_slotOf_rename hf]
  split
  · split
    · exact (Outcome.Renamed.refl _).bind fun slots => .ok _
    · exact .ok none
  · exact .ok none

theorem tryRegex_rename (hf : Function.Injective f) (fns : TextFns) (o : HashOrd) (p : Det) (input cleaned formatted : Text)
    (mapping : Map Rng Rng) (i : Text) (regex : Regex) :
    Outcome.Renamed f (Option.map (InternalResult.rename f)) (p.tryRegex fns o input cleaned formatted mapping i regex)
      ((p.rename f).tryRegex fns o input cleaned formatted mapping (f i) regex) := by
  unfold Det.tryRegex
  refine (matchingResult_rename hf fns o p input cleaned regex i none).bind fun raw => ?_
  cases raw with
  | some r => exact .ok (some r)
  | none => exact matchingResult_rename hf fns o p input formatted regex i (some mapping)

theorem findMap_rename {α β γ : Type} {g : β → γ} {k : α → Outcome (Option β)} {k' : α → Outcome (Option γ)}
    (h : ∀ a, Outcome.Renamed f (Option.map g) (k a) (k' a)) :
    ∀ l, Outcome.Renamed f (Option.map g) (findMapOutcome k l) (findMapOutcome k' l)
  | [] => .ok none
  | a :: l => by
    have ha := h a
    simp only [findMapOutcome]
    cases hk : k a <;> cases hk' : k' a <;> rw [hk, hk'] at ha <;> cases ha
    · rename_i b
      cases b with
      | none => exact findMap_rename h l
      | some b => exact .ok (some b)
    · rename_i h; exact .err h
    · exact .panic

theorem matchIntent_rename (hf : Function.Injective f) (env : RuleEnv) (o : HashOrd) (p : Det) (input : Text)
    (scope : Text × (List Kind × List Text)) :
    Alike f (Option.map (InternalResult.rename f)) (p.matchIntent env o input scope)
      ((p.rename f).matchIntent env o input (f scope.1, scope.2)) := by
  unfold Det.matchIntent
  refine .cached fun bs => .custom fun cs => Alike.ofOutcome ?_
  unfold Det.matchWith
  refine (Outcome.Renamed.refl _).bind fun replaced => ?_
  simp only [id, det_preprocess_rename hf]
  refine (Outcome.Renamed.refl _).bind fun cleaned => (Outcome.Renamed.refl _).bind fun formatted => ?_
  rw [show (p.rename f).regexes.get (f scope.1) = p.regexes.get scope.1 from Map.get_renameKeys hf _ _]
  exact (Outcome.Renamed.refl _).bind fun rs => findMap_rename (tryRegex_rename hf _ _ _ _ _ _ _ _) rs

theorem detTop_rename (hf : Function.Injective f) (env : RuleEnv) {o : HashOrd} (ho : o.Blind) (p : Det) (input : Text)
    (n : Nat) (wl : Option (List Text)) :
    Alike f (List.map (InternalResult.rename f)) (p.parseTopIntents env o input n wl)
      ((p.rename f).parseTopIntents env o input n (wl.map (·.map f))) := by
  unfold Det.parseTopIntents
  have hin : ∀ i, (p.rename f).inIntentsSet (wl.map (·.map f)) (f i) = p.inIntentsSet wl i := by
    intro i
    unfold Det.inIntentsSet
    cases wl with
    | some l => exact contains_map_injective hf l i
    | none =>
      show (p.slotEntities.renameKeys f).keys.contains (f i) = _
      rw [Map.keys_renameKeys, contains_map_injective hf]
  have hs : ((o.order 0 (p.rename f).scopes).filter fun s => (p.rename f).inIntentsSet (wl.map (·.map f)) s.1) =
      ((o.order 0 p.scopes).filter fun s => p.inIntentsSet wl s.1).map fun s => (f s.1, s.2) := by
    rw [show (p.rename f).scopes = p.scopes.map (fun s => (f s.1, s.2)) from rfl, ho]
    exact filter_map_of (g := fun s : Text × (List Kind × List Text) => (f s.1, s.2))
      (p := fun s => (p.rename f).inIntentsSet (wl.map (·.map f)) s.1) (fun s => hin s.1) _
  rw [hs]
  refine (Alike.mapM (matchIntent_rename hf env o p input) _).bind fun rs => Alike.ret' ?_
  rw [filterMap_id_map, rankByWeight_rename]

theorem det_alike (hf : Function.Injective f) (env : RuleEnv) (p : Det) :
    ParserImpl.Alike f (p.impl env) ((p.rename f).impl env) := by
  have hparse : ∀ o : HashOrd, o.Blind → ∀ input wl,
      Prog.Alike f (InternalResult.rename f) (p.parse env o input wl) ((p.rename f).parse env o input (wl.map (·.map f))) :=
    fun o ho input wl => (detTop_rename hf env ho p input 1 wl).bind fun l => Alike.ret' (pickUnambiguous_rename l)
  have hn : (p.rename f).regexes.keys = p.regexes.keys.map f := Map.keys_renameKeys _
  refine ⟨hparse, fun o ho input => ?_, fun o ho input intent => ?_⟩
  · show Prog.Alike f _ (p.getIntents env o input) ((p.rename f).getIntents env o input)
    unfold Det.getIntents
    rw [hn, List.length_map]
    refine (detTop_rename hf env ho p input _ none).bind fun l => Alike.ret' ?_
    rw [map_intent_rename, ho, completeRanking_rename hf]
  · show Prog.Alike f _ (p.getSlots env o input intent) ((p.rename f).getSlots env o input (f intent))
    unfold Det.getSlots
    rw [hn, contains_map_injective hf]
    split
    · exact (hparse o ho input (some [intent])).bind fun r => .ret _
    · exact .fail (.unknownIntent intent)

/-! ### The probabilistic parser -/

theorem classifier_rename (hf : Function.Injective f) (ops : FloatOps ℚ) (env : FeatEnv) (o : HashOrd) (c : Classifier)
    (input : Text) (wl : Option (List Text)) :
    Alike f (List.map (IntentResult.rename f)) (c.getIntentsWithWhitelist ops env o input wl)
      ((c.rename f).getIntentsWithWhitelist ops env o input (wl.map (·.map f))) := by
  have hk : ∀ r : IntentResult, keptByWhitelist (wl.map (·.map f)) (r.rename f) = keptByWhitelist wl r := by
    intro r
    unfold keptByWhitelist
    simp only [IntentResult.rename]
    cases r.name with
    | none => rfl
    | some i =>
      cases wl with
      | none => rfl
      | some l => exact contains_map_injective hf l i
  have hblank : Classifier.getIntentsWithWhitelist.blank (c.rename f) =
      (Classifier.getIntentsWithWhitelist.blank c).map (IntentResult.rename f) := by
    unfold Classifier.getIntentsWithWhitelist.blank
    rw [← sortDesc_map (IntentResult.rename f) IntentResult.score IntentResult.score fun _ => rfl]
    simp only [Classifier.rename, List.map_map]
    congr 1
    refine List.map_congr_left fun n _ => ?_
    cases n <;> rfl
  have hrank : ∀ scores, (c.rename f).rank scores (wl.map (·.map f)) = (c.rank scores wl).map (IntentResult.rename f) := by
    intro scores
    unfold Classifier.rank
    rw [← sortDesc_map (IntentResult.rename f) IntentResult.score IntentResult.score (fun _ => rfl), ← filter_map_of hk]
    simp only [Classifier.rename, List.zip_map_left, List.map_map]
    rfl
  unfold Classifier.getIntentsWithWhitelist
  rw [hblank]
  have hl : (c.rename f).intentList.length = c.intentList.length := by simp [Classifier.rename]
  rw [hl]
  split
  · refine Alike.ret' ?_
    simp only [Classifier.rename, List.head?_map, List.map_cons, List.map_nil, IntentResult.rename]
    cases c.intentList.head? <;> rfl
  · split
    · exact .ret _
    · have h1 : (c.rename f).featurizer = c.featurizer := rfl
      have h2 : (c.rename f).logreg = c.logreg := rfl
      rw [h1, h2]
      split
      · exact Alike.same_bind _ fun features => Alike.same_bind _ fun scores => Alike.ret' (hrank scores)
      · exact .ret _

theorem slotsOf_rename (hf : Function.Injective f) (env : ProbEnv) (p : Prob) {e e' : Err} (he : Err.Renamed f e e')
    (input intent : Text) : Alike f id (p.slotsOf env e input intent) ((p.rename f).slotsOf env e' input (f intent)) := by
  unfold Prob.slotsOf
  rw [show (p.rename f).slotFillers.get (f intent) = p.slotFillers.get intent from Map.get_renameKeys hf _ _]
  cases p.slotFillers.get intent with
  | none => exact .fail he
  | some filler => exact Alike.refl _

theorem prob_alike (hf : Function.Injective f) (env : ProbEnv) (p : Prob) :
    ParserImpl.Alike f (p.impl env) ((p.rename f).impl env) := by
  refine ⟨fun o ho input wl => ?_, fun o ho input => classifier_rename hf _ _ _ _ _ none,
    fun o ho input intent => slotsOf_rename hf env p (.extractUnknownIntent intent) input intent⟩
  show Prog.Alike f _ (p.parse env o input wl) ((p.rename f).parse env o input (wl.map (·.map f)))
  unfold Prob.parse Classifier.getIntent
  refine ((classifier_rename hf _ _ _ _ _ wl).bind (g' := IntentResult.rename f) fun rs => Alike.ret' ?_).bind fun res => ?_
  · cases rs <;> rfl
  · simp only [IntentResult.rename]
    cases hn : res.name with
    | none => exact Alike.ret' (by simp [InternalResult.rename, IntentResult.rename, hn])
    | some i =>
      exact (slotsOf_rename hf env p (.unknownIntent i) input i).bind fun slots =>
        Alike.ret' (by simp [InternalResult.rename, IntentResult.rename, hn])

theorem parser_alike (hf : Function.Injective f) (p : ParserModel) : ParserImpl.Alike f p.impl (p.rename f).impl := by
  cases p with
  | lookup env p => exact lookup_alike hf env p
  | deterministic env p => exact det_alike hf env p
  | probabilistic env p => exact prob_alike hf env p

/-! ### The engine -/

/-- An engine and the engine with the renamed intents. -/
structure Engine.Alike (f : Text → Text) (e e' : Engine) : Prop where
  dataset : e'.dataset = e.dataset.rename f
  names : e'.names = e.names
  parsers : List.Forall₂ (ParserImpl.Alike f) e.parsers e'.parsers

theorem ofParsers_alike (hf : Function.Injective f) (d : DatasetMetadata) (names : KindNames) (ps : List ParserModel) :
    Engine.Alike f (Engine.ofParsers d names ps) (Engine.ofParsers (d.rename f) names (ps.map (·.rename f))) := by
  refine ⟨rfl, rfl, ?_⟩
  simp only [Engine.ofParsers, List.map_map]
  induction ps with
  | nil => exact .nil
  | cons p ps ih => exact .cons (parser_alike hf p) ih

namespace Engine.Alike

variable {e e' : Engine}

theorem whitelist (hf : Function.Injective f) (h : Engine.Alike f e e') {o : HashOrd} (ho : o.Blind)
    (wl bl : Option (List Text)) :
    Outcome.Renamed f (Option.map (List.map f)) (e.getIntentsWhitelist o wl bl)
      (e'.getIntentsWhitelist o (wl.map (·.map f)) (bl.map (·.map f))) := by
  have hall : e'.dataset.slotNameMappings.keys = e.dataset.slotNameMappings.keys.map f := by
    rw [h.dataset]; exact Map.keys_renameKeys _
  unfold Engine.getIntentsWhitelist
  rw [hall]
  have hm : (wl.map (List.map f)).getD [] ++ (bl.map (List.map f)).getD [] = (wl.getD [] ++ bl.getD []).map f := by
    cases wl <;> cases bl <;> simp
  simp only [hm, List.find?_map]
  have hp : ((fun intent => !(e.dataset.slotNameMappings.keys.map f).contains intent) ∘ f) =
      fun intent => !e.dataset.slotNameMappings.keys.contains intent := by
    funext i
    simp only [Function.comp, contains_map_injective hf]
  rw [hp]
  cases (wl.getD [] ++ bl.getD []).find? fun intent => !e.dataset.slotNameMappings.keys.contains intent with
  | some u => exact .err (.unknownFilterIntent u)
  | none =>
    have hb : ∀ l : List Text, ((o.order 0 (e.dataset.slotNameMappings.keys.map f)).filter fun i => !(l.map f).contains i) =
        ((o.order 0 e.dataset.slotNameMappings.keys).filter fun i => !l.contains i).map f := by
      intro l
      rw [ho]
      exact filter_map_of (fun i => by rw [contains_map_injective hf]) _
    have hi : ∀ a b : List Text, intersect (a.map f) (b.map f) = (intersect a b).map f := by
      intro a b
      unfold intersect
      refine filter_map_of (fun i => ?_) _
      rw [Bool.eq_iff_iff]
      simp [hf.eq_iff]
    simp only [Option.map_none]
    cases wl with
    | none =>
      cases bl with
      | none => exact .ok none
      | some b => simp only [Option.map_some, Option.map_none, hb]; exact .ok (some _)
    | some w =>
      cases bl with
      | none => exact .ok (some w)
      | some b => simp only [Option.map_some, hb, hi]; exact .ok (some _)

theorem resolve (h : Engine.Alike f e e') : e'.resolveSlots = e.resolveSlots := by
  have hent : e'.dataset.entities = e.dataset.entities := by rw [h.dataset]; rfl
  have hone : e'.resolveOne = e.resolveOne := by
    unfold Engine.resolveOne
    rw [hent, h.names]
  have heach : ∀ n bs cs l, e'.resolveEach n bs cs l = e.resolveEach n bs cs l := by
    intro n bs cs l
    induction l with
    | nil => rfl
    | cons s l ih => simp only [Engine.resolveEach, hone, ih]
  unfold Engine.resolveSlots
  simp only [h.names, heach]

theorem cascade (h : Engine.Alike f e e') {o : HashOrd} (ho : o.Blind) (input : Text) (wl : Option (List Text)) (n : Nat)
    {ps qs : List ParserImpl} (hps : List.Forall₂ (ParserImpl.Alike f) ps qs) : ∀ i score,
    Prog.Alike f (ParseResult.rename f) (e.cascade o input wl n i ps score)
      (e'.cascade o input (wl.map (·.map f)) n i qs score) := by
  induction hps with
  | nil => exact fun i score => .ret _
  | cons hp _ ih =>
    intro i score
    simp only [Engine.cascade]
    refine (hp.parse _ (ho.sub i) input wl).bind fun r => ?_
    rw [h.resolve]
    simp only [InternalResult.rename, IntentResult.rename]
    cases hn : r.intent.name with
    | none => exact ih _ _
    | some name =>
      refine Prog.Alike.same_bind _ fun slots => Alike.ret' ?_
      simp [ParseResult.rename, IntentResult.rename, hn]

theorem mergeIntents_rename (hf : Function.Injective f) (m : Map (Option Text) IntentResult) (rs : List IntentResult) :
    Engine.mergeIntents (m.map fun e => (e.1.map f, e.2.rename f)) (rs.map (·.rename f)) =
      (Engine.mergeIntents m rs).map fun e => (e.1.map f, e.2.rename f) := by
  have hof : Function.Injective (Option.map f) := Option.map_injective hf
  have hget := Map.get_mapBoth hof (IntentResult.rename f)
  have hins := Map.insert_mapBoth hof (IntentResult.rename f)
  unfold Engine.mergeIntents
  rw [List.isEmpty_map]
  split
  · rename_i hne
    clear hget hne
    induction rs generalizing m with
    | nil => rfl
    | cons r rs ih =>
      simp only [List.map_cons, List.foldl_cons]
      rw [show (r.rename f).name = r.name.map f from rfl, hins]
      exact ih _
  · rename_i hne
    clear hne
    induction rs generalizing m with
    | nil => rfl
    | cons r rs ih =>
      simp only [List.map_cons, List.foldl_cons]
      rw [← ih]
      congr 1
      unfold Engine.upsertScore
      rw [show (r.rename f).name = r.name.map f from rfl, hget, show (r.rename f).score = r.score from rfl]
      cases hg : m.get r.name with
      | none =>
        simp only [Option.map_none]
        split
        · exact hins m r.name r
        · rfl
      | some old =>
        simp only [Option.map_some, show (old.rename f).score = old.score from rfl]
        split
        · exact hins m r.name { old with score := r.score }
        · rfl

theorem collect (hf : Function.Injective f) {o : HashOrd} (ho : o.Blind) (input : Text)
    {ps qs : List ParserImpl} (hps : List.Forall₂ (ParserImpl.Alike f) ps qs) : ∀ i (m : Map (Option Text) IntentResult),
    Prog.Alike f (List.map fun e : Option Text × IntentResult => (e.1.map f, e.2.rename f)) (Engine.collectIntents o input i ps m)
      (Engine.collectIntents o input i qs (m.map fun e => (e.1.map f, e.2.rename f))) := by
  induction hps with
  | nil => exact fun i m => .ret _
  | cons hp _ ih =>
    intro i m
    simp only [Engine.collectIntents]
    refine (hp.intents _ (ho.sub i) input).bind fun rs => ?_
    rw [mergeIntents_rename hf]
    exact ih _ _

theorem intents (hf : Function.Injective f) (h : Engine.Alike f e e') {o : HashOrd} (ho : o.Blind) (input : Text) :
    Prog.Alike f (List.map (IntentResult.rename f)) (e.getIntents o input) (e'.getIntents o input) := by
  unfold Engine.getIntents
  refine (collect hf (ho.sub 0) input h.parsers 0 []).bind fun m => Alike.ret' ?_
  rw [← sortDesc_map (IntentResult.rename f) IntentResult.score IntentResult.score fun _ => rfl, ho]
  simp only [List.map_map]
  rfl

theorem slotsCascade (h : Engine.Alike f e e') {o : HashOrd} (ho : o.Blind) (input intent : Text) (n : Nat)
    {ps qs : List ParserImpl} (hps : List.Forall₂ (ParserImpl.Alike f) ps qs) : ∀ i,
    Prog.Alike f id (e.slotsCascade o input intent n i ps) (e'.slotsCascade o input (f intent) n i qs) := by
  induction hps with
  | nil => exact fun i => .ret _
  | cons hp _ ih =>
    intro i
    simp only [Engine.slotsCascade]
    refine (hp.slots _ (ho.sub i) input intent).bind fun slots => ?_
    rw [h.resolve]
    simp only [id]
    split
    · exact ih _
    · exact Prog.Alike.refl _

theorem alternatives (h : Engine.Alike f e e') {o : HashOrd} (ho : o.Blind) (input : Text) (n : Nat) :
    ∀ (l : List IntentResult) i, Prog.Alike f (List.map (Alternative.rename f)) (e.alternativesSlots o input n i l)
      (e'.alternativesSlots o input n i (l.map (·.rename f)))
  | [], _ => .ret _
  | r :: l, i => by
    simp only [List.map_cons, Engine.alternativesSlots]
    have hone : Prog.Alike f id (e.alternativeSlots (o.sub i) input n r.name)
        (e'.alternativeSlots (o.sub i) input n (r.rename f).name) := by
      simp only [IntentResult.rename]
      cases r.name with
      | none => exact .ret _
      | some name => exact slotsCascade h (ho.sub i) input name n h.parsers 0
    exact hone.bind fun slots => (alternatives h ho input n l (i + 1)).bind fun alts => .ret _

theorem parseWith (hf : Function.Injective f) (h : Engine.Alike f e e') {o : HashOrd} (ho : o.Blind) (input : Text)
    (wl bl : Option (List Text)) (ni ns : Nat) :
    Prog.Alike f (ParseResult.rename f) (e.parseWithAlternatives o input wl bl ni ns)
      (e'.parseWithAlternatives o input (wl.map (·.map f)) (bl.map (·.map f)) ni ns) := by
  unfold Engine.parseWithAlternatives
  refine (Alike.ofOutcome (h.whitelist hf (ho.sub 0) wl bl)).bind fun w => ?_
  refine (h.cascade (ho.sub 1) input w ns h.parsers 0 0).bind fun main => ?_
  split
  · exact .ret _
  · refine (h.intents hf (ho.sub 2) input).bind fun ranked => ?_
    have hp : ∀ r : IntentResult, Engine.passesFilter (w.map (·.map f)) (r.rename f) = Engine.passesFilter w r := by
      intro r
      unfold Engine.passesFilter
      simp only [IntentResult.rename]
      cases r.name with
      | none => rfl
      | some i =>
        cases w with
        | none => rfl
        | some l => exact contains_map_injective hf l i
    rw [filter_map_of hp]
    simp only [← List.map_drop, ← List.map_take]
    exact (h.alternatives (ho.sub 3) input ns _ 0).bind fun alts => .ret _

theorem extract (hf : Function.Injective f) (h : Engine.Alike f e e') (input intent slot : Text) (n : Nat) :
    Prog.Alike f id (e.extractSlotWithAlternatives input intent slot n)
      (e'.extractSlotWithAlternatives input (f intent) slot n) := by
  unfold Engine.extractSlotWithAlternatives
  have hg : e'.dataset.slotNameMappings.get (f intent) = e.dataset.slotNameMappings.get intent := by
    rw [h.dataset]; exact Map.get_renameKeys hf _ _
  have hent : e'.dataset.entities = e.dataset.entities := by rw [h.dataset]; rfl
  rw [hg, hent, h.names]
  cases e.dataset.slotNameMappings.get intent with
  | none => exact .fail (.extractUnknownIntent intent)
  | some m => exact Prog.Alike.refl _

theorem code (hf : Function.Injective f) (h : Engine.Alike f e e') (call : EngineCall) (hb : call.Blind) :
    Prog.Alike f (EngineAnswer.rename f) (e.code call) (e'.code (call.rename f)) := by
  cases call with
  | parse o input wl bl ni ns => exact (h.parseWith hf hb input wl bl ni ns).bind fun r => .ret _
  | intents o input => exact (h.intents hf hb input).bind fun r => .ret _
  | slots o input intent ns => exact (h.slotsCascade hb input intent ns h.parsers 0).bind fun r => .ret _
  | extract input intent slot ns => exact (h.extract hf input intent slot ns).bind fun r => .ret _

end Engine.Alike

theorem history_alike {α : Type} {g : α → α} (x : Ext) : ∀ (l l' : List (Nat × Prog α)),
    List.Forall₂ (fun a b => b.1 = a.1 ∧ Prog.Alike f g a.2 b.2) l l' → ∀ c,
    List.Forall₂ (Outcome.Renamed f g) (runHistory x l c).1 (runHistory x l' c).1 ∧
      (runHistory x l' c).2 = (runHistory x l c).2 := by
  intro l l' h
  induction h with
  | nil => exact fun c => ⟨.nil, rfl⟩
  | @cons a b _ _ hab _ ih =>
    intro c
    obtain ⟨t, p⟩ := a
    obtain ⟨t', q⟩ := b
    obtain ⟨ht, hpq⟩ := hab
    obtain rfl : t' = t := ht
    simp only [runHistory]
    obtain ⟨h1, h2⟩ := hpq.runCached x t' c
    rw [h2]
    obtain ⟨h3, h4⟩ := ih (p.runCached x t' c).2
    exact ⟨.cons h1 h3, h4⟩

end Snips
