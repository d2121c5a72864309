import Verif.Spec.Answering
import Verif.Model.QueryMessages
import Verif.Proofs.Safety
import Verif.Props.C08_Ranking
import Verif.Props.C14_RuleSlots
import Verif.Props.C34_Combinations
import Verif.Props.C02_Filter

/-! Queries on complete models are answered. -/

namespace Snips

/-- Not an error, and a value only of a certain kind. -/
def Outcome.Only {α : Type} (Q : α → Prop) : Outcome α → Prop
  | .ok a => Q a
  | .err _ => False
  | .panic => True

theorem Outcome.Only.bind {α β : Type} {Q : α → Prop} {R : β → Prop} {o : Outcome α} {f : α → Outcome β}
    (h : o.Only Q) (hf : ∀ a, Q a → (f a).Only R) : (o.bind f).Only R := by
  cases o with
  | ok a => exact hf a h
  | err e => exact h
  | panic => trivial

theorem Outcome.Only.mono {α : Type} {Q R : α → Prop} {o : Outcome α} (h : o.Only Q) (hm : ∀ a, Q a → R a) : o.Only R := by
  cases o with
  | ok a => exact hm a h
  | err e => exact h
  | panic => trivial

theorem Outcome.only_unwrap {α : Type} {Q : α → Prop} {x : Option α} (h : ∀ a, x = some a → Q a) :
    (Outcome.unwrap x).Only Q := by
  cases x with
  | none => trivial
  | some a => exact h a rfl

theorem Outcome.only_ofOption {α : Type} {Q : α → Prop} {e : Err} {x : Option α} (h : ∃ a, x = some a ∧ Q a) :
    (Outcome.ofOption e x).Only Q := by
  obtain ⟨a, rfl, ha⟩ := h
  exact ha

theorem Outcome.Only.exists {α : Type} {Q : α → Prop} {o : Outcome α} (h : o.Only Q) (hp : o ≠ .panic) : ∃ a, o = .ok a ∧ Q a := by
  cases o with
  | ok a => exact ⟨a, rfl, h⟩
  | err e => exact h.elim
  | panic => exact absurd rfl hp

theorem only_mapOutcome {α β : Type} {Q : β → Prop} {f : α → Outcome β} : ∀ (l : List α), (∀ a ∈ l, (f a).Only Q) →
    (mapOutcome f l).Only fun bs => ∀ b ∈ bs, Q b
  | [], _ => fun b hb => by simp at hb
  | a :: l, h => by
    have h1 := h a (by simp)
    have h2 := only_mapOutcome l fun a' h' => h a' (by simp [h'])
    unfold mapOutcome
    cases hfa : f a with
    | err e => rw [hfa] at h1; exact h1
    | panic => trivial
    | ok b =>
      rw [hfa] at h1
      cases hl : mapOutcome f l with
      | err e => rw [hl] at h2; exact h2
      | panic => trivial
      | ok bs =>
        rw [hl] at h2
        intro b' hb'
        rcases List.mem_cons.1 hb' with rfl | hb'
        · exact h1
        · exact h2 b' hb'

/-- The program does not fail in this world, and its values are of a certain kind. -/
def Prog.Only {α : Type} (w : World) (Q : α → Prop) (p : Prog α) : Prop := (p.run w).Only Q

namespace Prog

variable {w : World} {α β : Type} {Q : α → Prop} {R : β → Prop}

theorem Only.bind {p : Prog α} {f : α → Prog β} (h : p.Only w Q) (hf : ∀ a, Q a → (f a).Only w R) : (p.bind f).Only w R := by
  unfold Prog.Only
  rw [Prog.run_bind]
  exact Outcome.Only.bind h hf

theorem Only.mono {Q' : α → Prop} {p : Prog α} (h : p.Only w Q) (hm : ∀ a, Q a → Q' a) : p.Only w Q' := Outcome.Only.mono h hm

theorem only_ret {a : α} (h : Q a) : (Prog.ret a).Only w Q := h

theorem only_ofOutcome {o : Outcome α} (h : o.Only Q) : (Prog.ofOutcome o).Only w Q := by
  unfold Prog.Only
  rw [Prog.run_ofOutcome]
  exact h

theorem only_builtinCached (hw : w.NoError) {s : Text} {kinds : Option (List Kind)} {k : List KindMatch → Prog α}
    (h : ∀ ms, (k ms).Only w Q) : (Prog.builtinCached s kinds k).Only w Q := by
  unfold Prog.Only
  simp only [Prog.run]
  cases hb : w.builtin s kinds 0 with
  | ok es => exact h _
  | err e => exact absurd hb (hw.1 _ _ _ _)
  | panic => trivial

theorem only_builtinFresh (hw : w.NoError) {s : Text} {kinds : Option (List Kind)} {n : Nat} {k : List BuiltinEntity → Prog α}
    (h : ∀ ms, (k ms).Only w Q) : (Prog.builtinFresh s kinds n k).Only w Q := by
  unfold Prog.Only
  simp only [Prog.run]
  cases hb : w.builtin s kinds n with
  | ok es => exact h _
  | err e => exact absurd hb (hw.1 _ _ _ _)
  | panic => trivial

theorem only_custom (hw : w.NoError) {s : Text} {kinds : Option (List Text)} {n : Nat} {k : List CustomEntity → Prog α}
    (h : ∀ es, w.custom s kinds n = .ok es → (k es).Only w Q) : (Prog.custom s kinds n k).Only w Q := by
  unfold Prog.Only
  simp only [Prog.run]
  cases hb : w.custom s kinds n with
  | ok es => exact h _ hb
  | err e => exact absurd hb (hw.2 _ _ _ _)
  | panic => trivial

theorem only_mapM {f : α → Prog β} : ∀ (l : List α), (∀ a ∈ l, (f a).Only w R) →
    (Prog.mapM f l).Only w fun bs => ∀ b ∈ bs, R b
  | [], _ => fun b hb => by simp at hb
  | a :: l, h => by
    unfold Prog.mapM
    refine (h a (by simp)).bind fun b hb => (only_mapM l fun a' h' => h a' (by simp [h'])).bind fun bs hbs => ?_
    intro b' hb'
    rcases List.mem_cons.1 hb' with rfl | hb'
    · exact hb
    · exact hbs b' hb'

end Prog

open Prog

variable {dataset : DatasetMetadata} {names : KindNames} {w : World}

/-- The slots can be resolved. -/
abbrev SlotsOk (dataset : DatasetMetadata) (names : KindNames) (slots : List InternalSlot) : Prop :=
  ∀ s ∈ slots, Resolvable dataset names s.entity

/-! ### Lists of results -/

theorem rankByWeight_mem {rd : Rounding} {results : List InternalResult} {n : Nat} {r : InternalResult}
    (h : r ∈ rankByWeight rd results n) : ∃ r' ∈ results, r.slots = r'.slots ∧ r.intent.name = r'.intent.name := by
  unfold rankByWeight at h
  have h := List.mem_of_mem_take h
  have h := (sortDesc_perm _ _).mem_iff.1 h
  obtain ⟨r', hr', rfl⟩ := List.mem_map.1 h
  exact ⟨r', hr', rfl, rfl⟩

theorem pickUnambiguous_cases (ranked : List InternalResult) : pickUnambiguous ranked = noIntent ∨ pickUnambiguous ranked ∈ ranked := by
  cases ranked with
  | nil => exact .inl rfl
  | cons r l =>
    unfold pickUnambiguous
    simp only
    split
    · exact .inl rfl
    · exact .inr (by simp)

/-! ### The lookup parser -/

theorem combinations_subset {α : Type} : ∀ (k : Nat) (l : List α), ∀ c ∈ combinations k l, ∀ x ∈ c, x ∈ l
  | 0, _, c, hc, x, hx => by
    simp only [combinations, List.mem_singleton] at hc
    subst hc
    simp at hx
  | k + 1, [], c, hc, x, hx => by simp [combinations] at hc
  | k + 1, a :: l, c, hc, x, hx => by
    simp only [combinations, List.mem_append, List.mem_map] at hc
    rcases hc with ⟨c', hc', rfl⟩ | hc
    · rcases List.mem_cons.1 hx with rfl | hx
      · simp
      · exact List.mem_cons_of_mem _ (combinations_subset k l c' hc' x hx)
    · exact List.mem_cons_of_mem _ (combinations_subset (k + 1) l c hc x hx)

theorem getItemsCombinations_subset {α : Type} {l c : List α} (hc : c ∈ getItemsCombinations l) : ∀ x ∈ c, x ∈ l := by
  unfold getItemsCombinations at hc
  rcases List.mem_cons.1 hc with rfl | hc
  · simp
  · obtain ⟨k, -, hk⟩ := List.mem_flatMap.1 hc
    exact combinations_subset k l c hk

theorem dedupEntities_mem' {l : List MatchedEntity} {x : MatchedEntity} (h : x ∈ dedupEntities l) : x ∈ l := by
  unfold dedupEntities at h
  exact (dedupItems_subperm _ _ _).subset ((mem_sortByKey _).1 h)

theorem Map.mem_insert_cases {κ ν : Type} [DecidableEq κ] {m : Map κ ν} {k : κ} {v : ν} {x : κ × ν}
    (h : x ∈ Map.insert m k v) : x = (k, v) ∨ x ∈ m := by
  induction m with
  | nil => exact .inl (List.mem_singleton.1 h)
  | cons e m ih =>
    unfold Map.insert at h
    split at h
    · rcases List.mem_cons.1 h with h | h
      · exact .inl h
      · exact .inr (by simp [h])
    · rcases List.mem_cons.1 h with rfl | h
      · exact .inr (by simp)
      · rcases ih h with h | h
        · exact .inl h
        · exact .inr (by simp [h])

section LookupParser

variable {env : RuleEnv} {p : Lookup}

theorem lookup_entities_only (hw : w.NoError) (hs : w.Scoped) (hc : p.Complete dataset names env) (input : Text)
    (scope : GroupedScope) (hsc : scope ∈ p.scopes) :
    (Lookup.allEntities env input scope).Only w fun es => ∀ m ∈ es, Resolvable dataset names m.name := by
  unfold Lookup.allEntities
  refine (only_ofOutcome (Q := fun _ => True) ?_).bind fun kinds _ => ?_
  · refine (only_mapOutcome (Q := fun _ => True) _ fun b hb => ?_).mono fun _ _ => trivial
    obtain ⟨kind, hk⟩ := hc.builtin scope hsc b hb
    exact Outcome.only_ofOption ⟨kind, hk, trivial⟩
  · refine only_builtinCached hw fun bs => only_custom hw fun cs hcs => only_ret ?_
    intro m hm
    have hm := dedupEntities_mem' hm
    rcases List.mem_append.1 hm with hm | hm
    · obtain ⟨b, -, rfl⟩ := List.mem_map.1 hm
      exact hc.kinds b.kind
    · obtain ⟨c, hcm, rfl⟩ := List.mem_map.1 hm
      exact hc.custom scope hsc _ (hs _ _ _ _ hcs c hcm)

theorem lookup_candidates_only (hw : w.NoError) (hs : w.Scoped) (hc : p.Complete dataset names env) (input : Text)
    (wl : Option (List Text)) : ∀ (scopes : List GroupedScope), (∀ s ∈ scopes, s ∈ p.scopes) →
    (p.candidatesFrom env input wl scopes).Only w fun cs => ∀ c ∈ cs, ∀ m ∈ c.2, Resolvable dataset names m.name
  | [], _ => by
    unfold Lookup.candidatesFrom
    exact only_ret (by simp)
  | scope :: scopes, h => by
    unfold Lookup.candidatesFrom
    have ih := lookup_candidates_only hw hs hc input wl scopes fun s hm => h s (by simp [hm])
    split
    · exact ih
    · refine (lookup_entities_only hw hs hc input scope (h scope (by simp))).bind fun es hes => ih.bind fun rest hrest => ?_
      refine only_ret fun c hcm => ?_
      rcases List.mem_append.1 hcm with hcm | hcm
      · unfold Lookup.scopeCandidates at hcm
        obtain ⟨sub, hsub, hcm⟩ := List.mem_flatMap.1 hcm
        obtain ⟨intent, -, hcm⟩ := List.mem_flatMap.1 hcm
        have hcs : c.2 = [] ∨ c.2 = sub := by
          simp only [List.mem_cons, List.not_mem_nil, or_false] at hcm
          rcases hcm with rfl | rfl
          · exact .inl rfl
          · exact .inr rfl
        intro m hm
        rcases hcs with hcs | hcs
        · rw [hcs] at hm
          simp at hm
        · rw [hcs] at hm
          exact hes m (getItemsCombinations_subset hsub m hm)
      · exact hrest c hcm

/-- What is known of a result of the lookup parser. -/
def LookupOk (dataset : DatasetMetadata) (names : KindNames) (p : Lookup) (r : InternalResult) : Prop :=
  SlotsOk dataset names r.slots ∧ ∀ i, r.intent.name = some i → i ∈ p.intentsNames

theorem indexName_only (l : List Text) (id : Int) : (indexName l id).Only fun t => t ∈ l := by
  unfold indexName
  split
  · exact Outcome.only_unwrap fun a ha => List.mem_of_getElem? ha
  · trivial

theorem lookupOne_only (input : Text) (wl : Option (List Text)) (c : Text × List MatchedEntity)
    (hcm : ∀ m ∈ c.2, Resolvable dataset names m.name) :
    (p.lookupOne env input wl c).Only fun r => ∀ res, r = some res → LookupOk dataset names p res := by
  unfold Lookup.lookupOne
  split
  · unfold Lookup.parseMapOutput
    split
    · trivial
    · refine (indexName_only _ _).bind fun intent hin => ?_
      split
      · refine (only_mapOutcome (Q := fun s : InternalSlot => Resolvable dataset names s.entity) _ ?_).bind fun slots hsl => ?_
        · intro ie hie
          unfold Lookup.slotOf
          refine (indexName_only _ _).bind fun slot _ => ?_
          exact hcm _ (List.of_mem_zip hie).2
        · rintro res ⟨⟩
          refine ⟨hsl, ?_⟩
          rintro i ⟨⟩
          exact hin
      · rintro res ⟨⟩
  · rintro res ⟨⟩

theorem pushResult_ok {Q : InternalResult → Prop} : ∀ (rs : List InternalResult) (m : Map Text (List InternalResult)),
    (∀ r ∈ rs, Q r) → (∀ k v, (k, v) ∈ m → ∀ r ∈ v, Q r) → ∀ k v, (k, v) ∈ rs.foldl pushResult m → ∀ r ∈ v, Q r
  | [], m, _, hm => hm
  | r :: rs, m, hr, hm => by
    refine pushResult_ok rs _ (fun r' h' => hr r' (by simp [h'])) ?_
    intro k v hkv
    unfold pushResult at hkv
    have hins : ∀ (key : Text) (vs : List InternalResult), (∀ x ∈ vs, Q x) → (k, v) ∈ Map.insert m key vs → ∀ x ∈ v, Q x := by
      intro key vs hvs hmem
      rcases Map.mem_insert_cases hmem with h | h
      · obtain ⟨-, rfl⟩ := Prod.mk.inj h
        exact hvs
      · exact hm k v h
    split at hkv
    · split at hkv
      · rename_i old hold
        refine hins _ _ ?_ hkv
        intro x hx
        rcases List.mem_append.1 hx with hx | hx
        · exact hm _ _ (Map.get_some_mem hold) x hx
        · rw [List.mem_singleton] at hx
          subst hx
          exact hr _ (by simp)
      · refine hins _ _ ?_ hkv
        intro x hx
        rw [List.mem_singleton] at hx
        subst hx
        exact hr _ (by simp)
    · exact hm k v hkv

theorem maxByLast_mem' {α : Type} {score : α → ℚ} : ∀ {l : List α} {x : α}, maxByLast score l = some x → x ∈ l := by
  intro l x h
  cases l with
  | nil => cases h
  | cons a l =>
    simp only [maxByLast, Option.some.injEq] at h
    have key : ∀ (l : List α) (a : α), l.foldl (fun best x => if score best ≤ score x then x else best) a = a ∨
        l.foldl (fun best x => if score best ≤ score x then x else best) a ∈ l := by
      intro l
      induction l with
      | nil => intro a; exact .inl rfl
      | cons b l ih =>
        intro a
        simp only [List.foldl_cons]
        split
        · rcases ih b with h | h
          · exact .inr (by rw [h]; simp)
          · exact .inr (List.mem_cons_of_mem _ h)
        · rcases ih a with h | h
          · exact .inl h
          · exact .inr (List.mem_cons_of_mem _ h)
    rcases key l a with h' | h'
    · rw [← h, h']; simp
    · rw [← h]; exact List.mem_cons_of_mem _ h'

theorem lookup_top_only (hw : w.NoError) (hs : w.Scoped) (hc : p.Complete dataset names env) (o : HashOrd) (input : Text)
    (n : Nat) (wl : Option (List Text)) :
    (p.parseTopIntents env o input n wl).Only w fun ranked => ∀ r ∈ ranked, LookupOk dataset names p r := by
  unfold Lookup.parseTopIntents Lookup.getCandidates
  refine Only.bind ((lookup_candidates_only hw hs hc input wl p.scopes fun _ h => h).bind
    (R := fun cs : List (Text × List MatchedEntity) => ∀ c ∈ cs, ∀ m ∈ c.2, Resolvable dataset names m.name)
    fun cs hcs => only_ret fun c hcm => hcs c (mem_unique.1 hcm)) fun cs hcs => ?_
  refine (only_ofOutcome (only_mapOutcome _ fun c hcm => lookupOne_only (p := p) (env := env) input wl c (hcs c hcm))).bind
    fun rs hrs => only_ret ?_
  intro r hr
  obtain ⟨r', hr', h1, h2⟩ := rankByWeight_mem hr
  have : LookupOk dataset names p r' := by
    unfold bestPerIntent at hr'
    obtain ⟨nr, hnr, hbest⟩ := List.mem_filterMap.1 hr'
    have hnr := (o.perm 0 _).mem_iff.1 hnr
    refine pushResult_ok (Q := LookupOk dataset names p) _ [] ?_ (by simp) nr.1 nr.2 hnr r' (maxByLast_mem' hbest)
    intro x hx
    obtain ⟨y, hy, hyx⟩ := List.mem_filterMap.1 hx
    exact hrs y hy x hyx
  exact ⟨by rw [h1]; exact this.1, by rw [h2]; exact this.2⟩

end LookupParser

theorem lookup_parse_only {env : RuleEnv} {p : Lookup} (hw : w.NoError) (hs : w.Scoped) (hc : p.Complete dataset names env)
    (o : HashOrd) (input : Text) (wl : Option (List Text)) :
    (p.parse env o input wl).Only w fun r => SlotsOk dataset names r.slots := by
  unfold Lookup.parse
  refine (lookup_top_only hw hs hc o input 1 wl).bind fun ranked h => only_ret ?_
  rcases pickUnambiguous_cases ranked with h' | h'
  · rw [h']
    intro s hs
    cases hs
  · exact (h _ h').1

/-- The names of a completed ranking. -/
theorem completeRanking_own {intents : List Text} {top : List IntentResult} {r : IntentResult} {i : Text}
    (htop : ∀ r ∈ top, ∀ i, r.name = some i → i ∈ intents) (h : r ∈ completeRanking intents top) (hn : r.name = some i) :
    i ∈ intents := by
  unfold completeRanking at h
  simp only [List.mem_append, List.mem_map, List.mem_filter, List.mem_singleton] at h
  rcases h with (h | ⟨j, ⟨hj, -⟩, rfl⟩) | rfl
  · exact htop r h i hn
  · cases hn; exact hj
  · cases hn

theorem lookup_intents_only {env : RuleEnv} {p : Lookup} (hw : w.NoError) (hs : w.Scoped) (hc : p.Complete dataset names env)
    (o : HashOrd) (input : Text) :
    (p.getIntents env o input).Only w fun rs => ∀ r ∈ rs, ∀ i, r.name = some i → i ∈ p.intentsNames := by
  unfold Lookup.getIntents
  refine (lookup_top_only hw hs hc o input _ none).bind fun ranked h => only_ret fun r hr i hi => ?_
  refine completeRanking_own (fun r' hr' j hj => ?_) hr hi
  obtain ⟨x, hx, rfl⟩ := List.mem_map.1 hr'
  exact (h x hx).2 j hj

theorem lookup_slots_only {env : RuleEnv} {p : Lookup} (hw : w.NoError) (hs : w.Scoped) (hc : p.Complete dataset names env)
    (o : HashOrd) (input : Text) {intent : Text} (hk : intent ∈ p.intentsNames) :
    (p.getSlots env o input intent).Only w (SlotsOk dataset names) := by
  unfold Lookup.getSlots
  rw [if_pos (by simpa using hk)]
  exact (lookup_parse_only hw hs hc o input _).bind fun r hr => only_ret hr

/-! ### The deterministic parser -/

section DeterministicParser

variable {env : RuleEnv} {p : Det}

/-- What is known of a result of the deterministic parser. -/
def DetOk (dataset : DatasetMetadata) (names : KindNames) (p : Det) (r : InternalResult) : Prop :=
  SlotsOk dataset names r.slots ∧ ∀ i, r.intent.name = some i → i ∈ p.regexes.keys

theorem only_findMap {α β : Type} {Q : β → Prop} {f : α → Outcome (Option β)} : ∀ (l : List α),
    (∀ a ∈ l, (f a).Only fun r => ∀ b, r = some b → Q b) → (findMapOutcome f l).Only fun r => ∀ b, r = some b → Q b
  | [], _ => fun b hb => by cases hb
  | a :: l, h => by
    have h1 := h a (by simp)
    unfold findMapOutcome
    cases hfa : f a with
    | err e => rw [hfa] at h1; exact h1
    | panic => trivial
    | ok r =>
      rw [hfa] at h1
      cases r with
      | none => exact only_findMap l fun a' h' => h a' (by simp [h'])
      | some b => exact h1

theorem det_matching_only (hc : p.Complete dataset names) (fns : TextFns) (o : HashOrd) (input formatted : Text) (regex : Regex)
    (intent : Text) (hk : intent ∈ p.regexes.keys) (mapping : Option (Map Rng Rng)) :
    (p.matchingResult fns o input formatted regex intent mapping).Only fun r => ∀ b, r = some b → DetOk dataset names p b := by
  unfold Det.matchingResult
  split
  · split
    · refine (only_mapOutcome (Q := fun s : InternalSlot => Resolvable dataset names s.entity) _ ?_).bind fun slots hsl => ?_
      · intro c _
        unfold Det.slotOf
        refine Outcome.Only.bind (Q := fun _ => True) (Outcome.only_unwrap fun _ _ => trivial) fun slotName _ => ?_
        refine Outcome.Only.bind (Q := fun entities => p.slotEntities.get intent = some entities)
          (Outcome.only_unwrap fun _ h => h) fun entities hent => ?_
        refine Outcome.Only.bind (Q := fun entity => Map.get entities slotName = some entity)
          (Outcome.only_unwrap fun _ h => h) fun entity hen => ?_
        exact hc.entities _ _ hent _ _ hen
      · rintro b ⟨⟩
        refine ⟨fun s hs => hsl s (mem_dedupSlots hs), ?_⟩
        rintro i ⟨⟩
        exact hk
    · rintro b ⟨⟩
  · rintro b ⟨⟩

theorem detPreprocessFrom_only (fns : TextFns) (stop : List Text) : ∀ (toks : List Token) (cur : Nat),
    (detPreprocessFrom fns stop cur toks).Only fun _ => True
  | [], _ => trivial
  | tok :: toks, cur => by
    unfold detPreprocessFrom
    split
    · trivial
    · exact (detPreprocessFrom_only fns stop toks _).bind fun _ _ => trivial

theorem det_preprocess_only (fns : TextFns) (text intent : Text) : (p.preprocess fns text intent).Only fun _ => True := by
  unfold Det.preprocess
  refine (detPreprocessFrom_only fns _ _ _).bind fun r _ => ?_
  split <;> trivial

theorem replaceChecked_only (debug : Bool) (text : Text) (ms : List MatchedEntity) (ph : Text → Text) :
    (replaceChecked debug text ms ph).Only fun _ => True := by
  unfold replaceChecked
  split <;> trivial

theorem det_matchIntent_only (hw : w.NoError) (hc : p.Complete dataset names) (o : HashOrd) (input : Text)
    (scope : Text × (List Kind × List Text)) (hsc : scope ∈ p.scopes) :
    (p.matchIntent env o input scope).Only w fun r => ∀ b, r = some b → DetOk dataset names p b := by
  unfold Det.matchIntent
  refine only_builtinCached hw fun bs => only_custom hw fun cs _ => only_ofOutcome ?_
  obtain ⟨patterns, hpat⟩ := hc.patterns scope hsc
  have hk : scope.1 ∈ p.regexes.keys := Map.get_isSome_iff.1 ⟨_, hpat⟩
  unfold Det.matchWith
  refine (replaceChecked_only _ _ _ _).bind fun replaced _ => ?_
  refine (det_preprocess_only _ _ _).bind fun cleaned _ => (det_preprocess_only _ _ _).bind fun formatted _ => ?_
  refine Outcome.Only.bind (Outcome.only_ofOption (Q := fun _ => True) ⟨patterns, hpat, trivial⟩) fun regexes _ => ?_
  refine only_findMap _ fun regex _ => ?_
  unfold Det.tryRegex
  refine (det_matching_only hc _ _ _ _ _ _ hk _).bind fun raw hraw => ?_
  cases raw with
  | some r => exact hraw
  | none => exact det_matching_only hc _ _ _ _ _ _ hk _

theorem det_top_only (hw : w.NoError) (hc : p.Complete dataset names) (o : HashOrd) (input : Text) (n : Nat)
    (wl : Option (List Text)) :
    (p.parseTopIntents env o input n wl).Only w fun ranked => ∀ r ∈ ranked, DetOk dataset names p r := by
  unfold Det.parseTopIntents
  refine (only_mapM (R := fun r => ∀ b, r = some b → DetOk dataset names p b) _ fun s hs => ?_).bind fun rs hrs => only_ret ?_
  · exact det_matchIntent_only hw hc o input s ((o.perm 0 p.scopes).mem_iff.1 (List.mem_filter.1 hs).1)
  · intro r hr
    obtain ⟨r', hr', h1, h2⟩ := rankByWeight_mem hr
    obtain ⟨y, hy, hyx⟩ := List.mem_filterMap.1 hr'
    have := hrs y hy r' hyx
    exact ⟨by rw [h1]; exact this.1, by rw [h2]; exact this.2⟩

theorem det_parse_only (hw : w.NoError) (hc : p.Complete dataset names) (o : HashOrd) (input : Text) (wl : Option (List Text)) :
    (p.parse env o input wl).Only w fun r => SlotsOk dataset names r.slots := by
  unfold Det.parse
  refine (det_top_only hw hc o input 1 wl).bind fun ranked h => only_ret ?_
  rcases pickUnambiguous_cases ranked with h' | h'
  · rw [h']
    intro s hs
    cases hs
  · exact (h _ h').1

theorem det_intents_only (hw : w.NoError) (hc : p.Complete dataset names) (o : HashOrd) (input : Text) :
    (p.getIntents env o input).Only w fun rs => ∀ r ∈ rs, ∀ i, r.name = some i → i ∈ p.regexes.keys := by
  unfold Det.getIntents
  refine (det_top_only hw hc o input _ none).bind fun ranked h => only_ret fun r hr i hi => ?_
  refine (o.perm 2 p.regexes.keys).mem_iff.1 (completeRanking_own (fun r' hr' j hj => ?_) hr hi)
  obtain ⟨x, hx, rfl⟩ := List.mem_map.1 hr'
  exact (o.perm 2 p.regexes.keys).mem_iff.2 ((h x hx).2 j hj)

theorem det_slots_only (hw : w.NoError) (hc : p.Complete dataset names) (o : HashOrd) (input : Text) {intent : Text}
    (hk : intent ∈ p.regexes.keys) : (p.getSlots env o input intent).Only w (SlotsOk dataset names) := by
  unfold Det.getSlots
  rw [if_pos (by simpa using hk)]
  exact (det_parse_only hw hc o input _).bind fun r hr => only_ret hr

end DeterministicParser

/-! ### The classifier -/

theorem countWords_only {F : Type} (ops : FloatOps F) (vocab : Map Text Nat) : ∀ (words : List Text) (features : List F)
    (matched : List Nat), (countWords ops vocab words (features, matched)).Only fun r => r.1.length = features.length
  | [], _, _ => rfl
  | word :: words, features, matched => by
    unfold countWords
    cases hg : vocab.get word with
    | none => exact countWords_only ops vocab words features matched
    | some ix =>
      simp only
      split
      · refine (countWords_only ops vocab words _ _).mono fun r hr => ?_
        rw [hr, List.length_modify]
      · trivial

theorem applyIdf_only {F : Type} (ops : FloatOps F) (idf : List F) : ∀ (ixs : List Nat) (features : List F),
    (applyIdf ops idf ixs features).Only fun r => r.length = features.length
  | [], _ => rfl
  | ix :: ixs, features => by
    unfold applyIdf
    cases hd : idf[ix]? with
    | none => trivial
    | some d =>
      simp only
      split
      · refine (applyIdf_only ops idf ixs _).mono fun r hr => ?_
        rw [hr, List.length_modify]
      · trivial

theorem setPairs_only {F : Type} (ops : FloatOps F) (table : Map (Text × Text) Nat) : ∀ (pairs : List (Text × Text))
    (features : List F), (setPairs ops table pairs features).Only fun r => r.length = features.length
  | [], _ => rfl
  | pair :: pairs, features => by
    unfold setPairs
    cases hd : table.get pair with
    | none => exact setPairs_only ops table pairs features
    | some ix =>
      simp only
      split
      · refine (setPairs_only ops table pairs _).mono fun r hr => ?_
        rw [hr, List.length_set]
      · trivial

theorem tfidf_only {F : Type} (ops : FloatOps F) (env : FeatEnv) (o : HashOrd) (v : Tfidf F) (hw : w.NoError) (input : Text) :
    (v.transform ops env o input).Only w fun fs => ∃ m, (v.vocabulary.map Prod.snd).max? = some m ∧ fs.length = m + 1 := by
  unfold Tfidf.transform
  refine only_builtinCached hw fun bs => only_custom hw fun cs _ => only_ofOutcome ?_
  unfold tfidfVector
  refine Outcome.Only.bind (Q := fun m => (v.vocabulary.map Prod.snd).max? = some m) (Outcome.only_unwrap fun _ h => h)
    fun m hm => ?_
  refine (countWords_only ops _ _ _ _).bind fun counted hcounted => (applyIdf_only ops _ _ _).bind fun fs hfs => ?_
  refine ⟨m, hm, ?_⟩
  unfold normalizeVector
  rw [List.length_map, hfs, hcounted, List.length_replicate]

theorem cooc_only {F : Type} (ops : FloatOps F) (env : FeatEnv) (o : HashOrd) (v : Cooc) (hw : w.NoError) (input : Text) :
    (v.transform ops env o input).Only w fun fs => fs.length = v.wordPairs.length := by
  unfold Cooc.transform
  refine only_builtinCached hw fun bs => only_custom hw fun cs _ => only_ofOutcome ?_
  refine (replaceChecked_only _ _ _ _).bind fun enriched _ => ?_
  refine Outcome.Only.bind (Q := fun _ => True) ?_ fun pairs _ => ?_
  · unfold Cooc.extractWordPairs
    split <;> trivial
  · refine (setPairs_only ops _ _ _).mono fun r hr => ?_
    rw [hr, List.length_replicate]

theorem classifier_only (ops : FloatOps ℚ) (env : FeatEnv) (o : HashOrd) (c : Classifier) (hc : c.Complete) (hw : w.NoError)
    (input : Text) (wl : Option (List Text)) :
    (c.getIntentsWithWhitelist ops env o input wl).Only w fun rs => ∀ r ∈ rs, ∀ i, r.name = some i → some i ∈ c.intentList := by
  have hblank : ∀ r ∈ Classifier.getIntentsWithWhitelist.blank c, ∀ i, r.name = some i → some i ∈ c.intentList := by
    intro r hr i hi
    unfold Classifier.getIntentsWithWhitelist.blank at hr
    obtain ⟨n, hn, rfl⟩ := List.mem_map.1 ((mem_sortDesc _).1 hr)
    cases hi
    exact hn
  unfold Classifier.getIntentsWithWhitelist
  split
  · refine only_ret fun r hr i hi => ?_
    rw [List.mem_singleton] at hr
    subst hr
    simp only at hi
    cases hl : c.intentList with
    | nil => rw [hl] at hi; cases hi
    | cons a l =>
      rw [hl] at hi
      simp only [List.head?_cons, Option.join_some] at hi
      rw [hi]; simp
  · split
    · exact only_ret hblank
    · cases hf : c.featurizer with
      | none => exact only_ret hblank
      | some f =>
        cases hl : c.logreg with
        | none => exact only_ret hblank
        | some l =>
          have hfeat : (f.transform ops env o input).Only w fun fs => fs.length = l.nbFeatures := by
            unfold Featurizer.transform
            refine (tfidf_only ops env o f.tfidf hw input).bind fun fs hfs => ?_
            obtain ⟨m, hm, hlen⟩ := hfs
            have hnb := hc f l hf hl m hm
            cases hco : f.cooc with
            | none =>
              rw [hco] at hnb
              exact only_ret (hlen.trans hnb.symm)
            | some v =>
              rw [hco] at hnb
              exact (cooc_only ops env o v hw input).bind fun more hmore =>
                only_ret (by rw [List.length_append, hlen, hmore, hnb])
          refine hfeat.bind fun fs hfs => Only.bind (Q := fun _ => True) (only_ofOutcome ?_) fun scores _ => only_ret ?_
          · unfold LogReg.run
            rw [if_neg (by rw [hfs]; simp)]
            simp only
            split <;> trivial
          · intro r hr i hi
            unfold Classifier.rank at hr
            obtain ⟨ns, hns, rfl⟩ := List.mem_map.1 (List.mem_filter.1 ((mem_sortDesc _).1 hr)).1
            have := (List.of_mem_zip hns).1
            simp only at hi
            rw [hi] at this
            exact this

/-! ### The slot filler -/

theorem getSchemePrefix_only (i : Nat) (l : List Nat) (sch : Scheme) : (getSchemePrefix i l sch).Only fun _ => True := by
  unfold getSchemePrefix
  split
  · trivial
  · exact Outcome.Only.bind (Q := fun _ => True) (Outcome.only_unwrap fun _ _ => trivial) fun _ _ => trivial
  · split
    · trivial
    · refine Outcome.Only.bind (Q := fun _ => True) (Outcome.only_unwrap fun _ _ => trivial) fun _ _ => ?_
      split
      · trivial
      · refine Outcome.Only.bind (Q := fun _ => True) (Outcome.only_unwrap fun _ _ => trivial) fun _ _ => ?_
        split <;> trivial

theorem entityPrefix_only (sch : Scheme) (toks : List Token) (i : Nat) : ∀ rs, (entityPrefix sch toks i rs).Only fun _ => True
  | [] => trivial
  | r :: rs => by
    unfold entityPrefix
    cases toks[i]? with
    | none => trivial
    | some tok =>
      simp only
      split
      · have := getSchemePrefix_only i (touchedTokens toks r) sch
        cases hg : getSchemePrefix i (touchedTokens toks r) sch with
        | ok p => trivial
        | err e => rw [hg] at this; exact this
        | panic => trivial
      · exact entityPrefix_only sch toks i rs

theorem initialString_only (toks : List Token) : (initialStringFromTokens toks).Only fun _ => True := by
  unfold initialStringFromTokens
  split <;> trivial

theorem feature_only (fns : TextFns) (hw : w.NoError) (toks : List Token) (i : Nat) (f : Feature) :
    (f.compute fns toks i).Only w fun _ => True := by
  cases f with
  | isDigit => exact only_ofOutcome (Outcome.Only.bind (Q := fun _ => True) (Outcome.only_unwrap fun _ _ => trivial) fun _ _ => trivial)
  | length => exact only_ofOutcome (Outcome.Only.bind (Q := fun _ => True) (Outcome.only_unwrap fun _ _ => trivial) fun _ _ => trivial)
  | isFirst => exact only_ret trivial
  | isLast =>
    by_cases h : toks = []
    · simp only [Feature.compute, if_pos h]
      trivial
    · simp only [Feature.compute, if_neg h]
      trivial
  | ngram n c st =>
    by_cases h : usizeCount ≤ i + n
    · simp only [Feature.compute, if_pos h]
      trivial
    · simp only [Feature.compute, if_neg h]
      trivial
  | shapeNgram n => exact only_ret trivial
  | pfx n => exact only_ofOutcome (Outcome.Only.bind (Q := fun _ => True) (Outcome.only_unwrap fun _ _ => trivial) fun _ _ => trivial)
  | sfx n => exact only_ofOutcome (Outcome.Only.bind (Q := fun _ => True) (Outcome.only_unwrap fun _ _ => trivial) fun _ _ => trivial)
  | entityMatch e sch st =>
    exact (only_ofOutcome (initialString_only _)).bind fun text _ => only_custom hw fun es _ =>
      only_ofOutcome (entityPrefix_only _ _ _ _)
  | builtinEntityMatch k kid sch =>
    exact (only_ofOutcome (initialString_only _)).bind fun text _ => only_builtinCached hw fun es =>
      only_ofOutcome (entityPrefix_only _ _ _ _)
  | wordCluster n g =>
    exact only_ofOutcome (Outcome.Only.bind (Q := fun _ => True) (Outcome.only_unwrap fun _ _ => trivial) fun _ _ => trivial)

theorem featureLoop_only (fns : TextFns) (hw : w.NoError) (toks : List Token) (o : Offsetter) : ∀ (is : List Nat)
    (feats : List (List (Text × Text))), (featureLoop fns toks o is feats).Only w fun _ => True
  | [], _ => only_ret trivial
  | i :: is, feats => by
    unfold featureLoop
    refine (feature_only fns hw toks i _).bind fun v _ => ?_
    cases v with
    | none => exact featureLoop_only fns hw toks o is _
    | some v => exact featureLoop_only fns hw toks o is _

theorem offsettersLoop_only (fns : TextFns) (hw : w.NoError) (toks : List Token) : ∀ (os : List Offsetter)
    (feats : List (List (Text × Text))), (offsettersLoop fns toks os feats).Only w fun _ => True
  | [], _ => only_ret trivial
  | o :: os, feats => by
    unfold offsettersLoop
    exact (featureLoop_only fns hw toks o _ _).bind fun _ _ => offsettersLoop_only fns hw toks os _

theorem endP_outside (sch : Scheme) (t : Text) (next : Option Text) (h : endP sch t next = true) : t ≠ outside := by
  rintro rfl
  cases sch <;> simp [endP] at h

/-- The end of a slot has a tag other than `O`. -/
theorem goSpans_tag (sch : Scheme) : ∀ (tags : List Text) (prev : Option Text) (i cur : Nat),
    ∀ s ∈ goSpans sch prev i cur tags, ∃ t ∈ tags, t ≠ outside ∧ s.name = t.drop 2
  | [], _, _, _ => by simp [goSpans]
  | t :: rest, prev, i, cur => by
    intro s hs
    unfold goSpans at hs
    simp only at hs
    split at hs
    · rename_i hend
      rcases List.mem_cons.1 hs with rfl | hs
      · exact ⟨t, by simp, endP_outside _ _ _ hend, rfl⟩
      · obtain ⟨t', h1, h2⟩ := goSpans_tag sch rest _ _ _ s hs
        exact ⟨t', by simp [h1], h2⟩
    · obtain ⟨t', h1, h2⟩ := goSpans_tag sch rest _ _ _ s hs
      exact ⟨t', by simp [h1], h2⟩

theorem byteSlice_only (text : Text) (r : Rng) : (byteSlice text r).Only fun _ => True := by
  unfold byteSlice
  split
  · split <;> trivial
  · trivial

theorem tagsToSlots_only (text : Text) (toks : List Token) (tags : List Text) (sch : Scheme) (mapping : Map Text Text)
    (h : ∀ t ∈ tags, t = outside ∨ ∃ entity, mapping.get (t.drop 2) = some entity ∧ Resolvable dataset names entity) :
    (tagsToSlots text toks tags sch mapping).Only (SlotsOk dataset names) := by
  unfold tagsToSlots
  rw [tagsToSlotRanges_eq]
  refine (only_mapOutcome (Q := fun r : SlotRange => ∃ entity, mapping.get r.slotName = some entity ∧
    Resolvable dataset names entity) _ fun s hs => ?_).bind fun ranges hr => only_mapOutcome _ fun r hrm => ?_
  · obtain ⟨t, ht, hne, hn⟩ := goSpans_tag sch tags _ _ _ s hs
    have := (h t ht).resolve_left hne
    rw [← hn] at this
    unfold spanRange
    split
    · exact this
    · trivial
  · obtain ⟨entity, he, hres⟩ := hr r hrm
    unfold slotRangeToSlot
    refine (byteSlice_only _ _).bind fun value _ => ?_
    exact Outcome.Only.bind (Outcome.only_ofOption (Q := fun e => e = entity) ⟨entity, he, rfl⟩) fun e hee => by
      subst hee
      exact hres

theorem filler_only {codec : TagCodec} {f : SlotFiller} (hf : f.Complete dataset names codec) (hw : w.NoError) (text : Text) :
    (f.getSlots codec text).Only w (SlotsOk dataset names) := by
  unfold SlotFiller.getSlots
  split
  · rename_i tagger os htag hos
    simp only
    split
    · exact only_ret (by intro s hs; cases hs)
    · refine (offsettersLoop_only f.fns hw _ os _).bind fun features _ => only_ofOutcome ?_
      obtain ⟨h1, h2⟩ := hf tagger htag features
      refine Outcome.Only.bind (Q := fun encoded => tagger.tag features = .ok encoded) ?_ fun encoded henc => ?_
      · cases ht : tagger.tag features with
        | ok a => rfl
        | err e => exact absurd ht (h1 e)
        | panic => trivial
      · refine (only_mapOutcome (Q := fun tag : Text => tag = outside ∨ ∃ entity, f.mapping.get (tag.drop 2) = some entity ∧
          Resolvable dataset names entity) _ fun x hx => ?_).bind fun tags htags => tagsToSlots_only _ _ _ _ _ htags
        obtain ⟨tag, hd, ht⟩ := h2 encoded henc x hx
        rw [hd]
        exact ht
  · exact only_ret (by intro s hs; cases hs)

/-! ### All parsers -/

/-- What is known of the answers of a parser. -/
structure ParserImpl.Answers (dataset : DatasetMetadata) (names : KindNames) (w : World) (input : Text) (ranks knows : Text → Prop)
    (p : ParserImpl) : Prop where
  parse : ∀ o wl, (p.parse o input wl).Only w fun r => SlotsOk dataset names r.slots
  intents : ∀ o, (p.getIntents o input).Only w fun rs => ∀ r ∈ rs, ∀ i, r.name = some i → ranks i
  slots : ∀ o intent, knows intent → (p.getSlots o input intent).Only w (SlotsOk dataset names)

theorem parser_answers (hw : w.NoError) (hs : w.Scoped) (input : Text) (p : ParserModel) (hc : p.Complete dataset names) :
    p.impl.Answers dataset names w input p.Ranks p.Knows := by
  cases p with
  | lookup env p =>
    exact ⟨fun o wl => lookup_parse_only hw hs hc o input wl, fun o => lookup_intents_only hw hs hc o input,
      fun o intent hk => lookup_slots_only hw hs hc o input hk⟩
  | deterministic env p =>
    exact ⟨fun o wl => det_parse_only hw hc o input wl, fun o => det_intents_only hw hc o input,
      fun o intent hk => det_slots_only hw hc o input hk⟩
  | probabilistic env p =>
    have hc : p.Complete dataset names env := hc
    have hslots : ∀ err intent, (∃ filler, p.slotFillers.get intent = some filler) →
        (p.slotsOf env err input intent).Only w (SlotsOk dataset names) := by
      rintro err intent ⟨filler, hfl⟩
      unfold Prob.slotsOf
      rw [hfl]
      exact filler_only (hc.fillers _ _ hfl) hw input
    refine ⟨fun o wl => ?_, fun o => classifier_only _ _ _ _ hc.features hw _ _, fun o intent hk => hslots _ _ hk⟩
    show (p.parse env o input wl).Only w _
    unfold Prob.parse
    refine Only.bind (Q := fun res : IntentResult => ∀ i, res.name = some i → some i ∈ p.classifier.intentList) ?_ fun res hres => ?_
    · unfold Classifier.getIntent
      refine (classifier_only _ _ _ _ hc.features hw _ _).bind fun rs hrs => only_ret ?_
      cases rs with
      | nil => intro i hi; cases hi
      | cons r rs => exact hrs r (by simp)
    · cases hn : res.name with
      | none => exact only_ret (by intro s hs; cases hs)
      | some name => exact (hslots _ _ (hc.intents _ (hres _ hn))).bind fun slots hsl => only_ret hsl

theorem ofParsers_answers (hw : w.NoError) (hs : w.Scoped) (input : Text) {ps : List ParserModel}
    (hc : ∀ p ∈ ps, p.Complete dataset names) :
    ∀ q ∈ (Engine.ofParsers dataset names ps).parsers, q.Answers dataset names w input (fun i => ∃ p ∈ ps, p.Ranks i)
      (fun i => ∀ p ∈ ps, p.Knows i) := by
  intro q hq
  obtain ⟨p, hm, rfl⟩ := List.mem_map.1 hq
  have h := parser_answers hw hs input p (hc p hm)
  exact ⟨h.parse, fun o => (h.intents o).mono fun rs hrs r hr i hi => ⟨p, hm, hrs r hr i hi⟩,
    fun o intent hk => h.slots o intent (hk p hm)⟩

/-! ### The engine -/

variable {e : Engine}

theorem resolveOne_only (hw : w.NoError) (n : Nat) (bs : List BuiltinEntity) (cs : List CustomEntity) (slot : InternalSlot)
    (h : Resolvable e.dataset e.names slot.entity) : (e.resolveOne n bs cs slot).Only w fun _ => True := by
  unfold Engine.resolveOne
  split
  · unfold resolveCustomSlot
    split
    · exact only_ret trivial
    · exact only_custom hw fun _ _ => only_ret trivial
  · rename_i hnone
    rcases h with ⟨x, hx⟩ | ⟨kind, hk⟩
    · rw [hnone] at hx; cases hx
    · unfold resolveBuiltinSlot
      refine Only.bind (only_ofOutcome (Outcome.only_ofOption (Q := fun _ => True) ⟨kind, hk, trivial⟩)) fun kind _ => ?_
      split
      · exact only_ret trivial
      · exact only_builtinFresh hw fun _ => only_ret trivial

theorem resolveEach_only (hw : w.NoError) (n : Nat) (bs : List BuiltinEntity) (cs : List CustomEntity) :
    ∀ slots, SlotsOk e.dataset e.names slots → (e.resolveEach n bs cs slots).Only w fun _ => True
  | [], _ => only_ret trivial
  | s :: slots, h => by
    unfold Engine.resolveEach
    exact (resolveOne_only hw n bs cs s (h s (by simp))).bind fun _ _ =>
      (resolveEach_only hw n bs cs slots fun s' h' => h s' (by simp [h'])).bind fun _ _ => only_ret trivial

theorem resolveSlots_only (hw : w.NoError) (text : Text) (n : Nat) {slots : List InternalSlot}
    (h : SlotsOk e.dataset e.names slots) : (e.resolveSlots text slots n).Only w fun _ => True := by
  unfold Engine.resolveSlots
  split
  · exact only_ret trivial
  · exact only_builtinFresh hw fun _ => only_custom hw fun _ _ => resolveEach_only hw n _ _ slots h

variable {input : Text} {ranks knows : Text → Prop}

theorem cascade_only (hw : w.NoError) (o : HashOrd) (wl : Option (List Text)) (n : Nat) :
    ∀ (ps : List ParserImpl) (i : Nat) (q : ℚ), (∀ p ∈ ps, p.Answers e.dataset e.names w input ranks knows) →
      (e.cascade o input wl n i ps q).Only w fun _ => True
  | [], _, _, _ => only_ret trivial
  | p :: ps, i, q, h => by
    unfold Engine.cascade
    refine ((h p (by simp)).parse _ _).bind fun r hr => ?_
    split
    · exact (resolveSlots_only hw _ _ hr).bind fun _ _ => only_ret trivial
    · exact cascade_only hw o wl n ps _ _ fun p' hp' => h p' (by simp [hp'])

/-- The names of the merged results. -/
def NamesOk (ranks : Text → Prop) (m : Map (Option Text) IntentResult) : Prop :=
  ∀ x ∈ m, ∀ i, x.2.name = some i → ranks i

theorem upsertScore_names {m : Map (Option Text) IntentResult} (hm : NamesOk ranks m) {res : IntentResult}
    (hr : ∀ i, res.name = some i → ranks i) : NamesOk ranks (Engine.upsertScore m res) := by
  unfold Engine.upsertScore
  intro x hx i hi
  split at hx
  · rename_i old hold
    rcases Map.mem_insert_cases hx with rfl | hx
    · exact hm _ (Map.get_some_mem hold) i hi
    · exact hm x hx i hi
  · rcases Map.mem_insert_cases hx with rfl | hx
    · exact hr i hi
    · exact hm x hx i hi

theorem foldl_keep {α β : Type} {P : β → Prop} {f : β → α → β} : ∀ (l : List α) (b : β), P b →
    (∀ b, P b → ∀ a ∈ l, P (f b a)) → P (l.foldl f b)
  | [], _, hb, _ => hb
  | a :: l, b, hb, h => foldl_keep l _ (h b hb a (by simp)) fun b hb a' ha' => h b hb a' (by simp [ha'])

theorem mergeIntents_names {m : Map (Option Text) IntentResult} (hm : NamesOk ranks m) {rs : List IntentResult}
    (hr : ∀ r ∈ rs, ∀ i, r.name = some i → ranks i) : NamesOk ranks (Engine.mergeIntents m rs) := by
  unfold Engine.mergeIntents
  split
  · refine foldl_keep rs m hm fun b hb a ha x hx i hi => ?_
    rcases Map.mem_insert_cases hx with rfl | hx
    · exact hr a ha i hi
    · exact hb x hx i hi
  · refine foldl_keep rs m hm fun b hb a ha => ?_
    simp only
    split <;> split
    · exact upsertScore_names hb (hr a ha)
    · exact hb
    · exact upsertScore_names hb (hr a ha)
    · exact hb

theorem collectIntents_only (o : HashOrd) :
    ∀ (ps : List ParserImpl) (i : Nat) (m : Map (Option Text) IntentResult), NamesOk ranks m →
      (∀ p ∈ ps, p.Answers e.dataset e.names w input ranks knows) →
      (Engine.collectIntents o input i ps m).Only w (NamesOk ranks)
  | [], _, _, hm, _ => only_ret hm
  | p :: ps, i, m, hm, h => by
    unfold Engine.collectIntents
    exact ((h p (by simp)).intents _).bind fun rs hrs =>
      collectIntents_only o ps _ _ (mergeIntents_names hm hrs) fun p' hp' => h p' (by simp [hp'])

theorem getIntents_only (o : HashOrd) (h : ∀ p ∈ e.parsers, p.Answers e.dataset e.names w input ranks knows) :
    (e.getIntents o input).Only w fun rs => ∀ r ∈ rs, ∀ i, r.name = some i → ranks i := by
  unfold Engine.getIntents
  refine (collectIntents_only _ e.parsers 0 [] (by intro x hx; cases hx) h).bind fun m hm => only_ret fun r hr i hi => ?_
  obtain ⟨x, hx, rfl⟩ := List.mem_map.1 ((mem_sortDesc _).1 hr)
  exact hm x ((o.perm 0 m).mem_iff.1 hx) i hi

theorem slotsCascade_only (hw : w.NoError) (o : HashOrd) {intent : Text} (hk : knows intent) (n : Nat) :
    ∀ (ps : List ParserImpl) (i : Nat), (∀ p ∈ ps, p.Answers e.dataset e.names w input ranks knows) →
      (e.slotsCascade o input intent n i ps).Only w fun _ => True
  | [], _, _ => only_ret trivial
  | p :: ps, i, h => by
    unfold Engine.slotsCascade
    refine ((h p (by simp)).slots _ _ hk).bind fun r hr => ?_
    split
    · exact slotsCascade_only hw o hk n ps _ fun p' hp' => h p' (by simp [hp'])
    · exact resolveSlots_only hw _ _ hr

theorem getSlots_only (hw : w.NoError) (o : HashOrd) {intent : Text} (hk : knows intent) (n : Nat)
    (h : ∀ p ∈ e.parsers, p.Answers e.dataset e.names w input ranks knows) :
    (e.getSlotsWithAlternatives o input intent n).Only w fun _ => True :=
  slotsCascade_only hw o hk n _ _ h

theorem alternativesSlots_only (hw : w.NoError) (h : ∀ p ∈ e.parsers, p.Answers e.dataset e.names w input ranks knows)
    (o : HashOrd) (n : Nat) : ∀ (rs : List IntentResult) (i : Nat), (∀ r ∈ rs, ∀ i, r.name = some i → knows i) →
    (e.alternativesSlots o input n i rs).Only w fun _ => True
  | [], _, _ => only_ret trivial
  | r :: rs, i, hr => by
    unfold Engine.alternativesSlots
    refine Only.bind (Q := fun _ => True) ?_ fun _ _ =>
      (alternativesSlots_only hw h o n rs _ fun r' h' => hr r' (by simp [h'])).bind fun _ _ => only_ret trivial
    unfold Engine.alternativeSlots
    split
    · rename_i name hname
      exact getSlots_only hw _ (hr r (by simp) _ hname) _ h
    · exact only_ret trivial

theorem parseWith_only (hw : w.NoError) (o : HashOrd) (wl bl : Option (List Text)) (hk : e.FilterKnown wl bl) (ni ns : Nat)
    (h : ∀ p ∈ e.parsers, p.Answers e.dataset e.names w input ranks knows) (hrk : ni = 0 ∨ ∀ i, ranks i → knows i) :
    (e.parseWithAlternatives o input wl bl ni ns).Only w fun _ => True := by
  unfold Engine.parseWithAlternatives
  obtain ⟨eff, heff, -⟩ := getIntentsWhitelist_known e (o.sub 0) wl bl hk
  refine Only.bind (Q := fun _ => True) (only_ofOutcome (by rw [heff]; trivial)) fun eff _ => ?_
  refine (cascade_only hw _ _ _ _ _ _ h).bind fun main _ => ?_
  split
  · exact only_ret trivial
  · rename_i hni
    refine (getIntents_only _ h).bind fun ranked hranked => ?_
    refine (alternativesSlots_only hw h _ _ _ _ ?_).bind fun _ _ => only_ret trivial
    intro r hr i hi
    exact (hrk.resolve_left hni) i (hranked r (List.mem_filter.1 (List.mem_of_mem_drop (List.mem_of_mem_take hr))).1 i hi)

theorem extract_only (hw : w.NoError) (input : Text) {intent slot entity : Text} {mapping : Map Text Text} (n : Nat)
    (h1 : e.dataset.slotNameMappings.get intent = some mapping) (h2 : Map.get mapping slot = some entity)
    (h3 : Resolvable e.dataset e.names entity) : (e.extractSlotWithAlternatives input intent slot n).Only w fun _ => True := by
  unfold Engine.extractSlotWithAlternatives
  refine Only.bind (only_ofOutcome (Outcome.only_ofOption (Q := fun m => m = mapping) ⟨mapping, h1, rfl⟩)) fun m hm => ?_
  subst hm
  refine Only.bind (only_ofOutcome (Outcome.only_ofOption (Q := fun x => x = entity) ⟨entity, h2, rfl⟩)) fun x hx => ?_
  subst hx
  split
  · exact only_custom hw fun _ _ => only_ret trivial
  · rename_i hnone
    rcases h3 with ⟨x, hx⟩ | ⟨kind, hk⟩
    · rw [hnone] at hx; cases hx
    · exact Only.bind (only_ofOutcome (Outcome.only_ofOption (Q := fun _ => True) ⟨kind, hk, trivial⟩)) fun kind _ =>
        only_builtinFresh hw fun _ => only_ret trivial

end Snips
