import Verif.Props.C34_Combinations
import Verif.Proofs.Injection
import Verif.Proofs.Dedup
import Verif.Spec.RuleDemo
import Mathlib.Analysis.SpecificLimits.Normed

/-! # C103: how many texts the lookup parser considers -/

namespace Snips

/-- The entities found for a scope. -/
def foundFor (env : RuleEnv) (input : Text) (w : World) (scope : GroupedScope) : List MatchedEntity :=
  match (Lookup.allEntities env input scope).run w with
  | .ok found => found
  | _ => []

open Classical in
/-- For each scope, at most one text for each of its permitted intents and each choice among the entities found. -/
theorem c103_bound_partial (env : RuleEnv) (p : Lookup) (input : Text) (filter : Option (List Text)) (w : World)
    (cs : List (Text × List MatchedEntity)) (h : (p.getCandidates env input filter).run w = .ok cs) :
    cs.length ≤ (p.scopes.map fun s =>
      (s.intentGroup.filter fun i => Permits filter i).length * 2 ^ (foundFor env input w s).length).sum := by
  have hnd : cs.Nodup := by
    unfold Lookup.getCandidates at h
    rw [Prog.run_bind, Outcome.bind_ok] at h
    obtain ⟨cs', -, h⟩ := h
    simp only [Prog.run_ret, Outcome.ok.injEq] at h
    rw [← h]
    exact unique_nodup _
  let all : List (Text × List MatchedEntity) := p.scopes.flatMap fun s =>
    (s.intentGroup.filter fun i => Permits filter i).flatMap fun owner =>
    (foundFor env input w s).sublists.map fun es => (p.preprocess env (replaceWithPlaceholders env.fns input es) owner, es)
  have hsub : cs ⊆ all := by
    rintro ⟨key, es⟩ hm
    obtain ⟨s, hs, owner, ho, hper, found, hf, hes, rfl⟩ := (c34_candidates env p input filter w cs h key es).1 hm
    refine List.mem_flatMap.2 ⟨s, hs, List.mem_flatMap.2 ⟨owner, List.mem_filter.2 ⟨ho, by simpa using hper⟩, List.mem_map.2 ⟨es, ?_, rfl⟩⟩⟩
    simp only [foundFor, hf]
    exact List.mem_sublists.2 hes
  refine Nat.le_trans (List.subperm_of_subset hnd hsub).length_le (Nat.le_of_eq ?_)
  simp only [all, List.length_flatMap, List.length_map, List.length_sublists, List.map_const', List.sum_replicate, smul_eq_mul]

/-- And at least one for each choice among the entities found for a scope with a permitted intent, if these are distinct. -/
theorem c103_at_least (env : RuleEnv) (p : Lookup) (input : Text) (filter : Option (List Text)) (w : World)
    (cs : List (Text × List MatchedEntity)) (h : (p.getCandidates env input filter).run w = .ok cs)
    (scope : GroupedScope) (hs : scope ∈ p.scopes) (owner : Text) (ho : owner ∈ scope.intentGroup) (hp : Permits filter owner)
    (found : List MatchedEntity) (hf : (Lookup.allEntities env input scope).run w = .ok found) (hn : found.Nodup) :
    2 ^ found.length ≤ cs.length := by
  let some_ : List (Text × List MatchedEntity) := found.sublists.map fun es =>
    (p.preprocess env (replaceWithPlaceholders env.fns input es) owner, es)
  have hnd : some_.Nodup := by
    refine List.Nodup.of_map Prod.snd ?_
    simp only [some_, List.map_map, Function.comp_def, List.map_id']
    exact List.nodup_sublists.2 hn
  have hsub : some_ ⊆ cs := by
    intro c hc
    obtain ⟨es, hes, rfl⟩ := List.mem_map.1 hc
    exact (c34_candidates env p input filter w cs h _ es).2 ⟨scope, hs, owner, ho, hp, found, hf, List.mem_sublists.1 hes, rfl⟩
  have := (List.subperm_of_subset hnd hsub).length_le
  simpa [some_, List.length_sublists] using this

/-! ### There is no polynomial bound -/

/-- Every character is an entity. -/
def charWorld : World where
  builtin _ _ _ := .ok []
  custom s _ _ := .ok ((List.range s.length).map fun i => ⟨[], [], [], ⟨i, i + 1⟩, ['e']⟩)

/-- A lookup parser with one intent of one entity. -/
def charLookup : Lookup where
  slotsNames := [['s']]
  intentsNames := [['i']]
  map := []
  stopWords := StopWords.new true [] []
  scopes := [⟨[['i']], [], [['e']]⟩]

theorem charWorld_found (env : RuleEnv) (input : Text) :
    ∃ found, (Lookup.allEntities env input ⟨[['i']], [], [['e']]⟩).run charWorld = .ok found ∧ found.Nodup ∧ found.length = input.length := by
  let ms : List MatchedEntity := (List.range input.length).map fun i => ⟨⟨i, i + 1⟩, ['e']⟩
  have hperm : (dedupEntities ms).Perm ms := by
    unfold dedupEntities
    rw [dedupItems_of_pairwise]
    · exact (sortByKey_perm _ _).trans (sortByKey_perm _ _)
    · refine ((sortByKey_perm _ ms).pairwise_iff (fun h => ?_)).2 ?_
      · rw [← h]
        unfold rangesOverlap
        exact Bool.and_comm _ _
      simp only [ms, List.pairwise_map]
      refine List.Pairwise.imp ?_ (List.pairwise_lt_range (n := input.length))
      intro a b hab
      simp [rangesOverlap]
      omega
  have hnd : ms.Nodup := by
    refine List.Nodup.map ?_ List.nodup_range
    intro a b hab
    simpa using hab
  refine ⟨dedupEntities ms, ?_, hperm.nodup_iff.2 hnd, by rw [hperm.length_eq]; simp [ms]⟩
  have : (List.range input.length).map (fun i => (⟨⟨i, i + 1⟩, ['e']⟩ : MatchedEntity)) =
      ((List.range input.length).map fun i => (⟨[], [], [], ⟨i, i + 1⟩, ['e']⟩ : CustomEntity)).map CustomEntity.toMatched := by
    rw [List.map_map]; rfl
  simp only [ms, this]
  rfl

/-- Whatever the polynomial, there is a query for which more texts than that are considered. -/
theorem c103_polynomial_false (env : RuleEnv) (c d : Nat) :
    ∃ (input : Text) (cs : List (Text × List MatchedEntity)),
      (charLookup.getCandidates env input none).run charWorld = .ok cs ∧ c * input.length ^ d < cs.length := by
  obtain ⟨n, hn⟩ : ∃ n : Nat, c * n ^ d < 2 ^ n := by
    have h := tendsto_pow_const_div_const_pow_of_one_lt d (r := 2) (by norm_num)
    have hpos : (0 : ℝ) < 1 / (c + 1) := by positivity
    obtain ⟨n, hn⟩ := (h.eventually (gt_mem_nhds hpos)).exists
    refine ⟨n, ?_⟩
    have h2 : (0 : ℝ) < 2 ^ n := by positivity
    rw [div_lt_div_iff₀ h2 (by positivity)] at hn
    have : (c : ℝ) * n ^ d < 2 ^ n := by
      have : (0 : ℝ) ≤ (n : ℝ) ^ d := by positivity
      nlinarith
    exact_mod_cast this
  obtain ⟨found, hf, hnd, hlen⟩ := charWorld_found env (List.replicate n 'a')
  have hok : ∃ cs, (charLookup.getCandidates env (List.replicate n 'a') none).run charWorld = .ok cs := by
    refine ⟨_, rfl⟩
  obtain ⟨cs, hcs⟩ := hok
  refine ⟨List.replicate n 'a', cs, hcs, ?_⟩
  have := c103_at_least env charLookup _ none charWorld cs hcs _ (List.mem_singleton_self _) ['i'] (List.mem_singleton_self _)
    (fun l hl => by cases hl) found hf hnd
  rw [hlen] at this
  simp only [List.length_replicate] at this ⊢
  omega

/-! ### A concrete case -/

/-- Three letters, eight texts with their entities. -/
example : ∃ cs, (charLookup.getCandidates demoEnv "abc".toList none).run charWorld = .ok cs ∧ cs.length = 8 := by
  refine ⟨_, rfl, ?_⟩
  decide +kernel

end Snips
