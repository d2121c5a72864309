import Verif.Spec.StopWords
import Verif.Proofs.SlotRenaming
import Verif.Proofs.Dedup
import Verif.Props.C34_Combinations

/-! Helpers for C112. -/

namespace Snips

namespace Inserted

variable {x : Spot} {words : Text}

/-! ### Positions -/

theorem pos_lt (x : Spot) {i j : Nat} : x.pos words i < x.pos words j ↔ i < j := by
  cases x with
  | front t => simp [Spot.pos]
  | back t => simp [Spot.pos]
  | between a b =>
    unfold Spot.pos
    simp only
    split <;> split <;> omega

theorem pos_le (x : Spot) {i j : Nat} : x.pos words i ≤ x.pos words j ↔ i ≤ j := by
  rw [← not_lt, ← not_lt, pos_lt]

theorem pos_inj {i j : Nat} (h : x.pos words i = x.pos words j) : i = j :=
  le_antisymm ((pos_le x).1 h.le) ((pos_le x).1 h.ge)

theorem moved_inj : Function.Injective (x.moved words) := by
  intro r r' h
  cases r; cases r'
  simp only [Spot.moved, Rng.mk.injEq] at h ⊢
  exact ⟨pos_inj h.1, pos_inj h.2⟩

theorem moved_overlap (r r' : Rng) : rangesOverlap (x.moved words r) (x.moved words r') = rangesOverlap r r' := by
  unfold rangesOverlap Spot.moved
  simp only [gt_iff_lt, pos_lt]

theorem moved_count {r : Rng} (h : x.Beside r) : (x.moved words r).count = r.count := by
  unfold Rng.count Spot.moved
  cases x with
  | front t => simp only [Spot.pos]; omega
  | back t => rfl
  | between a b =>
    simp only [Spot.Beside] at h
    simp only [Spot.pos]
    split <;> split <;> omega

theorem shift_substr (pre t : Text) (i j : Nat) : substr (pre ++ t) ⟨i + pre.length, j + pre.length⟩ = substr t ⟨i, j⟩ := by
  unfold substr
  simp only
  rw [Nat.add_comm i, List.drop_append, show j + pre.length - (pre.length + i) = j - i by omega,
    List.drop_of_length_le (by omega)]
  simp

theorem left_substr (t post : Text) {i j : Nat} (h : j ≤ t.length) : substr (t ++ post) ⟨i, j⟩ = substr t ⟨i, j⟩ := by
  unfold substr
  simp only
  by_cases hi : i ≤ j
  · rw [List.drop_append_of_le_length (by omega), List.take_append_of_le_length (by rw [List.length_drop]; omega)]
  · rw [show j - i = 0 by omega]
    simp

/-- The text at a range that is not across the gap is at its new place. -/
theorem moved_substr {r : Rng} (h : x.Beside r) : substr (x.long words) (x.moved words r) = substr x.short r := by
  cases x with
  | front t =>
    have := shift_substr (words ++ [' ']) t r.start r.stop
    simpa [Spot.long, Spot.short, Spot.moved, Spot.pos] using this
  | back t => exact left_substr t _ h.2
  | between before after =>
    simp only [Spot.Beside] at h
    simp only [Spot.moved, Spot.pos, Spot.long, Spot.short]
    rcases h with ⟨h1, h2 | ⟨h2, h3⟩⟩
    · rw [if_pos h2, if_pos (by omega), left_substr _ _ h2]
      exact (left_substr _ _ h2).symm
    · rw [if_neg (by omega), if_neg (by omega)]
      obtain ⟨n, hn⟩ : ∃ n, r.start = n + (before.length + 1) := ⟨r.start - (before.length + 1), by omega⟩
      obtain ⟨m, hm⟩ : ∃ m, r.stop = m + (before.length + 1) := ⟨r.stop - (before.length + 1), by omega⟩
      have e1 := shift_substr (before ++ [' ']) after n m
      have e2 := shift_substr (before ++ ' ' :: (words ++ [' '])) after n m
      simp only [List.length_append, List.length_cons, List.length_nil, List.append_assoc, List.cons_append,
        List.nil_append, Nat.zero_add] at e1 e2
      have hr : r = ⟨n + (before.length + 1), m + (before.length + 1)⟩ := by cases r; simp_all
      rw [hr, e1, ← e2]
      simp only
      congr 2 <;> omega

/-! ### Matches -/

/-- A match at its new place. -/
def mv (x : Spot) (words : Text) (e : MatchedEntity) : MatchedEntity := ⟨x.moved words e.range, e.name⟩

theorem mv_inj : Function.Injective (mv x words) := by
  intro e e' h
  cases e; cases e'
  simp only [mv, MatchedEntity.mk.injEq] at h ⊢
  exact ⟨moved_inj h.1, h.2⟩

theorem fold_map {α β : Type} (g : α → β) (v : α → α → Bool) (v' : β → β → Bool)
    (hv : ∀ a b, v' (g a) (g b) = v a b) : ∀ (l k : List α),
    (l.map g).foldl (dedupStep v') (k.map g) = (l.foldl (dedupStep v) k).map g
  | [], _ => rfl
  | a :: l, k => by
    have hs : dedupStep v' (k.map g) (g a) = (dedupStep v k a).map g := by
      unfold dedupStep
      have ha : ((k.map g).any fun d => v' d (g a)) = k.any fun d => v d a := by
        rw [List.any_map]
        congr 1
        funext d
        exact hv d a
      rw [ha]
      split
      · rfl
      · rw [List.map_append]; rfl
    rw [List.map_cons, List.foldl_cons, List.foldl_cons, hs]
    exact fold_map g v v' hv l _

theorem dedup_mv {es : List MatchedEntity} (h : ∀ e ∈ es, x.Beside e.range) :
    dedupEntities (es.map (mv x words)) = (dedupEntities es).map (mv x words) := by
  unfold dedupEntities dedupItems
  have h1 : sortByKey (fun e : MatchedEntity => -(e.range.count : Int)) (es.map (mv x words))
      = (sortByKey (fun e : MatchedEntity => -(e.range.count : Int)) es).map (mv x words) := by
    unfold sortByKey
    refine (List.map_insertionSort _ _ _ es ?_).symm
    intro a ha b hb
    simp only [mv, moved_count (h a ha), moved_count (h b hb)]
  rw [h1, show ([] : List MatchedEntity) = ([] : List MatchedEntity).map (mv x words) from rfl,
    fold_map _ _ _ (fun a b => moved_overlap (x := x) (words := words) a.range b.range)]
  unfold sortByKey
  refine (List.map_insertionSort _ _ _ _ ?_).symm
  intro a _ b _
  simp only [mv, Spot.moved, pos_le]

theorem dedup_sorted (es : List MatchedEntity) : (dedupEntities es).Pairwise fun a b => a.range.start ≤ b.range.start := by
  unfold dedupEntities sortByKey
  have : IsTrans MatchedEntity fun a b => a.range.start ≤ b.range.start := ⟨fun _ _ _ h h' => le_trans h h'⟩
  have : Std.Total (fun a b : MatchedEntity => a.range.start ≤ b.range.start) := ⟨fun a b => le_total _ _⟩
  exact List.pairwise_insertionSort _ _

theorem combinations_map {α β : Type} (g : α → β) : ∀ (k : Nat) (l : List α),
    combinations k (l.map g) = (combinations k l).map (List.map g)
  | 0, l => by cases l <;> rfl
  | k + 1, [] => rfl
  | k + 1, x :: xs => by
    simp only [List.map_cons, combinations, combinations_map g k xs, combinations_map g (k + 1) xs, List.map_append,
      List.map_map]
    rfl

theorem items_map {α β : Type} (g : α → β) (l : List α) :
    getItemsCombinations (l.map g) = (getItemsCombinations l).map (List.map g) := by
  unfold getItemsCombinations
  simp only [List.length_map, List.map_cons, List.map_nil, List.map_flatMap, combinations_map]

theorem items_sublist {α : Type} {l c : List α} (h : c ∈ getItemsCombinations l) : c.Sublist l := by
  unfold getItemsCombinations at h
  rw [List.mem_cons, List.mem_flatMap] at h
  rcases h with rfl | ⟨k, _, h⟩
  · exact List.nil_sublist _
  · rw [(combinations_perm k l).mem_iff, List.mem_sublistsLen] at h
    exact h.1

/-! ### Placeholders -/

section

variable {before after : Text}

theorem replace_after (fns : TextFns) : ∀ {es : List MatchedEntity} {cur : Nat},
    (∀ e ∈ es, (Spot.between before after).Beside e.range ∧ before.length + 1 ≤ e.range.start) → before.length + 1 ≤ cur →
    cur ≤ before.length + 1 + after.length →
    replaceWithPlaceholdersFrom fns (before ++ ' ' :: (words ++ ' ' :: after)) (cur + (words.length + 1)) (es.map (mv (.between before after) words))
      = replaceWithPlaceholdersFrom fns (before ++ ' ' :: after) cur es
  | [], cur, _, hc, hc' => by
    simp only [List.map_nil, replaceWithPlaceholdersFrom, suffixFrom]
    obtain ⟨n, hn⟩ : ∃ n, cur = before.length + 1 + n := ⟨cur - (before.length + 1), by omega⟩
    have e1 : (before ++ ' ' :: after).drop cur = after.drop n := by
      rw [hn, show before ++ ' ' :: after = (before ++ [' ']) ++ after by simp,
        show before.length + 1 + n = (before ++ [' ']).length + n by simp, List.drop_append]
      simp
    have e2 : (before ++ ' ' :: (words ++ ' ' :: after)).drop (cur + (words.length + 1)) = after.drop n := by
      rw [hn, show before ++ ' ' :: (words ++ ' ' :: after) = (before ++ ' ' :: (words ++ [' '])) ++ after by simp,
        show before.length + 1 + n + (words.length + 1) = (before ++ ' ' :: (words ++ [' '])).length + n by simp; omega,
        List.drop_append]
      simp
    rw [e1, e2]
  | e :: es, cur, h, hc, hc' => by
    obtain ⟨hb, hs⟩ := h e (by simp)
    have hb' := hb
    simp only [Spot.Beside] at hb'
    have hmv : (mv (.between before after) words e).range.stop = e.range.stop + (words.length + 1) := by
      simp only [mv, Spot.moved, Spot.pos]; rw [if_neg (by omega)]
    have hmv' : (mv (.between before after) words e).range.start = e.range.start + (words.length + 1) := by
      simp only [mv, Spot.moved, Spot.pos]; rw [if_neg (by omega)]
    simp only [List.map_cons, replaceWithPlaceholdersFrom]
    rw [hmv, hmv', replace_after fns (fun e' he' => h e' (by simp [he'])) (by omega) (by omega)]
    congr 1
    congr 1
    by_cases hle : cur ≤ e.range.start
    · have := moved_substr (words := words) (x := .between before after) (r := ⟨cur, e.range.start⟩)
        ⟨hle, Or.inr ⟨hc, by simp only; omega⟩⟩
      simp only [Spot.short, Spot.long] at this
      rw [← this]
      simp only [Spot.moved, Spot.pos]
      rw [if_neg (by omega), if_neg (by omega)]
    · unfold substr
      simp only
      rw [show e.range.start + (words.length + 1) - (cur + (words.length + 1)) = 0 by omega,
        show e.range.start - cur = 0 by omega]
      simp

theorem replace_from (fns : TextFns) : ∀ {es : List MatchedEntity} {cur : Nat},
    (∀ e ∈ es, (Spot.between before after).Beside e.range) → (es.Pairwise fun a b => a.range.start ≤ b.range.start) →
    cur ≤ before.length →
    ∃ A B, replaceWithPlaceholdersFrom fns (before ++ ' ' :: after) cur es = A ++ ' ' :: B ∧
      replaceWithPlaceholdersFrom fns (before ++ ' ' :: (words ++ ' ' :: after)) cur (es.map (mv (.between before after) words))
        = A ++ ' ' :: (words ++ ' ' :: B)
  | [], cur, _, _, hc => by
    refine ⟨before.drop cur, after, ?_, ?_⟩ <;>
    · simp only [List.map_nil, replaceWithPlaceholdersFrom, suffixFrom]
      rw [List.drop_append_of_le_length hc]
  | e :: es, cur, h, hp, hc => by
    have hb := h e (by simp)
    have hb' := hb
    simp only [Spot.Beside] at hb'
    rw [List.pairwise_cons] at hp
    simp only [List.map_cons, replaceWithPlaceholdersFrom]
    rcases hb'.2 with hs | ⟨hs, hs'⟩
    · obtain ⟨A, B, h1, h2⟩ := replace_from fns (fun e' he' => h e' (by simp [he'])) hp.2 hs
      refine ⟨substr (before ++ ' ' :: after) ⟨cur, e.range.start⟩ ++ entityPlaceholder fns e.name ++ A, B, ?_, ?_⟩
      · rw [h1]; simp
      · have hmv : (mv (.between before after) words e).range = e.range := by
          simp only [mv, Spot.moved, Spot.pos]
          rw [if_pos (by omega), if_pos hs]
        rw [hmv, h2]
        have hsub : substr (before ++ ' ' :: (words ++ ' ' :: after)) ⟨cur, e.range.start⟩
            = substr (before ++ ' ' :: after) ⟨cur, e.range.start⟩ := by
          unfold substr
          simp only
          rw [List.drop_append_of_le_length hc, List.drop_append_of_le_length hc,
            List.take_append_of_le_length (by rw [List.length_drop]; omega),
            List.take_append_of_le_length (by rw [List.length_drop]; omega)]
        rw [hsub]
        simp [mv]
    · have hmv : (mv (.between before after) words e).range.stop = e.range.stop + (words.length + 1) := by
        simp only [mv, Spot.moved, Spot.pos]; rw [if_neg (by omega)]
      have hmv' : (mv (.between before after) words e).range.start = e.range.start + (words.length + 1) := by
        simp only [mv, Spot.moved, Spot.pos]; rw [if_neg (by omega)]
      have hrest := replace_after (before := before) (words := words) (after := after) fns (es := es) (cur := e.range.stop)
        (fun e' he' => ⟨h e' (by simp [he']), by have := hp.1 e' he'; omega⟩) (by omega) (by omega)
      rw [hmv, hmv', hrest]
      obtain ⟨n, hn⟩ : ∃ n, e.range.start = before.length + 1 + n := ⟨e.range.start - (before.length + 1), by omega⟩
      have e1 : substr (before ++ ' ' :: after) ⟨cur, e.range.start⟩ = before.drop cur ++ ' ' :: after.take n := by
        unfold substr
        simp only
        rw [List.drop_append_of_le_length hc, show e.range.start - cur = (before.drop cur).length + (n + 1) by
          rw [List.length_drop]; omega, List.take_append, List.take_of_length_le (by omega)]
        simp
      have e2 : substr (before ++ ' ' :: (words ++ ' ' :: after)) ⟨cur, e.range.start + (words.length + 1)⟩
          = before.drop cur ++ ' ' :: (words ++ ' ' :: after.take n) := by
        unfold substr
        simp only
        rw [List.drop_append_of_le_length hc, show e.range.start + (words.length + 1) - cur
          = (before.drop cur).length + ((words.length + (n + 1)) + 1) by rw [List.length_drop]; omega, List.take_append,
          List.take_of_length_le (by omega), Nat.add_sub_cancel_left, List.take_succ_cons, List.take_append,
          List.take_of_length_le (by omega), Nat.add_sub_cancel_left, List.take_succ_cons]
      refine ⟨before.drop cur, after.take n ++ entityPlaceholder fns e.name
        ++ replaceWithPlaceholdersFrom fns (before ++ ' ' :: after) e.range.stop es, ?_, ?_⟩
      · rw [e1]; simp
      · rw [e2]; simp [mv]

end

theorem replace_front (fns : TextFns) (words t : Text) : ∀ (es : List MatchedEntity) (cur : Nat),
    replaceWithPlaceholdersFrom fns (words ++ ' ' :: t) (cur + (words.length + 1)) (es.map (mv (.front t) words))
      = replaceWithPlaceholdersFrom fns t cur es
  | [], cur => by
    simp only [List.map_nil, replaceWithPlaceholdersFrom, suffixFrom]
    rw [show words ++ ' ' :: t = (words ++ [' ']) ++ t by simp, Nat.add_comm,
      show words.length + 1 + cur = (words ++ [' ']).length + cur by simp, List.drop_append]
    simp
  | e :: es, cur => by
    simp only [List.map_cons, replaceWithPlaceholdersFrom]
    have h := replace_front fns words t es e.range.stop
    have hs := shift_substr (words ++ [' ']) t cur e.range.start
    simp only [List.length_append, List.length_cons, List.length_nil, List.append_assoc, List.cons_append,
      List.nil_append, Nat.zero_add] at hs
    simp only [mv, Spot.moved, Spot.pos] at h ⊢
    rw [h, hs]

theorem replace_back (fns : TextFns) (words t : Text) : ∀ {es : List MatchedEntity} {cur : Nat},
    (∀ e ∈ es, (Spot.back t).Beside e.range) → cur ≤ t.length →
    replaceWithPlaceholdersFrom fns (t ++ ' ' :: words) cur (es.map (mv (.back t) words))
      = replaceWithPlaceholdersFrom fns t cur es ++ ' ' :: words
  | [], cur, _, hc => by
    simp only [List.map_nil, replaceWithPlaceholdersFrom, suffixFrom]
    rw [List.drop_append_of_le_length hc]
  | e :: es, cur, h, hc => by
    have hb := h e (by simp)
    simp only [Spot.Beside] at hb
    have ih := replace_back fns words t (es := es) (fun e' he' => h e' (by simp [he'])) hb.2
    simp only [List.map_cons, replaceWithPlaceholdersFrom]
    simp only [mv, Spot.moved, Spot.pos] at ih ⊢
    rw [ih, left_substr _ _ (by omega)]
    simp

/-- Two texts that differ by the words. -/
inductive Gap (words : Text) : Text → Text → Prop
  | front (t : Text) : Gap words t (words ++ ' ' :: t)
  | back (t : Text) : Gap words t (t ++ ' ' :: words)
  | between (a b : Text) : Gap words (a ++ ' ' :: b) (a ++ ' ' :: (words ++ ' ' :: b))

theorem replace_words (fns : TextFns) {es : List MatchedEntity} (h : ∀ e ∈ es, x.Beside e.range)
    (hp : es.Pairwise fun a b => a.range.start ≤ b.range.start) :
    Gap words (replaceWithPlaceholders fns x.short es) (replaceWithPlaceholders fns (x.long words) (es.map (mv x words))) := by
  unfold replaceWithPlaceholders
  cases x with
  | front t =>
    cases es with
    | nil => exact .front t
    | cons e es =>
      have h1 := replace_front fns words t es e.range.stop
      have h2 : substr (words ++ ' ' :: t) ⟨0, e.range.start + (words.length + 1)⟩ = words ++ ' ' :: substr t ⟨0, e.range.start⟩ := by
        unfold substr
        simp only [List.drop_zero, Nat.sub_zero]
        rw [Nat.add_comm, Nat.add_assoc, List.take_append, List.take_of_length_le (by omega), Nat.add_sub_cancel_left,
          Nat.add_comm 1, List.take_succ_cons]
      have h3 : replaceWithPlaceholdersFrom fns (words ++ ' ' :: t) 0 ((e :: es).map (mv (.front t) words))
          = words ++ ' ' :: replaceWithPlaceholdersFrom fns t 0 (e :: es) := by
        simp only [List.map_cons, replaceWithPlaceholdersFrom]
        simp only [mv, Spot.moved, Spot.pos] at h1 ⊢
        rw [h1, h2]
        simp
      have h4 := Gap.front (words := words) (replaceWithPlaceholdersFrom fns t 0 (e :: es))
      rw [← h3] at h4
      exact h4
  | back t =>
    cases es with
    | nil => exact .back t
    | cons e es =>
      have h3 := replace_back fns words t h (Nat.zero_le _)
      have h4 := Gap.back (words := words) (replaceWithPlaceholdersFrom fns t 0 (e :: es))
      rw [← h3] at h4
      exact h4
  | between before after =>
    cases es with
    | nil => exact .between before after
    | cons e es =>
      obtain ⟨A, B, h1, h2⟩ := replace_from (before := before) (words := words) (after := after) fns h hp (Nat.zero_le _)
      have h4 := Gap.between (words := words) A B
      rw [← h1, ← h2] at h4
      exact h4

theorem skipped {s : StopWords} {i t : Text} (h : s.Skipped i t) : t ∈ s.forIntent i := by
  unfold StopWords.forIntent
  split
  · exact h.1 _ (by assumption)
  · exact h.2 (by assumption)

/-- Stop words do not show in a key. -/
theorem preprocess_words {env : RuleEnv} (hsplit : env.fns.SplitsAtBlanks) {p : Lookup} {i : Text}
    (hw : ∀ t ∈ env.fns.tokenizeLight words, env.fns.normalize t ∈ p.stopWords.forIntent i) {A B : Text}
    (h : Gap words A B) : p.preprocess env B i = p.preprocess env A i := by
  have hnil : (env.fns.tokenizeLight words).filter
      (fun t => !(p.stopWords.forIntent i).contains (env.fns.normalize t)) = [] := by
    rw [List.filter_eq_nil_iff]
    intro t ht
    simp [hw t ht]
  unfold Lookup.preprocess
  cases h with
  | front => rw [hsplit, List.filter_append, hnil, List.nil_append]
  | back => rw [hsplit, List.filter_append, hnil, List.append_nil]
  | between => rw [hsplit, hsplit, hsplit, List.filter_append, List.filter_append, List.filter_append, hnil, List.nil_append]

/-! ### Candidates -/

/-- A candidate with its matches at their new places. -/
def mvc (x : Spot) (words : Text) (c : Text × List MatchedEntity) : Text × List MatchedEntity := (c.1, c.2.map (mv x words))

theorem mvc_inj : Function.Injective (mvc x words) := by
  intro c c' h
  cases c; cases c'
  simp only [mvc, Prod.mk.injEq] at h ⊢
  exact ⟨h.1, (List.map_injective_iff.2 mv_inj) h.2⟩

theorem unique_map {α β : Type} [DecidableEq α] [DecidableEq β] {g : α → β} (hg : Function.Injective g) :
    ∀ l : List α, unique (l.map g) = (unique l).map g
  | [] => rfl
  | a :: l => by
    simp only [List.map_cons, unique, unique_map hg l, List.filter_map]
    congr 2
    refine List.filter_congr fun b _ => ?_
    simp [hg.eq_iff]

theorem mem_unique_sub {α : Type} [DecidableEq α] : ∀ {l : List α} {a : α}, a ∈ unique l → a ∈ l
  | [], _, h => h
  | b :: l, a, h => by
    simp only [unique, List.mem_cons, List.mem_filter] at h
    rcases h with rfl | h
    · simp
    · exact List.mem_cons_of_mem _ (mem_unique_sub h.1)

theorem scope_candidates {env : RuleEnv} (hsplit : env.fns.SplitsAtBlanks) {p : Lookup} {group : List Text}
    (hw : ∀ i ∈ group, ∀ t ∈ env.fns.tokenizeLight words, env.fns.normalize t ∈ p.stopWords.forIntent i)
    {es : List MatchedEntity} (h : ∀ e ∈ es, x.Beside e.range)
    (hp : es.Pairwise fun a b => a.range.start ≤ b.range.start) :
    p.scopeCandidates env (x.long words) group (es.map (mv x words))
      = (p.scopeCandidates env x.short group es).map (mvc x words) := by
  unfold Lookup.scopeCandidates
  rw [items_map, List.flatMap_map, List.map_flatMap]
  refine List.flatMap_congr fun c hc => ?_
  have hsub := items_sublist hc
  have hg := replace_words (words := words) env.fns (fun e he => h e (hsub.subset he)) (hp.sublist hsub)
  have hg0 : Gap words x.short (x.long words) := by cases x <;> constructor
  rw [List.map_flatMap]
  refine List.flatMap_congr fun i hi => ?_
  rw [preprocess_words hsplit (hw i hi) hg, preprocess_words hsplit (hw i hi) hg0]
  simp [mvc]

theorem scope_beside {env : RuleEnv} {p : Lookup} {input : Text} {group : List Text} {es : List MatchedEntity}
    {c : Text × List MatchedEntity} (hc : c ∈ p.scopeCandidates env input group es) : c.2.Sublist es := by
  unfold Lookup.scopeCandidates at hc
  simp only [List.mem_flatMap, List.mem_cons, List.not_mem_nil, or_false] at hc
  obtain ⟨x, hx, i, _, rfl | rfl⟩ := hc
  · exact List.nil_sublist _
  · exact items_sublist hx

theorem entities {env : RuleEnv} {w : World} (hm : w.SameMatches x words) {s : GroupedScope}
    {es : List MatchedEntity} (h : (Lookup.allEntities env x.short s).run w = .ok es) :
    (∀ e ∈ es, x.Beside e.range) ∧ (es.Pairwise fun a b => a.range.start ≤ b.range.start) ∧
      (Lookup.allEntities env (x.long words) s).run w = .ok (es.map (mv x words)) := by
  unfold Lookup.allEntities at h ⊢
  rw [Prog.run_bind, Outcome.bind_ok] at h
  obtain ⟨kinds, hk, h⟩ := h
  rw [Prog.run_builtinCached_ok] at h
  obtain ⟨bs, hbs, h⟩ := h
  rw [Prog.run_custom_ok] at h
  obtain ⟨cs, hcs, h⟩ := h
  rw [Prog.run_ret, Outcome.ok.injEq] at h
  obtain ⟨hb1, bs', hbs', hb2⟩ := hm.builtin _ _ hbs
  obtain ⟨hc1, cs', hcs', hc2⟩ := hm.custom _ _ hcs
  have hin : ∀ e ∈ (bs.map BuiltinEntity.kindMatch).map (KindMatch.toMatched env.names) ++ cs.map CustomEntity.toMatched,
      x.Beside e.range := by
    intro e he
    rw [List.mem_append, List.map_map, List.mem_map, List.mem_map] at he
    rcases he with ⟨b, hb, rfl⟩ | ⟨c, hc, rfl⟩
    · exact hb1 b hb
    · exact hc1 c hc
  have heq : (bs'.map BuiltinEntity.kindMatch).map (KindMatch.toMatched env.names) ++ cs'.map CustomEntity.toMatched
      = ((bs.map BuiltinEntity.kindMatch).map (KindMatch.toMatched env.names) ++ cs.map CustomEntity.toMatched).map
        (mv x words) := by
    rw [List.map_append]
    congr 1
    · clear hbs hbs' hb1 hin h
      induction hb2 with
      | nil => rfl
      | @cons b b' _ _ hbb _ ih =>
        simp only [List.map_cons, ih, List.cons.injEq, and_true]
        simp only [BuiltinEntity.kindMatch, KindMatch.toMatched, mv, hbb.1, hbb.2]
    · clear hcs hcs' hc1 hin h
      induction hc2 with
      | nil => rfl
      | @cons b b' _ _ hbb _ ih =>
        simp only [List.map_cons, ih, List.cons.injEq, and_true]
        simp only [CustomEntity.toMatched, mv, hbb.1, hbb.2]
  subst h
  refine ⟨?_, dedup_sorted _, ?_⟩
  · intro e he
    refine hin e ?_
    unfold dedupEntities at he
    rw [sortByKey, (List.perm_insertionSort _ _).mem_iff] at he
    exact (dedupItems_subperm _ _ _).subset he
  · rw [Prog.run_bind, hk]
    show (Prog.builtinCached _ _ _).run w = _
    rw [Prog.run_builtinCached_ok]
    refine ⟨bs', hbs', ?_⟩
    rw [Prog.run_custom_ok]
    refine ⟨cs', hcs', ?_⟩
    rw [Prog.run_ret, heq, dedup_mv hin]

theorem candidates_from {env : RuleEnv} (hsplit : env.fns.SplitsAtBlanks) {p : Lookup} {w : World}
    (hm : w.SameMatches x words) {f : Option (List Text)} : ∀ {scopes : List GroupedScope}
    (_ : ∀ s ∈ scopes, ∀ i ∈ s.intentGroup, Permits f i →
      ∀ t ∈ env.fns.tokenizeLight words, env.fns.normalize t ∈ p.stopWords.forIntent i)
    {cs : List (Text × List MatchedEntity)}, (p.candidatesFrom env x.short f scopes).run w = .ok cs →
    (∀ c ∈ cs, ∀ e ∈ c.2, x.Beside e.range) ∧
      (p.candidatesFrom env (x.long words) f scopes).run w = .ok (cs.map (mvc x words))
  | [], _, cs, h => by
    simp only [Lookup.candidatesFrom, Prog.run_ret, Outcome.ok.injEq] at h ⊢
    subst h
    exact ⟨by simp, rfl⟩
  | s :: scopes, hw, cs, h => by
    unfold Lookup.candidatesFrom at h ⊢
    split at h
    · rename_i hc
      rw [if_pos hc]
      exact candidates_from hsplit hm (fun s' hs' => hw s' (by simp [hs'])) h
    · rename_i hc
      rw [if_neg hc]
      rw [Prog.run_bind, Outcome.bind_ok] at h
      obtain ⟨es, hes, h⟩ := h
      rw [Prog.run_bind, Outcome.bind_ok] at h
      obtain ⟨rest, hrest, h⟩ := h
      rw [Prog.run_ret, Outcome.ok.injEq] at h
      obtain ⟨h1, h2, h3⟩ := entities hm hes
      obtain ⟨h4, h5⟩ := candidates_from hsplit hm (fun s' hs' => hw s' (by simp [hs'])) hrest
      subst h
      refine ⟨?_, ?_⟩
      · intro c hcc e he
        rcases List.mem_append.1 hcc with hcc | hcc
        · exact h1 e ((scope_beside hcc).subset he)
        · exact h4 c hcc e he
      · rw [Prog.run_bind, h3]
        show ((Prog.bind _ _).run w) = _
        rw [Prog.run_bind, h5]
        show Outcome.ok _ = _
        rw [scope_candidates hsplit ?_ h1 h2, List.map_append]
        intro i hi
        rw [List.mem_filter] at hi
        refine hw s (by simp) i hi.1 ?_
        have := hi.2
        unfold allowedBy at this
        unfold Permits
        cases f with
        | none => exact fun l hl => by cases hl
        | some l =>
          rintro l' ⟨⟩
          simpa using this

/-! ### Results -/

theorem slot_of {p : Lookup} {ie : Int × MatchedEntity} (h : x.Beside ie.2.range) :
    p.slotOf (x.long words) (ie.1, mv x words ie.2)
      = (p.slotOf x.short ie).bind fun s => .ok (s.moved x words) := by
  unfold Lookup.slotOf
  simp only
  cases indexName p.slotsNames ie.1 with
  | ok n =>
    show Outcome.ok _ = Outcome.ok _
    congr 1
    simp only [mv, moved_substr h, InternalSlot.moved]
  | err e => rfl
  | panic => rfl

theorem slots_of {p : Lookup} : ∀ {l : List (Int × MatchedEntity)} (_ : ∀ ie ∈ l, x.Beside ie.2.range)
    {sl : List InternalSlot}, mapOutcome (p.slotOf x.short) l = .ok sl →
    mapOutcome (p.slotOf (x.long words)) (l.map fun ie => (ie.1, mv x words ie.2))
      = .ok (sl.map (InternalSlot.moved x words)) := by
  intro l h sl hsl
  rw [mapOutcome_ok_iff] at hsl ⊢
  rw [List.forall₂_map_left_iff, List.forall₂_map_right_iff]
  induction hsl with
  | nil => exact .nil
  | @cons ie s l sl h1 _ ih =>
    refine .cons ?_ (ih fun ie' h' => h ie' (by simp [h']))
    rw [slot_of (h ie (by simp)), h1]
    rfl

theorem lookup_one {env : RuleEnv} {p : Lookup} {f : Option (List Text)} {c : Text × List MatchedEntity}
    (h : ∀ e ∈ c.2, x.Beside e.range) {r : Option InternalResult}
    (hr : p.lookupOne env x.short f c = .ok r) :
    p.lookupOne env (x.long words) f (mvc x words c)
      = .ok (r.map (InternalResult.moved x words)) := by
  unfold Lookup.lookupOne at hr ⊢
  rw [show (mvc x words c).1 = c.1 from rfl]
  cases hg : p.map.get (env.fns.hashStr c.1) with
  | none =>
    rw [hg] at hr
    simp only [Outcome.ok.injEq] at hr
    subst hr
    rfl
  | some out =>
    rw [hg] at hr
    simp only at hr ⊢
    unfold Lookup.parseMapOutput at hr ⊢
    rw [show (mvc x words c).2 = c.2.map (mv x words) from rfl, List.length_map]
    split at hr
    · cases hr
    · rename_i hc
      rw [if_neg hc]
      rw [Outcome.bind_eq, Outcome.bind_ok] at hr ⊢
      obtain ⟨i, hi, hr⟩ := hr
      refine ⟨i, hi, ?_⟩
      split at hr
      · rename_i ha
        rw [if_pos ha]
        rw [Outcome.bind_eq, Outcome.bind_ok] at hr ⊢
        obtain ⟨sl, hsl, hr⟩ := hr
        refine ⟨sl.map (InternalSlot.moved x words), ?_, ?_⟩
        · have := slots_of (words := words) (fun ie hie => h ie.2 (List.of_mem_zip (show (ie.1, ie.2) ∈ _ from hie)).2) hsl
          rw [← this, List.zip_map_right]
          congr 1
        · simp only [Outcome.ok.injEq] at hr ⊢
          subst hr
          rfl
      · rename_i ha
        rw [if_neg ha]
        simp only [Outcome.ok.injEq] at hr ⊢
        subst hr
        rfl

theorem lookups {env : RuleEnv} {p : Lookup} {f : Option (List Text)} {cs : List (Text × List MatchedEntity)}
    (h : ∀ c ∈ cs, ∀ e ∈ c.2, x.Beside e.range) {rs : List (Option InternalResult)}
    (hr : mapOutcome (p.lookupOne env x.short f) cs = .ok rs) :
    mapOutcome (p.lookupOne env (x.long words) f) (cs.map (mvc x words))
      = .ok (rs.map (Option.map (InternalResult.moved x words))) := by
  rw [mapOutcome_ok_iff] at hr ⊢
  rw [List.forall₂_map_left_iff, List.forall₂_map_right_iff]
  induction hr with
  | nil => exact .nil
  | @cons c r cs rs h1 _ ih =>
    exact .cons (lookup_one (h c (by simp)) h1) (ih fun c' h' => h c' (by simp [h']))

theorem push_moved (m : Map Text (List InternalResult)) (r : InternalResult) :
    pushResult (m.map fun e => (e.1, e.2.map (·.moved x words))) (r.moved x words) =
      (pushResult m r).map fun e => (e.1, e.2.map (·.moved x words)) := by
  have hget := Map.get_mapBoth (h := (id : Text → Text)) Function.injective_id
    (List.map (InternalResult.moved x words)) m
  have hins := Map.insert_mapBoth (h := (id : Text → Text)) Function.injective_id
    (List.map (InternalResult.moved x words))
  simp only [id] at hget hins
  unfold pushResult
  rw [show (r.moved x words).intent = r.intent from rfl]
  cases r.intent.name with
  | none => rfl
  | some i =>
    simp only [hget]
    cases m.get i with
    | none => simpa using hins m i [r]
    | some rs => simpa using hins m i (rs ++ [r])

theorem best_moved (rd : Rounding) {o : HashOrd} (ho : o.Blind) (l : List InternalResult) :
    bestPerIntent rd o (l.map (·.moved x words)) = (bestPerIntent rd o l).map (·.moved x words) := by
  unfold bestPerIntent
  have hfold : ∀ (l : List InternalResult) (m : Map Text (List InternalResult)),
      (l.map (InternalResult.moved x words)).foldl pushResult (m.map fun e => (e.1, e.2.map (·.moved x words))) =
        (l.foldl pushResult m).map fun e => (e.1, e.2.map (·.moved x words)) := by
    intro l
    induction l with
    | nil => exact fun m => rfl
    | cons r l ih =>
      intro m
      simp only [List.map_cons, List.foldl_cons, push_moved]
      exact ih _
  rw [show ([] : Map Text (List InternalResult)) = ([] : Map Text (List InternalResult)).map
    (fun e => (e.1, e.2.map (InternalResult.moved x words))) from rfl, hfold, ho, List.filterMap_map, List.map_filterMap]
  congr 1
  funext e
  exact maxByLast_map _ _ _ (fun r => by simp [InternalResult.moved]) _

theorem rank_moved (rd : Rounding) (l : List InternalResult) (n : Nat) :
    rankByWeight rd (l.map (·.moved x words)) n = (rankByWeight rd l n).map (·.moved x words) := by
  unfold rankByWeight
  have h1 : ((l.map (InternalResult.moved x words)).map fun r => slotWeight rd r.slots.length) =
      l.map fun r => slotWeight rd r.slots.length := by
    rw [List.map_map]
    refine List.map_congr_left fun r _ => ?_
    simp [InternalResult.moved]
  rw [h1]
  simp only [List.map_map, List.map_take]
  congr 1
  rw [← sortDesc_map (InternalResult.moved x words) (fun r => r.intent.score) (fun r => r.intent.score) (fun _ => rfl),
    List.map_map]
  congr 1
  refine List.map_congr_left fun r _ => ?_
  simp [InternalResult.moved]

theorem pick_moved (l : List InternalResult) :
    pickUnambiguous (l.map (·.moved x words)) = (pickUnambiguous l).moved x words := by
  cases l with
  | nil => rfl
  | cons r l =>
    simp only [List.map_cons, pickUnambiguous]
    have : (r.moved x words).intent.score = r.intent.score := rfl
    rw [this]
    split <;> rfl

/-- The results for the longer query are those for the shorter one, moved. -/
theorem top_moved {env : RuleEnv} (hsplit : env.fns.SplitsAtBlanks) {p : Lookup} {w : World}
    (hm : w.SameMatches x words) {f : Option (List Text)} (hw : p.AreStopWords env f words) {o : HashOrd}
    (ho : o.Blind) {n : Nat} {top : List InternalResult}
    (h : (p.parseTopIntents env o x.short n f).run w = .ok top) :
    (p.parseTopIntents env o (x.long words) n f).run w
      = .ok (top.map (InternalResult.moved x words)) := by
  unfold Lookup.parseTopIntents Lookup.getCandidates at h ⊢
  rw [Prog.run_bind, Outcome.bind_ok] at h ⊢
  obtain ⟨cs, hcs, h⟩ := h
  rw [Prog.run_bind, Outcome.bind_ok] at hcs
  obtain ⟨cs0, hcs0, hcs⟩ := hcs
  rw [Prog.run_ret, Outcome.ok.injEq] at hcs
  obtain ⟨hb, hrun⟩ := candidates_from hsplit hm (fun s hs i hi hf t ht => skipped (hw s hs i hi hf t ht)) hcs0
  refine ⟨cs.map (mvc x words), ?_, ?_⟩
  · rw [Prog.run_bind, hrun]
    show Outcome.ok _ = _
    rw [unique_map mvc_inj, hcs]
  · rw [Prog.run_bind, Outcome.bind_ok] at h ⊢
    obtain ⟨rs, hrs, h⟩ := h
    rw [Prog.run_ofOutcome] at hrs
    refine ⟨rs.map (Option.map (InternalResult.moved x words)), ?_, ?_⟩
    · rw [Prog.run_ofOutcome]
      exact lookups (fun c hc => hb c (mem_unique_sub (by rw [hcs]; exact hc))) hrs
    · rw [Prog.run_ret, Outcome.ok.injEq] at h ⊢
      rw [filterMap_id_map, best_moved _ ho, rank_moved, h]

end Inserted

end Snips
