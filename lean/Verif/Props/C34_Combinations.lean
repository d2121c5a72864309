import Verif.Spec.Rule
import Verif.Proofs.Replace
import Verif.Proofs.Prog
import Verif.Proofs.Tags
import Verif.Props.C17_Replace
import Mathlib.Data.List.Sublists
import Mathlib.Data.List.Flatten

/-! # C34: every choice of matched entities is tried -/

namespace Snips

section
variable {α : Type}

theorem combinations_of_length_lt : ∀ (l : List α) (k : Nat), l.length < k → combinations k l = [] := by
  intro l
  induction l with
  | nil => intro k h; cases k with
    | zero => omega
    | succ k => rfl
  | cons x l ih =>
    intro k h
    cases k with
    | zero => omega
    | succ k =>
      simp only [List.length_cons] at h
      rw [combinations, ih k (by omega), ih (k + 1) (by omega)]
      rfl

theorem combinations_perm : ∀ (k : Nat) (l : List α), (combinations k l).Perm (List.sublistsLen k l) := by
  intro k l
  induction l generalizing k with
  | nil => cases k <;> simp [combinations]
  | cons x l ih =>
    cases k with
    | zero => simp [combinations]
    | succ k =>
      rw [combinations, List.sublistsLen_succ_cons]
      exact (List.Perm.append ((ih k).map _) (ih (k + 1))).trans List.perm_append_comm

theorem flatMap_perm {β : Type} {f g : Nat → List β} (h : ∀ k, (f k).Perm (g k)) (l : List Nat) :
    (l.flatMap f).Perm (l.flatMap g) := by
  induction l with
  | nil => exact List.Perm.refl _
  | cons a l ih => rw [List.flatMap_cons, List.flatMap_cons]; exact (h a).append ih

theorem flatMap_perm_left {β : Type} (f : Nat → List β) {l l' : List Nat} (h : l.Perm l') :
    (l.flatMap f).Perm (l'.flatMap f) := by
  induction h with
  | nil => exact List.Perm.refl _
  | cons a _ ih => rw [List.flatMap_cons, List.flatMap_cons]; exact (List.Perm.refl _).append ih
  | swap a b l =>
    simp only [List.flatMap_cons]
    rw [← List.append_assoc, ← List.append_assoc]
    exact List.perm_append_comm.append (List.Perm.refl _)
  | trans _ _ ih1 ih2 => exact ih1.trans ih2

/-- The combinations are exactly all sublists (subsets of positions, in the original order), each as
often as it occurs as a choice of positions. -/
theorem c34_all_once (items : List α) : (getItemsCombinations items).Perm items.sublists := by
  have h1 : (getItemsCombinations items).Perm
      ((List.range (items.length + 1)).flatMap fun k => List.sublistsLen k items) := by
    unfold getItemsCombinations
    rw [List.range_eq_range', List.range'_succ, List.flatMap_cons, List.sublistsLen_zero]
    refine List.Perm.cons _ ?_
    refine (flatMap_perm (fun k => combinations_perm k items) _).trans ?_
    exact flatMap_perm_left _ (List.reverse_perm _)
  refine h1.trans ?_
  refine List.Perm.trans ?_ (List.sublists_perm_sublists' items).symm
  exact List.range_bind_sublistsLen_perm items

/-- In particular a list is considered exactly when it is a sublist of the matched entities; and when
these are distinct, it is considered once. -/
theorem c34_mem (items choice : List α) : choice ∈ getItemsCombinations items ↔ choice.Sublist items := by
  rw [(c34_all_once items).mem_iff, List.mem_sublists]

theorem c34_nodup {items : List α} (h : items.Nodup) : (getItemsCombinations items).Nodup := by
  rw [(c34_all_once items).nodup_iff, List.nodup_sublists]
  exact h

/-- There are 2^n of them. -/
theorem c34_count (items : List α) : (getItemsCombinations items).length = 2 ^ items.length := by
  rw [(c34_all_once items).length_eq, List.length_sublists]

/-- The empty choice comes first, then choices by decreasing size, none of them empty. -/
theorem c34_order (items : List α) :
    ∃ rest, getItemsCombinations items = [] :: rest ∧ (∀ c ∈ rest, c ≠ []) ∧
      rest.Pairwise (fun a b => b.length ≤ a.length) := by
  refine ⟨_, rfl, ?_, ?_⟩
  · intro c hc
    obtain ⟨k, hk, hc⟩ := List.mem_flatMap.1 hc
    have hl := (List.mem_sublistsLen.1 ((combinations_perm k items).mem_iff.1 hc)).2
    rw [List.mem_reverse, List.mem_range'_1] at hk
    intro h
    subst h
    simp at hl
    omega
  · rw [List.pairwise_flatMap]
    refine ⟨?_, ?_⟩
    · intro k _
      apply List.pairwise_of_forall_mem_list
      intro a ha b hb
      have h1 := (List.mem_sublistsLen.1 ((combinations_perm k items).mem_iff.1 ha)).2
      have h2 := (List.mem_sublistsLen.1 ((combinations_perm k items).mem_iff.1 hb)).2
      omega
    · rw [List.pairwise_reverse]
      refine (List.pairwise_lt_range' (s := 1) (n := items.length)).imp ?_
      intro k k' hkk' a ha b hb
      have h1 := (List.mem_sublistsLen.1 ((combinations_perm k' items).mem_iff.1 ha)).2
      have h2 := (List.mem_sublistsLen.1 ((combinations_perm k items).mem_iff.1 hb)).2
      omega

end

/-! ### The readings of the input tried by the lookup parser -/

theorem allowedBy_iff (filter : Option (List Text)) (i : Text) : allowedBy filter i = true ↔ Permits filter i := by
  unfold allowedBy Permits
  cases filter <;> simp

theorem mem_unique {α : Type} [DecidableEq α] {l : List α} {a : α} : a ∈ unique l ↔ a ∈ l := by
  induction l with
  | nil => simp [unique]
  | cons b l ih =>
    rw [unique, List.mem_cons, List.mem_filter, ih, List.mem_cons]
    by_cases h : a = b
    · simp [h]
    · simp [h]

theorem mem_scopeCandidates (env : RuleEnv) (p : Lookup) (input : Text) (group : List Text)
    (entities : List MatchedEntity) (c : Text × List MatchedEntity) :
    c ∈ p.scopeCandidates env input group entities ↔
      ∃ owner ∈ group, ∃ es, es.Sublist entities ∧
        c = (p.preprocess env (replaceWithPlaceholders env.fns input es) owner, es) := by
  unfold Lookup.scopeCandidates
  simp only [List.mem_flatMap, c34_mem, List.mem_cons, List.not_mem_nil, or_false]
  constructor
  · rintro ⟨es, hes, owner, ho, h | h⟩
    · exact ⟨owner, ho, [], List.nil_sublist _, by rw [h]; rfl⟩
    · exact ⟨owner, ho, es, hes, h⟩
  · rintro ⟨owner, ho, es, hes, h⟩
    exact ⟨es, hes, owner, ho, Or.inr h⟩

theorem candidatesFrom_run (env : RuleEnv) (p : Lookup) (input : Text) (filter : Option (List Text))
    (w : World) : ∀ (scopes : List GroupedScope) (cs : List (Text × List MatchedEntity)),
    (p.candidatesFrom env input filter scopes).run w = .ok cs → ∀ c, c ∈ cs ↔
      ∃ scope ∈ scopes, ∃ owner ∈ scope.intentGroup, Permits filter owner ∧
        ∃ found es, (Lookup.allEntities env input scope).run w = .ok found ∧ es.Sublist found ∧
          c = (p.preprocess env (replaceWithPlaceholders env.fns input es) owner, es) := by
  intro scopes
  induction scopes with
  | nil =>
    intro cs h c
    simp only [Lookup.candidatesFrom, Prog.run_ret, Outcome.ok.injEq] at h
    subst h
    simp
  | cons scope scopes ih =>
    intro cs h c
    unfold Lookup.candidatesFrom at h
    split at h
    · rename_i hempty
      rw [ih cs h c]
      simp only [List.mem_cons, exists_eq_or_imp]
      constructor
      · exact fun h => Or.inr h
      · rintro (⟨owner, ho, hperm, _⟩ | h)
        · exfalso
          have : owner ∈ scope.intentGroup.filter (allowedBy filter) :=
            List.mem_filter.2 ⟨ho, (allowedBy_iff _ _).2 hperm⟩
          rw [List.isEmpty_iff.1 hempty] at this
          simp at this
        · exact h
    · rw [Prog.run_bind, Outcome.bind_ok] at h
      obtain ⟨found, hfound, h⟩ := h
      rw [Prog.run_bind, Outcome.bind_ok] at h
      obtain ⟨rest, hrest, h⟩ := h
      simp only [Prog.run_ret, Outcome.ok.injEq] at h
      subst h
      rw [List.mem_append, ih rest hrest c, mem_scopeCandidates]
      simp only [List.mem_cons, exists_eq_or_imp]
      apply or_congr_left
      constructor
      · rintro ⟨owner, ho, es, hes, hc⟩
        rw [List.mem_filter] at ho
        exact ⟨owner, ho.1, (allowedBy_iff _ _).1 ho.2, found, es, hfound, hes, hc⟩
      · rintro ⟨owner, ho, hperm, found', es, hf, hes, hc⟩
        rw [hfound] at hf
        simp only [Outcome.ok.injEq] at hf
        subst hf
        exact ⟨owner, List.mem_filter.2 ⟨ho, (allowedBy_iff _ _).2 hperm⟩, es, hes, hc⟩

/-- The texts looked up are exactly: for every scope with a permitted intent and every choice of entities
found for that scope, the input with the chosen entities replaced by their placeholders, without the
stop words of that intent. -/
theorem c34_candidates (env : RuleEnv) (p : Lookup) (input : Text) (filter : Option (List Text))
    (w : World) (cs : List (Text × List MatchedEntity))
    (h : (p.getCandidates env input filter).run w = .ok cs) (key : Text) (es : List MatchedEntity) :
    (key, es) ∈ cs ↔
      ∃ scope ∈ p.scopes, ∃ owner ∈ scope.intentGroup, Permits filter owner ∧
        ∃ found, (Lookup.allEntities env input scope).run w = .ok found ∧ es.Sublist found ∧
          key = p.preprocess env (replaceWithPlaceholders env.fns input es) owner := by
  unfold Lookup.getCandidates at h
  rw [Prog.run_bind, Outcome.bind_ok] at h
  obtain ⟨cs', hcs', h⟩ := h
  simp only [Prog.run_ret, Outcome.ok.injEq] at h
  subst h
  rw [mem_unique, candidatesFrom_run env p input filter w _ _ hcs']
  constructor
  · rintro ⟨scope, hs, owner, ho, hp, found, es', hf, hes, hc⟩
    simp only [Prod.mk.injEq] at hc
    obtain ⟨rfl, rfl⟩ := hc
    exact ⟨scope, hs, owner, ho, hp, found, hf, hes, rfl⟩
  · rintro ⟨scope, hs, owner, ho, hp, found, hf, hes, rfl⟩
    exact ⟨scope, hs, owner, ho, hp, found, es, hf, hes, rfl⟩

/-- Replacing chosen entities: for entities in text order the result is made of the plain pieces of
the text and of the placeholders of the entities. -/
theorem c34_replaced (fns : TextFns) (text : Text) (es : List MatchedEntity)
    (hne : ∀ e ∈ es, e.range.NonEmpty) (hin : ∀ e ∈ es, e.range.stop ≤ text.length)
    (hord : es.Pairwise (fun a b => a.range.stop ≤ b.range.start)) :
    ∃ segs : List Seg, origText segs = text ∧
      (occs (entityPlaceholder fns) 0 0 segs).map (fun c => (⟨c.orig, c.name⟩ : MatchedEntity)) = es ∧
      replaceWithPlaceholders fns text es = replText (entityPlaceholder fns) segs := by
  have hc : Chain text.length 0 es :=
    chain_of_before _ 0 (Nat.zero_le _) (fun m hm => ⟨Nat.zero_le _, hne m hm, hin m hm⟩) hord
  refine ⟨buildSegs text 0 es, by simpa using origText_buildSegs text _ 0 hc,
    occs_buildSegs text _ _ 0 0 hc, ?_⟩
  have hgen : ∀ (es : List MatchedEntity) (cur : Nat),
      replaceWithPlaceholdersFrom fns text cur es = replText (entityPlaceholder fns) (buildSegs text cur es) := by
    intro es
    induction es with
    | nil => intro cur; simp [replaceWithPlaceholdersFrom, buildSegs, replText, Seg.repl, suffixFrom]
    | cons e es ih =>
      intro cur
      simp only [replaceWithPlaceholdersFrom, buildSegs, replText_cons, Seg.repl, ih, List.append_assoc]
  unfold replaceWithPlaceholders
  cases es with
  | nil => simp [buildSegs, replText, Seg.repl, suffixFrom]
  | cons e es => simpa using hgen (e :: es) 0

/-- The entities found for a scope, if the extractors answer non-empty ranges, are in text order, so that
`c34_replaced` applies to every choice among them. -/
theorem c34_found_ordered (env : RuleEnv) (input : Text) (scope : GroupedScope) (w : World)
    (hb : ∀ kinds es, w.builtin input kinds 0 = .ok es → ∀ e ∈ es, e.range.NonEmpty)
    (hc : ∀ kinds es, w.custom input kinds 0 = .ok es → ∀ e ∈ es, e.range.NonEmpty)
    (found es : List MatchedEntity) (h : (Lookup.allEntities env input scope).run w = .ok found)
    (hes : es.Sublist found) :
    (∀ e ∈ es, e.range.NonEmpty) ∧ es.Pairwise (fun a b => a.range.stop ≤ b.range.start) := by
  unfold Lookup.allEntities at h
  rw [Prog.run_bind, Outcome.bind_ok] at h
  obtain ⟨kinds, _, h⟩ := h
  rw [Prog.run_builtinCached_ok] at h
  obtain ⟨bs, hbs, h⟩ := h
  rw [Prog.run_custom_ok] at h
  obtain ⟨cs, hcs, h⟩ := h
  simp only [Prog.run_ret, Outcome.ok.injEq] at h
  have hall : ∀ m ∈ (bs.map BuiltinEntity.kindMatch).map (KindMatch.toMatched env.names) ++
      cs.map CustomEntity.toMatched, m.range.NonEmpty := by
    intro m hm
    rcases List.mem_append.1 hm with hm | hm
    · rw [List.map_map] at hm
      obtain ⟨b, hb', rfl⟩ := List.mem_map.1 hm
      exact hb _ _ hbs b hb'
    · obtain ⟨c, hc', rfl⟩ := List.mem_map.1 hm
      exact hc _ _ hcs c hc'
  subst h
  refine ⟨fun e he => hall e ((c16_sound _).1.subset (hes.subset he)), ?_⟩
  exact (c16_in_text_order _ hall).sublist hes

/-! Non-vacuity. -/

example : getItemsCombinations ['a', 'b', 'c'] =
    [[], ['a', 'b', 'c'], ['a', 'b'], ['a', 'c'], ['b', 'c'], ['a'], ['b'], ['c']] := by decide

end Snips
