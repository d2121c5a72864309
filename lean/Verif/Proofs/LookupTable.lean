import Verif.Spec.LookupTable
import Verif.Props.C34_Combinations
import Verif.Proofs.Injection
import Verif.Spec.Safety

/-! # Proofs about the table of the lookup parser -/

namespace Snips

/-! ## Kept matches -/

theorem keptMatches_dedup {all : List MatchedEntity} (hne : ∀ e ∈ all, e.range.NonEmpty) :
    KeptMatches all (dedupEntities all) where
  subset e he := (c16_sound all).1.subset he
  order := c16_in_text_order all hne
  left := c16_priority all hne

theorem idxOf_lt_of_sublist {l : List MatchedEntity} (hn : l.Nodup) {k x : MatchedEntity} (h : [k, x].Sublist l) :
    l.idxOf k < l.idxOf x := by
  induction l with
  | nil => cases h
  | cons a l ih =>
    have hn' := List.nodup_cons.1 hn
    cases h with
    | cons _ h =>
      have hk : k ∈ l := h.subset (by simp)
      have hx : x ∈ l := h.subset (by simp)
      rw [List.idxOf_cons_ne _ (by rintro rfl; exact hn'.1 hk), List.idxOf_cons_ne _ (by rintro rfl; exact hn'.1 hx)]
      have := ih hn'.2 h
      omega
    | cons_cons _ h =>
      have hx : x ∈ l := h.subset (by simp)
      rw [List.idxOf_cons_self, List.idxOf_cons_ne _ (by rintro rfl; exact hn'.1 hx)]
      omega

theorem keptMatches_mem {all kept kept' : List MatchedEntity} (hn : all.Nodup)
    (h : KeptMatches all kept) (h' : KeptMatches all kept') : ∀ x ∈ kept, x ∈ kept' := by
  have hC : ∃ C, ∀ e ∈ all, e.range.count ≤ C := by
    refine ⟨(all.map fun e => e.range.count).sum, fun e he => ?_⟩
    exact List.le_sum_of_mem (List.mem_map.2 ⟨e, he, rfl⟩)
  obtain ⟨C, hC⟩ := hC
  have disj : ∀ {kept}, KeptMatches all kept → ∀ a ∈ kept, ∀ b ∈ kept, a ≠ b → a.range.Disj b.range := by
    intro kept h a ha b hb hab
    have hs : kept.Pairwise fun a b => a.range.Disj b.range := h.order.imp fun hab i hi => by
      unfold Rng.Before at hab
      unfold Rng.Has at hi
      omega
    have : Std.Symm (fun a b : MatchedEntity => a.range.Disj b.range) := ⟨fun _ _ h => disj_symm h⟩
    exact hs.forall ha hb hab
  have main : ∀ n, ∀ x ∈ all, (C - x.range.count) * (all.length + 1) + all.idxOf x = n → (x ∈ kept ↔ x ∈ kept') := by
    intro n
    induction n using Nat.strong_induction_on with
    | _ n ih =>
      intro x hx hxn
      have prior : ∀ k ∈ all, (x.range.count < k.range.count ∨ (x.range.count = k.range.count ∧ [k, x].Sublist all)) →
          (k ∈ kept ↔ k ∈ kept') := by
        intro k hk hp
        refine ih _ ?_ k hk rfl
        rw [← hxn]
        have hkC := hC k hk
        have hik := List.idxOf_lt_length_of_mem hk
        rcases hp with hp | ⟨hp, hs⟩
        · have : C - k.range.count + 1 ≤ C - x.range.count := by omega
          have := Nat.mul_le_mul_right (all.length + 1) this
          rw [Nat.add_mul] at this
          omega
        · have := idxOf_lt_of_sublist hn hs
          rw [hp]
          omega
      constructor
      · intro hm
        rcases h'.left x hx with h1 | ⟨k, hk, hd, hp⟩
        · exact h1
        · have hk' := (prior k (h'.subset k hk) hp).2 hk
          by_cases hkx : k = x
          · exact hkx ▸ hk
          · exact absurd (disj h k hk' x hm hkx) hd
      · intro hm
        rcases h.left x hx with h1 | ⟨k, hk, hd, hp⟩
        · exact h1
        · have hk' := (prior k (h.subset k hk) hp).1 hk
          by_cases hkx : k = x
          · exact hkx ▸ hk
          · exact absurd (disj h' k hk' x hm hkx) hd
  exact fun x hx => (main _ x (h.subset x hx) rfl).1 hx

/-- What is kept is determined, if no match is found twice. -/
theorem keptMatches_unique {all kept kept' : List MatchedEntity} (hn : all.Nodup)
    (hne : ∀ e ∈ all, e.range.NonEmpty) (h : KeptMatches all kept) (h' : KeptMatches all kept') : kept = kept' := by
  have nodup : ∀ {kept}, KeptMatches all kept → kept.Nodup := fun {kept} h => by
    refine List.Pairwise.imp_of_mem ?_ h.order
    intro a b ha _ hab he
    subst he
    have := hne a (h.subset a ha)
    unfold Rng.Before at hab
    unfold Rng.NonEmpty at this
    omega
  have hp : kept.Perm kept' := (List.perm_ext_iff_of_nodup (nodup h) (nodup h')).2 fun x =>
    ⟨keptMatches_mem hn h h' x, keptMatches_mem hn h' h x⟩
  refine hp.eq_of_pairwise (le := fun a b : MatchedEntity => a.range.Before b.range) ?_ h.order h'.order
  intro a b ha hb hab hba
  exfalso
  have := hne a (h.subset a ha)
  have := hne b (h'.subset b hb)
  unfold Rng.Before Rng.NonEmpty at *
  omega

/-! ## Pieces -/

theorem occs_names (ph ph' : Text → Text) : ∀ (segs : List Seg) (o n n' : Nat),
    (occs ph o n segs).map (fun c => (⟨c.orig, c.name⟩ : MatchedEntity)) =
      (occs ph' o n' segs).map fun c => ⟨c.orig, c.name⟩
  | [], _, _, _ => rfl
  | .plain t :: segs, o, n, n' => by
    rw [occs, occs]
    exact occs_names ph ph' segs _ _ _
  | .ent t name :: segs, o, n, n' => by
    rw [occs, occs, List.map_cons, List.map_cons, occs_names ph ph' segs _ _ (n' + (ph' name).length)]

theorem entitiesOf_eq (ph : Text → Text) (segs : List Seg) :
    (occs ph 0 0 segs).map (fun c => (⟨c.orig, c.name⟩ : MatchedEntity)) = entitiesOf segs :=
  occs_names ph _ segs 0 0 0

theorem substr_middle (a b c : Text) : substr (a ++ b ++ c) ⟨a.length, a.length + b.length⟩ = b := by
  unfold substr
  simp [List.append_assoc]

theorem substr_split {t : Text} {a b c : Nat} (h1 : a ≤ b) (h2 : b ≤ c) :
    substr t ⟨a, c⟩ = substr t ⟨a, b⟩ ++ substr t ⟨b, c⟩ := by
  unfold substr
  simp only
  rw [show c - a = (b - a) + (c - b) by omega, List.take_add, List.drop_drop, show a + (b - a) = b by omega]

/-- Replacing the entities of pieces gives the replaced pieces. -/
theorem replaceFrom_segs (fns : TextFns) (text : Text) : ∀ (segs : List Seg) (pre : Text) (cur n : Nat),
    text = pre ++ origText segs → cur ≤ pre.length →
    replaceWithPlaceholdersFrom fns text cur
      ((occs (entityPlaceholder fns) pre.length n segs).map fun c => (⟨c.orig, c.name⟩ : MatchedEntity)) =
      substr text ⟨cur, pre.length⟩ ++ replText (entityPlaceholder fns) segs
  | [], pre, cur, n, ht, hc => by
    have ht : text = pre := by simpa [origText] using ht
    subst ht
    simp only [occs, List.map_nil, replaceWithPlaceholdersFrom, replText, List.flatten_nil, List.append_nil]
    unfold suffixFrom substr
    rw [List.take_of_length_le (by simp)]
  | .plain t :: segs, pre, cur, n, ht, hc => by
    have ht' : text = (pre ++ t) ++ origText segs := by rw [ht]; simp [origText, Seg.orig]
    have ih := replaceFrom_segs fns text segs (pre ++ t) cur (n + t.length) ht' (by simp; omega)
    rw [List.length_append] at ih
    rw [occs, ih, substr_split hc (Nat.le_add_right _ _)]
    have : substr text ⟨pre.length, pre.length + t.length⟩ = t := by rw [ht']; exact substr_middle pre t _
    rw [this]
    simp [replText, Seg.repl]
  | .ent t name :: segs, pre, cur, n, ht, hc => by
    have ht' : text = (pre ++ t) ++ origText segs := by rw [ht]; simp [origText, Seg.orig]
    have ih := replaceFrom_segs fns text segs (pre ++ t) (pre.length + t.length)
      (n + (entityPlaceholder fns name).length) ht' (by simp)
    rw [List.length_append] at ih
    rw [occs, List.map_cons, replaceWithPlaceholdersFrom, ih]
    have : substr text ⟨pre.length + t.length, pre.length + t.length⟩ = [] := by unfold substr; simp
    simp only [this, List.nil_append]
    simp [replText, Seg.repl]

theorem replace_segs (fns : TextFns) {text : Text} {segs : List Seg} (h : origText segs = text) :
    replaceWithPlaceholders fns text (entitiesOf segs) = replText (entityPlaceholder fns) segs := by
  have key := replaceFrom_segs fns text segs [] 0 0 (by simp [h]) (Nat.le_refl _)
  rw [List.length_nil, entitiesOf_eq] at key
  have h0 : substr text ⟨0, 0⟩ = [] := by unfold substr; simp
  rw [h0, List.nil_append] at key
  unfold replaceWithPlaceholders
  split
  · rename_i he
    rw [List.isEmpty_iff.1 he] at key
    rw [← key]
    simp [replaceWithPlaceholdersFrom, suffixFrom]
  · exact key

/-! ## The table -/

theorem preprocess_keyOf (env : RuleEnv) (p : Lookup) (text owner : Text) :
    p.preprocess env text owner = p.keyOf env owner text := by
  unfold Lookup.preprocess Lookup.keyOf
  rw [joinWith_eq_intercalate]
  simp [List.contains_eq_mem]

theorem fromIdentifierOrErr_iff {names : KindNames} {t : Text} {k : Kind} :
    names.fromIdentifierOrErr t = .ok k ↔ names.fromIdentifier t = some k := by
  unfold KindNames.fromIdentifierOrErr
  cases names.fromIdentifier t <;> simp [Outcome.ofOption]

theorem allEntities_iff {env : RuleEnv} {w : World} {input : Text} {scope : GroupedScope} {found : List MatchedEntity} :
    (Lookup.allEntities env input scope).run w = .ok found ↔
      ∃ all, scope.Matches env w input all ∧ found = dedupEntities all := by
  unfold Lookup.allEntities GroupedScope.Matches
  have hmap : ∀ (bs : List BuiltinEntity), (bs.map BuiltinEntity.kindMatch).map (KindMatch.toMatched env.names) =
      bs.map (fun e => (⟨e.range, env.names.identifier e.kind⟩ : MatchedEntity)) := fun bs => by
    rw [List.map_map]; rfl
  rw [Prog.run_bind, Outcome.bind_ok]
  constructor
  · rintro ⟨kinds, hk, h⟩
    rw [Prog.run_builtinCached_ok] at h
    obtain ⟨bs, hbs, h⟩ := h
    rw [Prog.run_custom_ok] at h
    obtain ⟨cs, hcs, h⟩ := h
    simp only [Prog.run_ret, Outcome.ok.injEq] at h
    rw [Prog.run_ofOutcome, mapOutcome_ok_iff] at hk
    rw [hmap] at h
    exact ⟨_, ⟨kinds, bs, cs, hk.imp fun _ _ h => fromIdentifierOrErr_iff.1 h, hbs, hcs, rfl⟩, h.symm⟩
  · rintro ⟨_, ⟨kinds, bs, cs, hk, hbs, hcs, rfl⟩, rfl⟩
    refine ⟨kinds, ?_, ?_⟩
    · rw [Prog.run_ofOutcome, mapOutcome_ok_iff]
      exact hk.imp fun _ _ h => fromIdentifierOrErr_iff.2 h
    · rw [Prog.run_builtinCached_ok]
      refine ⟨bs, hbs, ?_⟩
      rw [Prog.run_custom_ok]
      refine ⟨cs, hcs, ?_⟩
      rw [Prog.run_ret, hmap]
      rfl

theorem ids_cast {n : Nat} {ids : List Int} (h : ∀ id ∈ ids, 0 ≤ id ∧ id < (n : Int)) :
    ∃ ks : List Nat, ids = ks.map (fun i : Nat => (i : Int)) ∧ ∀ k ∈ ks, k < n := by
  refine ⟨ids.map Int.toNat, ?_, ?_⟩
  · rw [List.map_map]
    conv_lhs => rw [← List.map_id ids]
    exact List.map_congr_left fun id hid => by simp [(h id hid).1]
  · intro k hk
    obtain ⟨id, hid, rfl⟩ := List.mem_map.1 hk
    have := h id hid
    omega

theorem forall2_getElem {l : List Text} : ∀ {ks : List Nat}, (∀ k ∈ ks, k < l.length) →
    ∃ names, List.Forall₂ (fun k name => l[k]? = some name) ks names
  | [], _ => ⟨[], .nil⟩
  | k :: ks, h => by
    obtain ⟨names, hn⟩ := forall2_getElem (ks := ks) fun k' hk' => h k' (List.mem_cons_of_mem _ hk')
    exact ⟨l[k]'(h k (by simp)) :: names, .cons (List.getElem?_eq_getElem _) hn⟩

/-- The slots made from the numbers of an entry are those made from its names. -/
theorem slots_of_names {p : Lookup} {input : Text} : ∀ {ks : List Nat} {names : List Text} {es : List MatchedEntity}
    {slots : List InternalSlot}, List.Forall₂ (fun id name => p.slotsNames[id]? = some name) ks names →
    (List.Forall₂ (fun ie s => p.IsSlot input ie.1 ie.2 s) ((ks.map fun i : Nat => (i : Int)).zip es) slots ↔
      slots = (names.zip es).map fun x => ⟨substr input x.2.range, x.2.range, x.2.name, x.1⟩)
  | [], _, es, slots, .nil => by simp
  | k :: ks, name :: names, [], slots, .cons h t => by simp
  | k :: ks, name :: names, e :: es, slots, .cons h t => by
    have ih := fun sl => slots_of_names (p := p) (input := input) (es := es) (slots := sl) t
    rw [List.map_cons, List.zip_cons_cons, List.zip_cons_cons, List.map_cons]
    constructor
    · intro hf
      cases hf with
      | cons h1 h2 =>
        rename_i s sl
        rw [(ih sl).1 h2]
        obtain ⟨⟨k', hk', hn⟩, h3, h4, h5⟩ := h1
        have : k' = k := by simpa using hk'.symm
        subst this
        rw [h] at hn
        have hn' := Option.some.inj hn
        obtain ⟨v, r, e', n'⟩ := s
        simp only at h3 h4 h5 hn'
        rw [h3, h4, h5, hn']
    · rintro rfl
      exact .cons ⟨⟨k, rfl, h⟩, rfl, rfl, rfl⟩ ((ih _).2 rfl)

theorem says_of_hit {env : RuleEnv} {p : Lookup} {w : World} {input : Text} {filter : Option (List Text)} {intent : Text}
    {slots : List InternalSlot} (hs : p.Sound) (hg : p.GoodMatches env w input)
    (h : p.Hit env w input filter intent slots) : p.Says env w input filter intent slots := by
  obtain ⟨scope, hsc, owner, how, hpo, found, es, hf, hes, n, ids, hget, hn, hpi, hsl⟩ := h
  obtain ⟨all, hall, rfl⟩ := allEntities_iff.1 hf
  have hgood := hg scope hsc all hall
  have hk := keptMatches_dedup fun e he => (hgood e he).1
  have hmem : ∀ e ∈ es, e.range.NonEmpty ∧ e.range.stop ≤ input.length :=
    fun e he => hgood e (hk.subset e (hes.subset he))
  obtain ⟨segs, h1, h2, h3⟩ := c34_replaced env.fns input es (fun e he => (hmem e he).1) (fun e he => (hmem e he).2)
    (hk.order.sublist hes)
  rw [entitiesOf_eq] at h2
  obtain ⟨ks, rfl, hlt⟩ := ids_cast fun id hid => hs.slots _ (Map.get_some_mem hget) id hid
  obtain ⟨names, hnames⟩ := forall2_getElem hlt
  refine ⟨scope, hsc, owner, how, hpo, hpi, all, _, segs, names, hall, hk, h1, by rw [h2]; exact hes,
    ⟨n, ks, ?_, hn, hnames⟩, ?_⟩
  · rw [← hget, preprocess_keyOf, h3]
  · rw [h2]
    exact (slots_of_names hnames).1 hsl

theorem hit_of_says {env : RuleEnv} {p : Lookup} {w : World} {input : Text} {filter : Option (List Text)} {intent : Text}
    {slots : List InternalSlot} (hg : p.GoodMatches env w input) (hd : p.NoRepeats env w input)
    (h : p.Says env w input filter intent slots) : p.Hit env w input filter intent slots := by
  obtain ⟨scope, hsc, owner, how, hpo, hpi, all, kept, segs, names, hall, hk, h1, hes, ⟨n, ks, hget, hn, hnames⟩, hsl⟩ := h
  have hne := fun e he => (hg scope hsc all hall e he).1
  rw [keptMatches_unique (hd scope hsc all hall) hne hk (keptMatches_dedup hne)] at hes
  refine ⟨scope, hsc, owner, how, hpo, _, entitiesOf segs, allEntities_iff.2 ⟨all, hall, rfl⟩, hes, n, _, ?_, hn, hpi,
    (slots_of_names hnames).2 hsl⟩
  rw [preprocess_keyOf, replace_segs env.fns h1]
  exact hget

end Snips
