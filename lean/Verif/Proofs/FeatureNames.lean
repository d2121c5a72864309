import Verif.Spec.FeatureNames
import Verif.Props.C67_Score
import Verif.Proofs.Safety
import Mathlib.Algebra.BigOperators.Group.Finset.Basic
import Mathlib.Algebra.BigOperators.Field

/-! Helpers for C114. -/

namespace Snips

namespace ByName

theorem size_eq {v : Tfidf ℝ} {words : List Text} {out : List ℝ} (h : TfidfVector v words out) : out.length = v.size := by
  unfold Tfidf.size
  cases hm : (v.vocabulary.map Prod.snd).max? with
  | none =>
    have h1 := List.max?_eq_none_iff.1 hm
    rw [List.map_eq_nil_iff] at h1
    by_contra hn
    obtain ⟨e, he, _⟩ := (h.length 0).1 (Nat.pos_of_ne_zero hn)
    rw [h1] at he
    cases he
  | some m =>
    have h1 := max?_bound hm
    have h2 : m ∈ v.vocabulary.map Prod.snd := List.max?_mem hm
    obtain ⟨e, he, hem⟩ := List.mem_map.1 h2
    have h3 : m < out.length := (h.length m).2 ⟨e, he, hem ▸ Nat.le_refl _⟩
    have h4 : ¬ m + 1 < out.length := by
      rw [h.length]
      rintro ⟨e', he', h5⟩
      have := h1 _ (List.mem_map.2 ⟨e', he', rfl⟩)
      omega
    show out.length = m + 1
    omega

theorem sum_zipIdx (t : List ℝ) (n : Nat) (weight : Nat → ℝ) :
    ((t.zipIdx n).map fun e => e.1 * weight e.2).sum = ∑ i ∈ Finset.range t.length, t.getD i 0 * weight (n + i) := by
  have e1 : (t.zipIdx n).map (fun e => e.1 * weight e.2)
      = (List.range t.length).map fun i => t.getD i 0 * weight (n + i) := by
    apply List.ext_getElem
    · simp
    · intro i h1 h2
      simp at h1
      simp [h1]
  rw [e1]
  rfl

variable {v : Tfidf ℝ} {words : List Text} {out : List ℝ}

theorem get_inj (hn : (v.vocabulary.map Prod.snd).Nodup) {t t' : Text} {ix : Nat} (h : v.vocabulary.get t = some ix)
    (h' : v.vocabulary.get t' = some ix) : t = t' := by
  have := List.inj_on_of_nodup_map hn (Map.get_some_mem h) (Map.get_some_mem h') rfl
  exact (Prod.mk.inj this).1

theorem count_eq (hn : (v.vocabulary.map Prod.snd).Nodup) {t : Text} {ix : Nat} (h : v.vocabulary.get t = some ix) :
    termCount v.vocabulary words ix = words.count t := by
  unfold termCount
  rw [List.count, List.countP_eq_length_filter]
  congr 1
  apply List.filter_congr
  intro x _
  rw [Bool.eq_iff_iff, decide_eq_true_eq, beq_iff_eq]
  constructor
  · exact fun hx => get_inj hn hx h
  · rintro rfl
    exact h

/-- Value of a function of numbers at a term, zero for other words. -/
def atTerm (v : Tfidf ℝ) (g : Nat → ℝ) (t : Text) : ℝ :=
  match v.vocabulary.get t with
  | some ix => g ix
  | none => 0

open Classical in
theorem sum_terms (hn : (v.vocabulary.map Prod.snd).Nodup) (h : TfidfVector v words out) (weight : Nat → ℝ) :
    ∑ i ∈ Finset.range out.length, out.getD i 0 * weight i
      = ∑ t ∈ words.toFinset, atTerm v (fun i => out.getD i 0 * weight i) t := by
  rw [← Finset.sum_filter_of_ne (s := words.toFinset) (p := fun t => (v.vocabulary.get t).isSome = true)]
  · symm
    apply Finset.sum_of_injOn (fun t => (v.vocabulary.get t).getD 0)
    · intro t ht t' ht' he
      simp only [Finset.coe_filter, Set.mem_ofPred_eq] at ht ht'
      obtain ⟨i, hi⟩ := Option.isSome_iff_exists.1 ht.2
      obtain ⟨i', hi'⟩ := Option.isSome_iff_exists.1 ht'.2
      simp only [hi, hi', Option.getD_some] at he
      subst he
      exact get_inj hn hi hi'
    · intro t ht
      simp only [Finset.coe_filter, Set.mem_ofPred_eq] at ht
      obtain ⟨i, hi⟩ := Option.isSome_iff_exists.1 ht.2
      simp only [hi, Option.getD_some, Finset.coe_range, Set.mem_Iio]
      exact (h.length i).2 ⟨_, Map.get_some_mem hi, Nat.le_refl _⟩
    · intro i hi hni
      rw [Finset.mem_range] at hi
      have hx : out[i]? = some out[i] := List.getElem?_eq_getElem hi
      have hz : termCount v.vocabulary words i = 0 := by
        by_contra hne
        unfold termCount at hne
        obtain ⟨t, ht⟩ := List.exists_mem_of_length_pos (Nat.pos_of_ne_zero hne)
        rw [List.mem_filter, decide_eq_true_eq] at ht
        apply hni
        refine ⟨t, ?_, ?_⟩
        · simp [ht.1, ht.2]
        · simp [ht.2]
      rw [List.getD_eq_getElem?_getD, hx, Option.getD_some, h.absent i _ hx hz, zero_mul]
    · intro t ht
      simp only [Finset.mem_filter] at ht
      obtain ⟨i, hi⟩ := Option.isSome_iff_exists.1 ht.2
      unfold atTerm
      simp only [hi, Option.getD_some]
  · intro t _ hne
    by_contra hns
    rw [Bool.not_eq_true, Option.isSome_eq_false_iff, Option.isNone_iff_eq_none] at hns
    apply hne
    unfold atTerm
    rw [hns]

open Classical in
/-- The share of the terms, by name. -/
theorem share (hn : (v.vocabulary.map Prod.snd).Nodup) (h : TfidfVector v words out) (row : List ℝ) (weight : Nat → ℝ)
    (hrow : ∀ i < out.length, row[i]? = some (weight i)) :
    ∑ i ∈ Finset.range out.length, out.getD i 0 * weight i = termShare words (v.termEntry row) := by
  obtain ⟨k, hk, hprop⟩ := h.proportional
  have hent : ∀ t ∈ words, ∀ ix, v.vocabulary.get t = some ix → ∃ d, v.idf[ix]? = some d ∧ ix < out.length ∧
      out.getD ix 0 = words.count t * d / k ∧ v.termEntry row t = some (d, weight ix) := by
    intro t ht ix hix
    have hlt : ix < out.length := (h.length ix).2 ⟨_, Map.get_some_mem hix, Nat.le_refl _⟩
    have hx : out[ix]? = some out[ix] := List.getElem?_eq_getElem hlt
    have hc : 0 < termCount v.vocabulary words ix := by
      rw [count_eq hn hix]
      exact List.count_pos_iff.2 ht
    obtain ⟨d, hd, hxd⟩ := hprop ix _ hx hc
    refine ⟨d, hd, hlt, ?_, ?_⟩
    · rw [List.getD_eq_getElem?_getD, hx, Option.getD_some, hxd, count_eq hn hix]
    · unfold Tfidf.termEntry
      rw [hix]
      simp [hd, hrow ix hlt]
  have hnone : ∀ t, v.vocabulary.get t = none → v.termEntry row t = none := by
    intro t ht
    unfold Tfidf.termEntry
    rw [ht]
    rfl
  let raw : Text → ℝ := fun t => words.count t * ((v.termEntry row t).map Prod.fst).getD 0
  have h1 : ∑ i ∈ Finset.range out.length, out.getD i 0 * weight i
      = (∑ t ∈ words.toFinset, raw t * ((v.termEntry row t).map Prod.snd).getD 0) / k := by
    rw [sum_terms hn h weight, Finset.sum_div]
    apply Finset.sum_congr rfl
    intro t ht
    rw [List.mem_toFinset] at ht
    unfold atTerm
    cases hg : v.vocabulary.get t with
    | none => simp [raw, hnone t hg]
    | some ix =>
      obtain ⟨d, _, _, h3, h4⟩ := hent t ht ix hg
      simp only [raw, h3, h4, Option.map_some, Option.getD_some]
      ring
  have h2 : ∑ i ∈ Finset.range out.length, out.getD i 0 * out.getD i 0
      = (∑ t ∈ words.toFinset, raw t ^ 2) / (k * k) := by
    rw [sum_terms hn h fun i => out.getD i 0, Finset.sum_div]
    apply Finset.sum_congr rfl
    intro t ht
    rw [List.mem_toFinset] at ht
    unfold atTerm
    cases hg : v.vocabulary.get t with
    | none => simp [raw, hnone t hg]
    | some ix =>
      obtain ⟨d, _, _, h3, h4⟩ := hent t ht ix hg
      simp only [raw, h3, h4, Option.map_some, Option.getD_some]
      field_simp
  show _ = (∑ t ∈ words.toFinset, raw t * _) / √(∑ t ∈ words.toFinset, raw t ^ 2)
  rw [h1]
  by_cases hz : ∀ t ∈ words.toFinset, raw t = 0
  · rw [Finset.sum_eq_zero fun t ht => by rw [hz t ht, zero_mul], zero_div, zero_div]
  · push Not at hz
    obtain ⟨t, ht, hr⟩ := hz
    rw [List.mem_toFinset] at ht
    cases hg : v.vocabulary.get t with
    | none => exact absurd (by simp [raw, hnone t hg]) hr
    | some ix =>
      obtain ⟨d, hd, _, _, h4⟩ := hent t ht ix hg
      have hd0 : d ≠ 0 := by
        rintro rfl
        exact hr (by simp [raw, h4])
      have hu := h.unit ⟨ix, d, by rw [count_eq hn hg]; exact List.count_pos_iff.2 ht, hd, hd0⟩
      have h5 : (out.map fun x => x * x).sum = ∑ i ∈ Finset.range out.length, out.getD i 0 * out.getD i 0 := by
        have e : out.map (fun x => x * x) = (List.range out.length).map fun i => out.getD i 0 * out.getD i 0 := by
          apply List.ext_getElem
          · simp
          · intro i h1 h2
            simp at h1
            simp [h1]
        rw [e]
        rfl
      rw [h5, h2, div_eq_one_iff_eq (by positivity)] at hu
      rw [hu, Real.sqrt_mul_self hk.le]

open Classical in
theorem termShare_perm {words words' : List Text} (hp : words.Perm words') (entry : Text → Option (ℝ × ℝ)) :
    termShare words entry = termShare words' entry := by
  unfold termShare
  rw [List.toFinset_eq_of_perm _ _ hp]
  simp only [hp.count_eq]

open Classical in
theorem termShare_congr {words : List Text} {entry entry' : Text → Option (ℝ × ℝ)} (h : ∀ t ∈ words, entry t = entry' t) :
    termShare words entry = termShare words entry' := by
  unfold termShare
  congr 1
  · exact Finset.sum_congr rfl fun t ht => by rw [h t (List.mem_toFinset.1 ht)]
  · congr 1
    exact Finset.sum_congr rfl fun t ht => by rw [h t (List.mem_toFinset.1 ht)]

open Classical in
/-- The share of the pairs, by name. -/
theorem pairs_sum (table : Map (Text × Text) Nat) (hk : (table.map Prod.fst).Nodup) (P : Text × Text → Prop)
    (g : Nat → ℝ) (U : Finset (Text × Text)) (hU : ∀ e ∈ table, e.1 ∈ U) :
    (table.map fun e => if P e.1 then g e.2 else 0).sum
      = ∑ p ∈ U, if P p then ((table.get p).map g).getD 0 else 0 := by
  have h1 : (table.map fun e => if P e.1 then g e.2 else 0)
      = (table.map Prod.fst).map fun p => if P p then ((table.get p).map g).getD 0 else 0 := by
    rw [List.map_map]
    apply List.map_congr_left
    intro e he
    have : table.get e.1 = some e.2 := Map.get_of_mem hk he
    simp [this]
  rw [h1, ← List.sum_toFinset _ hk]
  apply Finset.sum_subset
  · intro p hp
    rw [List.mem_toFinset] at hp
    obtain ⟨e, he, rfl⟩ := List.mem_map.1 hp
    exact hU e he
  · intro p _ hp
    have : table.get p = none := by
      cases hg : table.get p with
      | none => rfl
      | some ix => exact absurd (List.mem_toFinset.2 (List.mem_map.2 ⟨_, Map.get_some_mem hg, rfl⟩)) hp
    simp [this]

/-- What a successful co-occurrence vector is. -/
theorem cooc_run {env : FeatEnv} {o : HashOrd} {v : Cooc} {input : Text} {w : World} {c : List ℝ} (hv : v.Consistent)
    (h : (v.transform realOps env o input).run w = .ok c) :
    c.length = v.wordPairs.length ∧ ∀ pair ix, (pair, ix) ∈ v.wordPairs →
      (v.Reads env w input pair → c[ix]? = some 1) ∧ (¬ v.Reads env w input pair → c[ix]? = some 0) := by
  unfold Cooc.transform at h
  rw [Prog.run_builtinCached_ok] at h
  obtain ⟨bs, hb, h⟩ := h
  rw [Prog.run_custom_ok] at h
  obtain ⟨cs, hc, h⟩ := h
  rw [Prog.run_ofOutcome, Outcome.bind_eq, Outcome.bind_ok] at h
  obtain ⟨enriched, he, h⟩ := h
  rw [Outcome.bind_eq, Outcome.bind_ok] at h
  obtain ⟨pairs, hp, h⟩ := h
  have hph : coocPlaceholder v.fns = fun n => v.fns.upper (v.fns.tokenizeLight n).flatten := by
    funext n; unfold coocPlaceholder; rw [joinWith_nil]
  have hms : ((bs.map BuiltinEntity.kindMatch).map (KindMatch.toMatched env.names)) ++ cs.map CustomEntity.toMatched
      = bs.map (fun b => (⟨b.range, env.names.identifier b.kind⟩ : MatchedEntity)) ++
          cs.map fun c => (⟨c.range, c.identifier⟩ : MatchedEntity) := by
    rw [List.map_map]; rfl
  have hen : enriched.2 = v.replaced env input bs cs := by
    rw [replaceChecked_value he, hms, hph]
    rfl
  unfold Cooc.extractWordPairs at hp
  split at hp
  · cases hp
  rw [Outcome.ok.injEq] at hp
  obtain ⟨hn1, hn2, hbd⟩ := hv
  have hget : ∀ p ix, v.wordPairs.get p = some ix → ix < v.wordPairs.length :=
    fun p ix h => hbd _ (Map.get_some_mem h)
  obtain ⟨out, ho1, ho2, ho3⟩ := setPairs_spec realOps v.wordPairs pairs (List.replicate v.wordPairs.length realOps.zero)
    (by simpa using hget)
  rw [h, Outcome.ok.injEq] at ho1
  subst ho1
  refine ⟨by simpa using ho2, fun pair ix hmem => ?_⟩
  have hpix : v.wordPairs.get pair = some ix := Map.get_of_mem hn1 hmem
  have hreads : v.Reads env w input pair ↔ ∃ p ∈ pairs, v.wordPairs.get p = some ix := by
    have hiff : (∃ p ∈ pairs, v.wordPairs.get p = some ix) ↔
        CoOccur v.windowSize v.keepOrder (v.filterTokens env.stopWords (v.fns.tokenizeLight enriched.2)) pair := by
      rw [← mem_pairsFrom]
      constructor
      · rintro ⟨p, hp', hpi⟩
        rw [← hp, (o.perm 1 _).mem_iff, mem_unique] at hp'
        have : (p, ix) = (pair, ix) := List.inj_on_of_nodup_map hn2 (Map.get_some_mem hpi) hmem rfl
        cases this
        exact hp'
      · intro hp'
        exact ⟨pair, by rw [← hp, (o.perm 1 _).mem_iff, mem_unique]; exact hp', hpix⟩
    rw [hiff]
    constructor
    · rintro ⟨bs', cs', kept, hb', hc', hrel, hco⟩
      rw [hb] at hb'
      rw [hc] at hc'
      cases hb'
      cases hc'
      have := relevant_filterTokens env v (v.fns.tokenizeLight enriched.2)
      unfold RelevantTokens at this hrel
      rw [this, hen, ← hrel]
      exact hco
    · intro hco
      refine ⟨bs, cs, _, hb, hc, ?_, hco⟩
      rw [← hen]
      exact relevant_filterTokens env v _
  have h3 := ho3 ix
  rw [← hreads] at h3
  refine ⟨h3.1, fun h => ?_⟩
  rw [h3.2 h, List.getElem?_replicate, if_pos (hget _ _ hpix)]
  rfl

end ByName

end Snips
