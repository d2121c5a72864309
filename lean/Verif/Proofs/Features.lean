import Verif.Spec.Features
import Verif.Proofs.Prog

/-! Lemmas on features. -/

namespace Snips

/-- `x` is in the list at index `t`. -/
def At {α : Type} (feats : List (List α)) (t : Nat) (x : α) : Prop := ∃ l, feats[t]? = some l ∧ x ∈ l

theorem pushFeature_length (i : Nat) (v : Text) (feats : List (List (Text × Text))) (ok : Int × Text) :
    (pushFeature i v feats ok).length = feats.length := by
  unfold pushFeature; split <;> simp

theorem pushFeature_at (i : Nat) (v : Text) (feats : List (List (Text × Text))) (ok : Int × Text)
    (t : Nat) (ht : t < feats.length) (x : Text × Text) :
    At (pushFeature i v feats ok) t x ↔ At feats t x ∨ ((i : Int) = t + ok.1 ∧ x = (ok.2, v)) := by
  have hget : feats[t]? = some feats[t] := List.getElem?_eq_getElem ht
  unfold pushFeature At
  split
  · rename_i h
    rw [List.getElem?_modify, hget]
    by_cases heq : ((i : Int) - ok.1).toNat = t
    · have hi : (i : Int) = t + ok.1 := by omega
      simp [heq, hi, -Int.toNat_sub]
    · have hi : ¬ (i : Int) = t + ok.1 := by omega
      simp [heq, hi, -Int.toNat_sub]
  · rename_i h
    rw [hget]
    have hi : ¬ (i : Int) = t + ok.1 := by omega
    simp [hi]

theorem pushFold_at (i : Nat) (v : Text) : ∀ (l : List (Int × Text)) (feats : List (List (Text × Text))),
    (l.foldl (pushFeature i v) feats).length = feats.length ∧
    ∀ t < feats.length, ∀ x, At (l.foldl (pushFeature i v) feats) t x ↔
      At feats t x ∨ ∃ ok ∈ l, (i : Int) = t + ok.1 ∧ x = (ok.2, v)
  | [], feats => by simp
  | ok :: l, feats => by
    obtain ⟨h1, h2⟩ := pushFold_at i v l (pushFeature i v feats ok)
    rw [pushFeature_length] at h1 h2
    refine ⟨h1, fun t ht x => ?_⟩
    rw [List.foldl_cons, h2 t ht x, pushFeature_at i v feats ok t ht x]
    simp only [List.mem_cons, exists_eq_or_imp, or_assoc]

theorem featureLoop_at (fns : TextFns) (w : World) (toks : List Token) (o : Offsetter) :
    ∀ (is : List Nat) (feats out : List (List (Text × Text))),
      (featureLoop fns toks o is feats).run w = .ok out →
      out.length = feats.length ∧ ∀ t < feats.length, ∀ x, At out t x ↔
        At feats t x ∨ ∃ ok ∈ o.offsetsWithName, ∃ i ∈ is, (i : Int) = t + ok.1 ∧
          ∃ v, (o.feature.compute fns toks i).run w = .ok (some v) ∧ x = (ok.2, v)
  | [], feats, out, h => by
    simp only [featureLoop, Prog.run, Outcome.ok.injEq] at h
    subst h
    simp
  | i :: is, feats, out, h => by
    unfold featureLoop at h
    rw [Prog.run_bind, Outcome.bind_ok] at h
    obtain ⟨v, hv, h⟩ := h
    cases v with
    | none =>
      obtain ⟨h1, h2⟩ := featureLoop_at fns w toks o is feats out h
      refine ⟨h1, fun t ht x => ?_⟩
      rw [h2 t ht x]
      constructor
      · rintro (h | ⟨ok, hok, j, hj, h⟩)
        · exact Or.inl h
        · exact Or.inr ⟨ok, hok, j, by simp [hj], h⟩
      · rintro (h | ⟨ok, hok, j, hj, h, v', hv', hx⟩)
        · exact Or.inl h
        · rcases List.mem_cons.1 hj with rfl | hj
          · rw [hv] at hv'; cases hv'
          · exact Or.inr ⟨ok, hok, j, hj, h, v', hv', hx⟩
    | some v =>
      obtain ⟨h1, h2⟩ := featureLoop_at fns w toks o is _ out h
      obtain ⟨h3, h4⟩ := pushFold_at i v o.offsetsWithName feats
      rw [h3] at h1 h2
      refine ⟨h1, fun t ht x => ?_⟩
      rw [h2 t ht x, h4 t ht x]
      constructor
      · rintro ((h | ⟨ok, hok, hi, hx⟩) | ⟨ok, hok, j, hj, h⟩)
        · exact Or.inl h
        · exact Or.inr ⟨ok, hok, i, by simp, hi, v, hv, hx⟩
        · exact Or.inr ⟨ok, hok, j, by simp [hj], h⟩
      · rintro (h' | ⟨ok, hok, j, hj, h', v', hv', hx⟩)
        · exact Or.inl (Or.inl h')
        · rcases List.mem_cons.1 hj with rfl | hj
          · rw [hv] at hv'
            simp only [Outcome.ok.injEq, Option.some.injEq] at hv'
            subst hv'
            exact Or.inl (Or.inr ⟨ok, hok, h', hx⟩)
          · exact Or.inr ⟨ok, hok, j, hj, h', v', hv', hx⟩

theorem offsettersLoop_at (fns : TextFns) (w : World) (toks : List Token) :
    ∀ (os : List Offsetter) (feats out : List (List (Text × Text))),
      (offsettersLoop fns toks os feats).run w = .ok out →
      out.length = feats.length ∧ ∀ t < feats.length, ∀ x, At out t x ↔
        At feats t x ∨ ∃ o ∈ os, ∃ ok ∈ o.offsetsWithName, ∃ i < toks.length, (i : Int) = t + ok.1 ∧
          ∃ v, (o.feature.compute fns toks i).run w = .ok (some v) ∧ x = (ok.2, v)
  | [], feats, out, h => by
    simp only [offsettersLoop, Prog.run, Outcome.ok.injEq] at h
    subst h
    simp
  | o :: os, feats, out, h => by
    unfold offsettersLoop at h
    rw [Prog.run_bind, Outcome.bind_ok] at h
    obtain ⟨f1, hf1, h⟩ := h
    obtain ⟨h1, h2⟩ := featureLoop_at fns w toks o _ feats f1 hf1
    obtain ⟨h3, h4⟩ := offsettersLoop_at fns w toks os f1 out h
    rw [h1] at h3 h4
    refine ⟨h3, fun t ht x => ?_⟩
    rw [h4 t ht x, h2 t ht x]
    simp only [List.mem_range, List.mem_cons, exists_eq_or_imp, or_assoc]

theorem featureLoop_total (fns : TextFns) (w : World) (toks : List Token) (o : Offsetter) :
    ∀ (is : List Nat) (feats : List (List (Text × Text))),
      (∀ i ∈ is, ∃ v, (o.feature.compute fns toks i).run w = .ok v) →
      ∃ out, (featureLoop fns toks o is feats).run w = .ok out
  | [], feats, _ => ⟨feats, rfl⟩
  | i :: is, feats, h => by
    obtain ⟨v, hv⟩ := h i (by simp)
    unfold featureLoop
    rw [Prog.run_bind, hv]
    cases v with
    | none => exact featureLoop_total fns w toks o is _ (fun j hj => h j (by simp [hj]))
    | some v => exact featureLoop_total fns w toks o is _ (fun j hj => h j (by simp [hj]))

theorem offsettersLoop_total (fns : TextFns) (w : World) (toks : List Token) :
    ∀ (os : List Offsetter) (feats : List (List (Text × Text))),
      (∀ o ∈ os, ∀ i < toks.length, ∃ v, (o.feature.compute fns toks i).run w = .ok v) →
      ∃ out, (offsettersLoop fns toks os feats).run w = .ok out
  | [], feats, _ => ⟨feats, rfl⟩
  | o :: os, feats, h => by
    obtain ⟨f1, hf1⟩ := featureLoop_total fns w toks o (List.range toks.length) feats
      (fun i hi => h o (by simp) i (List.mem_range.1 hi))
    unfold offsettersLoop
    rw [Prog.run_bind, hf1]
    exact offsettersLoop_total fns w toks os f1 (fun o' ho' => h o' (by simp [ho']))

theorem offsetsWithName_mem (o : Offsetter) (ok : Int × Text) :
    ok ∈ o.offsetsWithName ↔ ok.1 ∈ o.offsets ∧ ok.2 = featureKey o.feature.name ok.1 := by
  have hkey : ∀ i : Int, (if i = 0 then o.feature.name else o.feature.name ++ ['['] ++ signedText i ++ [']'])
      = featureKey o.feature.name i := by
    intro i
    unfold featureKey signedText natText
    by_cases h0 : i = 0
    · simp [h0]
    · by_cases h1 : i < 0 <;> simp [h0, h1]
  obtain ⟨i, k⟩ := ok
  simp only [Offsetter.offsetsWithName, List.mem_map, Prod.mk.injEq, hkey]
  constructor
  · rintro ⟨j, hj, rfl, rfl⟩; exact ⟨hj, rfl⟩
  · rintro ⟨hj, rfl⟩; exact ⟨i, hj, rfl, rfl⟩

/-! ## Rebuilt text -/

theorem initialStringFrom_spec : ∀ (toks : List Token) (cur : Nat), Laid toks →
    (∀ tok ∈ toks, cur ≤ tok.charRange.start) →
    (∀ tok ∈ toks, ((initialStringFrom cur toks).drop (tok.charRange.start - cur)).take tok.value.length
      = tok.value ∧ tok.charRange.stop ≤ cur + (initialStringFrom cur toks).length) ∧
    (∀ k c, (initialStringFrom cur toks)[k]? = some c → (∀ tok ∈ toks, ¬ tok.charRange.Has (cur + k)) →
      c = ' ') ∧
    (∀ last, toks.getLast? = some last → cur + (initialStringFrom cur toks).length = last.charRange.stop)
  | [], cur, _, _ => by simp [initialStringFrom]
  | tok :: toks, cur, hl, hcur => by
    have hsz := hl.size tok (by simp)
    have hc := hcur tok (by simp)
    have hord := List.pairwise_cons.1 hl.ordered
    have hl' : Laid toks := ⟨fun t ht => hl.size t (by simp [ht]), hord.2⟩
    obtain ⟨ih1, ih2, ih3⟩ := initialStringFrom_spec toks tok.charRange.stop hl' hord.1
    have hpad : (if tok.charRange.start > cur then List.replicate (tok.charRange.start - cur) ' ' else [])
        = List.replicate (tok.charRange.start - cur) ' ' := by
      split
      · rfl
      · rw [show tok.charRange.start - cur = 0 by omega]; rfl
    have hdef : initialStringFrom cur (tok :: toks) = List.replicate (tok.charRange.start - cur) ' '
        ++ (tok.value ++ initialStringFrom tok.charRange.stop toks) := by
      rw [initialStringFrom, hpad, List.append_assoc]
    rw [hdef]
    refine ⟨?_, ?_, ?_⟩
    · intro t ht
      rcases List.mem_cons.1 ht with rfl | ht
      · constructor
        · rw [List.drop_append, List.length_replicate]
          simp
        · simp only [List.length_append, List.length_replicate]; omega
      · obtain ⟨h1, h2⟩ := ih1 t ht
        have h3 := hord.1 t ht
        have h4 := hl'.size t ht
        constructor
        · rw [List.drop_append, List.length_replicate, List.drop_append]
          rw [show t.charRange.start - cur - (tok.charRange.start - cur) - tok.value.length
            = t.charRange.start - tok.charRange.stop by omega]
          rw [List.drop_eq_nil_of_le (by simp; omega), List.drop_eq_nil_of_le (by omega)]
          simpa using h1
        · simp only [List.length_append, List.length_replicate]; omega
    · intro k c hk hno
      by_cases hk1 : k < tok.charRange.start - cur
      · rw [List.getElem?_append_left (by simpa using hk1), List.getElem?_replicate, if_pos hk1] at hk
        simpa using hk.symm
      · rw [List.getElem?_append_right (by simpa using hk1), List.length_replicate] at hk
        have h0 := hno tok (by simp)
        simp only [Rng.Has] at h0
        rw [List.getElem?_append_right (by omega)] at hk
        refine ih2 _ c hk (fun t ht => ?_)
        have := hno t (by simp [ht])
        rwa [show tok.charRange.stop + (k - (tok.charRange.start - cur) - tok.value.length) = cur + k by omega]
    · intro last hlast
      simp only [List.length_append, List.length_replicate]
      cases toks with
      | nil =>
        simp only [List.getLast?_singleton, Option.some.injEq] at hlast
        subst hlast
        simp only [initialStringFrom, List.length_nil]
        omega
      | cons t' ts =>
        rw [List.getLast?_cons_cons] at hlast
        have := ih3 last hlast
        omega

theorem transformTokensFrom_spec (fns : TextFns) (stemmer : Option (Text → Text)) :
    ∀ (toks : List Token) (ci bi : Nat),
    (∀ tok ∈ transformTokensFrom fns stemmer ci bi toks, ci ≤ tok.charRange.start) ∧
    Laid (transformTokensFrom fns stemmer ci bi toks) ∧
    (transformTokensFrom fns stemmer ci bi toks).map Token.value
      = toks.map (fun t => normStem fns stemmer t.value)
  | [], ci, bi => ⟨by simp [transformTokensFrom], ⟨by simp [transformTokensFrom], List.Pairwise.nil⟩, rfl⟩
  | tok :: toks, ci, bi => by
    obtain ⟨h1, h2, h3⟩ := transformTokensFrom_spec fns stemmer toks
      (ci + (normStem fns stemmer tok.value).length + 1) (bi + byteLen (normStem fns stemmer tok.value) + 1)
    unfold transformTokensFrom
    refine ⟨?_, ⟨?_, ?_⟩, ?_⟩
    · intro t ht
      rcases List.mem_cons.1 ht with rfl | ht
      · exact le_refl _
      · have := h1 t ht; omega
    · intro t ht
      rcases List.mem_cons.1 ht with rfl | ht
      · rfl
      · exact h2.size t ht
    · refine List.Pairwise.cons (fun t ht => ?_) h2.ordered
      have := h1 t ht
      simp only; omega
    · simp [h3]

theorem transform_join (fns : TextFns) (stemmer : Option (Text → Text)) :
    ∀ (toks : List Token) (ci bi cur : Nat), toks ≠ [] →
    initialStringFrom cur (transformTokensFrom fns stemmer ci bi toks)
      = List.replicate (ci - cur) ' ' ++ joinWith [' '] (toks.map (fun t => normStem fns stemmer t.value))
  | [], _, _, _, h => absurd rfl h
  | [tok], ci, bi, cur, _ => by
    simp only [transformTokensFrom, initialStringFrom, List.map_cons, List.map_nil, joinWith,
      List.append_nil]
    congr 1
    split
    · rfl
    · rw [show ci - cur = 0 by omega]; rfl
  | tok :: t' :: toks, ci, bi, cur, _ => by
    have ih := transform_join fns stemmer (t' :: toks) (ci + (normStem fns stemmer tok.value).length + 1)
      (bi + byteLen (normStem fns stemmer tok.value) + 1) (ci + (normStem fns stemmer tok.value).length)
      (by simp)
    rw [transformTokensFrom, initialStringFrom]
    simp only
    rw [ih]
    simp only [List.map_cons, joinWith]
    rw [show ci + (normStem fns stemmer tok.value).length + 1 - (ci + (normStem fns stemmer tok.value).length)
      = 1 by omega]
    have hpad : (if ci > cur then List.replicate (ci - cur) ' ' else []) = List.replicate (ci - cur) ' ' := by
      split
      · rfl
      · rw [show ci - cur = 0 by omega]; rfl
    rw [hpad]
    simp

/-! ## Entity match prefixes -/

theorem overlap_iff_meets {a b : Rng} (ha : a.NonEmpty) (hb : b.NonEmpty) :
    rangesOverlap a b = true ↔ a.Meets b := by
  simp only [rangesOverlap, Rng.Meets, Rng.Has, Rng.NonEmpty, Bool.and_eq_true, decide_eq_true_eq] at *
  constructor
  · rintro ⟨h1, h2⟩
    exact ⟨max a.start b.start, by omega, by omega⟩
  · rintro ⟨k, hk⟩; omega

theorem overlap_symm (a b : Rng) : rangesOverlap a b = rangesOverlap b a := by
  simp only [rangesOverlap]
  rw [Bool.and_comm]

/-- In a list of ordered tokens those meeting a range are consecutive. -/
theorem filter_range_interval (n : Nat) (p : Nat → Bool) (i : Nat) (hi : i < n) (hpi : p i = true)
    (hconv : ∀ a b c, a < b → b < c → c < n → p a = true → p c = true → p b = true) :
    ∃ a m, a ≤ i ∧ i ≤ a + m ∧ a + m < n ∧ (List.range n).filter p = List.range' a (m + 1) ∧
      ∀ j < n, (p j = true ↔ a ≤ j ∧ j ≤ a + m) := by
  -- first and last index
  have hex : ∃ a, p a = true ∧ a < n := ⟨i, hpi, hi⟩
  classical
  let a := Nat.find hex
  have ha : p a = true ∧ a < n := Nat.find_spec hex
  have hamin : ∀ j, p j = true → j < n → a ≤ j := fun j h1 h2 => Nat.find_min' hex ⟨h1, h2⟩
  have hex2 : ∃ d, (a + d < n ∧ p (a + d) = true) ∧ ∀ e, d < e → ¬ (a + e < n ∧ p (a + e) = true) := by
    by_contra hno
    push Not at hno
    have hall : ∀ k, ∃ d, k ≤ d ∧ a + d < n ∧ p (a + d) = true := by
      intro k
      induction k with
      | zero => exact ⟨0, le_refl _, ha.2, ha.1⟩
      | succ k ih =>
        obtain ⟨d, hd, h1, h2⟩ := ih
        obtain ⟨e, he, h3, h4⟩ := hno d ⟨h1, h2⟩
        exact ⟨e, by omega, h3, h4⟩
    obtain ⟨d, hd, h1, _⟩ := hall n
    omega
  obtain ⟨m, ⟨hm1, hm2⟩, hmax⟩ := hex2
  have hiff : ∀ j < n, (p j = true ↔ a ≤ j ∧ j ≤ a + m) := by
    intro j hj
    constructor
    · intro hpj
      have h1 := hamin j hpj hj
      refine ⟨h1, ?_⟩
      by_contra hlt
      exact hmax (j - a) (by omega) ⟨by omega, by rwa [show a + (j - a) = j by omega]⟩
    · rintro ⟨h1, h2⟩
      rcases Nat.lt_or_eq_of_le h1 with h1 | h1
      · rcases Nat.lt_or_eq_of_le h2 with h2 | h2
        · exact hconv a j (a + m) h1 h2 hm1 ha.1 hm2
        · rw [h2]; exact hm2
      · rw [← h1]; exact ha.1
  refine ⟨a, m, ((hiff i hi).1 hpi).1, ((hiff i hi).1 hpi).2, hm1, ?_, hiff⟩
  have hsplit : List.range n = List.range' 0 a ++ (List.range' a (m + 1) ++ List.range' (a + m + 1) (n - (a + m + 1))) := by
    have h1 := List.range'_append_1 (s := a) (m := m + 1) (n := n - (a + m + 1))
    have h2 := List.range'_append_1 (s := 0) (m := a) (n := m + 1 + (n - (a + m + 1)))
    rw [Nat.zero_add] at h2
    rw [show a + m + 1 = a + (m + 1) by omega] at *
    rw [h1, h2, List.range_eq_range']
    congr 1
    omega
  rw [hsplit, List.filter_append, List.filter_append]
  have h1 : (List.range' 0 a).filter p = [] := by
    rw [List.filter_eq_nil_iff]
    intro j hj hpj
    have := List.mem_range'_1.1 hj
    have := hamin j hpj (by omega)
    omega
  have h2 : (List.range' a (m + 1)).filter p = List.range' a (m + 1) := by
    rw [List.filter_eq_self]
    intro j hj
    have := List.mem_range'_1.1 hj
    exact (hiff j (by omega)).2 (by omega)
  have h3 : (List.range' (a + m + 1) (n - (a + m + 1))).filter p = [] := by
    rw [List.filter_eq_nil_iff]
    intro j hj hpj
    have := List.mem_range'_1.1 hj
    have := (hiff j (by omega)).1 hpj
    omega
  rw [h1, h2, h3]
  simp

end Snips
