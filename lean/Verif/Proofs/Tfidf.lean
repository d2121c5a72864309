import Verif.Spec.Classifier
import Verif.Proofs.Map
import Verif.Proofs.Prog

/-! The tf-idf vector as a function of the term counts. -/

namespace Snips

variable {F : Type} (ops : FloatOps F)

theorem termCount_nil (vocabulary : Map Text Nat) (ix : Nat) : termCount vocabulary [] ix = 0 := rfl

theorem termCount_cons (vocabulary : Map Text Nat) (w : Text) (ws : List Text) (ix : Nat) :
    termCount vocabulary (w :: ws) ix = (if vocabulary.get w = some ix then 1 else 0) + termCount vocabulary ws ix := by
  unfold termCount
  rw [List.filter_cons]
  by_cases h : vocabulary.get w = some ix <;> simp [h]
  omega

theorem termCount_perm {vocabulary : Map Text Nat} {ws ws' : List Text} (h : ws.Perm ws') (ix : Nat) :
    termCount vocabulary ws ix = termCount vocabulary ws' ix := (h.filter _).length_eq

/-- Adding one `k` times. -/
def addOnes (k : Nat) (c : F) : F := (fun c => ops.add c ops.one)^[k] c

theorem countWords_spec (vocabulary : Map Text Nat) (n : Nat)
    (hv : ∀ w ix, vocabulary.get w = some ix → ix < n) :
    ∀ (words : List Text) (features : List F) (matched : List Nat), features.length = n → matched.Nodup →
      (∀ ix ∈ matched, ix < n) →
      ∃ features' matched', countWords ops vocabulary words (features, matched) = .ok (features', matched') ∧
        features'.length = n ∧ matched'.Nodup ∧ (∀ ix ∈ matched', ix < n) ∧
        (∀ ix, ix ∈ matched' ↔ ix ∈ matched ∨ 0 < termCount vocabulary words ix) ∧
        (∀ ix, features'[ix]? = (features[ix]?).map (addOnes ops (termCount vocabulary words ix))) := by
  intro words
  induction words with
  | nil =>
    intro features matched hl hn hb
    refine ⟨features, matched, rfl, hl, hn, hb, ?_, ?_⟩
    · intro ix; simp [termCount_nil]
    · intro ix
      rw [termCount_nil]
      cases features[ix]? <;> rfl
  | cons w words ih =>
    intro features matched hl hn hb
    unfold countWords
    cases hw : vocabulary.get w with
    | none =>
      obtain ⟨f', m', h1, h2, h3, h4, h5, h6⟩ := ih features matched hl hn hb
      refine ⟨f', m', h1, h2, h3, h4, ?_, ?_⟩
      · intro ix; rw [h5, termCount_cons, hw]; simp
      · intro ix; rw [h6, termCount_cons, hw]; simp
    | some k =>
      have hk := hv w k hw
      simp only
      rw [if_pos (by rw [hl]; exact hk)]
      have hn' : (if matched.contains k then matched else matched ++ [k]).Nodup := by
        split
        · exact hn
        · rename_i hc
          rw [List.nodup_append]
          refine ⟨hn, by simp, ?_⟩
          intro a ha b hb' hab
          rw [List.mem_singleton] at hb'
          subst hb' hab
          exact hc (by simpa using ha)
      have hb' : ∀ ix ∈ (if matched.contains k then matched else matched ++ [k]), ix < n := by
        intro ix hix
        split at hix
        · exact hb ix hix
        · rcases List.mem_append.1 hix with h | h
          · exact hb ix h
          · rw [List.mem_singleton] at h; subst h; exact hk
      obtain ⟨f', m', h1, h2, h3, h4, h5, h6⟩ :=
        ih (features.modify k (fun c => ops.add c ops.one)) _ (by simpa using hl) hn' hb'
      refine ⟨f', m', h1, h2, h3, h4, ?_, ?_⟩
      · intro ix
        rw [h5, termCount_cons, hw]
        have : ix ∈ (if matched.contains k then matched else matched ++ [k]) ↔ ix ∈ matched ∨ ix = k := by
          split
          · rename_i hc
            constructor
            · exact Or.inl
            · rintro (h | h)
              · exact h
              · subst h; simpa using hc
          · simp
        rw [this]
        by_cases hik : k = ix
        · subst hik; simp
        · simp only [Option.some.injEq, hik, if_false, Nat.zero_add]
          constructor
          · rintro ((h | h) | h)
            · exact Or.inl h
            · exact absurd h.symm hik
            · exact Or.inr h
          · rintro (h | h)
            · exact Or.inl (Or.inl h)
            · exact Or.inr h
      · intro ix
        rw [h6, termCount_cons, hw, List.getElem?_modify]
        by_cases hik : k = ix
        · subst hik
          cases features[k]? with
          | none => rfl
          | some c =>
            simp only [if_true, Option.map_some, Option.map_eq_map]
            unfold addOnes
            rw [Nat.add_comm 1, Function.iterate_add]
            rfl
        · simp [hik]

theorem applyIdf_spec (idf : List F) (n : Nat) :
    ∀ (ixs : List Nat) (features : List F), features.length = n → ixs.Nodup → (∀ ix ∈ ixs, ix < n) →
      ((∀ ix ∈ ixs, ix < idf.length) →
        ∃ features', applyIdf ops idf ixs features = .ok features' ∧ features'.length = n ∧
          ∀ ix, features'[ix]? = (features[ix]?).map fun c =>
            if ix ∈ ixs then (idf[ix]?).elim c (fun d => ops.mul c d) else c) ∧
      ((∃ ix ∈ ixs, idf.length ≤ ix) → applyIdf ops idf ixs features = .panic) := by
  intro ixs
  induction ixs with
  | nil =>
    intro features hl _ _
    refine ⟨fun _ => ⟨features, rfl, hl, ?_⟩, ?_⟩
    · intro ix; simp
    · rintro ⟨ix, h, _⟩; simp at h
  | cons k ixs ih =>
    intro features hl hn hb
    rw [List.nodup_cons] at hn
    have hk := hb k (by simp)
    unfold applyIdf
    cases hd : idf[k]? with
    | none =>
      have hge := List.getElem?_eq_none_iff.1 hd
      refine ⟨fun h => absurd (h k (by simp)) (by omega), fun _ => rfl⟩
    | some d =>
      have hlt := (List.getElem?_eq_some_iff.1 hd).1
      simp only
      rw [if_pos (by rw [hl]; exact hk)]
      obtain ⟨h1, h2⟩ := ih (features.modify k (fun c => ops.mul c d)) (by simpa using hl) hn.2
        (fun ix hix => hb ix (by simp [hix]))
      constructor
      · intro hall
        obtain ⟨f', hf, hfl, hget⟩ := h1 (fun ix hix => hall ix (by simp [hix]))
        refine ⟨f', hf, hfl, ?_⟩
        intro ix
        rw [hget, List.getElem?_modify]
        by_cases hik : k = ix
        · subst hik
          cases features[k]? with
          | none => rfl
          | some c => simp [hn.1, hd]
        · simp only [hik, if_false]
          have : ix ∈ k :: ixs ↔ ix ∈ ixs := by
            rw [List.mem_cons]
            exact ⟨fun h => h.resolve_left (fun h => hik h.symm), Or.inr⟩
          simp [this]
      · rintro ⟨ix, hix, hge⟩
        apply h2
        rcases List.mem_cons.1 hix with rfl | h
        · omega
        · exact ⟨ix, h, hge⟩

/-- The vector before normalisation. -/
def rawVector (v : Tfidf F) (n : Nat) (words : List Text) : List F :=
  (List.range n).map fun ix =>
    if termCount v.vocabulary words ix = 0 then ops.zero
    else (v.idf[ix]?).elim ops.zero
      (fun d => ops.mul (addOnes ops (termCount v.vocabulary words ix) ops.zero) d)

theorem max?_bound {l : List Nat} {m : Nat} (h : l.max? = some m) : ∀ a ∈ l, a ≤ m := by
  intro a ha
  have := List.max?_eq_some_iff (α := Nat) |>.1 h
  exact this.2 a ha

open Classical in
/-- The whole computation. -/
theorem tfidfVector_eq (o : HashOrd) (v : Tfidf F) (words : List Text) :
    tfidfVector ops o v words =
      match (v.vocabulary.map Prod.snd).max? with
      | none => .panic
      | some m =>
        if ∀ ix, 0 < termCount v.vocabulary words ix → ix < v.idf.length
        then .ok (normalizeVector ops (rawVector ops v (m + 1) words))
        else .panic := by
  unfold tfidfVector
  cases hm : (v.vocabulary.map Prod.snd).max? with
  | none => rfl
  | some m =>
    simp only [Outcome.unwrap, Outcome.bind_eq, Outcome.bind]
    have hv : ∀ w ix, v.vocabulary.get w = some ix → ix < m + 1 := by
      intro w ix h
      have := max?_bound hm ix (List.mem_map.2 ⟨(w, ix), Map.get_some_mem h, rfl⟩)
      omega
    obtain ⟨f', m', h1, h2, h3, h4, h5, h6⟩ := countWords_spec ops v.vocabulary (m + 1) hv words
      (List.replicate (m + 1) ops.zero) [] (by simp) (by simp) (by simp)
    rw [h1]
    simp only
    have hperm := o.perm 0 m'
    obtain ⟨a1, a2⟩ := applyIdf_spec ops v.idf (m + 1) (o.order 0 m') f' h2 (hperm.nodup_iff.2 h3)
      (fun ix hix => h4 ix (hperm.mem_iff.1 hix))
    have hmem : ∀ ix, ix ∈ o.order 0 m' ↔ 0 < termCount v.vocabulary words ix := by
      intro ix; rw [hperm.mem_iff, h5]; simp
    by_cases hall : ∀ ix, 0 < termCount v.vocabulary words ix → ix < v.idf.length
    · rw [if_pos hall]
      obtain ⟨f'', hf, hfl, hget⟩ := a1 (fun ix hix => hall ix ((hmem ix).1 hix))
      rw [hf]
      have : f'' = rawVector ops v (m + 1) words := by
        apply List.ext_getElem?
        intro ix
        rw [hget, h6, List.getElem?_replicate]
        unfold rawVector
        rw [List.getElem?_map]
        by_cases hix : ix < m + 1
        · rw [if_pos hix, List.getElem?_range hix]
          simp only [Option.map_some, Option.some.injEq, hmem]
          by_cases hc : termCount v.vocabulary words ix = 0
          · rw [hc]; rfl
          · rw [if_neg hc, if_pos (by omega)]
            have hlt := hall ix (by omega)
            rw [List.getElem?_eq_getElem hlt]
            rfl
        · rw [if_neg hix, List.getElem?_eq_none (l := List.range (m + 1)) (by rw [List.length_range]; omega)]
          rfl
      rw [this]
    · rw [if_neg hall]
      push Not at hall
      obtain ⟨ix, hix, hge⟩ := hall
      rw [a2 ⟨ix, (hmem ix).2 hix, hge⟩]

end Snips
