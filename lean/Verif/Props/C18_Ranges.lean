import Verif.Proofs.RangeShift
import Verif.Props.C17_Replace
import Verif.Proofs.Map

/-! # C18: captured ranges are mapped back to the original text -/

namespace Snips

theorem getRangeShift_table (ph : Text → Text) (hph : ∀ name, ph name ≠ []) (segs : List Seg)
    (o : HashOrd) (r : Rng) :
    getRangeShift o r (occTable ph 0 0 segs) = rangeShiftFrom r.start 0 0 (occTable ph 0 0 segs) :=
  (rangeShiftFrom_perm _ (o.perm 1 _).symm (stops_distinct (occTable_stops ph hph segs 0 0)) 0 0).symm

theorem occTable_keys_nodup (ph : Text → Text) (hph : ∀ name, ph name ≠ []) (segs : List Seg) (o n : Nat) :
    (Map.keys (occTable ph o n segs)).Nodup := by
  have h := occTable_stops ph hph segs o n
  unfold Map.keys
  rw [List.Nodup, List.pairwise_map]
  refine h.imp ?_
  intro a b hab heq
  rw [heq] at hab
  exact Nat.lt_irrefl _ hab

theorem substr_eq_of_getElem {a b : Text} {r s : Rng} (hr : r.stop ≤ a.length) (hs : s.stop ≤ b.length)
    (hc : r.stop - r.start = s.stop - s.start)
    (h : ∀ k, k < r.stop - r.start → a[r.start + k]? = b[s.start + k]?) : substr a r = substr b s := by
  unfold substr
  apply List.ext_getElem?
  intro k
  by_cases hk : k < r.stop - r.start
  · rw [List.getElem?_take_of_lt hk, List.getElem?_take_of_lt (by omega), List.getElem?_drop,
      List.getElem?_drop]
    exact h k hk
  · rw [List.getElem?_eq_none (by rw [List.length_take]; omega),
      List.getElem?_eq_none (by rw [List.length_take]; omega)]

/-- If the placeholders end before position 2^15 of the new text (and the text has less than 2^31 characters, as
the ranges go through `i32`).  Missing from the full statement: placeholders further in the text, for which it is
false (`c18_counterexample`).

The text can be cut into plain pieces and the kept matches (C16) in order, the new text being made of the
plain pieces and of the placeholders, such that, whatever the hash iteration order: the range of a
placeholder is mapped back to the range of its match; a range that meets no placeholder is mapped back
to a range of the original text, of the same length, that carries the same characters and meets no match. -/
theorem c18_recovery_partial (text : Text) (ms : List MatchedEntity) (ph : Text → Text)
    (hne : ∀ m ∈ ms, m.range.NonEmpty) (hin : ∀ m ∈ ms, m.range.stop ≤ text.length)
    (hph : ∀ name, ph name ≠ []) (hend : PlaceholdersEndBefore 32768 ph text ms)
    (ht : text.length < 2147483648) :
    ∃ segs : List Seg, origText segs = text ∧
      (occs ph 0 0 segs).map (fun c => (⟨c.orig, c.name⟩ : MatchedEntity)) = dedupEntities ms ∧
      (replaceEntities text ms ph).2 = replText ph segs ∧
      ∀ o : HashOrd,
        (∀ c ∈ occs ph 0 0 segs, originalRange o (some (replaceEntities text ms ph).1) c.repl = c.orig) ∧
        (∀ r : Rng, r.NonEmpty → r.stop ≤ (replText ph segs).length →
          (∀ c ∈ occs ph 0 0 segs, r.Disj c.repl) →
          ∃ r' : Rng, originalRange o (some (replaceEntities text ms ph).1) r = r' ∧
            r'.stop ≤ text.length ∧ r'.start + (r.stop - r.start) = r'.stop ∧
            substr text r' = substr (replText ph segs) r ∧ ∀ c ∈ occs ph 0 0 segs, r'.Disj c.orig) := by
  obtain ⟨segs, h1, h2, h3⟩ := c17_mapping_partial text ms ph hne hin hph hend
  have hmap : (replaceEntities text ms ph).1 = occTable ph 0 0 segs := by rw [h3]; rfl
  have htxt : (replaceEntities text ms ph).2 = replText ph segs := by rw [h3]
  refine ⟨segs, h1, h2, htxt, fun o => ⟨?_, ?_⟩⟩
  · intro c hc
    rw [hmap]
    have hmem : (c.repl, c.orig) ∈ occTable ph 0 0 segs := List.mem_map.2 ⟨c, hc, rfl⟩
    have := Map.get_of_mem (occTable_keys_nodup ph hph segs 0 0) hmem
    unfold originalRange
    simp only [this]
  · intro r hrne hrlen hdisj
    rw [hmap]
    have hdisj' : ∀ e ∈ occTable ph 0 0 segs, r.Disj e.1 := by
      intro e he
      obtain ⟨c, hc, rfl⟩ := List.mem_map.1 he
      exact hdisj c hc
    have hget : Map.get (occTable ph 0 0 segs) r = none := by
      rw [Map.get_none_iff]
      intro hk
      obtain ⟨e, he, heq⟩ := List.mem_map.1 hk
      apply hdisj' e he r.start
      rw [heq]
      exact ⟨⟨Nat.le_refl _, hrne⟩, ⟨Nat.le_refl _, hrne⟩⟩
    unfold Rng.NonEmpty at hrne
    have hchar : ∀ i, r.Has i → ∃ j : Nat,
        (j : Int) = (i : Int) + rangeShiftFrom r.start 0 0 (occTable ph 0 0 segs) ∧
        j < text.length ∧ (replText ph segs)[i]? = text[j]? ∧
        ∀ e ∈ occTable ph 0 0 segs, ¬ e.2.Has j := by
      intro i hi
      have := char_of_plain ph hph segs 0 0 0 i (Nat.zero_le _)
        (by unfold Rng.Has at hi; omega) (Nat.le_refl _)
        (fun e he hhas => hdisj' e he i ⟨hi, hhas⟩)
      obtain ⟨j, hj, _, hj2, hj3, hj4⟩ := this
      rw [h1] at hj2 hj3
      refine ⟨j, ?_, by simpa using hj2, by simpa using hj3, hj4⟩
      rw [hj]
      congr 1
      exact shift_const ph hph segs 0 0 r hdisj' i hi _
    obtain ⟨j0, hj0, hj0l, _, _⟩ := hchar r.start ⟨Nat.le_refl _, hrne⟩
    obtain ⟨j1, hj1, hj1l, _, _⟩ := hchar (r.stop - 1) ⟨by omega, by omega⟩
    refine ⟨⟨j0, j0 + (r.stop - r.start)⟩, ?_, ?_, rfl, ?_, ?_⟩
    · have hs := getRangeShift_table ph hph segs o r
      unfold originalRange
      simp only [hget]
      rw [hs]
      congr 1
      · rw [← hj0, asUsize_eq (by omega) (by omega)]; omega
      · have : (r.stop : Int) + rangeShiftFrom r.start 0 0 (occTable ph 0 0 segs)
            = ((j0 + (r.stop - r.start) : Nat) : Int) := by omega
        rw [this, asUsize_eq (by omega) (by omega)]; omega
    · show j0 + (r.stop - r.start) ≤ text.length
      omega
    · symm
      apply substr_eq_of_getElem hrlen
      · show j0 + (r.stop - r.start) ≤ text.length; omega
      · show r.stop - r.start = j0 + (r.stop - r.start) - j0; omega
      · intro k hk
        obtain ⟨j, hj, _, hj3, _⟩ := hchar (r.start + k) ⟨by omega, by omega⟩
        rw [hj3]
        congr 1
        show j = j0 + k
        omega
    · intro c hc k hk
      have hmem : (c.repl, c.orig) ∈ occTable ph 0 0 segs := List.mem_map.2 ⟨c, hc, rfl⟩
      have hk1 : j0 ≤ k ∧ k < j0 + (r.stop - r.start) := hk.1
      obtain ⟨j, hj, _, _, hj4⟩ := hchar (r.start + (k - j0)) ⟨by omega, by omega⟩
      apply hj4 _ hmem
      have : j = k := by omega
      rw [this]
      exact hk.2

/-- The recovered range does not depend on the hash iteration order, for every captured range (even one
that meets a placeholder partially).  Missing from the full statement: placeholders beyond position 2^15, as above. -/
theorem c18_order_partial (text : Text) (ms : List MatchedEntity) (ph : Text → Text)
    (hne : ∀ m ∈ ms, m.range.NonEmpty) (hin : ∀ m ∈ ms, m.range.stop ≤ text.length)
    (hph : ∀ name, ph name ≠ []) (hend : PlaceholdersEndBefore 32768 ph text ms) (o o' : HashOrd) (r : Rng) :
    originalRange o (some (replaceEntities text ms ph).1) r
      = originalRange o' (some (replaceEntities text ms ph).1) r := by
  obtain ⟨segs, h1, h2, h3⟩ := c17_mapping_partial text ms ph hne hin hph hend
  have hmap : (replaceEntities text ms ph).1 = occTable ph 0 0 segs := by rw [h3]; rfl
  rw [hmap]
  unfold originalRange
  simp only [getRangeShift_table ph hph segs]

/-- Beyond position 2^15 of the new text the code never finds a placeholder again: its range is mapped back to a range as
long as the placeholder, which is not the match unless match and placeholder happen to have the same length.  (Texts have
less than 2^63 characters.) -/
theorem c18_beyond (text : Text) (ms : List MatchedEntity) (ph : Text → Text)
    (hne : ∀ m ∈ ms, m.range.NonEmpty) (hin : ∀ m ∈ ms, m.range.stop ≤ text.length)
    (hlen : (replaceEntities text ms ph).2.length < 9223372036854775808) (ht : text.length < 9223372036854775808)
    (segs : List Seg)
    (hkept : (occs ph 0 0 segs).map (fun c => (⟨c.orig, c.name⟩ : MatchedEntity)) = dedupEntities ms) (c : Occ)
    (hc : c ∈ occs ph 0 0 segs) (hbeyond : 32768 ≤ c.repl.stop)
    (hdiff : c.repl.stop - c.repl.start ≠ c.orig.stop - c.orig.start) (o : HashOrd) :
    originalRange o (some (replaceEntities text ms ph).1) c.repl ≠ c.orig := by
  obtain ⟨segs', _, h2, h3⟩ := c17_text text ms ph hne hin
  have hr := (occs_repl_ge ph segs' 0 0 c (occs_unique ph hkept h2 ▸ hc)).2
  rw [← h3] at hr
  have hmem : (⟨c.orig, c.name⟩ : MatchedEntity) ∈ ms := by
    refine (c16_sound ms).1.subset ?_
    rw [← hkept]
    exact List.mem_map.2 ⟨c, hc, rfl⟩
  have ho1 := hne _ hmem
  have ho2 := hin _ hmem
  unfold Rng.NonEmpty at ho1
  simp only at ho1 ho2
  have hget : Map.get (replaceEntities text ms ph).1 c.repl = none := by
    rw [Map.get_none_iff]
    intro hk
    unfold Map.keys at hk
    rw [c17_table text ms ph hne hin segs hkept] at hk
    rcases foldl_insert_keys (fun c : Occ => c.repl.as16) Occ.orig _ [] _ hk with hm | ⟨c', _, he⟩
    · cases hm
    · have hstop : c.repl.stop = pos16 c'.repl.stop := by
        have := congrArg Rng.stop he
        simp only [Rng.as16] at this
        exact this
      rcases pos16_range c'.repl.stop with h | h <;> omega
  unfold originalRange
  simp only [hget]
  intro he
  generalize getRangeShift o c.repl (replaceEntities text ms ph).1 = d at he
  have e1 : (((c.repl.start : Int) + d) % 18446744073709551616).toNat = c.orig.start := congrArg Rng.start he
  have e2 : (((c.repl.stop : Int) + d) % 18446744073709551616).toNat = c.orig.stop := congrArg Rng.stop he
  omega

/-- For longer texts the range of a placeholder is not mapped back to its match: here the match is
`32768..32769` and its placeholder `32768..32771`, which is mapped to itself. -/
theorem c18_counterexample :
    ∃ (text : Text) (ms : List MatchedEntity) (ph : Text → Text),
      (∀ m ∈ ms, m.range.NonEmpty) ∧ (∀ m ∈ ms, m.range.stop ≤ text.length) ∧ (∀ name, ph name ≠ []) ∧
      ∃ m ∈ ms, ∃ r : Rng, substr (replaceEntities text ms ph).2 r = ph m.name ∧ m.range.start = r.start ∧
        ∀ o : HashOrd, originalRange o (some (replaceEntities text ms ph).1) r ≠ m.range := by
  refine ⟨List.replicate 32769 'a', [⟨⟨32768, 32769⟩, "x".toList⟩], fun _ => "%X%".toList, ?_, ?_, ?_, ?_⟩
  · intro m hm; rw [List.mem_singleton] at hm; subst hm; unfold Rng.NonEmpty; decide
  · intro m hm; rw [List.mem_singleton] at hm; subst hm
    rw [List.length_replicate]
  · intro _; show "%X%".toList ≠ []; decide
  · have hded : dedupEntities [⟨⟨32768, 32769⟩, "x".toList⟩] = [⟨⟨32768, 32769⟩, "x".toList⟩] := by
      decide
    refine ⟨_, List.mem_singleton.2 rfl, ⟨32768, 32771⟩, ?_, rfl, ?_⟩
    · rw [replace_unfold _ _ _ (by simp), hded]
      simp only [List.foldl_cons, List.foldl_nil, replaceStep, suffixFrom, List.nil_append, substr,
        List.drop_zero, List.take_replicate, List.drop_replicate]
      rw [show min (32768 - 0) 32769 = 32768 by rfl, List.append_assoc,
        List.drop_append_of_le_length (by rw [List.length_replicate]),
        List.drop_of_length_le (by rw [List.length_replicate])]
      rfl
    · intro o
      have hm : (replaceEntities (List.replicate 32769 'a') [⟨⟨32768, 32769⟩, "x".toList⟩]
          (fun _ => "%X%".toList)).1 = [(⟨18446744073709518848, 18446744073709518851⟩, ⟨32768, 32769⟩)] := by
        rw [replace_unfold _ _ _ (by simp), hded]
        simp only [List.foldl_cons, List.foldl_nil, replaceStep, Map.insert]
        decide +kernel
      have ho : o.order 1 [((⟨18446744073709518848, 18446744073709518851⟩ : Rng), (⟨32768, 32769⟩ : Rng))]
          = [(⟨18446744073709518848, 18446744073709518851⟩, ⟨32768, 32769⟩)] :=
        List.perm_singleton.1 (o.perm 1 _)
      rw [hm]
      unfold originalRange getRangeShift
      simp only [ho]
      decide

/-- For longer texts the recovered range even depends on the hash iteration order: two table entries get
the same end 10 (one of them by wrapping around), and the one visited first wins. -/
theorem c18_order_counterexample :
    ∃ (text : Text) (ms : List MatchedEntity) (ph : Text → Text) (o o' : HashOrd) (r : Rng),
      (∀ m ∈ ms, m.range.NonEmpty) ∧ (∀ m ∈ ms, m.range.stop ≤ text.length) ∧
      originalRange o (some (replaceEntities text ms ph).1) r
        ≠ originalRange o' (some (replaceEntities text ms ph).1) r := by
  refine ⟨List.replicate 70000 'a', [⟨⟨7, 10⟩, "abc".toList⟩, ⟨⟨65542, 65546⟩, "abcd".toList⟩], id,
    HashOrd.insertion, ⟨fun _ _ l => l.reverse, fun _ _ l => List.reverse_perm l⟩, ⟨20, 21⟩, ?_, ?_, ?_⟩
  · intro m hm
    simp only [List.mem_cons, List.not_mem_nil, or_false] at hm
    rcases hm with rfl | rfl <;> (unfold Rng.NonEmpty; decide)
  · intro m hm
    rw [List.length_replicate]
    simp only [List.mem_cons, List.not_mem_nil, or_false] at hm
    rcases hm with rfl | rfl <;> decide
  · have hded : dedupEntities [⟨⟨7, 10⟩, "abc".toList⟩, ⟨⟨65542, 65546⟩, "abcd".toList⟩]
        = [⟨⟨7, 10⟩, "abc".toList⟩, ⟨⟨65542, 65546⟩, "abcd".toList⟩] := by decide
    have hm : (replaceEntities (List.replicate 70000 'a')
        [⟨⟨7, 10⟩, "abc".toList⟩, ⟨⟨65542, 65546⟩, "abcd".toList⟩] id).1
        = [(⟨7, 10⟩, ⟨7, 10⟩), (⟨6, 10⟩, ⟨65542, 65546⟩)] := by
      rw [replace_unfold _ _ _ (by simp), hded]
      simp only [List.foldl_cons, List.foldl_nil, replaceStep, Map.insert]
      decide +kernel
    rw [hm]
    decide

/-- A placeholder beyond position 2^15, of another length than its match (`c18_beyond`). -/
example : ∃ (text : Text) (ms : List MatchedEntity) (ph : Text → Text) (segs : List Seg),
    (∀ m ∈ ms, m.range.NonEmpty) ∧ (∀ m ∈ ms, m.range.stop ≤ text.length) ∧
    (occs ph 0 0 segs).map (fun c => (⟨c.orig, c.name⟩ : MatchedEntity)) = dedupEntities ms ∧
    ∃ c ∈ occs ph 0 0 segs, 32768 ≤ c.repl.stop ∧ c.repl.stop - c.repl.start ≠ c.orig.stop - c.orig.start := by
  have ho : occs (fun _ => "%X%".toList) 0 0 [.plain (List.replicate 32768 'a'), .ent ['b'] "x".toList] =
      [⟨⟨32768, 32769⟩, ⟨32768, 32771⟩, "x".toList⟩] := by
    simp only [occs, List.length_replicate]
    rfl
  refine ⟨List.replicate 32769 'a', [⟨⟨32768, 32769⟩, "x".toList⟩], fun _ => "%X%".toList,
    [.plain (List.replicate 32768 'a'), .ent ['b'] "x".toList], ?_, ?_, ?_, ?_⟩
  · intro m hm; rw [List.mem_singleton] at hm; subst hm; unfold Rng.NonEmpty; decide
  · intro m hm; rw [List.mem_singleton] at hm; subst hm; rw [List.length_replicate]
  · rw [ho]; decide
  · rw [ho]; exact ⟨_, List.mem_singleton.2 rfl, by decide, by decide⟩

/-! Non-vacuity of `c18_recovery_partial` and `c18_order_partial`: two matches, and a captured range
("cups") that meets no placeholder. -/

example : ∃ (text : Text) (ms : List MatchedEntity) (ph : Text → Text) (r : Rng),
    2 ≤ (dedupEntities ms).length ∧
    (∀ m ∈ ms, m.range.NonEmpty) ∧ (∀ m ∈ ms, m.range.stop ≤ text.length) ∧
    (∀ name, ph name ≠ []) ∧ text.length < 2147483648 ∧ PlaceholdersEndBefore 32768 ph text ms ∧
    substr (replaceEntities text ms ph).2 r = "cups".toList ∧
    originalRange HashOrd.insertion (some (replaceEntities text ms ph).1) r = ⟨9, 13⟩ :=
  ⟨"make two cups of hot tea".toList,
    [⟨⟨5, 8⟩, "number".toList⟩, ⟨⟨17, 20⟩, "temp".toList⟩, ⟨⟨18, 20⟩, "x".toList⟩],
    fun n => '%' :: n ++ ['%'], ⟨14, 18⟩,
    by decide, by unfold Rng.NonEmpty; decide, by decide, by intro n; simp, by decide,
    endBefore_of_new_text (by unfold Rng.NonEmpty; decide) (by decide) (by decide), by decide +kernel, by decide +kernel⟩

end Snips
