import Verif.Proofs.Replace
import Verif.Props.C16_Dedup

/-! # C17: placeholder substitution keeps exact range bookkeeping -/

namespace Snips

theorem replace_chain (text : Text) (ms : List MatchedEntity)
    (hne : ∀ m ∈ ms, m.range.NonEmpty) (hin : ∀ m ∈ ms, m.range.stop ≤ text.length) :
    Chain text.length 0 (dedupEntities ms) := by
  have hsub := (c16_sound ms).1.subset
  refine chain_of_before _ 0 (Nat.zero_le _) ?_ (c16_in_text_order ms hne)
  intro m hm
  exact ⟨Nat.zero_le _, hne m (hsub hm), hin m (hsub hm)⟩

theorem replace_unfold (text : Text) (ms : List MatchedEntity) (ph : Text → Text) (h : ms ≠ []) :
    replaceEntities text ms ph =
      (((dedupEntities ms).foldl (replaceStep text ph) ⟨[], [], 0, 0⟩).mapping,
        ((dedupEntities ms).foldl (replaceStep text ph) ⟨[], [], 0, 0⟩).processed ++
          suffixFrom text ((dedupEntities ms).foldl (replaceStep text ph) ⟨[], [], 0, 0⟩).currentIx) := by
  unfold replaceEntities
  have : ms.isEmpty = false := by simpa using h
  rw [this]
  simp only [Bool.false_eq_true, if_false]
  rw [sortByKey_of_sorted _ (c16_sound ms).2.2]

/-- Full statement of the text part, without any bound on sizes: the text can be cut into plain pieces
and entity matches, the latter being exactly the kept matches (C16) in order, such that the new text
is the concatenation of the plain pieces and of the placeholders of the matches. -/
theorem c17_text (text : Text) (ms : List MatchedEntity) (ph : Text → Text)
    (hne : ∀ m ∈ ms, m.range.NonEmpty) (hin : ∀ m ∈ ms, m.range.stop ≤ text.length) :
    ∃ segs : List Seg, origText segs = text ∧
      (occs ph 0 0 segs).map (fun o => (⟨o.orig, o.name⟩ : MatchedEntity)) = dedupEntities ms ∧
      (replaceEntities text ms ph).2 = replText ph segs := by
  by_cases hms : ms = []
  · subst hms
    exact ⟨[.plain text], by simp [origText, Seg.orig], by simp [occs]; rfl,
      by simp [replText, Seg.repl, replaceEntities]⟩
  · have hc := replace_chain text ms hne hin
    refine ⟨buildSegs text 0 (dedupEntities ms), ?_, occs_buildSegs text ph _ 0 0 hc, ?_⟩
    · simpa using origText_buildSegs text _ 0 hc
    · rw [replace_unfold text ms ph hms]
      simpa using replaceFold_text text ph (dedupEntities ms) ⟨[], [], 0, 0⟩

/-- What the table is, whatever the sizes: built from the kept matches in order, the range of each placeholder
in the new text, its ends taken as 16-bit integers, being associated with the range of the match (a later entry
replaces an earlier one for the same range). -/
theorem c17_table (text : Text) (ms : List MatchedEntity) (ph : Text → Text)
    (hne : ∀ m ∈ ms, m.range.NonEmpty) (hin : ∀ m ∈ ms, m.range.stop ≤ text.length) (segs : List Seg)
    (hseg : (occs ph 0 0 segs).map (fun o => (⟨o.orig, o.name⟩ : MatchedEntity)) = dedupEntities ms) :
    (replaceEntities text ms ph).1 =
      (occs ph 0 0 segs).foldl (fun table c => Map.insert table c.repl.as16 c.orig) [] := by
  have hc := replace_chain text ms hne hin
  rw [occs_unique ph hseg (occs_buildSegs text ph _ 0 0 hc)]
  by_cases hms : ms = []
  · subst hms
    rfl
  · rw [replace_unfold text ms ph hms]
    exact replaceFold_mapping text ph (dedupEntities ms) ⟨[], [], 0, 0⟩ hc rfl

/-- Range table, if the placeholders end before position 2^15 of the new text (whatever the lengths of the two
texts).  Missing from the full statement: placeholders further in the text, for which it is false
(`c17_mapping_exact`, `c17_mapping_counterexample`), because the code computes the ranges with 16-bit integers.

The text can be cut into plain pieces and kept matches such that the new text is the concatenation of
plain pieces and placeholders, and the table consists of, for every kept match in order, the range of
its placeholder in the new text and its range in the original text. -/
theorem c17_mapping_partial (text : Text) (ms : List MatchedEntity) (ph : Text → Text)
    (hne : ∀ m ∈ ms, m.range.NonEmpty) (hin : ∀ m ∈ ms, m.range.stop ≤ text.length)
    (hph : ∀ name, ph name ≠ []) (hend : PlaceholdersEndBefore 32768 ph text ms) :
    ∃ segs : List Seg, origText segs = text ∧
      (occs ph 0 0 segs).map (fun o => (⟨o.orig, o.name⟩ : MatchedEntity)) = dedupEntities ms ∧
      replaceEntities text ms ph =
        ((occs ph 0 0 segs).map (fun o => (o.repl, o.orig)), replText ph segs) := by
  obtain ⟨segs, h1, h2, h3⟩ := c17_text text ms ph hne hin
  refine ⟨segs, h1, h2, Prod.ext ?_ h3⟩
  have hst := occs_stops ph hph segs 0 0
  have h16 : ∀ c ∈ occs ph 0 0 segs, c.repl.as16 = c.repl := fun c hc =>
    as16_of_small (occs_repl_ge ph segs 0 0 c hc).2.1 (hend segs h1 h2 c hc)
  have hnd : ((occs ph 0 0 segs).map fun c => c.repl.as16).Nodup := by
    rw [List.map_congr_left h16, List.Nodup, List.pairwise_map]
    exact hst.imp fun hab heq => by rw [heq] at hab; exact Nat.lt_irrefl _ hab
  rw [c17_table text ms ph hne hin segs h2,
    foldl_insert_fresh (fun c : Occ => c.repl.as16) Occ.orig _ [] hnd (by simp)]
  simp only [List.nil_append]
  exact List.map_congr_left fun c hc => by rw [h16 c hc]

/-- In particular if the new text has less than 2^15 characters. -/
theorem endBefore_of_new_text {text : Text} {ms : List MatchedEntity} {ph : Text → Text} {bound : Nat}
    (hne : ∀ m ∈ ms, m.range.NonEmpty) (hin : ∀ m ∈ ms, m.range.stop ≤ text.length)
    (hr : (replaceEntities text ms ph).2.length < bound) : PlaceholdersEndBefore bound ph text ms := by
  intro segs _ h2 c hc
  obtain ⟨segs', _, h2', h3⟩ := c17_text text ms ph hne hin
  rw [occs_unique ph h2 h2'] at hc
  have := (occs_repl_ge ph segs' 0 0 c hc).2.2
  rw [h3] at hr
  omega

/-- The table is right exactly if the placeholders end before position 2^15 of the new text (of less than
2^63 characters: no string is longer). -/
theorem c17_mapping_exact (text : Text) (ms : List MatchedEntity) (ph : Text → Text)
    (hne : ∀ m ∈ ms, m.range.NonEmpty) (hin : ∀ m ∈ ms, m.range.stop ≤ text.length)
    (hph : ∀ name, ph name ≠ []) (hlen : (replaceEntities text ms ph).2.length < 9223372036854775808)
    (segs : List Seg) (hseg : origText segs = text)
    (hkept : (occs ph 0 0 segs).map (fun o => (⟨o.orig, o.name⟩ : MatchedEntity)) = dedupEntities ms) :
    (replaceEntities text ms ph).1 = (occs ph 0 0 segs).map (fun o => (o.repl, o.orig)) ↔
      ∀ c ∈ occs ph 0 0 segs, c.repl.stop < 32768 := by
  obtain ⟨segs', h1, h2, h3⟩ := c17_text text ms ph hne hin
  have hun := occs_unique ph hkept h2
  constructor
  · intro h c hc
    have hmem : c.repl ∈ (replaceEntities text ms ph).1.map Prod.fst := by
      rw [h, List.map_map]
      exact List.mem_map.2 ⟨c, hc, rfl⟩
    rw [c17_table text ms ph hne hin segs hkept] at hmem
    rcases foldl_insert_keys (fun c : Occ => c.repl.as16) Occ.orig _ [] _ hmem with hm | ⟨c', hc', he⟩
    · cases hm
    · have hle := (occs_repl_ge ph segs' 0 0 c (hun ▸ hc)).2.2
      rw [← h3] at hle
      have hstop : c.repl.stop = pos16 c'.repl.stop := by
        have := congrArg Rng.stop he
        simp only [Rng.as16] at this
        exact this
      rcases pos16_range c'.repl.stop with h | h
      · rw [hstop]; exact h
      · rw [← hstop] at h
        omega
  · intro h
    obtain ⟨segs'', _, h2', h3'⟩ := c17_mapping_partial text ms ph hne hin hph
      (fun s _ hs c hc => h c (occs_unique ph hkept hs ▸ hc))
    rw [h3', occs_unique ph hkept h2']

/-- In a debug build, for a text and placeholders of less than 2^15 characters: if the placeholders end before
position 2^15 of the new text the result is the same as in a release build, and otherwise the call panics
(instead of giving a wrong table). -/
theorem c17_debug (text : Text) (ms : List MatchedEntity) (ph : Text → Text)
    (hne : ∀ m ∈ ms, m.range.NonEmpty) (hin : ∀ m ∈ ms, m.range.stop ≤ text.length)
    (ht : text.length < 32768) (hph : ∀ m ∈ ms, (ph m.name).length < 32768) :
    (PlaceholdersEndBefore 32768 ph text ms → replaceChecked true text ms ph = .ok (replaceEntities text ms ph)) ∧
    (¬ PlaceholdersEndBefore 32768 ph text ms → replaceChecked true text ms ph = .panic) := by
  have hc := replace_chain text ms hne hin
  have hsub := (c16_sound ms).1.subset
  have hiff := replaceOverflows_iff text ph 32768 rfl ht (dedupEntities ms) ⟨[], [], 0, 0⟩
    (fun m hm => hph m (hsub hm)) hc rfl
  have hb := occs_buildSegs text ph (dedupEntities ms) 0 0 hc
  have ho : origText (buildSegs text 0 (dedupEntities ms)) = text := by
    simpa using origText_buildSegs text _ 0 hc
  unfold replaceChecked
  rw [sortByKey_of_sorted _ (c16_sound ms).2.2, Bool.true_and]
  constructor
  · intro h
    rw [if_neg]
    rw [hiff]
    rintro ⟨c, hm, hge⟩
    exact absurd (h _ ho hb c hm) (Nat.not_lt.2 hge)
  · intro h
    rw [if_pos]
    rw [hiff]
    by_contra hno
    apply h
    intro segs _ h2 c hm
    rw [occs_unique ph h2 hb] at hm
    by_contra hge
    exact hno ⟨c, hm, Nat.not_lt.1 hge⟩

/-- If both texts have less than 2^15 characters, debug and release builds give the same result, without
panic (placeholders may be empty). -/
theorem c17_no_overflow (debug : Bool) (text : Text) (ms : List MatchedEntity) (ph : Text → Text)
    (hne : ∀ m ∈ ms, m.range.NonEmpty) (hin : ∀ m ∈ ms, m.range.stop ≤ text.length)
    (ht : text.length < 32768) (hr : (replaceEntities text ms ph).2.length < 32768) :
    replaceChecked debug text ms ph = .ok (replaceEntities text ms ph) := by
  cases debug with
  | false => rfl
  | true =>
    by_cases hms : ms = []
    · subst hms; rfl
    · have hc := replace_chain text ms hne hin
      have htext := replaceFold_text text ph (dedupEntities ms) ⟨[], [], 0, 0⟩
      rw [replace_unfold text ms ph hms] at hr
      simp only [List.nil_append] at htext hr
      rw [htext] at hr
      unfold replaceChecked
      rw [sortByKey_of_sorted _ (c16_sound ms).2.2, Bool.true_and, if_neg]
      rw [replaceOverflows_iff text ph 32768 rfl ht (dedupEntities ms) ⟨[], [], 0, 0⟩
        (fun m hm => Nat.lt_of_le_of_lt (placeholder_le_replText text ph _ 0 m hm) hr) hc rfl]
      rintro ⟨c, hm, hge⟩
      have := (occs_repl_ge ph _ _ _ c hm).2.2
      simp only [List.length_nil, Nat.zero_add] at this
      omega

/-- For longer texts the range table is wrong: here the placeholder starts at 32768 in the new text, but
the table locates it far beyond the end of the new text. -/
theorem c17_mapping_counterexample :
    ∃ (text : Text) (ms : List MatchedEntity) (ph : Text → Text),
      (∀ m ∈ ms, m.range.NonEmpty) ∧ (∀ m ∈ ms, m.range.stop ≤ text.length) ∧
      (∀ name, ph name ≠ []) ∧
      ∃ p ∈ (replaceEntities text ms ph).1, (replaceEntities text ms ph).2.length < p.1.start := by
  refine ⟨List.replicate 32769 'a', [⟨⟨32768, 32769⟩, "x".toList⟩], fun _ => "%X%".toList, ?_, ?_, ?_, ?_⟩
  · intro m hm; rw [List.mem_singleton] at hm; subst hm; unfold Rng.NonEmpty; decide
  · intro m hm; rw [List.mem_singleton] at hm; subst hm
    rw [List.length_replicate]
  · intro _; show "%X%".toList ≠ []; decide
  · have hded : dedupEntities [⟨⟨32768, 32769⟩, "x".toList⟩] = [⟨⟨32768, 32769⟩, "x".toList⟩] := by
      decide
    rw [replace_unfold _ _ _ (by simp), hded]
    simp only [List.foldl_cons, List.foldl_nil, replaceStep, Map.insert, List.mem_singleton,
      exists_eq_left, List.length_append, suffixFrom, List.length_drop, List.length_replicate,
      List.length_nil]
    rw [length_substr (by rw [List.length_replicate]; decide)]
    decide

/-- In a debug build the same call panics. -/
theorem c17_overflow_counterexample :
    ∃ (text : Text) (ms : List MatchedEntity) (ph : Text → Text),
      (∀ m ∈ ms, m.range.NonEmpty) ∧ (∀ m ∈ ms, m.range.stop ≤ text.length) ∧
      (∀ name, ph name ≠ []) ∧ replaceChecked true text ms ph = .panic := by
  refine ⟨List.replicate 32769 'a', [⟨⟨32766, 32767⟩, "x".toList⟩], fun _ => "%X%".toList, ?_, ?_, ?_, ?_⟩
  · intro m hm; rw [List.mem_singleton] at hm; subst hm; unfold Rng.NonEmpty; decide
  · intro m hm; rw [List.mem_singleton] at hm; subst hm
    rw [List.length_replicate]; decide
  · intro _; show "%X%".toList ≠ []; decide
  · have hded : sortByKey (fun e => e.range.start) (dedupEntities [⟨⟨32766, 32767⟩, "x".toList⟩])
        = [⟨⟨32766, 32767⟩, "x".toList⟩] := by decide
    have hov : replaceOverflows (List.replicate 32769 'a') (fun _ => "%X%".toList) ⟨[], [], 0, 0⟩
        [⟨⟨32766, 32767⟩, "x".toList⟩] = true := by
      unfold replaceOverflows
      rw [show replaceStepOverflows (fun _ => "%X%".toList) ⟨[], [], 0, 0⟩ ⟨⟨32766, 32767⟩, "x".toList⟩ = true by
        decide +kernel]
      rfl
    unfold replaceChecked
    rw [hded, hov]
    rfl

/-- A debug build does not always notice: from position 2^16 on the casts truncate and nothing overflows. -/
theorem c17_debug_counterexample :
    ∃ (text : Text) (ms : List MatchedEntity) (ph : Text → Text),
      (∀ m ∈ ms, m.range.NonEmpty) ∧ (∀ m ∈ ms, m.range.stop ≤ text.length) ∧ (∀ name, ph name ≠ []) ∧
      ∃ new, replaceChecked true text ms ph = .ok ([(⟨0, 1⟩, ⟨65536, 65537⟩)], new) := by
  refine ⟨List.replicate 65537 'a', [⟨⟨65536, 65537⟩, "x".toList⟩], fun _ => "X".toList, ?_, ?_, ?_, ?_⟩
  · intro m hm; rw [List.mem_singleton] at hm; subst hm; unfold Rng.NonEmpty; decide
  · intro m hm; rw [List.mem_singleton] at hm; subst hm
    rw [List.length_replicate]
  · intro _; show "X".toList ≠ []; decide
  · have hded : sortByKey (fun e => e.range.start) (dedupEntities [⟨⟨65536, 65537⟩, "x".toList⟩])
        = [⟨⟨65536, 65537⟩, "x".toList⟩] := by decide
    have hov : replaceOverflows (List.replicate 65537 'a') (fun _ => "X".toList) ⟨[], [], 0, 0⟩
        [⟨⟨65536, 65537⟩, "x".toList⟩] = false := by
      unfold replaceOverflows replaceOverflows
      rw [show replaceStepOverflows (fun _ => "X".toList) ⟨[], [], 0, 0⟩ ⟨⟨65536, 65537⟩, "x".toList⟩ = false by
        decide +kernel]
      rfl
    refine ⟨(replaceEntities (List.replicate 65537 'a') [⟨⟨65536, 65537⟩, "x".toList⟩] fun _ => "X".toList).2, ?_⟩
    unfold replaceChecked
    rw [hded, hov]
    show Outcome.ok _ = _
    refine congrArg Outcome.ok (Prod.ext ?_ rfl)
    unfold replaceEntities
    rw [hded]
    simp only [List.foldl_cons, List.foldl_nil, replaceStep, Map.insert]
    decide +kernel

/-! Non-vacuity of `c17_text`, `c17_table`, `c17_mapping_partial`, `c17_mapping_exact` and `c17_debug`. -/

example : ∃ (text : Text) (ms : List MatchedEntity) (ph : Text → Text),
    2 ≤ (dedupEntities ms).length ∧
    (∀ m ∈ ms, m.range.NonEmpty) ∧ (∀ m ∈ ms, m.range.stop ≤ text.length) ∧
    (∀ name, ph name ≠ []) ∧ text.length < 32768 ∧ (replaceEntities text ms ph).2.length < 32768 ∧
    (∀ m ∈ ms, (ph m.name).length < 32768) :=
  ⟨"make two cups of hot tea".toList,
    [⟨⟨5, 8⟩, "number".toList⟩, ⟨⟨17, 20⟩, "temp".toList⟩, ⟨⟨18, 20⟩, "x".toList⟩],
    fun n => '%' :: n ++ ['%'],
    by decide, by unfold Rng.NonEmpty; decide, by decide, by intro n; simp, by decide, by decide, by decide⟩

/-- A text of any length is handled well if the entities are near its beginning. -/
example (rest : Text) : PlaceholdersEndBefore 32768 (fun n => '%' :: n ++ ['%']) ("two cups".toList ++ rest)
    [⟨⟨0, 3⟩, "number".toList⟩] := by
  intro segs _ h c hc
  rw [occs_eq_occOf, h] at hc
  have hded : dedupEntities [⟨⟨0, 3⟩, "number".toList⟩] = [⟨⟨0, 3⟩, "number".toList⟩] := by decide
  rw [hded] at hc
  simp only [occOf, List.mem_singleton] at hc
  subst hc
  decide

example : replaceEntities "make two cups of hot tea".toList
    [⟨⟨17, 20⟩, "temp".toList⟩, ⟨⟨5, 8⟩, "number".toList⟩] (fun n => '%' :: n ++ ['%'])
    = ([(⟨5, 13⟩, ⟨5, 8⟩), (⟨22, 28⟩, ⟨17, 20⟩)], "make %number% cups of %temp% tea".toList) := by
  decide +kernel

end Snips
