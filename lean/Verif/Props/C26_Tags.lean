import Verif.Proofs.Tags

/-! # C26, C27, C28, C55: tag decoding and byte offsets -/

namespace Snips

theorem segSpans_bounds : ∀ (segs : List TagSeg) (i : Nat), ∀ s ∈ segSpans i segs,
    i ≤ s.first ∧ s.first ≤ s.last ∧ s.last < i + (segs.map TagSeg.len).sum
  | [], _, s, h => by simp [segSpans] at h
  | .out :: segs, i, s, h => by
    have := segSpans_bounds segs (i + 1) s h
    simp only [List.map_cons, List.sum_cons, TagSeg.len]; omega
  | .slot n m :: segs, i, s, h => by
    simp only [List.map_cons, List.sum_cons, TagSeg.len]
    rcases List.mem_cons.1 h with rfl | h
    · simp only; omega
    · have := segSpans_bounds segs (i + m + 1) s h
      omega

theorem decode_of_spans (sch : Scheme) (tokens : List Token) (tags : List Text) (segs : List TagSeg)
    (hgo : goSpans sch none 0 0 tags = segSpans 0 segs)
    (hn : (segs.map TagSeg.len).sum ≤ tokens.length) :
    ∃ slots, tagsToSlotRanges tokens tags sch = .ok slots ∧
      List.Forall₂ (IsSpan tokens) (segSpans 0 segs) slots := by
  rw [tagsToSlotRanges_eq, hgo]
  apply mapOutcome_spans
  intro s hs
  have := segSpans_bounds segs 0 s hs
  omega

/-- C26 for BIO: decoding the tags of a segmentation of the tokens gives back its slots, with their names
and their exact token spans, in order. -/
theorem c26_bio (tokens : List Token) (segs : List TagSeg)
    (hn : (segs.map TagSeg.len).sum = tokens.length) :
    ∃ slots, tagsToSlotRanges tokens (encodeTags .bio segs) .bio = .ok slots ∧
      List.Forall₂ (IsSpan tokens) (segSpans 0 segs) slots :=
  decode_of_spans _ _ _ _ (go_bio segs none 0 0) (le_of_eq hn)

/-- C26 for BILOU. -/
theorem c26_bilou (tokens : List Token) (segs : List TagSeg)
    (hn : (segs.map TagSeg.len).sum = tokens.length) :
    ∃ slots, tagsToSlotRanges tokens (encodeTags .bilou segs) .bilou = .ok slots ∧
      List.Forall₂ (IsSpan tokens) (segSpans 0 segs) slots :=
  decode_of_spans _ _ _ _ (go_bilou segs none 0 0) (le_of_eq hn)

/-- C26 for IO, when no two slots are adjacent. -/
theorem c26_io (tokens : List Token) (segs : List TagSeg) (hadj : NoAdjacentSlots segs)
    (hn : (segs.map TagSeg.len).sum = tokens.length) :
    ∃ slots, tagsToSlotRanges tokens (encodeTags .io segs) .io = .ok slots ∧
      List.Forall₂ (IsSpan tokens) (segSpans 0 segs) slots :=
  decode_of_spans _ _ _ _ (go_io segs hadj none 0 0 (fun _ _ _ _ _ h => by cases h)) (le_of_eq hn)

/-- C26: the tags of a slot are the prefixes the code's own encoder gives to its token positions, put
before the name: the `k`-th token of a slot over the tokens `i, …, i + m`. -/
theorem c26_encoder (sch : Scheme) (n : Text) (m i k : Nat) (hk : k ≤ m) :
    ∃ p, getSchemePrefix (i + k) (List.range' i (m + 1)) sch = .ok p ∧
      ((TagSeg.slot n m).tags sch)[k]? = some (p ++ n) := by
  cases sch with
  | io =>
    refine ⟨insidePrefix, rfl, ?_⟩
    simp only [TagSeg.tags]
    rw [List.getElem?_replicate, if_pos (by omega)]
    rfl
  | bio =>
    simp only [getSchemePrefix, TagSeg.tags, List.range'_succ, List.getElem?_cons_zero]
    refine ⟨_, rfl, ?_⟩
    cases k with
    | zero => simp [beginningPrefix]
    | succ k =>
      rw [if_neg (by omega), List.getElem?_cons_succ, List.getElem?_replicate, if_pos (by omega)]
      rfl
  | bilou =>
    cases m with
    | zero =>
      obtain rfl : k = 0 := by omega
      exact ⟨unitPrefix, rfl, rfl⟩
    | succ m =>
      have hlen : ¬ (List.range' i (m + 1 + 1)).length = 1 := by simp
      have h0 : (List.range' i (m + 1 + 1))[0]? = some i := by simp [List.range'_succ]
      have hl : (List.range' i (m + 1 + 1)).getLast? = some (i + (m + 1)) := by
        rw [List.getLast?_eq_getElem?]
        simp
      simp only [getSchemePrefix, hlen, if_false, h0, hl, TagSeg.tags, Outcome.unwrap]
      cases k with
      | zero => exact ⟨beginningPrefix, by simp [bind, Outcome.bind], by simp [beginningPrefix]⟩
      | succ k =>
        have hk0 : ¬ i + (k + 1) = i := by omega
        by_cases hkm : k = m
        · subst hkm
          refine ⟨lastPrefix, by simp [bind, Outcome.bind], ?_⟩
          rw [List.cons_append, List.getElem?_cons_succ, List.getElem?_append_right (by simp)]
          simp [lastPrefix]
        · refine ⟨insidePrefix, by simp [bind, Outcome.bind, hkm], ?_⟩
          rw [List.cons_append, List.getElem?_cons_succ, List.getElem?_append_left (by simp; omega),
            List.getElem?_replicate, if_pos (by omega)]
          rfl

/-- IO does not separate adjacent slots: two adjacent slots decode to one, named by the second. -/
theorem c26_io_adjacent_counterexample (a b : Token) (n n' : Text) :
    tagsToSlotRanges [a, b] (encodeTags .io [.slot n 0, .slot n' 0]) .io
      = .ok [⟨n', ⟨a.range.start, b.range.stop⟩, ⟨a.charRange.start, b.charRange.stop⟩⟩] := by
  simp [encodeTags, TagSeg.tags, tagsToSlotRanges, tagsToSlotsLoop, isStartOfIoSlot, isEndOfIoSlot,
    isOutside, outside, tagNameToSlotName, suffixFrom, bind, Outcome.bind]

theorem c27_of_tagOk (sch : Scheme) (tokens : List Token) (tags : List Text)
    (hn : tags.length ≤ tokens.length) (hok : ∀ t ∈ tags, TagOk sch t) :
    ∃ spans slots, tagsToSlotRanges tokens tags sch = .ok slots ∧
      List.Forall₂ (IsSpan tokens) spans slots ∧ WellFormedSpans tags spans := by
  have h := (go_wf sch tags none 0 0 hok).1 (Or.inl rfl)
  rw [tagsToSlotRanges_eq]
  obtain ⟨slots, h1, h2⟩ := mapOutcome_spans tokens (goSpans sch none 0 0 tags) (fun s hs => by
    have := h.nonempty s hs; omega)
  refine ⟨_, slots, h1, h2, ?_, h.ordered, ?_, ?_⟩
  · intro s hs
    have := h.nonempty s hs
    omega
  · intro i t hi
    have := h.cover i t hi
    rw [Nat.zero_add] at this
    exact this
  · intro s hs
    simpa using h.named s hs

/-- C27 for IO and BILOU: whatever the tags, the decoded slots are non-empty, disjoint, increasing token
spans covering exactly the tokens not tagged as outside. -/
theorem c27_io_bilou (sch : Scheme) (hsch : sch ≠ .bio) (tokens : List Token) (tags : List Text)
    (hn : tags.length ≤ tokens.length) :
    ∃ spans slots, tagsToSlotRanges tokens tags sch = .ok slots ∧
      List.Forall₂ (IsSpan tokens) spans slots ∧ WellFormedSpans tags spans :=
  c27_of_tagOk sch tokens tags hn (fun t _ => by cases sch <;> trivial)

/-- C27 for BIO: the same for every sequence of tags of the BIO alphabet, consistent or not. -/
theorem c27_bio (tokens : List Token) (tags : List Text)
    (hn : tags.length ≤ tokens.length) (halpha : ∀ t ∈ tags, BioTag t) :
    ∃ spans slots, tagsToSlotRanges tokens tags .bio = .ok slots ∧
      List.Forall₂ (IsSpan tokens) spans slots ∧ WellFormedSpans tags spans :=
  c27_of_tagOk .bio tokens tags hn halpha

/-- C27 has to be restricted to the alphabet for BIO: a tag `X` after `B-a` yields a second slot that
contains the first one. -/
theorem c27_bio_malformed_counterexample :
    ∃ slots, tagsToSlotRanges [⟨['a'], ⟨0, 1⟩, ⟨0, 1⟩⟩, ⟨['b'], ⟨2, 3⟩, ⟨2, 3⟩⟩]
      [['B', '-', 'a'], ['X', '-', 'a']] .bio = .ok slots ∧
      slots = [⟨['a'], ⟨0, 1⟩, ⟨0, 1⟩⟩, ⟨['a'], ⟨0, 3⟩, ⟨0, 3⟩⟩] :=
  ⟨_, by decide +kernel, rfl⟩

/-- C27: a token per tag is needed, otherwise the decoding can panic. -/
theorem c27_length_counterexample :
    tagsToSlotRanges [] [['B', '-', 'a']] .bio = .panic := by decide +kernel

/-- C28, decoded slot: the character range goes from the start of the first to the end of the last token
of the span, and the value, cut out by byte offsets, is the text at that character range.  The name and
entity are those of the tags and the mapping. -/
theorem c28_slot (text : Text) (tokens : List Token) (tags : List Text) (sch : Scheme)
    (mapping : Map Text Text) (spans : List Span) (ranges : List SlotRange)
    (hbytes : BytesAgree text tokens)
    (hord : tokens.Pairwise (fun a b => a.charRange.stop ≤ b.charRange.start))
    (hne : ∀ tok ∈ tokens, tok.charRange.start ≤ tok.charRange.stop)
    (hspans : List.Forall₂ (IsSpan tokens) spans ranges)
    (hdec : tagsToSlotRanges tokens tags sch = .ok ranges)
    (hfl : ∀ s ∈ spans, s.first ≤ s.last)
    (hmap : ∀ s ∈ spans, ∃ e, mapping.get s.name = some e) :
    ∃ slots, tagsToSlots text tokens tags sch mapping = .ok slots ∧
      List.Forall₂ (fun (s : Span) (o : InternalSlot) =>
        ∃ a b, tokens[s.first]? = some a ∧ tokens[s.last]? = some b ∧
          o.slotName = s.name ∧ mapping.get s.name = some o.entity ∧
          o.charRange = ⟨a.charRange.start, b.charRange.stop⟩ ∧
          o.value = (text.drop a.charRange.start).take (b.charRange.stop - a.charRange.start)) spans slots := by
  have hstep : ∃ slots, mapOutcome (slotRangeToSlot text mapping) ranges = .ok slots ∧
      List.Forall₂ (fun (s : Span) (o : InternalSlot) =>
        ∃ a b, tokens[s.first]? = some a ∧ tokens[s.last]? = some b ∧
          o.slotName = s.name ∧ mapping.get s.name = some o.entity ∧
          o.charRange = ⟨a.charRange.start, b.charRange.stop⟩ ∧
          o.value = (text.drop a.charRange.start).take (b.charRange.stop - a.charRange.start)) spans slots := by
    clear hdec
    induction hspans with
    | nil => exact ⟨[], rfl, List.Forall₂.nil⟩
    | @cons s r spans ranges hs hrest ih =>
      obtain ⟨slots, h1, h2⟩ := ih (fun s' h => hfl s' (List.mem_cons_of_mem _ h))
        (fun s' h => hmap s' (List.mem_cons_of_mem _ h))
      obtain ⟨hname, a, b, ha, hb, hr, hcr⟩ := hs
      obtain ⟨e, he⟩ := hmap s (by simp)
      have hab : a.charRange.start ≤ b.charRange.stop := by
        have hle := hfl s (by simp)
        rcases Nat.lt_or_eq_of_le hle with hlt | heq
        · obtain ⟨i1, e1⟩ := List.getElem?_eq_some_iff.1 ha
          obtain ⟨i2, e2⟩ := List.getElem?_eq_some_iff.1 hb
          have h3 := List.pairwise_iff_getElem.1 hord s.first s.last i1 i2 hlt
          have h4 := hne a (List.mem_of_getElem? ha)
          have h5 := hne b (List.mem_of_getElem? hb)
          rw [e1, e2] at h3
          omega
        · rw [heq, hb] at ha
          injection ha with ha
          subst ha
          exact hne _ (List.mem_of_getElem? hb)
      have hA := (hbytes a (List.mem_of_getElem? ha)).1
      have hB := (hbytes b (List.mem_of_getElem? hb)).2
      have hslice := hA.slice hB hab
      have hone : slotRangeToSlot text mapping r = .ok ⟨substr text ⟨a.charRange.start, b.charRange.stop⟩,
          r.charRange, e, r.slotName⟩ := by
        unfold slotRangeToSlot
        rw [hr, hname, hslice, he]
        rfl
      refine ⟨_, by rw [mapOutcome, hone, h1], List.Forall₂.cons ⟨a, b, ha, hb, hname, he, hcr, rfl⟩ h2⟩
  obtain ⟨slots, h1, h2⟩ := hstep
  refine ⟨slots, ?_, h2⟩
  unfold tagsToSlots
  rw [hdec]
  exact h1

/-- C28 for every returned slot, without assuming the decoding to succeed: if `tags_to_slots` returns
slots for a sensible tokenization, the text of each is the text at its character range, and its entity is
the one its name is mapped to (a slot with an unmapped name makes the decoding fail). -/
theorem c28_value (text : Text) (tokens : List Token) (tags : List Text) (sch : Scheme)
    (mapping : Map Text Text) (slots : List InternalSlot)
    (hbytes : BytesAgree text tokens)
    (h : tagsToSlots text tokens tags sch mapping = .ok slots) :
    ∀ s ∈ slots, s.charRange.stop ≤ text.length ∧ mapping.get s.slotName = some s.entity ∧
      s.value = (text.drop s.charRange.start).take (s.charRange.stop - s.charRange.start) := by
  unfold tagsToSlots at h
  rw [tagsToSlotRanges_eq] at h
  cases hr : mapOutcome (spanRange tokens) (goSpans sch none 0 0 tags) with
  | err e => rw [hr] at h; cases h
  | panic => rw [hr] at h; cases h
  | ok ranges =>
    rw [hr] at h
    have h' : mapOutcome (slotRangeToSlot text mapping) ranges = .ok slots := h
    have hF := mapOutcome_ok_iff.1 h'
    have hG := mapOutcome_ok_iff.1 hr
    intro s hs
    obtain ⟨i, hi, rfl⟩ := List.mem_iff_getElem.1 hs
    have hi' : i < ranges.length := by rw [hF.length_eq]; exact hi
    have hi'' : i < (goSpans sch none 0 0 tags).length := by rw [hG.length_eq]; exact hi'
    have e1 := hF.get hi' hi
    have e2 := hG.get hi'' hi'
    simp only [List.get_eq_getElem] at e1 e2
    unfold spanRange at e2
    split at e2
    · rename_i a b ha hb
      simp only [Outcome.ok.injEq] at e2
      have hA := (hbytes a (List.mem_of_getElem? ha)).1
      have hB := (hbytes b (List.mem_of_getElem? hb)).2
      unfold slotRangeToSlot at e1
      rw [← e2] at e1
      simp only at e1
      have hv : ∀ v, byteSlice text ⟨a.range.start, b.range.stop⟩ = .ok v →
          v = substr text ⟨a.charRange.start, b.charRange.stop⟩ := by
        intro v hv
        unfold byteSlice at hv
        simp only [hA.charBoundary, hB.charBoundary] at hv
        split at hv
        · simpa using hv.symm
        · cases hv
      cases hsl : byteSlice text ⟨a.range.start, b.range.stop⟩ with
      | err e => rw [hsl] at e1; cases e1
      | panic => rw [hsl] at e1; cases e1
      | ok v =>
        rw [hsl] at e1
        cases hm : mapping.get (goSpans sch none 0 0 tags)[i].name with
        | none =>
          simp only [hm] at e1
          cases e1
        | some e =>
          simp only [hm, bind, Outcome.bind, Outcome.ofOption, Outcome.ok.injEq] at e1
          rw [← e1]
          exact ⟨hB.1, hm, by simpa [substr] using hv v hsl⟩
    · cases e2

/-- C55: for byte offsets on character boundaries, converting them to character offsets recovers the
character offsets, and slicing by bytes gives the characters between them. -/
theorem c55_consistent (text : Text) (n m b c : Nat) (hn : AtByte text n b) (hm : AtByte text m c)
    (hnm : n ≤ m) :
    convertToCharRange text ⟨b, c⟩ = ⟨n, m⟩ ∧
      byteSlice text ⟨b, c⟩ = .ok ((text.drop n).take (m - n)) := by
  constructor
  · have h1 := hn.charIndexFrom 0 0
    have h2 := hm.charIndexFrom 0 0
    simp only [Nat.zero_add] at h1 h2
    simp [convertToCharRange, convertToCharIndex, h1, h2]
  · exact hn.slice hm hnm

/-- C55: conversely whenever cutting the bytes succeeds, cutting the characters at the converted range
gives the same text. -/
theorem c55_slice (text v : Text) (r : Rng) (h : byteSlice text r = .ok v) :
    v = (text.drop (convertToCharRange text r).start).take
      ((convertToCharRange text r).stop - (convertToCharRange text r).start) := by
  unfold byteSlice at h
  split at h
  · split at h
    · rename_i i j hi hj
      have hi' := charBoundary_atByte hi
      have hj' := charBoundary_atByte hj
      have h1 := hi'.charIndexFrom 0 0
      have h2 := hj'.charIndexFrom 0 0
      simp only [Nat.zero_add] at h1 h2
      simp only [Outcome.ok.injEq] at h
      simp only [convertToCharRange, convertToCharIndex, h1, h2]
      rw [← h]
      rfl
    · cases h
  · cases h

/-- C55: cutting fails exactly off character boundaries (or for reversed or out of bounds ranges). -/
theorem c55_defined (text : Text) (r : Rng) :
    (∃ v, byteSlice text r = .ok v) ↔
      r.start ≤ r.stop ∧ (∃ n, AtByte text n r.start) ∧ ∃ m, AtByte text m r.stop := by
  constructor
  · rintro ⟨v, h⟩
    unfold byteSlice at h
    split at h
    · rename_i hle
      split at h
      · rename_i i j hi hj
        exact ⟨hle, ⟨i, charBoundary_atByte hi⟩, ⟨j, charBoundary_atByte hj⟩⟩
      · cases h
    · cases h
  · rintro ⟨hle, ⟨n, hn⟩, m, hm⟩
    unfold byteSlice
    rw [if_pos hle, hn.charBoundary, hm.charBoundary]
    exact ⟨_, rfl⟩

/-! ## The hypotheses can be met -/

/-- Tokens of `"né à Köln"`. -/
def koelnTokens : List Token :=
  [⟨"né".toList, ⟨0, 3⟩, ⟨0, 2⟩⟩, ⟨"à".toList, ⟨4, 6⟩, ⟨3, 4⟩⟩, ⟨"Köln".toList, ⟨7, 12⟩, ⟨5, 9⟩⟩]

example : BytesAgree "né à Köln".toList koelnTokens := by
  simp only [BytesAgree, AtByte, koelnTokens]
  decide +kernel

example : koelnTokens.Pairwise (fun a b => a.charRange.stop ≤ b.charRange.start) := by
  simp only [koelnTokens]; decide +kernel

/-- A segmentation with two adjacent slots, one of two tokens. -/
example : (([.slot "from".toList 0, .slot "city".toList 1] : List TagSeg).map TagSeg.len).sum
    = koelnTokens.length := by decide

example : NoAdjacentSlots [.slot "from".toList 0, .out, .slot "city".toList 0] := by
  simp [NoAdjacentSlots]

example : tagsToSlots "né à Köln".toList koelnTokens
    [['O'], "B-city".toList, "I-city".toList] .bio [("city".toList, "town".toList)]
    = .ok [⟨"à Köln".toList, ⟨3, 9⟩, "town".toList, "city".toList⟩] := by decide +kernel

example : ∀ t ∈ ([['O'], "I-city".toList, "B-city".toList] : List Text), BioTag t := by
  intro t ht
  simp only [List.mem_cons, List.not_mem_nil, or_false] at ht
  rcases ht with rfl | rfl | rfl
  · exact Or.inl rfl
  · exact Or.inr (Or.inr ⟨"city".toList, rfl⟩)
  · exact Or.inr (Or.inl ⟨"city".toList, rfl⟩)

example : AtByte "né à".toList 4 6 ∧ AtByte "né à".toList 2 3 := by
  simp only [AtByte]; decide +kernel

end Snips
