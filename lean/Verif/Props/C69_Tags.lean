import Verif.Proofs.Base64
import Verif.Spec.Parsers
import Verif.Props.C26_Tags
import Verif.Props.C29_Features
import Verif.Props.C01_Engine

/-! # C69: what the tagger says is what the slots are -/

namespace Snips

theorem encodeUtf8_bytes (t : Text) : ∀ b ∈ encodeUtf8 t, b < 256 := by
  intro b hb
  obtain ⟨c, _, hc⟩ := List.mem_flatMap.1 hb
  have hv := char_bound c
  unfold encodeChar at hc
  split at hc
  · simp only [List.mem_singleton] at hc; omega
  split at hc
  · simp only [List.mem_cons, List.not_mem_nil, or_false] at hc; omega
  split at hc
  · simp only [List.mem_cons, List.not_mem_nil, or_false] at hc; omega
  · simp only [List.mem_cons, List.not_mem_nil, or_false] at hc; omega

/-- C69: the encoded form of a tag is the base64 encoding of its UTF-8 bytes. -/
theorem c69_encoding (tag : Text) : IsBase64 (encodeUtf8 tag) (encodeTag tag) :=
  encodeBase64_spec _ (encodeUtf8_bytes tag)

/-- C69: it is made of ASCII characters, none of which is a separator or a line end, whatever the tag is. -/
theorem c69_ascii (tag : Text) : ∀ c ∈ encodeTag tag, c ∈ base64Alphabet ∨ c = '=' := by
  intro c hc
  obtain ⟨digits, chars, pad, h1, h2, -⟩ := c69_encoding tag
  rw [h2] at hc
  rcases List.mem_append.1 hc with hc | hc
  · left
    obtain ⟨k, hk, rfl⟩ := List.mem_iff_getElem.1 hc
    have := h1.get (h1.length_eq ▸ hk) hk
    exact List.mem_of_getElem? this
  · exact Or.inr (List.eq_of_mem_replicate hc)

/-- C69: decoding the encoded form of a tag gives the tag back, so that different tags have different encoded forms. -/
theorem c69_round_trip (other : Text → Outcome (List Nat)) (tag : Text) : decodeTag other (encodeTag tag) = .ok tag := by
  unfold decodeTag encodeTag
  rw [decodeBase64_encode _ (encodeUtf8_bytes tag)]
  simp only [utf8OrErr, decodeUtf8_encode]

/-- C69: a text in canonical form is decoded to the tag of which it is the encoded form, and to an error if there is no
such tag. -/
theorem c69_decode (other : Text → Outcome (List Nat)) (text : Text) (bytes : List Nat) (hb : ∀ b ∈ bytes, b < 256)
    (h : text = encodeBase64 bytes) :
    (∃ tag, decodeTag other text = .ok tag ∧ encodeTag tag = text) ∨
      (∃ e, decodeTag other text = .err e) ∧ ∀ tag, encodeTag tag ≠ text := by
  subst h
  unfold decodeTag
  rw [decodeBase64_encode _ hb]
  simp only [utf8OrErr]
  cases hd : decodeUtf8 bytes with
  | some tag =>
    left
    exact ⟨tag, rfl, by rw [encodeTag, ← decodeUtf8_iff.1 hd]⟩
  | none =>
    right
    refine ⟨⟨_, rfl⟩, fun tag htag => ?_⟩
    have h1 := decodeBase64_encode _ hb
    rw [← htag, encodeTag, decodeBase64_encode _ (encodeUtf8_bytes tag)] at h1
    injection h1 with h1
    rw [← h1, decodeUtf8_encode] at hd
    cases hd

theorem decode_encoded (other : Text → Outcome (List Nat)) (tags : List Text) :
    mapOutcome (base64Codec other).decode (tags.map encodeTag) = .ok tags := by
  rw [mapOutcome_ok_iff]
  induction tags with
  | nil => exact List.Forall₂.nil
  | cons t tags ih => exact List.Forall₂.cons (c69_round_trip other t) ih

/-- C69: if the tagger labels the tokens of the sentence, one by one, with the encoded tags of a segmentation of
them, the answer of the slot filler is that segmentation: for each of its pieces, in order, a slot with its name, the
entity its name is mapped to, the characters from its first to its last token, and the text of the sentence there. -/
theorem c69_slots (other : Text → Outcome (List Nat)) (f : SlotFiller) (w : World) (text : Text) (tagger : Tagger)
    (os : List Offsetter) (features : List (List (Text × Text))) (segs : List TagSeg)
    (ht : f.tagger = some tagger) (hp : f.processor = some os) (htok : TokenizerOk f.fns)
    (hf : (f.computeFeatures text).run w = .ok features)
    (htag : tagger.tag features = .ok ((encodeTags f.scheme segs).map encodeTag))
    (hn : (segs.map TagSeg.len).sum = (f.fns.tokenize text).length)
    (hadj : f.scheme = .io → NoAdjacentSlots segs)
    (hmap : ∀ s ∈ segSpans 0 segs, ∃ e, f.mapping.get s.name = some e) :
    ∃ slots, (f.getSlots (base64Codec other) text).run w = .ok slots ∧
      List.Forall₂ (fun (s : Span) (o : InternalSlot) =>
        ∃ a b, (f.fns.tokenize text)[s.first]? = some a ∧ (f.fns.tokenize text)[s.last]? = some b ∧
          o.slotName = s.name ∧ f.mapping.get s.name = some o.entity ∧
          o.charRange = ⟨a.charRange.start, b.charRange.stop⟩ ∧
          o.value = (text.drop a.charRange.start).take (b.charRange.stop - a.charRange.start))
        (segSpans 0 segs) slots := by
  have hT := htok text
  have hdecode : ∃ ranges, tagsToSlotRanges (f.fns.tokenize text) (encodeTags f.scheme segs) f.scheme = .ok ranges ∧
      List.Forall₂ (IsSpan (f.fns.tokenize text)) (segSpans 0 segs) ranges := by
    cases hs : f.scheme with
    | io => exact c26_io _ segs (hadj hs) hn
    | bio => exact c26_bio _ segs hn
    | bilou => exact c26_bilou _ segs hn
  obtain ⟨ranges, hr1, hr2⟩ := hdecode
  obtain ⟨slots, hs1, hs2⟩ := c28_slot text _ _ f.scheme f.mapping _ ranges hT.2 hT.1.ordered
    (fun tok htm => Nat.le_of_lt (hT.1.nonempty tok htm)) hr2 hr1
    (fun s hs => (segSpans_bounds segs 0 s hs).2.1) hmap
  refine ⟨slots, ?_, hs2⟩
  unfold SlotFiller.computeFeatures at hf
  rw [hp] at hf
  unfold SlotFiller.getSlots
  rw [ht, hp]
  simp only at hf ⊢
  by_cases htoks : f.fns.tokenize text = []
  · rw [if_pos htoks]
    rw [htoks, List.length_nil] at hn
    cases segs with
    | nil => cases hs2; rfl
    | cons seg segs =>
      simp only [List.map_cons, List.sum_cons] at hn
      cases seg <;> simp only [TagSeg.len] at hn <;> omega
  · rw [if_neg htoks] at hf ⊢
    rw [Prog.run_bind, hf]
    simp only [Outcome.bind, Prog.run_ofOutcome, htag, bind, decode_encoded, hs1]

/-- C69: whatever the tagger answers, the slots returned are token spans that do not overlap, cover exactly the tokens
whose decoded tag is not the outside tag, and are named by their tags (in the BIO scheme, if the tags are BIO tags). -/
theorem c69_any_answer (codec : TagCodec) (f : SlotFiller) (w : World) (text : Text) (tagger : Tagger)
    (os : List Offsetter) (features : List (List (Text × Text))) (encoded tags : List Text) (slots : List InternalSlot)
    (ht : f.tagger = some tagger) (hp : f.processor = some os) (htok : TokenizerOk f.fns)
    (hne : f.fns.tokenize text ≠ [])
    (hf : (f.computeFeatures text).run w = .ok features) (htag : tagger.tag features = .ok encoded)
    (hdec : List.Forall₂ (fun e t => codec.decode e = .ok t) encoded tags)
    (hn : tags.length = (f.fns.tokenize text).length) (hbio : f.scheme = .bio → ∀ t ∈ tags, BioTag t)
    (h : (f.getSlots codec text).run w = .ok slots) :
    ∃ spans, WellFormedSpans tags spans ∧ List.Forall₂ (fun (s : Span) (o : InternalSlot) =>
        ∃ a b, (f.fns.tokenize text)[s.first]? = some a ∧ (f.fns.tokenize text)[s.last]? = some b ∧
          o.slotName = s.name ∧ f.mapping.get s.name = some o.entity ∧
          o.charRange = ⟨a.charRange.start, b.charRange.stop⟩ ∧
          o.value = (text.drop a.charRange.start).take (b.charRange.stop - a.charRange.start)) spans slots := by
  have hT := htok text
  have hdecode : ∃ spans ranges, tagsToSlotRanges (f.fns.tokenize text) tags f.scheme = .ok ranges ∧
      List.Forall₂ (IsSpan (f.fns.tokenize text)) spans ranges ∧ WellFormedSpans tags spans := by
    by_cases hs : f.scheme = .bio
    · rw [hs]
      exact c27_bio _ _ (le_of_eq hn) (hbio hs)
    · exact c27_io_bilou _ hs _ _ (le_of_eq hn)
  obtain ⟨spans, ranges, hr1, hr2, hwf⟩ := hdecode
  unfold SlotFiller.computeFeatures at hf
  rw [hp] at hf
  unfold SlotFiller.getSlots at h
  rw [ht, hp] at h
  simp only at hf h
  rw [if_neg hne] at hf h
  rw [Prog.run_bind, hf] at h
  simp only [Outcome.bind, Prog.run_ofOutcome, htag, bind, mapOutcome_ok_iff.2 hdec] at h
  have hmap : ∀ s ∈ spans, ∃ e, f.mapping.get s.name = some e := by
    unfold tagsToSlots at h
    rw [hr1] at h
    have h' := mapOutcome_ok_iff.1 h
    intro s hs
    obtain ⟨k, hk, rfl⟩ := List.mem_iff_getElem.1 hs
    have hk' : k < ranges.length := hr2.length_eq ▸ hk
    have h1 := hr2.get hk hk'
    have h2 := h'.get hk' (h'.length_eq ▸ hk')
    simp only [List.get_eq_getElem] at h1 h2
    unfold slotRangeToSlot at h2
    obtain ⟨v, -, h3⟩ := Outcome.bind_ok_iff'.1 h2
    obtain ⟨e, he, -⟩ := Outcome.bind_ok_iff'.1 h3
    rw [h1.1] at he
    cases hg : f.mapping.get spans[k].name with
    | some e => exact ⟨e, rfl⟩
    | none => rw [hg] at he; cases he
  obtain ⟨slots', hs1, hs2⟩ := c28_slot text _ _ f.scheme f.mapping spans ranges hT.2 hT.1.ordered
    (fun tok htm => Nat.le_of_lt (hT.1.nonempty tok htm)) hr2 hr1 (fun s hs => (hwf.nonempty s hs).1) hmap
  rw [hs1] at h
  injection h with h
  subst h
  exact ⟨spans, hwf, hs2⟩

/-- C69: the labels a tagger is asked about are its own: if they are the encoded forms of some tags, as many labels as
tags are handed to it, each of them among those it has; a tag it knows is handed over in its encoded form. -/
theorem c69_query (other : Text → Outcome (List Nat)) (f : SlotFiller) (w : World) (toks : List Token)
    (tags : List Text) (tagger : Tagger) (os : List Offsetter) (features : List (List (Text × Text))) (labels : List Text)
    (ht : f.tagger = some tagger) (hp : f.processor = some os)
    (hf : (computeFeatures f.fns os toks).run w = .ok features)
    (hl : tagger.labels = .ok (labels.map encodeTag)) (hne : labels ≠ []) :
    ∃ query, (f.getSequenceProbability (base64Codec other) toks tags).run w = tagger.probability features query ∧
      List.Forall₂ (fun tag q => q ∈ labels.map encodeTag ∧ (tag ∈ labels → q = encodeTag tag) ∧
        (tag ∉ labels → ['O'] ∈ labels → q = encodeTag ['O'])) tags query := by
  obtain ⟨query, h1, h2⟩ := c33_query (base64Codec other) f w toks tags tagger os features _ labels ht hp hf hl
    (mapOutcome_ok_iff.1 (decode_encoded other labels)) hne
  refine ⟨query.map encodeTag, h1, ?_⟩
  rw [List.forall₂_map_right_iff]
  exact h2.imp fun tag q hq => ⟨List.mem_map_of_mem hq.1, fun h => by rw [hq.2.1 h],
    fun hn ho => by rw [hq.2.2 hn ho]⟩

/-! ## The hypotheses can be met -/

example : encodeTag "B-ville_é".toList = "Qi12aWxsZV/DqQ==".toList := by decide +kernel

example (other : Text → Outcome (List Nat)) : decodeTag other "Qi12aWxsZV/DqQ==".toList = .ok "B-ville_é".toList := by
  rw [show "Qi12aWxsZV/DqQ==".toList = encodeTag "B-ville_é".toList by decide +kernel]
  exact c69_round_trip other _

/-- Bytes that are not UTF-8. -/
example (other : Text → Outcome (List Nat)) : ∃ e, decodeTag other "/w==".toList = .err e := ⟨.external 310, by
  unfold decodeTag
  rw [show decodeBase64 "/w==".toList = some [255] by decide +kernel]
  rfl⟩

/-- A tagger that finds a slot in the last two of three tokens. -/
def cityTagger : Tagger where
  tag := fun _ => .ok ((encodeTags .bio [.out, .slot "city".toList 1]).map encodeTag)
  labels := .ok (["B-city".toList, "I-city".toList, "O".toList].map encodeTag)
  probability := fun _ tags => .ok (if tags = [encodeTag "O".toList] then 1 else 0)

example : (SlotFiller.getSlots (base64Codec fun _ => .err (.external 0))
    ⟨demoFns, .bio, some cityTagger, some [⟨.isFirst, [0]⟩], [("city".toList, "place".toList)]⟩ "né à Köln".toList).run demoWorld
    = .ok [⟨"à Köln".toList, ⟨3, 9⟩, "place".toList, "city".toList⟩] := by decide +kernel

/-- A slot filler that tags the only token of a text. -/
def wholeTextFiller : SlotFiller where
  fns := wholeTextFns
  scheme := .bilou
  tagger := some ⟨fun _ => .ok ["VS1jaXR5".toList], .ok ["VS1jaXR5".toList], fun _ _ => .ok 0⟩
  processor := some [⟨.isFirst, [0]⟩]
  mapping := [("city".toList, "place".toList)]

/-- It meets the assumptions of `c69_slots` and `c69_query`. -/
example : TokenizerOk wholeTextFiller.fns := wholeTextFns_ok

example : (wholeTextFiller.computeFeatures "Köln".toList).run demoWorld = .ok [[("is_first".toList, "1".toList)]] := by
  decide +kernel

example : ["VS1jaXR5".toList] = (encodeTags wholeTextFiller.scheme [.slot "city".toList 0]).map encodeTag := by decide +kernel

example : (wholeTextFiller.fns.tokenize "Köln".toList).length = 1 := by decide +kernel

example : (segSpans 0 [.slot "city".toList 0]).map (fun s => wholeTextFiller.mapping.get s.name)
    = [some "place".toList] := by decide +kernel

end Snips
