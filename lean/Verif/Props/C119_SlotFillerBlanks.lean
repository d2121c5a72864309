import Verif.Proofs.Blanks
import Verif.Spec.BlanksRead

/-! C119: further blanks in a query do not change what the slot filler reads in it. -/

namespace Snips

/-- `get_slots`: with `n + 1` further blanks in front of the query, behind it, or at a blank in it, the slot filler finds the
same slots, each at its place in the longer query, if the slots of the shorter query are beside this place. -/
theorem c119_get_slots (codec : TagCodec) (f : SlotFiller) (htok : ∀ t, Tokenized t (f.fns.tokenize t))
    (hbytes : ∀ t, BytesAgree t (f.fns.tokenize t)) (hap : f.fns.TokensApart) (w : World) (x : Spot) (n : Nat)
    (hm : w.SameMatches x (List.replicate n ' ')) (hp : f.fns.Plain x.short) (out : List InternalSlot)
    (h : (f.getSlots codec x.short).run w = .ok out) (hb : ∀ s ∈ out, x.Beside s.charRange) :
    (f.getSlots codec (x.long (List.replicate n ' '))).run w
      = .ok (out.map (InternalSlot.moved x (List.replicate n ' '))) := by
  have hmv := Blanks.tokens_moved htok hap x n
  unfold SlotFiller.getSlots at h ⊢
  split at h
  · next tagger os ht ho =>
    simp only [nil_iff_forall₂ hmv] at h
    split at h
    · next hn =>
      rw [if_pos hn]
      cases h
      rfl
    · next hn =>
      rw [if_neg hn]
      have hn' : f.fns.tokenize x.short ≠ [] := fun h => hn ((nil_iff_forall₂ hmv) ▸ h)
      obtain ⟨T, hT, hw⟩ := Blanks.rebuilt htok hap hp hm hn'
      have hT' := Blanks.rebuilt_plain htok hp hn'
      rw [Blanks.bind_run] at h ⊢
      obtain ⟨features, h1, h2⟩ := h
      unfold computeFeatures at h1 ⊢
      rw [hmv.length_eq] at h1
      refine ⟨features, Blanks.offsetters_moved hmv f.fns (fun g i v => Blanks.feature_moved hmv f.fns
        (fun _ => ⟨hT', hT⟩) (fun _ => hw) i g) _ _ _ h1, ?_⟩
      rw [Prog.run_ofOutcome] at h2 ⊢
      simp only [tagsToSlots, Outcome.bind_eq, Outcome.bind_ok] at h2 ⊢
      obtain ⟨enc, e1, tags, e2, ranges, e3, e4⟩ := h2
      have hr : ∃ ranges', tagsToSlotRanges (f.fns.tokenize (x.long (List.replicate n ' '))) tags f.scheme = .ok ranges' ∧
          List.Forall₂ (Blanks.MovedRange x n) ranges ranges' := by
        revert e3
        cases f.scheme <;> exact Blanks.tagsLoop_moved hmv (hbytes _) (hbytes _) _ _ _ _ _ _ _
      obtain ⟨ranges', e5, e6⟩ := hr
      exact ⟨enc, e1, tags, e2, ranges', e5, Blanks.slots_moved e6 e4 hb⟩
  · next hno =>
    cases h
    rfl

/-- The features of the tokens, which is all the tagger gets to see, are the same. -/
theorem c119_features (f : SlotFiller) (htok : ∀ t, Tokenized t (f.fns.tokenize t)) (hap : f.fns.TokensApart) (w : World)
    (x : Spot) (n : Nat) (hm : w.SameMatches x (List.replicate n ' ')) (hp : f.fns.Plain x.short)
    (features : List (List (Text × Text))) (h : (f.computeFeatures x.short).run w = .ok features) :
    (f.computeFeatures (x.long (List.replicate n ' '))).run w = .ok features := by
  have hmv := Blanks.tokens_moved htok hap x n
  unfold SlotFiller.computeFeatures at h ⊢
  simp only [nil_iff_forall₂ hmv] at h
  simp only
  split at h
  · next hn => rw [if_pos hn]; exact h
  · next hn =>
    rw [if_neg hn]
    have hn' : f.fns.tokenize x.short ≠ [] := fun h => hn ((nil_iff_forall₂ hmv) ▸ h)
    obtain ⟨T, hT, hw⟩ := Blanks.rebuilt htok hap hp hm hn'
    have hT' := Blanks.rebuilt_plain htok hp hn'
    split at h
    · next os ho =>
      unfold Snips.computeFeatures at h ⊢
      rw [hmv.length_eq] at h
      exact Blanks.offsetters_moved hmv f.fns (fun g i v => Blanks.feature_moved hmv f.fns
        (fun _ => ⟨hT', hT⟩) (fun _ => hw) i g) _ _ _ h
    · next ho =>
      rw [← h]
      simp [hmv.length_eq]

/-! Non-vacuity: `make two tea` and `make   two tea`. -/

/-- Text functions of the examples, with the ranges of tokens in bytes. -/
def byteFns : TextFns :=
  { ruleFns with tokenize := fun t => (ruleFns.tokenize t).map fun k =>
      ⟨k.value, ⟨byteLen (t.take k.charRange.start), byteLen (t.take k.charRange.stop)⟩, k.charRange⟩ }

theorem byteFns_tokenized (t : Text) : Tokenized t (byteFns.tokenize t) := by
  have h := ruleFns_tokenized t
  refine ⟨?_, ?_, ?_, ?_⟩
  · intro tok ht
    obtain ⟨k, hk, rfl⟩ := List.mem_map.1 ht
    exact h.nonempty k hk
  · intro tok ht
    obtain ⟨k, hk, rfl⟩ := List.mem_map.1 ht
    exact h.inside k hk
  · intro tok ht
    obtain ⟨k, hk, rfl⟩ := List.mem_map.1 ht
    exact h.value k hk
  · exact List.pairwise_map.2 h.ordered

theorem byteFns_bytes (t : Text) : BytesAgree t (byteFns.tokenize t) := by
  have h := ruleFns_tokenized t
  intro tok ht
  obtain ⟨k, hk, rfl⟩ := List.mem_map.1 ht
  have h1 := h.nonempty k hk
  have h2 := h.inside k hk
  unfold Rng.NonEmpty at h1
  exact ⟨⟨by simp only; omega, (byteLen_eq _).symm⟩, h2, (byteLen_eq _).symm⟩

theorem byteFns_apart : byteFns.TokensApart := by
  intro a b
  have := demoEnv_tokens_apart a b
  simp only [byteFns, List.map_map]
  exact this

/-- Numbers are tagged as counts. -/
def countFiller : SlotFiller where
  fns := byteFns
  scheme := .bio
  tagger := some ⟨fun fs => .ok (fs.map fun l => if l.any (fun e => e.1 = "builtin_entity_match_snips/number".toList)
    then "B-count".toList else "O".toList), .ok [], fun _ _ => .ok 0⟩
  processor := some [⟨.builtinEntityMatch 0 "snips/number".toList .bio, [0]⟩, ⟨.ngram 1 none none, [-1, 0, 1]⟩]
  mapping := [("count".toList, "snips/number".toList)]

theorem countFiller_wordWise : countFiller.WordWise := ⟨byteFns_tokenized, byteFns_bytes, byteFns_apart⟩

theorem countFiller_plain : countFiller.fns.Plain "make two tea".toList := by
  constructor
  · decide +kernel
  · intro i c hi hno
    have hlen : i < 12 := by
      have := (List.getElem?_eq_some_iff.1 hi).1
      simpa using this
    simp only [Rng.Has] at hno
    revert c
    have : ∀ i < 12, (∀ tok ∈ countFiller.fns.tokenize "make two tea".toList, ¬ (tok.charRange.start ≤ i ∧ i < tok.charRange.stop)) →
        "make two tea".toList[i]? = some ' ' := by decide +kernel
    intro c hi
    have h := this i hlen hno
    rw [h] at hi
    exact (Option.some.inj hi).symm

theorem ruleWorld_sameMatches_blanks : ruleWorld.SameMatches (.between "make".toList "two tea".toList) (List.replicate 1 ' ') :=
  InsertedEngine.sameMatches ruleWorld_sameFindings_blanks

example : (countFiller.getSlots ⟨id, .ok⟩ "make   two tea".toList).run ruleWorld
    = .ok [⟨"two".toList, ⟨7, 10⟩, "snips/number".toList, "count".toList⟩] :=
  c119_get_slots ⟨id, .ok⟩ countFiller byteFns_tokenized byteFns_bytes byteFns_apart ruleWorld
    (.between "make".toList "two tea".toList) 1 ruleWorld_sameMatches_blanks countFiller_plain
    [⟨"two".toList, ⟨5, 8⟩, "snips/number".toList, "count".toList⟩] (by decide +kernel) (by simp [Spot.Beside])

end Snips
