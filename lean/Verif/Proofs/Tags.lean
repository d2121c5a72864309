import Verif.Proofs.Bytes
import Verif.Proofs.Prog

/-! Lemmas on tag decoding. -/

namespace Snips

/-- Start of a slot, from the previous tag and the tag. -/
def startP : Scheme → Option Text → Text → Bool
  | .io, prev, t => if t = outside then false else match prev with
    | none => true
    | some p => p = outside
  | .bio, prev, t => if t = outside then false else match prev with
    | none => true
    | some p => beginningPrefix.isPrefixOf t || decide (p = outside)
  | .bilou, prev, t => if t = outside then false else match prev with
    | none => true
    | some p => beginningPrefix.isPrefixOf t || unitPrefix.isPrefixOf t || unitPrefix.isPrefixOf p
      || lastPrefix.isPrefixOf p || decide (p = outside)

/-- End of a slot, from the tag and the next tag. -/
def endP : Scheme → Text → Option Text → Bool
  | .io, t, next => if t = outside then false else match next with
    | none => true
    | some q => q = outside
  | .bio, t, next => if t = outside then false else match next with
    | none => true
    | some q => !insidePrefix.isPrefixOf q
  | .bilou, t, next => if t = outside then false else match next with
    | none => true
    | some q => decide (q = outside) || lastPrefix.isPrefixOf t || unitPrefix.isPrefixOf t
      || beginningPrefix.isPrefixOf q || unitPrefix.isPrefixOf q

/-- The start predicate of the code. -/
def isStartOf : Scheme → List Text → Nat → Bool
  | .io => isStartOfIoSlot
  | .bio => isStartOfBioSlot
  | .bilou => isStartOfBilouSlot

/-- The end predicate of the code. -/
def isEndOf : Scheme → List Text → Nat → Bool
  | .io => isEndOfIoSlot
  | .bio => isEndOfBioSlot
  | .bilou => isEndOfBilouSlot

theorem isStartOf_eq (sch : Scheme) (pre : List Text) (t : Text) (rest : List Text) :
    isStartOf sch (pre ++ t :: rest) pre.length = startP sch pre.getLast? t := by
  have h0 : (pre ++ t :: rest)[pre.length]? = some t := by simp
  have ho : isOutside (pre ++ t :: rest) pre.length = decide (t = outside) := by
    unfold isOutside; rw [h0]; simp [beq_eq_decide]
  have hp : ∀ p, hasPrefix (pre ++ t :: rest) pre.length p = p.isPrefixOf t := by
    intro p; unfold hasPrefix; rw [h0]
  rcases List.eq_nil_or_concat pre with rfl | ⟨pre', q, rfl⟩
  · cases sch <;> simp only [isStartOf, isStartOfIoSlot, isStartOfBioSlot, isStartOfBilouSlot, startP,
      List.length_nil, if_true, List.getLast?_nil] <;>
    · simp only [List.length_nil] at ho
      rw [ho]
      by_cases h : t = outside <;> simp [h]
  · rw [List.concat_eq_append] at *
    have hl : (pre' ++ [q]).length ≠ 0 := by simp
    have hi : (pre' ++ [q]).length - 1 = pre'.length := by simp
    have h1 : (pre' ++ [q] ++ t :: rest)[pre'.length]? = some q := by simp
    have ho' : isOutside (pre' ++ [q] ++ t :: rest) pre'.length = decide (q = outside) := by
      unfold isOutside; rw [h1]; simp [beq_eq_decide]
    have hp' : ∀ p, hasPrefix (pre' ++ [q] ++ t :: rest) pre'.length p = p.isPrefixOf q := by
      intro p; unfold hasPrefix; rw [h1]
    cases sch <;> simp only [isStartOf, isStartOfIoSlot, isStartOfBioSlot, isStartOfBilouSlot, startP,
      hl, if_false, ho, hp, hi, ho', hp', List.getLast?_append, List.getLast?_singleton,
      Option.some_or] <;>
    · by_cases h : t = outside
      · simp [h]
      · simp only [h, decide_false, Bool.false_eq_true, if_false]
        try (split <;> simp_all)

theorem isEndOf_eq (sch : Scheme) (pre : List Text) (t : Text) (rest : List Text) :
    isEndOf sch (pre ++ t :: rest) pre.length = endP sch t rest.head? := by
  have h0 : (pre ++ t :: rest)[pre.length]? = some t := by simp
  have ho : isOutside (pre ++ t :: rest) pre.length = decide (t = outside) := by
    unfold isOutside; rw [h0]; simp [beq_eq_decide]
  have hp : ∀ p, hasPrefix (pre ++ t :: rest) pre.length p = p.isPrefixOf t := by
    intro p; unfold hasPrefix; rw [h0]
  cases rest with
  | nil =>
    have hl : pre.length + 1 = (pre ++ [t]).length := by simp
    cases sch <;> simp only [isEndOf, isEndOfIoSlot, isEndOfBioSlot, isEndOfBilouSlot, endP,
      ← hl, if_true, List.head?_nil, ho] <;>
    · by_cases h : t = outside <;> simp [h]
  | cons q rest =>
    have hl : ¬ pre.length + 1 = (pre ++ t :: q :: rest).length := by simp
    have h1 : (pre ++ t :: q :: rest)[pre.length + 1]? = some q := by
      rw [List.getElem?_append_right (by omega)]
      simp
    have ho' : isOutside (pre ++ t :: q :: rest) (pre.length + 1) = decide (q = outside) := by
      unfold isOutside; rw [h1]; simp [beq_eq_decide]
    have hp' : ∀ p, hasPrefix (pre ++ t :: q :: rest) (pre.length + 1) p = p.isPrefixOf q := by
      intro p; unfold hasPrefix; rw [h1]
    cases sch <;> simp only [isEndOf, isEndOfIoSlot, isEndOfBioSlot, isEndOfBilouSlot, endP,
      hl, if_false, List.head?_cons, ho, hp, ho', hp'] <;>
    · by_cases h : t = outside <;> simp [h]

/-- The token spans found by the decoding loop. -/
def goSpans (sch : Scheme) : Option Text → Nat → Nat → List Text → List Span
  | _, _, _, [] => []
  | prev, i, cur, t :: rest =>
    let cur := if startP sch prev t then i else cur
    if endP sch t rest.head? then ⟨t.drop 2, cur, i⟩ :: goSpans sch (some t) (i + 1) i rest
    else goSpans sch (some t) (i + 1) cur rest

/-- Turn a span in a slot range. -/
def spanRange (tokens : List Token) (s : Span) : Outcome SlotRange :=
  match tokens[s.first]?, tokens[s.last]? with
  | some a, some b => .ok ⟨s.name, ⟨a.range.start, b.range.stop⟩, ⟨a.charRange.start, b.charRange.stop⟩⟩
  | _, _ => .panic

theorem loop_eq (sch : Scheme) (tokens : List Token) : ∀ (rest pre : List Text) (cur : Nat),
    tagsToSlotsLoop (pre ++ rest) tokens (isStartOf sch) (isEndOf sch) pre.length cur rest
      = mapOutcome (spanRange tokens) (goSpans sch pre.getLast? pre.length cur rest) := by
  intro rest
  induction rest with
  | nil => intro pre cur; rfl
  | cons t rest ih =>
    intro pre cur
    have hpre : pre ++ t :: rest = (pre ++ [t]) ++ rest := by simp
    have ih1 := fun cur => ih (pre ++ [t]) cur
    rw [← hpre] at ih1
    simp only [List.length_append, List.length_cons, List.length_nil, Nat.zero_add,
      List.getLast?_append, List.getLast?_singleton, Option.some_or] at ih1
    unfold tagsToSlotsLoop goSpans
    rw [isStartOf_eq, isEndOf_eq]
    generalize (if startP sch pre.getLast? t then pre.length else cur) = cur'
    by_cases hend : endP sch t rest.head? = true
    · simp only [hend, if_true, mapOutcome, spanRange]
      cases h1 : tokens[cur']? with
      | none => simp
      | some a =>
        cases h2 : tokens[pre.length]? with
        | none => simp
        | some b =>
          simp only [ih1]
          cases mapOutcome (spanRange tokens) (goSpans sch (some t) (pre.length + 1) pre.length rest) <;> rfl
    · simp only [hend, if_false, ih1]
      rfl

theorem tagsToSlotRanges_eq (sch : Scheme) (tokens : List Token) (tags : List Text) :
    tagsToSlotRanges tokens tags sch = mapOutcome (spanRange tokens) (goSpans sch none 0 0 tags) := by
  have := loop_eq sch tokens tags [] 0
  simp only [List.nil_append, List.length_nil, List.getLast?_nil] at this
  rw [← this]
  cases sch <;> rfl

theorem mapOutcome_ok_iff {α β : Type} {f : α → Outcome β} {l : List α} {bs : List β} :
    mapOutcome f l = .ok bs ↔ List.Forall₂ (fun a b => f a = .ok b) l bs := by
  induction l generalizing bs with
  | nil =>
    simp only [mapOutcome, Outcome.ok.injEq, List.forall₂_nil_left_iff]
    exact ⟨fun h => h.symm, fun h => h.symm⟩
  | cons a l ih =>
    unfold mapOutcome
    constructor
    · intro h
      cases ha : f a with
      | ok b =>
        rw [ha] at h
        simp only at h
        cases hl : mapOutcome f l with
        | ok bs' =>
          rw [hl] at h
          simp only [Outcome.ok.injEq] at h
          subst h
          exact List.Forall₂.cons ha (ih.1 hl)
        | err e => rw [hl] at h; cases h
        | panic => rw [hl] at h; cases h
      | err e => rw [ha] at h; cases h
      | panic => rw [ha] at h; cases h
    · intro h
      cases h with
      | cons hb hbs => rw [hb, ih.2 hbs]

theorem mapOutcome_spans (tokens : List Token) (spans : List Span)
    (h : ∀ s ∈ spans, s.first < tokens.length ∧ s.last < tokens.length) :
    ∃ out, mapOutcome (spanRange tokens) spans = .ok out ∧ List.Forall₂ (IsSpan tokens) spans out := by
  induction spans with
  | nil => exact ⟨[], rfl, List.Forall₂.nil⟩
  | cons s spans ih =>
    obtain ⟨out, h1, h2⟩ := ih (fun s' hs' => h s' (List.mem_cons_of_mem _ hs'))
    obtain ⟨ha, hb⟩ := h s (by simp)
    refine ⟨_, ?_, List.Forall₂.cons (a := s) (b := ⟨s.name, ⟨tokens[s.first].range.start, tokens[s.last].range.stop⟩,
      ⟨tokens[s.first].charRange.start, tokens[s.last].charRange.stop⟩⟩) ?_ h2⟩
    · have hs : spanRange tokens s = .ok ⟨s.name, ⟨tokens[s.first].range.start, tokens[s.last].range.stop⟩,
          ⟨tokens[s.first].charRange.start, tokens[s.last].charRange.stop⟩⟩ := by
        unfold spanRange
        rw [List.getElem?_eq_getElem ha, List.getElem?_eq_getElem hb]
      rw [mapOutcome, hs, h1]
    · exact ⟨rfl, _, _, List.getElem?_eq_getElem ha, List.getElem?_eq_getElem hb, rfl, rfl⟩

/-! ## Round trip -/

theorem go_out (sch : Scheme) (prev : Option Text) (i cur : Nat) (rest : List Text) :
    goSpans sch prev i cur (outside :: rest) = goSpans sch (some outside) (i + 1) cur rest := by
  unfold goSpans
  have h1 : startP sch prev outside = false := by cases sch <;> simp [startP]
  have h2 : endP sch outside rest.head? = false := by cases sch <;> simp [endP]
  rw [h1, h2]
  simp
  cases rest <;> rfl

theorem tag_ne_outside (a : Char) (n : Text) : (a :: '-' :: n : Text) ≠ outside := by simp [outside]

/-- Inside part of a BIO slot. -/
theorem go_bio_inside (n : Text) (rest : List Text)
    (hrest : ∀ q, rest.head? = some q → insidePrefix.isPrefixOf q = false) :
    ∀ (m : Nat) (p : Text) (i cur : Nat), p ≠ outside →
    goSpans .bio (some p) i cur (List.replicate (m + 1) ('I' :: '-' :: n) ++ rest)
      = ⟨n, cur, i + m⟩ :: goSpans .bio (some ('I' :: '-' :: n)) (i + m + 1) (i + m) rest
  | 0, p, i, cur, hp => by
    simp only [Nat.zero_add, List.replicate_one, List.singleton_append]
    rw [goSpans]
    have h1 : startP .bio (some p) ('I' :: '-' :: n) = false := by
      simp [startP, tag_ne_outside, beginningPrefix, hp, List.isPrefixOf]
    have h2 : endP .bio ('I' :: '-' :: n) rest.head? = true := by
      simp only [endP, tag_ne_outside, if_false]
      cases hh : rest.head? with
      | none => rfl
      | some q => simp [hrest q hh]
    rw [h1, h2]
    simp
  | m + 1, p, i, cur, hp => by
    rw [List.replicate_succ, List.cons_append]
    rw [goSpans]
    have h1 : startP .bio (some p) ('I' :: '-' :: n) = false := by
      simp [startP, tag_ne_outside, beginningPrefix, hp, List.isPrefixOf]
    have h2 : endP .bio ('I' :: '-' :: n) (List.replicate (m + 1) ('I' :: '-' :: n) ++ rest).head? = false := by
      simp [endP, tag_ne_outside, insidePrefix, List.replicate_succ, List.isPrefixOf]
    rw [h1, h2]
    simp only [Bool.false_eq_true, if_false]
    rw [go_bio_inside n rest hrest m _ (i + 1) cur (tag_ne_outside _ _)]
    rw [show i + 1 + m = i + (m + 1) by omega]

theorem encode_head_bio (segs : List TagSeg) (q : Text)
    (h : (encodeTags .bio segs).head? = some q) : insidePrefix.isPrefixOf q = false := by
  cases segs with
  | nil => simp [encodeTags] at h
  | cons s segs =>
    cases s with
    | out =>
      simp only [encodeTags, List.flatMap_cons, TagSeg.tags, List.cons_append, List.head?_cons,
        Option.some.injEq] at h
      subst h; rfl
    | slot n m =>
      simp only [encodeTags, List.flatMap_cons, TagSeg.tags, List.cons_append, List.head?_cons,
        Option.some.injEq] at h
      subst h; simp [insidePrefix, List.isPrefixOf]

theorem go_bio (segs : List TagSeg) : ∀ (prev : Option Text) (i cur : Nat),
    goSpans .bio prev i cur (encodeTags .bio segs) = segSpans i segs := by
  induction segs with
  | nil => intro prev i cur; rfl
  | cons s segs ih =>
    intro prev i cur
    have hcons : encodeTags .bio (s :: segs) = s.tags .bio ++ encodeTags .bio segs := by
      simp [encodeTags]
    rw [hcons]
    cases s with
    | out =>
      simp only [TagSeg.tags, segSpans, List.singleton_append]
      have := go_out .bio prev i cur (encodeTags .bio segs)
      rw [show ([ 'O' ] : Text) = outside from rfl, this, ih]
    | slot n m =>
      simp only [TagSeg.tags, segSpans, List.cons_append]
      rw [goSpans]
      have h1 : startP .bio prev ('B' :: '-' :: n) = true := by
        cases prev <;> simp [startP, tag_ne_outside, beginningPrefix, List.isPrefixOf]
      rw [h1]
      simp only [if_true]
      cases m with
      | zero =>
        have h2 : endP .bio ('B' :: '-' :: n) (encodeTags .bio segs).head? = true := by
          simp only [endP, tag_ne_outside, if_false]
          cases hh : (encodeTags .bio segs).head? with
          | none => rfl
          | some q => simp [encode_head_bio segs q hh]
        simp only [List.replicate_zero, List.nil_append, h2, if_true]
        rw [ih]
        simp
      | succ m =>
        have h2 : endP .bio ('B' :: '-' :: n)
            (List.replicate (m + 1) ('I' :: '-' :: n) ++ encodeTags .bio segs).head? = false := by
          simp [endP, tag_ne_outside, insidePrefix, List.replicate_succ, List.isPrefixOf]
        rw [h2]
        simp only [Bool.false_eq_true, if_false]
        rw [go_bio_inside n _ (encode_head_bio segs) m _ (i + 1) i (tag_ne_outside _ _), ih]
        rw [show i + 1 + m = i + (m + 1) by omega]

/-- Inside part of an IO slot. -/
theorem go_io_inside (n : Text) (rest : List Text)
    (hrest : ∀ q, rest.head? = some q → q = outside) :
    ∀ (m : Nat) (p : Text) (i cur : Nat), p ≠ outside →
    goSpans .io (some p) i cur (List.replicate (m + 1) ('I' :: '-' :: n) ++ rest)
      = ⟨n, cur, i + m⟩ :: goSpans .io (some ('I' :: '-' :: n)) (i + m + 1) (i + m) rest
  | 0, p, i, cur, hp => by
    simp only [Nat.zero_add, List.replicate_one, List.singleton_append]
    rw [goSpans]
    have h1 : startP .io (some p) ('I' :: '-' :: n) = false := by
      simp [startP, tag_ne_outside, hp]
    have h2 : endP .io ('I' :: '-' :: n) rest.head? = true := by
      simp only [endP, tag_ne_outside, if_false]
      cases hh : rest.head? with
      | none => rfl
      | some q => simp [hrest q hh]
    rw [h1, h2]
    simp
  | m + 1, p, i, cur, hp => by
    rw [List.replicate_succ, List.cons_append]
    rw [goSpans]
    have h1 : startP .io (some p) ('I' :: '-' :: n) = false := by
      simp [startP, tag_ne_outside, hp]
    have h2 : endP .io ('I' :: '-' :: n) (List.replicate (m + 1) ('I' :: '-' :: n) ++ rest).head? = false := by
      simp [endP, tag_ne_outside, List.replicate_succ]
    rw [h1, h2]
    simp only [Bool.false_eq_true, if_false]
    rw [go_io_inside n rest hrest m _ (i + 1) cur (tag_ne_outside _ _)]
    rw [show i + 1 + m = i + (m + 1) by omega]

theorem go_io (segs : List TagSeg) (hadj : NoAdjacentSlots segs) : ∀ (prev : Option Text) (i cur : Nat),
    (∀ n m segs', segs = .slot n m :: segs' → ∀ p, prev = some p → p = outside) →
    goSpans .io prev i cur (encodeTags .io segs) = segSpans i segs := by
  induction segs with
  | nil => intro prev i cur _; rfl
  | cons s segs ih =>
    intro prev i cur hprev
    have hcons : encodeTags .io (s :: segs) = s.tags .io ++ encodeTags .io segs := by
      simp [encodeTags]
    rw [hcons]
    have hadj' : NoAdjacentSlots segs := by
      cases s with
      | out => exact hadj
      | slot n m =>
        cases segs with
        | nil => trivial
        | cons s' segs =>
          cases s' with
          | out => exact hadj
          | slot n' m' => exact hadj.2
    cases s with
    | out =>
      simp only [TagSeg.tags, segSpans, List.singleton_append]
      have := go_out .io prev i cur (encodeTags .io segs)
      rw [show ([ 'O' ] : Text) = outside from rfl, this]
      exact ih hadj' _ _ _ (fun _ _ _ _ p hp => by injection hp with hp; exact hp.symm)
    | slot n m =>
      have hrest : ∀ q, (encodeTags .io segs).head? = some q → q = outside := by
        intro q hq
        cases segs with
        | nil => simp [encodeTags] at hq
        | cons s' segs =>
          cases s' with
          | out =>
            simp only [encodeTags, List.flatMap_cons, TagSeg.tags, List.cons_append, List.head?_cons,
              Option.some.injEq] at hq
            exact hq.symm
          | slot n' m' => exact hadj.1.elim
      have hnext : ∀ n' m' segs', segs = TagSeg.slot n' m' :: segs' →
          ∀ p, some ('I' :: '-' :: n : Text) = some p → p = outside := by
        intro n' m' segs' hs
        rw [hs] at hadj
        exact hadj.1.elim
      simp only [TagSeg.tags, segSpans]
      rw [List.replicate_succ, List.cons_append, goSpans]
      have h1 : startP .io prev ('I' :: '-' :: n) = true := by
        cases prev with
        | none => simp [startP, tag_ne_outside]
        | some p => simp [startP, tag_ne_outside, hprev n m segs rfl p rfl]
      rw [h1]
      simp only [if_true]
      cases m with
      | zero =>
        have h2 : endP .io ('I' :: '-' :: n) (encodeTags .io segs).head? = true := by
          simp only [endP, tag_ne_outside, if_false]
          cases hh : (encodeTags .io segs).head? with
          | none => rfl
          | some q => simp [hrest q hh]
        simp only [List.replicate_zero, List.nil_append, h2, if_true]
        rw [ih hadj' _ _ _ hnext]
        simp
      | succ m =>
        have h2 : endP .io ('I' :: '-' :: n)
            (List.replicate (m + 1) ('I' :: '-' :: n) ++ encodeTags .io segs).head? = false := by
          simp [endP, tag_ne_outside, List.replicate_succ]
        rw [h2]
        simp only [Bool.false_eq_true, if_false]
        rw [go_io_inside n _ hrest m _ (i + 1) i (tag_ne_outside _ _), ih hadj' _ _ _ hnext]
        rw [show i + 1 + m = i + (m + 1) by omega]

/-- Rest of a BILOU slot after its first token. -/
theorem go_bilou_inside (n : Text) (rest : List Text) :
    ∀ (m : Nat) (p : Text) (i cur : Nat), p ≠ outside → unitPrefix.isPrefixOf p = false →
      lastPrefix.isPrefixOf p = false →
    goSpans .bilou (some p) i cur (List.replicate m ('I' :: '-' :: n) ++ ('L' :: '-' :: n) :: rest)
      = ⟨n, cur, i + m⟩ :: goSpans .bilou (some ('L' :: '-' :: n)) (i + m + 1) (i + m) rest
  | 0, p, i, cur, hp, hu, hl => by
    simp only [List.replicate_zero, List.nil_append]
    rw [goSpans]
    have h1 : startP .bilou (some p) ('L' :: '-' :: n) = false := by
      have hu' : unitPrefix.isPrefixOf ('L' :: '-' :: n) = false := by simp [unitPrefix, List.isPrefixOf]
      have hb' : beginningPrefix.isPrefixOf ('L' :: '-' :: n) = false := by
        simp [beginningPrefix, List.isPrefixOf]
      simp [startP, tag_ne_outside, hp, hu, hl, hu', hb']
    have h2 : endP .bilou ('L' :: '-' :: n) rest.head? = true := by
      simp only [endP, tag_ne_outside, if_false]
      cases rest.head? <;> simp [lastPrefix, List.isPrefixOf]
    rw [h1, h2]
    simp
  | m + 1, p, i, cur, hp, hu, hl => by
    rw [List.replicate_succ, List.cons_append]
    rw [goSpans]
    have h1 : startP .bilou (some p) ('I' :: '-' :: n) = false := by
      have hu' : unitPrefix.isPrefixOf ('I' :: '-' :: n) = false := by simp [unitPrefix, List.isPrefixOf]
      have hb' : beginningPrefix.isPrefixOf ('I' :: '-' :: n) = false := by
        simp [beginningPrefix, List.isPrefixOf]
      simp [startP, tag_ne_outside, hp, hu, hl, hu', hb']
    have h2 : endP .bilou ('I' :: '-' :: n)
        (List.replicate m ('I' :: '-' :: n) ++ ('L' :: '-' :: n) :: rest).head? = false := by
      cases m <;> simp [endP, tag_ne_outside, List.replicate_succ, beginningPrefix, unitPrefix,
        lastPrefix, List.isPrefixOf]
    rw [h1, h2]
    simp only [Bool.false_eq_true, if_false]
    rw [go_bilou_inside n rest m _ (i + 1) cur (tag_ne_outside _ _) (by simp [unitPrefix, List.isPrefixOf])
      (by simp [lastPrefix, List.isPrefixOf])]
    rw [show i + 1 + m = i + (m + 1) by omega]

theorem go_bilou (segs : List TagSeg) : ∀ (prev : Option Text) (i cur : Nat),
    goSpans .bilou prev i cur (encodeTags .bilou segs) = segSpans i segs := by
  induction segs with
  | nil => intro prev i cur; rfl
  | cons s segs ih =>
    intro prev i cur
    have hcons : encodeTags .bilou (s :: segs) = s.tags .bilou ++ encodeTags .bilou segs := by
      simp [encodeTags]
    rw [hcons]
    cases s with
    | out =>
      simp only [TagSeg.tags, segSpans, List.singleton_append]
      have := go_out .bilou prev i cur (encodeTags .bilou segs)
      rw [show ([ 'O' ] : Text) = outside from rfl, this, ih]
    | slot n m =>
      cases m with
      | zero =>
        simp only [TagSeg.tags, segSpans, List.singleton_append]
        rw [goSpans]
        have h1 : startP .bilou prev ('U' :: '-' :: n) = true := by
          cases prev <;> simp [startP, tag_ne_outside, unitPrefix, List.isPrefixOf]
        have h2 : endP .bilou ('U' :: '-' :: n) (encodeTags .bilou segs).head? = true := by
          simp only [endP, tag_ne_outside, if_false]
          cases (encodeTags .bilou segs).head? <;> simp [unitPrefix, List.isPrefixOf]
        rw [h1, h2]
        simp only [if_true]
        rw [ih]
        simp
      | succ m =>
        simp only [TagSeg.tags, segSpans, List.cons_append, List.append_assoc, List.nil_append]
        rw [goSpans]
        have h1 : startP .bilou prev ('B' :: '-' :: n) = true := by
          cases prev <;> simp [startP, tag_ne_outside, beginningPrefix, List.isPrefixOf]
        have h2 : endP .bilou ('B' :: '-' :: n)
            (List.replicate m ('I' :: '-' :: n) ++ ('L' :: '-' :: n) :: encodeTags .bilou segs).head? = false := by
          cases m <;> simp [endP, tag_ne_outside, List.replicate_succ, beginningPrefix, unitPrefix,
            lastPrefix, List.isPrefixOf]
        rw [h1, h2]
        simp only [Bool.false_eq_true, if_false, if_true]
        rw [go_bilou_inside n _ m _ (i + 1) i (tag_ne_outside _ _) (by simp [unitPrefix, List.isPrefixOf])
          (by simp [lastPrefix, List.isPrefixOf]), ih]
        rw [show i + 1 + m = i + (m + 1) by omega]

/-! ## Well-formedness -/

theorem startP_ne {sch : Scheme} {prev : Option Text} {t : Text} (h : startP sch prev t = true) :
    t ≠ outside := by
  intro ht; subst ht; cases sch <;> simp [startP] at h

theorem endP_ne {sch : Scheme} {next : Option Text} {t : Text} (h : endP sch t next = true) :
    t ≠ outside := by
  intro ht; subst ht; cases sch <;> simp [endP] at h

/-- No slot is open before the tag that follows `prev`. -/
def ClosedAt (sch : Scheme) (prev : Option Text) (next : Option Text) : Prop :=
  prev = none ∨ prev = some outside ∨ ∃ p, prev = some p ∧ endP sch p next = true

/-- The tag is legal in the scheme, as far as needed. -/
def TagOk : Scheme → Text → Prop
  | .bio, t => BioTag t
  | _, _ => True

theorem start_of_closed {sch : Scheme} {prev : Option Text} {t : Text} (hok : TagOk sch t)
    (hc : ClosedAt sch prev (some t)) (ht : t ≠ outside) : startP sch prev t = true := by
  rcases hc with rfl | rfl | ⟨p, rfl, hp⟩
  · cases sch <;> simp [startP, ht]
  · cases sch <;> simp [startP, ht]
  · cases sch with
    | io => simp only [endP] at hp; split at hp <;> simp_all
    | bio =>
      simp only [endP] at hp
      split at hp
      · cases hp
      · simp only [Bool.not_eq_true'] at hp
        rcases hok with h | ⟨n, h⟩ | ⟨n, h⟩
        · exact absurd h ht
        · subst h; simp [startP, tag_ne_outside, beginningPrefix, List.isPrefixOf]
        · subst h; simp [insidePrefix, List.isPrefixOf] at hp
    | bilou =>
      simp only [endP] at hp
      split at hp
      · cases hp
      · simp only [startP, ht, if_false]
        simp only [Bool.or_eq_true, decide_eq_true_eq] at hp ⊢
        tauto

theorem open_step {sch : Scheme} {t : Text} {next : Option Text} (ht : t ≠ outside)
    (he : endP sch t next = false) :
    ∃ t', next = some t' ∧ t' ≠ outside ∧ startP sch (some t) t' = false := by
  cases next with
  | none => cases sch <;> simp [endP, ht] at he
  | some t' =>
    refine ⟨t', rfl, ?_⟩
    cases sch with
    | io => simp only [endP, ht, if_false] at he; simp [startP] at he ⊢; simp [he, ht]
    | bio =>
      simp only [endP, ht, if_false, Bool.not_eq_false'] at he
      have hne : t' ≠ outside := by
        rintro rfl; simp [insidePrefix, outside, List.isPrefixOf] at he
      refine ⟨hne, ?_⟩
      simp only [startP, hne, if_false, ht, decide_false, Bool.or_false]
      cases t' with
      | nil => simp [insidePrefix, List.isPrefixOf] at he
      | cons a t' =>
        simp only [insidePrefix, List.isPrefixOf, Bool.and_eq_true, beq_iff_eq] at he
        simp [beginningPrefix, List.isPrefixOf, ← he.1]
    | bilou =>
      simp only [endP, ht, if_false, Bool.or_eq_false_iff, decide_eq_false_iff_not] at he
      obtain ⟨⟨⟨⟨h1, h2⟩, h3⟩, h4⟩, h5⟩ := he
      refine ⟨h1, ?_⟩
      simp [startP, h1, h2, h3, h4, h5, ht]

/-- Description of the spans found from index `i` on; `lo` is the start of the open slot, if any, and `i`
otherwise. -/
structure SpansFrom (lo i : Nat) (rest : List Text) (spans : List Span) : Prop where
  nonempty : ∀ s ∈ spans, lo ≤ s.first ∧ s.first ≤ s.last ∧ i ≤ s.last ∧ s.last < i + rest.length
  ordered : spans.Pairwise (fun a b => a.last < b.first)
  cover : ∀ k t, rest[k]? = some t → (t ≠ outside ↔ ∃ s ∈ spans, s.first ≤ i + k ∧ i + k ≤ s.last)
  named : ∀ s ∈ spans, ∃ t, rest[s.last - i]? = some t ∧ s.name = t.drop 2
  start : lo < i → ∃ s spans', spans = s :: spans' ∧ s.first = lo

theorem SpansFrom.nil (i : Nat) : SpansFrom i i [] [] :=
  ⟨by simp, List.Pairwise.nil, by simp, by simp, fun h => absurd h (lt_irrefl _)⟩

theorem go_wf (sch : Scheme) : ∀ (rest : List Text) (prev : Option Text) (i cur : Nat),
    (∀ t ∈ rest, TagOk sch t) →
    (ClosedAt sch prev rest.head? → SpansFrom i i rest (goSpans sch prev i cur rest)) ∧
    (∀ p, prev = some p → p ≠ outside → endP sch p rest.head? = false → cur < i →
      SpansFrom cur i rest (goSpans sch prev i cur rest)) := by
  intro rest
  induction rest with
  | nil =>
    intro prev i cur _
    refine ⟨fun _ => SpansFrom.nil i, ?_⟩
    intro p _ hp he _
    obtain ⟨t', h, _⟩ := open_step hp he
    cases h
  | cons t rest ih =>
    intro prev i cur hok
    have hok' : ∀ t ∈ rest, TagOk sch t := fun t' h => hok t' (List.mem_cons_of_mem _ h)
    -- the common part: the slot containing `t` starts at `c ≤ i`
    have key : t ≠ outside → ∀ c, c ≤ i → (if startP sch prev t then i else cur) = c →
        SpansFrom c i (t :: rest) (goSpans sch prev i cur (t :: rest)) := by
      intro ht c hc hcur
      unfold goSpans
      simp only [hcur]
      by_cases hend : endP sch t rest.head? = true
      · simp only [hend, if_true]
        have hr := (ih (some t) (i + 1) i hok').1 (Or.inr (Or.inr ⟨t, rfl, hend⟩))
        refine ⟨?_, ?_, ?_, ?_, fun _ => ⟨_, _, rfl, rfl⟩⟩
        · intro s hs
          rcases List.mem_cons.1 hs with rfl | hs
          · simp only [List.length_cons]; omega
          · have := hr.nonempty s hs
            simp only [List.length_cons]; omega
        · refine List.Pairwise.cons (fun s hs => ?_) hr.ordered
          have := hr.nonempty s hs
          simp only; omega
        · intro k t' hk
          cases k with
          | zero =>
            simp only [List.getElem?_cons_zero, Option.some.injEq] at hk
            subst hk
            exact ⟨fun _ => ⟨⟨t.drop 2, c, i⟩, List.mem_cons_self .., hc, le_refl _⟩, fun _ => ht⟩
          | succ k =>
            have := hr.cover k t' (by simpa using hk)
            rw [this]
            rw [show i + 1 + k = i + (k + 1) by omega]
            constructor
            · rintro ⟨s, hs, h⟩; exact ⟨s, by simp [hs], h⟩
            · rintro ⟨s, hs, h⟩
              rcases List.mem_cons.1 hs with rfl | hs
              · simp only at h; omega
              · exact ⟨s, hs, h⟩
        · intro s hs
          rcases List.mem_cons.1 hs with rfl | hs
          · exact ⟨t, by simp, rfl⟩
          · obtain ⟨t', h1, h2⟩ := hr.named s hs
            have hb := hr.nonempty s hs
            refine ⟨t', ?_, h2⟩
            rw [show s.last - i = (s.last - (i + 1)) + 1 by omega]
            simpa using h1
      · simp only [hend]
        have hend' : endP sch t rest.head? = false := by simpa using hend
        have hr := (ih (some t) (i + 1) c hok').2 t rfl ht hend' (by omega)
        obtain ⟨s0, spans', hs0, hfirst⟩ := hr.start (by omega)
        refine ⟨?_, hr.ordered, ?_, ?_, ?_⟩
        · intro s hs
          have := hr.nonempty s hs
          simp only [List.length_cons]; omega
        · intro k t' hk
          cases k with
          | zero =>
            simp only [List.getElem?_cons_zero, Option.some.injEq] at hk
            subst hk
            refine ⟨fun _ => ⟨s0, by simp [hs0], by omega, ?_⟩, fun _ => ht⟩
            have := hr.nonempty s0 (by simp [hs0]); omega
          | succ k =>
            have := hr.cover k t' (by simpa using hk)
            rw [this, show i + 1 + k = i + (k + 1) by omega]
            exact Iff.rfl
        · intro s hs
          obtain ⟨t', h1, h2⟩ := hr.named s hs
          have hb := hr.nonempty s hs
          refine ⟨t', ?_, h2⟩
          rw [show s.last - i = (s.last - (i + 1)) + 1 by omega]
          simpa using h1
        · intro _
          exact ⟨s0, spans', hs0, hfirst⟩
    constructor
    · intro hc
      by_cases ht : t = outside
      · subst ht
        rw [go_out]
        have hr := (ih (some outside) (i + 1) cur hok').1 (Or.inr (Or.inl rfl))
        refine ⟨?_, hr.ordered, ?_, ?_, fun h => absurd h (lt_irrefl _)⟩
        · intro s hs
          have := hr.nonempty s hs
          simp only [List.length_cons]; omega
        · intro k t' hk
          cases k with
          | zero =>
            simp only [List.getElem?_cons_zero, Option.some.injEq] at hk
            subst hk
            refine ⟨fun h => absurd rfl h, ?_⟩
            rintro ⟨s, hs, h⟩
            have := hr.nonempty s hs
            omega
          | succ k =>
            have := hr.cover k t' (by simpa using hk)
            rw [this, show i + 1 + k = i + (k + 1) by omega]
        · intro s hs
          obtain ⟨t', h1, h2⟩ := hr.named s hs
          have hb := hr.nonempty s hs
          refine ⟨t', ?_, h2⟩
          rw [show s.last - i = (s.last - (i + 1)) + 1 by omega]
          simpa using h1
      · have hst := start_of_closed (hok t (by simp)) hc ht
        exact key ht i (le_refl _) (by rw [hst]; rfl)
    · intro p hp hpo he hlt
      obtain ⟨t', h1, h2, h3⟩ := open_step hpo he
      simp only [List.head?_cons, Option.some.injEq] at h1
      subst h1
      subst hp
      exact key h2 cur (by omega) (by rw [h3]; rfl)

end Snips
