import Verif.Proofs.Blanks
import Verif.Model.Probabilistic

/-! Further blanks in a query, and the classifier (for C120). -/

namespace Snips.Blanks

open Inserted

variable {x : Spot} {words : Text}

/-! ### Replacing entities, with any placeholders -/

/-- The text after `cur`, with the matches replaced. -/
def withPh (ph : Text → Text) (text : Text) : Nat → List MatchedEntity → Text
  | cur, [] => suffixFrom text cur
  | cur, e :: es => substr text ⟨cur, e.range.start⟩ ++ ph e.name ++ withPh ph text e.range.stop es

section

variable {before after : Text}

theorem replace_after (ph : Text → Text) : ∀ {es : List MatchedEntity} {cur : Nat},
    (∀ e ∈ es, (Spot.between before after).Beside e.range ∧ before.length + 1 ≤ e.range.start) → before.length + 1 ≤ cur →
    cur ≤ before.length + 1 + after.length →
    withPh ph (before ++ ' ' :: (words ++ ' ' :: after)) (cur + (words.length + 1)) (es.map (mv (.between before after) words))
      = withPh ph (before ++ ' ' :: after) cur es
  | [], cur, _, hc, hc' => by
    simp only [List.map_nil, withPh, suffixFrom]
    obtain ⟨n, hn⟩ : ∃ n, cur = before.length + 1 + n := ⟨cur - (before.length + 1), by omega⟩
    have e1 : (before ++ ' ' :: after).drop cur = after.drop n := by
      rw [hn, show before ++ ' ' :: after = (before ++ [' ']) ++ after by simp,
        show before.length + 1 + n = (before ++ [' ']).length + n by simp, List.drop_append]
      simp
    have e2 : (before ++ ' ' :: (words ++ ' ' :: after)).drop (cur + (words.length + 1)) = after.drop n := by
      rw [hn, show before ++ ' ' :: (words ++ ' ' :: after) = (before ++ ' ' :: (words ++ [' '])) ++ after by simp,
        show before.length + 1 + n + (words.length + 1) = (before ++ ' ' :: (words ++ [' '])).length + n by simp; omega,
        List.drop_append]
      simp
    rw [e1, e2]
  | e :: es, cur, h, hc, hc' => by
    obtain ⟨hb, hs⟩ := h e (by simp)
    have hb' := hb
    simp only [Spot.Beside] at hb'
    have hmv : (mv (.between before after) words e).range.stop = e.range.stop + (words.length + 1) := by
      simp only [mv, Spot.moved, Spot.pos]; rw [if_neg (by omega)]
    have hmv' : (mv (.between before after) words e).range.start = e.range.start + (words.length + 1) := by
      simp only [mv, Spot.moved, Spot.pos]; rw [if_neg (by omega)]
    simp only [List.map_cons, withPh]
    rw [hmv, hmv', replace_after ph (fun e' he' => h e' (by simp [he'])) (by omega) (by omega)]
    congr 1
    congr 1
    by_cases hle : cur ≤ e.range.start
    · have := moved_substr (words := words) (x := .between before after) (r := ⟨cur, e.range.start⟩)
        ⟨hle, Or.inr ⟨hc, by simp only; omega⟩⟩
      simp only [Spot.short, Spot.long] at this
      rw [← this]
      simp only [Spot.moved, Spot.pos]
      rw [if_neg (by omega), if_neg (by omega)]
    · unfold substr
      simp only
      rw [show e.range.start + (words.length + 1) - (cur + (words.length + 1)) = 0 by omega,
        show e.range.start - cur = 0 by omega]
      simp

theorem replace_from (ph : Text → Text) : ∀ {es : List MatchedEntity} {cur : Nat},
    (∀ e ∈ es, (Spot.between before after).Beside e.range) → (es.Pairwise fun a b => a.range.start ≤ b.range.start) →
    cur ≤ before.length →
    ∃ A B, withPh ph (before ++ ' ' :: after) cur es = A ++ ' ' :: B ∧
      withPh ph (before ++ ' ' :: (words ++ ' ' :: after)) cur (es.map (mv (.between before after) words))
        = A ++ ' ' :: (words ++ ' ' :: B)
  | [], cur, _, _, hc => by
    refine ⟨before.drop cur, after, ?_, ?_⟩ <;>
    · simp only [List.map_nil, withPh, suffixFrom]
      rw [List.drop_append_of_le_length hc]
  | e :: es, cur, h, hp, hc => by
    have hb := h e (by simp)
    have hb' := hb
    simp only [Spot.Beside] at hb'
    rw [List.pairwise_cons] at hp
    simp only [List.map_cons, withPh]
    rcases hb'.2 with hs | ⟨hs, hs'⟩
    · obtain ⟨A, B, h1, h2⟩ := replace_from ph (fun e' he' => h e' (by simp [he'])) hp.2 hs
      refine ⟨substr (before ++ ' ' :: after) ⟨cur, e.range.start⟩ ++ ph e.name ++ A, B, ?_, ?_⟩
      · rw [h1]; simp
      · have hmv : (mv (.between before after) words e).range = e.range := by
          simp only [mv, Spot.moved, Spot.pos]
          rw [if_pos (by omega), if_pos hs]
        rw [hmv, h2]
        have hsub : substr (before ++ ' ' :: (words ++ ' ' :: after)) ⟨cur, e.range.start⟩
            = substr (before ++ ' ' :: after) ⟨cur, e.range.start⟩ := by
          unfold substr
          simp only
          rw [List.drop_append_of_le_length hc, List.drop_append_of_le_length hc,
            List.take_append_of_le_length (by rw [List.length_drop]; omega),
            List.take_append_of_le_length (by rw [List.length_drop]; omega)]
        rw [hsub]
        simp [mv]
    · have hmv : (mv (.between before after) words e).range.stop = e.range.stop + (words.length + 1) := by
        simp only [mv, Spot.moved, Spot.pos]; rw [if_neg (by omega)]
      have hmv' : (mv (.between before after) words e).range.start = e.range.start + (words.length + 1) := by
        simp only [mv, Spot.moved, Spot.pos]; rw [if_neg (by omega)]
      have hrest := replace_after (before := before) (words := words) (after := after) ph (es := es) (cur := e.range.stop)
        (fun e' he' => ⟨h e' (by simp [he']), by have := hp.1 e' he'; omega⟩) (by omega) (by omega)
      rw [hmv, hmv', hrest]
      obtain ⟨n, hn⟩ : ∃ n, e.range.start = before.length + 1 + n := ⟨e.range.start - (before.length + 1), by omega⟩
      have e1 : substr (before ++ ' ' :: after) ⟨cur, e.range.start⟩ = before.drop cur ++ ' ' :: after.take n := by
        unfold substr
        simp only
        rw [List.drop_append_of_le_length hc, show e.range.start - cur = (before.drop cur).length + (n + 1) by
          rw [List.length_drop]; omega, List.take_append, List.take_of_length_le (by omega)]
        simp
      have e2 : substr (before ++ ' ' :: (words ++ ' ' :: after)) ⟨cur, e.range.start + (words.length + 1)⟩
          = before.drop cur ++ ' ' :: (words ++ ' ' :: after.take n) := by
        unfold substr
        simp only
        rw [List.drop_append_of_le_length hc, show e.range.start + (words.length + 1) - cur
          = (before.drop cur).length + ((words.length + (n + 1)) + 1) by rw [List.length_drop]; omega, List.take_append,
          List.take_of_length_le (by omega), Nat.add_sub_cancel_left, List.take_succ_cons, List.take_append,
          List.take_of_length_le (by omega), Nat.add_sub_cancel_left, List.take_succ_cons]
      refine ⟨before.drop cur, after.take n ++ ph e.name
        ++ withPh ph (before ++ ' ' :: after) e.range.stop es, ?_, ?_⟩
      · rw [e1]; simp
      · rw [e2]; simp [mv]

end

theorem replace_front (ph : Text → Text) (words t : Text) : ∀ (es : List MatchedEntity) (cur : Nat),
    withPh ph (words ++ ' ' :: t) (cur + (words.length + 1)) (es.map (mv (.front t) words))
      = withPh ph t cur es
  | [], cur => by
    simp only [List.map_nil, withPh, suffixFrom]
    rw [show words ++ ' ' :: t = (words ++ [' ']) ++ t by simp, Nat.add_comm,
      show words.length + 1 + cur = (words ++ [' ']).length + cur by simp, List.drop_append]
    simp
  | e :: es, cur => by
    simp only [List.map_cons, withPh]
    have h := replace_front ph words t es e.range.stop
    have hs := shift_substr (words ++ [' ']) t cur e.range.start
    simp only [List.length_append, List.length_cons, List.length_nil, List.append_assoc, List.cons_append,
      List.nil_append, Nat.zero_add] at hs
    simp only [mv, Spot.moved, Spot.pos] at h ⊢
    rw [h, hs]

theorem replace_back (ph : Text → Text) (words t : Text) : ∀ {es : List MatchedEntity} {cur : Nat},
    (∀ e ∈ es, (Spot.back t).Beside e.range) → cur ≤ t.length →
    withPh ph (t ++ ' ' :: words) cur (es.map (mv (.back t) words))
      = withPh ph t cur es ++ ' ' :: words
  | [], cur, _, hc => by
    simp only [List.map_nil, withPh, suffixFrom]
    rw [List.drop_append_of_le_length hc]
  | e :: es, cur, h, hc => by
    have hb := h e (by simp)
    simp only [Spot.Beside] at hb
    have ih := replace_back ph words t (es := es) (fun e' he' => h e' (by simp [he'])) hb.2
    simp only [List.map_cons, withPh]
    simp only [mv, Spot.moved, Spot.pos] at ih ⊢
    rw [ih, left_substr _ _ (by omega)]
    simp

theorem replace_words (ph : Text → Text) {es : List MatchedEntity} (h : ∀ e ∈ es, x.Beside e.range)
    (hp : es.Pairwise fun a b => a.range.start ≤ b.range.start) :
    Gap words (withPh ph x.short 0 es) (withPh ph (x.long words) 0 (es.map (mv x words))) := by
  cases x with
  | front t =>
    cases es with
    | nil => exact .front t
    | cons e es =>
      have h1 := replace_front ph words t es e.range.stop
      have h2 : substr (words ++ ' ' :: t) ⟨0, e.range.start + (words.length + 1)⟩ = words ++ ' ' :: substr t ⟨0, e.range.start⟩ := by
        unfold substr
        simp only [List.drop_zero, Nat.sub_zero]
        rw [Nat.add_comm, Nat.add_assoc, List.take_append, List.take_of_length_le (by omega), Nat.add_sub_cancel_left,
          Nat.add_comm 1, List.take_succ_cons]
      have h3 : withPh ph (words ++ ' ' :: t) 0 ((e :: es).map (mv (.front t) words))
          = words ++ ' ' :: withPh ph t 0 (e :: es) := by
        simp only [List.map_cons, withPh]
        simp only [mv, Spot.moved, Spot.pos] at h1 ⊢
        rw [h1, h2]
        simp
      have h4 := Gap.front (words := words) (withPh ph t 0 (e :: es))
      rw [← h3] at h4
      exact h4
  | back t =>
    cases es with
    | nil => exact .back t
    | cons e es =>
      have h3 := replace_back ph words t h (Nat.zero_le _)
      have h4 := Gap.back (words := words) (withPh ph t 0 (e :: es))
      rw [← h3] at h4
      exact h4
  | between before after =>
    cases es with
    | nil => exact .between before after
    | cons e es =>
      obtain ⟨A, B, h1, h2⟩ := replace_from (before := before) (words := words) (after := after) ph h hp (Nat.zero_le _)
      have h4 := Gap.between (words := words) A B
      rw [← h1, ← h2] at h4
      exact h4
theorem build_withPh (ph : Text → Text) (text : Text) : ∀ (ms : List MatchedEntity) (cur : Nat),
    replText ph (buildSegs text cur ms) = withPh ph text cur ms
  | [], cur => by simp [buildSegs, replText, Seg.repl, withPh, suffixFrom]
  | m :: ms, cur => by
    simp only [buildSegs, replText_cons, Seg.repl, withPh, build_withPh ph text ms]
    simp

theorem replaced_withPh (ph : Text → Text) (text : Text) (ms : List MatchedEntity) :
    (replaceEntities text ms ph).2 = withPh ph text 0 (dedupEntities ms) := by
  unfold replaceEntities
  cases ms with
  | nil => simp [dedupEntities, dedupItems, sortByKey, withPh, suffixFrom]
  | cons m ms =>
    simp only [List.isEmpty_cons, Bool.false_eq_true, if_false]
    rw [sortByKey_of_sorted _ (Inserted.dedup_sorted _), replaceFold_text, build_withPh]
    simp

theorem words_gap {fns : TextFns} (hsplit : fns.SplitsAtBlanks) (h0 : fns.tokenizeLight [] = []) {n : Nat} {a b : Text}
    (h : Gap (List.replicate n ' ') a b) : fns.tokenizeLight b = fns.tokenizeLight a := by
  have hn := no_words hsplit h0 n
  cases h with
  | front t => rw [hsplit, hn, List.nil_append]
  | back t => rw [hsplit, hn, List.append_nil]
  | between a b => rw [hsplit, hsplit, hsplit, hn, List.nil_append]

theorem long_gap (x : Spot) (words : Text) : Gap words x.short (x.long words) := by
  cases x with
  | front t => exact .front t
  | back t => exact .back t
  | between a b => exact .between a b

theorem enriched_words {fns : TextFns} (hsplit : fns.SplitsAtBlanks) (h0 : fns.tokenizeLight [] = []) {n : Nat}
    (ph : Text → Text) {ms : List MatchedEntity} (h : ∀ e ∈ ms, x.Beside e.range) :
    fns.tokenizeLight (replaceEntities (x.long (List.replicate n ' ')) (ms.map (mv x (List.replicate n ' '))) ph).2
      = fns.tokenizeLight (replaceEntities x.short ms ph).2 := by
  rw [replaced_withPh, replaced_withPh, dedup_mv h]
  exact words_gap hsplit h0 (replace_words ph (fun e he => h e (InsertedPattern.mem_dedup he)) (dedup_sorted _))

end Snips.Blanks
