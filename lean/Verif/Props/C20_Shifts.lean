import Verif.Spec.Tokens
import Verif.Proofs.Replace

/-! # C20: custom entity ranges refer to the sentence -/

namespace Snips

theorem asUsize_ofNat {x : Int} {n : Nat} (h : x = n) (hn : n < 18446744073709551616) :
    asUsize x = n := by
  subst h
  unfold asUsize
  have : (n : Int) % 18446744073709551616 = n := Int.emod_eq_of_lt (by omega) (by omega)
  rw [this]; rfl

theorem shifts_rest (toks : List Token) : ∀ (pe s : Int) (a i : Nat) (tok : Token),
    (∀ t ∈ toks, t.charRange.stop = t.charRange.start + t.value.length) →
    toks[a]? = some tok → i < tok.value.length →
    (charShiftsFrom (pe, 1) s toks)[1 + joinStart toks a + i]?
      = some (s + pe + 1 + joinStart toks a - tok.charRange.start) := by
  induction toks with
  | nil => intro pe s a i tok _ h; simp at h
  | cons t ts ih =>
    intro pe s a i tok hlen ha hi
    have ht := hlen t (by simp)
    have hrep : ((t.charRange.count : Int) + 1).toNat = t.value.length + 1 := by
      unfold Rng.count; omega
    simp only [charShiftsFrom, hrep]
    cases a with
    | zero =>
      simp only [List.getElem?_cons_zero, Option.some.injEq] at ha
      subst ha
      simp only [joinStart]
      rw [List.getElem?_append_left (by rw [List.length_replicate]; omega), List.getElem?_replicate,
        if_pos (by omega)]
      congr 1; omega
    | succ a =>
      simp only [List.getElem?_cons_succ] at ha
      have := ih t.charRange.stop (s - ((t.charRange.start : Int) - pe - 1)) a i tok
        (fun t' h' => hlen t' (by simp [h'])) ha hi
      simp only [joinStart]
      rw [List.getElem?_append_right (by rw [List.length_replicate]; omega), List.length_replicate,
        show 1 + (t.value.length + 1 + joinStart ts a) + i - (t.value.length + 1)
          = 1 + joinStart ts a + i by omega, this]
      congr 1
      omega

theorem shifts_at (toks : List Token) (a i : Nat) (tok : Token)
    (hlen : ∀ t ∈ toks, t.charRange.stop = t.charRange.start + t.value.length)
    (ha : toks[a]? = some tok) (hi : i < tok.value.length) :
    (computeCharShifts toks)[joinStart toks a + i]?
      = some ((joinStart toks a : Int) - tok.charRange.start) := by
  unfold computeCharShifts
  cases toks with
  | nil => simp at ha
  | cons t ts =>
    have ht := hlen t (by simp)
    have hrep : ((t.charRange.count : Int) + 0).toNat = t.value.length := by
      unfold Rng.count; omega
    simp only [charShiftsFrom, hrep]
    cases a with
    | zero =>
      simp only [List.getElem?_cons_zero, Option.some.injEq] at ha
      subst ha
      simp only [joinStart]
      rw [List.getElem?_append_left (by rw [List.length_replicate]; omega), List.getElem?_replicate,
        if_pos (by omega)]
      congr 1
    | succ a =>
      simp only [List.getElem?_cons_succ] at ha
      have := shifts_rest ts t.charRange.stop (0 - ((t.charRange.start : Int) - 0 - 0)) a i tok
        (fun t' h' => hlen t' (by simp [h'])) ha hi
      simp only [joinStart]
      rw [List.getElem?_append_right (by rw [List.length_replicate]; omega), List.length_replicate,
        show t.value.length + 1 + joinStart ts a + i - t.value.length
          = 1 + joinStart ts a + i by omega, this]
      congr 1
      omega

theorem Tokenized.len {t : Text} {toks : List Token} (h : Tokenized t toks) :
    ∀ tok ∈ toks, tok.charRange.stop = tok.charRange.start + tok.value.length := by
  intro tok htok
  have h1 := h.nonempty tok htok
  have h2 := h.inside tok htok
  rw [h.value tok htok, List.length_take, List.length_drop]
  unfold Rng.NonEmpty at h1
  omega

/-- `joinStart` is the position of a token in the space-joined text. -/
theorem c20_join_position (toks : List Token) : ∀ (a : Nat) (tok : Token), toks[a]? = some tok →
    ((joinWith [' '] (toks.map Token.value)).drop (joinStart toks a)).take tok.value.length
      = tok.value := by
  induction toks with
  | nil => intro a tok h; simp at h
  | cons t ts ih =>
    intro a tok ha
    cases a with
    | zero =>
      simp only [List.getElem?_cons_zero, Option.some.injEq] at ha
      subst ha
      cases ts with
      | nil => simp [joinWith, joinStart]
      | cons t' ts => simp [joinWith, joinStart]
    | succ a =>
      simp only [List.getElem?_cons_succ] at ha
      cases ts with
      | nil => simp at ha
      | cons t' ts =>
        have := ih a tok ha
        simp only [List.map_cons] at this
        simp only [List.map_cons, joinWith, joinStart, List.append_assoc]
        rw [Nat.add_assoc, ← List.drop_drop, List.drop_left, ← List.drop_drop]
        simpa using this

/-- A match of the joined text that starts inside token `a` (at its `i`-th character) and ends inside
token `b` (after its `j`-th character) is translated to the sentence range from the `i`-th character of
token `a`'s own range to the `j`-th character of token `b`'s own range; nothing else of the match
changes.  In particular (`i = 0`, `j` the length of `b`) a match of whole tokens is translated to the
range from the first token's start to the last token's end. -/
theorem c20_remap (sentence : Text) (toks : List Token) (htok : Tokenized sentence toks)
    (hsize : sentence.length < 2 ^ 30) (a b i j : Nat) (ta tb : Token)
    (ha : toks[a]? = some ta) (hb : toks[b]? = some tb)
    (hi : i < ta.value.length) (hj : 0 < j) (hj' : j ≤ tb.value.length) (e : CustomEntity)
    (he : e.range = ⟨joinStart toks a + i, joinStart toks b + j⟩) :
    remapEntity (computeCharShifts toks) e
      = .ok { e with range := ⟨ta.charRange.start + i, tb.charRange.start + j⟩ } := by
  have hlen := htok.len
  have hta := List.mem_of_getElem? ha
  have htb := List.mem_of_getElem? hb
  have s1 := shifts_at toks a i ta hlen ha hi
  have s2 := shifts_at toks b (j - 1) tb hlen hb (by omega)
  have hstop : e.range.stop = (joinStart toks b + (j - 1)) + 1 := by rw [he]; simp only; omega
  have hstart : e.range.start = joinStart toks a + i := by rw [he]
  unfold remapEntity
  rw [hstart, hstop, s1]
  simp only [s2]
  have b1 := htok.inside ta hta
  have b2 := htok.inside tb htb
  have l1 := hlen ta hta
  have l2 := hlen tb htb
  have p30 : (2 : Nat) ^ 30 = 1073741824 := by decide
  rw [asUsize_ofNat (n := ta.charRange.start + i) (by omega) (by omega),
    asUsize_ofNat (n := tb.charRange.start + j) (by omega) (by omega)]

/-- The translated range carries, in the sentence, the characters of the matched token. -/
theorem c20_token_text (sentence : Text) (toks : List Token) (htok : Tokenized sentence toks)
    (hsize : sentence.length < 2 ^ 30) (a : Nat) (ta : Token) (ha : toks[a]? = some ta)
    (e e' : CustomEntity)
    (he : e.range = ⟨joinStart toks a, joinStart toks a + ta.value.length⟩)
    (h : remapEntity (computeCharShifts toks) e = .ok e') :
    (sentence.drop e'.range.start).take (e'.range.stop - e'.range.start)
      = ((joinWith [' '] (toks.map Token.value)).drop e.range.start).take
          (e.range.stop - e.range.start) := by
  have hta := List.mem_of_getElem? ha
  have hn := htok.nonempty ta hta
  have hl := htok.len ta hta
  unfold Rng.NonEmpty at hn
  rw [c20_remap sentence toks htok hsize a a 0 ta.value.length ta ta ha ha (by omega) (by omega)
    (Nat.le_refl _) e (by simpa using he)] at h
  injection h with h
  subst h
  rw [he]
  simp only [Nat.add_zero, Nat.add_sub_cancel_left]
  rw [c20_join_position toks a ta ha]
  have hv := htok.value ta hta
  rw [hl, Nat.add_sub_cancel_left] at hv
  exact hv.symm

/-! Non-vacuity: "hello?world" in three tokens. -/

/-- Tokens of `"hello?world"`. -/
def c20Tokens : List Token :=
  [⟨"hello".toList, ⟨0, 5⟩, ⟨0, 5⟩⟩, ⟨"?".toList, ⟨5, 6⟩, ⟨5, 6⟩⟩, ⟨"world".toList, ⟨6, 11⟩, ⟨6, 11⟩⟩]

example : Tokenized "hello?world".toList c20Tokens :=
  ⟨by unfold Rng.NonEmpty; decide, by decide, by decide, by decide⟩

example : computeCharShifts c20Tokens = [0, 0, 0, 0, 0, 1, 1, 2, 2, 2, 2, 2, 2] := by decide

example : remapEntity (computeCharShifts c20Tokens)
    ⟨"? world".toList, "w".toList, [], ⟨6, 13⟩, "e".toList⟩
    = .ok ⟨"? world".toList, "w".toList, [], ⟨5, 11⟩, "e".toList⟩ := by decide

end Snips
