import Verif.Model.Base64
import Verif.Spec.Base64
import Verif.Proofs.Readers
import Mathlib.Tactic.Ring

/-! Lemmas about base64. -/

namespace Snips

theorem base64Digit_alphabet : ∀ n < 64, base64Alphabet[n]? = some (base64Digit n) := by decide +kernel

theorem base64Value_digit : ∀ n < 64, base64Value (base64Digit n) = some n := by decide +kernel

theorem base64Digit_ne_pad : ∀ n < 64, base64Digit n ≠ '=' := by decide +kernel

theorem base64Value_some {c : Char} {v : Nat} (h : base64Value c = some v) : v < 64 ∧ base64Digit v = c := by
  unfold base64Value at h
  split at h
  · rename_i hc
    injection h with h
    subst h
    refine ⟨by omega, ?_⟩
    unfold base64Digit
    rw [if_pos (by omega), show 65 + (c.toNat - 65) = c.toNat by omega, Char.ofNat_toNat]
  split at h
  · rename_i hc
    injection h with h
    subst h
    refine ⟨by omega, ?_⟩
    unfold base64Digit
    rw [if_neg (by omega), if_pos (by omega), show 97 + (c.toNat - 97 + 26 - 26) = c.toNat by omega, Char.ofNat_toNat]
  split at h
  · rename_i hc
    injection h with h
    subst h
    refine ⟨by omega, ?_⟩
    unfold base64Digit
    rw [if_neg (by omega), if_neg (by omega), if_pos (by omega),
      show 48 + (c.toNat - 48 + 52 - 52) = c.toNat by omega, Char.ofNat_toNat]
  split at h
  · rename_i hc
    injection h with h
    subst h
    exact ⟨by omega, by rw [hc]; rfl⟩
  split at h
  · rename_i hc
    injection h with h
    subst h
    exact ⟨by omega, by rw [hc]; rfl⟩
  · cases h

theorem decodeBase64_encode : ∀ bytes : List Nat, (∀ b ∈ bytes, b < 256) → decodeBase64 (encodeBase64 bytes) = some bytes
  | [], _ => rfl
  | [a], h => by
    have ha := h a (by simp)
    rw [encodeBase64, decodeBase64, if_pos ⟨rfl, rfl, rfl⟩, base64Value_digit _ (by omega), base64Value_digit _ (by omega)]
    simp only [Option.bind_some]
    rw [if_pos (by omega)]
    congr 2
    omega
  | [a, b], h => by
    have ha := h a (by simp)
    have hb := h b (by simp)
    rw [encodeBase64, decodeBase64, if_neg (fun h => base64Digit_ne_pad _ (by omega) h.1), if_pos ⟨rfl, rfl⟩,
      base64Value_digit _ (by omega), base64Value_digit _ (by omega), base64Value_digit _ (by omega)]
    simp only [Option.bind_some]
    rw [if_pos (by omega)]
    congr 1
    simp only [List.cons.injEq, and_true]
    constructor <;> omega
  | a :: b :: c :: rest, h => by
    have ha := h a (by simp)
    have hb := h b (by simp)
    have hc := h c (by simp)
    rw [encodeBase64, decodeBase64, if_neg (fun h => base64Digit_ne_pad _ (by omega) h.1),
      if_neg (fun h => base64Digit_ne_pad _ (by omega) h.1),
      base64Value_digit _ (by omega), base64Value_digit _ (by omega), base64Value_digit _ (by omega),
      base64Value_digit _ (by omega), decodeBase64_encode rest (fun x hx => h x (by simp [hx]))]
    simp only [Option.bind_some, Option.map_some, Option.some.injEq, List.cons.injEq, and_true]
    refine ⟨?_, ?_, ?_⟩ <;> omega

theorem decodeBase64_some : ∀ (n : Nat) (t : Text), t.length ≤ n → ∀ bytes, decodeBase64 t = some bytes →
    (∀ b ∈ bytes, b < 256) ∧ encodeBase64 bytes = t
  | _, [], _, bytes, h => by
    rw [decodeBase64] at h
    injection h with h
    subst h
    exact ⟨fun _ h => (by cases h), rfl⟩
  | 0, a :: t, hn, _, _ => by simp at hn
  | n + 1, [a], hn, bytes, h => (by cases h)
  | n + 1, [a, b], hn, bytes, h => (by cases h)
  | n + 1, [a, b, c], hn, bytes, h => (by cases h)
  | n + 1, a :: b :: c :: d :: rest, hn, bytes, h => by
    rw [decodeBase64] at h
    rename' h => h0
    split at h0
    · rename_i hp
      obtain ⟨rfl, rfl, rfl⟩ := hp
      obtain ⟨x, hx, h1⟩ := Option.bind_eq_some_iff.1 h0
      obtain ⟨y, hy, h2⟩ := Option.bind_eq_some_iff.1 h1
      obtain ⟨hx1, rfl⟩ := base64Value_some hx
      obtain ⟨hy1, rfl⟩ := base64Value_some hy
      split at h2
      · injection h2 with h
        subst h
        refine ⟨fun b hb => by rw [List.mem_singleton] at hb; omega, ?_⟩
        rw [encodeBase64]
        rw [show (x * 4 + y / 16) / 4 = x by omega, show (x * 4 + y / 16) % 4 * 16 = y by omega]
      · cases h2
    split at h0
    · rename_i hp
      obtain ⟨rfl, rfl⟩ := hp
      obtain ⟨x, hx, h1⟩ := Option.bind_eq_some_iff.1 h0
      obtain ⟨y, hy, h2⟩ := Option.bind_eq_some_iff.1 h1
      obtain ⟨z, hz, h3⟩ := Option.bind_eq_some_iff.1 h2
      obtain ⟨hx1, rfl⟩ := base64Value_some hx
      obtain ⟨hy1, rfl⟩ := base64Value_some hy
      obtain ⟨hz1, rfl⟩ := base64Value_some hz
      split at h3
      · injection h3 with h
        subst h
        refine ⟨fun b hb => by
          simp only [List.mem_cons, List.not_mem_nil, or_false] at hb
          rcases hb with rfl | rfl <;> omega, ?_⟩
        rw [encodeBase64]
        rw [show (x * 4 + y / 16) / 4 = x by omega,
          show (x * 4 + y / 16) % 4 * 16 + (y % 16 * 16 + z / 4) / 16 = y by omega,
          show (y % 16 * 16 + z / 4) % 16 * 4 = z by omega]
      · cases h3
    · obtain ⟨x, hx, h1⟩ := Option.bind_eq_some_iff.1 h0
      obtain ⟨y, hy, h2⟩ := Option.bind_eq_some_iff.1 h1
      obtain ⟨z, hz, h3⟩ := Option.bind_eq_some_iff.1 h2
      obtain ⟨v, hv, h4⟩ := Option.bind_eq_some_iff.1 h3
      obtain ⟨more, hmore, rfl⟩ := Option.map_eq_some_iff.1 h4
      obtain ⟨hx1, rfl⟩ := base64Value_some hx
      obtain ⟨hy1, rfl⟩ := base64Value_some hy
      obtain ⟨hz1, rfl⟩ := base64Value_some hz
      obtain ⟨hv1, rfl⟩ := base64Value_some hv
      obtain ⟨ih1, ih2⟩ := decodeBase64_some n rest (by simp at hn; omega) more hmore
      refine ⟨fun b hb => by
        simp only [List.mem_cons] at hb
        rcases hb with rfl | rfl | rfl | hb
        · omega
        · omega
        · omega
        · exact ih1 b hb, ?_⟩
      rw [encodeBase64, ih2]
      rw [show (x * 4 + y / 16) / 4 = x by omega,
        show (x * 4 + y / 16) % 4 * 16 + (y % 16 * 16 + z / 4) / 16 = y by omega,
        show (y % 16 * 16 + z / 4) % 16 * 4 + (z % 4 * 64 + v) / 64 = z by omega,
        show (z % 4 * 64 + v) % 64 = v by omega]

theorem bits_first {a : Nat} (ha : a < 256) : bitsOf 6 (a / 4) ++ [a / 2 % 2, a % 2] = bitsOf 8 a := by
  simp only [bitsOf, List.range, List.range.loop, List.map, List.cons_append, List.nil_append, List.cons.injEq, and_true, Nat.reduceSub, Nat.reducePow]
  and_intros <;> first | trivial | omega

theorem bits_second {a b : Nat} (hb : b < 256) :
    bitsOf 6 (a % 4 * 16 + b / 16) ++ bitsOf 4 (b % 16) = [a / 2 % 2, a % 2] ++ bitsOf 8 b := by
  simp only [bitsOf, List.range, List.range.loop, List.map, List.cons_append, List.nil_append, List.cons.injEq, and_true, Nat.reduceSub, Nat.reducePow]
  and_intros <;> omega

theorem bits_third {b c : Nat} (hc : c < 256) :
    bitsOf 6 (b % 16 * 4 + c / 64) ++ bitsOf 6 (c % 64) = bitsOf 4 (b % 16) ++ bitsOf 8 c := by
  simp only [bitsOf, List.range, List.range.loop, List.map, List.cons_append, List.nil_append, List.cons.injEq, and_true, Nat.reduceSub, Nat.reducePow]
  and_intros <;> omega

theorem bits_zeros (n k w : Nat) : bitsOf (w + k) (n * 2 ^ k) = bitsOf w n ++ List.replicate k 0 := by
  unfold bitsOf
  rw [List.range_add, List.map_append]
  congr 1
  · apply List.map_congr_left
    intro i hi
    rw [List.mem_range] at hi
    congr 1
    rw [show w + k - 1 - i = (w - 1 - i) + k by omega, Nat.pow_add, Nat.mul_div_mul_right _ _ (Nat.two_pow_pos k)]
  · rw [List.map_map, List.eq_replicate_iff]
    refine ⟨by simp, fun b hb => ?_⟩
    obtain ⟨i, hi, rfl⟩ := List.mem_map.1 hb
    rw [List.mem_range] at hi
    simp only [Function.comp]
    rw [show w + k - 1 - (w + i) = k - 1 - i by omega]
    have hk : k = (k - 1 - i) + 1 + i := by omega
    have : n * 2 ^ k = (n * 2 ^ i * 2) * 2 ^ (k - 1 - i) := by
      conv_lhs => rw [hk, Nat.pow_add, Nat.pow_add]
      ring
    rw [this, Nat.mul_div_cancel _ (Nat.two_pow_pos _), Nat.mul_mod_left]

theorem encodeBase64_spec : ∀ bytes : List Nat, (∀ b ∈ bytes, b < 256) → IsBase64 bytes (encodeBase64 bytes)
  | [], _ => ⟨[], [], 0, List.Forall₂.nil, rfl, by omega, rfl, rfl⟩
  | [a], h => by
    have ha := h a (by simp)
    refine ⟨[a / 4, a % 4 * 16], [_, _], 2, .cons (base64Digit_alphabet _ (by omega)) (.cons (base64Digit_alphabet _ (by omega)) .nil),
      rfl, by omega, (by rw [encodeBase64]; simp), ?_⟩
    simp only [List.flatMap_cons, List.flatMap_nil, List.append_nil]
    rw [← bits_first ha, List.append_assoc, show a % 4 * 16 = a % 4 * 2 ^ 4 from rfl, bits_zeros (a % 4) 4 2]
    congr 2
    simp only [bitsOf, List.range, List.range.loop, List.map, List.cons.injEq, and_true, Nat.reduceSub, Nat.reducePow]
    and_intros <;> omega
  | [a, b], h => by
    have ha := h a (by simp)
    have hb := h b (by simp)
    refine ⟨[a / 4, a % 4 * 16 + b / 16, b % 16 * 4], [_, _, _], 1,
      .cons (base64Digit_alphabet _ (by omega)) (.cons (base64Digit_alphabet _ (by omega))
        (.cons (base64Digit_alphabet _ (by omega)) .nil)), rfl, by omega, (by rw [encodeBase64]; simp), ?_⟩
    simp only [List.flatMap_cons, List.flatMap_nil, List.append_nil]
    rw [← bits_first ha, show b % 16 * 4 = b % 16 * 2 ^ 2 from rfl, bits_zeros (b % 16) 2 4,
      ← List.append_assoc (bitsOf 6 (a % 4 * 16 + b / 16)), bits_second hb]
    simp only [List.append_assoc]
  | a :: b :: c :: rest, h => by
    have ha := h a (by simp)
    have hb := h b (by simp)
    have hc := h c (by simp)
    obtain ⟨digits, chars, pad, h1, h2, h3, h4, h5⟩ := encodeBase64_spec rest (fun x hx => h x (by simp [hx]))
    refine ⟨a / 4 :: (a % 4 * 16 + b / 16) :: (b % 16 * 4 + c / 64) :: (c % 64) :: digits, _ :: _ :: _ :: _ :: chars, pad,
      .cons (base64Digit_alphabet _ (by omega)) (.cons (base64Digit_alphabet _ (by omega))
        (.cons (base64Digit_alphabet _ (by omega)) (.cons (base64Digit_alphabet _ (by omega)) h1))),
      by rw [encodeBase64, h2]; rfl, h3, ?_, ?_⟩
    · rw [encodeBase64]
      simp only [List.length_cons]
      omega
    · simp only [List.flatMap_cons]
      rw [h5, ← bits_first ha]
      have h2' := bits_second (a := a) hb
      have h3' := bits_third (b := b) hc
      have : bitsOf 6 (a % 4 * 16 + b / 16) ++ (bitsOf 6 (b % 16 * 4 + c / 64) ++ bitsOf 6 (c % 64))
          = [a / 2 % 2, a % 2] ++ (bitsOf 8 b ++ bitsOf 8 c) := by
        rw [h3', ← List.append_assoc, h2', List.append_assoc]
      have this' := congrArg (· ++ (rest.flatMap (bitsOf 8) ++ List.replicate (2 * pad) 0)) this
      simp only [List.append_assoc] at this' ⊢
      rw [this']

end Snips
