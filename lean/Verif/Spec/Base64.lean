import Verif.Model.Basic

/-! Vocabulary: the base64 encoding (RFC 4648), in terms of bits. -/

namespace Snips

/-- The `width` binary digits of a number, most significant first. -/
def bitsOf (width n : Nat) : List Nat := (List.range width).map fun i => n / 2 ^ (width - 1 - i) % 2

/-- The characters of the 64 digits, in order. -/
def base64Alphabet : Text := "ABCDEFGHIJKLMNOPQRSTUVWXYZabcdefghijklmnopqrstuvwxyz0123456789+/".toList

/-- The text is the base64 encoding of the bytes: the bits of the bytes, completed by zeros to a multiple of six, are cut
into groups of six, each of which is written as one character of the alphabet; signs of padding complete the text
to a multiple of four characters, each of them stands for two of the added zeros. -/
def IsBase64 (bytes : List Nat) (text : Text) : Prop :=
  ∃ (digits : List Nat) (chars : Text) (pad : Nat),
    List.Forall₂ (fun d c => base64Alphabet[d]? = some c) digits chars ∧
    text = chars ++ List.replicate pad '=' ∧ pad ≤ 2 ∧ text.length % 4 = 0 ∧
    digits.flatMap (bitsOf 6) = bytes.flatMap (bitsOf 8) ++ List.replicate (2 * pad) 0

end Snips
