import Verif.Model.Basic

/-! # Byte offsets in UTF-8 text

Rust slices `&str` by byte offsets and panics off character boundaries. -/

namespace Snips

/-- `str::len`: number of bytes of the UTF-8 encoding. -/
def byteLen : Text → Nat
  | [] => 0
  | c :: t => c.utf8Size + byteLen t

/-- The number of characters before byte offset `b`, if `b` is a character boundary. -/
def charBoundary : Text → Nat → Option Nat
  | _, 0 => some 0
  | [], _ + 1 => none
  | c :: t, b + 1 => if c.utf8Size ≤ b + 1 then (charBoundary t (b + 1 - c.utf8Size)).map (· + 1) else none

/-- `&text[range]` (slicing of `str`): panics when the range is reversed, out of bounds or off a
character boundary.  Used by src/slot_filler/crf_utils.rs:179. -/
def byteSlice (t : Text) (r : Rng) : Outcome Text :=
  if r.start ≤ r.stop then
    match charBoundary t r.start, charBoundary t r.stop with
    | some i, some j => .ok (substr t ⟨i, j⟩)
    | _, _ => .panic
  else .panic

/-- Loop of `convert_to_char_index`. -/
def convertToCharIndexFrom : Text → (acc charIndex : Nat) → (byteIndex : Nat) → Nat
  | [], _, charIndex, _ => charIndex
  | c :: t, acc, charIndex, b =>
    if b < acc + c.utf8Size then charIndex
    else convertToCharIndexFrom t (acc + c.utf8Size) (charIndex + 1) b

/-- `snips_nlu_utils::string::convert_to_char_index` (external crate, transcribed from memory): index
of the character containing the byte, number of characters if beyond the end. -/
def convertToCharIndex (t : Text) (b : Nat) : Nat := convertToCharIndexFrom t 0 0 b

/-- `snips_nlu_utils::string::convert_to_char_range` (external crate, transcribed). -/
def convertToCharRange (t : Text) (r : Rng) : Rng :=
  ⟨convertToCharIndex t r.start, convertToCharIndex t r.stop⟩

end Snips
