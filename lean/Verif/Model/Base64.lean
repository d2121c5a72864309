import Verif.Model.Readers
import Verif.Model.SlotFiller

/-! # Model of the encoding of tags, src/slot_filler/crf_slot_filler.rs:171-181

The `base64` crate (external), transcribed for its standard alphabet with padding.  Bytes are numbers below 256. -/

namespace Snips

/-- The character of a base64 digit (`base64::encode`, external, transcribed). -/
def base64Digit (n : Nat) : Char :=
  if n < 26 then Char.ofNat (65 + n)
  else if n < 52 then Char.ofNat (97 + (n - 26))
  else if n < 62 then Char.ofNat (48 + (n - 52))
  else if n = 62 then '+'
  else '/'

/-- The value of a character, if it is a base64 digit (`base64::decode`, external, transcribed). -/
def base64Value (c : Char) : Option Nat :=
  if 65 ≤ c.toNat ∧ c.toNat ≤ 90 then some (c.toNat - 65)
  else if 97 ≤ c.toNat ∧ c.toNat ≤ 122 then some (c.toNat - 97 + 26)
  else if 48 ≤ c.toNat ∧ c.toNat ≤ 57 then some (c.toNat - 48 + 52)
  else if c = '+' then some 62
  else if c = '/' then some 63
  else none

/-- `base64::encode` (external, transcribed): three bytes become four digits; one or two bytes at the end are
padded. -/
def encodeBase64 : List Nat → Text
  | [] => []
  | [a] => [base64Digit (a / 4), base64Digit (a % 4 * 16), '=', '=']
  | [a, b] => [base64Digit (a / 4), base64Digit (a % 4 * 16 + b / 16), base64Digit (b % 16 * 4), '=']
  | a :: b :: c :: rest =>
    base64Digit (a / 4) :: base64Digit (a % 4 * 16 + b / 16) :: base64Digit (b % 16 * 4 + c / 64) ::
      base64Digit (c % 64) :: encodeBase64 rest

/-- `base64::decode` (external, transcribed) for texts in canonical form: groups of four digits, padding at the end
only, unused bits zero. -/
def decodeBase64 : Text → Option (List Nat)
  | [] => some []
  | a :: b :: c :: d :: rest =>
    if c = '=' ∧ d = '=' ∧ rest = [] then
      (base64Value a).bind fun x => (base64Value b).bind fun y =>
        if y % 16 = 0 then some [x * 4 + y / 16] else none
    else if d = '=' ∧ rest = [] then
      (base64Value a).bind fun x => (base64Value b).bind fun y => (base64Value c).bind fun z =>
        if z % 4 = 0 then some [x * 4 + y / 16, y % 16 * 16 + z / 4] else none
    else
      (base64Value a).bind fun x => (base64Value b).bind fun y => (base64Value c).bind fun z =>
        (base64Value d).bind fun v => (decodeBase64 rest).map fun bytes =>
          (x * 4 + y / 16) :: (y % 16 * 16 + z / 4) :: (z % 4 * 64 + v) :: bytes
  | _ => none

/-- `encode_tag` (src/slot_filler/crf_slot_filler.rs:179-181). -/
def encodeTag (tag : Text) : Text := encodeBase64 (encodeUtf8 tag)

/-- `decode_tag` (src/slot_filler/crf_slot_filler.rs:174-177).  Simplification: what `base64::decode` does with texts that
are not in canonical form (which of them it rejects depends on its version) is the parameter `other`. -/
def decodeTag (other : Text → Outcome (List Nat)) (tag : Text) : Outcome Text :=
  match decodeBase64 tag with
  | some bytes => utf8OrErr bytes
  | none => (other tag).bind utf8OrErr

/-- The two functions together. -/
def base64Codec (other : Text → Outcome (List Nat)) : TagCodec := ⟨encodeTag, decodeTag other⟩

end Snips
