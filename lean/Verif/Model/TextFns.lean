import Verif.Model.EntityParser

/-! # Text functions of dependencies -/

namespace Snips

/-- Text functions that the parsers take from `snips_nlu_utils` and the standard library; all external
and unconstrained here.  Theorems that need a relation between them state it. -/
structure TextFns where
  /-- `str::to_lowercase` -/
  lower : Text → Text
  /-- `str::to_uppercase` -/
  upper : Text → Text
  /-- `snips_nlu_utils::string::normalize` -/
  normalize : Text → Text
  /-- `snips_nlu_utils::string::get_shape` -/
  shape : Text → Text
  /-- `snips_nlu_utils::token::tokenize(_, language)` with the language of the component -/
  tokenize : Text → List Token
  /-- `snips_nlu_utils::token::tokenize_light(_, language)` with the language of the component -/
  tokenizeLight : Text → List Text
  /-- `snips_nlu_utils::token::tokenize_light(_, NluUtilsLanguage::EN)` -/
  tokenizeLightEn : Text → List Text
  /-- `snips_nlu_utils::string::hash_str_to_i32` -/
  hashStr : Text → Int

/-- Decimal rendering of a natural number (`{}` and `{:?}` of unsigned integers). -/
def natText (n : Nat) : Text := (Nat.repr n).toList

end Snips
