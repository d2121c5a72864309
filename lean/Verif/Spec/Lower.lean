import Verif.Model.EntityParser

/-! Vocabulary for statements about lower-casing. -/

namespace Snips

/-- `low` is a lower-casing of `text`: each character is replaced by one of its lower-case forms, `R c form` saying that
`form` (usually one character) is a lower-case form of `c`.  A character may have several forms, chosen by context
(`Σ` becomes `σ` or, at the end of a word, `ς`), and a form may have several characters (`İ` becomes `i` and a dot). -/
def LowerCasing (R : Char → Text → Prop) (text low : Text) : Prop :=
  ∃ forms : List Text, List.Forall₂ R text forms ∧ low = forms.flatten

/-- Every lower-case form of every character of the text is one character. -/
def SingleForms (R : Char → Text → Prop) (text : Text) : Prop := ∀ c ∈ text, ∀ form, R c form → form.length = 1

/-- The builtin engine answers with ranges inside the text it is given, and the text found there. -/
def Ext.BuiltinFaithful (x : Ext) : Prop :=
  ∀ time s kinds n es, x.builtinRaw time s kinds n = .ok es →
    ∀ e ∈ es, e.range.start ≤ e.range.stop ∧ e.range.stop ≤ s.length ∧ e.value = substr s e.range

end Snips
