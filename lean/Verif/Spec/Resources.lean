import Mathlib.Data.Nat.Digits.Defs
import Verif.Model.Resources

/-! Vocabulary for statements about gazetteers, stemmers and word clusters. -/

namespace Snips

/-- `a`, preceded by `pre`, is the last element of the list with key `k`. -/
def LastAt {α κ : Type} (key : α → κ) (l : List α) (k : κ) (pre : List α) (a : α) : Prop :=
  ∃ post, l = pre ++ a :: post ∧ key a = k ∧ ∀ b ∈ post, key b ≠ k

/-- The records of a cluster file: a word and its cluster, possibly followed by further fields. -/
def ClusterFile (records : List (Outcome (List Text))) (entries : List (Text × Text)) : Prop :=
  List.Forall₂ (fun r e => ∃ more, r = .ok (e.1 :: e.2 :: more)) records entries

/-- The records of a stem file: a stem followed by the words with that stem. -/
def StemFile (records : List (Outcome (List Text))) (entries : List (Text × List Text)) : Prop :=
  List.Forall₂ (fun r e => r = .ok (e.1 :: e.2)) records entries

/-- The lines (word, stem) of a stem file, one for each word. -/
def stemLines (entries : List (Text × List Text)) : List (Text × Text) :=
  entries.flatMap fun e => e.2.map fun w => (w, e.1)

/-- Value of a decimal digit. -/
def digitOf (c : Char) : Nat := c.toNat - '0'.toNat

/-- `t` denotes the 16 bit unsigned number `n`: decimal digits, possibly after a plus sign. -/
def DenotesU16 (t : Text) (n : Nat) : Prop :=
  n < 2 ^ 16 ∧ ∃ digits : Text, (t = digits ∨ t = '+' :: digits) ∧ digits ≠ [] ∧
    (∀ c ∈ digits, '0' ≤ c ∧ c ≤ '9') ∧ Nat.ofDigits 10 (digits.reverse.map digitOf) = n

/-- A name is plain if it is no number, or a number in its usual notation. -/
def PlainName (t : Text) : Prop := ∀ n, DenotesU16 t n → t = (toString n).toList

end Snips
