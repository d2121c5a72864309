import Verif.Model.Readers

/-! What the lines and the records of a text are. -/

namespace Snips

/-- `lines` are the lines of a text: each ends with a line feed, or a carriage return and a line feed, except that the
last one may end with the text. -/
inductive LinesOf {α : Type} (lf cr : α) : List α → List (List α) → Prop
  | nil : LinesOf lf cr [] []
  | last (line : List α) (h : line ≠ []) (h' : lf ∉ line) : LinesOf lf cr line [line]
  | line (line rest : List α) (lines : List (List α)) (h : lf ∉ line) (h' : line.getLast? ≠ some cr)
      (hr : LinesOf lf cr rest lines) : LinesOf lf cr (line ++ lf :: rest) (line :: lines)
  | crlf (line rest : List α) (lines : List (List α)) (h : lf ∉ line)
      (hr : LinesOf lf cr rest lines) : LinesOf lf cr (line ++ cr :: lf :: rest) (line :: lines)

/-- `fields` separated by the delimiter. -/
def delimited {α : Type} (delimiter : α) : List (List α) → List α
  | [] => []
  | [f] => f
  | f :: g :: fs => f ++ delimiter :: delimited delimiter (g :: fs)

/-- `records` are the records of a text: runs of other characters between runs of line feeds and carriage returns, cut
into fields at each delimiter.  (A line without any character is no record.) -/
inductive RecordsOf {α : Type} (lf cr delimiter : α) : List α → List (List (List α)) → Prop
  | nil (breaks : List α) (h : ∀ c ∈ breaks, c = lf ∨ c = cr) : RecordsOf lf cr delimiter breaks []
  | record (breaks rest : List α) (fields : List (List α)) (records : List (List (List α)))
      (h : ∀ c ∈ breaks, c = lf ∨ c = cr) (hn : fields ≠ []) (hn' : fields ≠ [[]])
      (hf : ∀ f ∈ fields, ∀ c ∈ f, c ≠ delimiter ∧ c ≠ lf ∧ c ≠ cr)
      (he : ∀ c, rest.head? = some c → c = lf ∨ c = cr)
      (hr : RecordsOf lf cr delimiter rest records) :
      RecordsOf lf cr delimiter (breaks ++ delimited delimiter fields ++ rest) (fields :: records)

/-- The first record of a file of clusters is a word alone (10, 13 and 9 are the bytes of the line feed, the carriage
return and the tabulation). -/
def BareWord (bytes : List Nat) : Prop :=
  ∃ (word : Text) (records : List (List (List Nat))), RecordsOf 10 13 9 bytes ([encodeUtf8 word] :: records)

end Snips
