import Verif.Model.JsonText
import Verif.Conformance.Support

/-! # Comparing JSON documents by computation -/

namespace Snips

/-- Exact numbers. -/
def exactNumbers : JsonNumbers := ⟨some, fun _ => "0.5".toList⟩

mutual

/-- Whether two documents are the same. -/
def Json.beq : Json → Json → Bool
  | .null, .null => true
  | .bool a, .bool b => a == b
  | .int a, .int b => a == b
  | .float a, .float b => a == b
  | .str a, .str b => a == b
  | .arr l, .arr m => beqElements l m
  | .obj l, .obj m => beqMembers l m
  | _, _ => false

/-- Whether two lists of documents are the same. -/
def Json.beqElements : List Json → List Json → Bool
  | [], [] => true
  | a :: l, b :: m => a.beq b && beqElements l m
  | _, _ => false

/-- Whether two lists of entries are the same. -/
def Json.beqMembers : List (Text × Json) → List (Text × Json) → Bool
  | [], [] => true
  | (k, a) :: l, (k', b) :: m => k == k' && a.beq b && beqMembers l m
  | _, _ => false

end

namespace Conformance

/-- The text is read as this document. -/
def reads (t : Text) (j : Json) : Bool :=
  match JsonText.parse exactNumbers t with
  | some j' => j'.beq j
  | none => false

/-- The document is decoded and has these parts. -/
def decoded {α β : Type} [BEq β] (d : Json → Outcome α) (f : α → β) (j : Json) (want : β) : Bool :=
  match d j with
  | .ok a => f a == want
  | _ => false

end Conformance

end Snips
