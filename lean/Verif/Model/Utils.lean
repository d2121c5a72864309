import Verif.Model.Basic

/-! # Model of src/utils.rs (overlap removal and placeholder substitution) -/

namespace Snips

/-- `IterOps::intersect` (src/utils.rs:21-37): elements of the first list that occur in the second. -/
def intersect {α : Type} [DecidableEq α] (xs ys : List α) : List α :=
  xs.filter (fun e1 => ys.any (fun e2 => e1 = e2))

/-- Body of the loop of `deduplicate_overlapping_items` (src/utils.rs:53-60): push the item unless it
overlaps an item already kept. -/
def dedupStep {α : Type} (overlap : α → α → Bool) (kept : List α) (item : α) : List α :=
  if kept.any (fun d => overlap d item) then kept else kept ++ [item]

/-- `deduplicate_overlapping_items` (src/utils.rs:39-62). -/
def dedupItems {α κ : Type} [LE κ] [DecidableLE κ] (overlap : α → α → Bool) (key : α → κ)
    (items : List α) : List α :=
  (sortByKey key items).foldl (dedupStep overlap) []

/-- `MatchedEntity` (src/utils.rs:104-108). -/
structure MatchedEntity where
  range : Rng
  name : Text
deriving DecidableEq, Repr

/-- `deduplicate_overlapping_entities` (src/utils.rs:169-177).  Simplification: the `i32` key does not
wrap (ranges shorter than 2^31). -/
def dedupEntities (es : List MatchedEntity) : List MatchedEntity :=
  sortByKey (fun e => e.range.start)
    (dedupItems (fun a b => rangesOverlap a.range b.range) (fun e => -(e.range.count : Int)) es)

/-- `x as i16`, and the result of wrapping (release mode) `i16` arithmetic. -/
def wrapI16 (x : Int) : Int := Int.bmod x 65536

/-- Number of values of a `usize` (64-bit target). -/
def usizeCount : Nat := 18446744073709551616

/-- `x as usize` for a signed `x` (64-bit target): two's complement. -/
def asUsize (x : Int) : Nat := (x % 18446744073709551616).toNat

/-- Mutable variables of the loop of `replace_entities` (src/utils.rs:143-146). -/
structure ReplaceState where
  mapping : Map Rng Rng
  processed : Text
  offset : Int
  currentIx : Nat

/-- One iteration of the loop of `replace_entities` (src/utils.rs:148-159), with `i16` arithmetic that wraps
around (no overflow checks). -/
def replaceStep (text : Text) (placeholder : Text → Text) (st : ReplaceState) (m : MatchedEntity) :
    ReplaceState :=
  let rangeStart := asUsize (wrapI16 (wrapI16 m.range.start + st.offset))
  let prefixText := substr text ⟨st.currentIx, m.range.start⟩
  let entityText := placeholder m.name
  let processed := st.processed ++ prefixText ++ entityText
  let offset := wrapI16 (st.offset + wrapI16 (wrapI16 entityText.length - wrapI16 m.range.count))
  let rangeEnd := asUsize (wrapI16 (wrapI16 m.range.stop + offset))
  { mapping := Map.insert st.mapping ⟨rangeStart, rangeEnd⟩ m.range
    processed := processed
    offset := offset
    currentIx := m.range.stop }

/-- `replace_entities` (src/utils.rs:128-167), built without overflow checks (release). -/
def replaceEntities (text : Text) (ms : List MatchedEntity) (placeholder : Text → Text) :
    Map Rng Rng × Text :=
  if ms.isEmpty then ([], text)
  else
    let dedup := sortByKey (fun e => e.range.start) (dedupEntities ms)
    let st := dedup.foldl (replaceStep text placeholder) ⟨[], [], 0, 0⟩
    (st.mapping, st.processed ++ suffixFrom text st.currentIx)

/-- The result of an `i16` operation is out of range. -/
def overflowsI16 (x : Int) : Bool := decide (x < -32768) || decide (32767 < x)

/-- One of the four `i16` operations of an iteration overflows (src/utils.rs:149, 154 twice, 155); the casts
truncate silently. -/
def replaceStepOverflows (placeholder : Text → Text) (st : ReplaceState) (m : MatchedEntity) : Bool :=
  let change := wrapI16 (placeholder m.name).length - wrapI16 m.range.count
  let offset := st.offset + wrapI16 change
  overflowsI16 (wrapI16 m.range.start + st.offset) || overflowsI16 change || overflowsI16 offset ||
    overflowsI16 (wrapI16 m.range.stop + wrapI16 offset)

/-- An iteration of the loop of `replace_entities` (src/utils.rs:148-159) overflows. -/
def replaceOverflows (text : Text) (placeholder : Text → Text) : ReplaceState → List MatchedEntity → Bool
  | _, [] => false
  | st, m :: ms =>
    replaceStepOverflows placeholder st m || replaceOverflows text placeholder (replaceStep text placeholder st m) ms

/-- `replace_entities` (src/utils.rs:128-167); in a debug build the `i16` arithmetic is checked and panics. -/
def replaceChecked (debug : Bool) (text : Text) (ms : List MatchedEntity) (placeholder : Text → Text) :
    Outcome (Map Rng Rng × Text) :=
  if debug && replaceOverflows text placeholder ⟨[], [], 0, 0⟩
      (sortByKey (fun e => e.range.start) (dedupEntities ms)) then .panic
  else .ok (replaceEntities text ms placeholder)

end Snips
