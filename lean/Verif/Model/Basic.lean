import Mathlib.Data.List.Sort
import Mathlib.Algebra.Order.Field.Rat

/-!
# Basic vocabulary of the model

Conventions used by all model files (see DESIGN.md):
* a Rust `String`/`&str` is the list of its Unicode scalar values;
* `Result` and panics are `Outcome`;
* a `HashMap` is an association list with distinct keys whose order is the iteration order.
-/

namespace Snips

/-- Rust `String` / `&str`: the list of its `char`s. -/
abbrev Text := List Char

/-- Errors a call can end with.  Models `crate::errors` (src/errors.rs:1-15), the `format_err!`/`bail!`
sites of the crate and errors coming from dependencies (`external`).  Simplification: the context
messages added by `with_context` are not kept. -/
inductive Err where
  /-- `SnipsNluError::UnknownIntent` (src/errors.rs:9-10) -/
  | unknownIntent (intent : Text)
  /-- `SnipsNluError::WrongModelVersion` (src/errors.rs:7-8) -/
  | wrongModelVersion (model runner : Text)
  /-- `format_err!("Cannot use unknown intent '{}' in intents filter")` (src/nlu_engine.rs:259-262) -/
  | unknownFilterIntent (intent : Text)
  /-- `format_err!("Unknown intent: {}")` (src/nlu_engine.rs:416) -/
  | extractUnknownIntent (intent : Text)
  /-- `format_err!("Unknown slot: {}")` (src/nlu_engine.rs:418) -/
  | extractUnknownSlot (slot : Text)
  /-- `BuiltinEntityKind::from_identifier` failing on an unknown identifier -/
  | unknownBuiltinEntity (name : Text)
  /-- `NluInjectionErrorKind::EntityNotInjectable` (src/injection/errors.rs:12-13) -/
  | entityNotInjectable (entity : Text)
  /-- any other error built by this crate, numbered per site -/
  | site (n : Nat)
  /-- error returned by a dependency or by the operating system -/
  | external (n : Nat)
deriving DecidableEq, Repr

/-- Outcome of a Rust call returning `Result<α>`: a value, an error value, or a panic. -/
inductive Outcome (α : Type) where
  | ok (a : α)
  | err (e : Err)
  | panic
deriving DecidableEq, Repr

namespace Outcome

/-- The `?` operator (and propagation of panics). -/
def bind {α β : Type} : Outcome α → (α → Outcome β) → Outcome β
  | ok a, f => f a
  | err e, _ => err e
  | panic, _ => panic

instance : Monad Outcome where
  pure := ok
  bind := bind

/-- `Option::ok_or_else(..)`: absent value as error. -/
def ofOption {α : Type} (e : Err) : Option α → Outcome α
  | some a => ok a
  | none => err e

/-- `Option::unwrap()`, `map[key]`, `vec[i]`: absent value as panic. -/
def unwrap {α : Type} : Option α → Outcome α
  | some a => ok a
  | none => panic

end Outcome

/-- `std::ops::Range<usize>`. -/
structure Rng where
  start : Nat
  stop : Nat
deriving DecidableEq, Repr

/-- `range.clone().count()`: number of values produced by the range, 0 when it is reversed. -/
def Rng.count (r : Rng) : Nat := r.stop - r.start

/-- `snips_nlu_utils::range::ranges_overlap` (external crate, transcribed from its documented
behaviour). -/
def rangesOverlap (a b : Rng) : Bool := a.start < b.stop && a.stop > b.start

/-- `snips_nlu_utils::string::substring_with_char_range` (external crate, transcribed): the characters
whose index is in the range.  Simplification: an out-of-bounds range gives the characters that exist. -/
def substr (t : Text) (r : Rng) : Text := (t.drop r.start).take (r.stop - r.start)

/-- `snips_nlu_utils::string::suffix_from_char_index` (external crate, transcribed). -/
def suffixFrom (t : Text) (i : Nat) : Text := t.drop i

/-- Stable sort by a key, as `slice::sort_by_key` (Rust's slice sort is stable).  Insertion sort is
used because every stable sort computes the same list. -/
def sortByKey {α κ : Type} [LE κ] [DecidableLE κ] (key : α → κ) (l : List α) : List α :=
  l.insertionSort (fun a b => key a ≤ key b)

/-- Stable sort by decreasing score, as `sorted_by(|a, b| b.partial_cmp(&a).unwrap())`.
Simplification: scores are never NaN. -/
def sortDesc {α : Type} (score : α → ℚ) (l : List α) : List α :=
  l.insertionSort (fun a b => score b ≤ score a)

/-- `HashMap<κ, ν>`: association list; the order of the list is the iteration order. -/
abbrev Map (κ ν : Type) := List (κ × ν)

/-- `HashMap::get`. -/
def Map.get {κ ν : Type} [DecidableEq κ] (m : Map κ ν) (k : κ) : Option ν := m.lookup k

/-- `HashMap::insert`: replaces the value of an existing key, else adds the key. -/
def Map.insert {κ ν : Type} [DecidableEq κ] : Map κ ν → κ → ν → Map κ ν
  | [], k, v => [(k, v)]
  | (k', v') :: m, k, v => if k' = k then (k, v) :: m else (k', v') :: Map.insert m k v

/-- `HashMap::keys`. -/
def Map.keys {κ ν : Type} (m : Map κ ν) : List κ := m.map Prod.fst

/-- Iteration order of a hash map (or set) built during a call: an arbitrary permutation, which may
differ from place to place (`site`) and from call to call. -/
structure HashOrd where
  order : Nat → {α : Type} → List α → List α
  perm : ∀ (site : Nat) {α : Type} (l : List α), (order site l).Perm l

/-- The order in which the elements were inserted (used in concrete examples). -/
def HashOrd.insertion : HashOrd := ⟨fun _ _ l => l, fun _ _ l => List.Perm.refl l⟩

/-- Rounding of `f32` operations: every arithmetic result `x` becomes `rnd x`.  Simplification: no
overflow, underflow, infinity or NaN (values met here are confidence scores and small counts). -/
structure Rounding where
  rnd : ℚ → ℚ
  mono : ∀ {x y : ℚ}, x ≤ y → rnd x ≤ rnd y
  idem : ∀ x : ℚ, rnd (rnd x) = rnd x
  zero : rnd 0 = 0
  one : rnd 1 = 1
  half : rnd (1 / 2) = 1 / 2
  double : ∀ x : ℚ, rnd (2 * rnd x) = 2 * rnd x
  pos : ∀ {x : ℚ}, 0 < x → 0 < rnd x

/-- Exact arithmetic as a rounding. -/
def Rounding.exact : Rounding :=
  ⟨id, fun h => h, fun _ => rfl, rfl, rfl, rfl, fun _ => rfl, fun h => h⟩

end Snips
