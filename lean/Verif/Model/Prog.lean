import Verif.Model.Utils

/-!
# Entity extraction as an effect

Engine code reaches the shared mutable state (the two entity caches) only through the traits
`BuiltinEntityParser` and `CustomEntityParser`.  Code that calls them is modelled as a `Prog`: a tree
of extraction requests.  `Prog.run` interprets it with arbitrary extractors (no cache); the caching and
the concurrent interpreters are in `Verif.Model.EntityParser` and `Verif.Model.Concurrent`.
-/

namespace Snips

/-- `BuiltinEntityKind` (snips_nlu_ontology, external): an opaque identifier. -/
abbrev Kind := Nat

/-- `SlotValue` (snips_nlu_ontology, external): a custom value, or an opaque builtin value. -/
inductive SlotValue where
  | custom (t : Text)
  | builtin (v : Nat)
deriving DecidableEq, Repr

/-- `BuiltinEntity` (snips_nlu_ontology, external). -/
structure BuiltinEntity where
  value : Text
  range : Rng
  entity : SlotValue
  alternatives : List SlotValue
  kind : Kind
deriving DecidableEq, Repr

/-- `CustomEntity = GazetteerEntityMatch<String>` (src/entity_parser/custom_entity_parser.rs:22). -/
structure CustomEntity where
  value : Text
  resolved : Text
  alternatives : List Text
  range : Rng
  identifier : Text
deriving DecidableEq, Repr

/-- What callers of *cached* builtin extraction look at: range and kind of each match.  All call sites
with `use_cache = true` keep nothing else (lookup parser :266-271, deterministic parser :217-222,
featurizer.rs:183-192 and :315-326, features.rs:362-376). -/
structure KindMatch where
  range : Rng
  kind : Kind
deriving DecidableEq, Repr

/-- The part of a builtin entity that callers of cached extraction use. -/
def BuiltinEntity.kindMatch (e : BuiltinEntity) : KindMatch := ⟨e.range, e.kind⟩

/-- Code that may request entity extractions. -/
inductive Prog (α : Type) where
  | ret (a : α)
  | fail (e : Err)
  | panic
  /-- `builtin_entity_parser.extract_entities(s, kinds, true, 0)?` followed by `k`
  (all call sites with `use_cache = true` ask for 0 alternatives) -/
  | builtinCached (s : Text) (kinds : Option (List Kind)) (k : List KindMatch → Prog α)
  /-- `builtin_entity_parser.extract_entities(s, kinds, false, n)?` followed by `k` -/
  | builtinFresh (s : Text) (kinds : Option (List Kind)) (n : Nat) (k : List BuiltinEntity → Prog α)
  /-- `custom_entity_parser.extract_entities(s, kinds, n)?` followed by `k` -/
  | custom (s : Text) (kinds : Option (List Text)) (n : Nat) (k : List CustomEntity → Prog α)

namespace Prog

/-- Sequential composition with `?` (errors and panics abort). -/
def bind {α β : Type} : Prog α → (α → Prog β) → Prog β
  | ret a, f => f a
  | fail e, _ => fail e
  | panic, _ => panic
  | builtinCached s kinds k, f => builtinCached s kinds (fun r => (k r).bind f)
  | builtinFresh s kinds n k, f => builtinFresh s kinds n (fun r => (k r).bind f)
  | custom s kinds n k, f => custom s kinds n (fun r => (k r).bind f)

instance : Monad Prog where
  pure := ret
  bind := bind

/-- Code without extraction requests. -/
def ofOutcome {α : Type} : Outcome α → Prog α
  | .ok a => ret a
  | .err e => fail e
  | .panic => panic

/-- `iter.map(f).collect::<Result<Vec<_>>>()?` and `for` loops pushing results in order. -/
def mapM {α β : Type} (f : α → Prog β) : List α → Prog (List β)
  | [] => ret []
  | a :: l => (f a).bind fun b => (mapM f l).bind fun bs => ret (b :: bs)

end Prog

/-- Behaviour of the two entity parsers at the trait level. -/
structure World where
  builtin : Text → Option (List Kind) → Nat → Outcome (List BuiltinEntity)
  custom : Text → Option (List Text) → Nat → Outcome (List CustomEntity)

/-- Interpretation with uncached extractors. -/
def Prog.run {α : Type} (w : World) : Prog α → Outcome α
  | ret a => .ok a
  | fail e => .err e
  | panic => .panic
  | builtinCached s kinds k =>
    match w.builtin s kinds 0 with
    | .ok es => (k (es.map BuiltinEntity.kindMatch)).run w
    | .err e => .err e
    | .panic => .panic
  | builtinFresh s kinds n k =>
    match w.builtin s kinds n with
    | .ok es => (k es).run w
    | .err e => .err e
    | .panic => .panic
  | custom s kinds n k =>
    match w.custom s kinds n with
    | .ok es => (k es).run w
    | .err e => .err e
    | .panic => .panic

end Snips
