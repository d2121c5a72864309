import Verif.Model.Prog

/-!
# Model of src/entity_parser: caching parsers, character shifts
-/

namespace Snips

/-- `snips_nlu_utils::token::Token` (external): `range` are byte offsets, `charRange` char offsets. -/
structure Token where
  value : Text
  range : Rng
  charRange : Rng
deriving DecidableEq, Repr

/-- `Iterator::join(sep)` / `Vec<String>::join(sep)`. -/
def joinWith (sep : Text) : List Text → Text
  | [] => []
  | [t] => t
  | t :: t' :: ts => t ++ sep ++ joinWith sep (t' :: ts)

/-- Loop of `compute_char_shifts` (src/entity_parser/custom_entity_parser.rs:141-151); `prev` is
`(previous_token_end, previous_space_len)`, `(0, 0)` for the first token.  Simplification: `i32`
arithmetic does not overflow. -/
def charShiftsFrom (prev : Int × Int) (shift : Int) : List Token → List Int
  | [] => []
  | tok :: toks =>
    let shift' := shift - (((tok.charRange.start : Int) - prev.1) - prev.2)
    let indexShift := (tok.charRange.count : Int) + prev.2
    List.replicate indexShift.toNat shift' ++ charShiftsFrom (tok.charRange.stop, 1) shift' toks

/-- `compute_char_shifts` (src/entity_parser/custom_entity_parser.rs:133-153). -/
def computeCharShifts (toks : List Token) : List Int := charShiftsFrom (0, 0) 0 toks

/-- The closure of `_extract_entities` (src/entity_parser/custom_entity_parser.rs:113-120): move a match
of the joined tokens to the sentence.  Indexing `shifts` out of bounds, and `range_end - 1` for
`range_end = 0`, panic. -/
def remapEntity (shifts : List Int) (e : CustomEntity) : Outcome CustomEntity :=
  match shifts[e.range.start]?, e.range.stop with
  | some s1, stop + 1 =>
    match shifts[stop]? with
    | some s2 =>
      .ok { e with range := ⟨asUsize ((e.range.start : Int) - s1), asUsize ((stop + 1 : Nat) - s2)⟩ }
    | none => .panic
  | _, _ => .panic

/-- `iter.map(f).collect()` where `f` may panic. -/
def mapOutcome {α β : Type} (f : α → Outcome β) : List α → Outcome (List β)
  | [] => .ok []
  | a :: l =>
    match f a with
    | .ok b => match mapOutcome f l with
      | .ok bs => .ok (b :: bs)
      | .err e => .err e
      | .panic => .panic
    | .err e => .err e
    | .panic => .panic

/-- The extraction engines below the caches: `str::to_lowercase`, the tokenizer (for the parser's
language), the builtin parser of `snips_nlu_parsers` (whose *resolved values* may depend on the time of
the call) and the gazetteer parser.  All external. -/
structure Ext where
  lower : Text → Text
  tokenize : Text → List Token
  builtinRaw : (time : Nat) → Text → Option (List Kind) → Nat → Outcome (List BuiltinEntity)
  gazetteer : Text → Option (List Text) → Nat → Outcome (List CustomEntity)

/-- `CachingCustomEntityParser::_extract_entities` (src/entity_parser/custom_entity_parser.rs:96-122). -/
def Ext.customExtract (x : Ext) (sentence : Text) (kinds : Option (List Text)) (n : Nat) :
    Outcome (List CustomEntity) :=
  let toks := x.tokenize sentence
  let shifts := computeCharShifts toks
  let cleaned := joinWith [' '] (toks.map Token.value)
  match x.gazetteer cleaned kinds n with
  | .ok es => mapOutcome (remapEntity shifts) es
  | .err e => .err e
  | .panic => .panic

/-- The extractors without cache at a given time: `extract_entities` of both caching parsers with the
cache left out (builtin_entity_parser.rs:33-48, custom_entity_parser.rs:68-93). -/
def Ext.world (x : Ext) (time : Nat) : World where
  builtin s kinds n := x.builtinRaw time (x.lower s) kinds n
  custom s kinds n := x.customExtract (x.lower s) kinds n

/-- `CacheKey` of both parsers (builtin_entity_parser.rs:26-31, custom_entity_parser.rs:61-66). -/
structure CacheKey (κ : Type) where
  input : Text
  kinds : Option (List κ)
  maxAlt : Nat
deriving DecidableEq, Repr

/-- `LruCache` (crate `lru_cache`, external, transcribed): entries by decreasing recency of use. -/
structure Lru (κ ν : Type) where
  cap : Nat
  entries : List (κ × ν)

/-- `LruCache::get_mut(key).cloned()`: lookup which marks the key as most recently used. -/
def Lru.getMut {κ ν : Type} [DecidableEq κ] (c : Lru κ ν) (k : κ) : Option ν × Lru κ ν :=
  match c.entries.lookup k with
  | some v => (some v, { c with entries := (k, v) :: c.entries.filter (fun e => e.1 ≠ k) })
  | none => (none, c)

/-- `LruCache::insert`: the key becomes the most recently used; if the capacity is exceeded the least
recently used entry is removed. -/
def Lru.insert {κ ν : Type} [DecidableEq κ] (c : Lru κ ν) (k : κ) (v : ν) : Lru κ ν :=
  let entries := (k, v) :: c.entries.filter (fun e => e.1 ≠ k)
  { c with entries := if entries.length > c.cap then entries.dropLast else entries }

/-- `Cache::try_cache` (src/entity_parser/utils.rs:21-29). -/
def Lru.tryCache {κ ν : Type} [DecidableEq κ] (c : Lru κ ν) (k : κ) (producer : κ → Outcome ν) :
    Outcome ν × Lru κ ν :=
  match c.getMut k with
  | (some v, c') => (.ok v, c')
  | (none, c') =>
    match producer k with
    | .ok v => (.ok v, c'.insert k v)
    | .err e => (.err e, c')
    | .panic => (.panic, c')

/-- `Mutex<Cache<..>>`, between two accesses: the protected cache and the poison flag. -/
structure Guarded (κ ν : Type) where
  cache : Lru κ ν
  poisoned : Bool

/-- `mutex.lock().unwrap().try_cache(key, producer)`: panics if the mutex is poisoned; a panic of the
producer poisons the mutex. -/
def Guarded.access {κ ν : Type} [DecidableEq κ] (g : Guarded κ ν) (k : κ)
    (producer : κ → Outcome ν) : Outcome ν × Guarded κ ν :=
  if g.poisoned then (.panic, g)
  else
    let r := g.cache.tryCache k producer
    (r.1, ⟨r.2, match r.1 with | .panic => true | _ => false⟩)

/-- The shared mutable state of an engine: `SharedResources::{builtin,custom}_entity_parser` caches. -/
structure Caches where
  builtin : Guarded (CacheKey Kind) (List BuiltinEntity)
  custom : Guarded (CacheKey Text) (List CustomEntity)

/-- A freshly loaded engine: empty caches (capacity 1000 in src/resources/loading.rs:48-51). -/
def Caches.empty (cap : Nat) : Caches := ⟨⟨⟨cap, []⟩, false⟩, ⟨⟨cap, []⟩, false⟩⟩

/-- `CachingBuiltinEntityParser::extract_entities` with `use_cache = true`
(src/entity_parser/builtin_entity_parser.rs:33-66).  As in the code, the producer uses the key's input
and the `kinds`/`n` of the request. -/
def Ext.builtinCachedAccess (x : Ext) (time : Nat) (s : Text) (kinds : Option (List Kind)) (n : Nat)
    (c : Caches) : Outcome (List BuiltinEntity) × Caches :=
  let key : CacheKey Kind := ⟨x.lower s, kinds, n⟩
  let r := c.builtin.access key (fun key => x.builtinRaw time key.input kinds n)
  (r.1, { c with builtin := r.2 })

/-- `CachingCustomEntityParser::extract_entities` (src/entity_parser/custom_entity_parser.rs:68-93). -/
def Ext.customCachedAccess (x : Ext) (s : Text) (kinds : Option (List Text)) (n : Nat)
    (c : Caches) : Outcome (List CustomEntity) × Caches :=
  let key : CacheKey Text := ⟨x.lower s, kinds, n⟩
  let r := c.custom.access key (fun key => x.customExtract key.input kinds n)
  (r.1, { c with custom := r.2 })

/-- Interpretation of engine code against the caches, at a given time. -/
def Prog.runCached {α : Type} (x : Ext) (time : Nat) : Prog α → Caches → Outcome α × Caches
  | ret a, c => (.ok a, c)
  | fail e, c => (.err e, c)
  | panic, c => (.panic, c)
  | builtinCached s kinds k, c =>
    match x.builtinCachedAccess time s kinds 0 c with
    | (.ok es, c') => (k (es.map BuiltinEntity.kindMatch)).runCached x time c'
    | (.err e, c') => (.err e, c')
    | (.panic, c') => (.panic, c')
  | builtinFresh s kinds n k, c =>
    match x.builtinRaw time (x.lower s) kinds n with
    | .ok es => (k es).runCached x time c
    | .err e => (.err e, c)
    | .panic => (.panic, c)
  | custom s kinds n k, c =>
    match x.customCachedAccess s kinds n c with
    | (.ok es, c') => (k es).runCached x time c'
    | (.err e, c') => (.err e, c')
    | (.panic, c') => (.panic, c')

/-- A history of calls on one engine: each call is made at some time. -/
def runHistory {α : Type} (x : Ext) : List (Nat × Prog α) → Caches → List (Outcome α) × Caches
  | [], c => ([], c)
  | (t, p) :: calls, c =>
    let r := p.runCached x t c
    let rest := runHistory x calls r.2
    (r.1 :: rest.1, rest.2)

end Snips
