import Verif.Model.EntityParser
import Verif.Spec.Extraction

/-! # Which requests to the caching entity parsers make an extraction -/

namespace Snips

/-- The request makes an extraction: with an extractor that panics, it would panic. -/
def Guarded.extracts {κ ν : Type} [DecidableEq κ] (g : Guarded κ ν) (k : κ) : Bool :=
  match (g.access k fun _ => .panic).1 with
  | .panic => true
  | _ => false

/-- A request to one of the caching parsers: the text and the kinds, whether an extraction was made, and whether it was
answered with entities. -/
structure Access where
  key : CacheKey Kind ⊕ CacheKey Text
  extracted : Bool
  answered : Bool

/-- The request was answered with entities. -/
def Outcome.answered {α : Type} : Outcome α → Bool
  | .ok _ => true
  | _ => false

/-- The requests that a code makes to the caching parsers, in order.  Requests for resolved builtin values never use a cache
and are left out. -/
def Prog.accesses {α : Type} (x : Ext) (time : Nat) : Prog α → Caches → List Access
  | .ret _, _ => []
  | .fail _, _ => []
  | .panic, _ => []
  | .builtinCached s kinds k, c =>
    ⟨.inl ⟨x.lower s, kinds, 0⟩, c.builtin.extracts ⟨x.lower s, kinds, 0⟩,
        (x.builtinCachedAccess time s kinds 0 c).1.answered⟩ ::
      match x.builtinCachedAccess time s kinds 0 c with
      | (.ok es, c') => (k (es.map BuiltinEntity.kindMatch)).accesses x time c'
      | _ => []
  | .builtinFresh s kinds n k, c =>
    match x.builtinRaw time (x.lower s) kinds n with
    | .ok es => (k es).accesses x time c
    | _ => []
  | .custom s kinds n k, c =>
    ⟨.inr ⟨x.lower s, kinds, n⟩, c.custom.extracts ⟨x.lower s, kinds, n⟩, (x.customCachedAccess s kinds n c).1.answered⟩ ::
      match x.customCachedAccess s kinds n c with
      | (.ok es, c') => (k es).accesses x time c'
      | _ => []

/-- The requests of calls made one after the other. -/
def historyAccesses {α : Type} (x : Ext) : List (Nat × Prog α) → Caches → List Access
  | [], _ => []
  | (t, p) :: calls, c => p.accesses x t c ++ historyAccesses x calls (p.runCached x t c).2

/-- The answered requests are among these. -/
def AmongKeys (accesses : List Access) (builtin : List (CacheKey Kind)) (custom : List (CacheKey Text)) : Prop :=
  ∀ a ∈ accesses, a.answered = true →
    match a.key with
    | .inl k => k ∈ builtin
    | .inr k => k ∈ custom

end Snips
