import Verif.Spec.Python
import Verif.Spec.SwiftValues

/-! Programs in Swift and Kotlin, and the files their engines were made from. -/

namespace Snips

variable {κ : Type}

/-- How an engine was made: its address, the directory or the bytes of the archive, and the circumstances and the disk at
that time. -/
structure HostMade where
  address : Addr
  src : Text ⊕ List Nat
  circ : CCirc
  disk : Disk

/-- The engine described by what it was made from: by the files of the directory, or loaded from the archive. -/
def HostMade.Describes (env : CEnv κ) (m : HostMade) (e : LoadedEngine) : Prop :=
  match m.src with
  | .inl dir => EngineAt env.load m.circ.order m.disk.fs (joinPath env.cwd dir) e
  | .inr b => (fromZip env.load m.circ.order m.circ.fault m.circ.left (env.readZip b) m.circ.tmp m.disk).1 = .ok e

/-- The directory has no null character, the archive is not too long. -/
def HostMade.Plain (m : HostMade) : Prop :=
  match m.src with
  | .inl dir => '\x00' ∉ dir
  | .inr b => b.length < 2 ^ 32

/-- Programs in Swift which use the engines they have made and not yet released: `SwHistory env msg conv s0 s l` says that
a program started in `s0` can reach `s`, holding the engines `l`.  Errors may be caught; between two steps the disk may
change. -/
inductive SwHistory {τ : Type} (env : CEnv κ) (msg : Err → List Nat) (conv : KtConv κ τ) (s0 : HMem κ) :
    HMem κ → List HostMade → Prop where
  | start (ht : s0.Tidy) (he : ∀ a, s0.c.engines a = none) : SwHistory env msg conv s0 s0 []
  | init {s s' : HMem κ} {l : List HostMade} (h : SwHistory env msg conv s0 s l) (c : CCirc) (src : Text ⊕ List Nat)
      {p : Addr} (hr : swInit env msg c src s = (.ok p, s')) : SwHistory env msg conv s0 s' (⟨p, src, c, s.c.disk⟩ :: l)
  | initThrows {s s' : HMem κ} {l : List HostMade} (h : SwHistory env msg conv s0 s l) (c : CCirc)
      (src : Text ⊕ List Nat) {e : HostError} (hr : swInit env msg c src s = (.throws e, s')) :
      SwHistory env msg conv s0 s' l
  | ask {s s' : HMem κ} {l : List HostMade} (h : SwHistory env msg conv s0 s l) (c : CCirc) {m : HostMade} (hm : m ∈ l)
      (q : Question) {y : τ} (hr : swAsk env msg conv c m.address q s = (.ok y, s')) : SwHistory env msg conv s0 s' l
  | askThrows {s s' : HMem κ} {l : List HostMade} (h : SwHistory env msg conv s0 s l) (c : CCirc) {m : HostMade}
      (hm : m ∈ l) (q : Question) {e : HostError} (hr : swAsk env msg conv c m.address q s = (.throws e, s')) :
      SwHistory env msg conv s0 s' l
  | deinit {s s' : HMem κ} {l : List HostMade} (h : SwHistory env msg conv s0 s l) (c : CCirc) {m : HostMade}
      (hm : m ∈ l) (hr : swDeinit env c m.address s = (.ok (), s')) :
      SwHistory env msg conv s0 s' (l.filter fun x => x.address ≠ m.address)
  | disk {s : HMem κ} {l : List HostMade} (h : SwHistory env msg conv s0 s l) (d : Disk) :
      SwHistory env msg conv s0 { s with c := { s.c with disk := d } } l

/-- The texts in a value. -/
def OValue.texts : OValue → List Text
  | .custom t | .musicAlbum t | .musicArtist t | .musicTrack t | .city t | .country t | .region t => [t]
  | .instantTime value _ _ => [value]
  | .timeInterval start stop => start.toList ++ stop.toList
  | .amountOfMoney _ _ unit | .temperature _ unit => unit.toList
  | .number _ | .ordinal _ | .duration _ _ | .percentage _ => []

/-- The texts in a slot. -/
def Slot.texts (meaning : Nat → OValue) (s : Slot) : List Text :=
  s.rawValue :: s.entity :: s.slotName :: (s.value :: s.alternatives).flatMap fun v => (v.meant meaning).texts

/-- The texts in an answer of `parse`. -/
def ParseResult.texts (meaning : Nat → OValue) (r : ParseResult) : List Text :=
  r.input :: r.intent.name.toList ++ r.slots.flatMap (Slot.texts meaning) ++
    r.alternatives.flatMap fun a => a.intent.name.toList ++ a.slots.flatMap (Slot.texts meaning)

/-- What a program in Swift is told about an outcome of the library: a structure that shows the answer, an error with the
message of the library, or a panic. -/
structure SwTold {α : Type} (msg : Err → List Nat) (shows' : α → SwResult → Prop) (o : Outcome α) (r : HEnd SwResult) :
    Prop where
  answer : ∀ a, o = .ok a → ∃ w, r = .ok w ∧ shows' a w
  error : ∀ e, o = .err e → 0 ∉ msg e → r = .throws (.library (msg e))
  panic : o = .panic → r = .panic

/-- The questions of a program in Swift to the engine at an address are answered by the given engine, at any time, whatever
order hash maps have, if texts have no null character, numbers fit in 32 bits, and the answer can be shown in Swift. -/
structure SwTells (meaning : Nat → OValue) (repair : List Nat → Text) (env : CEnv CAnswer) (msg : Err → List Nat)
    (s : HMem CAnswer) (address : Addr) (e : LoadedEngine) : Prop where
  parse : ∀ (c : CCirc) (text : Text) (wl bl : Option (List Text)) (ni ns : Nat), '\x00' ∉ text →
    (∀ l ∈ wl, ∀ t ∈ l, '\x00' ∉ t) → (∀ l ∈ bl, ∀ t ∈ l, '\x00' ∉ t) → ni < 2 ^ 32 → ns < 2 ^ 32 →
    ∀ a, e.answers env.load.names c.time (·.parseWithAlternatives c.order text wl bl ni ns) = a →
    (∀ r, a = .ok r → r.Shown meaning ∧ ∀ t ∈ r.texts meaning, '\x00' ∉ t) →
    SwTold msg (ShowsResult meaning) a (swAsk env msg (swConv repair) c address (.parse text wl bl ni ns) s).1
  getSlots : ∀ (c : CCirc) (text intent : Text) (ns : Nat), '\x00' ∉ text → '\x00' ∉ intent → ns < 2 ^ 32 →
    ∀ a, e.answers env.load.names c.time (·.getSlotsWithAlternatives c.order text intent ns) = a →
    (∀ l, a = .ok l → ∀ x ∈ l, x.Shown meaning ∧ ∀ t ∈ x.texts meaning, '\x00' ∉ t) →
    SwTold msg (fun l w => ∃ ws, w = .slots ws ∧ List.Forall₂ (ShowsSlot meaning) l ws) a
      (swAsk env msg (swConv repair) c address (.getSlots text intent ns) s).1
  getIntents : ∀ (c : CCirc) (text : Text), '\x00' ∉ text →
    ∀ a, e.answers env.load.names c.time (·.getIntents c.order text) = a →
    (∀ l, a = .ok l → ∀ x ∈ l, ∀ t ∈ x.name, '\x00' ∉ t) →
    SwTold msg (fun l w => ∃ ws, w = .intents ws ∧ List.Forall₂ ShowsIntent l ws) a
      (swAsk env msg (swConv repair) c address (.getIntents text) s).1

/-! ### Kotlin -/

/-- Programs in Kotlin which use the engines they have made and not yet closed, give no empty list as filter, and during
whose calls the garbage collector does not run. -/
inductive KtHistory {τ : Type} (env : CEnv κ) (msg : Err → List Nat) (conv : KtConv κ τ) (s0 : HMem κ) :
    HMem κ → List HostMade → Prop where
  | start (ht : s0.Tidy) (he : ∀ a, s0.c.engines a = none) : KtHistory env msg conv s0 s0 []
  | create {s s' : HMem κ} {l : List HostMade} (h : KtHistory env msg conv s0 s l) (c : CCirc) (src : Text ⊕ List Nat)
      {p : Addr} (hr : ktCreate env msg c src s = (.ok p, s')) : KtHistory env msg conv s0 s' (⟨p, src, c, s.c.disk⟩ :: l)
  | createThrows {s s' : HMem κ} {l : List HostMade} (h : KtHistory env msg conv s0 s l) (c : CCirc)
      (src : Text ⊕ List Nat) {e : HostError} (hr : ktCreate env msg c src s = (.throws e, s')) :
      KtHistory env msg conv s0 s' l
  | ask {s s' : HMem κ} {l : List HostMade} (h : KtHistory env msg conv s0 s l) (c : CCirc) {m : HostMade} (hm : m ∈ l)
      (q : Question) (hf : q.FiltersNotEmpty) {y : τ}
      (hr : ktAsk env msg conv (fun _ => false) c m.address q s = (.ok y, s')) : KtHistory env msg conv s0 s' l
  | askThrows {s s' : HMem κ} {l : List HostMade} (h : KtHistory env msg conv s0 s l) (c : CCirc) {m : HostMade}
      (hm : m ∈ l) (q : Question) (hf : q.FiltersNotEmpty) {e : HostError}
      (hr : ktAsk env msg conv (fun _ => false) c m.address q s = (.throws e, s')) : KtHistory env msg conv s0 s' l
  | askJson {s s' : HMem κ} {l : List HostMade} (h : KtHistory env msg conv s0 s l) (c : CCirc) {m : HostMade}
      (hm : m ∈ l) (q : Question) (hf : q.FiltersNotEmpty) {b : List Nat}
      (hr : ktAskJson env msg (fun _ => false) c m.address q s = (.ok b, s')) : KtHistory env msg conv s0 s' l
  | askJsonThrows {s s' : HMem κ} {l : List HostMade} (h : KtHistory env msg conv s0 s l) (c : CCirc) {m : HostMade}
      (hm : m ∈ l) (q : Question) (hf : q.FiltersNotEmpty) {e : HostError}
      (hr : ktAskJson env msg (fun _ => false) c m.address q s = (.throws e, s')) : KtHistory env msg conv s0 s' l
  | close {s s' : HMem κ} {l : List HostMade} (h : KtHistory env msg conv s0 s l) (c : CCirc) {m : HostMade}
      (hm : m ∈ l) (hr : ktClose env c m.address s = (.ok (), s')) :
      KtHistory env msg conv s0 s' (l.filter fun x => x.address ≠ m.address)
  | disk {s : HMem κ} {l : List HostMade} (h : KtHistory env msg conv s0 s l) (d : Disk) :
      KtHistory env msg conv s0 { s with c := { s.c with disk := d } } l

/-- What Kotlin is told as JSON about an outcome of the library. -/
structure KtTold {α : Type} (w : Shown.Writing) (msg : Err → List Nat) (shows' : Json → α → Prop) (o : Outcome α)
    (r : HEnd (List Nat)) : Prop where
  answer : ∀ a, o = .ok a → ∃ b, r = .ok b ∧ ReadAs w.f64 b (shows' · a)
  error : ∀ e, o = .err e → r = .throws (ktRaised msg e)
  panic : o = .panic → r = .panic

/-- The questions of a Kotlin program to the engine at an address are answered by the given engine, as JSON and as C
structures which are then converted. -/
structure KtTells {τ : Type} (w : Shown.Writing) (meaning : Nat → OValue) (env : CEnv κ) (msg : Err → List Nat)
    (conv : KtConv κ τ) (s : HMem κ) (address : Addr) (e : LoadedEngine) : Prop where
  parseJson : ∀ (c : CCirc) (text : Text) (wl bl : Option (List Text)) (ni ns : Nat), '\x00' ∉ text →
    (∀ l ∈ wl, ∀ t ∈ l, '\x00' ∉ t) → (∀ l ∈ bl, ∀ t ∈ l, '\x00' ∉ t) → wl ≠ some [] → bl ≠ some [] →
    ni < 2 ^ 32 → ns < 2 ^ 32 →
    ∀ a, e.answers env.load.names c.time (·.parseWithAlternatives c.order text wl bl ni ns) = a →
    (∀ r, a = .ok r → w.WritesResult meaning r) →
    KtTold w msg (Shown.Result w.rd meaning) a
      (ktAskJson env msg (fun _ => false) c address (.parse text wl bl ni ns) s).1
  getSlotsJson : ∀ (c : CCirc) (text intent : Text) (ns : Nat), '\x00' ∉ text → '\x00' ∉ intent → ns < 2 ^ 32 →
    ∀ a, e.answers env.load.names c.time (·.getSlotsWithAlternatives c.order text intent ns) = a →
    (∀ l, a = .ok l → ∀ x ∈ l, w.WritesSlot meaning x) →
    KtTold w msg (fun j l => ∃ js, j = .arr js ∧ List.Forall₂ (Shown.Slot' w.rd meaning) js l) a
      (ktAskJson env msg (fun _ => false) c address (.getSlots text intent ns) s).1
  getIntentsJson : ∀ (c : CCirc) (text : Text), '\x00' ∉ text →
    ∀ a, e.answers env.load.names c.time (·.getIntents c.order text) = a → (∀ l, a = .ok l → ∀ x ∈ l, w.Writes32 x.score) →
    KtTold w msg (fun j l => ∃ js, j = .arr js ∧ List.Forall₂ (Shown.Intent w.rd) js l) a
      (ktAskJson env msg (fun _ => false) c address (.getIntents text) s).1
  parse : ∀ (c : CCirc) (text : Text) (wl bl : Option (List Text)) (ni ns : Nat), '\x00' ∉ text →
    (∀ l ∈ wl, ∀ t ∈ l, '\x00' ∉ t) → (∀ l ∈ bl, ∀ t ∈ l, '\x00' ∉ t) → wl ≠ some [] → bl ≠ some [] →
    ni < 2 ^ 32 → ns < 2 ^ 32 →
    (ktAsk env msg conv (fun _ => false) c address (.parse text wl bl ni ns) s).1 =
      (e.answers env.load.names c.time (·.parseWithAlternatives c.order text wl bl ni ns) >>= env.cResult).hostedBy
        (ktRaised msg) conv.result
  getSlots : ∀ (c : CCirc) (text intent : Text) (ns : Nat), '\x00' ∉ text → '\x00' ∉ intent → ns < 2 ^ 32 →
    (ktAsk env msg conv (fun _ => false) c address (.getSlots text intent ns) s).1 =
      (e.answers env.load.names c.time (·.getSlotsWithAlternatives c.order text intent ns) >>= env.cSlots).hostedBy
        (ktRaised msg) conv.slots
  getIntents : ∀ (c : CCirc) (text : Text), '\x00' ∉ text →
    (ktAsk env msg conv (fun _ => false) c address (.getIntents text) s).1 =
      (e.answers env.load.names c.time (·.getIntents c.order text) >>= env.cIntents).hostedBy (ktRaised msg) conv.intents

end Snips
