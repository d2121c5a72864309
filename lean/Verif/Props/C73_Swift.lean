import Verif.Props.C72_Kotlin

/-! # C73: the Swift wrapper

Full claim: a method of `NluEngine` returns the native answer (converted), throws the message of the library when that is
an error, and leaves nothing behind.  For answers this holds whenever the numbers fit in 32 bits; for errors a string and
a variable are left each time. -/

namespace Snips

variable {κ : Type}

open HM

/-- **C73**, answers and errors.  Missing: after an error, the message is left in the memory of the library and the
variable that points to it in the memory of the wrapper; a message with a null byte is not covered, see
`c73_null_message`. -/
theorem c73_answer_partial {τ : Type} {env : CEnv κ} (hu : env.utf8 = utf8OrErr) (msg : Err → List Nat) (conv : KtConv κ τ)
    (c : CCirc) {client : Addr} {h : Handle} {q : Question} (hq : q.Plain) {s : HMem κ} (ht : s.Tidy)
    (hh : UsableEngine s.c client h) :
    match q.plainStruct env h c with
    | .ok x => (swAsk env msg conv c client q s).1 = (match conv.of q x with
          | .ok y => .ok y
          | .error e => .throws e) ∧
        Kept s (swAsk env msg conv c client q s).2 ∧ StillUsable client h (swAsk env msg conv c client q s).2
    | .err e => 0 ∉ msg e → (swAsk env msg conv c client q s).1 = .throws (.library (msg e)) ∧
        Leaked (.string (msg e)) s (swAsk env msg conv c client q s).2 ∧
        VarLeaked (.string (msg e)) s (swAsk env msg conv c client q s).2 ∧
        StillUsable client h (swAsk env msg conv c client q s).2
    | .panic => (swAsk env msg conv c client q s).1 = .panic := by
  have hfit : q.NumbersFit := by
    cases q with
    | parse => exact hq.2.2.2
    | getSlots => exact hq.2.2
    | getIntents => trivial
  have key := swAsk_ends hu msg conv c hfit ht hh
  rw [struct_of_plain hq] at key
  unfold Ends SwAnswer at key
  cases ho : q.plainStruct env h c with
  | ok x =>
    rw [ho] at key
    obtain ⟨h1, h2⟩ := key
    refine ⟨h1, h2.toKept, h2.tidy ht, ?_⟩
    obtain ⟨h', e1, e2, e3, e4⟩ := (h2.engines client).2 h hh.2.1
    exact ⟨h', ⟨hh.1, e1, e4.trans hh.2.2⟩, e2, e3⟩
  | err e =>
    rw [ho] at key
    intro h0
    obtain ⟨h1, h2⟩ := key.1 h0
    refine ⟨h1, h2.toLeaked, h2.var, h2.tidy, ?_⟩
    obtain ⟨h', e1, e2, e3, e4⟩ := (h2.engines client).2 h hh.2.1
    exact ⟨h', ⟨hh.1, e1, e4.trans hh.2.2⟩, e2, e3⟩
  | panic =>
    rw [ho] at key
    exact key

/-- An error leaves more than there was. -/
theorem c73_leak {τ : Type} {env : CEnv κ} (hu : env.utf8 = utf8OrErr) (msg : Err → List Nat) (conv : KtConv κ τ)
    (c : CCirc) {client : Addr} {h : Handle} {q : Question} (hq : q.Plain) {s : HMem κ} (ht : s.Tidy)
    (hh : UsableEngine s.c client h) {e : Err} (he : q.plainStruct env h c = .err e) (h0 : 0 ∉ msg e) :
    ¬Kept s (swAsk env msg conv c client q s).2 := by
  have key := c73_answer_partial hu msg conv c hq ht hh
  rw [he] at key
  obtain ⟨-, hl, -⟩ := key h0
  intro hk
  obtain ⟨p, hp, hps⟩ := hl.objects
  have := congrFun (hk.objects.symm.trans hps) p
  rw [hp, if_pos rfl] at this
  cases this

/-- A number that does not fit in 32 bits stops the program. -/
theorem c73_trap {τ : Type} (env : CEnv κ) (msg : Err → List Nat) (conv : KtConv κ τ) (c : CCirc) (client : Addr)
    {q : Question} (hq : ¬q.NumbersFit) (s : HMem κ) : (swAsk env msg conv c client q s).1 = .trap :=
  swAsk_traps env msg conv c client hq s

/-- An error whose message has a null byte makes the wrapper read memory that it has not initialised. -/
theorem c73_null_message {τ : Type} {env : CEnv κ} (hu : env.utf8 = utf8OrErr) (msg : Err → List Nat) (conv : KtConv κ τ)
    (c : CCirc) {client : Addr} {h : Handle} {q : Question} (hq : q.Plain) {s : HMem κ} (ht : s.Tidy)
    (hh : UsableEngine s.c client h) {e : Err} (he : q.plainStruct env h c = .err e)
    (h0 : 0 ∈ msg e) : (swAsk env msg conv c client q s).1 = .undefined := by
  have hfit : q.NumbersFit := by
    cases q with
    | parse => exact hq.2.2.2
    | getSlots => exact hq.2.2
    | getIntents => trivial
  have key := swAsk_ends hu msg conv c hfit ht hh
  rw [struct_of_plain hq, he] at key
  exact key.2 h0

/-- The same when an engine cannot be made. -/
theorem c73_init_null_message {env : CEnv κ} (hu : env.utf8 = utf8OrErr) (msg : Err → List Nat) (c : CCirc) {s : HMem κ}
    (ht : s.Tidy) {src : Text ⊕ List Nat} (hsrc : ∀ b, src = .inr b → b ≠ [] ∧ b.length < 2 ^ 32) {e : Err}
    (he : loadSource env c src s.c.disk = .err e) (h0 : 0 ∈ msg e) : (swInit env msg c src s).1 = .undefined := by
  have key := swInit_ends hu msg c ht hsrc
  rw [he] at key
  exact key.2 h0

/-- **C73**, making of an engine: it is the one that the native library loads from the directory, or from the bytes.
Missing: if that fails, the message and a variable are left. -/
theorem c73_init_partial {env : CEnv κ} (hu : env.utf8 = utf8OrErr) (msg : Err → List Nat) (c : CCirc) {s : HMem κ}
    (ht : s.Tidy) {src : Text ⊕ List Nat} (hsrc : ∀ b, src = .inr b → b ≠ [] ∧ b.length < 2 ^ 32) :
    match loadSource env c src s.c.disk with
    | .ok e => ∃ p s', swInit env msg c src s = (.ok p, s') ∧ Added p (Handle.fresh env e) s s' ∧ s'.Tidy
    | .err e => 0 ∉ msg e → ∃ s', swInit env msg c src s = (.throws (.library (msg e)), s') ∧
        Leaked (.string (msg e)) s s' ∧ VarLeaked (.string (msg e)) s s' ∧ s'.Tidy
    | .panic => (swInit env msg c src s).1 = .panic := by
  have key := swInit_ends hu msg c ht hsrc
  unfold Ends SwCreation at key
  rcases hr : swInit env msg c src s with ⟨r, s'⟩
  rw [hr] at key
  cases ho : loadSource env c src s.c.disk with
  | ok e =>
    rw [ho] at key
    obtain ⟨p, h1, h2⟩ := key
    exact ⟨p, s', by simpa using h1, h2.toAdded, h2.tidy ht⟩
  | err e =>
    rw [ho] at key
    intro h0
    exact ⟨s', by simpa using (key.1 h0).1, (key.1 h0).2.toLeaked, (key.1 h0).2.var, (key.1 h0).2.tidy⟩
  | panic =>
    rw [ho] at key
    exact key

/-- Making an engine of no bytes is undefined; of too many bytes it stops the program. -/
theorem c73_init_bytes (env : CEnv κ) (msg : Err → List Nat) (c : CCirc) (s : HMem κ) :
    (swInit env msg c (.inr []) s).1 = .undefined ∧
    ∀ b : List Nat, 4294967296 ≤ b.length → (swInit env msg c (.inr b) s).1 = .trap :=
  ⟨swInit_empty msg c s, fun _ hb => swInit_traps env msg c hb s⟩

/-- **C73**, the release of an engine. -/
theorem c73_deinit (env : CEnv κ) (c : CCirc) {client : Addr} {h : Handle} {s : HMem κ} (hh : UsableEngine s.c client h) :
    (swDeinit env c client s).1 = .ok () ∧ (swDeinit env c client s).2.c.engines client = none ∧
    (∀ a, a ≠ client → (swDeinit env c client s).2.c.engines a = s.c.engines a) ∧
    (swDeinit env c client s).2.c.objects = s.c.objects ∧ (swDeinit env c client s).2.c.strings = s.c.strings ∧
    (swDeinit env c client s).2.c.vars = s.c.vars := by
  have : swDeinit env c client s = ktClose env c client s := by
    unfold swDeinit
    rw [if_pos hh.1]
    rfl
  rw [this]
  exact c72_close env c hh

/-! ### Examples -/

/-- An engine is made; it answers as it does in Kotlin. -/
example : (swInit demoHEnv demoMsg demoCirc (.inl ['/', 'm']) demoHMem).1 = .ok 1 ∧
    (swAsk demoHEnv demoMsg demoConv demoCirc 1 (.parse "stop".toList (some ["halt".toList]) none 0 0)
      demoHMem1).1 = .ok "halt".toList := by decide +kernel

/-- An engine that cannot be made: the message stays at the address 1. -/
example : (swInit demoHEnv demoMsg demoCirc (.inl ['/', 'x']) demoHMem).1 = .throws (.library [111, 111, 112, 115]) ∧
    ((swInit demoHEnv demoMsg demoCirc (.inl ['/', 'x']) demoHMem).2.c.objects 1).isSome ∧
    (swInit demoHEnv demoMsg demoCirc (.inr []) demoHMem).1 = .undefined ∧
    (swAsk demoHEnv demoMsg demoConv demoCirc 1 (.getSlots "stop".toList "halt".toList (-1)) demoHMem1).1 = .trap := by
  decide +kernel

/-- A question that is answered by an error: slots of an intent that does not exist. -/
example : (swAsk demoHEnv demoMsg demoConv demoCirc 1 (.getSlots "stop".toList "no".toList 0) demoHMem1).1 =
    .throws (.library [111, 111, 112, 115]) := by decide +kernel

end Snips
