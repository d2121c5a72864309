import Verif.Proofs.Swift
import Verif.Props.C71_Python

/-! # C72: the Kotlin wrapper

Full claim: a method of `NluEngine` returns the native answer (converted), throws the message of the library when that is
an error, and leaves nothing behind.  This holds as long as the engine is not closed, no filter is an empty list, the
garbage collector does not run between the making of the filters and the call, and the conversion does not throw; each
of these conditions is needed. -/

namespace Snips

variable {κ : Type}

open HM

/-- **C72**, answers.  Missing: a garbage collection may release the strings of the filters, see `c72_collected`; an empty
list as filter, see `c72_empty_filter`. -/
theorem c72_answer_partial {τ : Type} {env : CEnv κ} (hu : env.utf8 = utf8OrErr) (msg : Err → List Nat) (conv : KtConv κ τ)
    (c : CCirc) {client : Addr} {h : Handle} {q : Question} (hq : q.Plain) (hf : q.FiltersNotEmpty) {s : HMem κ}
    (ht : s.Tidy) (hh : UsableEngine s.c client h) :
    (ktAsk env msg conv (fun _ => false) c client q s).1 = (q.plainStruct env h c).hostedBy (ktRaised msg) (conv.of q) ∧
    (q.plainStruct env h c ≠ .panic → (∀ x e, q.plainStruct env h c = .ok x → conv.of q x ≠ .error e) →
      Kept s (ktAsk env msg conv (fun _ => false) c client q s).2 ∧
      StillUsable client h (ktAsk env msg conv (fun _ => false) c client q s).2) := by
  have key := ktAsk_ends hu msg conv c hf ht hh
  rw [struct_of_plain hq] at key
  obtain ⟨h1, h2⟩ := key
  refine ⟨h1, fun hp hc => ⟨(h2 hp hc).toKept, (h2 hp hc).tidy ht, ?_⟩⟩
  obtain ⟨h', e1, e2, e3, e4⟩ := ((h2 hp hc).engines client).2 h hh.2.1
  exact ⟨h', ⟨hh.1, e1, e4.trans hh.2.2⟩, e2, e3⟩

/-- **C72**, answers as JSON, under the same conditions: they are what the Python wrapper gets. -/
theorem c72_json_partial {env : CEnv κ} (hu : env.utf8 = utf8OrErr) (msg : Err → List Nat) (c : CCirc) {client : Addr}
    {h : Handle} {q : Question} (hf : q.FiltersNotEmpty) {s : HMem κ} (ht : s.Tidy) (hh : UsableEngine s.c client h) :
    (ktAskJson env msg (fun _ => false) c client q s).1 = (q.json env h c).hosted (ktRaised msg) ∧
    (q.json env h c ≠ .panic → Kept s (ktAskJson env msg (fun _ => false) c client q s).2 ∧
      StillUsable client h (ktAskJson env msg (fun _ => false) c client q s).2) ∧
    ∀ b, (ktAskJson env msg (fun _ => false) c client q s).1 = .ok b ↔ (pyAsk env msg c client q s).1 = .ok b := by
  obtain ⟨h1, h2⟩ := ktAskJson_ends hu msg c hf ht hh
  have heq : (q.json env h c).hostedBy (ktRaised msg) .ok = (q.json env h c).hosted (ktRaised msg) := by
    cases q.json env h c <;> rfl
  rw [heq] at h1
  refine ⟨h1, fun hp => ⟨(h2 hp (fun x e _ => by simp)).toKept, (h2 hp (fun x e _ => by simp)).tidy ht, ?_⟩, fun b => ?_⟩
  · obtain ⟨h', e1, e2, e3, e4⟩ := ((h2 hp (fun x e _ => by simp)).engines client).2 h hh.2.1
    exact ⟨h', ⟨hh.1, e1, e4.trans hh.2.2⟩, e2, e3⟩
  · rw [h1, (c71_answer hu msg c q ht hh).1]
    cases q.json env h c <;> simp [Outcome.hosted]

/-- The exception has the message of the library, if that has no null byte; else it is a `NullPointerException`. -/
theorem c72_message {msg : Err → List Nat} {e : Err} :
    (0 ∉ msg e → ktRaised msg e = .library (msg e)) ∧ (0 ∈ msg e → ktRaised msg e = .nullPointer) :=
  ⟨fun h => if_neg h, fun h => if_pos h⟩

/-- **C72**, making of an engine: it is the one that the native library loads from the directory, or from the bytes; if
that fails nothing is left. -/
theorem c72_create {env : CEnv κ} (hu : env.utf8 = utf8OrErr) (msg : Err → List Nat) (c : CCirc) {s : HMem κ}
    (ht : s.Tidy) (src : Text ⊕ List Nat) :
    match loadSource env c src s.c.disk with
    | .ok e => ∃ p s', ktCreate env msg c src s = (.ok p, s') ∧ Added p (Handle.fresh env e) s s' ∧ s'.Tidy
    | .err e => ∃ s', ktCreate env msg c src s = (.throws (ktRaised msg e), s') ∧ Kept s s' ∧ s'.Tidy
    | .panic => (ktCreate env msg c src s).1 = .panic := by
  have key := ktCreate_ends hu msg c ht src
  unfold Ends at key
  rcases hr : ktCreate env msg c src s with ⟨r, s'⟩
  rw [hr] at key
  cases ho : loadSource env c src s.c.disk with
  | ok e =>
    rw [ho] at key
    obtain ⟨p, h1, h2⟩ := key
    exact ⟨p, s', by simpa using h1, h2.toAdded, h2.tidy ht⟩
  | err e =>
    rw [ho] at key
    exact ⟨s', by simpa using key.1, key.2.toKept, key.2.tidy ht⟩
  | panic =>
    rw [ho] at key
    exact key

/-- **C72**, `modelVersion` is the version of the library. -/
theorem c72_modelVersion (env : CEnv κ) (msg : Err → List Nat) (c : CCirc) {s : HMem κ} (ht : s.Tidy) :
    (ktModelVersion env msg c s).1 = .ok (modelVersion.map Char.toNat) ∧ Kept s (ktModelVersion env msg c s).2 :=
  ⟨(ktModelVersion_ends env msg c ht).1, (ktModelVersion_ends env msg c ht).2.toKept⟩

/-- **C72**, `close` releases the engine and nothing else. -/
theorem c72_close (env : CEnv κ) (c : CCirc) {client : Addr} {h : Handle} {s : HMem κ} (hh : UsableEngine s.c client h) :
    (ktClose env c client s).1 = .ok () ∧ (ktClose env c client s).2.c.engines client = none ∧
    (∀ a, a ≠ client → (ktClose env c client s).2.c.engines a = s.c.engines a) ∧
    (ktClose env c client s).2.c.objects = s.c.objects ∧ (ktClose env c client s).2.c.strings = s.c.strings ∧
    (ktClose env c client s).2.c.vars = s.c.vars := by
  rw [ktClose_live hh.1 hh.2.1]
  exact ⟨rfl, if_pos rfl, fun a ha => if_neg ha, rfl, rfl, rfl⟩

/-- Nothing stops a program from using an engine it has closed, nor from closing it twice: both are undefined. -/
theorem c72_after_close {τ : Type} {env : CEnv κ} (hu : env.utf8 = utf8OrErr) (msg : Err → List Nat) (conv : KtConv κ τ)
    (c c' : CCirc) {client : Addr} {h : Handle} {q : Question} (hf : q.FiltersNotEmpty) {s : HMem κ} (ht : s.Tidy)
    (hh : UsableEngine s.c client h) :
    ((do ktClose env c client; ktAsk env msg conv (fun _ => false) c' client q : HM κ τ) s).1 = .undefined ∧
    ((do ktClose env c client; ktClose env c' client : HM κ Unit) s).1 = .undefined := by
  have hc := ktClose_live (env := env) (c := c) hh.1 hh.2.1
  rw [bind_ok hc, bind_ok hc]
  refine ⟨kt_dead hu msg conv c' hh.1 hf ?_ (if_pos rfl), ktClose_dead hh.1 (if_pos rfl)⟩
  refine ⟨⟨ht.c.pos, ⟨ht.c.null.1, ?_⟩, fun a ha => ⟨(ht.c.fresh a ha).1, ?_⟩⟩, ht.pos, ht.fresh⟩
  · simp only [ht.c.null.2, ite_self]
  · simp only [(ht.c.fresh a ha).2, ite_self]

/-- A question with an empty list of allowed intents is undefined: the data of the array is null. -/
theorem c72_empty_filter {τ : Type} {env : CEnv κ} (hu : env.utf8 = utf8OrErr) (msg : Err → List Nat) (conv : KtConv κ τ)
    (gc : Addr → Bool) (c : CCirc) {client : Addr} {h : Handle} {s : HMem κ} (ht : s.Tidy)
    (hh : UsableEngine s.c client h) (text : Text) (ni ns : Int) :
    (ktAsk env msg conv gc c client (.parse text (some []) none ni ns) s).1 = .undefined :=
  kt_empty hu msg conv gc c ht hh text ni ns

/-- A question with a list of allowed intents is undefined for some behaviour of the garbage collector. -/
theorem c72_collected {τ : Type} {env : CEnv κ} (hu : env.utf8 = utf8OrErr) (msg : Err → List Nat) (conv : KtConv κ τ)
    (c : CCirc) {client : Addr} {h : Handle} {s : HMem κ} (ht : s.Tidy)
    (hh : UsableEngine s.c client h) (text intent : Text) (intents : List Text) (ni ns : Int) :
    ∃ gc, (ktAsk env msg conv gc c client (.parse text (some (intent :: intents)) none ni ns) s).1 = .undefined :=
  kt_collected hu msg conv c ht hh text intent intents ni ns

/-- If the conversion throws, the answer is never released. -/
theorem c72_leak {τ : Type} {env : CEnv κ} (hu : env.utf8 = utf8OrErr) (msg : Err → List Nat) (conv : KtConv κ τ) (c : CCirc)
    {client : Addr} {h : Handle} {text : Text} {s : HMem κ} (ht : s.Tidy) (hh : UsableEngine s.c client h) {x : κ}
    (hx : (Question.getIntents text).struct env h c = .ok x) {e : HostError} (he : conv.intents x = .error e) :
    (ktAsk env msg conv (fun _ => false) c client (.getIntents text) s).1 = .throws e ∧
    Leaked (.intents x) s (ktAsk env msg conv (fun _ => false) c client (.getIntents text) s).2 :=
  ⟨(kt_leaks hu msg conv c ht hh hx he).1, (kt_leaks hu msg conv c ht hh hx he).2.1⟩

/-! ### Examples -/

/-- A conversion that returns names, and cannot convert answers without intent. -/
def demoConv : KtConv (Option Text) Text where
  result x := .ok (x.getD [])
  slots _ := .ok []
  intents x := match x with
    | some name => .ok name
    | none => .error (.conversion 1)

/-- An engine is made in Kotlin; it answers as it does in Python. -/
example : (ktCreate demoHEnv demoMsg demoCirc (.inl ['/', 'm']) demoHMem).1 = .ok 1 ∧
    (ktAsk demoHEnv demoMsg demoConv (fun _ => false) demoCirc 1 (.parse "stop".toList (some ["halt".toList]) none 0 0)
      demoHMem1).1 = .ok "halt".toList ∧
    (ktAskJson demoHEnv demoMsg (fun _ => false) demoCirc 1 (.parse "stop".toList (some ["halt".toList]) none 0 0)
      demoHMem1).1 = .ok [123, 125] := by decide +kernel

/-- The hypotheses of the theorems above are met. -/
example : demoHMem1.Tidy ∧ (∃ h, UsableEngine demoHMem1.c 1 h) ∧
    (Question.parse "stop".toList (some ["halt".toList]) none 0 0).Plain ∧
    (Question.parse "stop".toList (some ["halt".toList]) none 0 0).FiltersNotEmpty :=
  ⟨(c71_invariant rfl demoHMem1_run).1, demoHMem1_usable,
    ⟨by decide, (by
      intro l hl t ht
      obtain rfl : ["halt".toList] = l := Option.some.inj hl
      rw [List.mem_singleton] at ht
      subst ht
      decide), (by intro l hl; cases hl), by decide, by decide⟩, by simp, by simp⟩

/-- The string of the filter is collected, the filter is empty, the engine is closed. -/
example : (ktAsk demoHEnv demoMsg demoConv (fun _ => true) demoCirc 1 (.parse "stop".toList (some ["halt".toList]) none 0 0)
      demoHMem1).1 = .undefined ∧
    (ktAsk demoHEnv demoMsg demoConv (fun _ => false) demoCirc 1 (.parse "stop".toList (some []) none 0 0) demoHMem1).1 =
      .undefined ∧
    (ktClose demoHEnv demoCirc 1 (ktClose demoHEnv demoCirc 1 demoHMem1).2).1 = .undefined := by decide +kernel

end Snips
