import Verif.Proofs.Bindings
import Verif.Spec.BindingsDemo

/-! # C71: the Python wrapper

A method of `NLUEngine` returns the JSON of what the native engine answers to the same question, raises an exception
with the message of the library when that is an error, and leaves nothing behind, neither in the memory of the library
nor in its own.  A program that uses the engines it has made, and no others, is never undefined. -/

namespace Snips

variable {κ : Type}

open HM

/-- Texts as C reads them, for the three kinds of questions. -/
theorem c71_answer {env : CEnv κ} (hu : env.utf8 = utf8OrErr) (msg : Err → List Nat) (c : CCirc) {engine : Addr}
    {h : Handle} (q : Question) {s : HMem κ} (ht : s.Tidy) (hh : UsableEngine s.c engine h) :
    (pyAsk env msg c engine q s).1 = (q.json env h c).hosted (pyRaised msg) ∧
    (q.json env h c ≠ .panic →
      Kept s (pyAsk env msg c engine q s).2 ∧ StillUsable engine h (pyAsk env msg c engine q s).2) := by
  obtain ⟨h1, h2⟩ := pyAsk_answers hu msg c q ht hh
  refine ⟨h1, fun hp => ⟨(h2 hp).toKept, (h2 hp).tidy ht, ?_⟩⟩
  obtain ⟨h', e1, e2, e3, e4⟩ := ((h2 hp).engines engine).2 h hh.2.1
  exact ⟨h', ⟨hh.1, e1, e4.trans hh.2.2⟩, e2, e3⟩

/-- **C71**, `parse`.  If no text has a null character and the numbers fit in 32 bits, the answer is that of the native
engine. -/
theorem c71_parse {env : CEnv κ} (hu : env.utf8 = utf8OrErr) (msg : Err → List Nat) (c : CCirc) {engine : Addr}
    {h : Handle} {s : HMem κ} (ht : s.Tidy) (hh : UsableEngine s.c engine h) {text : Text}
    {whitelist blacklist : Option (List Text)} {ni ns : Nat} (htext : '\x00' ∉ text)
    (hw : ∀ l ∈ whitelist, ∀ t ∈ l, '\x00' ∉ t) (hb : ∀ l ∈ blacklist, ∀ t ∈ l, '\x00' ∉ t)
    (hni : ni < 2 ^ 32) (hns : ns < 2 ^ 32) :
    (pyAsk env msg c engine (.parse text whitelist blacklist ni ns) s).1 =
      (h.answer c (h.engine.parseWithAlternatives c.order text whitelist blacklist ni ns) >>= fun r =>
        env.jsonResult r >>= withoutNull).hosted (pyRaised msg) := by
  rw [(c71_answer hu msg c _ ht hh).1]
  have hl : ∀ {l : Option (List Text)}, (∀ m ∈ l, ∀ t ∈ m, '\x00' ∉ t) → l.map (·.map beforeNull) = l := by
    intro l hl
    cases l with
    | none => rfl
    | some l =>
      refine congrArg some ?_
      exact (List.map_congr_left fun t ht => beforeNull_of_notMem (hl l rfl t ht)).trans (List.map_id _)
  have hn : ∀ {n : Nat}, n < 2 ^ 32 → asU32 (n : Int) = n := fun hn => by unfold asU32; omega
  unfold Question.json Question.native
  simp only
  rw [beforeNull_of_notMem htext, hl hw, hl hb, hn hni, hn hns]

/-- **C71**, `get_slots`. -/
theorem c71_getSlots {env : CEnv κ} (hu : env.utf8 = utf8OrErr) (msg : Err → List Nat) (c : CCirc) {engine : Addr}
    {h : Handle} {s : HMem κ} (ht : s.Tidy) (hh : UsableEngine s.c engine h) {text intent : Text} {ns : Nat}
    (htext : '\x00' ∉ text) (hintent : '\x00' ∉ intent) (hns : ns < 2 ^ 32) :
    (pyAsk env msg c engine (.getSlots text intent ns) s).1 =
      (h.answer c (h.engine.getSlotsWithAlternatives c.order text intent ns) >>= fun r =>
        env.jsonSlots r >>= withoutNull).hosted (pyRaised msg) := by
  rw [(c71_answer hu msg c _ ht hh).1]
  have hn : asU32 (ns : Int) = ns := by unfold asU32; omega
  unfold Question.json Question.native
  simp only
  rw [beforeNull_of_notMem htext, beforeNull_of_notMem hintent, hn]

/-- **C71**, `get_intents`. -/
theorem c71_getIntents {env : CEnv κ} (hu : env.utf8 = utf8OrErr) (msg : Err → List Nat) (c : CCirc) {engine : Addr}
    {h : Handle} {s : HMem κ} (ht : s.Tidy) (hh : UsableEngine s.c engine h) {text : Text} (htext : '\x00' ∉ text) :
    (pyAsk env msg c engine (.getIntents text) s).1 =
      (h.answer c (h.engine.getIntents c.order text) >>= fun r => env.jsonIntents r >>= withoutNull).hosted
        (pyRaised msg) := by
  rw [(c71_answer hu msg c _ ht hh).1]
  unfold Question.json Question.native
  simp only
  rw [beforeNull_of_notMem htext]

/-- What follows a null character in the text is not seen by the engine. -/
theorem c71_truncated {env : CEnv κ} (hu : env.utf8 = utf8OrErr) (msg : Err → List Nat) (c : CCirc) {engine : Addr}
    {h : Handle} {s : HMem κ} (ht : s.Tidy) (hh : UsableEngine s.c engine h) (text rest : Text) :
    (pyAsk env msg c engine (.getIntents (text ++ '\x00' :: rest)) s).1 =
      (pyAsk env msg c engine (.getIntents text) s).1 := by
  rw [(c71_answer hu msg c _ ht hh).1, (c71_answer hu msg c _ ht hh).1]
  have : beforeNull (text ++ '\x00' :: rest) = beforeNull text := by
    unfold beforeNull
    induction text with
    | nil => rfl
    | cons a t ih =>
      rw [List.cons_append, List.takeWhile_cons, List.takeWhile_cons, ih]
  unfold Question.json Question.native
  simp only
  rw [this]

/-- Minus one alternative is asked for as 4294967295 alternatives. -/
theorem c71_negative {env : CEnv κ} (hu : env.utf8 = utf8OrErr) (msg : Err → List Nat) (c : CCirc) {engine : Addr}
    {h : Handle} {s : HMem κ} (ht : s.Tidy) (hh : UsableEngine s.c engine h) (text intent : Text) :
    (pyAsk env msg c engine (.getSlots text intent (-1)) s).1 =
      (pyAsk env msg c engine (.getSlots text intent 4294967295) s).1 := by
  rw [(c71_answer hu msg c _ ht hh).1, (c71_answer hu msg c _ ht hh).1]
  rfl

/-- The exception of the library has the message of the library, if that has no null byte. -/
theorem c71_message {msg : Err → List Nat} {e : Err} (h : 0 ∉ msg e) : pyRaised msg e = .library (msg e) := if_neg h

/-- **C71**, making of an engine: it is the one that the native library loads from the directory, or from the bytes; if
that fails nothing is left. -/
theorem c71_init {env : CEnv κ} (hu : env.utf8 = utf8OrErr) (msg : Err → List Nat) (c : CCirc) {s : HMem κ}
    (ht : s.Tidy) {dir : Option Text} {bytes : Option (List Nat)} {src : Text ⊕ List Nat}
    (hsrc : (∃ d, dir = some d ∧ src = .inl d) ∨ dir = none ∧ ∃ b, bytes = some b ∧ src = .inr b) :
    match loadSource env c src s.c.disk with
    | .ok e => ∃ p s', pyInit env msg c dir bytes s = (.ok p, s') ∧ Added p (Handle.fresh env e) s s' ∧ s'.Tidy
    | .err e => ∃ s', pyInit env msg c dir bytes s = (.throws (pyRaised msg e), s') ∧ Kept s s' ∧ s'.Tidy
    | .panic => (pyInit env msg c dir bytes s).1 = .panic := by
  have key : Ends (Creation env (pyRaised msg) (loadSource env c src s.c.disk)) (pyInit env msg c dir bytes) s := by
    have key := pyInit_ends hu msg c ht src
    rcases hsrc with ⟨d, rfl, rfl⟩ | ⟨rfl, b, rfl, rfl⟩ <;> exact key
  unfold Ends at key
  rcases hr : pyInit env msg c dir bytes s with ⟨r, s'⟩
  rw [hr] at key
  cases ho : loadSource env c src s.c.disk with
  | ok e =>
    rw [ho] at key
    obtain ⟨p, h1, h2⟩ := key
    exact ⟨p, s', by simpa using h1, h2.toAdded, h2.tidy ht⟩
  | err e =>
    rw [ho] at key
    exact ⟨s', by simpa using key.1, key.2.toKept, key.2.tidy ht⟩
  | panic =>
    rw [ho] at key
    exact key

/-- The directory is the one named, the archive is the whole one. -/
theorem c71_source (env : CEnv κ) (c : CCirc) (disk : Disk) :
    (∀ dir : Text, '\x00' ∉ dir →
      loadSource env c (.inl dir) disk = (loadEngine env.load c.order (joinPath env.cwd dir) disk.fs).1) ∧
    ∀ b : List Nat, b.length < 2 ^ 32 →
      loadSource env c (.inr b) disk = (fromZip env.load c.order c.fault c.left (env.readZip b) c.tmp disk).1 := by
  refine ⟨fun dir hd => ?_, fun b hb => ?_⟩
  · unfold loadSource
    simp only
    rw [beforeNull_of_notMem hd]
  · unfold loadSource
    simp only
    rw [Nat.mod_eq_of_lt (by omega), List.take_length]

/-- Without directory and without bytes there is an exception. -/
theorem c71_no_source (env : CEnv κ) (msg : Err → List Nat) (c : CCirc) (s : HMem κ) :
    pyInit env msg c none none s = (.throws .noEngine, s) := rfl

/-- What is true of a program in Python: the live engines are those it holds, each once; there are no other objects; its
own memory is as it was. -/
theorem c71_invariant {env : CEnv κ} (hu : env.utf8 = utf8OrErr) {msg : Err → List Nat} {s0 s : HMem κ} {l : List Addr}
    (hrun : PyRun env msg s0 s l) :
    s.Tidy ∧ l.Nodup ∧ (∀ a, a ∈ l ↔ ∃ h, UsableEngine s.c a h) ∧ (∀ a, s.c.engines a ≠ none → a ∈ l) ∧
    (∀ a, s.c.objects a = none) ∧ s.c.strings = s0.c.strings ∧ s.c.arrays = s0.c.arrays ∧ s.c.bytes = s0.c.bytes ∧
    s.c.vars = s0.c.vars := by
  have kept : ∀ {s s' : HMem κ} {l : List Addr}, (s'.Tidy) → Kept s s' →
      (s.Tidy ∧ l.Nodup ∧ (∀ a, a ∈ l ↔ ∃ h, UsableEngine s.c a h) ∧ (∀ a, s.c.engines a ≠ none → a ∈ l) ∧
        (∀ a, s.c.objects a = none) ∧ s.c.strings = s0.c.strings ∧ s.c.arrays = s0.c.arrays ∧ s.c.bytes = s0.c.bytes ∧
        s.c.vars = s0.c.vars) →
      s'.Tidy ∧ l.Nodup ∧ (∀ a, a ∈ l ↔ ∃ h, UsableEngine s'.c a h) ∧ (∀ a, s'.c.engines a ≠ none → a ∈ l) ∧
        (∀ a, s'.c.objects a = none) ∧ s'.c.strings = s0.c.strings ∧ s'.c.arrays = s0.c.arrays ∧
        s'.c.bytes = s0.c.bytes ∧ s'.c.vars = s0.c.vars := by
    rintro s s' l ht' hk ⟨ht, hn, hiff, hall, ho, e1, e2, e3, e4⟩
    have hall' : ∀ a, s'.c.engines a ≠ none → a ∈ l := fun a ha => hall a fun h => ha ((hk.engines a).1 h)
    refine ⟨ht', hn, fun a => ⟨fun ha => ?_, fun ⟨h, hh⟩ => hall' a (by rw [hh.2.1]; simp)⟩, hall',
      fun a => by rw [hk.objects]; exact ho a, hk.strings.trans e1, hk.arrays.trans e2, hk.bytes.trans e3, hk.vars.trans e4⟩
    obtain ⟨h, hh⟩ := (hiff a).1 ha
    obtain ⟨h', f1, _, _, f4⟩ := (hk.engines a).2 h hh.2.1
    exact ⟨h', hh.1, f1, f4.trans hh.2.2⟩
  have source : ∀ {c : CCirc} {dir : Option Text} {bytes : Option (List Nat)} {s s' : HMem κ} {r : HEnd Addr}, s.Tidy →
      pyInit env msg c dir bytes s = (r, s') →
      (∀ p, r = .ok p → s'.Tidy ∧ ∃ h, h.poisoned = false ∧ Added p h s s') ∧
      (∀ e, r = .throws e → s'.Tidy ∧ Kept s s') := by
    intro c dir bytes s s' r ht hr
    have key : ∀ src : Text ⊕ List Nat,
        ((∃ d, dir = some d ∧ src = .inl d) ∨ dir = none ∧ ∃ b, bytes = some b ∧ src = .inr b) →
        (∀ p, r = .ok p → s'.Tidy ∧ ∃ h, h.poisoned = false ∧ Added p h s s') ∧
        (∀ e, r = .throws e → s'.Tidy ∧ Kept s s') := by
      intro src hsrc
      have hk := c71_init hu msg c ht hsrc
      cases ho : loadSource env c src s.c.disk with
      | ok e =>
        rw [ho] at hk
        obtain ⟨p, s2, h1, h2, h3⟩ := hk
        rw [hr] at h1
        cases h1
        exact ⟨fun p' hp => by cases hp; exact ⟨h3, _, rfl, h2⟩, fun e he => by cases he⟩
      | err e =>
        rw [ho] at hk
        obtain ⟨s2, h1, h2, h3⟩ := hk
        rw [hr] at h1
        cases h1
        exact ⟨fun p' hp => (by cases hp), fun _ _ => ⟨h3, h2⟩⟩
      | panic =>
        rw [ho] at hk
        simp only at hk
        rw [hr] at hk
        cases hk
        exact ⟨fun p' hp => (by cases hp), fun _ h => by cases h⟩
    cases dir with
    | some d => exact key (.inl d) (.inl ⟨d, rfl, rfl⟩)
    | none =>
      cases bytes with
      | some b => exact key (.inr b) (.inr ⟨rfl, b, rfl, rfl⟩)
      | none =>
        rw [c71_no_source] at hr
        cases hr
        exact ⟨fun p hp => (by cases hp), fun e _ => ⟨ht, (Kept'.refl s).toKept⟩⟩
  induction hrun with
  | start ht ho he =>
    refine ⟨ht, List.nodup_nil, fun a => ⟨fun h => by simp at h, fun ⟨h, hh⟩ => ?_⟩, fun a ha => absurd (he a) ha, ho,
      rfl, rfl, rfl, rfl⟩
    have := hh.2.1
    rw [he a] at this
    cases this
  | @init s s' l h c dir bytes p hr ih =>
    obtain ⟨ht, hn, hiff, hall, ho, e1, e2, e3, e4⟩ := ih
    obtain ⟨ht', hd, hpo, hadd⟩ := (source ht hr).1 p rfl
    have hp : p ∉ l := fun hp => by
      obtain ⟨h, hh⟩ := (hiff p).1 hp
      have := hh.2.1
      rw [hadd.fresh.2] at this
      cases this
    refine ⟨ht', List.nodup_cons.2 ⟨hp, hn⟩, fun a => ?_, fun a ha => ?_, fun a => by rw [hadd.objects]; exact ho a,
      hadd.strings.trans e1, hadd.arrays.trans e2, hadd.bytes.trans e3, hadd.vars.trans e4⟩
    · by_cases hap : a = p
      · subst hap
        exact ⟨fun _ => ⟨hd, hadd.fresh.1, hadd.engine, hpo⟩, fun _ => List.mem_cons_self ..⟩
      · rw [List.mem_cons, or_iff_right hap, hiff a]
        unfold UsableEngine
        rw [hadd.others a hap]
    · by_cases hap : a = p
      · exact hap ▸ List.mem_cons_self ..
      · rw [hadd.others a hap] at ha
        exact List.mem_cons_of_mem _ (hall a ha)
  | initThrows h c dir bytes hr ih =>
    obtain ⟨ht', hk⟩ := (source ih.1 hr).2 _ rfl
    exact kept ht' hk ih
  | @ask s s' l h c engine he q b hr ih =>
    obtain ⟨hd, hh⟩ := (ih.2.2.1 engine).1 he
    obtain ⟨h1, h2⟩ := c71_answer hu msg c q ih.1 hh
    rw [hr] at h1 h2
    have hp : q.json env hd c ≠ .panic := fun hp => by rw [hp] at h1; cases h1
    exact kept (h2 hp).2.1 (h2 hp).1 ih
  | @askThrows s s' l h c engine he q e hr ih =>
    obtain ⟨hd, hh⟩ := (ih.2.2.1 engine).1 he
    obtain ⟨h1, h2⟩ := c71_answer hu msg c q ih.1 hh
    rw [hr] at h1 h2
    have hp : q.json env hd c ≠ .panic := fun hp => by rw [hp] at h1; cases h1
    exact kept (h2 hp).2.1 (h2 hp).1 ih
  | @del s s' l h c engine he hr ih =>
    obtain ⟨ht, hn, hiff, hall, ho, e1, e2, e3, e4⟩ := ih
    obtain ⟨hd, hh⟩ := (hiff engine).1 he
    have hd' := ktClose_live (env := env) (c := c) hh.1 hh.2.1
    rw [show ktClose env c engine s = pyDel env c engine s from rfl, hr] at hd'
    cases hd'
    refine ⟨?_, hn.erase _, fun a => ?_, fun a ha => ?_, ho, e1, e2, e3, e4⟩
    · refine ⟨⟨ht.c.pos, ⟨ht.c.null.1, ?_⟩, fun a ha => ⟨(ht.c.fresh a ha).1, ?_⟩⟩, ht.pos, ht.fresh⟩
      · simp only [ht.c.null.2, ite_self]
      · simp only [(ht.c.fresh a ha).2, ite_self]
    · rw [hn.mem_erase_iff, hiff a]
      unfold UsableEngine
      simp only
      constructor
      · rintro ⟨hne, h', h1, h2, h3⟩
        exact ⟨h', h1, (if_neg hne).trans h2, h3⟩
      · rintro ⟨h', h1, h2, h3⟩
        have hne : a ≠ engine := fun hae => by rw [if_pos hae] at h2; cases h2
        rw [if_neg hne] at h2
        exact ⟨hne, h', h1, h2, h3⟩
    · simp only at ha
      have hne : a ≠ engine := fun hae => ha (if_pos hae)
      rw [if_neg hne] at ha
      exact (hn.mem_erase_iff).2 ⟨hne, hall a ha⟩
  | disk h d ih =>
    obtain ⟨ht, rest⟩ := ih
    exact ⟨⟨⟨ht.c.pos, ht.c.null, ht.c.fresh⟩, ht.pos, ht.fresh⟩, rest⟩

/-- **C71**, whole programs.  Whatever a program in Python does next, it gets a value or an exception, or the library
panics: nothing is undefined.  Every question to an engine it holds is answered as the native engine answers, and
releasing the engine ends well. -/
theorem c71_session {env : CEnv κ} (hu : env.utf8 = utf8OrErr) {msg : Err → List Nat} {s0 s : HMem κ} {l : List Addr}
    (hrun : PyRun env msg s0 s l) (c : CCirc) :
    (∀ dir bytes, (pyInit env msg c dir bytes s).1 ≠ .undefined ∧ (pyInit env msg c dir bytes s).1 ≠ .trap) ∧
    ∀ engine ∈ l, (∃ h, UsableEngine s.c engine h ∧
        ∀ q, (pyAsk env msg c engine q s).1 = (q.json env h c).hosted (pyRaised msg)) ∧
      (pyDel env c engine s).1 = .ok () := by
  obtain ⟨ht, hn, hiff, hall, ho, -⟩ := c71_invariant hu hrun
  refine ⟨fun dir bytes => ?_, fun engine he => ?_⟩
  · have key : ∀ src : Text ⊕ List Nat,
        ((∃ d, dir = some d ∧ src = .inl d) ∨ dir = none ∧ ∃ b, bytes = some b ∧ src = .inr b) →
        (pyInit env msg c dir bytes s).1 ≠ .undefined ∧ (pyInit env msg c dir bytes s).1 ≠ .trap := by
      intro src hsrc
      have hk := c71_init hu msg c ht hsrc
      cases ho : loadSource env c src s.c.disk with
      | ok e => rw [ho] at hk; obtain ⟨p, s2, h1, -⟩ := hk; rw [h1]; simp
      | err e => rw [ho] at hk; obtain ⟨s2, h1, -⟩ := hk; rw [h1]; simp
      | panic => rw [ho] at hk; simp only at hk; rw [hk]; simp
    cases dir with
    | some d => exact key (.inl d) (.inl ⟨d, rfl, rfl⟩)
    | none =>
      cases bytes with
      | some b => exact key (.inr b) (.inr ⟨rfl, b, rfl, rfl⟩)
      | none => rw [c71_no_source]; simp
  · obtain ⟨h, hh⟩ := (hiff engine).1 he
    exact ⟨⟨h, hh, fun q => (c71_answer hu msg c q ht hh).1⟩,
      congrArg Prod.fst (ktClose_live (env := env) (c := c) hh.1 hh.2.1)⟩

/-! ### Examples -/

theorem demoHMem_tidy : demoHMem.Tidy :=
  ⟨⟨by decide, ⟨rfl, rfl⟩, fun _ _ => ⟨rfl, rfl⟩⟩, by decide, fun _ _ => ⟨rfl, rfl, rfl, rfl⟩⟩

theorem demoHMem1_eq : pyInit demoHEnv demoMsg demoCirc (some ['/', 'm']) none demoHMem = (.ok 1, demoHMem1) :=
  Prod.ext (by decide +kernel) rfl

/-- A program that makes an engine. -/
theorem demoHMem1_run : PyRun demoHEnv demoMsg demoHMem demoHMem1 [1] :=
  .init (.start demoHMem_tidy (fun _ => rfl) (fun _ => rfl)) demoCirc _ _ demoHMem1_eq

theorem demoHMem1_usable : ∃ h, UsableEngine demoHMem1.c 1 h :=
  ((c71_invariant rfl demoHMem1_run).2.2.1 1).1 (List.mem_cons_self ..)

/-- It asks a question, with a filter. -/
example : (pyAsk demoHEnv demoMsg demoCirc 1 (.parse "stop".toList (some ["halt".toList]) none 0 0) demoHMem1).1 =
    .ok [123, 125] := by decide +kernel

/-- It makes an engine from a directory that does not exist, and from no bytes. -/
example : (pyInit demoHEnv demoMsg demoCirc (some ['/', 'x']) none demoHMem1).1 = .throws (.library [111, 111, 112, 115]) ∧
    (pyInit demoHEnv demoMsg demoCirc none (some []) demoHMem1).1 = .throws (.library [111, 111, 112, 115]) := by
  decide +kernel

/-- It releases the engine. -/
example : (pyDel demoHEnv demoCirc 1 demoHMem1).1 = .ok () ∧
    ((pyDel demoHEnv demoCirc 1 demoHMem1).2.c.engines 1).isNone := by decide +kernel

end Snips
