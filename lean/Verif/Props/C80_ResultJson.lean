import Verif.Proofs.ResultJson
import Verif.Proofs.Bindings
import Verif.Conformance.JsonEq
import Verif.Props.C71_Python

/-! # C80: the JSON of an answer shows the answer

`Verif/Spec/ResultJson.lean` says when a JSON document shows an answer, entry by entry, and
`Verif/Spec/JsonText.lean` says which document a text denotes. -/

namespace Snips

open JsonGrammar Shown ResultJson

variable {κ : Type}

/-- **C80**: a text with a null character is no JSON text, so the JSON of an answer always is a C string. -/
theorem c80_no_null (f64 : ℚ → Option ℚ) (d : Nat) (t : Text) (j : Json) (h : Document f64 d t j) :
    '\x00' ∉ t ∧ 0 ∉ encodeUtf8 t := ⟨noNull_document h, zero_notMem_bytes h⟩

/-- The same for the bytes that are written. -/
theorem bytes_readAs (w : Writing) {j : Json} {P : Json → Prop} (h : Writable w.f64 w.textOf 127 j) (hp : P j) :
    ReadAs w.f64 (bytes (numbers w) j) P ∧ withoutNull (bytes (numbers w) j) = .ok (bytes (numbers w) j) := by
  have hd := document_write h
  exact ⟨⟨_, rfl, j, hd, hp⟩, if_neg (zero_notMem_bytes hd)⟩

/-- **C80**: the JSON of a result, of slots, and of intents shows them. -/
theorem c80_shows (w : Writing) (meaning : Nat → OValue) (env : CEnv κ) :
    (∀ r, w.WritesResult meaning r → ∃ b, (env.withJson (numbers w) w.widen meaning).jsonResult r = .ok b ∧
      ReadAs w.f64 b (Result w.rd meaning · r)) ∧
    (∀ l, (∀ s ∈ l, w.WritesSlot meaning s) → ∃ b, (env.withJson (numbers w) w.widen meaning).jsonSlots l = .ok b ∧
      ReadAs w.f64 b (fun j => ∃ js, j = .arr js ∧ List.Forall₂ (Slot' w.rd meaning) js l)) ∧
    ∀ l : List IntentResult, (∀ r ∈ l, w.Writes32 r.score) →
      ∃ b, (env.withJson (numbers w) w.widen meaning).jsonIntents l = .ok b ∧
      ReadAs w.f64 b (fun j => ∃ js, j = .arr js ∧ List.Forall₂ (Intent w.rd) js l) := by
  refine ⟨fun r hr => ⟨_, rfl, ?_⟩, fun l hl => ⟨_, rfl, ?_⟩, fun l hl => ⟨_, rfl, ?_⟩⟩
  · exact (bytes_readAs w (writable_result (d := 120) hr) (shown_result hr)).1
  · exact (bytes_readAs w (writable_list (d := 126) fun s hs => writable_slot (d := 123) (hl s hs))
      ⟨_, rfl, forall₂_map fun s hs => shown_slot (hl s hs)⟩).1
  · exact (bytes_readAs w (writable_list (d := 126) fun s hs => writable_intent (d := 125) (hl s hs))
      ⟨_, rfl, forall₂_map fun s hs => shown_intent (hl s hs)⟩).1

/-- **C80**: a document shows at most one result, one slot, one intent, if different values mean different things. -/
theorem c80_unique (rd : Rounding) {meaning : Nat → OValue} (hm : Function.Injective (SlotValue.meant meaning)) (j : Json) :
    (∀ r r', Result rd meaning j r → Result rd meaning j r' → r = r') ∧
    (∀ s s', Slot' rd meaning j s → Slot' rd meaning j s' → s = s') ∧
    ∀ r r', Intent rd j r → Intent rd j r' → r = r' :=
  ⟨result_unique hm j, slot_unique hm j, intent_unique j⟩

/-- **C80**: different results have different JSON. -/
theorem c80_distinct (w : Writing) {meaning : Nat → OValue} (hm : Function.Injective (SlotValue.meant meaning))
    (env : CEnv κ) (r r' : ParseResult) (h : w.WritesResult meaning r) (h' : w.WritesResult meaning r')
    (he : (env.withJson (numbers w) w.widen meaning).jsonResult r =
      (env.withJson (numbers w) w.widen meaning).jsonResult r') : r = r' := by
  have he : encodeUtf8 (JsonText.write (numbers w) (ResultJson.result w.widen meaning r)) =
      encodeUtf8 (JsonText.write (numbers w) (ResultJson.result w.widen meaning r')) := by
    simpa only [CEnv.withJson, Outcome.ok.injEq, ResultJson.bytes] using he
  have hd := document_write (writable_result (d := 120) h)
  have hd' := document_write (writable_result (d := 120) h')
  have ht := congrArg decodeUtf8 he
  rw [decodeUtf8_encode, decodeUtf8_encode, Option.some.injEq] at ht
  rw [ht] at hd
  have hj := (JsonText.parse_iff (numbers w) _ _).2 hd
  rw [(JsonText.parse_iff (numbers w) _ _).2 hd', Option.some.injEq] at hj
  have hs := shown_result h
  rw [← hj] at hs
  exact result_unique hm _ _ _ hs (shown_result h')

/-- The bytes that a method of the Python wrapper passes to `json.loads` when the native engine answers `a`. -/
theorem ask_readAs {α : Type} {a : Outcome α} {f : α → Outcome (List Nat)} {raised : Err → HostError} {P : α → List Nat → Prop}
    (hf : ∀ x, a = .ok x → ∃ b, f x = .ok b ∧ withoutNull b = .ok b ∧ P x b) :
    (∀ x, a = .ok x → ∃ b, (a >>= fun r => f r >>= withoutNull).hosted raised = .ok b ∧ P x b) ∧
    (∀ e, a = .err e → (a >>= fun r => f r >>= withoutNull).hosted raised = .throws (raised e)) := by
  refine ⟨fun x hx => ?_, fun e he => ?_⟩
  · obtain ⟨b, h1, h2, h3⟩ := hf x hx
    refine ⟨b, ?_, h3⟩
    subst hx
    show (f x >>= withoutNull).hosted raised = _
    rw [h1]
    show (withoutNull b).hosted raised = _
    rw [h2]
    rfl
  · subst he
    rfl

/-- **C80**, `parse` in Python: if the native engine answers `r`, then what `parse` reads as JSON denotes a document
that shows `r`; and if there is an error, it is raised. -/
theorem c80_parse {env : CEnv κ} (hu : env.utf8 = utf8OrErr) (w : Writing) (meaning : Nat → OValue)
    (msg : Err → List Nat) (c : CCirc) {engine : Addr} {h : Handle} {s : HMem κ} (ht : s.Tidy)
    (hh : UsableEngine s.c engine h) {text : Text} {whitelist blacklist : Option (List Text)} {ni ns : Nat}
    (htext : '\x00' ∉ text) (hw : ∀ l ∈ whitelist, ∀ t ∈ l, '\x00' ∉ t) (hb : ∀ l ∈ blacklist, ∀ t ∈ l, '\x00' ∉ t)
    (hni : ni < 2 ^ 32) (hns : ns < 2 ^ 32) {a : Outcome ParseResult}
    (ha : h.answer c (h.engine.parseWithAlternatives c.order text whitelist blacklist ni ns) = a)
    (hm : ∀ r, a = .ok r → w.WritesResult meaning r) :
    (∀ r, a = .ok r → ∃ b, (pyAsk (env.withJson (numbers w) w.widen meaning) msg c engine
      (.parse text whitelist blacklist ni ns) s).1 = .ok b ∧ ReadAs w.f64 b (Result w.rd meaning · r)) ∧
    ∀ e, a = .err e → (pyAsk (env.withJson (numbers w) w.widen meaning) msg c engine
      (.parse text whitelist blacklist ni ns) s).1 = .throws (pyRaised msg e) := by
  rw [c71_parse (env := env.withJson (numbers w) w.widen meaning) hu msg c ht hh htext hw hb hni hns, ha]
  exact ask_readAs (P := fun r b => ReadAs w.f64 b (Result w.rd meaning · r)) fun r hr =>
    ⟨_, rfl, (bytes_readAs w (P := (Result w.rd meaning · r)) (writable_result (d := 120) (hm r hr))
      (shown_result (hm r hr))).symm⟩

/-- **C80**, `get_slots` in Python. -/
theorem c80_getSlots {env : CEnv κ} (hu : env.utf8 = utf8OrErr) (w : Writing) (meaning : Nat → OValue)
    (msg : Err → List Nat) (c : CCirc) {engine : Addr} {h : Handle} {s : HMem κ} (ht : s.Tidy)
    (hh : UsableEngine s.c engine h) {text intent : Text} {ns : Nat} (htext : '\x00' ∉ text) (hintent : '\x00' ∉ intent)
    (hns : ns < 2 ^ 32) {a : Outcome (List Slot)}
    (ha : h.answer c (h.engine.getSlotsWithAlternatives c.order text intent ns) = a)
    (hm : ∀ l, a = .ok l → ∀ s ∈ l, w.WritesSlot meaning s) :
    (∀ l, a = .ok l → ∃ b, (pyAsk (env.withJson (numbers w) w.widen meaning) msg c engine
      (.getSlots text intent ns) s).1 = .ok b ∧
      ReadAs w.f64 b (fun j => ∃ js, j = .arr js ∧ List.Forall₂ (Slot' w.rd meaning) js l)) ∧
    ∀ e, a = .err e → (pyAsk (env.withJson (numbers w) w.widen meaning) msg c engine
      (.getSlots text intent ns) s).1 = .throws (pyRaised msg e) := by
  rw [c71_getSlots (env := env.withJson (numbers w) w.widen meaning) hu msg c ht hh htext hintent hns, ha]
  exact ask_readAs
    (P := fun l b => ReadAs w.f64 b (fun j => ∃ js, j = .arr js ∧ List.Forall₂ (Slot' w.rd meaning) js l)) fun l hl =>
    ⟨_, rfl, (bytes_readAs w (P := fun j => ∃ js, j = .arr js ∧ List.Forall₂ (Slot' w.rd meaning) js l)
      (writable_list (d := 126) fun s hs => writable_slot (d := 123) (hm l hl s hs))
      ⟨_, rfl, forall₂_map fun s hs => shown_slot (hm l hl s hs)⟩).symm⟩

/-- **C80**, `get_intents` in Python. -/
theorem c80_getIntents {env : CEnv κ} (hu : env.utf8 = utf8OrErr) (w : Writing) (meaning : Nat → OValue)
    (msg : Err → List Nat) (c : CCirc) {engine : Addr} {h : Handle} {s : HMem κ} (ht : s.Tidy)
    (hh : UsableEngine s.c engine h) {text : Text} (htext : '\x00' ∉ text) {a : Outcome (List IntentResult)}
    (ha : h.answer c (h.engine.getIntents c.order text) = a) (hm : ∀ l, a = .ok l → ∀ r ∈ l, w.Writes32 r.score) :
    (∀ l, a = .ok l → ∃ b, (pyAsk (env.withJson (numbers w) w.widen meaning) msg c engine (.getIntents text) s).1 = .ok b ∧
      ReadAs w.f64 b (fun j => ∃ js, j = .arr js ∧ List.Forall₂ (Intent w.rd) js l)) ∧
    ∀ e, a = .err e →
      (pyAsk (env.withJson (numbers w) w.widen meaning) msg c engine (.getIntents text) s).1 = .throws (pyRaised msg e) := by
  rw [c71_getIntents (env := env.withJson (numbers w) w.widen meaning) hu msg c ht hh htext, ha]
  exact ask_readAs
    (P := fun l b => ReadAs w.f64 b (fun j => ∃ js, j = .arr js ∧ List.Forall₂ (Intent w.rd) js l)) fun l hl =>
    ⟨_, rfl, (bytes_readAs w (P := fun j => ∃ js, j = .arr js ∧ List.Forall₂ (Intent w.rd) js l)
      (writable_list (d := 126) fun s hs => writable_intent (d := 125) (hm l hl s hs))
      ⟨_, rfl, forall₂_map fun s hs => shown_intent (hm l hl s hs)⟩).symm⟩

/-! ### Examples -/

/-- Exact numbers, of which 2, 1/2 and 4/5 have a text. -/
def demoNumbers : Writing where
  f64 := some
  textOf q := if q = 2 then "2.0".toList else if q = 1 / 2 then "0.5".toList else "0.8".toList
  widen := id
  rd := .exact

/-- The number 2 is the only built-in value. -/
def demoTwo : Nat → OValue := fun _ => .number 2

/-- The result in platforms/python/snips_nlu_rust/tests/test_nlu_engine_wrapper.py:92-126, with a line break and a null
character in the sentence. -/
def demoGame : ParseResult where
  input := "I want\nto \"play\" to\x00invader".toList
  intent := ⟨some "PlayGame".toList, 4 / 5⟩
  slots := [⟨"invader".toList, .custom "Invader Attack 3".toList,
    [.custom "Invader War Demo".toList, .custom "Space Invader Limited Edition".toList], ⟨18, 25⟩, "game".toList,
    "game".toList⟩]
  alternatives := [⟨⟨none, 1 / 2⟩, []⟩]

/-- Its text. -/
example : JsonText.write (numbers demoNumbers) (ResultJson.result id demoTwo demoGame) =
    "{\"input\":\"I want\\nto \\\"play\\\" to\\u0000invader\",\"intent\":{\"intentName\":\"PlayGame\",\"confidenceScore\":0.8},\"slots\":[{\"rawValue\":\"invader\",\"value\":{\"kind\":\"Custom\",\"value\":\"Invader Attack 3\"},\"alternatives\":[{\"kind\":\"Custom\",\"value\":\"Invader War Demo\"},{\"kind\":\"Custom\",\"value\":\"Space Invader Limited Edition\"}],\"range\":{\"start\":18,\"end\":25},\"entity\":\"game\",\"slotName\":\"game\"}],\"alternatives\":[{\"intent\":{\"intentName\":null,\"confidenceScore\":0.5},\"slots\":[]}]}".toList := by
  decide +kernel

/-- The slot in platforms/python/snips_nlu_rust/tests/test_nlu_engine_wrapper.py:136-145. -/
example : JsonText.write (numbers demoNumbers) (ResultJson.slot id demoTwo
    ⟨"two".toList, .builtin 0, [], ⟨8, 11⟩, "snips/number".toList, "number_of_cups".toList⟩) =
    "{\"rawValue\":\"two\",\"value\":{\"kind\":\"Number\",\"value\":2.0},\"alternatives\":[],\"range\":{\"start\":8,\"end\":11},\"entity\":\"snips/number\",\"slotName\":\"number_of_cups\"}".toList := by
  decide +kernel

/-- A text like `0.8` denotes its number. -/
theorem demo_text (a b : Char) (q : ℚ) (ha : Digit a) (ha' : Digit b)
    (hq : (decimal [a] : ℚ) + decimal [b] * (10 : ℚ) ^ (-1 : Int) = q) :
    Number demoNumbers.f64 [a, '.', b] (.float q) := by
  have hd : ∀ {c : Char}, Digit c → Digits [c] := fun hc =>
    ⟨by simp, fun x hx => by obtain rfl := List.mem_singleton.1 hx; exact hc⟩
  have hi : IntPart [a] := by
    rcases eq_or_ne a '0' with rfl | h0
    · exact Or.inl rfl
    · exact Or.inr ⟨hd ha, by simpa using h0⟩
  refine Number.float (f64 := demoNumbers.f64) [] [a] ['.', b] [] [b] 1 0 q SignPart.none hi (FracPart.some [b] (hd ha'))
    ExpPart.none (by simp) ?_
  subst hq
  simp [demoNumbers]

/-- It satisfies the hypotheses of `c80_shows` and `c80_distinct`. -/
example : demoNumbers.WritesResult demoTwo demoGame := by
  have h8 : demoNumbers.Writes32 (4 / 5) := by
    refine ⟨?_, rfl⟩
    have e : demoNumbers.textOf (demoNumbers.widen (4 / 5)) = ['0', '.', '8'] := by decide +kernel
    rw [e]
    refine demo_text '0' '8' _ (by unfold Digit; decide) (by unfold Digit; decide) ?_
    rw [show decimal ['0'] = 0 from rfl, show decimal ['8'] = 8 from rfl]
    norm_num [demoNumbers]
  have h5 : demoNumbers.Writes32 (1 / 2) := by
    refine ⟨?_, rfl⟩
    have e : demoNumbers.textOf (demoNumbers.widen (1 / 2)) = ['0', '.', '5'] := by decide +kernel
    rw [e]
    refine demo_text '0' '5' _ (by unfold Digit; decide) (by unfold Digit; decide) ?_
    rw [show decimal ['0'] = 0 from rfl, show decimal ['5'] = 5 from rfl]
    norm_num [demoNumbers]
  refine ⟨h8, ?_, ?_⟩
  · intro s hs
    obtain rfl := List.mem_singleton.1 hs
    refine ⟨trivial, fun v hv => ?_, by decide, by decide⟩
    simp only [List.mem_cons, List.not_mem_nil, or_false] at hv
    rcases hv with rfl | rfl <;> trivial
  · intro a ha
    obtain rfl := List.mem_singleton.1 ha
    exact ⟨h5, fun s hs => by cases hs⟩

/-- Values that mean different things. -/
example : Function.Injective (SlotValue.meant fun n => .ordinal n) := by
  intro a b h
  cases a <;> cases b <;> simp_all [SlotValue.meant]

/-- `parse` in Python on the engine of `Verif/Spec/BindingsDemo.lean`, with JSON. -/
example : (match (pyAsk (demoHEnv.withJson exactNumbers id demoTwo) demoMsg demoCirc 1
    (.parse "stop".toList (some ["halt".toList]) none 0 0) demoHMem1).1 with
    | .ok b => (JsonText.read exactNumbers b).isSome
    | _ => false) = true := by decide +kernel

end Snips
