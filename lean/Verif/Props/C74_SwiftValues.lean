import Verif.Spec.SwiftValues
import Verif.Proofs.SwiftValues
import Verif.Props.C73_Swift

/-! # C74: answers in Swift

Full claim: the structures of Swift say what the native answer says.  This holds except for the end of time intervals
(the beginning is given instead), for cities, countries and regions (the whole answer is replaced by an exception) and
for ordinals beyond 32 bits (their lower bits are given). -/

namespace Snips

/-- **C74**, values: a value is shown as it is exactly when it is among those that can be shown. -/
theorem c74_value (repair : List Nat → Text) {v : OValue} {c : CSlotValue} (hc : cSlotValue v = .ok c) :
    (∃ w, swValue repair c = .ok w ∧ v.inSwift = some w) ↔ v.Shown := by
  constructor
  · intro h
    cases v with
    | ordinal n =>
      cases hc
      obtain ⟨w, h1, h2⟩ := h
      cases h1
      have h2 : n = lowInt32 n := by injection h2 with h2; injection h2
      have : -2147483648 ≤ lowInt32 n ∧ lowInt32 n < 2147483648 := lowInt32_range n
      rw [← h2] at this
      exact this
    | timeInterval start stop =>
      obtain ⟨a, ha, hc⟩ := Outcome.bind_ok_iff'.1 hc
      obtain ⟨b, hb, hc⟩ := Outcome.bind_ok_iff'.1 hc
      cases hc
      obtain ⟨w, h1, h2⟩ := h
      cases h1
      have h2 : stop = a.map (swString repair) := by injection h2 with h2; injection h2
      rw [swString_opt repair ha] at h2
      exact h2
    | city t => obtain ⟨w, -, h2⟩ := h; cases h2
    | country t => obtain ⟨w, -, h2⟩ := h; cases h2
    | region t => obtain ⟨w, -, h2⟩ := h; cases h2
    | custom | number | instantTime | amountOfMoney | temperature | duration | percentage | musicAlbum | musicArtist
    | musicTrack => trivial
  · exact swValue_shown repair hc

/-- The end of an interval is its beginning in Swift. -/
theorem c74_interval (repair : List Nat → Text) {start stop : Option Text} {c : CSlotValue}
    (hc : cSlotValue (.timeInterval start stop) = .ok c) : swValue repair c = .ok (.timeInterval start start) := by
  obtain ⟨a, ha, hc⟩ := Outcome.bind_ok_iff'.1 hc
  obtain ⟨b, hb, hc⟩ := Outcome.bind_ok_iff'.1 hc
  cases hc
  unfold swValue
  simp only
  rw [swString_opt repair ha]

/-- Two intervals with the same beginning cannot be told apart. -/
theorem c74_interval_lost (repair : List Nat → Text) {start stop stop' : Option Text} {c c' : CSlotValue}
    (hc : cSlotValue (.timeInterval start stop) = .ok c) (hc' : cSlotValue (.timeInterval start stop') = .ok c') :
    swValue repair c = swValue repair c' := (c74_interval repair hc).trans (c74_interval repair hc').symm

/-- Values that can be shown and are shown alike are the same. -/
theorem c74_faithful (repair : List Nat → Text) {v v' : OValue} {c c' : CSlotValue} (hv : v.Shown) (hv' : v'.Shown)
    (hc : cSlotValue v = .ok c) (hc' : cSlotValue v' = .ok c') (h : swValue repair c = swValue repair c') : v = v' := by
  obtain ⟨w, h1, h2⟩ := (c74_value repair hc).2 hv
  obtain ⟨w', h1', h2'⟩ := (c74_value repair hc').2 hv'
  rw [h1, h1'] at h
  cases h
  exact inSwift_injective h2 h2'

/-- **C74**, slots. -/
theorem c74_slot (repair : List Nat → Text) {meaning : Nat → OValue} {s : Slot} (hs : s.Shown meaning) {c : CSlot}
    (hc : cSlot meaning s = .ok c) : ∃ w, swSlot repair c = .ok w ∧ ShowsSlot meaning s w :=
  swSlot_shown repair hs hc

/-- **C74**, the answer of `parse`.  Missing: results with a place, with an interval that does not end when it starts, or
with an ordinal beyond 32 bits. -/
theorem c74_parse_partial {env : CEnv CAnswer} {meaning : Nat → OValue} (henv : UsesHeader env meaning)
    (hu : env.utf8 = utf8OrErr) (msg : Err → List Nat) (repair : List Nat → Text) (c : CCirc) {client : Addr} {h : Handle}
    {s : HMem CAnswer} (ht : s.Tidy) (hh : UsableEngine s.c client h) {text : Text} {wl bl : Option (List Text)}
    {ni ns : Int} (hq : (Question.parse text wl bl ni ns).Plain) {r : ParseResult}
    (hr : h.answer c (h.engine.parseWithAlternatives c.order text wl bl ni.toNat ns.toNat) = .ok r)
    {x : CAnswer} (hx : cParseResult meaning r = .ok x) (hshown : r.Shown meaning) :
    ∃ w, (swAsk env msg (swConv repair) c client (.parse text wl bl ni ns) s).1 = .ok w ∧ ShowsResult meaning r w := by
  have key := c73_answer_partial hu msg (swConv repair) c hq ht hh
  have ho : (Question.parse text wl bl ni ns).plainStruct env h c = .ok x := by
    unfold Question.plainStruct
    simp only
    rw [hr, henv.result]
    exact hx
  rw [ho] at key
  obtain ⟨w, hw, hsame⟩ := swParse_shown repair hshown hx
  refine ⟨w, ?_, hsame⟩
  rw [key.1]
  rw [show (swConv repair).of (.parse text wl bl ni ns) x = _ from hw]

/-- **C74**, the answer of `getSlots`, under the same conditions. -/
theorem c74_getSlots_partial {env : CEnv CAnswer} {meaning : Nat → OValue} (henv : UsesHeader env meaning)
    (hu : env.utf8 = utf8OrErr) (msg : Err → List Nat) (repair : List Nat → Text) (c : CCirc) {client : Addr} {h : Handle}
    {s : HMem CAnswer} (ht : s.Tidy) (hh : UsableEngine s.c client h) {text intent : Text} {ns : Int}
    (hq : (Question.getSlots text intent ns).Plain) {l : List Slot}
    (hr : h.answer c (h.engine.getSlotsWithAlternatives c.order text intent ns.toNat) = .ok l)
    {x : CAnswer} (hx : cSlotList meaning l = .ok x) (hshown : ∀ a ∈ l, a.Shown meaning) :
    ∃ ws, (swAsk env msg (swConv repair) c client (.getSlots text intent ns) s).1 = .ok (.slots ws) ∧
      List.Forall₂ (ShowsSlot meaning) l ws := by
  have key := c73_answer_partial hu msg (swConv repair) c hq ht hh
  have ho : (Question.getSlots text intent ns).plainStruct env h c = .ok x := by
    unfold Question.plainStruct
    simp only
    rw [hr, henv.slots]
    exact hx
  rw [ho] at key
  obtain ⟨ws, hw, hsame⟩ := swSlots_shown repair hshown hx
  refine ⟨ws, ?_, hsame⟩
  rw [key.1]
  rw [show (swConv repair).of (.getSlots text intent ns) x = _ from hw]

/-- **C74**, the answer of `getIntents`: always the same. -/
theorem c74_getIntents {env : CEnv CAnswer} {meaning : Nat → OValue} (henv : UsesHeader env meaning)
    (hu : env.utf8 = utf8OrErr) (msg : Err → List Nat) (repair : List Nat → Text) (c : CCirc) {client : Addr} {h : Handle}
    {s : HMem CAnswer} (ht : s.Tidy) (hh : UsableEngine s.c client h) {text : Text} (hq : '\x00' ∉ text)
    {l : List IntentResult} (hr : h.answer c (h.engine.getIntents c.order text) = .ok l)
    {x : CAnswer} (hx : cIntentArray l = .ok x) :
    ∃ ws, (swAsk env msg (swConv repair) c client (.getIntents text) s).1 = .ok (.intents ws) ∧
      List.Forall₂ ShowsIntent l ws := by
  have key := c73_answer_partial hu msg (swConv repair) c (q := .getIntents text) hq ht hh
  have ho : (Question.getIntents text).plainStruct env h c = .ok x := by
    unfold Question.plainStruct
    simp only
    rw [hr, henv.intents]
    exact hx
  rw [ho] at key
  obtain ⟨ws, hw, hsame⟩ := swIntents_shown repair hx
  refine ⟨ws, ?_, hsame⟩
  rw [key.1]
  rw [show (swConv repair).of (.getIntents text) x = _ from hw]

/-- If the value of one slot is a place, or one of its alternatives is, there is no answer but an exception. -/
theorem c74_place {env : CEnv CAnswer} {meaning : Nat → OValue} (henv : UsesHeader env meaning)
    (hu : env.utf8 = utf8OrErr) (msg : Err → List Nat) (repair : List Nat → Text) (c : CCirc) {client : Addr} {h : Handle}
    {s : HMem CAnswer} (ht : s.Tidy) (hh : UsableEngine s.c client h) {text : Text} {wl bl : Option (List Text)}
    {ni ns : Int} (hq : (Question.parse text wl bl ni ns).Plain) {r : ParseResult}
    (hr : h.answer c (h.engine.parseWithAlternatives c.order text wl bl ni.toNat ns.toNat) = .ok r)
    {x : CAnswer} (hx : cParseResult meaning r = .ok x) {a : Slot} (ha : a ∈ r.slots) {v : SlotValue}
    (hv : v = a.value ∨ v ∈ a.alternatives) (hplace : (v.meant meaning).IsPlace) :
    (swAsk env msg (swConv repair) c client (.parse text wl bl ni ns) s).1 = .throws (.conversion 3) := by
  have key := c73_answer_partial hu msg (swConv repair) c hq ht hh
  have ho : (Question.parse text wl bl ni ns).plainStruct env h c = .ok x := by
    unfold Question.plainStruct
    simp only
    rw [hr, henv.result]
    exact hx
  rw [ho] at key
  rw [key.1]
  rw [show (swConv repair).of (.parse text wl bl ni ns) x = _ from swParse_place repair hx ha hv hplace]

/-! ### Examples -/

/-- A builtin value 0 is the number 4, 1 is the time from nine to five, 2 is Paris, others are custom. -/
def demoMeaning : Nat → OValue
  | 0 => .number 4
  | 1 => .timeInterval (some ['9']) (some ['5'])
  | 2 => .city "Paris".toList
  | _ => .custom []

/-- From nine to five is from nine to nine; Paris is an error; the 4294967297th is the first. -/
example : cSlotValue (demoMeaning 1) = .ok (.timeInterval (some [57]) (some [53])) ∧
    swValue (fun _ => []) (.timeInterval (some [57]) (some [53])) = .ok (.timeInterval (some ['9']) (some ['9'])) ∧
    swValue (fun _ => []) (.city [80]) = .error (.conversion 3) ∧
    swValue (fun _ => []) (.ordinal 4294967297) = .ok (.ordinal 1) := by decide +kernel

/-- A slot with the number 4, which is shown, and one with Paris among its alternatives. -/
def demoShownSlot (alternatives : List SlotValue) : Slot :=
  ⟨"four".toList, .builtin 0, alternatives, ⟨0, 4⟩, "snips/number".toList, "n".toList⟩

example : (demoShownSlot [.builtin 7]).Shown demoMeaning :=
  ⟨trivial, fun v hv => by rw [demoShownSlot, List.mem_singleton] at hv; subst hv; trivial, by decide, by decide⟩

example : cSlot demoMeaning (demoShownSlot [.builtin 7]) = .ok ⟨.number 4, [.custom []], [102, 111, 117, 114],
      "snips/number".toList.map Char.toNat, [110], 0, 4, -1⟩ ∧
    (match cSlot demoMeaning (demoShownSlot [.builtin 2]) with
      | .ok c => decide (swSlot (fun _ => []) c = .error (.conversion 3))
      | _ => false) = true := by decide +kernel

/-- An environment that uses the structures of the header. -/
def demoSwEnv : CEnv CAnswer where
  load := demoLoadEnv
  utf8 := utf8OrErr
  readZip _ := .err (.external 244)
  cwd := []
  cResult := cParseResult demoMeaning
  cSlots := cSlotList demoMeaning
  cIntents := cIntentArray
  jsonResult _ := .ok [123, 125]
  jsonSlots _ := .ok [91, 93]
  jsonIntents _ := .ok [91, 93]

example : UsesHeader demoSwEnv demoMeaning := ⟨rfl, rfl, rfl⟩

/-- A process that starts. -/
def demoSwMem : HMem CAnswer where
  c := ⟨fun _ => none, fun _ => none, fun _ => none, fun _ => none, fun _ => none, fun _ => none, none, 1,
    ⟨demoEngineFs 1, 0⟩⟩
  host := 1

/-- An engine is made, and asked to parse a text. -/
example : (swInit demoSwEnv demoMsg demoCirc (.inl ['/', 'm']) demoSwMem).1 = .ok 1 ∧
    (match (swAsk demoSwEnv demoMsg (swConv (fun _ => [])) demoCirc 1 (.parse "stop".toList (some ["halt".toList]) none 0 0)
      (swInit demoSwEnv demoMsg demoCirc (.inl ['/', 'm']) demoSwMem).2).1 with
      | .ok (.result _ i _ _) => decide (i.intentName = some "halt".toList)
      | _ => false) = true := by decide +kernel

end Snips
