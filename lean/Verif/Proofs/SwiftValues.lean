import Verif.Spec.SwiftValues
import Verif.Proofs.Bindings

/-! Lemmas on the conversion of answers to Swift. -/

namespace Snips

theorem cString_ok {t : Text} {b : List Nat} (h : cString t = .ok b) : b = encodeUtf8 t := by
  unfold cString at h
  by_cases h0 : 0 ∈ encodeUtf8 t
  · rw [if_pos h0] at h; cases h
  · rw [if_neg h0] at h; cases h; rfl

theorem swString_text (repair : List Nat → Text) {t : Text} {b : List Nat} (h : cString t = .ok b) : swString repair b = t := by
  rw [cString_ok h]
  unfold swString
  rw [decodeUtf8_encode]

theorem swString_opt (repair : List Nat → Text) {t : Option Text} {b : Option (List Nat)} (h : cOptString t = .ok b) :
    b.map (swString repair) = t := by
  cases t with
  | none => cases h; rfl
  | some t =>
    obtain ⟨p, hp, h⟩ := Outcome.bind_ok_iff'.1 h
    cases h
    exact congrArg some (swString_text repair hp)

theorem lowInt32_range (n : Int) : -2147483648 ≤ lowInt32 n ∧ lowInt32 n < 2147483648 := by
  have h1 := Int.le_bmod (x := n) (m := 4294967296) (by decide)
  have h2 := Int.bmod_lt (x := n) (m := 4294967296) (by decide)
  unfold lowInt32
  omega

theorem lowInt32_of_range {n : Int} (h : -2147483648 ≤ n ∧ n < 2147483648) : lowInt32 n = n := by
  unfold lowInt32
  rw [Int.bmod_eq_of_le] <;> omega

theorem asI32_of_lt {n : Nat} (h : n < 2147483648) : asI32 n = n := lowInt32_of_range (by omega)

theorem swGrain_c (g : TimeGrain) : swGrain (cGrain g) = .ok g := by cases g <;> rfl

theorem swPrecision_c (p : ValuePrecision) : swPrecision (cPrecision p) = .ok p := by cases p <;> rfl

theorem swValue_shown (repair : List Nat → Text) {v : OValue} {c : CSlotValue} (hc : cSlotValue v = .ok c) (hv : v.Shown) :
    ∃ w, swValue repair c = .ok w ∧ v.inSwift = some w := by
  cases v with
  | custom t | musicAlbum t | musicArtist t | musicTrack t =>
    obtain ⟨p, hp, hc⟩ := Outcome.bind_ok_iff'.1 hc
    cases hc
    exact ⟨_, rfl, by rw [swString_text repair hp]; rfl⟩
  | number x | percentage x => cases hc; exact ⟨_, rfl, rfl⟩
  | ordinal n => cases hc; exact ⟨_, rfl, by rw [lowInt32_of_range hv]; rfl⟩
  | instantTime value grain precision =>
    obtain ⟨p, hp, hc⟩ := Outcome.bind_ok_iff'.1 hc
    cases hc
    refine ⟨.instantTime value grain precision, ?_, rfl⟩
    unfold swValue
    simp only
    rw [swGrain_c, swPrecision_c, swString_text repair hp]
    rfl
  | timeInterval start stop =>
    obtain ⟨a, ha, hc⟩ := Outcome.bind_ok_iff'.1 hc
    obtain ⟨b, hb, hc⟩ := Outcome.bind_ok_iff'.1 hc
    cases hc
    refine ⟨_, rfl, ?_⟩
    rw [swString_opt repair ha]
    have hv : stop = start := hv
    rw [hv]
    rfl
  | amountOfMoney value precision unit =>
    obtain ⟨u, hu, hc⟩ := Outcome.bind_ok_iff'.1 hc
    cases hc
    refine ⟨.amountOfMoney value precision unit, ?_, rfl⟩
    unfold swValue
    simp only
    rw [swPrecision_c, swString_opt repair hu]
    rfl
  | temperature value unit =>
    obtain ⟨u, hu, hc⟩ := Outcome.bind_ok_iff'.1 hc
    cases hc
    exact ⟨_, rfl, by rw [swString_opt repair hu]; rfl⟩
  | duration d precision =>
    cases hc
    refine ⟨.duration d precision, ?_, rfl⟩
    unfold swValue
    simp only
    rw [swPrecision_c]
    rfl
  | city | country | region => cases hv

theorem inSwift_injective {v v' : OValue} {w : SwValue} (h : v.inSwift = some w) (h' : v'.inSwift = some w) : v = v' := by
  cases v <;> cases v' <;> cases h <;> cases h' <;> rfl

theorem mapOutcome_forall {α β : Type} {f : α → Outcome β} {l : List α} {l' : List β} (h : mapOutcome f l = .ok l') :
    List.Forall₂ (fun a b => f a = .ok b) l l' := by
  induction l generalizing l' with
  | nil => cases h; exact .nil
  | cons a l ih =>
    unfold mapOutcome at h
    cases ha : f a with
    | ok b =>
      rw [ha] at h
      cases hl : mapOutcome f l with
      | ok bs => rw [hl] at h; cases h; exact .cons ha (ih hl)
      | err e => rw [hl] at h; cases h
      | panic => rw [hl] at h; cases h
    | err e => rw [ha] at h; cases h
    | panic => rw [ha] at h; cases h

/-- If the elements can be converted, so can the list. -/
theorem swMap_forall {α β γ : Type} {f : β → Except HostError γ} {P : α → γ → Prop} {Q : α → β → Prop} {l : List α} {l' : List β}
    (h : List.Forall₂ Q l l') (hf : ∀ a ∈ l, ∀ b, Q a b → ∃ w, f b = .ok w ∧ P a w) :
    ∃ ws, swMap f l' = .ok ws ∧ List.Forall₂ P l ws := by
  induction h with
  | nil => exact ⟨[], rfl, .nil⟩
  | @cons a b l l' hab h ih =>
    obtain ⟨w, h1, h2⟩ := hf a (List.mem_cons_self ..) b hab
    obtain ⟨ws, h3, h4⟩ := ih fun a ha => hf a (List.mem_cons_of_mem _ ha)
    refine ⟨w :: ws, ?_, .cons h2 h4⟩
    unfold swMap
    rw [h1, h3]
    rfl

theorem swSlot_shown (repair : List Nat → Text) {meaning : Nat → OValue} {s : Slot} (hs : s.Shown meaning) {c : CSlot}
    (hc : cSlot meaning s = .ok c) : ∃ w, swSlot repair c = .ok w ∧ ShowsSlot meaning s w := by
  obtain ⟨value, h1, hc⟩ := Outcome.bind_ok_iff'.1 hc
  obtain ⟨alternatives, h2, hc⟩ := Outcome.bind_ok_iff'.1 hc
  obtain ⟨rawValue, h3, hc⟩ := Outcome.bind_ok_iff'.1 hc
  obtain ⟨entity, h4, hc⟩ := Outcome.bind_ok_iff'.1 hc
  obtain ⟨slotName, h5, hc⟩ := Outcome.bind_ok_iff'.1 hc
  cases hc
  obtain ⟨w, e1, e2⟩ := swValue_shown repair h1 hs.1
  obtain ⟨ws, f1, f2⟩ := swMap_forall (f := swValue repair)
    (P := fun v u => (SlotValue.meant meaning v).inSwift = some u) (mapOutcome_forall h2)
    fun a ha b hb => swValue_shown repair hb (hs.2.1 a ha)
  refine ⟨⟨s.rawValue, w, ws, ((s.range.start : Int), (s.range.stop : Int)), s.entity, s.slotName, none⟩, ?_, rfl, e2, f2,
    rfl, rfl, rfl, rfl⟩
  unfold swSlot
  simp only
  rw [e1, f1, swString_text repair h3, swString_text repair h4, swString_text repair h5, asI32_of_lt hs.2.2.1,
    asI32_of_lt hs.2.2.2, if_neg (by decide)]
  rfl

theorem swIntent_same (repair : List Nat → Text) {r : IntentResult} {c : CIntentResult} (hc : cIntent r = .ok c) :
    ShowsIntent r (swIntent repair c) := by
  obtain ⟨n, hn, hc⟩ := Outcome.bind_ok_iff'.1 hc
  cases hc
  exact ⟨swString_opt repair hn, rfl⟩

theorem swSlots_all (repair : List Nat → Text) {meaning : Nat → OValue} {l : List Slot} (hl : ∀ a ∈ l, a.Shown meaning)
    {cs : List CSlot} (hc : mapOutcome (cSlot meaning) l = .ok cs) :
    ∃ ws, swMap (swSlot repair) cs = .ok ws ∧ List.Forall₂ (ShowsSlot meaning) l ws :=
  swMap_forall (mapOutcome_forall hc) fun a ha _ hb => swSlot_shown repair (hl a ha) hb

theorem swSlots_shown (repair : List Nat → Text) {meaning : Nat → OValue} {l : List Slot} (hl : ∀ a ∈ l, a.Shown meaning)
    {x : CAnswer} (hx : cSlotList meaning l = .ok x) :
    ∃ ws, (swConv repair).slots x = .ok (.slots ws) ∧ List.Forall₂ (ShowsSlot meaning) l ws := by
  obtain ⟨cs, hc, hx⟩ := Outcome.bind_ok_iff'.1 hx
  cases hx
  obtain ⟨ws, h1, h2⟩ := swSlots_all repair hl hc
  refine ⟨ws, ?_, h2⟩
  change (swMap (swSlot repair) cs).map SwResult.slots = _
  rw [h1]
  rfl

theorem swIntents_shown (repair : List Nat → Text) {l : List IntentResult} {x : CAnswer} (hx : cIntentArray l = .ok x) :
    ∃ ws, (swConv repair).intents x = .ok (.intents ws) ∧ List.Forall₂ ShowsIntent l ws := by
  obtain ⟨cs, hc, hx⟩ := Outcome.bind_ok_iff'.1 hx
  cases hx
  refine ⟨cs.map (swIntent repair), rfl, ?_⟩
  exact List.forall₂_map_right_iff.2 ((mapOutcome_forall hc).imp fun _ _ h => swIntent_same repair h)

theorem swParse_shown (repair : List Nat → Text) {meaning : Nat → OValue} {r : ParseResult} (hr : r.Shown meaning)
    {x : CAnswer} (hx : cParseResult meaning r = .ok x) :
    ∃ w, (swConv repair).result x = .ok w ∧ ShowsResult meaning r w := by
  obtain ⟨input, h1, hx⟩ := Outcome.bind_ok_iff'.1 hx
  obtain ⟨intent, h2, hx⟩ := Outcome.bind_ok_iff'.1 hx
  obtain ⟨slots, h3, hx⟩ := Outcome.bind_ok_iff'.1 hx
  obtain ⟨alternatives, h4, hx⟩ := Outcome.bind_ok_iff'.1 hx
  cases hx
  obtain ⟨ws, e1, e2⟩ := swSlots_all repair hr.1 h3
  obtain ⟨as, f1, f2⟩ := swMap_forall (f := swAlternative repair) (P := ShowsAlternative meaning) (mapOutcome_forall h4)
    fun a ha b hb => by
      obtain ⟨i, g1, hb⟩ := Outcome.bind_ok_iff'.1 hb
      obtain ⟨l, g2, hb⟩ := Outcome.bind_ok_iff'.1 hb
      cases hb
      obtain ⟨us, g3, g4⟩ := swSlots_all repair (hr.2 a ha) g2
      refine ⟨⟨swIntent repair i, us⟩, ?_, swIntent_same repair g1, g4⟩
      unfold swAlternative
      simp only
      rw [g3]
      rfl
  refine ⟨.result r.input (swIntent repair intent) ws as, ?_, _, _, _, rfl, swIntent_same repair h2, e2, f2⟩
  change swParseResult repair input intent slots alternatives = _
  unfold swParseResult
  rw [e1, f1, swString_text repair h1]
  rfl

/-- A value, or the one error that there is for values. -/
def OkOr3 {α : Type} (x : Except HostError α) : Prop := (∃ w, x = .ok w) ∨ x = .error (.conversion 3)

theorem swValue_cases (repair : List Nat → Text) {v : OValue} {c : CSlotValue} (hc : cSlotValue v = .ok c) :
    OkOr3 (swValue repair c) ∧ (v.IsPlace → swValue repair c = .error (.conversion 3)) := by
  have place : ∀ {t : Text} {f : List Nat → CSlotValue}, (∀ p, swValue repair (f p) = .error (.conversion 3)) →
      (cString t >>= fun p => .ok (f p)) = .ok c → swValue repair c = .error (.conversion 3) := by
    intro t f hf hc
    obtain ⟨p, hp, hc⟩ := Outcome.bind_ok_iff'.1 hc
    cases hc
    exact hf p
  by_cases hv : v.IsPlace
  · have h3 : swValue repair c = .error (.conversion 3) := by
      obtain ⟨t, rfl | rfl | rfl⟩ := hv
      · exact place (f := .city) (fun _ => rfl) hc
      · exact place (f := .country) (fun _ => rfl) hc
      · exact place (f := .region) (fun _ => rfl) hc
    exact ⟨.inr h3, fun _ => h3⟩
  · refine ⟨.inl ?_, fun h => absurd h hv⟩
    cases v with
    | ordinal n => cases hc; exact ⟨_, rfl⟩
    | timeInterval start stop =>
      obtain ⟨a, ha, hc⟩ := Outcome.bind_ok_iff'.1 hc
      obtain ⟨b, hb, hc⟩ := Outcome.bind_ok_iff'.1 hc
      cases hc
      exact ⟨_, rfl⟩
    | city t => exact absurd ⟨t, .inl rfl⟩ hv
    | country t => exact absurd ⟨t, .inr (.inl rfl)⟩ hv
    | region t => exact absurd ⟨t, .inr (.inr rfl)⟩ hv
    | custom | number | instantTime | amountOfMoney | temperature | duration | percentage | musicAlbum | musicArtist
    | musicTrack =>
      obtain ⟨w, hw, -⟩ := swValue_shown repair hc trivial
      exact ⟨w, hw⟩

theorem swMap_cases {β γ : Type} {f : β → Except HostError γ} {l : List β} (h : ∀ b ∈ l, OkOr3 (f b)) :
    OkOr3 (swMap f l) ∧ ((∃ b ∈ l, f b = .error (.conversion 3)) → swMap f l = .error (.conversion 3)) := by
  induction l with
  | nil => exact ⟨.inl ⟨[], rfl⟩, fun ⟨b, hb, _⟩ => by cases hb⟩
  | cons b l ih =>
    obtain ⟨ih1, ih2⟩ := ih fun b hb => h b (List.mem_cons_of_mem _ hb)
    unfold swMap
    rcases h b (List.mem_cons_self ..) with ⟨w, hw⟩ | hw
    · rw [hw]
      rcases ih1 with ⟨ws, hws⟩ | hws
      · rw [hws]
        refine ⟨.inl ⟨w :: ws, rfl⟩, fun ⟨b', hb', h3⟩ => ?_⟩
        cases hb' with
        | head => rw [hw] at h3; cases h3
        | tail _ hb' =>
          have := ih2 ⟨b', hb', h3⟩
          rw [hws] at this
          cases this
      · rw [hws]
        exact ⟨.inr rfl, fun _ => rfl⟩
    · rw [hw]
      exact ⟨.inr rfl, fun _ => rfl⟩

theorem forall₂_left {α β : Type} {R : α → β → Prop} {l : List α} {l' : List β} (h : List.Forall₂ R l l') :
    (∀ a ∈ l, ∃ b ∈ l', R a b) ∧ ∀ b ∈ l', ∃ a ∈ l, R a b := by
  induction h with
  | nil => exact ⟨fun _ h => (by cases h), fun _ h => (by cases h)⟩
  | cons hab h ih =>
    refine ⟨fun x hx => ?_, fun x hx => ?_⟩
    · cases hx with
      | head => exact ⟨_, List.mem_cons_self .., hab⟩
      | tail _ hx => obtain ⟨y, hy, hr⟩ := ih.1 x hx; exact ⟨y, List.mem_cons_of_mem _ hy, hr⟩
    · cases hx with
      | head => exact ⟨_, List.mem_cons_self .., hab⟩
      | tail _ hx => obtain ⟨y, hy, hr⟩ := ih.2 x hx; exact ⟨y, List.mem_cons_of_mem _ hy, hr⟩

theorem swSlot_cases (repair : List Nat → Text) {meaning : Nat → OValue} {s : Slot} {c : CSlot} (hc : cSlot meaning s = .ok c) :
    OkOr3 (swSlot repair c) ∧ (∀ v, v = s.value ∨ v ∈ s.alternatives → (SlotValue.meant meaning v).IsPlace →
      swSlot repair c = .error (.conversion 3)) := by
  obtain ⟨value, h1, hc⟩ := Outcome.bind_ok_iff'.1 hc
  obtain ⟨alternatives, h2, hc⟩ := Outcome.bind_ok_iff'.1 hc
  obtain ⟨rawValue, h3, hc⟩ := Outcome.bind_ok_iff'.1 hc
  obtain ⟨entity, h4, hc⟩ := Outcome.bind_ok_iff'.1 hc
  obtain ⟨slotName, h5, hc⟩ := Outcome.bind_ok_iff'.1 hc
  cases hc
  have hl := forall₂_left (mapOutcome_forall h2)
  obtain ⟨e1, e2⟩ := swValue_cases repair h1
  obtain ⟨f1, f2⟩ := swMap_cases (f := swValue repair) (l := alternatives) fun b hb => by
    obtain ⟨a, _, ha⟩ := hl.2 b hb
    exact (swValue_cases repair ha).1
  unfold swSlot
  simp only
  rcases e1 with ⟨w, hw⟩ | hw
  · rw [hw]
    rcases f1 with ⟨ws, hws⟩ | hws
    · rw [hws]
      refine ⟨.inl ⟨_, rfl⟩, fun v hv hp => ?_⟩
      rcases hv with rfl | hv
      · have := e2 hp
        rw [hw] at this
        cases this
      · obtain ⟨b, hb, hvb⟩ := hl.1 v hv
        have := f2 ⟨b, hb, (swValue_cases repair hvb).2 hp⟩
        rw [hws] at this
        cases this
    · rw [hws]
      exact ⟨.inr rfl, fun _ _ _ => rfl⟩
  · rw [hw]
    exact ⟨.inr rfl, fun _ _ _ => rfl⟩

theorem swParse_place (repair : List Nat → Text) {meaning : Nat → OValue} {r : ParseResult} {x : CAnswer}
    (hx : cParseResult meaning r = .ok x) {a : Slot} (ha : a ∈ r.slots) {v : SlotValue}
    (hv : v = a.value ∨ v ∈ a.alternatives) (hplace : (v.meant meaning).IsPlace) :
    (swConv repair).result x = .error (.conversion 3) := by
  obtain ⟨input, h1, hx⟩ := Outcome.bind_ok_iff'.1 hx
  obtain ⟨intent, h2, hx⟩ := Outcome.bind_ok_iff'.1 hx
  obtain ⟨slots, h3, hx⟩ := Outcome.bind_ok_iff'.1 hx
  obtain ⟨alternatives, h4, hx⟩ := Outcome.bind_ok_iff'.1 hx
  cases hx
  have hl := forall₂_left (mapOutcome_forall h3)
  obtain ⟨b, hb, hab⟩ := hl.1 a ha
  have key := (swMap_cases (f := swSlot repair) (l := slots) fun b hb => by
    obtain ⟨a, _, ha⟩ := hl.2 b hb
    exact (swSlot_cases repair ha).1).2 ⟨b, hb, (swSlot_cases repair hab).2 v hv hplace⟩
  change swParseResult repair input intent slots alternatives = _
  unfold swParseResult
  rw [key]
  rfl

end Snips
