import Verif.Proofs.Prog
import Verif.Proofs.Map
import Verif.Spec.Engine

/-! Lemmas on the engine. -/

namespace Snips
namespace Engine

/-- What `cascade` does after `k` abstaining parsers. -/
theorem cascade_at (e : Engine) (o : HashOrd) (w : World) (input : Text) (wl : Option (List Text))
    (n : Nat) : ∀ (k : Nat) (ps : List ParserImpl) (i : Nat) (sc : ℚ) (p : ParserImpl)
    (out : Outcome InternalResult),
    (∀ j < k, ∃ (q : ParserImpl) (r : InternalResult), ps[j]? = some q ∧ (q.parse (o.sub (i + j)) input wl).run w = .ok r ∧
      r.intent.name = none) →
    ps[k]? = some p → (p.parse (o.sub (i + k)) input wl).run w = out →
    (e.cascade o input wl n i ps sc).run w = out.bind fun r =>
      match r.intent.name with
      | some _ => ((e.resolveSlots input r.slots n).run w).bind fun slots =>
          .ok ⟨input, r.intent, slots, []⟩
      | none => (e.cascade o input wl n (i + k + 1) (ps.drop (k + 1)) r.intent.score).run w
  | 0, ps, i, sc, p, out, _, hp, hout => by
    cases ps with
    | nil => simp at hp
    | cons q ps =>
      simp only [List.getElem?_cons_zero, Option.some.injEq] at hp
      subst hp
      simp only [cascade]
      rw [Prog.run_bind']
      simp only [Nat.add_zero] at hout
      rw [hout]
      cases out with
      | ok r =>
        simp only [Outcome.bind]
        cases hr : r.intent.name with
        | some nm => simp only; rw [Prog.run_bind']; rfl
        | none => simp [List.drop]
      | err e => rfl
      | panic => rfl
  | k + 1, ps, i, sc, p, out, hprev, hp, hout => by
    cases ps with
    | nil => simp at hp
    | cons q ps =>
      obtain ⟨q', r, hq, hr, hn⟩ := hprev 0 (by omega)
      simp only [List.getElem?_cons_zero, Option.some.injEq] at hq
      subst hq
      simp only [Nat.add_zero] at hr
      simp only [cascade]
      rw [Prog.run_bind', hr]
      simp only [Outcome.bind, hn]
      have := cascade_at e o w input wl n k ps (i + 1) r.intent.score p out ?_ ?_ ?_
      · rw [this]
        have h1 : i + 1 + k + 1 = i + (k + 1) + 1 := by omega
        rw [h1]
        rfl
      · intro j hj
        obtain ⟨q', r', h1, h2, h3⟩ := hprev (j + 1) (by omega)
        refine ⟨q', r', by simpa using h1, ?_, h3⟩
        rw [show i + 1 + j = i + (j + 1) by omega]; exact h2
      · simpa using hp
      · rw [show i + 1 + k = i + (k + 1) by omega]; exact hout

/-- All parsers abstain. -/
theorem cascade_none (e : Engine) (o : HashOrd) (w : World) (input : Text) (wl : Option (List Text))
    (n : Nat) : ∀ (ps : List ParserImpl) (i : Nat) (sc : ℚ),
    (∀ j < ps.length, ∃ (q : ParserImpl) (r : InternalResult), ps[j]? = some q ∧ (q.parse (o.sub (i + j)) input wl).run w = .ok r ∧
      r.intent.name = none) →
    ∃ s, (e.cascade o input wl n i ps sc).run w = .ok ⟨input, ⟨none, s⟩, [], []⟩ ∧
      (ps = [] → s = sc) ∧
      (∀ q, ps[ps.length - 1]? = some q → ∃ r,
        (q.parse (o.sub (i + (ps.length - 1))) input wl).run w = .ok r ∧ r.intent.score = s)
  | [], i, sc, _ => ⟨sc, rfl, fun _ => rfl, by simp⟩
  | p :: ps, i, sc, h => by
    obtain ⟨q, r, hq, hr, hn⟩ := h 0 (by simp)
    simp only [List.getElem?_cons_zero, Option.some.injEq] at hq
    subst hq
    simp only [Nat.add_zero] at hr
    obtain ⟨s, h1, h2, h3⟩ := cascade_none e o w input wl n ps (i + 1) r.intent.score (by
      intro j hj
      obtain ⟨q, r', g1, g2, g3⟩ := h (j + 1) (by simp only [List.length_cons]; omega)
      refine ⟨q, r', by simpa using g1, ?_, g3⟩
      rw [show i + 1 + j = i + (j + 1) by omega]; exact g2)
    refine ⟨s, ?_, by simp, ?_⟩
    · simp only [cascade]
      rw [Prog.run_bind', hr]
      simp only [Outcome.bind, hn]
      exact h1
    · intro q' hq'
      cases ps with
      | nil =>
        simp only [List.length_cons, List.length_nil, Nat.zero_add, Nat.sub_self,
          List.getElem?_cons_zero, Option.some.injEq] at hq'
        subst hq'
        exact ⟨r, by simpa using hr, (h2 rfl).symm⟩
      | cons p' ps =>
        simp only [List.length_cons, Nat.add_sub_cancel] at hq' h3 ⊢
        rw [List.getElem?_cons_succ] at hq'
        obtain ⟨r', g1, g2⟩ := h3 q' hq'
        refine ⟨r', ?_, g2⟩
        rw [show i + (ps.length + 1) = i + 1 + ps.length by omega]; exact g1

/-- Trichotomy: either all parsers abstain, or there is a first one that does not. -/
theorem cascade_cases (o : HashOrd) (w : World) (input : Text) (wl : Option (List Text))
    (ps : List ParserImpl) :
    (∀ j < ps.length, ∃ (q : ParserImpl) (r : InternalResult), ps[j]? = some q ∧ (q.parse (o.sub j) input wl).run w = .ok r ∧
      r.intent.name = none) ∨
    ∃ (k : Nat) (p : ParserImpl) (out : Outcome InternalResult), (∀ j < k, ∃ (q : ParserImpl) (r : InternalResult), ps[j]? = some q ∧ (q.parse (o.sub j) input wl).run w = .ok r ∧
        r.intent.name = none) ∧ ps[k]? = some p ∧ (p.parse (o.sub k) input wl).run w = out ∧
        ∀ r, out = .ok r → r.intent.name ≠ none := by
  by_cases h : ∀ j < ps.length, ∃ (q : ParserImpl) (r : InternalResult), ps[j]? = some q ∧ (q.parse (o.sub j) input wl).run w = .ok r ∧
      r.intent.name = none
  · exact Or.inl h
  · right
    have hex : ∃ j, j < ps.length ∧ ¬ ∃ (q : ParserImpl) (r : InternalResult), ps[j]? = some q ∧
        (q.parse (o.sub j) input wl).run w = .ok r ∧ r.intent.name = none := by
      by_contra hc
      apply h
      intro j hj
      by_contra hj'
      exact hc ⟨j, hj, hj'⟩
    classical
    let k := Nat.find hex
    obtain ⟨hk1, hk2⟩ := Nat.find_spec hex
    refine ⟨k, ps[k], _, ?_, List.getElem?_eq_getElem hk1, rfl, ?_⟩
    · intro j hj
      have := Nat.find_min hex hj
      by_contra hc
      exact this ⟨by omega, hc⟩
    · intro r hr hn
      exact hk2 ⟨ps[k], r, List.getElem?_eq_getElem hk1, hr, hn⟩

theorem resolveEach_run (e : Engine) (n : Nat) (builtins : List BuiltinEntity)
    (customs : List CustomEntity) (w : World) : ∀ (slots : List InternalSlot) (out : List Slot),
    (e.resolveEach n builtins customs slots).run w = .ok out ↔
      ∃ f : InternalSlot → Option Slot, out = slots.filterMap f ∧
        ∀ s ∈ slots, (e.resolveOne n builtins customs s).run w = .ok (f s)
  | [], out => by
    simp only [resolveEach, Prog.run, Outcome.ok.injEq, List.filterMap_nil, List.not_mem_nil,
      false_implies, implies_true, and_true]
    constructor
    · intro h; exact ⟨fun _ => none, h.symm⟩
    · rintro ⟨_, h⟩; exact h.symm
  | slot :: slots, out => by
    have hdef : e.resolveEach n builtins customs (slot :: slots) =
        (e.resolveOne n builtins customs slot >>= fun r =>
          e.resolveEach n builtins customs slots >>= fun rest =>
          Prog.ret (match r with | some s => s :: rest | none => rest)) := rfl
    rw [hdef, Prog.run_bind_ok]
    constructor
    · rintro ⟨r, hr, h⟩
      rw [Prog.run_bind_ok] at h
      obtain ⟨rest, hrest, h⟩ := h
      obtain ⟨f, hf, hall⟩ := (resolveEach_run e n builtins customs w slots rest).1 hrest
      refine ⟨fun s => match (e.resolveOne n builtins customs s).run w with
        | .ok r => r | _ => none, ?_, ?_⟩
      · simp only [Prog.run, Outcome.ok.injEq] at h
        have h2 : slots.filterMap (fun s => match (e.resolveOne n builtins customs s).run w with
            | .ok r => r | _ => none) = rest := by
          rw [hf]
          apply List.filterMap_congr
          intro s hs
          rw [hall s hs]
        rw [List.filterMap_cons, hr, h2]
        simp only
        rw [← h]
        cases r <;> rfl
      · intro s hs
        rcases List.mem_cons.1 hs with rfl | hs
        · simp only [hr]
        · simp only [hall s hs]
    · rintro ⟨f, hf, hall⟩
      refine ⟨f slot, hall slot (by simp), ?_⟩
      rw [Prog.run_bind_ok]
      refine ⟨slots.filterMap f, (resolveEach_run e n builtins customs w slots _).2
        ⟨f, rfl, fun s hs => hall s (List.mem_cons_of_mem _ hs)⟩, ?_⟩
      simp only [Prog.run, hf, List.filterMap_cons, Outcome.ok.injEq]
      cases f slot <;> rfl

/-- The arguments of the two sentence-level extractions of `resolve_slots`. -/
def builtinScope (e : Engine) (slots : List InternalSlot) : List Kind :=
  slots.filterMap fun s => e.names.fromStr s.entity

/-- The custom scope of `resolve_slots`. -/
def customScope (e : Engine) (slots : List InternalSlot) : List Text :=
  slots.filterMap fun s => if (e.names.fromStr s.entity).isSome then none else some s.entity

theorem resolveSlots_run (e : Engine) (text : Text) (slots : List InternalSlot) (n : Nat) (w : World)
    (out : List Slot) (h : (e.resolveSlots text slots n).run w = .ok out) :
    (slots = [] ∧ out = []) ∨ (slots ≠ [] ∧ ∃ builtins customs f,
      w.builtin text (some (e.builtinScope slots)) n = .ok builtins ∧
      w.custom text (some (e.customScope slots)) n = .ok customs ∧
      out = slots.filterMap f ∧
      ∀ s ∈ slots, (e.resolveOne n builtins customs s).run w = .ok (f s)) := by
  unfold resolveSlots at h
  cases slots with
  | nil =>
    simp only [List.isEmpty_nil, if_true, Prog.run, Outcome.ok.injEq] at h
    exact Or.inl ⟨rfl, h.symm⟩
  | cons s slots =>
    right
    refine ⟨by simp, ?_⟩
    simp only [List.isEmpty_cons, Bool.false_eq_true, if_false] at h
    rw [Prog.run_builtinFresh_ok] at h
    obtain ⟨builtins, hb, h⟩ := h
    rw [Prog.run_custom_ok] at h
    obtain ⟨customs, hc, h⟩ := h
    obtain ⟨f, hf, hall⟩ := (resolveEach_run e n builtins customs w _ _).1 h
    exact ⟨builtins, customs, f, hb, hc, hf, hall⟩

theorem resolveCustomSlot_run (slot : InternalSlot) (ext : Bool) (customs : List CustomEntity) (n : Nat)
    (w : World) (r : Option Slot) (h : (resolveCustomSlot slot ext customs n).run w = .ok r) :
    (∃ m, customs.find? (fun e => e.identifier = slot.entity ∧ e.range = slot.charRange) = some m ∧
      r = some (convertToCustomSlot slot m.resolved m.alternatives)) ∨
    (customs.find? (fun e => e.identifier = slot.entity ∧ e.range = slot.charRange) = none ∧
      ∃ own, w.custom slot.value (some [slot.entity]) n = .ok own ∧
        r = finishCustomSlot slot ext
          (own.getLast?.bind fun e => if e.value.length = slot.value.length then some e else none)) := by
  unfold resolveCustomSlot at h
  split at h
  · rename_i m hm
    left
    simp only [Prog.run, Outcome.ok.injEq] at h
    exact ⟨m, hm, h.symm⟩
  · rename_i hm
    right
    rw [Prog.run_custom_ok] at h
    obtain ⟨own, ho, h⟩ := h
    simp only [Prog.run, Outcome.ok.injEq] at h
    exact ⟨hm, own, ho, h.symm⟩

theorem resolveBuiltinSlot_run (names : KindNames) (slot : InternalSlot) (builtins : List BuiltinEntity)
    (n : Nat) (w : World) (r : Option Slot)
    (h : (resolveBuiltinSlot names slot builtins n).run w = .ok r) :
    ∃ kind, names.fromIdentifier slot.entity = some kind ∧
    ((∃ m, builtins.find? (fun e => e.kind = kind ∧ e.range = slot.charRange) = some m ∧
      r = some (convertToBuiltinSlot slot m)) ∨
    (builtins.find? (fun e => e.kind = kind ∧ e.range = slot.charRange) = none ∧
      ∃ own, w.builtin slot.value (some [kind]) n = .ok own ∧
        r = own.getLast?.map (convertToBuiltinSlot slot))) := by
  unfold resolveBuiltinSlot at h
  rw [Prog.run_bind_ok] at h
  obtain ⟨kind, hk, h⟩ := h
  rw [Prog.run_ofOutcome] at hk
  have hk' : names.fromIdentifier slot.entity = some kind := by
    unfold KindNames.fromIdentifierOrErr Outcome.ofOption at hk
    split at hk
    · rename_i a ha; injection hk with hk; rw [← hk]; exact ha
    · cases hk
  refine ⟨kind, hk', ?_⟩
  split at h
  · rename_i m hm
    left
    simp only [Prog.run, Outcome.ok.injEq] at h
    exact ⟨m, hm, h.symm⟩
  · rename_i hm
    right
    rw [Prog.run_builtinFresh_ok] at h
    obtain ⟨own, ho, h⟩ := h
    simp only [Prog.run, Outcome.ok.injEq] at h
    exact ⟨hm, own, ho, h.symm⟩

theorem resolveOne_same (e : Engine) (n : Nat) (builtins : List BuiltinEntity)
    (customs : List CustomEntity) (w : World) (slot : InternalSlot) (r : Slot)
    (h : (e.resolveOne n builtins customs slot).run w = .ok (some r)) : SameSlot slot r := by
  unfold resolveOne at h
  split at h
  · rcases resolveCustomSlot_run _ _ _ _ _ _ h with ⟨m, _, hr⟩ | ⟨_, own, _, hr⟩
    · injection hr with hr; subst hr; exact ⟨rfl, rfl, rfl, rfl⟩
    · unfold finishCustomSlot at hr
      split at hr
      · injection hr with hr; subst hr; exact ⟨rfl, rfl, rfl, rfl⟩
      · split at hr
        · injection hr with hr; subst hr; exact ⟨rfl, rfl, rfl, rfl⟩
        · cases hr
  · obtain ⟨kind, _, ⟨m, _, hr⟩ | ⟨_, own, _, hr⟩⟩ := resolveBuiltinSlot_run _ _ _ _ _ _ h
    · injection hr with hr; subst hr; exact ⟨rfl, rfl, rfl, rfl⟩
    · cases hl : own.getLast? with
      | none => rw [hl] at hr; cases hr
      | some m =>
        rw [hl] at hr
        simp only [Option.map_some, Option.some.injEq] at hr
        subst hr; exact ⟨rfl, rfl, rfl, rfl⟩

theorem filterMap_sublist {α β : Type} (f : α → Option β) (R : α → β → Prop) :
    ∀ (l : List α), (∀ a ∈ l, ∀ b, f a = some b → R a b) →
    ∃ l', l'.Sublist l ∧ List.Forall₂ R l' (l.filterMap f)
  | [], _ => ⟨[], List.Sublist.refl _, by simp⟩
  | a :: l, h => by
    obtain ⟨l', h1, h2⟩ := filterMap_sublist f R l (fun b hb => h b (List.mem_cons_of_mem _ hb))
    cases hf : f a with
    | none => exact ⟨l', h1.cons _, by rw [List.filterMap_cons, hf]; exact h2⟩
    | some b =>
      refine ⟨a :: l', h1.cons_cons a, ?_⟩
      rw [List.filterMap_cons, hf]
      exact List.Forall₂.cons (h a (by simp) b hf) h2

theorem resolveSlots_sublist (e : Engine) (text : Text) (slots : List InternalSlot) (n : Nat) (w : World)
    (out : List Slot) (h : (e.resolveSlots text slots n).run w = .ok out) :
    ∃ kept, kept.Sublist slots ∧ List.Forall₂ SameSlot kept out := by
  rcases resolveSlots_run e text slots n w out h with ⟨rfl, rfl⟩ | ⟨_, builtins, customs, f, _, _, hf, hall⟩
  · exact ⟨[], List.Sublist.refl _, List.Forall₂.nil⟩
  · subst hf
    refine filterMap_sublist f SameSlot slots (fun s hs r hr => ?_)
    exact resolveOne_same e n builtins customs w s r (by rw [hall s hs, hr])

/-- Inversion of a successful parse. -/
theorem parseWith_ok {e : Engine} {o : HashOrd} {w : World} {input : Text}
    {whitelist blacklist : Option (List Text)} {ni ns : Nat} {res : ParseResult}
    (h : (e.parseWithAlternatives o input whitelist blacklist ni ns).run w = .ok res) :
    ∃ wl main, e.getIntentsWhitelist (o.sub 0) whitelist blacklist = .ok wl ∧
      (e.cascade (o.sub 1) input wl ns 0 e.parsers 0).run w = .ok main ∧
      ((ni = 0 ∧ res = main) ∨ (ni ≠ 0 ∧ ∃ ranked alts, (e.getIntents (o.sub 2) input).run w = .ok ranked ∧
        (e.alternativesSlots (o.sub 3) input ns 0
          (((ranked.filter (passesFilter wl)).drop 1).take ni)).run w = .ok alts ∧
        res = { main with alternatives := alts })) := by
  unfold parseWithAlternatives at h
  rw [Prog.run_bind_ok] at h
  obtain ⟨wl, hwl, h⟩ := h
  rw [Prog.run_ofOutcome] at hwl
  rw [Prog.run_bind_ok] at h
  obtain ⟨main, hmain, h⟩ := h
  refine ⟨wl, main, hwl, hmain, ?_⟩
  by_cases h0 : ni = 0
  · left
    rw [if_pos h0, Prog.run_ret, Outcome.ok.injEq] at h
    exact ⟨h0, h.symm⟩
  · right
    rw [if_neg h0, Prog.run_bind_ok] at h
    obtain ⟨ranked, hr, h⟩ := h
    rw [Prog.run_bind_ok] at h
    obtain ⟨alts, ha, h⟩ := h
    rw [Prog.run_ret, Outcome.ok.injEq] at h
    exact ⟨h0, ranked, alts, hr, ha, h.symm⟩

theorem alternativesSlots_run (e : Engine) (o : HashOrd) (input : Text) (n : Nat) (w : World) :
    ∀ (sel : List IntentResult) (i : Nat) (alts : List Alternative),
    (e.alternativesSlots o input n i sel).run w = .ok alts →
    alts.map Alternative.intent = sel ∧ ∀ (j : Nat) (a : Alternative), alts[j]? = some a →
      (e.alternativeSlots (o.sub (i + j)) input n a.intent.name).run w = .ok a.slots
  | [], i, alts, h => by
    simp only [alternativesSlots, Prog.run, Outcome.ok.injEq] at h
    subst h; simp
  | res :: rest, i, alts, h => by
    unfold alternativesSlots at h
    rw [Prog.run_bind_ok] at h
    obtain ⟨slots, hs, h⟩ := h
    rw [Prog.run_bind_ok] at h
    obtain ⟨alts', ha, h⟩ := h
    rw [Prog.run_ret, Outcome.ok.injEq] at h
    subst h
    obtain ⟨h1, h2⟩ := alternativesSlots_run e o input n w rest (i + 1) alts' ha
    refine ⟨by simp [h1], ?_⟩
    intro j a hj
    cases j with
    | zero =>
      simp only [List.getElem?_cons_zero, Option.some.injEq] at hj
      subst hj
      exact hs
    | succ j =>
      have := h2 j a (by simpa using hj)
      rw [show i + (j + 1) = i + 1 + j by omega]
      exact this

end Engine
end Snips
