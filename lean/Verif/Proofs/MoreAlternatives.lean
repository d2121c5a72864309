import Verif.Spec.MoreAlternatives
import Verif.Proofs.Prog
import Verif.Proofs.Engine

/-! # Lemmas about asking for more alternatives -/

namespace Snips

/-- Where the second program succeeds, the first one does, with a related result. -/
def ReplyFollows {α β : Type} (w : World) (R : α → β → Prop) (p : Prog α) (p' : Prog β) : Prop :=
  ∀ b, p'.run w = .ok b → ∃ a, p.run w = .ok a ∧ R a b

theorem ReplyFollows.ret {α β : Type} {w : World} {R : α → β → Prop} {a : α} {b : β} (h : R a b) : ReplyFollows w R (.ret a) (.ret b) := by
  intro b' hb
  cases hb
  exact ⟨a, rfl, h⟩

theorem ReplyFollows.bind {α β γ δ : Type} {w : World} {R : α → β → Prop} {S : γ → δ → Prop} {p : Prog α} {p' : Prog β}
    {f : α → Prog γ} {f' : β → Prog δ} (h : ReplyFollows w R p p') (hf : ∀ a b, R a b → ReplyFollows w S (f a) (f' b)) :
    ReplyFollows w S (p >>= f) (p' >>= f') := by
  intro d hd
  obtain ⟨b, hb, hd⟩ := Prog.run_bind_ok.1 hd
  obtain ⟨a, ha, hab⟩ := h b hb
  obtain ⟨c, hc, hcd⟩ := hf a b hab d hd
  exact ⟨c, Prog.run_bind_ok.2 ⟨a, ha, hc⟩, hcd⟩

theorem ReplyFollows.same {α : Type} {w : World} (p : Prog α) : ReplyFollows w (· = ·) p p := fun b hb => ⟨b, hb, rfl⟩

/-- The extractors asked for fewer and for more alternatives. -/
structure WorldMore (w : World) (n n' : Nat) : Prop where
  builtin : ∀ s kinds es', w.builtin s kinds n' = .ok es' →
    ∃ es, w.builtin s kinds n = .ok es ∧ List.Forall₂ BuiltinEntity.More es es'
  custom : ∀ s kinds es', w.custom s kinds n' = .ok es' →
    ∃ es, w.custom s kinds n = .ok es ∧ List.Forall₂ CustomEntity.More es es'

theorem mapOutcome_more {shifts : List Int} {es es' : List CustomEntity} (h : List.Forall₂ CustomEntity.More es es') :
    ∀ rs', mapOutcome (remapEntity shifts) es' = .ok rs' →
      ∃ rs, mapOutcome (remapEntity shifts) es = .ok rs ∧ List.Forall₂ CustomEntity.More rs rs' := by
  induction h with
  | nil =>
    intro rs' h
    cases h
    exact ⟨[], rfl, .nil⟩
  | @cons c c' es es' hc _ ih =>
    intro rs' hr
    unfold mapOutcome at hr ⊢
    cases hx : remapEntity shifts c' with
    | err _ => rw [hx] at hr; cases hr
    | panic => rw [hx] at hr; cases hr
    | ok d' =>
      rw [hx] at hr
      have hd : ∃ d, remapEntity shifts c = .ok d ∧ CustomEntity.More d d' := by
        obtain ⟨h1, h2, h3, h4, h5⟩ := hc
        unfold remapEntity at hx ⊢
        rw [h3]
        cases hs : shifts[c'.range.start]? with
        | none => rw [hs] at hx; cases hx
        | some s1 =>
          rw [hs] at hx
          cases ht : c'.range.stop with
          | zero => rw [ht] at hx; cases hx
          | succ stop =>
            rw [ht] at hx
            simp only at hx ⊢
            cases hu : shifts[stop]? with
            | none => rw [hu] at hx; cases hx
            | some s2 =>
              rw [hu] at hx
              cases hx
              exact ⟨_, rfl, h1, h2, rfl, h4, h5⟩
      obtain ⟨d, hd1, hd2⟩ := hd
      rw [hd1]
      cases hm : mapOutcome (remapEntity shifts) es' with
      | err _ => rw [hm] at hr; cases hr
      | panic => rw [hm] at hr; cases hr
      | ok ds' =>
        rw [hm] at hr
        cases hr
        obtain ⟨ds, hds, hf⟩ := ih ds' hm
        rw [hds]
        exact ⟨d :: ds, rfl, .cons hd2 hf⟩

theorem Ext.MoreAdds.world {x : Ext} {n n' : Nat} (h : x.MoreAdds n n') (time : Nat) : WorldMore (x.world time) n n' := by
  refine ⟨fun s kinds es' he => h.builtin time _ kinds es' he, fun s kinds es' he => ?_⟩
  change x.customExtract (x.lower s) kinds n' = .ok es' at he
  change ∃ es, x.customExtract (x.lower s) kinds n = .ok es ∧ _
  unfold Ext.customExtract at he ⊢
  simp only at he ⊢
  cases hg : x.gazetteer (joinWith [' '] ((x.tokenize (x.lower s)).map Token.value)) kinds n' with
  | err _ => rw [hg] at he; cases he
  | panic => rw [hg] at he; cases he
  | ok gs' =>
    rw [hg] at he
    obtain ⟨gs, h1, h2⟩ := h.custom _ _ _ hg
    rw [h1]
    exact mapOutcome_more h2 es' he

variable {w : World} {n n' : Nat}

theorem follows_builtin (hw : WorldMore w n n') (s : Text) (kinds : Option (List Kind)) {α β : Type} {R : α → β → Prop}
    {k : List BuiltinEntity → Prog α} {k' : List BuiltinEntity → Prog β}
    (hk : ∀ es es', List.Forall₂ BuiltinEntity.More es es' → ReplyFollows w R (k es) (k' es')) :
    ReplyFollows w R (.builtinFresh s kinds n k) (.builtinFresh s kinds n' k') := by
  intro b hb
  simp only [Prog.run] at hb ⊢
  cases hx : w.builtin s kinds n' with
  | err _ => rw [hx] at hb; cases hb
  | panic => rw [hx] at hb; cases hb
  | ok es' =>
    rw [hx] at hb
    obtain ⟨es, h1, h2⟩ := hw.builtin _ _ _ hx
    rw [h1]
    exact hk es es' h2 b hb

theorem follows_custom (hw : WorldMore w n n') (s : Text) (kinds : Option (List Text)) {α β : Type} {R : α → β → Prop}
    {k : List CustomEntity → Prog α} {k' : List CustomEntity → Prog β}
    (hk : ∀ es es', List.Forall₂ CustomEntity.More es es' → ReplyFollows w R (k es) (k' es')) :
    ReplyFollows w R (.custom s kinds n k) (.custom s kinds n' k') := by
  intro b hb
  simp only [Prog.run] at hb ⊢
  cases hx : w.custom s kinds n' with
  | err _ => rw [hx] at hb; cases hb
  | panic => rw [hx] at hb; cases hb
  | ok es' =>
    rw [hx] at hb
    obtain ⟨es, h1, h2⟩ := hw.custom _ _ _ hx
    rw [h1]
    exact hk es es' h2 b hb

/-- Optional values that are related or both absent. -/
inductive OptMore {α : Type} (R : α → α → Prop) : Option α → Option α → Prop
  | none : OptMore R none none
  | some {a b : α} : R a b → OptMore R (some a) (some b)

theorem find_more {α : Type} {R : α → α → Prop} {p : α → Bool} (hp : ∀ a b, R a b → p a = p b) {l l' : List α}
    (h : List.Forall₂ R l l') : OptMore R (l.find? p) (l'.find? p) := by
  induction h with
  | nil => exact .none
  | @cons a b l l' hab _ ih =>
    rw [List.find?_cons, List.find?_cons, hp a b hab]
    cases p b with
    | true => exact .some hab
    | false => exact ih

theorem getLast_more {α : Type} {R : α → α → Prop} {l l' : List α} (h : List.Forall₂ R l l') :
    OptMore R l.getLast? l'.getLast? := by
  induction h with
  | nil => exact .none
  | @cons a b l l' hab ht ih =>
    cases ht with
    | nil => exact .some hab
    | cons h1 h2 => simpa using ih

theorem head_more {α : Type} {R : α → α → Prop} {l l' : List α} (h : List.Forall₂ R l l') :
    OptMore R l.head? l'.head? := by
  cases h with
  | nil => exact .none
  | cons h1 _ => exact .some h1

theorem prefix_map {α β : Type} {f : α → β} {l l' : List α} (h : l <+: l') : l.map f <+: l'.map f := by
  obtain ⟨t, rfl⟩ := h
  exact ⟨t.map f, by simp⟩

theorem convertBuiltin_more {slot : InternalSlot} {b b' : BuiltinEntity} (h : b.More b') :
    (convertToBuiltinSlot slot b).More (convertToBuiltinSlot slot b') := ⟨rfl, h.entity, rfl, rfl, rfl, h.alternatives⟩

theorem finishCustom_more {slot : InternalSlot} {extensible : Bool} {c c' : Option CustomEntity}
    (h : OptMore CustomEntity.More c c') :
    OptMore Slot.More (finishCustomSlot slot extensible c) (finishCustomSlot slot extensible c') := by
  cases h with
  | none =>
    cases extensible with
    | true => exact .some ⟨rfl, rfl, rfl, rfl, rfl, List.prefix_refl _⟩
    | false => exact .none
  | some h => exact .some ⟨rfl, congrArg SlotValue.custom h.resolved, rfl, rfl, rfl, prefix_map h.alternatives⟩

theorem resolveBuiltin_follows (hw : WorldMore w n n') (names : KindNames) (slot : InternalSlot) {bs bs' : List BuiltinEntity}
    (hb : List.Forall₂ BuiltinEntity.More bs bs') :
    ReplyFollows w (OptMore Slot.More) (resolveBuiltinSlot names slot bs n) (resolveBuiltinSlot names slot bs' n') := by
  unfold resolveBuiltinSlot
  refine (ReplyFollows.same _).bind ?_
  rintro kind _ rfl
  have hf := find_more (p := fun e => decide (e.kind = kind ∧ e.range = slot.charRange)) (fun a b hab => by
    simp only [hab.kind, hab.range]) hb
  generalize bs.find? (fun e => decide (e.kind = kind ∧ e.range = slot.charRange)) = x at hf
  generalize bs'.find? (fun e => decide (e.kind = kind ∧ e.range = slot.charRange)) = x' at hf
  cases hf with
  | some h => exact .ret (.some (convertBuiltin_more h))
  | none =>
    refine follows_builtin hw _ _ fun es es' hes => .ret ?_
    have hg := getLast_more hes
    generalize es.getLast? = y at hg
    generalize es'.getLast? = y' at hg
    cases hg with
    | none => exact .none
    | some h => exact .some (convertBuiltin_more h)

theorem resolveCustom_follows (hw : WorldMore w n n') (slot : InternalSlot) (extensible : Bool) {cs cs' : List CustomEntity}
    (hc : List.Forall₂ CustomEntity.More cs cs') :
    ReplyFollows w (OptMore Slot.More) (resolveCustomSlot slot extensible cs n) (resolveCustomSlot slot extensible cs' n') := by
  unfold resolveCustomSlot
  have hf := find_more (p := fun e => decide (e.identifier = slot.entity ∧ e.range = slot.charRange)) (fun a b hab => by
    simp only [hab.identifier, hab.range]) hc
  generalize cs.find? (fun e => decide (e.identifier = slot.entity ∧ e.range = slot.charRange)) = x at hf
  generalize cs'.find? (fun e => decide (e.identifier = slot.entity ∧ e.range = slot.charRange)) = x' at hf
  cases hf with
  | some h => exact .ret (finishCustom_more (.some h))
  | none =>
    refine follows_custom hw _ _ fun es es' hes => .ret (finishCustom_more ?_)
    have hg := getLast_more hes
    generalize es.getLast? = y at hg
    generalize es'.getLast? = y' at hg
    cases hg with
    | none => exact .none
    | @some a b h =>
      simp only [Option.bind_some, h.value]
      split
      · exact .some h
      · exact .none

theorem resolveEach_follows (hw : WorldMore w n n') (e : Engine) {bs bs' : List BuiltinEntity} {cs cs' : List CustomEntity}
    (hb : List.Forall₂ BuiltinEntity.More bs bs') (hc : List.Forall₂ CustomEntity.More cs cs') (slots : List InternalSlot) :
    ReplyFollows w (List.Forall₂ Slot.More) (e.resolveEach n bs cs slots) (e.resolveEach n' bs' cs' slots) := by
  induction slots with
  | nil => exact .ret .nil
  | cons slot slots ih =>
    unfold Engine.resolveEach
    refine ReplyFollows.bind (R := OptMore Slot.More) ?_ fun r r' hr => ih.bind fun l l' hl => .ret ?_
    · unfold Engine.resolveOne
      split
      · exact resolveCustom_follows hw slot _ hc
      · exact resolveBuiltin_follows hw e.names slot hb
    · cases hr with
      | none => exact hl
      | some h => exact .cons h hl

theorem resolveSlots_follows (hw : WorldMore w n n') (e : Engine) (text : Text) (slots : List InternalSlot) :
    ReplyFollows w (List.Forall₂ Slot.More) (e.resolveSlots text slots n) (e.resolveSlots text slots n') := by
  unfold Engine.resolveSlots
  split
  · exact .ret .nil
  · exact follows_builtin hw _ _ fun bs bs' hb => follows_custom hw _ _ fun cs cs' hc => resolveEach_follows hw e hb hc slots

theorem slotsCascade_follows (hw : WorldMore w n n') (e : Engine) (o : HashOrd) (input intent : Text) (ps : List ParserImpl) :
    ∀ i, ReplyFollows w (List.Forall₂ Slot.More) (e.slotsCascade o input intent n i ps) (e.slotsCascade o input intent n' i ps) := by
  induction ps with
  | nil => intro i; exact .ret .nil
  | cons p ps ih =>
    intro i
    unfold Engine.slotsCascade
    refine (ReplyFollows.same _).bind ?_
    rintro slots _ rfl
    split
    · exact ih (i + 1)
    · exact resolveSlots_follows hw e input slots

/-- Results with the same intent, and slots with more alternatives. -/
structure ResultMore (r r' : ParseResult) : Prop where
  input : r.input = r'.input
  intent : r.intent = r'.intent
  slots : List.Forall₂ Slot.More r.slots r'.slots
  alternatives : List.Forall₂ Alternative.More r.alternatives r'.alternatives

theorem cascade_follows (hw : WorldMore w n n') (e : Engine) (o : HashOrd) (input : Text) (wl : Option (List Text))
    (ps : List ParserImpl) : ∀ i q, ReplyFollows w ResultMore (e.cascade o input wl n i ps q) (e.cascade o input wl n' i ps q) := by
  induction ps with
  | nil => intro i q; exact .ret ⟨rfl, rfl, .nil, .nil⟩
  | cons p ps ih =>
    intro i q
    unfold Engine.cascade
    refine (ReplyFollows.same _).bind ?_
    rintro r _ rfl
    split
    · exact (resolveSlots_follows hw e input r.slots).bind fun s s' hs => .ret ⟨rfl, rfl, hs, .nil⟩
    · exact ih (i + 1) r.intent.score

theorem alternatives_follows (hw : WorldMore w n n') (e : Engine) (o : HashOrd) (input : Text) (l : List IntentResult) :
    ∀ i, ReplyFollows w (List.Forall₂ Alternative.More) (e.alternativesSlots o input n i l) (e.alternativesSlots o input n' i l) := by
  induction l with
  | nil => intro i; exact .ret .nil
  | cons r l ih =>
    intro i
    unfold Engine.alternativesSlots
    refine ReplyFollows.bind (R := List.Forall₂ Slot.More) ?_ fun s s' hs => (ih (i + 1)).bind fun a a' ha => .ret (.cons ⟨rfl, hs⟩ ha)
    unfold Engine.alternativeSlots
    split
    · exact slotsCascade_follows hw e _ input _ e.parsers 0
    · exact .ret .nil

theorem parseWith_follows (hw : WorldMore w n n') (e : Engine) (o : HashOrd) (input : Text)
    (whitelist blacklist : Option (List Text)) (ni : Nat) :
    ReplyFollows w ResultMore (e.parseWithAlternatives o input whitelist blacklist ni n)
      (e.parseWithAlternatives o input whitelist blacklist ni n') := by
  unfold Engine.parseWithAlternatives
  refine (ReplyFollows.same _).bind ?_
  rintro wl _ rfl
  refine (cascade_follows hw e _ input wl e.parsers 0 0).bind fun m m' hm => ?_
  split
  · exact .ret hm
  · refine (ReplyFollows.same _).bind ?_
    rintro ranked _ rfl
    exact (alternatives_follows hw e _ input _ 0).bind fun a a' ha => .ret ⟨hm.input, hm.intent, hm.slots, ha⟩

theorem alternativesSlots_take (e : Engine) (o : HashOrd) (input : Text) (ns : Nat) (l : List IntentResult) :
    ∀ i k, ReplyFollows w (fun a a' => a = a'.take k) (e.alternativesSlots o input ns i (l.take k))
      (e.alternativesSlots o input ns i l) := by
  induction l with
  | nil =>
    intro i k
    rw [List.take_nil]
    exact .ret List.take_nil.symm
  | cons r l ih =>
    intro i k
    cases k with
    | zero =>
      intro b hb
      exact ⟨[], rfl, rfl⟩
    | succ k =>
      rw [List.take_succ_cons]
      unfold Engine.alternativesSlots
      refine (ReplyFollows.same _).bind ?_
      rintro s _ rfl
      refine (ih (i + 1) k).bind ?_
      rintro a a' rfl
      exact .ret rfl

end Snips
