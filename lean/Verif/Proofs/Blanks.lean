import Verif.Spec.PlainText
import Verif.Props.C118_Blanks
import Verif.Props.C29_Features
import Verif.Proofs.Bytes
import Verif.Proofs.LetterCaseEngine

/-! Further blanks in a query, and the slot filler (for C119). -/

namespace Snips.Blanks

variable {fns : TextFns} {x : Spot} {n : Nat}

/-- A token and the same token at its place in the longer query. -/
def MovedToken (x : Spot) (n : Nat) (a b : Token) : Prop :=
  b.value = a.value ∧ b.charRange = x.moved (List.replicate n ' ') a.charRange

def pr (t : Token) : Text × Rng := (t.value, t.charRange)

def sh (k : Nat) (p : Text × Rng) : Text × Rng := (p.1, ⟨p.2.start + k, p.2.stop + k⟩)

theorem apart (hap : fns.TokensApart) (a b : Text) :
    (fns.tokenize (a ++ ' ' :: b)).map pr = (fns.tokenize a).map pr ++ ((fns.tokenize b).map pr).map (sh (a.length + 1)) := by
  have := hap a b
  rw [List.map_map]
  exact this

theorem pairs_moved (htok : ∀ t, Tokenized t (fns.tokenize t)) (hap : fns.TokensApart) (x : Spot) (n : Nat) :
    (fns.tokenize (x.long (List.replicate n ' '))).map pr =
      ((fns.tokenize x.short).map pr).map fun p => (p.1, x.moved (List.replicate n ' ') p.2) := by
  have h0 := no_tokens htok hap n
  cases x with
  | front t =>
    simp only [Spot.long, Spot.short, apart hap, h0, List.map_nil, List.nil_append, List.length_replicate]
    refine List.map_congr_left fun p _ => ?_
    simp [sh, Spot.moved, Spot.pos]
  | back t =>
    simp only [Spot.long, Spot.short, apart hap, h0, List.map_nil, List.append_nil]
    rw [show (fun p : Text × Rng => (p.1, (Spot.back t).moved (List.replicate n ' ') p.2)) = id from rfl, List.map_id]
  | between a b =>
    simp only [Spot.long, Spot.short, apart hap, h0, List.map_nil, List.nil_append, List.length_replicate, List.map_append]
    congr 1
    · rw [List.map_map]
      refine List.map_congr_left fun t ht => ?_
      have h1 := (htok a).nonempty t ht
      have h2 := (htok a).inside t ht
      unfold Rng.NonEmpty at h1
      have e : (Spot.between a b).moved (List.replicate n ' ') t.charRange = t.charRange := by
        simp only [Spot.moved, Spot.pos]
        rw [if_pos (by omega), if_pos (by omega)]
      change (t.value, t.charRange) = (t.value, (Spot.between a b).moved (List.replicate n ' ') t.charRange)
      rw [e]
    · rw [List.map_map, List.map_map (g := fun p : Text × Rng => (p.1, (Spot.between a b).moved (List.replicate n ' ') p.2))]
      generalize (fns.tokenize b).map pr = l
      refine List.map_congr_left fun p _ => ?_
      simp only [Function.comp, sh, Spot.moved, Spot.pos, List.length_replicate]
      rw [if_neg (by omega), if_neg (by omega)]
      congr 2 <;> omega

theorem tokens_moved (htok : ∀ t, Tokenized t (fns.tokenize t)) (hap : fns.TokensApart) (x : Spot) (n : Nat) :
    List.Forall₂ (MovedToken x n) (fns.tokenize x.short) (fns.tokenize (x.long (List.replicate n ' '))) := by
  have h := pairs_moved htok hap x n
  rw [List.map_map] at h
  revert h
  generalize fns.tokenize x.short = l
  generalize fns.tokenize (x.long (List.replicate n ' ')) = l'
  intro h
  induction l generalizing l' with
  | nil =>
    cases l' with
    | nil => exact .nil
    | cons b l' => cases h
  | cons a l ih =>
    cases l' with
    | nil => cases h
    | cons b l' =>
      simp only [List.map_cons, List.cons.injEq, Function.comp, pr, Prod.mk.injEq] at h
      exact .cons h.1 (ih _ h.2)

/-! ### The text rebuilt from the tokens -/

theorem laid {t : Text} {toks : List Token} (h : Tokenized t toks) : Laid toks := by
  refine ⟨fun tok ht => ?_, h.ordered⟩
  have h1 := h.nonempty tok ht
  have h2 := h.inside tok ht
  have h3 := h.value tok ht
  unfold Rng.NonEmpty at h1
  rw [h3, List.length_take, List.length_drop]
  omega

theorem rebuilt_plain (htok : ∀ t, Tokenized t (fns.tokenize t)) {t : Text} (hp : fns.Plain t) (hn : fns.tokenize t ≠ []) :
    initialStringFromTokens (fns.tokenize t) = .ok t := by
  obtain ⟨text, h1, h2, h3, h4⟩ := c31_rebuild _ hn (laid (htok t))
  rw [h1]
  congr 1
  obtain ⟨last, hlast⟩ : ∃ last, (fns.tokenize t).getLast? = some last :=
    ⟨_, List.getLast?_eq_some_getLast hn⟩
  have hlen : text.length = t.length := by rw [h4 last hlast, hp.ends last hlast]
  refine List.ext_getElem? fun k => ?_
  by_cases hk : k < t.length
  · by_cases hin : ∃ tok ∈ fns.tokenize t, tok.charRange.Has k
    · obtain ⟨tok, ht, hh1, hh2⟩ := hin
      have e1 := (h2 tok ht).2
      have e2 := (htok t).value tok ht
      rw [e2] at e1
      have := congrArg (fun l => l[k - tok.charRange.start]?) e1
      simp only [List.getElem?_take, List.getElem?_drop] at this
      rw [if_pos (by omega), if_pos (by omega)] at this
      rwa [show tok.charRange.start + (k - tok.charRange.start) = k by omega] at this
    · have hno : ∀ tok ∈ fns.tokenize t, ¬ tok.charRange.Has k := fun tok ht hh => hin ⟨tok, ht, hh⟩
      have e1 : t[k]? = some t[k] := List.getElem?_eq_getElem hk
      have e2 : text[k]? = some (text[k]'(by omega)) := List.getElem?_eq_getElem _
      rw [e1, e2, hp.blank k _ e1 hno, h3 k _ e2 hno]
  · rw [List.getElem?_eq_none (by omega), List.getElem?_eq_none (by omega)]

theorem located (x : Spot) {i : Nat} {c : Char} (h : (x.long (List.replicate n ' '))[i]? = some c) :
    c = ' ' ∨ ∃ j, i = x.pos (List.replicate n ' ') j ∧ x.short[j]? = some c := by
  have hrep : ∀ (k : Nat) (t : Text) (d : Char), (List.replicate n ' ' ++ ' ' :: t)[k]? = some d →
      d = ' ' ∨ (n + 1 ≤ k ∧ t[k - (n + 1)]? = some d) := by
    intro k t d hk
    rw [List.getElem?_append] at hk
    split at hk
    · rw [List.getElem?_replicate] at hk
      split at hk
      · left; simpa using hk.symm
      · cases hk
    · next hlt =>
      simp only [List.length_replicate, Nat.not_lt] at hlt hk
      obtain ⟨m, rfl⟩ : ∃ m, k = n + m := ⟨k - n, by omega⟩
      rw [Nat.add_sub_cancel_left] at hk
      cases m with
      | zero => left; simpa using hk.symm
      | succ m =>
        right
        refine ⟨by omega, ?_⟩
        rw [show n + (m + 1) - (n + 1) = m by omega]
        simpa using hk
  cases x with
  | front t =>
    rcases hrep i t c h with h | ⟨h1, h2⟩
    · exact .inl h
    · exact .inr ⟨_, by simp only [Spot.pos, List.length_replicate]; omega, h2⟩
  | back t =>
    simp only [Spot.long] at h
    rw [List.getElem?_append] at h
    split at h
    · exact .inr ⟨i, rfl, h⟩
    · left
      rw [show ' ' :: List.replicate n ' ' = List.replicate (n + 1) ' ' from rfl, List.getElem?_replicate] at h
      split at h
      · simpa using h.symm
      · cases h
  | between a b =>
    simp only [Spot.long] at h
    rw [List.getElem?_append] at h
    split at h
    · next hlt =>
      refine .inr ⟨i, by simp only [Spot.pos]; rw [if_pos (by omega)], ?_⟩
      simp only [Spot.short]
      rw [List.getElem?_append_left hlt, h]
    · next hge =>
      obtain ⟨m, rfl⟩ : ∃ m, i = a.length + m := ⟨i - a.length, by omega⟩
      rw [Nat.add_sub_cancel_left] at h
      cases m with
      | zero => left; simpa using h.symm
      | succ m =>
        simp only [List.getElem?_cons_succ] at h
        rcases hrep m b c h with h | ⟨h1, h2⟩
        · exact .inl h
        · refine .inr ⟨a.length + 1 + (m - (n + 1)), ?_, ?_⟩
          · simp only [Spot.pos, List.length_replicate]
            rw [if_neg (by omega)]
            omega
          · simp only [Spot.short]
            rw [List.getElem?_append_right (by omega), show a.length + 1 + (m - (n + 1)) - a.length = (m - (n + 1)) + 1 by omega]
            simpa using h2

theorem getLast_forall₂ {α β : Type} {R : α → β → Prop} {l : List α} {l' : List β} (h : List.Forall₂ R l l') {b : β}
    (hb : l'.getLast? = some b) : ∃ a, l.getLast? = some a ∧ R a b := by
  have := getElem?_forall₂ h (l.length - 1)
  rw [List.getLast?_eq_getElem?] at hb ⊢
  rw [← h.length_eq] at hb
  rw [hb] at this
  revert this
  generalize l[l.length - 1]? = z
  intro this
  cases this with
  | some h => exact ⟨_, rfl, h⟩

theorem plain_long (htok : ∀ t, Tokenized t (fns.tokenize t)) (hap : fns.TokensApart) (hp : fns.Plain x.short)
    (hx : ∀ t, x ≠ .back t) : fns.Plain (x.long (List.replicate n ' ')) := by
  have hm := tokens_moved htok hap x n
  refine ⟨fun last hl => ?_, fun i c hi hno => ?_⟩
  · obtain ⟨l, h1, h2⟩ := getLast_forall₂ hm hl
    rw [h2.2, Spot.moved, hp.ends l h1]
    cases x with
    | front t => simp [Spot.pos, Spot.short, Spot.long]; omega
    | back t => exact absurd rfl (hx t)
    | between a b =>
      simp only [Spot.pos, Spot.short, Spot.long, List.length_append, List.length_cons, List.length_replicate]
      rw [if_neg (by omega)]
      omega
  · rcases located x hi with h | ⟨j, rfl, hj⟩
    · exact h
    · refine hp.blank j c hj fun tok ht hh => ?_
      obtain ⟨k, hk, rfl⟩ := List.getElem_of_mem ht
      have := getElem?_forall₂ hm k
      rw [List.getElem?_eq_getElem hk] at this
      revert this
      generalize hz : (fns.tokenize (x.long (List.replicate n ' ')))[k]? = z
      intro this
      cases this with
      | some h =>
        refine hno _ (List.mem_of_getElem? hz) ?_
        rw [h.2]
        exact ⟨(Inserted.pos_le x).2 hh.1, (Inserted.pos_lt x).2 hh.2⟩

theorem initial_same {t : Text} {l l' : List Token} (h : List.Forall₂ (MovedToken (.back t) n) l l') : ∀ cur,
    initialStringFrom cur l' = initialStringFrom cur l := by
  induction h with
  | nil => exact fun _ => rfl
  | cons hab _ ih =>
    intro cur
    have h2 := hab.2
    rw [show ∀ r, (Spot.back t).moved (List.replicate n ' ') r = r from fun _ => rfl] at h2
    simp only [initialStringFrom, hab.1, h2, ih]

theorem rebuilt (htok : ∀ t, Tokenized t (fns.tokenize t)) (hap : fns.TokensApart) (hp : fns.Plain x.short) {w : World}
    (hm : w.SameMatches x (List.replicate n ' ')) (hn : fns.tokenize x.short ≠ []) :
    ∃ T, initialStringFromTokens (fns.tokenize (x.long (List.replicate n ' '))) = .ok T ∧
      ∀ kinds bs, w.builtin x.short (some kinds) 0 = .ok bs → ∃ bs', w.builtin T (some kinds) 0 = .ok bs' ∧
        bs'.map BuiltinEntity.range = (bs.map BuiltinEntity.range).map (x.moved (List.replicate n ' ')) := by
  have hmv := tokens_moved htok hap x n
  have hn' : fns.tokenize (x.long (List.replicate n ' ')) ≠ [] := by
    intro h
    rw [← nil_iff_forall₂ hmv] at h
    exact hn h
  by_cases hx : ∀ t, x ≠ .back t
  · refine ⟨_, rebuilt_plain htok (plain_long htok hap hp hx) hn', fun kinds bs h => ?_⟩
    obtain ⟨-, bs', h1, h2⟩ := hm.builtin kinds bs h
    refine ⟨bs', h1, ?_⟩
    clear h h1
    induction h2 with
    | nil => rfl
    | cons hab _ ih => simp only [List.map_cons, hab.2, ih]
  · obtain ⟨t, rfl⟩ : ∃ t, x = .back t := by simpa using hx
    refine ⟨t, ?_, fun kinds bs h => ⟨bs, h, ?_⟩⟩
    · have := rebuilt_plain htok hp hn
      unfold initialStringFromTokens at this ⊢
      rw [if_neg hn] at this
      rw [if_neg hn', initial_same hmv]
      exact this
    · rw [show (Spot.back t).moved (List.replicate n ' ') = id from rfl, List.map_id]

/-! ### Features -/

section

variable {toks toks' : List Token} (h : List.Forall₂ (MovedToken x n) toks toks')

include h

theorem touched_moved (r : Rng) : touchedTokens toks' (x.moved (List.replicate n ' ') r) = touchedTokens toks r := by
  unfold touchedTokens
  rw [h.length_eq]
  refine List.filter_congr fun j _ => ?_
  have := getElem?_forall₂ h j
  revert this
  generalize toks[j]? = y
  generalize toks'[j]? = z
  intro this
  cases this with
  | some h => simp only [h.2, Inserted.moved_overlap]
  | none => rfl

theorem entityPrefix_moved (scheme : Scheme) (i : Nat) : ∀ rs,
    entityPrefix scheme toks' i (rs.map (x.moved (List.replicate n ' '))) = entityPrefix scheme toks i rs
  | [] => rfl
  | r :: rs => by
    simp only [List.map_cons, entityPrefix, entityPrefix_moved scheme i rs, touched_moved h]
    have := getElem?_forall₂ h i
    revert this
    generalize toks[i]? = y
    generalize toks'[i]? = z
    intro this
    cases this with
    | some h => simp only [h.2, Inserted.moved_overlap]
    | none => rfl

theorem values_moved : toks'.map Token.value = toks.map Token.value := by
  induction h with
  | nil => rfl
  | cons hab _ ih => simp only [List.map_cons, hab.1, ih]

theorem transform_moved (fns : TextFns) (stemmer : Option (Text → Text)) : ∀ ci bi,
    transformTokensFrom fns stemmer ci bi toks' = transformTokensFrom fns stemmer ci bi toks := by
  induction h with
  | nil => exact fun _ _ => rfl
  | cons hab _ ih => intro ci bi; simp only [transformTokensFrom, hab.1, ih]

theorem unwrap_moved {β : Type} (g : Text → Outcome β) (i : Nat) :
    (Outcome.unwrap toks'[i]?).bind (fun t => g t.value) = (Outcome.unwrap toks[i]?).bind fun t => g t.value := by
  have := getElem?_forall₂ h i
  revert this
  generalize toks[i]? = y
  generalize toks'[i]? = z
  intro this
  cases this with
  | some h => simp only [Outcome.unwrap, Outcome.bind, h.1]
  | none => rfl

theorem slice_moved {β : Type} (g : Text → β) (i k : Nat) :
    ((toks'.drop i).take k).map (fun t => g t.value) = ((toks.drop i).take k).map fun t => g t.value := by
  have hv := values_moved h
  have : ∀ l : List Token, ((l.drop i).take k).map (fun t => g t.value) = (((l.map Token.value).drop i).take k).map g := by
    intro l
    rw [← List.map_drop, ← List.map_take, List.map_map]
    rfl
  rw [this, this, hv]

theorem feature_moved (fns : TextFns) {w : World} {T : Text} (hT : toks ≠ [] → initialStringFromTokens toks = .ok x.short ∧
      initialStringFromTokens toks' = .ok T)
    (hw : toks ≠ [] → ∀ kinds bs, w.builtin x.short (some kinds) 0 = .ok bs → ∃ bs', w.builtin T (some kinds) 0 = .ok bs' ∧
      bs'.map BuiltinEntity.range = (bs.map BuiltinEntity.range).map (x.moved (List.replicate n ' '))) (i : Nat) (f : Feature)
    {v : Option Text} (hv : (f.compute fns toks i).run w = .ok v) : (f.compute fns toks' i).run w = .ok v := by
  cases f with
  | isDigit =>
    simp only [Feature.compute] at hv ⊢
    rw [← hv]
    exact congrArg (fun o => (Prog.ofOutcome o).run w) (unwrap_moved h (fun t => .ok (if t.all Char.isDigit then some ['1'] else none)) i)
  | length =>
    simp only [Feature.compute] at hv ⊢
    rw [← hv]
    exact congrArg (fun o => (Prog.ofOutcome o).run w) (unwrap_moved h (fun t => .ok (some (natText t.length))) i)
  | isFirst => exact hv
  | isLast =>
    simp only [Feature.compute, nil_iff_forall₂ h, h.length_eq] at hv ⊢
    exact hv
  | ngram k common stemmer =>
    simp only [Feature.compute, h.length_eq, slice_moved h (ngramWord fns common stemmer)] at hv ⊢
    exact hv
  | shapeNgram k =>
    simp only [Feature.compute, h.length_eq, slice_moved h fns.shape] at hv ⊢
    exact hv
  | pfx k =>
    simp only [Feature.compute] at hv ⊢
    rw [← hv]
    exact congrArg (fun o => (Prog.ofOutcome o).run w) (unwrap_moved h (fun t => .ok (getWordChunk (fns.normalize t) k 0 false)) i)
  | sfx k =>
    simp only [Feature.compute] at hv ⊢
    rw [← hv]
    exact congrArg (fun o => (Prog.ofOutcome o).run w)
      (unwrap_moved h (fun t => .ok (getWordChunk (fns.normalize t) k (fns.normalize t).length true)) i)
  | entityMatch entity scheme stemmer =>
    simp only [Feature.compute, transformTokens, transform_moved h fns stemmer] at hv ⊢
    exact hv
  | builtinEntityMatch kind k scheme =>
    by_cases hn : toks = []
    · subst hn
      cases h
      exact hv
    · simp only [Feature.compute, (hT hn).1, (hT hn).2, Prog.ofOutcome, Prog.bind, Prog.run] at hv ⊢
      cases hb : w.builtin x.short (some [kind]) 0 with
      | ok bs =>
        rw [hb] at hv
        obtain ⟨bs', h1, h2⟩ := hw hn _ bs hb
        rw [h1]
        have hk : ∀ l : List BuiltinEntity, (l.map BuiltinEntity.kindMatch).map KindMatch.range = l.map BuiltinEntity.range := by
          intro l; rw [List.map_map]; rfl
        simp only [hk] at hv ⊢
        rw [h2, entityPrefix_moved h]
        exact hv
      | err e => rw [hb] at hv; cases hv
      | panic => rw [hb] at hv; cases hv
  | wordCluster name g =>
    simp only [Feature.compute] at hv ⊢
    rw [← hv]
    exact congrArg (fun o => (Prog.ofOutcome o).run w) (unwrap_moved h (fun t => .ok (g (fns.lower t))) i)

omit h in
theorem bind_run {α β : Type} {w : World} {p : Prog α} {f : α → Prog β} {b : β} :
    (p.bind f).run w = .ok b ↔ ∃ a, p.run w = .ok a ∧ (f a).run w = .ok b := Prog.run_bind_ok

omit h in
theorem featureLoop_moved (fns : TextFns) {w : World} (o : Offsetter)
    (hf : ∀ i v, (o.feature.compute fns toks i).run w = .ok v → (o.feature.compute fns toks' i).run w = .ok v) :
    ∀ is features out, (featureLoop fns toks o is features).run w = .ok out →
      (featureLoop fns toks' o is features).run w = .ok out
  | [], _, _, ho => ho
  | i :: is, features, out, ho => by
    unfold featureLoop at ho ⊢
    rw [bind_run] at ho ⊢
    obtain ⟨v, h1, h2⟩ := ho
    refine ⟨v, hf i v h1, ?_⟩
    cases v with
    | some v => exact featureLoop_moved fns o hf is _ out h2
    | none => exact featureLoop_moved fns o hf is _ out h2

theorem offsetters_moved (fns : TextFns) {w : World}
    (hf : ∀ (f : Feature) i v, (f.compute fns toks i).run w = .ok v → (f.compute fns toks' i).run w = .ok v) :
    ∀ os features out, (offsettersLoop fns toks os features).run w = .ok out →
      (offsettersLoop fns toks' os features).run w = .ok out
  | [], _, _, ho => ho
  | o :: os, features, out, ho => by
    unfold offsettersLoop at ho ⊢
    rw [bind_run] at ho ⊢
    obtain ⟨v, h1, h2⟩ := ho
    rw [← h.length_eq]
    exact ⟨v, featureLoop_moved fns o (hf o.feature) _ _ _ h1, offsetters_moved fns hf os _ _ h2⟩

/-! ### Slots -/

/-- A slot and the same slot in the longer query, both with agreeing byte and character ranges. -/
structure MovedRange (x : Spot) (n : Nat) (a b : SlotRange) : Prop where
  name : b.slotName = a.slotName
  charRange : b.charRange = x.moved (List.replicate n ' ') a.charRange
  start : AtByte x.short a.charRange.start a.range.start
  stop : AtByte x.short a.charRange.stop a.range.stop
  start' : AtByte (x.long (List.replicate n ' ')) b.charRange.start b.range.start
  stop' : AtByte (x.long (List.replicate n ' ')) b.charRange.stop b.range.stop

theorem tagsLoop_moved (hb : BytesAgree x.short toks) (hb' : BytesAgree (x.long (List.replicate n ' ')) toks')
    (tags : List Text) (st en : List Text → Nat → Bool) : ∀ (rest : List Text) (i cur : Nat) out,
    tagsToSlotsLoop tags toks st en i cur rest = .ok out →
      ∃ out', tagsToSlotsLoop tags toks' st en i cur rest = .ok out' ∧ List.Forall₂ (MovedRange x n) out out'
  | [], _, _, out, ho => by
    cases ho
    exact ⟨_, rfl, .nil⟩
  | tag :: rest, i, cur, out, ho => by
    simp only [tagsToSlotsLoop] at ho ⊢
    split at ho
    · next hen =>
      rw [if_pos hen]
      have h1 := getElem?_forall₂ h (if st tags i then i else cur)
      have h2 := getElem?_forall₂ h i
      revert h1 h2 ho
      generalize ha : toks[if st tags i then i else cur]? = a
      generalize ha' : toks'[if st tags i then i else cur]? = a'
      generalize hc : toks[i]? = c
      generalize hc' : toks'[i]? = c'
      intro ho h1 h2
      cases h1 with
      | none => cases ho
      | some h1 =>
        cases h2 with
        | none => cases ho
        | some h2 =>
          simp only [Outcome.bind_eq, Outcome.bind_ok] at ho ⊢
          obtain ⟨l, e1, e2⟩ := ho
          cases e2
          obtain ⟨l', e3, e4⟩ := tagsLoop_moved hb hb' tags st en rest _ _ l e1
          refine ⟨_, ⟨l', e3, rfl⟩, .cons ⟨rfl, ?_, ?_, ?_, ?_, ?_⟩ e4⟩
          · simp only [h1.2, h2.2]; rfl
          · exact (hb _ (List.mem_of_getElem? ha)).1
          · exact (hb _ (List.mem_of_getElem? hc)).2
          · exact (hb' _ (List.mem_of_getElem? ha')).1
          · exact (hb' _ (List.mem_of_getElem? hc')).2
    · next hen =>
      rw [if_neg hen]
      exact tagsLoop_moved hb hb' tags st en rest _ _ out ho

end

theorem slot_moved {mapping : Map Text Text} {a b : SlotRange} (h : MovedRange x n a b) {s : InternalSlot}
    (hs : slotRangeToSlot x.short mapping a = .ok s) (hbe : x.Beside s.charRange) :
    slotRangeToSlot (x.long (List.replicate n ' ')) mapping b = .ok (s.moved x (List.replicate n ' ')) := by
  unfold slotRangeToSlot at hs ⊢
  simp only [Outcome.bind_eq, Outcome.bind_ok] at hs ⊢
  obtain ⟨v, h1, e, h2, h3⟩ := hs
  cases h3
  simp only at hbe
  have hle : a.charRange.start ≤ a.charRange.stop := by cases x <;> exact hbe.1
  have hle' : b.charRange.start ≤ b.charRange.stop := by
    rw [h.charRange]; exact (Inserted.pos_le x).2 hle
  have e1 := h.start.slice h.stop hle
  have e2 := h.start'.slice h.stop' hle'
  have e3 := Inserted.moved_substr (x := x) (words := List.replicate n ' ') hbe
  rw [← h.charRange] at e3
  refine ⟨v, ?_, e, by rw [h.name]; exact h2, by rw [h.name, h.charRange]; rfl⟩
  simp only [substr] at e3
  have e4 : byteSlice (x.long (List.replicate n ' ')) b.range = byteSlice x.short a.range := by
    rw [show a.range = ⟨a.range.start, a.range.stop⟩ from rfl, show b.range = ⟨b.range.start, b.range.stop⟩ from rfl, e1, e2]
    congr 1
  rw [e4, h1]

theorem mapOutcome_cons_iff {α β : Type} {f : α → Outcome β} {a : α} {l : List α} {out : List β} :
    mapOutcome f (a :: l) = .ok out ↔ ∃ b, f a = .ok b ∧ ∃ bs, mapOutcome f l = .ok bs ∧ b :: bs = out := by
  simp only [mapOutcome]
  cases f a with
  | ok b => cases mapOutcome f l <;> simp
  | err e => simp
  | panic => simp

theorem slots_moved {mapping : Map Text Text} {l l' : List SlotRange} (h : List.Forall₂ (MovedRange x n) l l') :
    ∀ {out : List InternalSlot}, mapOutcome (slotRangeToSlot x.short mapping) l = .ok out → (∀ s ∈ out, x.Beside s.charRange) →
    mapOutcome (slotRangeToSlot (x.long (List.replicate n ' ')) mapping) l'
      = .ok (out.map (InternalSlot.moved x (List.replicate n ' '))) := by
  induction h with
  | nil =>
    intro out ho _
    cases ho
    rfl
  | cons hab _ ih =>
    intro out ho hbe
    rw [mapOutcome_cons_iff] at ho ⊢
    obtain ⟨s, h1, ss, h2, h3⟩ := ho
    cases h3
    exact ⟨_, slot_moved hab h1 (hbe s List.mem_cons_self), _, ih h2 fun s hs => hbe s (List.mem_cons_of_mem _ hs), rfl⟩

end Snips.Blanks
