import Verif.Spec.LetterCase
import Verif.Proofs.Renaming

/-! Code that does the same for texts that differ in the case of letters. -/

namespace Snips

variable {same : Char → Char → Prop}

/-- Two codes that make the same requests about related texts and end with related results. -/
inductive Prog.Cased {α β : Type} (same : Char → Char → Prop) (R : α → β → Prop) : Prog α → Prog β → Prop where
  | ret {a b} : R a b → Cased same R (.ret a) (.ret b)
  | fail (e : Err) : Cased same R (.fail e) (.fail e)
  | panic : Cased same R .panic .panic
  | cached {s s' kinds k k'} : SameLetters same s s' → (∀ r, Cased same R (k r) (k' r)) →
      Cased same R (.builtinCached s kinds k) (.builtinCached s' kinds k')
  | fresh {s s' kinds n k k'} : SameLetters same s s' → (∀ r, Cased same R (k r) (k' r)) →
      Cased same R (.builtinFresh s kinds n k) (.builtinFresh s' kinds n k')
  | custom {s s' kinds n k k'} : SameLetters same s s' → (∀ r, Cased same R (k r) (k' r)) →
      Cased same R (.custom s kinds n k) (.custom s' kinds n k')

namespace Prog.Cased

variable {α β γ δ : Type} {R : α → β → Prop} {R' : γ → δ → Prop}

theorem bind {p : Prog α} {q : Prog β} {k : α → Prog γ} {k' : β → Prog δ} (h : Cased same R p q)
    (hk : ∀ a b, R a b → Cased same R' (k a) (k' b)) : Cased same R' (p.bind k) (q.bind k') := by
  induction h with
  | ret h => exact hk _ _ h
  | fail e => exact .fail e
  | panic => exact .panic
  | cached hs _ ih => exact .cached hs ih
  | fresh hs _ ih => exact .fresh hs ih
  | custom hs _ ih => exact .custom hs ih

theorem eq_bind {p q : Prog α} {k : α → Prog γ} {k' : α → Prog δ} (h : Cased same Eq p q)
    (hk : ∀ a, Cased same R' (k a) (k' a)) : Cased same R' (p.bind k) (q.bind k') :=
  h.bind fun a _ hab => hab ▸ hk a

theorem ofOutcome {o : Outcome α} {o' : Outcome β} (h : SameOutcome R o o') :
    Cased same R (Prog.ofOutcome o) (Prog.ofOutcome o') := by
  cases h with
  | ok h => exact .ret h
  | err e => exact .fail e
  | panic => exact .panic

theorem ofOutcome_eq {o o' : Outcome α} (h : o = o') : Cased same Eq (Prog.ofOutcome o) (Prog.ofOutcome o') := by
  subst h
  cases o with
  | ok a => exact .ret rfl
  | err e => exact .fail e
  | panic => exact .panic

theorem mapM {k : α → Prog γ} {k' : β → Prog δ} : ∀ {l : List α} {l' : List β}, List.Forall₂ R l l' →
    (∀ a b, a ∈ l → R a b → Cased same R' (k a) (k' b)) → Cased same (List.Forall₂ R') (Prog.mapM k l) (Prog.mapM k' l')
  | _, _, .nil, _ => .ret .nil
  | _, _, .cons h hs, hk => by
    simp only [Prog.mapM]
    exact (hk _ _ List.mem_cons_self h).bind fun b b' hb =>
      (mapM hs fun a b ha hab => hk a b (List.mem_cons_of_mem _ ha) hab).bind fun bs bs' hbs => .ret (.cons hb hbs)

theorem mono {Q : α → β → Prop} {p : Prog α} {q : Prog β} (h : Cased same R p q) (hR : ∀ a b, R a b → Q a b) :
    Cased same Q p q := by
  induction h with
  | ret h => exact .ret (hR _ _ h)
  | fail e => exact .fail e
  | panic => exact .panic
  | cached hs _ ih => exact .cached hs ih
  | fresh hs _ ih => exact .fresh hs ih
  | custom hs _ ih => exact .custom hs ih

theorem run {p : Prog α} {q : Prog β} (h : Cased same R p q) {w : World} (hw : w.CaseBlind same) :
    SameOutcome R (p.run w) (q.run w) := by
  induction h with
  | ret h => exact .ok h
  | fail e => exact .err e
  | panic => exact .panic
  | @cached s s' kinds k k' hs _ ih =>
    simp only [Prog.run, hw.builtin hs]
    cases w.builtin s' kinds 0 with
    | ok es => exact ih _
    | err e => exact .err e
    | panic => exact .panic
  | @fresh s s' kinds n k k' hs _ ih =>
    simp only [Prog.run, hw.builtin hs]
    cases w.builtin s' kinds n with
    | ok es => exact ih _
    | err e => exact .err e
    | panic => exact .panic
  | @custom s s' kinds n k k' hs _ ih =>
    simp only [Prog.run, hw.custom hs]
    cases w.custom s' kinds n with
    | ok es => exact ih _
    | err e => exact .err e
    | panic => exact .panic

theorem runCached {p : Prog α} {q : Prog β} (h : Cased same R p q) {x : Ext}
    (hx : ∀ {t t'}, SameLetters same t t' → x.lower t = x.lower t') (time : Nat) :
    ∀ c, SameOutcome R (p.runCached x time c).1 (q.runCached x time c).1 ∧ (q.runCached x time c).2 = (p.runCached x time c).2 := by
  induction h with
  | ret h => exact fun c => ⟨.ok h, rfl⟩
  | fail e => exact fun c => ⟨.err e, rfl⟩
  | panic => exact fun c => ⟨.panic, rfl⟩
  | @cached s s' kinds k k' hs _ ih =>
    intro c
    have he : x.builtinCachedAccess time s' kinds 0 c = x.builtinCachedAccess time s kinds 0 c := by
      simp only [Ext.builtinCachedAccess, hx hs]
    simp only [Prog.runCached, he]
    rcases x.builtinCachedAccess time s kinds 0 c with ⟨o, c'⟩
    cases o with
    | ok es => exact ih _ c'
    | err e => exact ⟨.err e, rfl⟩
    | panic => exact ⟨.panic, rfl⟩
  | @fresh s s' kinds n k k' hs _ ih =>
    intro c
    simp only [Prog.runCached, hx hs]
    cases x.builtinRaw time (x.lower s') kinds n with
    | ok es => exact ih _ c
    | err e => exact ⟨.err e, rfl⟩
    | panic => exact ⟨.panic, rfl⟩
  | @custom s s' kinds n k k' hs _ ih =>
    intro c
    have he : x.customCachedAccess s' kinds n c = x.customCachedAccess s kinds n c := by
      simp only [Ext.customCachedAccess, hx hs]
    simp only [Prog.runCached, he]
    rcases x.customCachedAccess s kinds n c with ⟨o, c'⟩
    cases o with
    | ok es => exact ih _ c'
    | err e => exact ⟨.err e, rfl⟩
    | panic => exact ⟨.panic, rfl⟩

end Prog.Cased

open Prog

/-! ### Lists -/

/-- Related lists are the two halves of a list of related pairs. -/
theorem forall₂_pairs {α β : Type} {R : α → β → Prop} {l : List α} {l' : List β} (h : List.Forall₂ R l l') :
    ∃ L : List {p : α × β // R p.1 p.2}, l = L.map (fun p => p.1.1) ∧ l' = L.map (fun p => p.1.2) := by
  induction h with
  | nil => exact ⟨[], rfl, rfl⟩
  | @cons a b _ _ hab _ ih =>
    obtain ⟨L, h1, h2⟩ := ih
    exact ⟨⟨(a, b), hab⟩ :: L, by simp [h1], by simp [h2]⟩

theorem pairs_forall₂ {α β : Type} {R : α → β → Prop} (L : List {p : α × β // R p.1 p.2}) :
    List.Forall₂ R (L.map fun p => p.1.1) (L.map fun p => p.1.2) := by
  induction L with
  | nil => exact .nil
  | cons p L ih => exact .cons p.2 ih

theorem HashOrd.Blind.forall₂ {o : HashOrd} (ho : o.Blind) (site : Nat) {α β : Type} {R : α → β → Prop} {l : List α} {l' : List β}
    (h : List.Forall₂ R l l') : List.Forall₂ R (o.order site l) (o.order site l') := by
  obtain ⟨L, rfl, rfl⟩ := forall₂_pairs h
  rw [ho, ho]
  exact pairs_forall₂ _

theorem sortDesc_forall₂ {α β : Type} {R : α → β → Prop} {s : α → ℚ} {s' : β → ℚ} (hs : ∀ a b, R a b → s a = s' b)
    {l : List α} {l' : List β} (h : List.Forall₂ R l l') : List.Forall₂ R (sortDesc s l) (sortDesc s' l') := by
  obtain ⟨L, rfl, rfl⟩ := forall₂_pairs h
  rw [sortDesc_map (fun p : {p : α × β // R p.1 p.2} => p.1.1) (fun p => s p.1.1) s (fun _ => rfl),
    sortDesc_map (fun p : {p : α × β // R p.1 p.2} => p.1.2) (fun p => s p.1.1) s' (fun p => (hs _ _ p.2).symm)]
  exact pairs_forall₂ _

theorem insertionSort_map' {α β : Type} (g : α → β) (r : α → α → Prop) (r' : β → β → Prop) [DecidableRel r] [DecidableRel r']
    (h : ∀ a b, r' (g a) (g b) ↔ r a b) (l : List α) : (l.map g).insertionSort r' = (l.insertionSort r).map g := by
  induction l with
  | nil => rfl
  | cons a l ih =>
    rw [List.map_cons, List.insertionSort_cons, List.insertionSort_cons, ih]
    generalize l.insertionSort r = m
    induction m with
    | nil => rfl
    | cons b m ihm =>
      simp only [List.map_cons, List.orderedInsert_cons, h]
      split
      · simp
      · simp [ihm]

theorem sortByKey_forall₂ {α β κ : Type} [LE κ] [DecidableLE κ] {R : α → β → Prop} {s : α → κ} {s' : β → κ}
    (hs : ∀ a b, R a b → s a = s' b) {l : List α} {l' : List β} (h : List.Forall₂ R l l') :
    List.Forall₂ R (sortByKey s l) (sortByKey s' l') := by
  obtain ⟨L, rfl, rfl⟩ := forall₂_pairs h
  unfold sortByKey
  rw [insertionSort_map' (fun p : {p : α × β // R p.1 p.2} => p.1.1) (fun a b => s a.1.1 ≤ s b.1.1) _ (fun _ _ => Iff.rfl),
    insertionSort_map' (fun p : {p : α × β // R p.1 p.2} => p.1.2) (fun a b => s a.1.1 ≤ s b.1.1) _
      (fun a b => by rw [hs _ _ a.2, hs _ _ b.2])]
  exact pairs_forall₂ _

theorem filter_forall₂ {α β : Type} {R : α → β → Prop} {p : α → Bool} {q : β → Bool} (h : ∀ a b, R a b → p a = q b)
    {l : List α} {l' : List β} (hl : List.Forall₂ R l l') : List.Forall₂ R (l.filter p) (l'.filter q) := by
  induction hl with
  | nil => exact .nil
  | @cons a b _ _ hab _ ih =>
    simp only [List.filter_cons, h a b hab]
    split
    · exact .cons hab ih
    · exact ih

theorem filterMap_forall₂ {α β γ δ : Type} {R : α → β → Prop} {S : γ → δ → Prop} {f : α → Option γ} {g : β → Option δ}
    (h : ∀ a b, R a b → Option.Rel S (f a) (g b)) {l : List α} {l' : List β} (hl : List.Forall₂ R l l') :
    List.Forall₂ S (l.filterMap f) (l'.filterMap g) := by
  induction hl with
  | nil => exact .nil
  | @cons a b _ _ hab _ ih =>
    have := h a b hab
    simp only [List.filterMap_cons]
    cases hf : f a <;> cases hg : g b <;> rw [hf, hg] at this
    · exact ih
    · cases this
    · cases this
    · cases this with
      | some hs => exact .cons hs ih

theorem mapOutcome_forall₂ {α β γ δ : Type} {R : α → β → Prop} {S : γ → δ → Prop} {f : α → Outcome γ} {g : β → Outcome δ}
    {l : List α} {l' : List β} (hl : List.Forall₂ R l l') (h : ∀ a b, R a b → SameOutcome S (f a) (g b)) :
    SameOutcome (List.Forall₂ S) (mapOutcome f l) (mapOutcome g l') := by
  induction hl with
  | nil => exact .ok .nil
  | @cons a b _ _ hab _ ih =>
    simp only [mapOutcome]
    have hs := h a b hab
    revert hs
    generalize f a = x
    generalize g b = y
    intro hs
    cases hs with
    | ok hs =>
      revert ih
      generalize mapOutcome f _ = x
      generalize mapOutcome g _ = y
      intro ih
      cases ih with
      | ok hl => exact .ok (.cons hs hl)
      | err e => exact .err e
      | panic => exact .panic
    | err e => exact .err e
    | panic => exact .panic

theorem SameOutcome.bind {α β γ δ : Type} {R : α → β → Prop} {S : γ → δ → Prop} {o : Outcome α} {o' : Outcome β}
    {k : α → Outcome γ} {k' : β → Outcome δ} (h : SameOutcome R o o') (hk : ∀ a b, R a b → SameOutcome S (k a) (k' b)) :
    SameOutcome S (o >>= k) (o' >>= k') := by
  cases h with
  | ok h => exact hk _ _ h
  | err e => exact .err e
  | panic => exact .panic

theorem SameOutcome.eq {α : Type} (o : Outcome α) : SameOutcome Eq o o := by
  cases o with
  | ok a => exact .ok rfl
  | err e => exact .err e
  | panic => exact .panic

theorem SameOutcome.eq_bind {α γ δ : Type} {S : γ → δ → Prop} (o : Outcome α)
    {k : α → Outcome γ} {k' : α → Outcome δ} (hk : ∀ a, SameOutcome S (k a) (k' a)) : SameOutcome S (o >>= k) (o >>= k') :=
  (SameOutcome.eq o).bind fun a _ hab => hab ▸ hk a

theorem SameOutcome.of_eq {α : Type} {o o' : Outcome α} (h : SameOutcome Eq o o') : o = o' := by
  cases h with
  | ok h => rw [h]
  | err e => rfl
  | panic => rfl

/-! ### Texts -/

section Texts

variable (hr : LetterRel same) {t t' : Text}

include hr in
theorem SameLetters.refl (t : Text) : SameLetters same t t := List.forall₂_same.2 fun c _ => hr.refl c

theorem SameLetters.length (h : SameLetters same t t') : t.length = t'.length := List.Forall₂.length_eq h

theorem SameLetters.append {u u' : Text} (h : SameLetters same t t') (hu : SameLetters same u u') :
    SameLetters same (t ++ u) (t' ++ u') := List.rel_append h hu

theorem SameLetters.drop (h : SameLetters same t t') (n : Nat) : SameLetters same (t.drop n) (t'.drop n) :=
  List.forall₂_drop n h

theorem SameLetters.take (h : SameLetters same t t') (n : Nat) : SameLetters same (t.take n) (t'.take n) :=
  List.forall₂_take n h

theorem SameLetters.substr (h : SameLetters same t t') (r : Rng) : SameLetters same (Snips.substr t r) (Snips.substr t' r) :=
  (h.drop _).take _

include hr in
theorem SameLetters.byteLen (h : SameLetters same t t') : Snips.byteLen t = Snips.byteLen t' := by
  induction h with
  | nil => rfl
  | cons hc _ ih => simp only [Snips.byteLen, hr.size hc, ih]

include hr in
theorem SameLetters.charBoundary (h : SameLetters same t t') : ∀ b, Snips.charBoundary t b = Snips.charBoundary t' b := by
  induction h with
  | nil => exact fun _ => rfl
  | @cons c c' l l' hc _ ih =>
    intro b
    cases b with
    | zero => simp [Snips.charBoundary]
    | succ b => simp only [Snips.charBoundary, hr.size hc, ih]

include hr in
theorem SameLetters.convertFrom (h : SameLetters same t t') : ∀ acc ci b,
    convertToCharIndexFrom t acc ci b = convertToCharIndexFrom t' acc ci b := by
  induction h with
  | nil => exact fun _ _ _ => rfl
  | @cons c c' l l' hc _ ih =>
    intro acc ci b
    simp only [convertToCharIndexFrom, hr.size hc, ih]

include hr in
theorem SameLetters.convert (h : SameLetters same t t') (r : Rng) : convertToCharRange t r = convertToCharRange t' r := by
  simp only [convertToCharRange, convertToCharIndex, h.convertFrom hr]

include hr in
theorem SameLetters.join (sep : Text) {l l' : List Text} (h : List.Forall₂ (SameLetters same) l l') :
    SameLetters same (joinWith sep l) (joinWith sep l') := by
  induction h with
  | nil => exact .nil
  | @cons a b l l' hab hl ih =>
    cases hl with
    | nil => exact hab
    | cons h1 h2 => exact (hab.append (.refl hr sep)).append ih

include hr in
theorem SameLetters.slice (h : SameLetters same t t') (r : Rng) :
    SameOutcome (SameLetters same) (byteSlice t r) (byteSlice t' r) := by
  simp only [byteSlice, h.charBoundary hr]
  split
  · split
    · exact .ok (h.substr _)
    · exact .panic
  · exact .panic

end Texts

end Snips
