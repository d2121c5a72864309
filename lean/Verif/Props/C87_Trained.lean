import Verif.Proofs.Trained
import Verif.Props.C68_SlotOrigin

/-! # C87: trained patterns recognise the sentences that follow them, with the entities as slots -/

namespace Snips

/-! ### Patterns as texts -/

/-- The text of a pattern determines its pieces. -/
theorem c87_pattern_text (items items' : List PatItem) (h : WellNamed items) (h' : WellNamed items')
    (he : patternText items = patternText items') : items = items' := by
  unfold patternText at he
  simp only [List.cons_append, List.nil_append, List.cons.injEq, true_and] at he
  exact items_inj (wellNamed_noAngle h) (wellNamed_noAngle h') he

/-- There are regular expression engines that compile every trained pattern to what it says. -/
theorem c87_engines (env : LoadEnv) (cr : CharRules) : ∃ regex, LoadEnv.Compiles { env with regex := regex } cr := by
  classical
  refine ⟨fun t => if h : ∃ items, WellNamed items ∧ patternText items = t then .ok (trainedRegex cr h.choose)
    else .err (.external 0), ?_⟩
  intro items hw
  have hex : ∃ items', WellNamed items' ∧ patternText items' = patternText items := ⟨items, hw, rfl⟩
  have hc : hex.choose = items := c87_pattern_text _ _ hex.choose_spec.1 hw hex.choose_spec.2
  refine ⟨trainedRegex cr items, ?_, trainedRegex_implements cr items⟩
  simp only
  rw [dif_pos hex, hc]

/-- The regular expressions of a loaded parser do what the patterns of the model file say. -/
theorem c87_loaded (env : LoadEnv) (cr : CharRules) (hc : env.Compiles cr) (patterns : Map Text (List Text))
    (regexes : Map Text (List Regex)) (h : compileRegexes env patterns = .ok regexes) :
    List.Forall₂ (fun ip ir => ip.1 = ir.1 ∧ List.Forall₂ (fun pattern r => ∀ items, WellNamed items →
      pattern = patternText items → Regex.Implements cr r items) ip.2 ir.2) patterns regexes := by
  unfold compileRegexes at h
  rw [mapOutcome_ok_iff] at h
  refine h.imp ?_
  intro ip ir hi
  simp only [Outcome.bind_eq, Outcome.bind_ok, Outcome.ok.injEq] at hi
  obtain ⟨rs, hrs, rfl⟩ := hi
  refine ⟨rfl, ?_⟩
  rw [mapOutcome_ok_iff] at hrs
  refine hrs.imp ?_
  rintro pattern r hr items hw rfl
  obtain ⟨r', hr', himp⟩ := hc items hw
  rw [hr] at hr'
  cases hr'
  exact himp

/-! ### One way to follow a pattern -/

/-- A text follows a pattern in one way: its groups have one possible place. -/
theorem c87_unique (cr : CharRules) (items : List PatItem) (hs : Solid cr items) (t : Text) (gs gs' : List (Text × Rng))
    (h : Follows cr items t 0 gs) (h' : Follows cr items t 0 gs') : gs = gs' :=
  follows_unique_aux hs (u := []) (pos := 0) (by simp) h h'

theorem follows_names {cr : CharRules} {items : List PatItem} {t : Text} {pos : Nat} {gs : List (Text × Rng)}
    (h : Follows cr items t pos gs) : gs.map Prod.fst = groupsOf items := by
  induction h with
  | nil pos => rfl
  | spaces h rest ih => rw [ih]; rfl
  | space h rest ih => rw [ih]; rfl
  | lit h rest ih => rw [ih]; rfl
  | group h rest ih => simp only [List.map_cons, ih]; rfl

theorem follows_within {cr : CharRules} {items : List PatItem} {t : Text} {pos : Nat} {gs : List (Text × Rng)}
    (h : Follows cr items t pos gs) : ∀ g ∈ gs, pos ≤ g.2.start ∧ g.2.start ≤ g.2.stop ∧ g.2.stop ≤ pos + t.length := by
  induction h with
  | nil pos => intro g hg; cases hg
  | spaces h rest ih =>
    intro g hg
    have := ih g hg
    simp only [List.length_append]
    omega
  | space h rest ih =>
    intro g hg
    have := ih g hg
    simp only [List.length_cons]
    omega
  | lit h rest ih =>
    intro g hg
    have := ih g hg
    simp only [List.length_cons]
    omega
  | group h rest ih =>
    intro g hg
    simp only [List.length_append]
    rcases List.mem_cons.1 hg with rfl | hg
    · simp only
      omega
    · have := ih g hg
      omega

theorem implements_captures {cr : CharRules} {r : Regex} {items : List PatItem} (h : r.Implements cr items) {t : Text} :
    (∃ caps, r.Captures t caps) ↔ ∃ gs, Follows cr items t 0 gs := by
  constructor
  · rintro ⟨caps, hc⟩
    exact (h.sound t).1 hc.1
  · intro hg
    have hm := (h.sound t).2 hg
    obtain ⟨c, rest, hcr⟩ := List.exists_cons_of_ne_nil (h.reports t hm)
    obtain ⟨gs, -, he⟩ := h.captures t c (by rw [hcr]; simp)
    exact ⟨c, hm, by rw [he]; simp, [], rest, by simpa using hcr, by simp⟩

theorem captures_follow {cr : CharRules} {r : Regex} {items : List PatItem} (h : r.Implements cr items) {t : Text}
    {caps : List (Option Rng)} (hc : r.Captures t caps) : ∃ gs, Follows cr items t 0 gs ∧
      caps = some (byteRange t ⟨0, t.length⟩) :: gs.map fun g => some (byteRange t g.2) := by
  obtain ⟨-, -, void, rest, he, -⟩ := hc
  exact h.captures t caps (by rw [he]; simp)

/-- In particular its groups are at character boundaries, as C68 supposes. -/
theorem c87_boundaries (cr : CharRules) (r : Regex) (items : List PatItem) (h : r.Implements cr items) :
    r.OnBoundaries := by
  intro text caps hc i b hb
  obtain ⟨gs, hf, rfl⟩ := h.captures text caps hc
  cases i with
  | zero =>
    simp only [List.getElem?_cons_zero, Option.some.injEq] at hb
    subst hb
    exact ⟨0, text.length, Nat.zero_le _, ⟨Nat.zero_le _, rfl⟩, Nat.le_refl _, rfl⟩
  | succ i =>
    simp only [List.getElem?_cons_succ, List.getElem?_map, Option.map_eq_some_iff, Option.some.injEq] at hb
    obtain ⟨g, hg, rfl⟩ := hb
    have := follows_within hf g (List.mem_of_getElem? hg)
    exact ⟨g.2.start, g.2.stop, this.2.1, ⟨by omega, rfl⟩, by omega, rfl⟩

/-! ### Which sentences are recognised -/

/-- The group has a slot name and an entity in the tables of the model. -/
def Det.Declares (p : Det) (intent name : Text) : Prop :=
  ∃ key slot declared entity, BeforeUnderscore name key ∧ p.groupNames.get key = some slot ∧
    p.slotEntities.get intent = some declared ∧ declared.get slot = some entity

theorem sees_unique {env : RuleEnv} {p : Det} {w : World} {input intent raw formatted raw' formatted' : Text}
    {table table' : Map Rng Rng} (h : p.Sees env w input intent raw formatted table)
    (h' : p.Sees env w input intent raw' formatted' table') :
    raw = raw' ∧ formatted = formatted' ∧ table = table' := by
  obtain ⟨⟨k, e, bs, cs, new, h1, h2, h3, h4, h5, h6⟩⟩ := h
  obtain ⟨⟨k', e', bs', cs', new', h1', h2', h3', h4', h5', h6'⟩⟩ := h'
  rw [h1] at h1'
  cases h1'
  rw [h2] at h2'
  cases h2'
  rw [h3] at h3'
  cases h3'
  rw [h4] at h4'
  cases h4'
  rw [h5] at h5'
  cases h5'
  rw [h6] at h6'
  cases h6'
  exact ⟨rfl, rfl, rfl⟩

theorem reads_of_captures {fns : TextFns} {p : Det} {input intent text : Text} {cr : CharRules} {r : Regex}
    {items : List PatItem} (himp : r.Implements cr items) (hd : ∀ n ∈ groupsOf items, p.Declares intent n)
    (origin : Rng → Rng) {caps : List (Option Rng)} (hc : r.Captures text caps) :
    ∃ slots, p.Reads fns input intent r text origin slots := by
  have hg := numberedCaptures_spec r caps
  have hall : ∀ l : List (Nat × Rng × Text), (∀ g ∈ l, g ∈ numberedCaptures caps r.captureNames) →
      ∃ all, List.Forall₂ (p.GroupSlot input intent origin) l all := by
    intro l
    induction l with
    | nil => intro _; exact ⟨[], .nil⟩
    | cons g l ih =>
      intro hl
      obtain ⟨all, hall⟩ := ih (fun x hx => hl x (by simp [hx]))
      obtain ⟨h1, _, h3⟩ := (hg.2 g.1 g.2.1 g.2.2).1 (hl g (by simp))
      have hn : g.2.2 ∈ groupsOf items := by
        have := List.mem_of_getElem? h3
        rw [himp.names] at this
        simpa using this
      obtain ⟨key, slot, declared, entity, hk, hs, hdec, he⟩ := hd _ hn
      exact ⟨⟨substr input (origin g.2.1), origin g.2.1, entity, slot⟩ :: all,
        .cons ⟨⟨key, hk, hs⟩, ⟨declared, hdec, he⟩, rfl, rfl⟩ hall⟩
  obtain ⟨all, hall⟩ := hall _ (fun g hg => hg)
  exact ⟨dedupSlots fns all, caps, _, all, hc, hg, hall, keptSlots_dedup fns all⟩

/-- A parser whose patterns are trained patterns recognises an intent exactly if the sentence follows one of its patterns,
as it is or with placeholders for its entities (stop words being blanked in both). -/
theorem c87_recognised (env : RuleEnv) (p : Det) (hb : p.Built env.names) (o : HashOrd) (w : World) (input intent : Text)
    (cr : CharRules) (raw formatted : Text) (table : Map Rng Rng) (hs : p.Sees env w input intent raw formatted table)
    (patterns : List Regex) (hp : p.regexes.get intent = some patterns) (trained : List (List PatItem))
    (himp : List.Forall₂ (Regex.Implements cr) patterns trained)
    (hd : ∀ items ∈ trained, ∀ n ∈ groupsOf items, p.Declares intent n) :
    (∃ slots, p.MatchesAlone env o w input intent slots) ↔
      ∃ items ∈ trained, (∃ gs, Follows cr items raw 0 gs) ∨ ∃ gs, Follows cr items formatted 0 gs := by
  constructor
  · rintro ⟨slots, h⟩
    obtain ⟨raw', formatted', table', patterns', before, r, after, hs', hp', he, -, hr⟩ :=
      c62_sound env p hb o w input intent slots h
    obtain ⟨rfl, rfl, rfl⟩ := sees_unique hs hs'
    rw [hp] at hp'
    cases hp'
    subst he
    obtain ⟨i, hi⟩ := List.mem_iff_getElem?.1 (show r ∈ before ++ r :: after by simp)
    obtain ⟨items, hit, himp'⟩ := forall₂_getElem? himp hi
    refine ⟨items, List.mem_of_getElem? hit, ?_⟩
    rcases hr with ⟨caps, _, _, hc, _⟩ | ⟨_, caps, _, _, hc, _⟩
    · exact .inl ((implements_captures himp').1 ⟨caps, hc⟩)
    · exact .inr ((implements_captures himp').1 ⟨caps, hc⟩)
  · rintro ⟨items, hi, hf⟩
    have key : ∀ (ps : List Regex) (ts : List (List PatItem)), List.Forall₂ (Regex.Implements cr) ps ts →
        (∀ items ∈ ts, ∀ n ∈ groupsOf items, p.Declares intent n) →
        (∃ items ∈ ts, (∃ gs, Follows cr items raw 0 gs) ∨ ∃ gs, Follows cr items formatted 0 gs) →
        ∃ before r after slots, ps = before ++ r :: after ∧
          (∀ q ∈ before, (∀ caps, ¬ q.Captures raw caps) ∧ ∀ caps, ¬ q.Captures formatted caps) ∧
          (p.Reads env.fns input intent r raw (convertToCharRange raw) slots ∨
            (∀ caps, ¬ r.Captures raw caps) ∧
              p.Reads env.fns input intent r formatted
                (fun bytes => originalRange o (some table) (convertToCharRange formatted bytes)) slots) := by
      intro ps ts hpt
      induction hpt with
      | nil =>
        rintro - ⟨items, hi, -⟩
        cases hi
      | @cons r items ps ts hr hpt ih =>
        intro hdecl hex
        have hd' := hdecl items (by simp)
        by_cases h1 : ∃ gs, Follows cr items raw 0 gs
        · obtain ⟨caps, hc⟩ := (implements_captures hr).2 h1
          obtain ⟨slots, hsl⟩ := reads_of_captures (fns := env.fns) (input := input) hr hd' (convertToCharRange raw) hc
          exact ⟨[], r, ps, slots, rfl, by simp, .inl hsl⟩
        · have hn1 : ∀ caps, ¬ r.Captures raw caps := fun caps hc => h1 ((implements_captures hr).1 ⟨caps, hc⟩)
          by_cases h2 : ∃ gs, Follows cr items formatted 0 gs
          · obtain ⟨caps, hc⟩ := (implements_captures hr).2 h2
            obtain ⟨slots, hsl⟩ := reads_of_captures (fns := env.fns) (input := input) hr hd'
              (fun bytes => originalRange o (some table) (convertToCharRange formatted bytes)) hc
            exact ⟨[], r, ps, slots, rfl, by simp, .inr ⟨hn1, hsl⟩⟩
          · have hn2 : ∀ caps, ¬ r.Captures formatted caps := fun caps hc => h2 ((implements_captures hr).1 ⟨caps, hc⟩)
            obtain ⟨items', hi', hf'⟩ := hex
            rcases List.mem_cons.1 hi' with rfl | hi'
            · rcases hf' with h | h
              · exact absurd h h1
              · exact absurd h h2
            · obtain ⟨before, r', after, slots, rfl, hbef, hres⟩ :=
                ih (fun x hx => hdecl x (by simp [hx])) ⟨items', hi', hf'⟩
              refine ⟨r :: before, r', after, slots, rfl, ?_, hres⟩
              intro q hq
              rcases List.mem_cons.1 hq with rfl | hq
              · exact ⟨hn1, hn2⟩
              · exact hbef q hq
    obtain ⟨before, r, after, slots, he, hbef, hres⟩ := key patterns trained himp hd ⟨items, hi, hf⟩
    exact c62_complete env p hb o w input intent slots ⟨raw, formatted, table, patterns, before, r, after, hs, hp, he, hbef, hres⟩

/-! ### With which slots -/

/-- The entity matches of a text from their ranges and names. -/
def occsFrom (ph : Text → Text) : Nat → Nat → List MatchedEntity → List Occ
  | _, _, [] => []
  | o, n, m :: ms =>
    ⟨m.range, ⟨n + (m.range.start - o), n + (m.range.start - o) + (ph m.name).length⟩, m.name⟩ ::
      occsFrom ph m.range.stop (n + (m.range.start - o) + (ph m.name).length) ms

theorem occsFrom_shift (ph : Text → Text) (o n k : Nat) (ms : List MatchedEntity)
    (h : ∀ m ∈ ms.head?, o + k ≤ m.range.start) : occsFrom ph (o + k) (n + k) ms = occsFrom ph o n ms := by
  cases ms with
  | nil => rfl
  | cons m ms =>
    have := h m (by simp)
    simp only [occsFrom]
    rw [show n + k + (m.range.start - (o + k)) = n + (m.range.start - o) by omega]

theorem occs_start_le (ph : Text → Text) : ∀ (segs : List Seg) (o n : Nat), ∀ c ∈ occs ph o n segs, o ≤ c.orig.start
  | [], _, _, c, h => by cases h
  | .plain t :: segs, o, n, c, h => by
    have := occs_start_le ph segs _ _ c h
    omega
  | .ent t name :: segs, o, n, c, h => by
    rcases List.mem_cons.1 h with rfl | h
    · exact Nat.le_refl _
    · have := occs_start_le ph segs _ _ c h
      omega

theorem occs_eq_occsFrom (ph : Text → Text) : ∀ (segs : List Seg) (o n : Nat), occs ph o n segs =
    occsFrom ph o n ((occs ph o n segs).map fun c => (⟨c.orig, c.name⟩ : MatchedEntity))
  | [], _, _ => rfl
  | .plain t :: segs, o, n => by
    simp only [occs]
    rw [← occsFrom_shift ph o n t.length]
    · exact occs_eq_occsFrom ph segs _ _
    · intro m hm
      rw [List.head?_map, Option.mem_def, Option.map_eq_some_iff] at hm
      obtain ⟨c, hc, rfl⟩ := hm
      exact occs_start_le ph segs _ _ c (List.mem_of_mem_head? hc)
  | .ent t name :: segs, o, n => by
    simp only [occs, List.map_cons, occsFrom, Nat.sub_self, Nat.add_zero]
    rw [← occs_eq_occsFrom ph segs]

theorem says_follows {cr : CharRules} {ph : Text → Text} {items : List PatItem} {segs : List Seg} {shown : Text} {o : Nat}
    {gs : List (Text × Rng)} (h : Says cr ph items segs shown o gs) : ∀ n, ∃ gs', Follows cr items shown n gs' ∧
      List.Forall₂ (fun g g' => g.1 = g'.1 ∧ ∃ c ∈ occs ph o n segs, c.repl = g'.2 ∧ c.orig = g.2) gs gs' := by
  induction h with
  | nil o => intro n; exact ⟨[], .nil n, .nil⟩
  | spaces hl h rest ih =>
    intro n
    obtain ⟨gs', h1, h2⟩ := ih (n + _)
    refine ⟨gs', .spaces h h1, ?_⟩
    simp only [occs]
    rw [hl] at h2 ⊢
    exact h2
  | space h rest ih =>
    intro n
    obtain ⟨gs', h1, h2⟩ := ih (n + 1)
    exact ⟨gs', .space h h1, h2⟩
  | lit h rest ih =>
    intro n
    obtain ⟨gs', h1, h2⟩ := ih (n + 1)
    exact ⟨gs', .lit h h1, h2⟩
  | @group items segs name body typed entity b t o gs hl h rest ih =>
    intro n
    obtain ⟨gs', h1, h2⟩ := ih (n + b.length)
    refine ⟨_, .group h h1, ?_⟩
    simp only [occs]
    refine .cons ⟨rfl, _, List.mem_cons_self, by rw [hl], rfl⟩ (h2.imp ?_)
    rintro g g' ⟨e1, c, hc, e2, e3⟩
    refine ⟨e1, c, List.mem_cons_of_mem _ ?_, e2, e3⟩
    rw [← hl]
    exact hc

theorem says_order {cr : CharRules} {ph : Text → Text} {items : List PatItem} {segs : List Seg} {shown : Text} {o : Nat}
    {gs : List (Text × Rng)} (h : Says cr ph items segs shown o gs) :
    (∀ g ∈ gs, o ≤ g.2.start) ∧ gs.Pairwise (fun a b => a.2.stop ≤ b.2.start) := by
  induction h with
  | nil o => exact ⟨by simp, .nil⟩
  | spaces hl h rest ih => exact ⟨fun g hg => by have := ih.1 g hg; omega, ih.2⟩
  | space h rest ih => exact ⟨fun g hg => by have := ih.1 g hg; omega, ih.2⟩
  | lit h rest ih => exact ⟨fun g hg => by have := ih.1 g hg; omega, ih.2⟩
  | group hl h rest ih =>
    refine ⟨?_, ?_⟩
    · intro g hg
      rcases List.mem_cons.1 hg with rfl | hg
      · exact Nat.le_refl _
      · have := ih.1 g hg
        omega
    · rw [List.pairwise_cons]
      exact ⟨fun g hg => ih.1 g hg, ih.2⟩

theorem dedupSlots_disjoint (fns : TextFns) (all : List InternalSlot) (hne : ∀ s ∈ all, s.charRange.NonEmpty)
    (hp : all.Pairwise fun a b => a.charRange.stop ≤ b.charRange.start) : dedupSlots fns all = all := by
  have hk := keptSlots_dedup fns all
  have hnov : ∀ k ∈ all, ∀ s ∈ all, rangesOverlap k.charRange s.charRange = true → k = s := by
    intro k hkm s hsm hov
    by_contra hn
    have hd := (rangesOverlap_iff (hne k hkm) (hne s hsm)).1 hov
    obtain ⟨i, hi, hie⟩ := List.mem_iff_getElem.1 hkm
    obtain ⟨j, hj, hje⟩ := List.mem_iff_getElem.1 hsm
    rw [List.pairwise_iff_getElem] at hp
    have hkne := hne k hkm
    have hsne := hne s hsm
    apply hd
    intro x hx
    unfold Rng.Has at hx
    rcases lt_trichotomy i j with h | h | h
    · have := hp i j hi hj h
      rw [hie, hje] at this
      omega
    · subst h
      exact hn (hie.symm.trans hje)
    · have := hp j i hj hi h
      rw [hie, hje] at this
      omega
  have hsub : ∀ s ∈ all, s ∈ dedupSlots fns all := by
    intro s hs
    rcases hk.left s hs with h | ⟨k, hkm, hov, -⟩
    · exact h
    · rw [← hnov k (hk.subset.subset hkm) s hs hov]
      exact hkm
  have hstrict : ∀ l : List InternalSlot, (∀ s ∈ l, s.charRange.NonEmpty) → InTextOrder l →
      l.Pairwise fun a b => a.charRange.start < b.charRange.start := by
    intro l hl ho
    refine List.Pairwise.imp_of_mem ?_ ho
    intro a b ha hb hab
    have h1 := hl a ha
    have h2 := hl b hb
    have h3 := hab.1 b.charRange.start
    have h4 := hab.2
    unfold Rng.Has at h3
    unfold Rng.NonEmpty at h1 h2
    rcases Nat.lt_or_ge a.charRange.start b.charRange.start with h | h
    · exact h
    · exact absurd ⟨⟨by omega, by omega⟩, ⟨by omega, by omega⟩⟩ h3
  have hall : InTextOrder all := by
    refine List.Pairwise.imp_of_mem ?_ hp
    intro a b ha hb hab
    have h1 := hne a ha
    unfold Rng.NonEmpty at h1
    refine ⟨fun i hi => ?_, by omega⟩
    unfold Rng.Has at hi
    omega
  have hs1 := hstrict all hne hall
  have hs2 := hstrict (dedupSlots fns all) (fun s hs => hne s (hk.subset.subset hs)) hk.order
  have hnd : all.Nodup := hs1.imp (fun h => by rintro rfl; exact absurd h (Nat.lt_irrefl _))
  have hperm : (dedupSlots fns all).Perm all :=
    hk.subset.antisymm (List.subperm_of_subset hnd hsub)
  exact hperm.eq_of_pairwise (fun a b _ _ h1 h2 => absurd h1 (Nat.not_lt.2 (Nat.le_of_lt h2))) hs2 hs1

/-- The slot that a group of the pattern becomes: named and typed by the tables of the model, at the given place of the
user's sentence. -/
def Det.SlotAt (p : Det) (input intent : Text) (g : Text × Rng) (s : InternalSlot) : Prop :=
  (∃ key, BeforeUnderscore g.1 key ∧ p.groupNames.get key = some s.slotName) ∧
  (∃ declared, p.slotEntities.get intent = some declared ∧ declared.get s.slotName = some s.entity) ∧
  s.charRange = g.2 ∧ s.value = substr input g.2

theorem namedCaptures_groups (whole : Rng) (gs : List (Text × Rng)) (f : Rng → Rng) :
    namedCaptures (some whole :: gs.map fun g => some (f g.2)) (none :: (gs.map Prod.fst).map some) =
      gs.map fun g => (f g.2, g.1) := by
  unfold namedCaptures
  simp only [List.zip_cons_cons, List.drop_succ_cons, List.drop_zero]
  induction gs with
  | nil => rfl
  | cons g gs ih =>
    simp only [List.map_cons, List.zip_cons_cons, List.filterMap_cons]
    rw [ih]

/-- A sentence that says what a pattern says is understood: if no earlier pattern of the intent matches, the answer for
this intent is exactly one slot for each group, in the order of the sentence, which is the entity the user typed.
(`segs` cuts the sentence so that its entities are those found; `shown` is the sentence with placeholders for them.) -/
theorem c87_understood (env : RuleEnv) (p : Det) (hb : p.Built env.names) (o : HashOrd) (w : World) (input intent : Text)
    (hin : input.length < 2 ^ 31) (hsm : p.SmallMatches env w input)
    (kinds : List Kind) (entities : List Text) (bs : List BuiltinEntity) (cs : List CustomEntity) (new raw shown : Text)
    (table : Map Rng Rng) (hsc : p.scopes.get intent = some (kinds, entities))
    (hbs : w.builtin input (some kinds) 0 = .ok bs) (hcs : w.custom input (some entities) 0 = .ok cs)
    (hrep : replaceChecked env.debugAssertions input
      (bs.map (fun e => ⟨e.range, env.names.identifier e.kind⟩) ++ cs.map fun e => ⟨e.range, e.identifier⟩)
      (entityPlaceholder env.fns) = .ok (table, new))
    (hraw : p.preprocess env.fns input intent = .ok raw) (hshown : p.preprocess env.fns new intent = .ok shown)
    (patterns before after : List Regex) (r : Regex) (hp : p.regexes.get intent = some patterns)
    (hpat : patterns = before ++ r :: after) (hbefore : ∀ q ∈ before, q.isMatch raw = false ∧ q.isMatch shown = false)
    (cr : CharRules) (items : List PatItem) (himp : r.Implements cr items) (hsol : Solid cr items)
    (hnot : r.isMatch raw = false) (segs : List Seg) (gs : List (Text × Rng))
    (hsays : Says cr (entityPlaceholder env.fns) items segs shown 0 gs)
    (hfound : (occs (entityPlaceholder env.fns) 0 0 segs).map (fun c => (⟨c.orig, c.name⟩ : MatchedEntity)) =
      dedupEntities (bs.map (fun e => ⟨e.range, env.names.identifier e.kind⟩) ++ cs.map fun e => ⟨e.range, e.identifier⟩))
    (slots : List InternalSlot) (hslots : List.Forall₂ (p.SlotAt input intent) gs slots) :
    p.MatchesAlone env o w input intent slots := by
  obtain ⟨gs', hf, hgg⟩ := says_follows hsays 0
  have hrep' : (table, new) = replaceEntities input (bs.map (fun e => ⟨e.range, env.names.identifier e.kind⟩) ++
      cs.map fun e => ⟨e.range, e.identifier⟩) (entityPlaceholder env.fns) := by
    unfold replaceChecked at hrep
    split at hrep
    · cases hrep
    · exact (Outcome.ok.inj hrep).symm
  obtain ⟨hsb, hsc', hend⟩ := hsm _ (Map.get_some_mem hsc) bs cs hbs hcs
  have hne : ∀ e ∈ bs.map (fun e => (⟨e.range, env.names.identifier e.kind⟩ : MatchedEntity)) ++
      cs.map (fun e => (⟨e.range, e.identifier⟩ : MatchedEntity)),
      e.range.NonEmpty ∧ e.range.stop ≤ input.length := by
    intro e he
    rcases List.mem_append.1 he with he | he
    · obtain ⟨b, hb', rfl⟩ := List.mem_map.1 he; exact hsb b hb'
    · obtain ⟨b, hb', rfl⟩ := List.mem_map.1 he; exact hsc' b hb'
  obtain ⟨segs', s1, s2, s3, s4⟩ := c18_recovery_partial input _ (entityPlaceholder env.fns)
    (fun e he => (hne e he).1) (fun e he => (hne e he).2) (entityPlaceholder_ne_nil env.fns) hend (by omega)
  have hocc : occs (entityPlaceholder env.fns) 0 0 segs' = occs (entityPlaceholder env.fns) 0 0 segs := by
    rw [occs_eq_occsFrom _ segs', occs_eq_occsFrom _ segs, s2, hfound]
  obtain ⟨s5, -⟩ := s4 o
  rw [← hrep', hocc] at s5
  simp only at s5
  -- the captures
  have hm : r.isMatch shown = true := (himp.sound shown).2 ⟨gs', hf⟩
  obtain ⟨caps, hc⟩ := (implements_captures himp).2 ⟨gs', hf⟩
  obtain ⟨gs'', hf'', hcaps⟩ := captures_follow himp hc
  have : gs'' = gs' := c87_unique cr items hsol shown _ _ hf'' hf
  subst this
  have hfind := (captures_find.1 hc).2
  -- the slots
  have hslot : mapOutcome (p.slotOf o input shown intent (some table)) (namedCaptures caps r.captureNames) = .ok slots := by
    rw [hcaps, himp.names, ← follows_names hf, namedCaptures_groups, mapOutcome_ok_iff, List.forall₂_map_left_iff]
    have hlink : ∀ (gs gs' : List (Text × Rng)) (slots : List InternalSlot), (∀ g ∈ gs', g.2.start ≤ g.2.stop ∧ g.2.stop ≤ shown.length) →
        List.Forall₂ (fun g g' => g.1 = g'.1 ∧
          ∃ c ∈ occs (entityPlaceholder env.fns) 0 0 segs, c.repl = g'.2 ∧ c.orig = g.2) gs gs' →
        List.Forall₂ (p.SlotAt input intent) gs slots →
        List.Forall₂ (fun g s => p.slotOf o input shown intent (some table) (byteRange shown g.2, g.1) = .ok s) gs' slots := by
      intro gs gs' slots hin' h1
      induction h1 generalizing slots with
      | nil => intro h2; cases h2; exact .nil
      | @cons g g' gs gs' hg h1 ih =>
        intro h2
        cases h2 with
        | @cons _ s _ slots hs h2 =>
          refine .cons ?_ (ih slots (fun x hx => hin' x (by simp [hx])) h2)
          obtain ⟨e1, c, hcm, e2, e3⟩ := hg
          obtain ⟨hk, hdec, hr1, hr2⟩ := hs
          refine (slotOf_ok (i := 0)).2 ⟨by rw [← e1]; exact hk, hdec, ?_, ?_⟩
          · have hw := hin' g' (by simp)
            have hcv := (c55_consistent shown g'.2.start g'.2.stop _ _ ⟨by omega, rfl⟩ ⟨hw.2, rfl⟩ hw.1).1
            simp only [byteRange]
            rw [hcv, hr1, ← e3, ← s5 c hcm, e2]
          · rw [hr2, hr1]
    refine hlink gs _ slots ?_ hgg hslots
    intro g hg
    have := follows_within hf g hg
    omega
  have hrange : slots.map InternalSlot.charRange = gs.map Prod.snd := by
    clear hslot hf hgg hsays
    induction hslots with
    | nil => rfl
    | cons h _ ih => simp only [List.map_cons, ih, h.2.2.1]
  have hgne : ∀ g ∈ gs, g.2.NonEmpty := by
    intro g hg
    obtain ⟨i, hi⟩ := List.mem_iff_getElem?.1 hg
    obtain ⟨g', -, -, c, hcm, -, e3⟩ := forall₂_getElem? hgg hi
    have hmem : (⟨c.orig, c.name⟩ : MatchedEntity) ∈ (occs (entityPlaceholder env.fns) 0 0 segs).map
        (fun c => (⟨c.orig, c.name⟩ : MatchedEntity)) := List.mem_map.2 ⟨c, hcm, rfl⟩
    rw [hfound] at hmem
    unfold dedupEntities at hmem
    have := (hne _ ((dedupItems_subperm _ _ _).subset ((mem_sortByKey _).1 hmem))).1
    rw [← e3]
    exact this
  have hded : dedupSlots env.fns slots = slots := by
    refine dedupSlots_disjoint env.fns slots ?_ ?_
    · intro s hs
      have : s.charRange ∈ gs.map Prod.snd := by rw [← hrange]; exact List.mem_map.2 ⟨s, hs, rfl⟩
      obtain ⟨g, hg, he⟩ := List.mem_map.1 this
      rw [← he]
      exact hgne g hg
    · have h1 := (says_order hsays).2
      have h2 : (gs.map Prod.snd).Pairwise (fun a b : Rng => a.stop ≤ b.start) := List.pairwise_map.2 h1
      rw [← hrange] at h2
      exact List.pairwise_map.1 h2
  have hno : ∀ {q : Regex} {t : Text}, q.isMatch t = false → ∀ caps, ¬ q.Captures t caps := by
    intro q t hq caps hcq
    rw [hcq.1] at hq
    cases hq
  refine (recognises_iff hb).2 ⟨raw, shown, table, patterns, before, r, after,
    ⟨kinds, entities, bs, cs, new, hsc, hbs, hcs, hrep, hraw, hshown⟩, hp, hpat,
    fun q hq => ⟨hno (hbefore q hq).1, hno (hbefore q hq).2⟩, ?_⟩
  unfold Det.tryRegex
  simp only [Outcome.bind_eq, Outcome.bind_ok]
  refine ⟨none, matchingResult_none.2 (hno hnot), ?_⟩
  simp only
  unfold Det.matchingResult
  rw [if_pos hm, hfind]
  simp only [Outcome.bind_eq, Outcome.bind_ok]
  exact ⟨slots, hslot, by rw [hded]; rfl⟩

/-! ### A case -/

/-- ASCII rules for characters. -/
def asciiRules : CharRules := ⟨Char.isWhitespace, fun a b => a.toLower = b.toLower⟩

/-- `^\s*make\s*(?P<g0_1>%SNIPS/NUMBER%)\s*(?P<g1>%DRINK%)\s*$` -/
def brewPattern : List PatItem :=
  [.spaces] ++ "make".toList.map .lit ++ [.spaces, .group "g0_1".toList "%SNIPS/NUMBER%".toList, .spaces,
    .group "g1".toList "%DRINK%".toList, .spaces]

example : patternText brewPattern =
    "^\\s*make\\s*(?P<g0_1>%SNIPS/NUMBER%)\\s*(?P<g1>%DRINK%)\\s*$".toList := by decide +kernel

example : patternText ("c++ (x)".toList.map .lit) = "^c\\+\\+ \\(x\\)$".toList := by decide +kernel

theorem ascii_solid (c d : Char) (hc : c.toLower ≠ ' ' ∧ c.toLower ≠ '\t' ∧ c.toLower ≠ '\r' ∧ c.toLower ≠ '\n')
    (h : asciiRules.same c d = true) : asciiRules.white d = false := by
  simp only [asciiRules, decide_eq_true_eq] at h ⊢
  by_contra hn
  rw [Bool.not_eq_false] at hn
  simp only [Char.isWhitespace, Bool.or_eq_true, decide_eq_true_eq] at hn
  rcases hn with (((rfl | rfl) | rfl) | rfl)
  · exact hc.1 (by rw [h]; decide)
  · exact hc.2.1 (by rw [h]; decide)
  · exact hc.2.2.1 (by rw [h]; decide)
  · exact hc.2.2.2 (by rw [h]; decide)

theorem brewPattern_solid : Solid asciiRules brewPattern := by
  have h1 : ∀ i ∈ brewPattern, ∀ c, i = .lit c → c.toLower ≠ ' ' ∧ c.toLower ≠ '\t' ∧ c.toLower ≠ '\r' ∧
      c.toLower ≠ '\n' := by
    intro i hi c hc
    subst hc
    simp only [brewPattern, List.mem_append, List.mem_cons, List.mem_map, List.not_mem_nil, or_false, reduceCtorEq,
      PatItem.lit.injEq, exists_eq_right, false_or] at hi
    revert hi
    have : ∀ c ∈ "make".toList, c.toLower ≠ ' ' ∧ c.toLower ≠ '\t' ∧ c.toLower ≠ '\r' ∧ c.toLower ≠ '\n' := by
      decide
    exact this c
  refine ⟨fun c hc d h => ascii_solid c d (h1 _ hc c rfl) h, ?_⟩
  intro name body hb
  simp only [brewPattern, List.mem_append, List.mem_cons, List.mem_map, List.not_mem_nil, or_false, reduceCtorEq,
    PatItem.group.injEq, false_or, and_false, exists_const] at hb
  rcases hb with ⟨_, rfl⟩ | ⟨_, rfl⟩
  · refine ⟨by decide, fun c hc d h => ascii_solid c d ?_ h⟩
    clear h
    revert c
    decide
  · refine ⟨by decide, fun c hc d h => ascii_solid c d ?_ h⟩
    clear h
    revert c
    decide

example : WellNamed brewPattern := by
  unfold WellNamed
  decide +kernel

/-- Words may be run together, in any case; other words may not be there. -/
example : (trainedRegex asciiRules ([.spaces] ++ "make".toList.map .lit ++ [.spaces] ++ "tea".toList.map .lit)).isMatch
    " MakeTea".toList = true ∧
    (trainedRegex asciiRules ([.spaces] ++ "make".toList.map .lit ++ [.spaces] ++ "tea".toList.map .lit)).isMatch
    " Make no Tea".toList = false := by decide +kernel

/-- The parser of the examples with a trained pattern. -/
def trainedDet : Det := { demoDet with
  regexes := [("brew".toList, [trainedRegex asciiRules ("stop".toList.map .lit), trainedRegex asciiRules brewPattern]),
    ("idiom".toList, []), ("halt".toList, [])]
  groupNames := [("g0".toList, "count".toList), ("g1".toList, "kind".toList)] }

/-- What the user types, `shown` after replacement of the entities, is cut like the pattern. -/
theorem brew_says : Says asciiRules (entityPlaceholder demoEnv.fns) brewPattern
    [.plain [], .plain ['M'], .plain ['A'], .plain ['k'], .plain ['e'], .plain " the ".toList,
      .ent "two".toList "snips/number".toList, .plain "  ".toList, .ent "tea".toList "drink".toList, .plain " ".toList]
    "MAke     %SNIPS/NUMBER%  %DRINK% ".toList 0 [("g0_1".toList, ⟨9, 12⟩), ("g1".toList, ⟨14, 17⟩)] := by
  refine .spaces (gap := []) rfl (by decide) (.lit (by decide) (.lit (by decide) (.lit (by decide) (.lit (by decide) ?_))))
  refine .spaces (gap := "     ".toList) (by decide) (by decide) ?_
  refine .group (b := "%SNIPS/NUMBER%".toList) (by decide +kernel) ?_ ?_
  · exact List.forall₂_same.2 (by decide)
  refine .spaces (gap := "  ".toList) (by decide) (by decide) ?_
  refine .group (b := "%DRINK%".toList) (by decide +kernel) ?_ ?_
  · exact List.forall₂_same.2 (by decide)
  exact .spaces (gap := " ".toList) (by decide) (by decide) (.nil _)

/-- `c87_recognised` for this parser and a sentence. -/
example : (∃ slots, trainedDet.MatchesAlone demoEnv HashOrd.insertion ruleWorld "MAke the two  tea ".toList "brew".toList
      slots) ↔ ∃ items ∈ ["stop".toList.map .lit, brewPattern],
    (∃ gs, Follows asciiRules items "MAke     two  tea ".toList 0 gs) ∨
      ∃ gs, Follows asciiRules items "MAke     %SNIPS/NUMBER%  %DRINK% ".toList 0 gs := by
  refine c87_recognised demoEnv trainedDet ⟨rfl, by decide⟩ HashOrd.insertion ruleWorld _ _ asciiRules _ _ _
    ⟨[0], ["drink".toList], [⟨"two".toList, ⟨9, 12⟩, .builtin 2, [], 0⟩],
      [⟨"tea".toList, "tea".toList, [], ⟨14, 17⟩, "drink".toList⟩], "MAke the %SNIPS/NUMBER%  %DRINK% ".toList,
      by decide +kernel, by decide +kernel, by decide +kernel, rfl, by decide +kernel, by decide +kernel⟩
    _ rfl _ (.cons (trainedRegex_implements _ _) (.cons (trainedRegex_implements _ _) .nil)) ?_
  intro items hi n hn
  rw [List.mem_cons, List.mem_singleton] at hi
  rcases hi with rfl | rfl
  · exact absurd hn (by revert n; decide +kernel)
  · have : n = "g0_1".toList ∨ n = "g1".toList := by revert n; decide +kernel
    rcases this with rfl | rfl
    · exact ⟨"g0".toList, "count".toList, _, _, beforeUnderscore_iff.2 (by decide +kernel), rfl, rfl, rfl⟩
    · exact ⟨"g1".toList, "kind".toList, _, "drink".toList, beforeUnderscore_iff.2 (by decide +kernel), rfl, rfl,
        by decide +kernel⟩

/-- `c87_understood` for this sentence. -/
example : trainedDet.MatchesAlone demoEnv HashOrd.insertion ruleWorld "MAke the two  tea ".toList "brew".toList
    [⟨"two".toList, ⟨9, 12⟩, "snips/number".toList, "count".toList⟩,
      ⟨"tea".toList, ⟨14, 17⟩, "drink".toList, "kind".toList⟩] := by
  refine c87_understood demoEnv trainedDet ⟨rfl, by decide⟩ HashOrd.insertion ruleWorld _ _ (by decide) ?_
    [0] ["drink".toList] [⟨"two".toList, ⟨9, 12⟩, .builtin 2, [], 0⟩]
    [⟨"tea".toList, "tea".toList, [], ⟨14, 17⟩, "drink".toList⟩] "MAke the %SNIPS/NUMBER%  %DRINK% ".toList
    "MAke     two  tea ".toList "MAke     %SNIPS/NUMBER%  %DRINK% ".toList _ (by decide +kernel) (by decide +kernel)
    (by decide +kernel) rfl (by decide +kernel) (by decide +kernel)
    [trainedRegex asciiRules ("stop".toList.map .lit), trainedRegex asciiRules brewPattern] [_] [] _ rfl rfl
    ?_ asciiRules brewPattern (trainedRegex_implements _ _) brewPattern_solid (by decide +kernel) _ _ brew_says
    (by decide +kernel) _ ?_
  · refine smallMatches_of_length ?_
    intro s hs bs cs hbs hcs
    simp only [ruleWorld, Outcome.ok.injEq] at hbs hcs
    subst hbs hcs
    revert s
    simp only [Rng.NonEmpty]
    decide +kernel
  · intro q hq
    rw [List.mem_singleton] at hq
    subst hq
    decide +kernel
  · refine .cons ⟨⟨"g0".toList, beforeUnderscore_iff.2 (by decide +kernel), rfl⟩,
      ⟨_, rfl, by decide +kernel⟩, rfl, by decide +kernel⟩
      (.cons ⟨⟨"g1".toList, beforeUnderscore_iff.2 (by decide +kernel), rfl⟩,
        ⟨_, rfl, by decide +kernel⟩, rfl, by decide +kernel⟩ .nil)

end Snips
