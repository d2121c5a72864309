import Verif.Spec.PatternStopWords
import Verif.Proofs.StopWords
import Verif.Props.C87_Trained
import Verif.Props.C19_Blanking

/-! Helpers for C116. -/

namespace Snips

namespace InsertedPattern

/-! ### White space and patterns -/

variable {cr : CharRules}

theorem follows_shift (k : Nat) {items : List PatItem} {t : Text} {pos : Nat} {gs : List (Text × Rng)}
    (h : Follows cr items t pos gs) :
    Follows cr items t (pos + k) (gs.map fun g => (g.1, ⟨g.2.start + k, g.2.stop + k⟩)) := by
  induction h with
  | nil pos => exact .nil _
  | spaces hw _ ih => refine .spaces hw ?_; rw [Nat.add_right_comm]; exact ih
  | space hw _ ih => refine .space hw ?_; rw [Nat.add_right_comm]; exact ih
  | lit hs _ ih => refine .lit hs ?_; rw [Nat.add_right_comm]; exact ih
  | @group items name body b t pos gs hs _ ih =>
    simp only [List.map_cons]
    rw [show pos + b.length + k = pos + k + b.length by omega]
    refine .group hs ?_
    rw [Nat.add_right_comm]; exact ih

/-- Where the groups are, white space is not. -/
theorem follows_solid {items : List PatItem} {t : Text} {pos : Nat} {gs : List (Text × Rng)}
    (h : Follows cr items t pos gs) (hs : Solid cr items) :
    ∀ g ∈ gs, pos ≤ g.2.start ∧ g.2.start < g.2.stop ∧ g.2.stop ≤ pos + t.length ∧
      ∀ i, g.2.start ≤ i → i < g.2.stop → ∀ c, t[i - pos]? = some c → cr.white c = false := by
  have step : ∀ {u t : Text} {pos : Nat} {g : Text × Rng}, (pos + u.length ≤ g.2.start ∧ g.2.start < g.2.stop ∧
      g.2.stop ≤ pos + u.length + t.length ∧
      ∀ i, g.2.start ≤ i → i < g.2.stop → ∀ c, t[i - (pos + u.length)]? = some c → cr.white c = false) →
      (pos ≤ g.2.start ∧ g.2.start < g.2.stop ∧ g.2.stop ≤ pos + (u ++ t).length ∧
      ∀ i, g.2.start ≤ i → i < g.2.stop → ∀ c, (u ++ t)[i - pos]? = some c → cr.white c = false) := by
    intro u t pos g hg
    refine ⟨by omega, hg.2.1, by rw [List.length_append]; omega, fun i h1 h2 c hc => hg.2.2.2 i h1 h2 c ?_⟩
    rw [List.getElem?_append_right (by omega)] at hc
    rw [← hc]
    congr 1
    omega
  induction h with
  | nil pos => simp
  | @spaces items gap t pos gs hw _ ih => exact fun g hg => step (ih (solid_cons hs) g hg)
  | @space items c t pos gs hw _ ih => exact fun g hg => step (u := [c]) (ih (solid_cons hs) g hg)
  | @lit items c d t pos gs hw _ ih => exact fun g hg => step (u := [d]) (ih (solid_cons hs) g hg)
  | @group items name body b t pos gs hw _ ih =>
    intro g hg
    rcases List.mem_cons.1 hg with rfl | hg
    · obtain ⟨hne, hbody⟩ := hs.group name body (by simp)
      have hl := hw.length_eq
      have := List.length_pos_of_ne_nil hne
      refine ⟨by simp, by simp; omega, by simp, fun i h1 h2 c hc => ?_⟩
      simp only at h1 h2
      rw [List.getElem?_append_left (by omega)] at hc
      have hi : i - pos < body.length := by omega
      have hrel := (List.forall₂_iff_get.1 hw).2 (i - pos) hi (by omega)
      rw [List.getElem?_eq_some_iff] at hc
      obtain ⟨hc1, hc2⟩ := hc
      refine hbody _ (List.getElem_mem hi) c ?_
      simpa [hc2] using hrel
    · exact step (ih (solid_cons hs) g hg)

/-- Two ways to cut a text. -/
theorem cut {a b c d : Text} (h : a ++ b = c ++ d) : (∃ e, c = a ++ e ∧ b = e ++ d) ∨ ∃ e, a = c ++ e ∧ d = e ++ b := by
  rcases List.append_eq_append_iff.1 h with ⟨e, h1, h2⟩ | ⟨e, h1, h2⟩
  · exact Or.inl ⟨e, h1, h2⟩
  · exact Or.inr ⟨e, h1, h2⟩

/-- The place of a position after white space was put in behind position `P`. -/
def past (P k i : Nat) : Nat := if i ≤ P then i else i + k

def pastRng (P k : Nat) (g : Text × Rng) : Text × Rng := (g.1, ⟨past P k g.2.start, past P k g.2.stop⟩)

theorem solid_group {items : List PatItem} {name body b : Text} (hs : Solid cr (.group name body :: items))
    (h : cr.SameText body b) : b ≠ [] ∧ ∀ d ∈ b, cr.white d = false := by
  obtain ⟨hne, hb⟩ := hs.group name body (by simp)
  refine ⟨?_, ?_⟩
  · intro he; rw [he] at h; exact hne (List.length_eq_zero_iff.1 h.length_eq.symm)
  · intro d hd
    obtain ⟨i, hi⟩ := List.mem_iff_getElem.1 hd
    obtain ⟨hi, rfl⟩ := hi
    have hl := h.length_eq
    exact hb _ (List.getElem_mem (by omega)) _ ((List.forall₂_iff_get.1 h).2 i (by omega) hi)

/-- More white space at a white space. -/
theorem follows_insert {c : Char} (hc : cr.white c = true) {gap : Text} (hgap : ∀ d ∈ gap, cr.white d = true)
    {items : List PatItem} {t : Text} {pos : Nat} {gs : List (Text × Rng)} (h : Follows cr items t pos gs)
    (hs : Solid cr items) (hl : .space ∉ items) {u v : Text} (ht : t = u ++ c :: v) :
    Follows cr items (u ++ c :: (gap ++ v)) pos (gs.map (pastRng (pos + u.length) gap.length)) := by
  induction h generalizing u with
  | nil pos => simp at ht
  | @spaces items g0 t pos gs hw hf ih =>
    rcases cut ht with ⟨e, h1, h2⟩ | ⟨e, h1, h2⟩
    · have := ih (solid_cons hs) (fun hm => hl (by simp [hm])) h2
      subst h1
      rw [List.append_assoc]
      refine .spaces hw ?_
      rw [List.length_append, ← Nat.add_assoc]
      exact this
    · cases e with
      | nil =>
        simp only [List.append_nil] at h1
        simp only [List.nil_append] at h2
        have := ih (solid_cons hs) (fun hm => hl (by simp [hm])) (u := []) h2.symm
        subst h1
        refine .spaces hw ?_
        simpa using this
      | cons e es =>
        simp only [List.cons_append, List.cons.injEq] at h2
        obtain ⟨rfl, h2⟩ := h2
        subst h1 h2
        rw [show u ++ c :: (gap ++ (es ++ t)) = (u ++ c :: (gap ++ es)) ++ t by simp]
        refine .spaces ?_ ?_
        · intro d hd
          simp only [List.mem_append, List.mem_cons] at hd
          rcases hd with hd | rfl | hd | hd
          · exact hw d (by simp [hd])
          · exact hc
          · exact hgap d hd
          · exact hw d (by simp [hd])
        · have := follows_shift gap.length hf
          have hin := follows_solid hf (solid_cons hs)
          rw [List.map_congr_left (g := fun g => (g.1, (⟨g.2.start + gap.length, g.2.stop + gap.length⟩ : Rng)))]
          · simp only [List.length_append, List.length_cons] at this ⊢
            rw [show pos + (u.length + (gap.length + es.length + 1)) = pos + (u.length + (es.length + 1)) + gap.length by
              omega]
            exact this
          · intro g hg
            have := hin g hg
            simp only [List.length_append, List.length_cons] at this
            unfold pastRng past
            rw [if_neg (by omega), if_neg (by omega)]
  | space hw _ ih => simp at hl
  | @lit items a d t pos gs hw hf ih =>
    cases u with
    | nil =>
      simp only [List.nil_append, List.cons.injEq] at ht
      have := hs.lit a (by simp) d hw
      rw [ht.1, hc] at this
      cases this
    | cons u0 u =>
      simp only [List.cons_append, List.cons.injEq] at ht
      obtain ⟨rfl, ht⟩ := ht
      refine .lit hw ?_
      have := ih (solid_cons hs) (fun hm => hl (by simp [hm])) ht
      rw [List.length_cons, show pos + (u.length + 1) = pos + 1 + u.length by omega]
      exact this
  | @group items name body b t pos gs hw hf ih =>
    obtain ⟨_, hb⟩ := solid_group hs hw
    rcases cut ht with ⟨e, h1, h2⟩ | ⟨e, h1, h2⟩
    · have := ih (solid_cons hs) (fun hm => hl (by simp [hm])) h2
      subst h1
      rw [List.append_assoc, List.map_cons]
      have hp : pastRng (pos + (b ++ e).length) gap.length (name, ⟨pos, pos + b.length⟩) = (name, ⟨pos, pos + b.length⟩) := by
        unfold pastRng past
        simp only [List.length_append]
        rw [if_pos (by omega), if_pos (by omega)]
      rw [hp]
      refine .group hw ?_
      rw [List.length_append, ← Nat.add_assoc]
      exact this
    · cases e with
      | nil =>
        simp only [List.append_nil] at h1
        simp only [List.nil_append] at h2
        have := ih (solid_cons hs) (fun hm => hl (by simp [hm])) (u := []) h2.symm
        subst h1
        have hp : pastRng (pos + b.length) gap.length (name, ⟨pos, pos + b.length⟩) = (name, ⟨pos, pos + b.length⟩) := by
          unfold pastRng past
          simp only
          rw [if_pos (by omega), if_pos (by omega)]
        rw [List.map_cons, hp]
        refine .group hw ?_
        simpa using this
      | cons e es =>
        simp only [List.cons_append, List.cons.injEq] at h2
        obtain ⟨rfl, h2⟩ := h2
        have := hb c (by rw [h1]; simp)
        rw [hc] at this
        cases this

/-- Without the white space at the beginning. -/
theorem follows_drop {gap : Text} (hgap : ∀ d ∈ gap, cr.white d = true)
    {items : List PatItem} {t : Text} {pos : Nat} {gs : List (Text × Rng)} (h : Follows cr items t pos gs)
    (hs : Solid cr items) (hl : .space ∉ items) {v : Text} (ht : t = gap ++ v) (pos' : Nat) :
    ∃ gs', Follows cr items v pos' gs' := by
  induction h generalizing gap pos' v with
  | nil pos =>
    obtain ⟨rfl, rfl⟩ := List.append_eq_nil_iff.1 ht.symm
    exact ⟨[], .nil _⟩
  | @spaces items g0 t pos gs hw hf ih =>
    rcases cut ht with ⟨e, h1, h2⟩ | ⟨e, h1, h2⟩
    · obtain ⟨gs', h'⟩ := ih (fun d hd => hgap d (by rw [h1]; simp [hd])) (solid_cons hs) (fun hm => hl (by simp [hm])) h2
        pos'
      exact ⟨gs', by simpa using Follows.spaces (gap := []) (by simp) h'⟩
    · subst h1 h2
      obtain ⟨gs', h'⟩ := ih (gap := []) (by simp) (solid_cons hs) (fun hm => hl (by simp [hm])) rfl (pos' + e.length)
      exact ⟨gs', .spaces (fun d hd => hw d (by simp [hd])) h'⟩
  | space hw _ ih => simp at hl
  | @lit items a d t pos gs hw hf ih =>
    cases gap with
    | nil =>
      simp only [List.nil_append] at ht
      subst ht
      obtain ⟨gs', h'⟩ := ih (gap := []) (by simp) (solid_cons hs) (fun hm => hl (by simp [hm])) rfl (pos' + 1)
      exact ⟨gs', .lit hw h'⟩
    | cons g gap =>
      simp only [List.cons_append, List.cons.injEq] at ht
      have := hs.lit a (by simp) d hw
      rw [ht.1, hgap g (by simp)] at this
      cases this
  | @group items name body b t pos gs hw hf ih =>
    obtain ⟨hne, hb⟩ := solid_group hs hw
    cases gap with
    | nil =>
      simp only [List.nil_append] at ht
      subst ht
      obtain ⟨gs', h'⟩ := ih (gap := []) (by simp) (solid_cons hs) (fun hm => hl (by simp [hm])) rfl (pos' + b.length)
      exact ⟨_, .group hw h'⟩
    | cons g gap =>
      cases b with
      | nil => exact absurd rfl hne
      | cons b0 b =>
        simp only [List.cons_append, List.cons.injEq] at ht
        have := hb b0 (by simp)
        rw [ht.1, hgap g (by simp)] at this
        cases this

/-- Without the further white space at a white space. -/
theorem follows_remove {c : Char} (hc : cr.white c = true) {gap : Text} (hgap : ∀ d ∈ gap, cr.white d = true)
    {items : List PatItem} {t : Text} {pos : Nat} {gs : List (Text × Rng)} (h : Follows cr items t pos gs)
    (hs : Solid cr items) (hl : .space ∉ items) {u v : Text} (ht : t = u ++ c :: (gap ++ v)) :
    ∃ gs', Follows cr items (u ++ c :: v) pos gs' := by
  induction h generalizing u with
  | nil pos => simp at ht
  | @spaces items g0 t pos gs hw hf ih =>
    rcases cut ht with ⟨e, h1, h2⟩ | ⟨e, h1, h2⟩
    · obtain ⟨gs', h'⟩ := ih (solid_cons hs) (fun hm => hl (by simp [hm])) h2
      subst h1
      rw [List.append_assoc]
      exact ⟨gs', .spaces hw h'⟩
    · cases e with
      | nil =>
        simp only [List.append_nil] at h1
        simp only [List.nil_append] at h2
        obtain ⟨gs', h'⟩ := ih (solid_cons hs) (fun hm => hl (by simp [hm])) (u := []) h2.symm
        subst h1
        exact ⟨gs', .spaces hw h'⟩
      | cons e es =>
        simp only [List.cons_append, List.cons.injEq] at h2
        obtain ⟨rfl, h2⟩ := h2
        subst h1
        rcases cut h2.symm with ⟨f, h3, h4⟩ | ⟨f, h3, h4⟩
        · obtain ⟨gs', h'⟩ := follows_drop (gap := f) (fun d hd => hgap d (by rw [h3]; simp [hd])) hf (solid_cons hs)
            (fun hm => hl (by simp [hm])) h4 (pos + (u ++ [c]).length)
          refine ⟨gs', ?_⟩
          rw [show u ++ c :: v = (u ++ [c]) ++ v by simp]
          refine .spaces ?_ h'
          intro d hd
          simp only [List.mem_append, List.mem_cons, List.not_mem_nil, or_false] at hd
          rcases hd with hd | rfl
          · exact hw d (by simp [hd])
          · exact hc
        · obtain ⟨gs', h'⟩ := follows_drop (gap := []) (by simp) hf (solid_cons hs)
            (fun hm => hl (by simp [hm])) rfl (pos + (u ++ c :: f).length)
          refine ⟨gs', ?_⟩
          rw [h4, show u ++ c :: (f ++ t) = (u ++ c :: f) ++ t by simp]
          refine .spaces ?_ h'
          intro d hd
          refine hw d ?_
          rw [h3]
          simp only [List.mem_append, List.mem_cons] at hd ⊢
          tauto
  | space hw _ ih => simp at hl
  | @lit items a d t pos gs hw hf ih =>
    cases u with
    | nil =>
      simp only [List.nil_append, List.cons.injEq] at ht
      have := hs.lit a (by simp) d hw
      rw [ht.1, hc] at this
      cases this
    | cons u0 u =>
      simp only [List.cons_append, List.cons.injEq] at ht
      obtain ⟨rfl, ht⟩ := ht
      obtain ⟨gs', h'⟩ := ih (solid_cons hs) (fun hm => hl (by simp [hm])) ht
      exact ⟨gs', .lit hw h'⟩
  | @group items name body b t pos gs hw hf ih =>
    obtain ⟨_, hb⟩ := solid_group hs hw
    rcases cut ht with ⟨e, h1, h2⟩ | ⟨e, h1, h2⟩
    · obtain ⟨gs', h'⟩ := ih (solid_cons hs) (fun hm => hl (by simp [hm])) h2
      subst h1
      rw [List.append_assoc]
      exact ⟨_, .group hw h'⟩
    · cases e with
      | nil =>
        simp only [List.append_nil] at h1
        simp only [List.nil_append] at h2
        obtain ⟨gs', h'⟩ := ih (solid_cons hs) (fun hm => hl (by simp [hm])) (u := []) h2.symm
        subst h1
        exact ⟨_, .group hw h'⟩
      | cons e es =>
        simp only [List.cons_append, List.cons.injEq] at h2
        obtain ⟨rfl, h2⟩ := h2
        have := hb c (by rw [h1]; simp)
        rw [hc] at this
        cases this

/-- White space at the end. -/
theorem follows_append {gap : Text} (hgap : ∀ d ∈ gap, cr.white d = true) {items : List PatItem} {t : Text} {pos : Nat}
    {gs : List (Text × Rng)} (h : Follows cr items t pos gs) {rest : List PatItem} (hi : items = rest ++ [.spaces]) :
    Follows cr items (t ++ gap) pos gs := by
  induction h generalizing rest with
  | nil pos => simp at hi
  | @spaces items g0 t pos gs hw hf ih =>
    cases rest with
    | nil =>
      simp only [List.nil_append, List.cons.injEq, true_and] at hi
      subst hi
      cases hf
      have := Follows.spaces (cr := cr) (items := []) (gap := g0 ++ gap) (t := []) (pos := pos) (gs := []) (by
        intro d hd
        rcases List.mem_append.1 hd with hd | hd
        · exact hw d hd
        · exact hgap d hd) (.nil _)
      simpa using this
    | cons r rest =>
      simp only [List.cons_append, List.cons.injEq] at hi
      rw [List.append_assoc]
      exact .spaces hw (ih hi.2)
  | space hw _ ih =>
    cases rest with
    | nil => simp at hi
    | cons r rest =>
      simp only [List.cons_append, List.cons.injEq] at hi
      exact .space hw (ih hi.2)
  | lit hw _ ih =>
    cases rest with
    | nil => simp at hi
    | cons r rest =>
      simp only [List.cons_append, List.cons.injEq] at hi
      exact .lit hw (ih hi.2)
  | group hw _ ih =>
    cases rest with
    | nil => simp at hi
    | cons r rest =>
      simp only [List.cons_append, List.cons.injEq] at hi
      rw [List.append_assoc]
      exact .group hw (ih hi.2)

/-- Without the white space at the end. -/
theorem follows_chop {gap : Text} (hgap : ∀ d ∈ gap, cr.white d = true)
    {items : List PatItem} {t : Text} {pos : Nat} {gs : List (Text × Rng)} (h : Follows cr items t pos gs)
    (hs : Solid cr items) (hl : .space ∉ items) {u : Text} (ht : t = u ++ gap) :
    ∃ gs', Follows cr items u pos gs' := by
  induction h generalizing gap u with
  | nil pos =>
    obtain ⟨rfl, rfl⟩ := List.append_eq_nil_iff.1 ht.symm
    exact ⟨[], .nil _⟩
  | @spaces items g0 t pos gs hw hf ih =>
    rcases cut ht with ⟨e, h1, h2⟩ | ⟨e, h1, h2⟩
    · obtain ⟨gs', h'⟩ := ih hgap (solid_cons hs) (fun hm => hl (by simp [hm])) h2
      exact ⟨gs', h1 ▸ .spaces hw h'⟩
    · obtain ⟨gs', h'⟩ := ih (gap := t) (u := []) (fun d hd => hgap d (by rw [h2]; simp [hd])) (solid_cons hs)
        (fun hm => hl (by simp [hm])) rfl
      obtain ⟨gs'', h''⟩ := follows_drop (gap := []) (by simp) h' (solid_cons hs) (fun hm => hl (by simp [hm])) rfl
        (pos + u.length)
      exact ⟨gs'', by simpa using Follows.spaces (gap := u) (fun d hd => hw d (by rw [h1]; simp [hd])) h''⟩
  | space hw _ ih => simp at hl
  | @lit items a d t pos gs hw hf ih =>
    cases u with
    | nil =>
      simp only [List.nil_append] at ht
      have := hs.lit a (by simp) d hw
      rw [hgap d (by rw [← ht]; simp)] at this
      cases this
    | cons u0 u =>
      simp only [List.cons_append, List.cons.injEq] at ht
      obtain ⟨rfl, ht⟩ := ht
      obtain ⟨gs', h'⟩ := ih hgap (solid_cons hs) (fun hm => hl (by simp [hm])) ht
      exact ⟨gs', .lit hw h'⟩
  | @group items name body b t pos gs hw hf ih =>
    obtain ⟨hne, hb⟩ := solid_group hs hw
    rcases cut ht with ⟨e, h1, h2⟩ | ⟨e, h1, h2⟩
    · obtain ⟨gs', h'⟩ := ih hgap (solid_cons hs) (fun hm => hl (by simp [hm])) h2
      subst h1
      exact ⟨_, .group hw h'⟩
    · cases e with
      | nil =>
        simp only [List.append_nil] at h1
        simp only [List.nil_append] at h2
        obtain ⟨gs', h'⟩ := ih (gap := gap) (u := []) hgap (solid_cons hs) (fun hm => hl (by simp [hm])) h2.symm
        subst h1
        exact ⟨_, by simpa using Follows.group hw h'⟩
      | cons e es =>
        have := hb e (by rw [h1]; simp)
        rw [hgap e (by rw [h2]; simp)] at this
        cases this

/-- The groups of a pattern do not contain the place where words can go. -/
theorem follows_beside (hw : cr.white ' ' = true) {items : List PatItem} {z : Spot} {gs : List (Text × Rng)}
    (h : Follows cr items z.short 0 gs) (hs : Solid cr items) : ∀ g ∈ gs, z.Beside g.2 := by
  intro g hg
  obtain ⟨-, h1, h2, h3⟩ := follows_solid h hs g hg
  rw [Nat.zero_add] at h2
  cases z with
  | front t => exact ⟨by omega, h2⟩
  | back t => exact ⟨by omega, h2⟩
  | between a b =>
    simp only [Spot.short, List.length_append, List.length_cons] at h2
    refine ⟨by omega, ?_⟩
    by_contra hcon
    have := h3 a.length (by omega) (by omega) ' ' (by simp [Spot.short])
    rw [hw] at this
    cases this

/-- Blanks put where words can go change the places of the groups only. -/
theorem follows_long (hw : cr.white ' ' = true) {items : List PatItem} {z : Spot} {gs : List (Text × Rng)}
    (hs : Solid cr items) (hl : Loose items) (n : Nat) (h : Follows cr items z.short 0 gs) :
    Follows cr items (z.long (List.replicate n ' ')) 0
      (gs.map fun g => (g.1, z.moved (List.replicate n ' ') g.2)) := by
  have hb : ∀ k, ∀ d ∈ List.replicate k ' ', cr.white d = true := by
    intro k d hd
    rw [(List.mem_replicate.1 hd).2]; exact hw
  cases z with
  | front t =>
    obtain ⟨rest, rfl⟩ := hl.front
    simp only [Spot.short] at h
    cases h with
    | @spaces _ gap t _ _ hg hf =>
      have := follows_shift (n + 1) hf
      simp only [Spot.long, Spot.moved, Spot.pos, List.length_replicate]
      rw [show List.replicate n ' ' ++ ' ' :: (gap ++ t) = (List.replicate (n + 1) ' ' ++ gap) ++ t by
        rw [List.replicate_succ']; simp]
      refine .spaces ?_ ?_
      · intro d hd
        rcases List.mem_append.1 hd with hd | hd
        · exact hb _ d hd
        · exact hg d hd
      · rw [List.length_append, List.length_replicate, show 0 + (n + 1 + gap.length) = 0 + gap.length + (n + 1) by omega]
        exact this
  | back t =>
    obtain ⟨rest, hr⟩ := hl.back
    have := follows_append (gap := ' ' :: List.replicate n ' ') (by rw [← List.replicate_succ]; exact hb _) h hr
    simpa [Spot.long, Spot.short, Spot.moved, Spot.pos] using this
  | between a b =>
    have := follows_insert hw (gap := List.replicate (n + 1) ' ') (hb _) h hs hl.any (u := a) (v := b) rfl
    rw [List.replicate_succ', List.append_assoc, List.singleton_append] at this
    rw [List.map_congr_left (g := pastRng (0 + a.length) (List.replicate n ' ' ++ [' ']).length)]
    · exact this
    · intro g _
      simp [pastRng, past, Spot.moved, Spot.pos]

theorem follows_short (hw : cr.white ' ' = true) {items : List PatItem} {z : Spot} {gs : List (Text × Rng)}
    (hs : Solid cr items) (hl : Loose items) (n : Nat) (h : Follows cr items (z.long (List.replicate n ' ')) 0 gs) :
    ∃ gs', Follows cr items z.short 0 gs' := by
  have hb : ∀ k, ∀ d ∈ List.replicate k ' ', cr.white d = true := by
    intro k d hd
    rw [(List.mem_replicate.1 hd).2]; exact hw
  cases z with
  | front t =>
    refine follows_drop (gap := List.replicate (n + 1) ' ') (hb _) h hs hl.any (v := t) ?_ 0
    rw [List.replicate_succ']; simp [Spot.long]
  | back t => exact follows_chop (gap := ' ' :: List.replicate n ' ') (by rw [← List.replicate_succ]; exact hb _) h hs hl.any rfl
  | between a b =>
    refine follows_remove hw (gap := List.replicate (n + 1) ' ') (hb _) h hs hl.any (u := a) (v := b) ?_
    rw [List.replicate_succ']; simp [Spot.long]

/-! ### Blanked stop words -/

/-- The loop of `preprocess_text` on values and places of tokens. -/
def blankFrom (fns : TextFns) (stop : List Text) : Nat → List (Text × Rng) → Outcome (Text × Nat)
  | cur, [] => .ok ([], cur)
  | cur, tok :: toks =>
    if tok.2.start < cur then .panic
    else do
      let rest ← blankFrom fns stop tok.2.stop toks
      let value := if stop.contains (fns.normalize tok.1) then List.replicate tok.1.length ' ' else tok.1
      .ok (List.replicate (tok.2.start - cur) ' ' ++ value ++ rest.1, rest.2)

theorem blankFrom_eq (fns : TextFns) (stop : List Text) : ∀ (toks : List Token) (cur : Nat),
    detPreprocessFrom fns stop cur toks = blankFrom fns stop cur (toks.map fun t => (t.value, t.charRange))
  | [], _ => rfl
  | t :: toks, cur => by
    simp only [detPreprocessFrom, List.map_cons, blankFrom, blankFrom_eq fns stop toks]

theorem blank_append {fns : TextFns} {stop : List Text} : ∀ {l l' : List (Text × Rng)} {cur c c' : Nat} {s s' : Text},
    blankFrom fns stop cur l = .ok (s, c) → blankFrom fns stop c l' = .ok (s', c') →
    blankFrom fns stop cur (l ++ l') = .ok (s ++ s', c')
  | [], l', cur, c, c', s, s', h, h' => by
    simp only [blankFrom, Outcome.ok.injEq, Prod.mk.injEq] at h
    obtain ⟨rfl, rfl⟩ := h
    simpa using h'
  | t :: l, l', cur, c, c', s, s', h, h' => by
    simp only [blankFrom, List.cons_append] at h ⊢
    split at h
    · cases h
    · rename_i hlt
      rw [if_neg hlt]
      simp only [Outcome.bind_eq, Outcome.bind_ok] at h ⊢
      obtain ⟨r, hr, h⟩ := h
      simp only [Outcome.ok.injEq, Prod.mk.injEq] at h
      obtain ⟨rfl, rfl⟩ := h
      refine ⟨_, blank_append (s := r.1) (c := r.2) hr h', ?_⟩
      simp

def shiftTok (k : Nat) (t : Text × Rng) : Text × Rng := (t.1, ⟨t.2.start + k, t.2.stop + k⟩)

theorem blank_shift {fns : TextFns} {stop : List Text} (k : Nat) : ∀ {l : List (Text × Rng)} {cur c : Nat} {s : Text},
    blankFrom fns stop cur l = .ok (s, c) → blankFrom fns stop (cur + k) (l.map (shiftTok k)) = .ok (s, c + k)
  | [], cur, c, s, h => by
    simp only [blankFrom, Outcome.ok.injEq, Prod.mk.injEq] at h
    obtain ⟨rfl, rfl⟩ := h
    rfl
  | t :: l, cur, c, s, h => by
    simp only [blankFrom, List.map_cons, shiftTok] at h ⊢
    split at h
    · cases h
    · rename_i hlt
      rw [if_neg (by omega)]
      simp only [Outcome.bind_eq, Outcome.bind_ok] at h ⊢
      obtain ⟨r, hr, h⟩ := h
      simp only [Outcome.ok.injEq, Prod.mk.injEq] at h
      obtain ⟨rfl, rfl⟩ := h
      refine ⟨_, blank_shift k (s := r.1) (c := r.2) hr, ?_⟩
      simp only [Outcome.ok.injEq, Prod.mk.injEq, and_true]
      rw [Nat.add_sub_add_right]

/-- From an earlier position. -/
theorem blank_earlier {fns : TextFns} {stop : List Text} {k c0 : Nat} (hk : c0 ≤ k) {l : List (Text × Rng)} {c : Nat}
    {s : Text} (hne : l ≠ []) (h : blankFrom fns stop 0 l = .ok (s, c)) :
    blankFrom fns stop c0 (l.map (shiftTok k)) = .ok (List.replicate (k - c0) ' ' ++ s, c + k) := by
  cases l with
  | nil => exact absurd rfl hne
  | cons t l =>
    simp only [blankFrom, List.map_cons, shiftTok] at h ⊢
    split at h
    · cases h
    · rw [if_neg (by omega)]
      simp only [Outcome.bind_eq, Outcome.bind_ok] at h ⊢
      obtain ⟨r, hr, h⟩ := h
      simp only [Outcome.ok.injEq, Prod.mk.injEq] at h
      obtain ⟨rfl, rfl⟩ := h
      refine ⟨_, blank_shift k (s := r.1) (c := r.2) hr, ?_⟩
      simp only [Outcome.ok.injEq, Prod.mk.injEq, and_true]
      rw [show t.2.start + k - c0 = (k - c0) + (t.2.start - 0) by omega, List.replicate_add]
      simp only [List.append_assoc]

theorem preprocess_split {fns : TextFns} (hap : fns.TokensApart) (p : Det) (intent a b : Text) {A B : Text}
    (hA : p.preprocess fns a intent = .ok A) (hB : p.preprocess fns b intent = .ok B) :
    p.preprocess fns (a ++ ' ' :: b) intent = .ok (A ++ ' ' :: B) := by
  unfold Det.preprocess at hA hB ⊢
  simp only [blankFrom_eq, Outcome.bind_eq, Outcome.bind_ok] at hA hB ⊢
  obtain ⟨⟨s, c⟩, h1, h2⟩ := hA
  obtain ⟨⟨s', c'⟩, h1', h2'⟩ := hB
  simp only at h2 h2'
  split at h2
  · cases h2
  split at h2'
  · cases h2'
  rename_i hc hc'
  simp only [Outcome.ok.injEq] at h2 h2'
  rw [hap a b]
  have hm : ((fns.tokenize b).map fun t => (t.value, (⟨t.charRange.start + (a.length + 1), t.charRange.stop + (a.length + 1)⟩ : Rng)))
      = ((fns.tokenize b).map fun t => (t.value, t.charRange)).map (shiftTok (a.length + 1)) := by
    rw [List.map_map]; rfl
  rw [hm]
  by_cases hne : (fns.tokenize b).map (fun t => (t.value, t.charRange)) = []
  · rw [hne] at h1' ⊢
    simp only [blankFrom, Outcome.ok.injEq, Prod.mk.injEq] at h1'
    obtain ⟨rfl, rfl⟩ := h1'
    refine ⟨(s, c), by simpa using h1, ?_⟩
    simp only [List.length_append, List.length_cons]
    rw [if_neg (by omega), ← h2, ← h2', show a.length + (b.length + 1) - c = (a.length - c) + ((b.length - 0) + 1) by omega,
      List.replicate_add, List.replicate_succ]
    simp
  · refine ⟨_, blank_append h1 (blank_earlier (k := a.length + 1) (by omega) hne h1'), ?_⟩
    simp only [List.length_append, List.length_cons]
    rw [if_neg (by omega), ← h2, ← h2', show a.length + (b.length + 1) - (c' + (a.length + 1)) = b.length - c' by omega,
      show a.length + 1 - c = (a.length - c) + 1 by omega, List.replicate_succ']
    simp

/-- The query without its stop words: with the words, there are blanks instead of them. -/
theorem preprocess_spot {fns : TextFns} (htok : ∀ t, Tokenized t (fns.tokenize t)) (hap : fns.TokensApart) (p : Det)
    (intent words : Text) (hw : ∀ t ∈ fns.tokenize words, p.stopWords.Skipped intent (fns.normalize t.value)) (z : Spot) :
    ∃ z' : Spot, p.preprocess fns z.short intent = .ok z'.short ∧
      p.preprocess fns (z.long words) intent = .ok (z'.long (List.replicate words.length ' ')) ∧
      (∀ r, z'.moved (List.replicate words.length ' ') r = z.moved words r) ∧ ∀ r, z'.Beside r ↔ z.Beside r := by
  have hpre : ∀ t, ∃ T, p.preprocess fns t intent = .ok T ∧ T.length = t.length := by
    intro t
    obtain ⟨T, h1, h2, -⟩ := c19_positions fns p t intent (htok t)
    exact ⟨T, h1, h2⟩
  have hwords : p.preprocess fns words intent = .ok (List.replicate words.length ' ') := by
    obtain ⟨T, h1, h2, -, h3⟩ := c19_positions fns p words intent (htok words)
    rw [h1]
    congr 1
    refine List.ext_getElem? fun i => ?_
    by_cases hi : i < words.length
    · rw [h3 i hi (fun t ht hn => absurd (Inserted.skipped (hw t ht)) hn)]
      simp [hi]
    · rw [List.getElem?_eq_none (by omega), List.getElem?_eq_none (by simp; omega)]
  cases z with
  | front t =>
    obtain ⟨T, h1, h2⟩ := hpre t
    exact ⟨.front T, h1, preprocess_split hap p intent _ _ hwords h1, by simp [Spot.moved, Spot.pos], by
      simp [Spot.Beside, h2]⟩
  | back t =>
    obtain ⟨T, h1, h2⟩ := hpre t
    exact ⟨.back T, h1, preprocess_split hap p intent _ _ h1 hwords, by simp [Spot.moved, Spot.pos], by
      simp [Spot.Beside, h2]⟩
  | between a b =>
    obtain ⟨A, h1, h2⟩ := hpre a
    obtain ⟨B, h3, h4⟩ := hpre b
    exact ⟨.between A B, preprocess_split hap p intent _ _ h1 h3,
      preprocess_split hap p intent _ _ h1 (preprocess_split hap p intent _ _ hwords h3),
      by simp [Spot.moved, Spot.pos, h2], by simp [Spot.Beside, h2, h4]⟩

/-! ### Placeholders -/

theorem replText_build (fns : TextFns) (text : Text) : ∀ (ms : List MatchedEntity) (cur : Nat),
    replText (entityPlaceholder fns) (buildSegs text cur ms) = replaceWithPlaceholdersFrom fns text cur ms
  | [], cur => by simp [buildSegs, replText, Seg.repl, replaceWithPlaceholdersFrom, suffixFrom]
  | m :: ms, cur => by
    simp only [buildSegs, replText_cons, Seg.repl, replaceWithPlaceholdersFrom, replText_build fns text ms]
    simp

theorem replaced_text (fns : TextFns) (text : Text) (ms : List MatchedEntity) :
    (replaceEntities text ms (entityPlaceholder fns)).2 = replaceWithPlaceholdersFrom fns text 0 (dedupEntities ms) := by
  unfold replaceEntities
  cases ms with
  | nil => simp [dedupEntities, dedupItems, sortByKey, replaceWithPlaceholdersFrom, suffixFrom]
  | cons m ms =>
    simp only [List.isEmpty_cons, Bool.false_eq_true, if_false]
    rw [sortByKey_of_sorted _ (Inserted.dedup_sorted _), replaceFold_text, replText_build]
    simp

variable {words : Text}

section

variable {before after : Text}

/-- A match with its placeholder, in the longer query. -/
def mvOcc (x : Spot) (words : Text) (P : Nat) (c : Occ) : Occ :=
  ⟨x.moved words c.orig, ⟨past P (words.length + 1) c.repl.start, past P (words.length + 1) c.repl.stop⟩, c.name⟩

theorem occ_after (ph : Text → Text) (P : Nat) : ∀ {es : List MatchedEntity} {o n : Nat},
    Chain (before.length + 1 + after.length) o es → before.length + 1 ≤ o → P < n →
    occOf ph (o + (words.length + 1)) (n + (words.length + 1)) (es.map (Inserted.mv (.between before after) words))
      = (occOf ph o n es).map (mvOcc (.between before after) words P)
  | [], _, _, _, _, _ => rfl
  | e :: es, o, n, h, ho, hn => by
    obtain ⟨h1, h2, h3⟩ := chain_cons.1 h
    have hr : (Inserted.mv (.between before after) words e).range
        = ⟨e.range.start + (words.length + 1), e.range.stop + (words.length + 1)⟩ := by
      simp only [Inserted.mv, Spot.moved, Spot.pos]; rw [if_neg (by omega), if_neg (by omega)]
    have hr' : (Spot.between before after).moved words e.range
        = ⟨e.range.start + (words.length + 1), e.range.stop + (words.length + 1)⟩ := hr
    have ih := occ_after ph P (es := es) (o := e.range.stop) (n := n + (e.range.start - o) + (ph e.name).length) h3
      (by omega) (by omega)
    simp only [List.map_cons, occOf, hr, mvOcc, hr', past]
    rw [if_neg (by omega), if_neg (by omega)]
    have hname : (Inserted.mv (.between before after) words e).name = e.name := rfl
    rw [hname, show n + (words.length + 1) + (e.range.start + (words.length + 1) - (o + (words.length + 1)))
      = n + (e.range.start - o) + (words.length + 1) by omega,
      show n + (e.range.start - o) + (words.length + 1) + (ph e.name).length
        = n + (e.range.start - o) + (ph e.name).length + (words.length + 1) by omega, ih]

theorem replace_between (fns : TextFns) : ∀ {es : List MatchedEntity} {cur n : Nat},
    (∀ e ∈ es, (Spot.between before after).Beside e.range) → Chain (before.length + 1 + after.length) cur es →
    cur ≤ before.length →
    ∃ A B, replaceWithPlaceholdersFrom fns (before ++ ' ' :: after) cur es = A ++ ' ' :: B ∧
      replaceWithPlaceholdersFrom fns (before ++ ' ' :: (words ++ ' ' :: after)) cur
        (es.map (Inserted.mv (.between before after) words)) = A ++ ' ' :: (words ++ ' ' :: B) ∧
      occOf (entityPlaceholder fns) cur n (es.map (Inserted.mv (.between before after) words))
        = (occOf (entityPlaceholder fns) cur n es).map (mvOcc (.between before after) words (n + A.length))
  | [], cur, n, _, _, hc => by
    refine ⟨before.drop cur, after, ?_, ?_, rfl⟩ <;>
    · simp only [List.map_nil, replaceWithPlaceholdersFrom, suffixFrom]
      rw [List.drop_append_of_le_length hc]
  | e :: es, cur, n, h, hch, hc => by
    have hb := h e (by simp)
    have hb' := hb
    simp only [Spot.Beside] at hb'
    obtain ⟨c1, c2, c3⟩ := chain_cons.1 hch
    have hname : (Inserted.mv (.between before after) words e).name = e.name := rfl
    simp only [List.map_cons, replaceWithPlaceholdersFrom, occOf]
    rcases hb'.2 with hs | ⟨hs, hs'⟩
    · obtain ⟨A, B, h1, h2, h3⟩ := replace_between fns (es := es) (cur := e.range.stop)
        (n := n + (e.range.start - cur) + (entityPlaceholder fns e.name).length) (fun e' he' => h e' (by simp [he'])) c3 hs
      have hmv : (Inserted.mv (.between before after) words e).range = e.range := by
        simp only [Inserted.mv, Spot.moved, Spot.pos]
        rw [if_pos (by omega), if_pos hs]
      have hmv' : (Spot.between before after).moved words e.range = e.range := hmv
      have hlen : (substr (before ++ ' ' :: after) ⟨cur, e.range.start⟩).length = e.range.start - cur :=
        length_substr (by simp; omega)
      refine ⟨substr (before ++ ' ' :: after) ⟨cur, e.range.start⟩ ++ entityPlaceholder fns e.name ++ A, B, ?_, ?_, ?_⟩
      · rw [h1]; simp
      · rw [hmv, hname, h2]
        have hsub : substr (before ++ ' ' :: (words ++ ' ' :: after)) ⟨cur, e.range.start⟩
            = substr (before ++ ' ' :: after) ⟨cur, e.range.start⟩ := by
          rw [Inserted.left_substr _ _ (by omega), Inserted.left_substr _ _ (by omega)]
        rw [hsub]
        simp
      · rw [hmv, hname, h3]
        simp only [mvOcc, hmv', List.length_append, hlen, past]
        rw [if_pos (by omega), if_pos (by omega)]
        simp only [Nat.add_assoc]
    · have hmv : (Inserted.mv (.between before after) words e).range
          = ⟨e.range.start + (words.length + 1), e.range.stop + (words.length + 1)⟩ := by
        simp only [Inserted.mv, Spot.moved, Spot.pos]; rw [if_neg (by omega), if_neg (by omega)]
      have hmv' : (Spot.between before after).moved words e.range
          = ⟨e.range.start + (words.length + 1), e.range.stop + (words.length + 1)⟩ := hmv
      have hstart : ∀ {es : List MatchedEntity} {c : Nat}, Chain (before.length + 1 + after.length) c es →
          ∀ e' ∈ es, c ≤ e'.range.start := by
        intro es
        induction es with
        | nil => intro c _ e' he'; simp at he'
        | cons a es ih =>
          intro c hc e' he'
          obtain ⟨d1, d2, d3⟩ := chain_cons.1 hc
          rcases List.mem_cons.1 he' with rfl | he'
          · exact d1
          · have := ih d3 e' he'; omega
      have hrest := Inserted.replace_after (before := before) (words := words) (after := after) fns (es := es) (cur := e.range.stop)
        (fun e' he' => ⟨h e' (by simp [he']), by have := hstart c3 e' he'; omega⟩) (by omega) (by omega)
      obtain ⟨m, hm⟩ : ∃ m, e.range.start = before.length + 1 + m := ⟨e.range.start - (before.length + 1), by omega⟩
      have e1 : substr (before ++ ' ' :: after) ⟨cur, e.range.start⟩ = before.drop cur ++ ' ' :: after.take m := by
        unfold substr
        simp only
        rw [List.drop_append_of_le_length hc, show e.range.start - cur = (before.drop cur).length + (m + 1) by
          rw [List.length_drop]; omega, List.take_append, List.take_of_length_le (by omega)]
        simp
      have e2 : substr (before ++ ' ' :: (words ++ ' ' :: after)) ⟨cur, e.range.start + (words.length + 1)⟩
          = before.drop cur ++ ' ' :: (words ++ ' ' :: after.take m) := by
        unfold substr
        simp only
        rw [List.drop_append_of_le_length hc, show e.range.start + (words.length + 1) - cur
          = (before.drop cur).length + ((words.length + (m + 1)) + 1) by rw [List.length_drop]; omega, List.take_append,
          List.take_of_length_le (by omega), Nat.add_sub_cancel_left, List.take_succ_cons, List.take_append,
          List.take_of_length_le (by omega), Nat.add_sub_cancel_left, List.take_succ_cons]
      refine ⟨before.drop cur, after.take m ++ entityPlaceholder fns e.name
        ++ replaceWithPlaceholdersFrom fns (before ++ ' ' :: after) e.range.stop es, ?_, ?_, ?_⟩
      · rw [e1]; simp
      · rw [hmv, hname, hrest, e2]; simp
      · have hafter := occ_after (words := words) (before := before) (after := after) (entityPlaceholder fns)
          (n + (before.drop cur).length) (es := es) (o := e.range.stop)
          (n := n + (e.range.start - cur) + (entityPlaceholder fns e.name).length) c3 (by omega) (by
            rw [List.length_drop]; omega)
        rw [hmv, hname]
        simp only [mvOcc, hmv', past]
        rw [if_neg (by rw [List.length_drop]; omega), if_neg (by rw [List.length_drop]; omega),
          show n + (e.range.start + (words.length + 1) - cur) = n + (e.range.start - cur) + (words.length + 1) by omega,
          show n + (e.range.start - cur) + (words.length + 1) + (entityPlaceholder fns e.name).length
            = n + (e.range.start - cur) + (entityPlaceholder fns e.name).length + (words.length + 1) by omega, hafter]

end

theorem occ_front (ph : Text → Text) (t : Text) : ∀ (es : List MatchedEntity) (o n : Nat),
    occOf ph (o + (words.length + 1)) (n + (words.length + 1)) (es.map (Inserted.mv (.front t) words))
      = (occOf ph o n es).map fun c => ⟨(Spot.front t).moved words c.orig, ⟨c.repl.start + (words.length + 1),
        c.repl.stop + (words.length + 1)⟩, c.name⟩
  | [], _, _ => rfl
  | e :: es, o, n => by
    have ih := occ_front ph t es e.range.stop (n + (e.range.start - o) + (ph e.name).length)
    simp only [List.map_cons, occOf, Inserted.mv, Spot.moved, Spot.pos] at ih ⊢
    rw [show n + (words.length + 1) + (e.range.start + (words.length + 1) - (o + (words.length + 1)))
      = n + (e.range.start - o) + (words.length + 1) by omega,
      show n + (e.range.start - o) + (words.length + 1) + (ph e.name).length
        = n + (e.range.start - o) + (ph e.name).length + (words.length + 1) by omega, ih]

theorem mv_back (t : Text) (es : List MatchedEntity) : es.map (Inserted.mv (.back t) words) = es := by
  conv_rhs => rw [← List.map_id es]
  rfl

/-- The query with placeholders: with the words, it is the same with the words, and the placeholders are moved. -/
theorem replace_spot (fns : TextFns) (x : Spot) {es : List MatchedEntity} (h : ∀ e ∈ es, x.Beside e.range)
    (hch : Chain x.short.length 0 es) :
    ∃ y : Spot, replaceWithPlaceholdersFrom fns x.short 0 es = y.short ∧
      replaceWithPlaceholdersFrom fns (x.long words) 0 (es.map (Inserted.mv x words)) = y.long words ∧
      occOf (entityPlaceholder fns) 0 0 (es.map (Inserted.mv x words))
        = (occOf (entityPlaceholder fns) 0 0 es).map fun c => ⟨x.moved words c.orig, y.moved words c.repl, c.name⟩ := by
  cases x with
  | front t =>
    refine ⟨.front (replaceWithPlaceholdersFrom fns t 0 es), rfl, ?_, ?_⟩
    · have h1 := Inserted.replace_front fns words t es 0
      cases es with
      | nil => simp [replaceWithPlaceholdersFrom, suffixFrom, Spot.long]
      | cons e es =>
        have h2 := Inserted.replace_front fns words t es e.range.stop
        simp only [List.map_cons, replaceWithPlaceholdersFrom, Spot.long, Inserted.mv, Spot.moved, Spot.pos] at h2 ⊢
        have h3 : substr (words ++ ' ' :: t) ⟨0, e.range.start + (words.length + 1)⟩
            = words ++ ' ' :: substr t ⟨0, e.range.start⟩ := by
          unfold substr
          simp only [List.drop_zero, Nat.sub_zero]
          rw [Nat.add_comm, Nat.add_assoc, List.take_append, List.take_of_length_le (by omega), Nat.add_sub_cancel_left,
            Nat.add_comm 1, List.take_succ_cons]
        rw [h2, h3]
        simp
    · cases es with
      | nil => rfl
      | cons e es =>
        have h2 := occ_front (words := words) (entityPlaceholder fns) t es e.range.stop
          (0 + (e.range.start - 0) + (entityPlaceholder fns e.name).length)
        simp only [List.map_cons, occOf, Inserted.mv, Spot.moved, Spot.pos, Nat.zero_add, Nat.sub_zero] at h2 ⊢
        rw [show e.range.start + (words.length + 1) + (entityPlaceholder fns e.name).length
          = e.range.start + (entityPlaceholder fns e.name).length + (words.length + 1) by omega, h2]
  | back t =>
    refine ⟨.back (replaceWithPlaceholdersFrom fns t 0 es), rfl, Inserted.replace_back fns words t h (by omega), ?_⟩
    rw [mv_back]
    conv_lhs => rw [← List.map_id (occOf (entityPlaceholder fns) 0 0 es)]
    rfl
  | between a b =>
    simp only [Spot.short, List.length_append, List.length_cons] at hch
    obtain ⟨A, B, h1, h2, h3⟩ := replace_between (words := words) (before := a) (after := b) fns (es := es) (cur := 0) (n := 0) h
      (by rw [show a.length + 1 + b.length = a.length + (b.length + 1) by omega]; exact hch) (by omega)
    refine ⟨.between A B, h1, h2, ?_⟩
    rw [h3]
    refine List.map_congr_left fun c _ => ?_
    simp [mvOcc, past, Spot.moved, Spot.pos]

/-! ### The slots of a match -/

variable {x : Spot}

theorem dedupSlots_moved (fns : TextFns) (slots : List InternalSlot) :
    dedupSlots fns (slots.map (InternalSlot.moved x words)) = (dedupSlots fns slots).map (InternalSlot.moved x words) := by
  unfold dedupSlots dedupItems
  have h1 : sortByKey (fun s : InternalSlot => -(((fns.tokenize s.value).length + s.value.length : Nat) : Int))
      (slots.map (InternalSlot.moved x words)) =
      (sortByKey (fun s : InternalSlot => -(((fns.tokenize s.value).length + s.value.length : Nat) : Int)) slots).map
        (InternalSlot.moved x words) := by
    unfold sortByKey
    refine (List.map_insertionSort _ _ _ slots ?_).symm
    intro a _ b _
    exact Iff.rfl
  rw [h1, show ([] : List InternalSlot) = ([] : List InternalSlot).map (InternalSlot.moved x words) from rfl,
    Inserted.fold_map _ _ _ (fun a b => Inserted.moved_overlap (x := x) (words := words) a.charRange b.charRange)]
  unfold sortByKey
  refine (List.map_insertionSort _ _ _ _ ?_).symm
  intro a _ b _
  simp only [InternalSlot.moved, Spot.moved, Inserted.pos_le]

theorem charRange_byteRange {t : Text} {r : Rng} (h : r.start ≤ r.stop) (h' : r.stop ≤ t.length) :
    convertToCharRange t (byteRange t r) = r :=
  (c55_consistent t r.start r.stop _ _ ⟨by omega, rfl⟩ ⟨h', rfl⟩ h).1

theorem matching (hw : cr.white ' ' = true) {fns : TextFns} {o : HashOrd} {p : Det} {intent : Text} {r : Regex}
    {items : List PatItem} (himp : r.Implements cr items) (hsol : Solid cr items) (hl : Loose items) (z : Spot) (n : Nat)
    {m m' : Option (Map Rng Rng)}
    (horig : ∀ gs, Follows cr items z.short 0 gs → ∀ g ∈ gs, x.Beside (originalRange o m g.2) ∧
      originalRange o m' (z.moved (List.replicate n ' ') g.2) = x.moved words (originalRange o m g.2))
    {res : Option InternalResult} (h : p.matchingResult fns o x.short z.short r intent m = .ok res) :
    p.matchingResult fns o (x.long words) (z.long (List.replicate n ' ')) r intent m'
      = .ok (res.map (InternalResult.moved x words)) := by
  cases hm : r.isMatch z.short with
  | false =>
    have hm' : r.isMatch (z.long (List.replicate n ' ')) = false := by
      cases hl' : r.isMatch (z.long (List.replicate n ' ')) with
      | false => rfl
      | true =>
        obtain ⟨gs, hgs⟩ := (himp.sound _).1 hl'
        have := (himp.sound _).2 (follows_short hw hsol hl n hgs)
        rw [hm] at this
        cases this
    unfold Det.matchingResult at h ⊢
    rw [hm] at h
    rw [hm']
    simp only [Bool.false_eq_true, if_false, Outcome.ok.injEq] at h ⊢
    subst h
    rfl
  | true =>
    obtain ⟨caps, hc⟩ := (implements_captures himp).2 ((himp.sound _).1 hm)
    obtain ⟨gs, hf, hcaps⟩ := captures_follow himp hc
    have hf' := follows_long hw hsol hl n hf
    obtain ⟨caps', hc'⟩ := (implements_captures himp).2 ⟨_, hf'⟩
    obtain ⟨gs', hf'', hcaps'⟩ := captures_follow himp hc'
    have := c87_unique cr items hsol _ _ _ hf'' hf'
    subst this
    have hm' := hc'.1
    unfold Det.matchingResult at h ⊢
    rw [if_pos hm, (captures_find.1 hc).2] at h
    rw [if_pos hm', (captures_find.1 hc').2]
    simp only [Outcome.bind_eq, Outcome.bind_ok] at h ⊢
    obtain ⟨slots, hs, h⟩ := h
    rw [Outcome.ok.injEq] at h
    refine ⟨slots.map (InternalSlot.moved x words), ?_, ?_⟩
    · rw [hcaps, himp.names, ← follows_names hf, namedCaptures_groups, mapOutcome_ok_iff, List.forall₂_map_left_iff] at hs
      rw [hcaps', himp.names, ← follows_names hf', namedCaptures_groups, mapOutcome_ok_iff, List.map_map,
        List.forall₂_map_left_iff, List.forall₂_map_right_iff]
      have hw1 := follows_within hf
      have hw2 := follows_within hf'
      have ho := horig gs hf
      clear hf' hf'' hcaps' hcaps hf hc hc' h
      induction hs with
      | nil => exact .nil
      | @cons g s gs slots hg _ ih =>
        refine .cons ?_ (ih (fun g' h' => hw1 g' (by simp [h'])) (fun g' h' => hw2 g' (by
          simp only [List.map_cons, List.mem_cons]; exact Or.inr h')) (fun g' h' => ho g' (by simp [h'])))
        have w1 := hw1 g (by simp)
        have w2 := hw2 (g.1, z.moved (List.replicate n ' ') g.2) (by simp)
        obtain ⟨hb, heq⟩ := ho g (by simp)
        rw [slotOf_ok (i := 0)] at hg ⊢
        obtain ⟨h1, h2, h3, h4⟩ := hg
        simp only at h3 h4
        rw [charRange_byteRange (by omega) (by omega)] at h3
        refine ⟨h1, h2, ?_, ?_⟩
        · simp only [Function.comp]
          rw [charRange_byteRange (by simp only at w2; omega) (by simp only at w2; omega), heq, ← h3]
          rfl
        · show s.value = _
          have hcr : (InternalSlot.moved x words s).charRange = x.moved words (originalRange o m g.2) := by
            show x.moved words s.charRange = _
            rw [h3]
          rw [hcr, h4, h3]
          exact (Inserted.moved_substr hb).symm
    · subst h
      rw [dedupSlots_moved]
      rfl

theorem findMap_moved {α : Type} {g : InternalResult → InternalResult} {f f' : α → Outcome (Option InternalResult)} :
    ∀ {l : List α}, (∀ a ∈ l, ∀ res, f a = .ok res → f' a = .ok (res.map g)) → ∀ {res}, findMapOutcome f l = .ok res →
      findMapOutcome f' l = .ok (res.map g)
  | [], _, res, h => by
    simp only [findMapOutcome, Outcome.ok.injEq] at h ⊢
    subst h
    rfl
  | a :: l, hall, res, h => by
    simp only [findMapOutcome] at h ⊢
    cases ha : f a with
    | ok r =>
      rw [ha] at h
      rw [hall a (by simp) r ha]
      cases r with
      | some b =>
        simp only [Outcome.ok.injEq, Option.map_some] at h ⊢
        subst h
        rfl
      | none => exact findMap_moved (fun a' h' => hall a' (by simp [h'])) h
    | err e => rw [ha] at h; cases h
    | panic => rw [ha] at h; cases h

theorem mem_dedup {ms : List MatchedEntity} {e : MatchedEntity} (h : e ∈ dedupEntities ms) : e ∈ ms := by
  unfold dedupEntities at h
  rw [sortByKey, (List.perm_insertionSort _ _).mem_iff] at h
  exact (dedupItems_subperm _ _ _).subset h

/-- One intent. -/
theorem matchWith_moved (hw : cr.white ' ' = true) {fns : TextFns} (htok : ∀ t, Tokenized t (fns.tokenize t))
    (hap : fns.TokensApart) {debug : Bool} {o : HashOrd} {p : Det} {intent : Text} (htr : p.Trained cr)
    (hstop : ∀ t ∈ fns.tokenize words, p.stopWords.Skipped intent (fns.normalize t.value))
    {ms : List MatchedEntity} (hbes : ∀ e ∈ ms, x.Beside e.range)
    (hne : ∀ e ∈ ms, e.range.NonEmpty ∧ e.range.stop ≤ x.short.length)
    (hne' : ∀ e ∈ ms.map (Inserted.mv x words), e.range.NonEmpty ∧ e.range.stop ≤ (x.long words).length)
    (hlen : x.short.length < 32768) (hlen' : (x.long words).length < 32768)
    (hrep : (replaceEntities x.short ms (entityPlaceholder fns)).2.length < 32768)
    (hrep' : (replaceEntities (x.long words) (ms.map (Inserted.mv x words)) (entityPlaceholder fns)).2.length < 32768)
    (hgroups : ∀ shown patterns, p.preprocess fns (replaceEntities x.short ms (entityPlaceholder fns)).2 intent = .ok shown →
      p.regexes.get intent = some patterns → ∀ r ∈ patterns, ∀ caps, r.Captures shown caps → ∀ (i : Nat) bytes, 1 ≤ i →
        caps[i]? = some (some bytes) →
          convertToCharRange shown bytes ∈ (replaceEntities x.short ms (entityPlaceholder fns)).1.keys)
    {res : Option InternalResult} (h : p.matchWith fns debug o x.short intent ms = .ok res) :
    p.matchWith fns debug o (x.long words) intent (ms.map (Inserted.mv x words))
      = .ok (res.map (InternalResult.moved x words)) := by
  have hph := entityPlaceholder_ne_nil fns
  have hend := endBefore_of_new_text (fun e he => (hne e he).1) (fun e he => (hne e he).2) hrep
  have hend' := endBefore_of_new_text (fun e he => (hne' e he).1) (fun e he => (hne' e he).2) hrep'
  obtain ⟨segs, -, s2, s3⟩ := c17_mapping_partial x.short ms (entityPlaceholder fns) (fun e he => (hne e he).1)
    (fun e he => (hne e he).2) hph hend
  obtain ⟨segs1, -, t2, -, t4⟩ := c18_recovery_partial x.short ms (entityPlaceholder fns) (fun e he => (hne e he).1)
    (fun e he => (hne e he).2) hph hend (by omega)
  obtain ⟨segs', -, t2', -, t4'⟩ := c18_recovery_partial (x.long words) (ms.map (Inserted.mv x words)) (entityPlaceholder fns)
    (fun e he => (hne' e he).1) (fun e he => (hne' e he).2) hph hend' (by omega)
  obtain ⟨t5, -⟩ := t4 o
  obtain ⟨t5', -⟩ := t4' o
  have hd : ∀ e ∈ dedupEntities ms, x.Beside e.range := fun e he => hbes e (mem_dedup he)
  obtain ⟨y, y1, y2, y3⟩ := replace_spot (words := words) fns x hd
    (replace_chain x.short ms (fun e he => (hne e he).1) fun e he => (hne e he).2)
  have hocc : occs (entityPlaceholder fns) 0 0 segs1 = occs (entityPlaceholder fns) 0 0 segs := occs_unique _ t2 s2
  rw [hocc] at t5
  have hocc' : occs (entityPlaceholder fns) 0 0 segs' = (occs (entityPlaceholder fns) 0 0 segs).map fun c =>
      ⟨x.moved words c.orig, y.moved words c.repl, c.name⟩ := by
    rw [occs_eq_occOf _ segs', t2', Inserted.dedup_mv hbes, y3, ← s2, ← occs_eq_occOf]
  rw [← replaced_text] at y1
  rw [← Inserted.dedup_mv hbes, ← replaced_text] at y2
  obtain ⟨zx, x1, x2, x3, x4⟩ := preprocess_spot htok hap p intent words hstop x
  obtain ⟨zy, z1, z2, z3, z4⟩ := preprocess_spot htok hap p intent words hstop y
  rw [← y1] at z1
  rw [← y2] at z2
  unfold Det.matchWith at h ⊢
  rw [c17_no_overflow debug _ _ _ (fun e he => (hne e he).1) (fun e he => (hne e he).2) hlen hrep] at h
  rw [c17_no_overflow debug _ _ _ (fun e he => (hne' e he).1) (fun e he => (hne' e he).2) hlen' hrep']
  simp only [Outcome.bind_eq, Outcome.bind_ok] at h ⊢
  obtain ⟨rp, h0, raw, h1, shown, h2, regexes, h3, h⟩ := h
  rw [Outcome.ok.injEq] at h0
  subst h0
  rw [x1, Outcome.ok.injEq] at h1
  rw [z1, Outcome.ok.injEq] at h2
  subst h1 h2
  refine ⟨_, rfl, _, x2, _, z2, regexes, h3, ?_⟩
  have hget : p.regexes.get intent = some regexes := by
    cases hg : p.regexes.get intent with
    | none => rw [hg] at h3; cases h3
    | some rs => rw [hg] at h3; cases h3; rfl
  refine findMap_moved ?_ h
  intro r hr res hres
  obtain ⟨items, himp, hsol, hl⟩ := htr intent regexes hget r hr
  unfold Det.tryRegex at hres ⊢
  simp only [Outcome.bind_eq, Outcome.bind_ok] at hres ⊢
  obtain ⟨q, hq, hres⟩ := hres
  refine ⟨_, matching (x := x) (words := words) hw himp hsol hl zx words.length ?_ hq, ?_⟩
  · intro gs hf g hg
    exact ⟨(x4 _).1 (follows_beside hw hf hsol g hg), x3 _⟩
  cases q with
  | some q =>
    simp only [Outcome.ok.injEq] at hres ⊢
    subst hres
    rfl
  | none =>
    refine matching (x := x) (words := words) hw himp hsol hl zy words.length ?_ hres
    intro gs hf g hg
    have hk : g.2 ∈ (replaceEntities x.short ms (entityPlaceholder fns)).1.keys := by
      obtain ⟨caps, hcap⟩ := (implements_captures himp).2 ⟨gs, hf⟩
      obtain ⟨gs', hf', hcaps⟩ := captures_follow himp hcap
      have hgs := c87_unique cr items hsol _ _ _ hf' hf
      rw [hgs] at hcaps
      obtain ⟨k, hk, hkg⟩ := List.mem_iff_getElem.1 hg
      have := hgroups _ _ z1 hget r hr caps hcap (k + 1) (byteRange zy.short g.2) (by omega) (by
        rw [hcaps, List.getElem?_cons_succ, List.getElem?_map, List.getElem?_eq_getElem hk, hkg]
        rfl)
      have hwi := follows_within hf g hg
      rwa [charRange_byteRange (by omega) (by omega)] at this
    have htable : (replaceEntities x.short ms (entityPlaceholder fns)).1.keys
        = (occs (entityPlaceholder fns) 0 0 segs).map Occ.repl := by
      rw [s3]
      show ((occs (entityPlaceholder fns) 0 0 segs).map fun o => (o.repl, o.orig)).map Prod.fst = _
      rw [List.map_map]
      rfl
    rw [htable, List.mem_map] at hk
    obtain ⟨c, hc, hcg⟩ := hk
    have e1 := t5 c hc
    have e2 := t5' ⟨x.moved words c.orig, y.moved words c.repl, c.name⟩ (by
      rw [hocc']; exact List.mem_map.2 ⟨c, hc, rfl⟩)
    simp only at e2
    rw [← hcg, e1, z3, e2]
    refine ⟨?_, rfl⟩
    have : (⟨c.orig, c.name⟩ : MatchedEntity) ∈ dedupEntities ms := by
      rw [← s2]; exact List.mem_map.2 ⟨c, hc, rfl⟩
    exact hd _ this

/-! ### All intents -/

/-- Trying one intent on the longer query. -/
theorem intent_moved (hw : cr.white ' ' = true) {env : RuleEnv} (htok : ∀ t, Tokenized t (env.fns.tokenize t))
    (hap : env.fns.TokensApart) {o : HashOrd} {p : Det} (hb : p.Built env.names) (htr : p.Trained cr) {w : World}
    (hm : w.SameMatches x words) (hsm : p.SmallQuery env w x.short) (hsm' : p.SmallQuery env w (x.long words))
    (hty : p.NoTypedPlaceholders env w x.short) {s : Text × (List Kind × List Text)} (hs : s ∈ p.scopes)
    (hstop : ∀ t ∈ env.fns.tokenize words, p.stopWords.Skipped s.1 (env.fns.normalize t.value))
    {res : Option InternalResult} (h : (p.matchIntent env o x.short s).run w = .ok res) :
    (p.matchIntent env o (x.long words) s).run w = .ok (res.map (InternalResult.moved x words)) := by
  unfold Det.matchIntent at h ⊢
  rw [Prog.run_builtinCached_ok] at h ⊢
  obtain ⟨bs, hbs, h⟩ := h
  rw [Prog.run_custom_ok] at h
  obtain ⟨cs, hcs, h⟩ := h
  rw [Prog.run_ofOutcome] at h
  obtain ⟨hb1, bs', hbs', hb2⟩ := hm.builtin _ _ hbs
  obtain ⟨hc1, cs', hcs', hc2⟩ := hm.custom _ _ hcs
  have heq : (bs'.map BuiltinEntity.kindMatch).map (KindMatch.toMatched env.names) ++ cs'.map CustomEntity.toMatched
      = ((bs.map BuiltinEntity.kindMatch).map (KindMatch.toMatched env.names) ++ cs.map CustomEntity.toMatched).map
        (Inserted.mv x words) := by
    rw [List.map_append]
    congr 1
    · clear hbs hbs' hb1 h
      induction hb2 with
      | nil => rfl
      | @cons b b' _ _ hbb _ ih =>
        simp only [List.map_cons, ih, List.cons.injEq, and_true]
        simp only [BuiltinEntity.kindMatch, KindMatch.toMatched, Inserted.mv, hbb.1, hbb.2]
    · clear hcs hcs' hc1 h
      induction hc2 with
      | nil => rfl
      | @cons b b' _ _ hbb _ ih =>
        simp only [List.map_cons, ih, List.cons.injEq, and_true]
        simp only [CustomEntity.toMatched, Inserted.mv, hbb.1, hbb.2]
  refine ⟨bs', hbs', ?_⟩
  rw [Prog.run_custom_ok]
  refine ⟨cs', hcs', ?_⟩
  rw [Prog.run_ofOutcome, heq]
  obtain ⟨hl, hsm⟩ := hsm
  obtain ⟨h1, h2, h3⟩ := hsm s hs bs cs hbs hcs
  obtain ⟨hl', hsm'⟩ := hsm'
  obtain ⟨h1', h2', h3'⟩ := hsm' s hs bs' cs' hbs' hcs'
  have hsame : ∀ (bs : List BuiltinEntity) (cs : List CustomEntity),
      bs.map (fun b => (⟨b.range, env.names.identifier b.kind⟩ : MatchedEntity)) ++
        cs.map (fun c => ⟨c.range, c.identifier⟩) =
      (bs.map BuiltinEntity.kindMatch).map (KindMatch.toMatched env.names) ++ cs.map CustomEntity.toMatched := by
    intro bs cs
    rw [List.map_map]
    rfl
  rw [hsame] at h3 h3'
  rw [heq] at h3'
  have hne : ∀ e ∈ (bs.map BuiltinEntity.kindMatch).map (KindMatch.toMatched env.names) ++ cs.map CustomEntity.toMatched,
      e.range.NonEmpty ∧ e.range.stop ≤ x.short.length := by
    intro e he
    rw [List.mem_append, List.map_map, List.mem_map, List.mem_map] at he
    rcases he with ⟨b, hb, rfl⟩ | ⟨c, hc, rfl⟩
    · exact h1 b hb
    · exact h2 c hc
  refine matchWith_moved hw htok hap htr hstop ?_ hne ?_ hl hl' h3 h3' ?_ h
  · intro e he
    rw [List.mem_append, List.map_map, List.mem_map, List.mem_map] at he
    rcases he with ⟨b, hb, rfl⟩ | ⟨c, hc, rfl⟩
    · exact hb1 b hb
    · exact hc1 c hc
  · rw [← heq]
    intro e he
    rw [List.mem_append, List.map_map, List.mem_map, List.mem_map] at he
    rcases he with ⟨b, hb, rfl⟩ | ⟨c, hc, rfl⟩
    · exact h1' b hb
    · exact h2' c hc
  · intro shown patterns hshown hp r hr caps hcap i bytes hi hbytes
    have hraw : ∃ raw, p.preprocess env.fns x.short s.1 = .ok raw := by
      obtain ⟨z, hz, -⟩ := preprocess_spot htok hap p s.1 words hstop x
      exact ⟨_, hz⟩
    obtain ⟨raw, hraw⟩ := hraw
    refine hty s.1 raw shown _ patterns ⟨s.2.1, s.2.2, bs, cs,
      (replaceEntities x.short ((bs.map BuiltinEntity.kindMatch).map (KindMatch.toMatched env.names) ++
        cs.map CustomEntity.toMatched) (entityPlaceholder env.fns)).2,
      Map.get_of_mem hb.scopes_nodup hs, hbs, hcs, ?_, hraw, hshown⟩ hp r hr caps hcap i bytes hi hbytes
    rw [hsame, c17_no_overflow _ _ _ _ (fun e he => (hne e he).1) (fun e he => (hne e he).2) hl h3]

theorem top_moved (hw : cr.white ' ' = true) {env : RuleEnv} (htok : ∀ t, Tokenized t (env.fns.tokenize t))
    (hap : env.fns.TokensApart) {o : HashOrd} {p : Det} (hb : p.Built env.names) (htr : p.Trained cr) {w : World}
    (hm : w.SameMatches x words) (hsm : p.SmallQuery env w x.short) (hsm' : p.SmallQuery env w (x.long words))
    (hty : p.NoTypedPlaceholders env w x.short) {f : Option (List Text)} (hstop : p.AreStopWords env f words)
    {n : Nat} {top : List InternalResult} (h : (p.parseTopIntents env o x.short n f).run w = .ok top) :
    (p.parseTopIntents env o (x.long words) n f).run w = .ok (top.map (InternalResult.moved x words)) := by
  unfold Det.parseTopIntents at h ⊢
  rw [Prog.run_bind, Outcome.bind_ok] at h ⊢
  obtain ⟨rs, hrs, h⟩ := h
  rw [Prog.run_ret, Outcome.ok.injEq] at h
  refine ⟨rs.map (Option.map (InternalResult.moved x words)), ?_, ?_⟩
  · rw [Prog.run_mapM_ok] at hrs ⊢
    rw [List.forall₂_map_right_iff]
    have hall : ∀ s ∈ (o.order 0 p.scopes).filter (fun s => p.inIntentsSet f s.1), s ∈ p.scopes ∧ Permits f s.1 := by
      intro s hs
      rw [List.mem_filter, (o.perm 0 p.scopes).mem_iff] at hs
      exact ⟨hs.1, (inIntentsSet_iff hb f hs.1).1 hs.2⟩
    revert hall hrs
    generalize (o.order 0 p.scopes).filter (fun s => p.inIntentsSet f s.1) = l
    intro hrs hall
    clear h
    induction hrs with
    | nil => exact .nil
    | @cons s r l rs h1 _ ih =>
      refine .cons ?_ (ih fun s' hs' => hall s' (by simp [hs']))
      obtain ⟨ha, hp⟩ := hall s (by simp)
      exact intent_moved hw htok hap hb htr hm hsm hsm' hty ha (hstop s.1 (List.mem_map.2 ⟨s, ha, rfl⟩) hp) h1
  · rw [Prog.run_ret, filterMap_id_map, Inserted.rank_moved, h]

end InsertedPattern

end Snips
