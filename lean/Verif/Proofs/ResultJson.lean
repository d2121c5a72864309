import Verif.Model.ResultJson
import Verif.Spec.ResultJson
import Verif.Proofs.JsonWrite
import Verif.Proofs.Readers

/-! # Proofs about answers as JSON -/

namespace Snips

namespace JsonText

open JsonGrammar

/-! ## Texts without null characters -/

/-- No character is null. -/
def NoNull (t : Text) : Prop := ∀ c ∈ t, c ≠ '\x00'

theorem noNull_nil : NoNull [] := fun _ h => by cases h

theorem noNull_append {a b : Text} : NoNull (a ++ b) ↔ NoNull a ∧ NoNull b := by
  unfold NoNull
  simp only [List.mem_append]
  exact ⟨fun h => ⟨fun c hc => h c (Or.inl hc), fun c hc => h c (Or.inr hc)⟩,
    fun h c hc => hc.elim (h.1 c) (h.2 c)⟩

theorem noNull_cons {c : Char} {a : Text} : NoNull (c :: a) ↔ c ≠ '\x00' ∧ NoNull a := by
  unfold NoNull
  simp only [List.mem_cons, forall_eq_or_imp]

theorem ne_null_of_pos {c : Char} (h : 0 < c.toNat) : c ≠ '\x00' := by
  rintro rfl
  exact absurd h (by decide)

theorem noNull_ws {w : Text} (h : Ws w) : NoNull w := fun c hc => by
  rcases h c hc with h | h | h | h <;> exact ne_null_of_pos (by omega)

theorem noNull_digits {w : Text} (h : ∀ c ∈ w, Digit c) : NoNull w := fun c hc =>
  ne_null_of_pos (by have := (h c hc).1; omega)

theorem noNull_intPart {t : Text} (h : IntPart t) : NoNull t := by
  rcases h with rfl | h
  · exact noNull_cons.2 ⟨by decide, noNull_nil⟩
  · exact noNull_digits h.1.2

theorem noNull_sign {t : Text} {s : Int} (h : SignPart t s) : NoNull t := by
  cases h
  · exact noNull_nil
  · exact noNull_cons.2 ⟨by decide, noNull_nil⟩

theorem noNull_frac {t fs : Text} (h : FracPart t fs) : NoNull t := by
  cases h with
  | none => exact noNull_nil
  | some _ h => exact noNull_cons.2 ⟨by decide, noNull_digits h.2⟩

theorem noNull_exp {t : Text} {e : Int} (h : ExpPart t e) : NoNull t := by
  have he : ∀ {e : Char}, e = 'e' ∨ e = 'E' → e ≠ '\x00' := by
    rintro e (rfl | rfl) <;> decide
  cases h with
  | none => exact noNull_nil
  | plain _ _ h1 h2 => exact noNull_cons.2 ⟨he h1, noNull_digits h2.2⟩
  | plus _ _ h1 h2 => exact noNull_cons.2 ⟨he h1, noNull_cons.2 ⟨by decide, noNull_digits h2.2⟩⟩
  | minus _ _ h1 h2 => exact noNull_cons.2 ⟨he h1, noNull_cons.2 ⟨by decide, noNull_digits h2.2⟩⟩

theorem noNull_number {f64 : ℚ → Option ℚ} {t : Text} {j : Json} (h : Number f64 t j) : NoNull t := by
  cases h with
  | int _ _ _ h1 h2 => exact noNull_append.2 ⟨noNull_sign h1, noNull_intPart h2⟩
  | big _ _ _ _ h1 h2 => exact noNull_append.2 ⟨noNull_sign h1, noNull_intPart h2⟩
  | float _ _ _ _ _ _ _ _ h1 h2 h3 h4 =>
    exact noNull_append.2 ⟨noNull_append.2 ⟨noNull_append.2 ⟨noNull_sign h1, noNull_intPart h2⟩, noNull_frac h3⟩,
      noNull_exp h4⟩

theorem noNull_hex {c : Char} {n : Nat} (h : Hex c n) : c ≠ '\x00' := by
  cases h <;> exact ne_null_of_pos (by omega)

theorem noNull_hex4 {t : Text} {n : Nat} (h : Hex4 t n) : NoNull t := by
  obtain ⟨a, b, c, d, i, j, k, l, ha, hb, hc, hd⟩ := h
  exact noNull_cons.2 ⟨noNull_hex ha, noNull_cons.2 ⟨noNull_hex hb, noNull_cons.2 ⟨noNull_hex hc,
    noNull_cons.2 ⟨noNull_hex hd, noNull_nil⟩⟩⟩⟩

theorem noNull_stringChar {t : Text} {c : Char} (h : StringChar t c) : NoNull t := by
  cases h with
  | plain _ h1 => exact noNull_cons.2 ⟨ne_null_of_pos (by omega), noNull_nil⟩
  | unicode _ _ h => exact noNull_cons.2 ⟨by decide, noNull_cons.2 ⟨by decide, noNull_hex4 h⟩⟩
  | pair _ _ _ _ _ h1 h2 =>
    exact noNull_append.2 ⟨noNull_cons.2 ⟨by decide, noNull_cons.2 ⟨by decide, noNull_hex4 h1⟩⟩,
      noNull_cons.2 ⟨by decide, noNull_cons.2 ⟨by decide, noNull_hex4 h2⟩⟩⟩
  | _ => exact noNull_cons.2 ⟨by decide, noNull_cons.2 ⟨by decide, noNull_nil⟩⟩

theorem noNull_chars {t s : Text} (h : Chars t s) : NoNull t := by
  induction h with
  | nil => exact noNull_nil
  | cons _ _ _ _ h _ ih => exact noNull_append.2 ⟨noNull_stringChar h, ih⟩

theorem noNull_str {t s : Text} (h : Str t s) : NoNull t := by
  obtain ⟨b, s, h⟩ := h
  exact noNull_append.2 ⟨noNull_cons.2 ⟨by decide, noNull_chars h⟩, noNull_cons.2 ⟨by decide, noNull_nil⟩⟩

theorem noNull_between {o c : Char} {t : Text} (ho : o ≠ '\x00') (hc : c ≠ '\x00') (h : NoNull t) :
    NoNull (o :: t ++ [c]) := noNull_append.2 ⟨noNull_cons.2 ⟨ho, h⟩, noNull_cons.2 ⟨hc, noNull_nil⟩⟩

/-- A JSON text has no null character. -/
theorem noNull_value {f64 : ℚ → Option ℚ} {d : Nat} {t : Text} {j : Json} (h : Value f64 d t j) : NoNull t := by
  refine Value.rec (f64 := f64) (motive_1 := fun _ t _ _ => NoNull t)
    (motive_2 := fun _ t _ _ => NoNull t) (motive_3 := fun _ t _ _ => NoNull t)
    ?_ ?_ ?_ ?_ ?_ ?_ ?_ ?_ ?_ ?_ ?_ ?_ ?_ h
  · intro d; unfold NoNull; decide
  · intro d; unfold NoNull; decide
  · intro d; unfold NoNull; decide
  · exact fun d t j h => noNull_number h
  · exact fun d t s h => noNull_str h
  · exact fun d w h => noNull_between (by decide) (by decide) (noNull_ws h)
  · exact fun d t l _ ih => noNull_between (by decide) (by decide) ih
  · exact fun d w h => noNull_between (by decide) (by decide) (noNull_ws h)
  · exact fun d t l _ ih => noNull_between (by decide) (by decide) ih
  · exact fun d w t w' j hw _ hw' ih => noNull_append.2 ⟨noNull_append.2 ⟨noNull_ws hw, ih⟩, noNull_ws hw'⟩
  · exact fun d w t w' ts j l hw _ hw' _ ih ih' =>
      noNull_append.2 ⟨noNull_append.2 ⟨noNull_append.2 ⟨noNull_ws hw, ih⟩, noNull_ws hw'⟩,
        noNull_cons.2 ⟨by decide, ih'⟩⟩
  · intro d w k w₁ w₂ t w' key j hw hk h1 h2 _ hw' ih
    simp only [noNull_append, noNull_cons]
    exact ⟨⟨⟨⟨⟨noNull_ws hw, noNull_str hk⟩, noNull_ws h1⟩, ⟨by decide, noNull_ws h2⟩⟩, ih⟩, noNull_ws hw'⟩
  · intro d w k w₁ w₂ t w' key ts j l hw hk h1 h2 _ hw' _ ih ih'
    simp only [noNull_append, noNull_cons]
    exact ⟨⟨⟨⟨⟨⟨noNull_ws hw, noNull_str hk⟩, noNull_ws h1⟩, ⟨by decide, noNull_ws h2⟩⟩, ih⟩, noNull_ws hw'⟩,
      ⟨by decide, ih'⟩⟩

end JsonText

/-! ## The documents can be written -/

namespace ResultJson

open JsonGrammar Shown

variable {w : Writing} {meaning : Nat → OValue}

/-- Writing of numbers as the writer has it. -/
def numbers (w : Writing) : JsonNumbers := ⟨w.f64, w.textOf⟩

theorem writable_record {d : Nat} {l : List (String × Json)} (h : ∀ e ∈ l, Writable w.f64 w.textOf d e.2) :
    Writable w.f64 w.textOf (d + 1) (record l) := by
  refine Writable.obj d _ fun e he => ?_
  obtain ⟨e', he', rfl⟩ := List.mem_map.1 he
  exact h e' he'

theorem writable_optText {d : Nat} (t : Option Text) : Writable w.f64 w.textOf d (optText t) := by
  cases t
  · exact Writable.null d
  · exact Writable.str d _

theorem writable_grain {d : Nat} (g : TimeGrain) : Writable w.f64 w.textOf d (grain g) := by
  cases g <;> exact Writable.str d _

theorem writable_precision {d : Nat} (p : ValuePrecision) : Writable w.f64 w.textOf d (precision p) := by
  cases p <;> exact Writable.str d _

theorem writable_i64 {d : Nat} {n : Int} (h : I64 n) : Writable w.f64 w.textOf d (.int n) :=
  Writable.int d n h.1 (lt_trans h.2 (by norm_num))

theorem writable_nat {d : Nat} {n : Nat} (h : n < 2 ^ 64) : Writable w.f64 w.textOf d (.int n) :=
  Writable.int d n (by have : (0 : Int) ≤ n := Int.natCast_nonneg n; norm_num) (by exact_mod_cast h)

theorem writable_value {d : Nat} {v : OValue} (h : w.WritesValue v) :
    Writable w.f64 w.textOf (d + 1) (value w.widen v) := by
  have hs : ∀ t, Writable w.f64 w.textOf d (.str t) := fun t => Writable.str d t
  cases v <;> refine writable_record ?_ <;> simp only [List.mem_cons, List.not_mem_nil, or_false, forall_eq_or_imp,
    forall_eq, hs, true_and, writable_optText, writable_grain, writable_precision, and_true]
  · exact Writable.float d _ h
  · exact writable_i64 h
  · exact Writable.float d _ h.1
  · exact Writable.float d _ h.1
  · obtain ⟨h1, h2, h3, h4, h5, h6, h7, h8⟩ := h
    exact ⟨writable_i64 h1, writable_i64 h2, writable_i64 h3, writable_i64 h4, writable_i64 h5, writable_i64 h6,
      writable_i64 h7, writable_i64 h8⟩
  · exact Writable.float d _ h

theorem writable_list {α : Type} {d : Nat} {f : α → Json} {l : List α} (h : ∀ a ∈ l, Writable w.f64 w.textOf d (f a)) :
    Writable w.f64 w.textOf (d + 1) (.arr (l.map f)) := by
  refine Writable.arr d _ fun j hj => ?_
  obtain ⟨a, ha, rfl⟩ := List.mem_map.1 hj
  exact h a ha

theorem writable_slot {d : Nat} {s : Slot} (h : w.WritesSlot meaning s) :
    Writable w.f64 w.textOf (d + 3) (slot w.widen meaning s) := by
  obtain ⟨h1, h2, h3, h4⟩ := h
  have hs : ∀ t, Writable w.f64 w.textOf (d + 2) (.str t) := fun t => Writable.str _ t
  refine writable_record ?_
  simp only [List.mem_cons, List.not_mem_nil, or_false, forall_eq_or_imp, forall_eq, hs, true_and, and_true]
  refine ⟨writable_value h1, writable_list fun v hv => writable_value (h2 v hv), writable_record ?_⟩
  simp only [List.mem_cons, List.not_mem_nil, or_false, forall_eq_or_imp, forall_eq]
  exact ⟨writable_nat h3, writable_nat h4⟩

theorem writable_intent {d : Nat} {r : IntentResult} (h : w.Writes32 r.score) :
    Writable w.f64 w.textOf (d + 1) (intent w.widen r) := by
  refine writable_record ?_
  simp only [List.mem_cons, List.not_mem_nil, or_false, forall_eq_or_imp, forall_eq]
  exact ⟨writable_optText _, Writable.float _ _ h.1⟩

theorem writable_alternative {d : Nat} {a : Alternative}
    (h : w.Writes32 a.intent.score ∧ ∀ s ∈ a.slots, w.WritesSlot meaning s) :
    Writable w.f64 w.textOf (d + 5) (alternative w.widen meaning a) := by
  refine writable_record ?_
  simp only [List.mem_cons, List.not_mem_nil, or_false, forall_eq_or_imp, forall_eq]
  exact ⟨writable_intent h.1, writable_list fun s hs => writable_slot (h.2 s hs)⟩

theorem writable_result {d : Nat} {r : ParseResult} (h : w.WritesResult meaning r) :
    Writable w.f64 w.textOf (d + 7) (result w.widen meaning r) := by
  obtain ⟨h1, h2, h3⟩ := h
  refine writable_record ?_
  simp only [List.mem_cons, List.not_mem_nil, or_false, forall_eq_or_imp, forall_eq]
  exact ⟨Writable.str _ _, writable_intent h1, writable_list fun s hs => writable_slot (h2 s hs),
    writable_list fun a ha => writable_alternative (h3 a ha)⟩

/-! ## They show the answers -/

theorem entry_record (k k' : String) (j : Json) (l : List (String × Json)) :
    (record ((k', j) :: l)).entry k = if k = k' then some j else (record l).entry k := by
  unfold record Json.entry
  simp only [List.map_cons, List.lookup_cons]
  by_cases h : k = k'
  · subst h
    simp
  · have : (k.toList == k'.toList) = false := by simp [String.toList_inj, h]
    rw [this, if_neg h]

theorem maybe_optText {j : Json} {k : String} {t : Option Text} (h : j.entry k = some (optText t)) : Maybe j k t := by
  cases t <;> exact h

theorem grain_name (g : TimeGrain) : ∃ n, GrainName g n ∧ grain g = .str n.toList := by
  cases g
  exacts [⟨_, .year, rfl⟩, ⟨_, .quarter, rfl⟩, ⟨_, .month, rfl⟩, ⟨_, .week, rfl⟩, ⟨_, .day, rfl⟩, ⟨_, .hour, rfl⟩,
    ⟨_, .minute, rfl⟩, ⟨_, .second, rfl⟩]

theorem precision_name (p : ValuePrecision) : ∃ n, PrecisionName p n ∧ precision p = .str n.toList := by
  cases p
  exacts [⟨_, .approximate, rfl⟩, ⟨_, .exact, rfl⟩]

/-- Looks up an entry of a record. -/
local macro "shows" : tactic => `(tactic| simp [ResultJson.value, ResultJson.slot, ResultJson.intent, ResultJson.range,
  ResultJson.alternative, ResultJson.result, Shown.Word, Shown.Text', Shown.Int', Shown.Double, entry_record])

theorem shown_value {v : OValue} (h : w.WritesValue v) : Value w.rd (value w.widen v) v := by
  cases v with
  | custom t => exact .custom t (by shows) (by shows)
  | number x => exact .number x (by shows) (by shows)
  | ordinal n => exact .ordinal n (by shows) (by shows)
  | instantTime t g p =>
    obtain ⟨gn, hg, eg⟩ := grain_name g
    obtain ⟨pn, hp, ep⟩ := precision_name p
    refine .instantTime t g gn p pn (by shows) (by shows) hg ?_ hp ?_
    · shows; exact eg
    · shows; exact ep
  | timeInterval a b => exact .timeInterval a b (by shows) (maybe_optText (by shows)) (maybe_optText (by shows))
  | amountOfMoney x p u =>
    obtain ⟨pn, hp, ep⟩ := precision_name p
    exact .amountOfMoney x p pn u (by shows) ⟨_, (by shows), h.2⟩ hp (by shows; exact ep) (maybe_optText (by shows))
  | temperature x u => exact .temperature x u (by shows) ⟨_, (by shows), h.2⟩ (maybe_optText (by shows))
  | duration d p =>
    obtain ⟨pn, hp, ep⟩ := precision_name p
    exact .duration d p pn (by shows) (by shows) (by shows) (by shows) (by shows) (by shows) (by shows) (by shows) (by shows) hp (by shows; exact ep)
  | percentage x => exact .percentage x (by shows) (by shows)
  | musicAlbum t => exact .musicAlbum t (by shows) (by shows)
  | musicArtist t => exact .musicArtist t (by shows) (by shows)
  | musicTrack t => exact .musicTrack t (by shows) (by shows)
  | city t => exact .city t (by shows) (by shows)
  | country t => exact .country t (by shows) (by shows)
  | region t => exact .region t (by shows) (by shows)

theorem forall₂_map {α : Type} {P : Json → α → Prop} {f : α → Json} {l : List α} (h : ∀ a ∈ l, P (f a) a) :
    List.Forall₂ P (l.map f) l := by
  rw [List.forall₂_map_left_iff]
  exact List.forall₂_same.2 h

theorem shown_slot {s : Slot} (h : w.WritesSlot meaning s) : Slot' w.rd meaning (slot w.widen meaning s) s where
  rawValue := (by shows)
  value := ⟨_, (by shows), shown_value h.1⟩
  alternatives := ⟨_, (by shows), forall₂_map fun v hv => shown_value (h.2.1 v hv)⟩
  range := ⟨ResultJson.range s.range, (by shows), (by shows), (by shows)⟩
  entity := (by shows)
  slotName := (by shows)

theorem shown_intent {r : IntentResult} (h : w.Writes32 r.score) : Intent w.rd (intent w.widen r) r where
  name := maybe_optText (by shows)
  score := ⟨_, (by shows), h.2⟩

theorem shown_alternative {a : Alternative} (h : w.Writes32 a.intent.score ∧ ∀ s ∈ a.slots, w.WritesSlot meaning s) :
    Alternative' w.rd meaning (alternative w.widen meaning a) a where
  intent := ⟨_, (by shows), shown_intent h.1⟩
  slots := ⟨_, (by shows), forall₂_map fun s hs => shown_slot (h.2 s hs)⟩

theorem shown_result {r : ParseResult} (h : w.WritesResult meaning r) :
    Result w.rd meaning (result w.widen meaning r) r where
  input := (by shows)
  intent := ⟨_, (by shows), shown_intent h.1⟩
  slots := ⟨_, (by shows), forall₂_map fun s hs => shown_slot (h.2.1 s hs)⟩
  alternatives := ⟨_, (by shows), forall₂_map fun a ha => shown_alternative (h.2.2 a ha)⟩

/-! ## What is shown is determined -/

theorem single_unique {rd : Rounding} {j : Json} {k : String} {q q' : ℚ} (h : Single rd j k q) (h' : Single rd j k q') :
    q = q' := by
  obtain ⟨x, hx, rfl⟩ := h
  obtain ⟨y, hy, rfl⟩ := h'
  rw [hx] at hy
  cases hy
  rfl

theorem maybe_unique {j : Json} {k : String} {t t' : Option Text} (h : Maybe j k t) (h' : Maybe j k t') : t = t' := by
  cases t <;> cases t' <;> unfold Maybe at h h' <;> rw [h] at h' <;> cases h' <;> rfl

theorem word_unique {j : Json} {k a b : String} (h : Word j k a) (h' : Word j k b) : a = b := by
  unfold Word at h h'
  rw [h] at h'
  simpa [String.toList_inj] using h'

theorem text_unique {j : Json} {k : String} {a b : Text} (h : Text' j k a) (h' : Text' j k b) : a = b := by
  unfold Text' at h h'
  rw [h] at h'
  simpa using h'

theorem int_unique {j : Json} {k : String} {a b : Int} (h : Int' j k a) (h' : Int' j k b) : a = b := by
  unfold Int' at h h'
  rw [h] at h'
  simpa using h'

theorem double_unique {j : Json} {k : String} {a b : ℚ} (h : Double j k a) (h' : Double j k b) : a = b := by
  unfold Double at h h'
  rw [h] at h'
  simpa using h'

theorem grain_unique {g g' : TimeGrain} {n : String} (h : GrainName g n) (h' : GrainName g' n) : g = g' := by
  generalize e : n = m at h'
  cases h <;> cases h' <;> first | rfl | exact absurd e (by decide)

theorem precision_unique {p p' : ValuePrecision} {n : String} (h : PrecisionName p n) (h' : PrecisionName p' n) :
    p = p' := by
  generalize e : n = m at h'
  cases h <;> cases h' <;> first | rfl | exact absurd e (by decide)

/-- The name of the kind of a value. -/
def kindOf : OValue → String
  | .custom _ => "Custom"
  | .number _ => "Number"
  | .ordinal _ => "Ordinal"
  | .instantTime .. => "InstantTime"
  | .timeInterval .. => "TimeInterval"
  | .amountOfMoney .. => "AmountOfMoney"
  | .temperature .. => "Temperature"
  | .duration .. => "Duration"
  | .percentage _ => "Percentage"
  | .musicAlbum _ => "MusicAlbum"
  | .musicArtist _ => "MusicArtist"
  | .musicTrack _ => "MusicTrack"
  | .city _ => "City"
  | .country _ => "Country"
  | .region _ => "Region"

theorem shown_kind {rd : Rounding} {j : Json} {v : OValue} (h : Value rd j v) : Word j "kind" (kindOf v) := by
  cases h <;> assumption

theorem value_unique {rd : Rounding} {j : Json} {v v' : OValue} (h : Value rd j v) (h' : Value rd j v') : v = v' := by
  have hk : kindOf v = kindOf v' := word_unique (shown_kind h) (shown_kind h')
  cases h with
  | custom t _ a => cases h' with
    | custom t' _ b => rw [text_unique a b]
    | _ => exact absurd hk (by simp [kindOf])
  | number t _ a => cases h' with
    | number t' _ b => rw [double_unique a b]
    | _ => exact absurd hk (by simp [kindOf])
  | ordinal t _ a => cases h' with
    | ordinal t' _ b => rw [int_unique a b]
    | _ => exact absurd hk (by simp [kindOf])
  | instantTime t g gn p pn _ a b c d e => cases h' with
    | instantTime t' g' gn' p' pn' _ a' b' c' d' e' =>
      obtain rfl := word_unique c c'
      obtain rfl := word_unique e e'
      rw [text_unique a a', grain_unique b b', precision_unique d d']
    | _ => exact absurd hk (by simp [kindOf])
  | timeInterval x y _ a b => cases h' with
    | timeInterval x' y' _ a' b' => rw [maybe_unique a a', maybe_unique b b']
    | _ => exact absurd hk (by simp [kindOf])
  | amountOfMoney x p pn u _ a b c d => cases h' with
    | amountOfMoney x' p' pn' u' _ a' b' c' d' =>
      obtain rfl := word_unique c c'
      rw [single_unique a a', precision_unique b b', maybe_unique d d']
    | _ => exact absurd hk (by simp [kindOf])
  | temperature x u _ a b => cases h' with
    | temperature x' u' _ a' b' => rw [single_unique a a', maybe_unique b b']
    | _ => exact absurd hk (by simp [kindOf])
  | duration d p pn _ a b c e f g i k l m => cases h' with
    | duration d' p' pn' _ a' b' c' e' f' g' i' k' l' m' =>
      obtain rfl := word_unique m m'
      obtain rfl := precision_unique l l'
      have : d = d' := by
        cases d
        cases d'
        simp only [DurationParts.mk.injEq]
        exact ⟨int_unique a a', int_unique b b', int_unique c c', int_unique e e', int_unique f f', int_unique g g',
          int_unique i i', int_unique k k'⟩
      rw [this]
    | _ => exact absurd hk (by simp [kindOf])
  | percentage t _ a => cases h' with
    | percentage t' _ b => rw [double_unique a b]
    | _ => exact absurd hk (by simp [kindOf])
  | musicAlbum t _ a => cases h' with
    | musicAlbum t' _ b => rw [text_unique a b]
    | _ => exact absurd hk (by simp [kindOf])
  | musicArtist t _ a => cases h' with
    | musicArtist t' _ b => rw [text_unique a b]
    | _ => exact absurd hk (by simp [kindOf])
  | musicTrack t _ a => cases h' with
    | musicTrack t' _ b => rw [text_unique a b]
    | _ => exact absurd hk (by simp [kindOf])
  | city t _ a => cases h' with
    | city t' _ b => rw [text_unique a b]
    | _ => exact absurd hk (by simp [kindOf])
  | country t _ a => cases h' with
    | country t' _ b => rw [text_unique a b]
    | _ => exact absurd hk (by simp [kindOf])
  | region t _ a => cases h' with
    | region t' _ b => rw [text_unique a b]
    | _ => exact absurd hk (by simp [kindOf])

theorem forall₂_unique {α : Type} {P : Json → α → Prop} (hu : ∀ j a b, P j a → P j b → a = b) :
    ∀ {js : List Json} {l l' : List α}, List.Forall₂ P js l → List.Forall₂ P js l' → l = l'
  | _, _, _, .nil, .nil => rfl
  | _, _, _, .cons h t, .cons h' t' => by rw [hu _ _ _ h h', forall₂_unique hu t t']

theorem many_unique {α : Type} {P : Json → α → Prop} (hu : ∀ j a b, P j a → P j b → a = b) {j : Json} {k : String}
    {l l' : List α} (h : Many P j k l) (h' : Many P j k l') : l = l' := by
  obtain ⟨js, e, f⟩ := h
  obtain ⟨js', e', f'⟩ := h'
  rw [e] at e'
  cases e'
  exact forall₂_unique hu f f'

theorem entry_unique {α : Type} {P : Json → α → Prop} (hu : ∀ j a b, P j a → P j b → a = b) {j : Json} {k : String}
    {a b : α} (h : ∃ i, j.entry k = some i ∧ P i a) (h' : ∃ i, j.entry k = some i ∧ P i b) : a = b := by
  obtain ⟨i, e, f⟩ := h
  obtain ⟨i', e', f'⟩ := h'
  rw [e] at e'
  cases e'
  exact hu _ _ _ f f'

theorem slot_unique {rd : Rounding} (hm : Function.Injective (SlotValue.meant meaning)) (j : Json) (s s' : Slot)
    (h : Slot' rd meaning j s) (h' : Slot' rd meaning j s') : s = s' := by
  have hv : ∀ (j : Json) (a b : SlotValue), Value rd j (a.meant meaning) → Value rd j (b.meant meaning) → a = b :=
    fun j a b h h' => hm (value_unique h h')
  have hr : s.range = s'.range := entry_unique (P := fun r (x : Rng) => Int' r "start" x.start ∧ Int' r "end" x.stop)
    (fun j a b h h' => by
      have h1 := int_unique h.1 h'.1
      have h2 := int_unique h.2 h'.2
      cases a
      cases b
      simp only [Rng.mk.injEq]
      exact ⟨by exact_mod_cast h1, by exact_mod_cast h2⟩) h.range h'.range
  have h1 := text_unique h.rawValue h'.rawValue
  have h2 := entry_unique (P := fun v (x : SlotValue) => Value rd v (x.meant meaning)) hv h.value h'.value
  have h3 := many_unique hv h.alternatives h'.alternatives
  have h4 := text_unique h.entity h'.entity
  have h5 := text_unique h.slotName h'.slotName
  cases s
  cases s'
  simp_all

theorem intent_unique {rd : Rounding} (j : Json) (r r' : IntentResult) (h : Intent rd j r) (h' : Intent rd j r') :
    r = r' := by
  have h1 := maybe_unique h.name h'.name
  have h2 := single_unique h.score h'.score
  cases r
  cases r'
  simp_all

theorem alternative_unique {rd : Rounding} (hm : Function.Injective (SlotValue.meant meaning)) (j : Json)
    (a a' : Alternative) (h : Alternative' rd meaning j a) (h' : Alternative' rd meaning j a') : a = a' := by
  have h1 := entry_unique intent_unique h.intent h'.intent
  have h2 := many_unique (slot_unique hm) h.slots h'.slots
  cases a
  cases a'
  simp_all

theorem result_unique {rd : Rounding} (hm : Function.Injective (SlotValue.meant meaning)) (j : Json)
    (r r' : ParseResult) (h : Result rd meaning j r) (h' : Result rd meaning j r') : r = r' := by
  have h1 := text_unique h.input h'.input
  have h2 := entry_unique intent_unique h.intent h'.intent
  have h3 := many_unique (slot_unique hm) h.slots h'.slots
  have h4 := many_unique (alternative_unique hm) h.alternatives h'.alternatives
  cases r
  cases r'
  simp_all

/-! ## The bytes -/

theorem document_write {j : Json} (h : Writable w.f64 w.textOf 127 j) :
    Document w.f64 127 (JsonText.write (numbers w) j) j := by
  have := Document.mk (f64 := w.f64) (d := 127) [] _ [] j JsonText.ws_nil (JsonText.write_grammar (env := numbers w) h)
    JsonText.ws_nil
  simpa using this

theorem noNull_document {f64 : ℚ → Option ℚ} {d : Nat} {t : Text} {j : Json} (h : Document f64 d t j) : '\x00' ∉ t := by
  obtain ⟨a, t, b, j, h1, h2, h3⟩ := h
  intro hm
  exact JsonText.noNull_append.2 ⟨JsonText.noNull_append.2 ⟨JsonText.noNull_ws h1, JsonText.noNull_value h2⟩,
    JsonText.noNull_ws h3⟩ _ hm rfl

theorem zero_notMem_bytes {f64 : ℚ → Option ℚ} {d : Nat} {t : Text} {j : Json} (h : Document f64 d t j) :
    0 ∉ encodeUtf8 t := encode_no_byte (d := '\x00') (by decide) (noNull_document h)

end ResultJson

end Snips
