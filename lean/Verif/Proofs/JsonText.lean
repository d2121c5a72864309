import Verif.Model.JsonText
import Verif.Spec.JsonText
import Verif.Proofs.Readers
import Mathlib.Tactic.Ring
import Mathlib.Tactic.FieldSimp
import Mathlib.Tactic.NormNum

/-! # Lemmas about JSON texts: whitespace, numbers and strings -/

namespace Snips

namespace JsonText

open JsonGrammar

theorem char_eq_iff {c d : Char} : c = d ↔ c.toNat = d.toNat := by
  constructor
  · rintro rfl; rfl
  · intro h
    exact Char.ext (UInt32.toNat.inj h)

theorem char_le_iff {c d : Char} : c ≤ d ↔ c.toNat ≤ d.toNat := by
  rw [Char.le_def, UInt32.le_iff_toNat_le]; rfl

/-! ## Whitespace -/

theorem isSpace_iff {c : Char} :
    isSpace c = true ↔ c.toNat = 0x20 ∨ c.toNat = 0x09 ∨ c.toNat = 0x0A ∨ c.toNat = 0x0D := by
  simp only [isSpace, Bool.or_eq_true, decide_eq_true_eq, char_eq_iff]
  simp only [show ' '.toNat = 0x20 from rfl, show '\n'.toNat = 0x0A from rfl, show '\t'.toNat = 0x09 from rfl,
    show '\r'.toNat = 0x0D from rfl]
  tauto

theorem ws_iff {t : Text} : Ws t ↔ ∀ c ∈ t, isSpace c = true := by simp only [Ws, isSpace_iff]

/-- A text whose first character, if any, is not whitespace. -/
def NoSpace (t : Text) : Prop := ∀ c, t.head? = some c → isSpace c = false

theorem skip_ws {w t : Text} (hw : Ws w) (ht : NoSpace t) : skip (w ++ t) = t := by
  rw [ws_iff] at hw
  induction w with
  | nil =>
    cases t with
    | nil => rfl
    | cons c t =>
      have := ht c rfl
      simp [skip, List.dropWhile, this]
  | cons c w ih =>
    have h := hw c (by simp)
    have := ih fun c hc => hw c (by simp [hc])
    simpa [skip, List.dropWhile, h] using this

theorem skip_spec (t : Text) : ∃ w, Ws w ∧ t = w ++ skip t := by
  refine ⟨t.takeWhile isSpace, ?_, List.takeWhile_append_dropWhile.symm⟩
  rw [ws_iff]
  intro c hc
  exact List.mem_takeWhile_imp hc

theorem noSpace_skip (t : Text) : NoSpace (skip t) := by
  intro c hc
  have := List.head?_dropWhile_not isSpace t
  unfold skip at hc
  rw [hc] at this
  simpa using this

theorem noSpace_nil : NoSpace [] := by intro c hc; cases hc

theorem noSpace_cons {c : Char} {t : Text} (h : isSpace c = false) : NoSpace (c :: t) := by
  intro d hd
  cases hd
  exact h

theorem ws_nil : Ws [] := by intro c hc; cases hc

/-! ## Digits -/

theorem isDigit_iff {c : Char} : isDigit c = true ↔ Digit c := by
  simp only [isDigit, decide_eq_true_eq, Digit, char_le_iff]; rfl

theorem digitsValue_foldl (ds : Text) (n : Nat) :
    ds.foldl (fun n c => n * 10 + (c.toNat - 48)) n = n * 10 ^ ds.length + decimal ds := by
  induction ds generalizing n with
  | nil => simp [decimal, Nat.ofDigits]
  | cons c ds ih =>
    rw [List.foldl_cons, ih]
    simp only [decimal, List.reverse_cons, List.map_append, List.map_cons, List.map_nil, Nat.ofDigits_append,
      List.length_map, List.length_reverse, Nat.ofDigits_singleton, List.length_cons]
    ring

theorem digitsValue_eq (ds : Text) : digitsValue ds = decimal ds := by
  simp [digitsValue, digitsValue_foldl]

theorem decimal_append (s t : Text) : decimal (s ++ t) = decimal s * 10 ^ t.length + decimal t := by
  simp only [decimal, List.reverse_append, List.map_append, Nat.ofDigits_append, List.length_map, List.length_reverse]
  ring

/-- A text whose first character, if any, is not a digit. -/
def NoDigit (t : Text) : Prop := ∀ c, t.head? = some c → isDigit c = false

theorem digits_append {ds rest : Text} (hd : ∀ c ∈ ds, Digit c) (hr : NoDigit rest) : digits (ds ++ rest) = (ds, rest) := by
  induction ds with
  | nil =>
    cases rest with
    | nil => rfl
    | cons c rest =>
      have := hr c rfl
      simp [digits, List.takeWhile, List.dropWhile, this]
  | cons c ds ih =>
    have hc := isDigit_iff.2 (hd c (by simp))
    have := ih fun c hc => hd c (by simp [hc])
    simp only [digits, Prod.mk.injEq] at this
    simp [digits, List.takeWhile, List.dropWhile, hc, this]

theorem digits_spec (t : Text) : t = (digits t).1 ++ (digits t).2 ∧ (∀ c ∈ (digits t).1, Digit c) :=
  ⟨List.takeWhile_append_dropWhile.symm, fun _ hc => isDigit_iff.1 (List.mem_takeWhile_imp hc)⟩

/-! ## Numbers -/

theorem integerPart_sound {t int rest : Text} (h : integerPart t = some (int, rest)) : t = int ++ rest ∧ IntPart int := by
  unfold integerPart at h
  cases t with
  | nil => simp at h
  | cons c t =>
    simp only at h
    by_cases hc : c = '0'
    · subst hc
      rw [if_pos rfl] at h
      cases t with
      | nil => simp at h; obtain ⟨rfl, rfl⟩ := h; exact ⟨rfl, Or.inl rfl⟩
      | cons d t =>
        simp only at h
        by_cases hd : isDigit d = true
        · rw [if_pos hd] at h; cases h
        · rw [if_neg hd] at h
          cases h
          exact ⟨rfl, Or.inl rfl⟩
    · rw [if_neg hc] at h
      by_cases hd : isDigit c = true
      · rw [if_pos hd] at h
        have hs := digits_spec (c :: t)
        simp only [Option.some.injEq] at h
        rw [h] at hs
        refine ⟨hs.1, Or.inr ⟨⟨?_, hs.2⟩, ?_⟩⟩
        · have : int = (digits (c :: t)).1 := by rw [h]
          rw [this]
          simp [digits, List.takeWhile, hd]
        · have : int = (digits (c :: t)).1 := by rw [h]
          rw [this]
          simp [digits, List.takeWhile, hd, hc]
      · rw [if_neg hd] at h; cases h

theorem integerPart_complete {int rest : Text} (h : IntPart int) (hr : NoDigit rest) :
    integerPart (int ++ rest) = some (int, rest) := by
  rcases h with rfl | ⟨⟨hne, hd⟩, h0⟩
  · cases rest with
    | nil => rfl
    | cons d rest =>
      have := hr d rfl
      simp [integerPart, this]
  · have hda := digits_append hd hr
    cases int with
    | nil => exact absurd rfl hne
    | cons c int =>
      have hc : c ≠ '0' := fun hc => h0 (by rw [hc]; rfl)
      have hdc := isDigit_iff.2 (hd c (by simp))
      rw [List.cons_append] at hda ⊢
      simp [integerPart, hc, hdc, hda]

theorem fractionPart_sound {t rest : Text} {fo : Option Text} (h : fractionPart t = some (fo, rest)) :
    ∃ frac, t = frac ++ rest ∧ FracPart frac (fo.getD []) ∧ (fo = none ↔ frac = []) := by
  unfold fractionPart at h
  split at h
  · rename_i r
    by_cases hd : (digits r).1 = []
    · rw [if_pos hd] at h; cases h
    · rw [if_neg hd] at h
      cases h
      refine ⟨'.' :: (digits r).1, ?_, ?_, by simp⟩
      · rw [List.cons_append, ← (digits_spec r).1]
      · exact FracPart.some _ ⟨hd, (digits_spec r).2⟩
  · cases h
    exact ⟨[], rfl, FracPart.none, by simp⟩

/-- What does not go on with a number. -/
def Stops (t : Text) : Prop := ∀ c, t.head? = some c → isDigit c = false ∧ c ≠ '.' ∧ c ≠ 'e' ∧ c ≠ 'E'

theorem Stops.noDigit {t : Text} (h : Stops t) : NoDigit t := fun c hc => (h c hc).1

theorem fractionPart_complete {frac fs rest : Text} (h : FracPart frac fs) (hr : NoDigit rest)
    (hp : frac = [] → rest.head? ≠ some '.') :
    fractionPart (frac ++ rest) = some (if frac = [] then none else some fs, rest) := by
  cases h with
  | none =>
    have := hp rfl
    rw [List.nil_append, if_pos rfl]
    unfold fractionPart
    split
    · simp at this
    · rfl
  | some ds hd =>
    have hda := digits_append hd.2 hr
    simp [fractionPart, hda, hd.1]

theorem exponentPart_sound {t rest : Text} {eo : Option (Bool × Text)} (h : exponentPart t = some (eo, rest)) :
    ∃ exp e, t = exp ++ rest ∧ ExpPart exp e ∧ (eo = none ↔ exp = []) ∧
      (∀ s ds, eo = some (s, ds) → e = (if s then -(decimal ds : Int) else decimal ds)) := by
  unfold exponentPart at h
  split at h
  · cases h
    exact ⟨[], 0, rfl, ExpPart.none, by simp, by simp⟩
  · rename_i c r
    by_cases hc : (c = 'e' || c = 'E') = true
    · rw [if_pos hc] at h
      simp only at h
      have hc' : c = 'e' ∨ c = 'E' := by simpa using hc
      by_cases hd : (digits (exponentSign r).2).1 = []
      · rw [if_pos hd] at h; cases h
      · rw [if_neg hd] at h
        cases h
        have hs := digits_spec (exponentSign r).2
        unfold exponentSign at hs hd ⊢
        split at hs
        · rename_i r'
          simp only at hs hd ⊢
          exact ⟨c :: '+' :: (digits r').1, _, by rw [List.cons_append, List.cons_append, ← hs.1],
            ExpPart.plus c _ hc' ⟨hd, hs.2⟩, by simp, by rintro s ds h; cases h; simp⟩
        · rename_i r'
          simp only at hs hd ⊢
          exact ⟨c :: '-' :: (digits r').1, _, by rw [List.cons_append, List.cons_append, ← hs.1],
            ExpPart.minus c _ hc' ⟨hd, hs.2⟩, by simp, by rintro s ds h; cases h; simp⟩
        · simp only at hs hd ⊢
          exact ⟨c :: (digits r).1, _, by rw [List.cons_append, ← hs.1],
            ExpPart.plain c _ hc' ⟨hd, hs.2⟩, by simp, by rintro s ds h; cases h; simp⟩
    · rw [if_neg hc] at h
      cases h
      exact ⟨[], 0, rfl, ExpPart.none, by simp, by simp⟩

theorem exponentSign_digits {ds rest : Text} (hd : Digits ds) : exponentSign (ds ++ rest) = (false, ds ++ rest) := by
  cases ds with
  | nil => exact absurd rfl hd.1
  | cons c ds =>
    have hc := hd.2 c (by simp)
    unfold exponentSign
    split
    · rename_i h
      rw [List.cons_append] at h
      cases h
      exact absurd hc (by unfold Digit; decide)
    · rename_i h
      rw [List.cons_append] at h
      cases h
      exact absurd hc (by unfold Digit; decide)
    · rfl

theorem exponentPart_complete {exp rest : Text} {e : Int} (h : ExpPart exp e) (hr : Stops rest) :
    ∃ eo, exponentPart (exp ++ rest) = some (eo, rest) ∧ (eo = none ↔ exp = []) ∧
      (eo = none → e = 0) ∧
      (∀ s ds, eo = some (s, ds) → e = (if s then -(decimal ds : Int) else decimal ds)) := by
  cases h with
  | none =>
    refine ⟨none, ?_, by simp, by simp, by simp⟩
    cases rest with
    | nil => rfl
    | cons c rest =>
      have := hr c rfl
      simp [exponentPart, this.2.2.1, this.2.2.2]
  | plain c ds hc hd =>
    refine ⟨some (false, ds), ?_, by simp, by simp, by rintro s ds h; cases h; simp⟩
    have hc' : (c = 'e' || c = 'E') = true := by simpa using hc
    have hda := digits_append hd.2 hr.noDigit
    unfold exponentPart
    simp only [List.cons_append]
    rw [if_pos hc', exponentSign_digits hd]
    simp [hda, hd.1]
  | plus c ds hc hd =>
    refine ⟨some (false, ds), ?_, by simp, by simp, by rintro s ds h; cases h; simp⟩
    have hc' : (c = 'e' || c = 'E') = true := by simpa using hc
    have hda := digits_append hd.2 hr.noDigit
    unfold exponentPart
    simp only [List.cons_append]
    rw [if_pos hc']
    simp [exponentSign, hda, hd.1]
  | minus c ds hc hd =>
    refine ⟨some (true, ds), ?_, by simp, by simp, by rintro s ds h; cases h; simp⟩
    have hc' : (c = 'e' || c = 'E') = true := by simpa using hc
    have hda := digits_append hd.2 hr.noDigit
    unfold exponentPart
    simp only [List.cons_append]
    rw [if_pos hc']
    simp [exponentSign, hda, hd.1]

theorem tenTo_eq (s : Bool) (n : Nat) : tenTo s n = (10 : ℚ) ^ (if s then -(n : Int) else (n : Int)) := by
  cases s
  · simp [tenTo]
  · simp [tenTo]

theorem value_eq (int fs : Text) :
    (digitsValue (int ++ fs) : ℚ) / 10 ^ fs.length = decimal int + decimal fs * (10 : ℚ) ^ (-(fs.length : Int)) := by
  rw [digitsValue_eq, decimal_append, zpow_neg, zpow_natCast]
  push_cast
  field_simp

theorem numberSign_sound (t : Text) : ∃ sign s, t = sign ++ (numberSign t).2 ∧ SignPart sign s ∧
    s = (if (numberSign t).1 then -1 else 1) := by
  unfold numberSign
  split
  · exact ⟨['-'], -1, rfl, SignPart.minus, rfl⟩
  · exact ⟨[], 1, rfl, SignPart.none, rfl⟩

theorem intPart_head {int rest : Text} (h : IntPart int) : ∃ c l, int ++ rest = c :: l ∧ Digit c := by
  rcases h with rfl | ⟨⟨hne, hd⟩, -⟩
  · exact ⟨'0', rest, rfl, by unfold Digit; decide⟩
  · cases int with
    | nil => exact absurd rfl hne
    | cons c int => exact ⟨c, int ++ rest, rfl, hd c (by simp)⟩

theorem numberSign_complete {sign t : Text} {s : Int} (h : SignPart sign s) (ht : ∃ c l, t = c :: l ∧ Digit c) :
    numberSign (sign ++ t) = (decide (s = -1), t) ∧ s = (if s = -1 then -1 else 1) := by
  cases h with
  | none =>
    obtain ⟨c, l, rfl, hc⟩ := ht
    unfold numberSign
    constructor
    · rw [List.nil_append]
      split
      · rename_i h
        cases h
        exact absurd hc (by unfold Digit; decide)
      · simp
    · simp
  | minus => exact ⟨rfl, rfl⟩

theorem signed_eq (b : Bool) (n : Nat) : (if b then -(n : Int) else n) = (if b then -1 else 1) * (n : Int) := by
  cases b <;> simp

theorem number_sound {env : JsonNumbers} {t rest : Text} {j : Json} (h : number env t = some (j, rest)) :
    ∃ c, t = c ++ rest ∧ Number env.f64 c j := by
  obtain ⟨sign, s, hsign, hs, hsv⟩ := numberSign_sound t
  unfold number at h
  simp only [Option.bind_eq_bind, Option.bind_eq_some_iff, Option.some.injEq, Prod.exists, Prod.mk.injEq] at h
  obtain ⟨int, t1, h1, fo, t2, h2, eo, t3, h3, j', h4, rfl, rfl⟩ := h
  obtain ⟨e1, hi⟩ := integerPart_sound h1
  obtain ⟨frac, e2, hf, hfo⟩ := fractionPart_sound h2
  obtain ⟨exp, e, e3, he, heo, hev⟩ := exponentPart_sound h3
  refine ⟨sign ++ int ++ frac ++ exp, ?_, ?_⟩
  · rw [hsign, e1, e2, e3]; simp
  · unfold numberValue at h4
    simp only [digitsValue_eq, signed_eq, ← hsv] at h4
    by_cases hplain : fo = none ∧ eo = none
    · obtain ⟨rfl, rfl⟩ := hplain
      rw [hfo.1 rfl, heo.1 rfl, List.append_nil, List.append_nil]
      simp only at h4
      split at h4
      · rename_i hr
        cases h4
        exact Number.int sign int s hs hi (by norm_num; exact hr.1) (by norm_num; exact hr.2)
      · rename_i hr
        rw [Option.map_eq_some_iff] at h4
        obtain ⟨q, hq, rfl⟩ := h4
        exact Number.big sign int s q hs hi (by norm_num; norm_num at hr; exact hr) hq
    · have key : ∃ q, env.f64 (s * (decimal int + decimal (fo.getD []) * (10 : ℚ) ^ (-((fo.getD []).length : Int)))
          * (10 : ℚ) ^ e) = some q ∧ j' = .float q := by
        have hm : ∀ m : ℚ, (if (numberSign t).1 = true then -m else m) = s * m := by
          intro m; rw [hsv]; split <;> simp
        cases eo with
        | none =>
          have hexp := heo.1 rfl
          subst hexp
          cases he
          cases fo with
          | none => exact absurd ⟨rfl, rfl⟩ hplain
          | some fs =>
            simp only [Option.getD_some, Option.map_eq_some_iff, hm] at h4 ⊢
            rw [← digitsValue_eq, value_eq] at h4
            obtain ⟨q, hq, rfl⟩ := h4
            exact ⟨q, by simpa using hq, rfl⟩
        | some se =>
          obtain ⟨sg, ds⟩ := se
          have hev := hev sg ds rfl
          have hten : tenTo sg (decimal ds) = (10 : ℚ) ^ e := by rw [tenTo_eq, hev]
          cases fo <;>
          · simp only [Option.getD_some, Option.getD_none, Option.map_eq_some_iff, hm] at h4 ⊢
            rw [← digitsValue_eq, value_eq, hten] at h4
            obtain ⟨q, hq, rfl⟩ := h4
            exact ⟨q, by simpa [mul_assoc] using hq, rfl⟩
      obtain ⟨q, hq, rfl⟩ := key
      refine Number.float sign int frac exp (fo.getD []) s e q hs hi hf he ?_ hq
      rw [← hfo, ← heo]
      exact hplain

theorem number_complete {env : JsonNumbers} {c rest : Text} {j : Json} (h : Number env.f64 c j) (hr : Stops rest) :
    number env (c ++ rest) = some (j, rest) := by
  cases h with
  | int sign int s hs hi h1 h2 =>
    obtain ⟨e1, e1'⟩ := numberSign_complete hs (intPart_head (rest := rest) hi)
    have e2 := integerPart_complete hi hr.noDigit
    have e3 := fractionPart_complete FracPart.none hr.noDigit (fun _ hc => (hr _ hc).2.1 rfl)
    obtain ⟨eo, e4, ho, -, -⟩ := exponentPart_complete ExpPart.none hr
    cases ho.2 rfl
    rw [List.nil_append] at e3 e4
    norm_num at h1 h2
    have hsg : (if s = -1 then -(decimal int : Int) else decimal int) = s * decimal int := by
      conv_rhs => rw [e1']
      split <;> simp
    simp [number, List.append_assoc, e1, e2, e3, e4, numberValue, digitsValue_eq, hsg, h1, h2]
  | big sign int s q hs hi h1 hq =>
    obtain ⟨e1, e1'⟩ := numberSign_complete hs (intPart_head (rest := rest) hi)
    have e2 := integerPart_complete hi hr.noDigit
    have e3 := fractionPart_complete FracPart.none hr.noDigit (fun _ hc => (hr _ hc).2.1 rfl)
    obtain ⟨eo, e4, ho, -, -⟩ := exponentPart_complete ExpPart.none hr
    cases ho.2 rfl
    rw [List.nil_append] at e3 e4
    norm_num at h1
    have hsg : (if s = -1 then -(decimal int : Int) else decimal int) = s * decimal int := by
      conv_rhs => rw [e1']
      split <;> simp
    have h1' : ¬(-9223372036854775808 ≤ s * (decimal int : Int) ∧ s * (decimal int : Int) < 18446744073709551616) := by
      intro h; exact absurd h.2 (not_lt.2 (h1 h.1))
    have hq' : env.f64 (if s = -1 then -(decimal int : ℚ) else decimal int) = some q := by
      rw [← hq, ← hsg]; congr 1; split <;> simp
    simp [number, List.append_assoc, e1, e2, e3, e4, numberValue, digitsValue_eq, hsg, h1', hq']
  | float sign int frac exp fs s e q hs hi hf he hne hq =>
    obtain ⟨e1, e1'⟩ := numberSign_complete hs (intPart_head (rest := frac ++ (exp ++ rest)) hi)
    have n1 : NoDigit (exp ++ rest) := by
      cases he with
      | none => exact hr.noDigit
      | plain c ds hc hd => rcases hc with rfl | rfl <;> · intro c hc; cases hc; decide
      | plus c ds hc hd => rcases hc with rfl | rfl <;> · intro c hc; cases hc; decide
      | minus c ds hc hd => rcases hc with rfl | rfl <;> · intro c hc; cases hc; decide
    have n2 : (exp ++ rest).head? ≠ some '.' := by
      cases he with
      | none => exact fun hc => (hr _ hc).2.1 rfl
      | plain c ds hc hd => rcases hc with rfl | rfl <;> · intro hc; cases hc
      | plus c ds hc hd => rcases hc with rfl | rfl <;> · intro hc; cases hc
      | minus c ds hc hd => rcases hc with rfl | rfl <;> · intro hc; cases hc
    have n3 : NoDigit (frac ++ (exp ++ rest)) := by
      cases hf with
      | none => exact n1
      | some ds hd => intro c hc; cases hc; decide
    have e2 := integerPart_complete hi n3
    have e3 := fractionPart_complete hf n1 (fun _ => n2)
    obtain ⟨eo, e4, ho, ho0, hev⟩ := exponentPart_complete he hr
    have hm : ∀ m : ℚ, (if s = -1 then -m else m) = s * m := by
      intro m
      by_cases h : s = -1
      · simp [h]
      · rw [if_neg h] at e1' ⊢; rw [e1']; simp
    have hv : numberValue env (decide (s = -1)) int (if frac = [] then none else some fs) eo = some (.float q) := by
      unfold numberValue
      cases eo with
      | none =>
        have hfr : frac ≠ [] := fun h => hne ⟨h, ho.1 rfl⟩
        simp only [if_neg hfr, Option.getD_some, value_eq, decide_eq_true_eq, hm]
        rw [ho0 rfl, zpow_zero, mul_one] at hq
        rw [hq]; rfl
      | some se =>
        obtain ⟨sg, ds⟩ := se
        have hten : tenTo sg (digitsValue ds) = (10 : ℚ) ^ e := by rw [digitsValue_eq, tenTo_eq, hev sg ds rfl]
        have hfs : (if frac = [] then (none : Option Text) else some fs).getD [] = fs := by
          cases hf with
          | none => rfl
          | some ds hd => rfl
        have : numberValue env (decide (s = -1)) int (if frac = [] then none else some fs) (some (sg, ds)) =
            (env.f64 (s * (decimal int + decimal fs * (10 : ℚ) ^ (-(fs.length : Int))) * (10 : ℚ) ^ e)).map .float := by
          unfold numberValue
          cases hfr : (if frac = [] then (none : Option Text) else some fs) <;>
          · rw [hfr] at hfs
            simp only at hfs ⊢
            rw [hfs]
            simp only [value_eq, decide_eq_true_eq, hm, hten, mul_assoc]
        unfold numberValue at this
        rw [this, hq]; rfl
    simp [number, List.append_assoc, e1, e2, e3, e4, hv]

end JsonText

end Snips
