import Verif.Proofs.JsonText

/-! # Lemmas about JSON texts: strings -/

namespace Snips

namespace JsonText

open JsonGrammar

theorem charOf_iff {n : Nat} {c : Char} : charOf n = some c ↔ c.toNat = n := by
  unfold charOf checkedChar
  constructor
  · intro h
    split at h
    · simp at h; rw [← h]; rfl
    · cases h
  · rintro rfl
    have hv : c.toNat.isValidChar := c.valid
    rw [dif_pos hv]
    simp
    exact char_eq_iff.2 rfl

theorem hexDigit_iff {c : Char} {n : Nat} : hexDigit c = some n ↔ Hex c n := by
  unfold hexDigit
  simp only [char_le_iff, show '0'.toNat = 48 from rfl, show '9'.toNat = 57 from rfl, show 'a'.toNat = 97 from rfl,
    show 'f'.toNat = 102 from rfl, show 'A'.toNat = 65 from rfl, show 'F'.toNat = 70 from rfl]
  constructor
  · intro h
    split at h
    · cases h
      exact Hex.digit c _ (by omega) (by omega)
    · split at h
      · simp only [Option.some.injEq] at h
        have : n = 10 + (c.toNat - 97) := by omega
        rw [this]
        exact Hex.lower c _ (by omega) (by omega)
      · split at h
        · simp only [Option.some.injEq] at h
          have : n = 10 + (c.toNat - 65) := by omega
          rw [this]
          exact Hex.upper c _ (by omega) (by omega)
        · cases h
  · intro h
    cases h with
    | digit n h1 h2 => rw [if_pos (by omega)]; congr 1; omega
    | lower n h1 h2 => rw [if_neg (by omega), if_pos (by omega)]; congr 1; omega
    | upper n h1 h2 => rw [if_neg (by omega), if_neg (by omega), if_pos (by omega)]; congr 1; omega

theorem hex4_iff {t rest : Text} {n : Nat} : hex4 t = some (n, rest) ↔ ∃ h, t = h ++ rest ∧ Hex4 h n := by
  constructor
  · intro h
    unfold hex4 at h
    split at h
    · rename_i a b c d r
      simp only [Option.bind_eq_bind, Option.bind_eq_some_iff, Option.some.injEq, Prod.mk.injEq, hexDigit_iff] at h
      obtain ⟨i, hi, j, hj, k, hk, l, hl, rfl, rfl⟩ := h
      refine ⟨[a, b, c, d], rfl, ?_⟩
      have : ((i * 16 + j) * 16 + k) * 16 + l = 4096 * i + 256 * j + 16 * k + l := by ring
      rw [this]
      exact Hex4.mk _ _ _ _ _ _ _ _ hi hj hk hl
    · cases h
  · rintro ⟨h, rfl, h4⟩
    cases h4 with
    | mk a b c d i j k l hi hj hk hl =>
      rw [← hexDigit_iff] at hi hj hk hl
      simp only [hex4, List.cons_append, List.nil_append, hi, hj, hk, hl, Option.bind_eq_bind, Option.bind_some]
      congr 2
      ring

theorem unicodeEscape_sound {t rest : Text} {c : Char} (h : unicodeEscape t = some (c, rest)) :
    ∃ e, t = e ++ rest ∧ StringChar ('\\' :: 'u' :: e) c := by
  unfold unicodeEscape at h
  split at h
  · cases h
  · rename_i n r h4
    obtain ⟨hx, rfl, hx4⟩ := hex4_iff.1 h4
    split at h
    · cases h
    · split at h
      · rename_i hlo hhi
        split at h
        · rename_i r'
          split at h
          · cases h
          · rename_i n' r'' h4'
            obtain ⟨hx', rfl, hx4'⟩ := hex4_iff.1 h4'
            split at h
            · rename_i hlo'
              simp only [Option.map_eq_some_iff, Prod.mk.injEq, charOf_iff] at h
              obtain ⟨c', hc', rfl, rfl⟩ := h
              refine ⟨hx ++ '\\' :: 'u' :: hx', by simp, ?_⟩
              refine StringChar.pair hx hx' (n - 0xD800) (n' - 0xDC00) c' ?_ ?_ (by omega) (by omega) (by omega)
              · rw [show 0xD800 + (n - 0xD800) = n by omega]; exact hx4
              · rw [show 0xDC00 + (n' - 0xDC00) = n' by omega]; exact hx4'
            · cases h
        · cases h
      · simp only [Option.map_eq_some_iff, Prod.mk.injEq, charOf_iff] at h
        obtain ⟨c', hc', rfl, rfl⟩ := h
        exact ⟨hx, rfl, StringChar.unicode hx c' (by rw [hc']; exact hx4)⟩

theorem escape_sound {t rest : Text} {c : Char} (h : escape t = some (c, rest)) :
    ∃ e, t = e ++ rest ∧ StringChar ('\\' :: e) c := by
  unfold escape at h
  split at h
  · cases h; exact ⟨['"'], rfl, StringChar.quote⟩
  · cases h; exact ⟨['\\'], rfl, StringChar.backslash⟩
  · cases h; exact ⟨['/'], rfl, StringChar.slash⟩
  · cases h; exact ⟨['b'], rfl, StringChar.backspace _ rfl⟩
  · cases h; exact ⟨['f'], rfl, StringChar.formFeed _ rfl⟩
  · cases h; exact ⟨['n'], rfl, StringChar.lineFeed _ rfl⟩
  · cases h; exact ⟨['r'], rfl, StringChar.return _ rfl⟩
  · cases h; exact ⟨['t'], rfl, StringChar.tab _ rfl⟩
  · obtain ⟨e, rfl, he⟩ := unicodeEscape_sound h
    exact ⟨'u' :: e, rfl, he⟩
  · cases h

theorem char_toNat_lt (c : Char) : c.toNat < 0xD800 ∨ (0xDFFF < c.toNat ∧ c.toNat < 0x110000) := c.valid

/-- The text of a character is an ordinary character, or a backslash and an escape. -/
theorem stringChar_cases {t : Text} {c : Char} (h : StringChar t c) :
    (t = [c] ∧ 0x20 ≤ c.toNat ∧ c ≠ '"' ∧ c ≠ '\\') ∨
      (∃ e, t = '\\' :: e ∧ ∀ rest, escape (e ++ rest) = some (c, rest)) := by
  have key : ∀ (d : Char), c.toNat = d.toNat → c = d := fun d hd => char_eq_iff.2 hd
  cases h with
  | plain _ h1 h2 h3 => exact Or.inl ⟨rfl, h1, h2, h3⟩
  | quote => exact Or.inr ⟨_, rfl, fun _ => rfl⟩
  | backslash => exact Or.inr ⟨_, rfl, fun _ => rfl⟩
  | slash => exact Or.inr ⟨_, rfl, fun _ => rfl⟩
  | backspace _ h => exact Or.inr ⟨_, rfl, fun _ => by rw [key '\x08' h]; rfl⟩
  | formFeed _ h => exact Or.inr ⟨_, rfl, fun _ => by rw [key '\x0c' h]; rfl⟩
  | lineFeed _ h => exact Or.inr ⟨_, rfl, fun _ => by rw [key '\n' h]; rfl⟩
  | «return» _ h => exact Or.inr ⟨_, rfl, fun _ => by rw [key '\r' h]; rfl⟩
  | tab _ h => exact Or.inr ⟨_, rfl, fun _ => by rw [key '\t' h]; rfl⟩
  | unicode h _ hx =>
    refine Or.inr ⟨_, rfl, fun rest => ?_⟩
    have h4 : hex4 (h ++ rest) = some (c.toNat, rest) := hex4_iff.2 ⟨h, rfl, hx⟩
    have hv := char_toNat_lt c
    show unicodeEscape (h ++ rest) = _
    unfold unicodeEscape
    simp only [h4]
    rw [if_neg (by omega), if_neg (by omega), charOf_iff.2 rfl]
    rfl
  | pair h h' hi lo _ hx hx' l1 l2 hc =>
    refine Or.inr ⟨_, rfl, fun rest => ?_⟩
    have h4 : hex4 (h ++ '\\' :: 'u' :: (h' ++ rest)) = some (0xD800 + hi, '\\' :: 'u' :: (h' ++ rest)) :=
      hex4_iff.2 ⟨h, rfl, hx⟩
    have h4' : hex4 (h' ++ rest) = some (0xDC00 + lo, rest) := hex4_iff.2 ⟨h', rfl, hx'⟩
    show unicodeEscape (h ++ '\\' :: 'u' :: h' ++ rest) = _
    rw [List.append_assoc]
    unfold unicodeEscape
    simp only [List.cons_append, h4, h4']
    rw [if_neg (by omega), if_pos (by omega), if_pos (by omega), (charOf_iff (c := c)).2 (by omega)]
    rfl

theorem stringBody_sound (fuel : Nat) {t s rest : Text} (h : stringBody fuel t = some (s, rest)) :
    ∃ body, t = body ++ '"' :: rest ∧ Chars body s := by
  induction fuel generalizing t s with
  | zero => simp [stringBody] at h
  | succ fuel ih =>
    cases t with
    | nil => simp [stringBody] at h
    | cons c t =>
      rw [stringBody] at h
      split at h
      · rename_i hc; cases h; subst hc; exact ⟨[], rfl, Chars.nil⟩
      · split at h
        · rename_i hq hb
          subst hb
          split at h
          · cases h
          · rename_i c' r he
            obtain ⟨e, rfl, hse⟩ := escape_sound he
            rw [Option.map_eq_some_iff] at h
            obtain ⟨⟨s', r'⟩, hs', hh⟩ := h
            cases hh
            obtain ⟨body, rfl, hch⟩ := ih hs'
            exact ⟨('\\' :: e) ++ body, by simp, Chars.cons _ _ _ _ hse hch⟩
        · split at h
          · cases h
          · rename_i hq hb hl
            rw [Option.map_eq_some_iff] at h
            obtain ⟨⟨s', r'⟩, hs', hh⟩ := h
            cases hh
            obtain ⟨body, rfl, hch⟩ := ih hs'
            exact ⟨[c] ++ body, by simp, Chars.cons _ _ _ _ (StringChar.plain c (by omega) hq hb) hch⟩

theorem stringBody_complete {body s : Text} (h : Chars body s) (rest : Text) :
    ∀ fuel, body.length + 1 ≤ fuel → stringBody fuel (body ++ '"' :: rest) = some (s, rest) := by
  induction h with
  | nil =>
    intro fuel hf
    cases fuel with
    | zero => simp at hf
    | succ fuel => simp [stringBody]
  | cons t ts c cs hc _ ih =>
    intro fuel hf
    cases fuel with
    | zero => simp at hf
    | succ fuel =>
      rcases stringChar_cases hc with ⟨rfl, h1, h2, h3⟩ | ⟨e, rfl, he⟩
      · have := ih fuel (by simp at hf; omega)
        simp only [List.cons_append, List.nil_append]
        rw [stringBody, if_neg h2, if_neg h3, if_neg (by omega), this]
        rfl
      · have := ih fuel (by simp at hf; omega)
        simp only [List.cons_append, List.append_assoc]
        rw [stringBody, if_neg (by decide), if_pos rfl, he]
        simp only [this]
        rfl

theorem string_sound {t s rest : Text} (h : string t = some (s, rest)) : ∃ c, t = c ++ rest ∧ Str c s := by
  unfold string at h
  split at h
  · obtain ⟨body, hb, hch⟩ := stringBody_sound _ h
    exact ⟨'"' :: body ++ ['"'], by rw [hb]; simp, Str.mk body s hch⟩
  · cases h

theorem string_complete {c s : Text} (h : Str c s) (rest : Text) : string (c ++ rest) = some (s, rest) := by
  cases h with
  | mk body s hch =>
    have := stringBody_complete hch rest (body ++ '"' :: rest).length (by simp)
    simpa [string] using this

end JsonText

end Snips
