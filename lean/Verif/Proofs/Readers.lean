import Verif.Model.Readers
import Verif.Spec.Readers
import Mathlib.Data.List.TakeWhile

/-! Lemmas on the readers of text files. -/

namespace Snips

/-! ### UTF-8 -/

theorem char_valid (c : Char) : c.toNat.isValidChar := c.valid

theorem checkedChar_of {least : Nat} {c : Char} (h : least ≤ c.toNat) : checkedChar least c.toNat = some c := by
  unfold checkedChar
  rw [dif_pos (char_valid c), if_pos h]
  congr 1

theorem checkedChar_some {least n : Nat} {c : Char} (h : checkedChar least n = some c) : c.toNat = n ∧ least ≤ n := by
  unfold checkedChar at h
  split at h
  · rename_i hv
    split at h
    · cases h
      refine ⟨?_, by assumption⟩
      show (Char.ofNatAux n hv).val.toNat = n
      simp [Char.ofNatAux]
    · cases h
  · cases h

theorem char_bound (c : Char) : c.toNat < 0x110000 := by
  have := char_valid c
  unfold Nat.isValidChar at this
  omega

theorem decodeUtf8_encodeChar (c : Char) (bs : List Nat) :
    decodeUtf8 (encodeChar c ++ bs) = (decodeUtf8 bs).map (c :: ·) := by
  have hb := char_bound c
  unfold encodeChar
  split
  · rename_i h
    simp only [List.cons_append, List.nil_append]
    rw [decodeUtf8.eq_def]
    simp only [h, if_true]
    rw [checkedChar_of (Nat.zero_le _)]
    rfl
  · rename_i h0
    have cont : ∀ n, isContinuation (0x80 + n % 64) = true := by
      intro n; unfold isContinuation; rw [decide_eq_true_eq]; omega
    split
    · rename_i h1
      simp only [List.cons_append, List.nil_append]
      rw [decodeUtf8.eq_def]
      have e : (0xC0 + c.toNat / 64 - 0xC0) * 64 + (0x80 + c.toNat % 64 - 0x80) = c.toNat := by omega
      simp only [cont, if_true, e]
      rw [if_neg (by omega), if_pos (by omega), checkedChar_of (by omega)]
      rfl
    · split
      · rename_i h1 h2
        simp only [List.cons_append, List.nil_append]
        rw [decodeUtf8.eq_def]
        have e : (0xE0 + c.toNat / 4096 - 0xE0) * 4096 + (0x80 + c.toNat / 64 % 64 - 0x80) * 64 +
          (0x80 + c.toNat % 64 - 0x80) = c.toNat := by omega
        simp only [cont, if_true, e]
        rw [if_neg (by omega), if_neg (by omega), if_pos (by omega), checkedChar_of (by omega)]
        rfl
      · rename_i h1 h2
        simp only [List.cons_append, List.nil_append]
        rw [decodeUtf8.eq_def]
        have e : (0xF0 + c.toNat / 262144 - 0xF0) * 262144 + (0x80 + c.toNat / 4096 % 64 - 0x80) * 4096 +
          (0x80 + c.toNat / 64 % 64 - 0x80) * 64 + (0x80 + c.toNat % 64 - 0x80) = c.toNat := by omega
        simp only [cont, if_true, e, true_and]
        rw [if_neg (by omega), if_neg (by omega), if_neg (by omega), if_pos (by omega), checkedChar_of (by omega)]
        rfl

theorem decodeUtf8_encode (t : Text) : decodeUtf8 (encodeUtf8 t) = some t := by
  induction t with
  | nil => rfl
  | cons c t ih =>
    show decodeUtf8 (encodeChar c ++ encodeUtf8 t) = _
    rw [decodeUtf8_encodeChar, ih]
    rfl

theorem decodeUtf8_some : ∀ (n : Nat) (b : List Nat), b.length ≤ n → ∀ t, decodeUtf8 b = some t → b = encodeUtf8 t
  | 0, b, hn, t, h => by
    have : b = [] := List.length_eq_zero_iff.1 (by omega)
    subst this
    rw [decodeUtf8.eq_def] at h
    cases h
    rfl
  | n + 1, b, hn, t, h => by
    have step : ∀ (bs : List Nat) (c : Char) (pre : List Nat), bs.length ≤ n →
        (decodeUtf8 bs).map (c :: ·) = some t → pre = encodeChar c → pre ++ bs = encodeUtf8 t := by
      intro bs c pre hl h hp
      cases hd : decodeUtf8 bs with
      | none => rw [hd] at h; cases h
      | some t' =>
        rw [hd] at h
        cases h
        rw [hp, decodeUtf8_some n bs hl t' hd]
        rfl
    rw [decodeUtf8.eq_def] at h
    cases b with
    | nil => cases h; rfl
    | cons b0 bs =>
      simp only at h
      simp only [List.length_cons] at hn
      split at h
      · rename_i h0
        cases hc : checkedChar 0 b0 with
        | none => rw [hc] at h; cases h
        | some c =>
          rw [hc] at h
          obtain ⟨e, _⟩ := checkedChar_some hc
          refine step bs c [b0] (by omega) h ?_
          unfold encodeChar
          rw [if_pos (by omega), e]
      · rename_i h0
        cases bs with
        | nil => cases h
        | cons b1 bs =>
          simp only at h
          simp only [List.length_cons] at hn
          split at h
          · rename_i k1
            unfold isContinuation at k1
            rw [decide_eq_true_eq] at k1
            split at h
            · rename_i h1
              cases hc : checkedChar 0x80 ((b0 - 0xC0) * 64 + (b1 - 0x80)) with
              | none => rw [hc] at h; cases h
              | some c =>
                rw [hc] at h
                obtain ⟨e, hle⟩ := checkedChar_some hc
                refine step bs c [b0, b1] (by omega) h ?_
                unfold encodeChar
                rw [if_neg (by omega), if_pos (by omega), e]
                have e1 : b0 = 0xC0 + ((b0 - 0xC0) * 64 + (b1 - 0x80)) / 64 := by omega
                have e2 : b1 = 0x80 + ((b0 - 0xC0) * 64 + (b1 - 0x80)) % 64 := by omega
                rw [← e1, ← e2]
            · rename_i h1
              cases bs with
              | nil => cases h
              | cons b2 bs =>
                simp only at h
                simp only [List.length_cons] at hn
                split at h
                · rename_i k2
                  unfold isContinuation at k2
                  rw [decide_eq_true_eq] at k2
                  split at h
                  · rename_i h2
                    cases hc : checkedChar 0x800 ((b0 - 0xE0) * 4096 + (b1 - 0x80) * 64 + (b2 - 0x80)) with
                    | none => rw [hc] at h; cases h
                    | some c =>
                      rw [hc] at h
                      obtain ⟨e, hle⟩ := checkedChar_some hc
                      refine step bs c [b0, b1, b2] (by omega) h ?_
                      generalize hv : (b0 - 0xE0) * 4096 + (b1 - 0x80) * 64 + (b2 - 0x80) = v at e hle
                      unfold encodeChar
                      rw [if_neg (by omega), if_neg (by omega), if_pos (by omega), e]
                      have e1 : b0 = 0xE0 + v / 4096 := by omega
                      have e2 : b1 = 0x80 + v / 64 % 64 := by omega
                      have e3 : b2 = 0x80 + v % 64 := by omega
                      rw [← e1, ← e2, ← e3]
                  · rename_i h2
                    cases bs with
                    | nil => cases h
                    | cons b3 bs =>
                      simp only at h
                      simp only [List.length_cons] at hn
                      split at h
                      · rename_i k3
                        obtain ⟨k3, h3⟩ := k3
                        unfold isContinuation at k3
                        rw [decide_eq_true_eq] at k3
                        cases hc : checkedChar 0x10000
                            ((b0 - 0xF0) * 262144 + (b1 - 0x80) * 4096 + (b2 - 0x80) * 64 + (b3 - 0x80)) with
                        | none => rw [hc] at h; cases h
                        | some c =>
                          rw [hc] at h
                          obtain ⟨e, hle⟩ := checkedChar_some hc
                          refine step bs c [b0, b1, b2, b3] (by omega) h ?_
                          generalize hv : (b0 - 0xF0) * 262144 + (b1 - 0x80) * 4096 + (b2 - 0x80) * 64 + (b3 - 0x80) = v
                            at e hle
                          unfold encodeChar
                          rw [if_neg (by omega), if_neg (by omega), if_neg (by omega), e]
                          have e1 : b0 = 0xF0 + v / 262144 := by omega
                          have e2 : b1 = 0x80 + v / 4096 % 64 := by omega
                          have e3 : b2 = 0x80 + v / 64 % 64 := by omega
                          have e4 : b3 = 0x80 + v % 64 := by omega
                          rw [← e1, ← e2, ← e3, ← e4]
                      · cases h
                · cases h
          · cases h

/-- Bytes are decoded to a text exactly when they encode it. -/
theorem decodeUtf8_iff {b : List Nat} {t : Text} : decodeUtf8 b = some t ↔ b = encodeUtf8 t :=
  ⟨decodeUtf8_some b.length b (Nat.le_refl _) t, fun h => by rw [h, decodeUtf8_encode]⟩

theorem encodeUtf8_append (s t : Text) : encodeUtf8 (s ++ t) = encodeUtf8 s ++ encodeUtf8 t := List.flatMap_append

theorem encodeUtf8_cons (c : Char) (t : Text) : encodeUtf8 (c :: t) = encodeChar c ++ encodeUtf8 t := rfl

theorem encodeChar_ascii {c : Char} (h : c.toNat < 0x80) : encodeChar c = [c.toNat] := by
  unfold encodeChar
  rw [if_pos h]

/-- An ASCII byte occurs only as the character it encodes. -/
theorem mem_encodeChar {c : Char} {b : Nat} (h : b ∈ encodeChar c) (hb : b < 0x80) : c.toNat = b := by
  unfold encodeChar at h
  split at h
  · simp at h; omega
  · split at h
    · simp at h; omega
    · split at h
      · simp at h; omega
      · simp at h; omega

theorem mem_encodeUtf8 {t : Text} {b : Nat} (h : b ∈ encodeUtf8 t) (hb : b < 0x80) : ∃ c ∈ t, c.toNat = b := by
  obtain ⟨c, hc, h⟩ := List.mem_flatMap.1 h
  exact ⟨c, hc, mem_encodeChar h hb⟩

theorem encodeChar_ne_nil (c : Char) : encodeChar c ≠ [] := by
  unfold encodeChar
  split
  · simp
  · split
    · simp
    · split <;> simp

theorem encodeUtf8_ne_nil {t : Text} (h : t ≠ []) : encodeUtf8 t ≠ [] := by
  cases t with
  | nil => exact absurd rfl h
  | cons c t =>
    rw [encodeUtf8_cons]
    simp [encodeChar_ne_nil]

theorem encodeUtf8_eq_nil {t : Text} : encodeUtf8 t = [] ↔ t = [] :=
  ⟨fun h => Decidable.byContradiction fun hn => encodeUtf8_ne_nil hn h, fun h => by rw [h]; rfl⟩

theorem toNat_inj {c d : Char} (h : c.toNat = d.toNat) : c = d := Char.ext (UInt32.toNat_inj.1 h)

/-! ### Lines -/

theorem rawLines_line (line rest : List Nat) (h : 10 ∉ line) :
    rawLines (line ++ 10 :: rest) = (line, true) :: rawLines rest := by
  induction line with
  | nil => simp [rawLines]
  | cons b line ih =>
    simp only [List.mem_cons, not_or] at h
    rw [List.cons_append, rawLines, if_neg (Ne.symm h.1), ih h.2]

theorem rawLines_last (line : List Nat) (hn : line ≠ []) (h : 10 ∉ line) : rawLines line = [(line, false)] := by
  induction line with
  | nil => exact absurd rfl hn
  | cons b line ih =>
    simp only [List.mem_cons, not_or] at h
    rw [rawLines, if_neg (Ne.symm h.1)]
    by_cases hl : line = []
    · subst hl; simp [rawLines]
    · rw [ih hl h.2]

theorem rawLines_spec {bytes : List Nat} {lines : List (List Nat)} (h : LinesOf 10 13 bytes lines) :
    (rawLines bytes).map (fun l => if l.2 then stripCr l.1 else l.1) = lines := by
  induction h with
  | nil => rfl
  | last line h h' => rw [rawLines_last line h h']; simp
  | line line rest lines h h' _ ih =>
    rw [rawLines_line line rest h, List.map_cons, ih]
    simp [stripCr, h']
  | crlf line rest lines h _ ih =>
    have e : line ++ 13 :: 10 :: rest = (line ++ [13]) ++ 10 :: rest := by simp
    rw [e, rawLines_line (line ++ [13]) rest (by simp [h]), List.map_cons, ih]
    simp [stripCr]

theorem linesOf_exists {α : Type} [DecidableEq α] (lf cr : α) : ∀ (n : Nat) (l : List α), l.length ≤ n →
    lf ≠ cr → ∃ lines, LinesOf lf cr l lines
  | n, l, hn, hne => by
    by_cases hl : l = []
    · subst hl; exact ⟨[], .nil⟩
    by_cases hm : lf ∈ l
    · obtain ⟨line, rest, rfl, hlf⟩ := List.eq_append_cons_of_mem hm
      cases n with
      | zero => simp at hn
      | succ n =>
        simp only [List.length_append, List.length_cons] at hn
        obtain ⟨lines, hr⟩ := linesOf_exists lf cr n rest (by omega) hne
        by_cases hcr : line.getLast? = some cr
        · obtain ⟨line', rfl⟩ := List.getLast?_eq_some_iff.1 hcr
          refine ⟨line' :: lines, ?_⟩
          have := LinesOf.crlf (cr := cr) line' rest lines (fun h => hlf (by simp [h])) hr
          simpa using this
        · exact ⟨line :: lines, .line line rest lines hlf hcr hr⟩
    · exact ⟨[l], .last l hl hm⟩

theorem encode_no_byte {t : Text} {d : Char} (hd : d.toNat < 0x80) (h : d ∉ t) : d.toNat ∉ encodeUtf8 t := by
  intro hm
  obtain ⟨c, hc, e⟩ := mem_encodeUtf8 hm hd
  exact h (toNat_inj e ▸ hc)

theorem encode_last {t : Text} (h : t.getLast? ≠ some '\r') : (encodeUtf8 t).getLast? ≠ some 13 := by
  intro hm
  rcases List.eq_nil_or_concat t with rfl | ⟨t', c, rfl⟩
  · cases hm
  · rw [List.concat_eq_append] at h hm
    rw [encodeUtf8_append, encodeUtf8_cons] at hm
    have hnil : encodeUtf8 ([] : Text) = [] := rfl
    rw [hnil, List.append_nil, List.getLast?_append] at hm
    cases hg : (encodeChar c).getLast? with
    | none => exact encodeChar_ne_nil c (List.getLast?_eq_none_iff.1 hg)
    | some b =>
      rw [hg] at hm
      have hm : b = 13 := Option.some.inj hm
      subst hm
      have := mem_encodeChar (List.mem_of_getLast? hg) (by decide)
      have : c = '\r' := toNat_inj this
      subst this
      simp at h

theorem linesOf_encode {t : Text} {lines : List Text} (h : LinesOf '\n' '\r' t lines) :
    LinesOf 10 13 (encodeUtf8 t) (lines.map encodeUtf8) := by
  induction h with
  | nil => exact .nil
  | last line h h' => exact .last _ (encodeUtf8_ne_nil h) (encode_no_byte (d := '\n') (by decide) h')
  | line line rest lines h h' _ ih =>
    rw [encodeUtf8_append, encodeUtf8_cons, encodeChar_ascii (by decide)]
    exact .line _ _ _ (encode_no_byte (d := '\n') (by decide) h) (encode_last h') ih
  | crlf line rest lines h _ ih =>
    rw [encodeUtf8_append, encodeUtf8_cons, encodeUtf8_cons, encodeChar_ascii (by decide), encodeChar_ascii (by decide)]
    exact .crlf _ _ _ (encode_no_byte (d := '\n') (by decide) h) ih

theorem linesOf_decodable {bytes : List Nat} {lines : List (List Nat)} (h : LinesOf 10 13 bytes lines)
    (hd : ∀ l ∈ lines, ∃ t, l = encodeUtf8 t) : ∃ t, bytes = encodeUtf8 t := by
  induction h with
  | nil => exact ⟨[], rfl⟩
  | last line _ _ => exact hd line (by simp)
  | line line rest lines _ _ _ ih =>
    obtain ⟨t, rfl⟩ := hd line (by simp)
    obtain ⟨t', rfl⟩ := ih fun l hl => hd l (by simp [hl])
    refine ⟨t ++ '\n' :: t', ?_⟩
    rw [encodeUtf8_append, encodeUtf8_cons, encodeChar_ascii (by decide)]
    rfl
  | crlf line rest lines _ _ ih =>
    obtain ⟨t, rfl⟩ := hd line (by simp)
    obtain ⟨t', rfl⟩ := ih fun l hl => hd l (by simp [hl])
    refine ⟨t ++ '\r' :: '\n' :: t', ?_⟩
    rw [encodeUtf8_append, encodeUtf8_cons, encodeUtf8_cons, encodeChar_ascii (by decide), encodeChar_ascii (by decide)]
    rfl

theorem utf8OrErr_encode (t : Text) : utf8OrErr (encodeUtf8 t) = .ok t := by
  unfold utf8OrErr
  rw [decodeUtf8_encode]

theorem utf8OrErr_ok {b : List Nat} {t : Text} (h : utf8OrErr b = .ok t) : b = encodeUtf8 t := by
  unfold utf8OrErr at h
  cases hd : decodeUtf8 b with
  | none => rw [hd] at h; cases h
  | some t' => rw [hd] at h; cases h; exact decodeUtf8_iff.1 hd

theorem readLines_bytes {bytes : List Nat} {lines : List (List Nat)} (h : LinesOf 10 13 bytes lines) :
    readLines bytes = lines.map utf8OrErr := by
  unfold readLines
  rw [← rawLines_spec h, List.map_map]
  rfl

/-! ### Records -/

theorem csvFrom_field (d : Nat) (pre : List (List Nat)) (field f bs : List Nat)
    (hf : ∀ c ∈ f, c ≠ d ∧ c ≠ 10 ∧ c ≠ 13) :
    csvFrom d pre field true (f ++ bs) = csvFrom d pre (field ++ f) true bs := by
  induction f generalizing field with
  | nil => simp
  | cons b f ih =>
    obtain ⟨h1, h2, h3⟩ := hf b (by simp)
    rw [List.cons_append, csvFrom, if_neg (by simp [h2, h3]), if_neg h1, ih _ fun c hc => hf c (by simp [hc])]
    simp

theorem csvFrom_break (d : Nat) (pre : List (List Nat)) (field bs : List Nat)
    (hb : ∀ c, bs.head? = some c → c = 10 ∨ c = 13) :
    csvFrom d pre field true bs = (pre ++ [field]) :: csvFrom d [] [] false bs := by
  cases bs with
  | nil => simp [csvFrom]
  | cons b bs =>
    rw [csvFrom, csvFrom, if_pos (hb b rfl), if_pos (hb b rfl)]
    simp

theorem csvFrom_fields (d : Nat) (hd : d ≠ 10 ∧ d ≠ 13) (bs : List Nat)
    (hb : ∀ c, bs.head? = some c → c = 10 ∨ c = 13) :
    ∀ (fs : List (List Nat)) (pre : List (List Nat)) (field f : List Nat),
      (∀ g ∈ f :: fs, ∀ c ∈ g, c ≠ d ∧ c ≠ 10 ∧ c ≠ 13) →
      csvFrom d pre field true (delimited d (f :: fs) ++ bs) = (pre ++ (field ++ f) :: fs) :: csvFrom d [] [] false bs
  | [], pre, field, f, hf => by
    show csvFrom d pre field true (f ++ bs) = _
    rw [csvFrom_field d pre field f bs (hf f (by simp)), csvFrom_break d pre _ bs hb]
  | g :: fs, pre, field, f, hf => by
    show csvFrom d pre field true ((f ++ d :: delimited d (g :: fs)) ++ bs) = _
    rw [List.append_assoc, csvFrom_field d pre field f _ (hf f (by simp)), List.cons_append, csvFrom,
      if_neg (by simp [hd.1, hd.2]), if_pos rfl,
      csvFrom_fields d hd bs hb fs _ [] g fun x hx => hf x (by simp at hx; simp [hx])]
    simp

theorem csvFrom_breaks (d : Nat) (breaks bs : List Nat) (h : ∀ c ∈ breaks, c = 10 ∨ c = 13) :
    csvFrom d [] [] false (breaks ++ bs) = csvFrom d [] [] false bs := by
  induction breaks with
  | nil => rfl
  | cons b breaks ih =>
    rw [List.cons_append, csvFrom, if_pos (h b (by simp)), if_neg (by simp), ih fun c hc => h c (by simp [hc])]

theorem csvFrom_spec {d : Nat} (hd : d ≠ 10 ∧ d ≠ 13) {bytes : List Nat} {records : List (List (List Nat))}
    (h : RecordsOf 10 13 d bytes records) : csvFrom d [] [] false bytes = records := by
  induction h with
  | nil breaks h =>
    have := csvFrom_breaks d breaks [] h
    rw [List.append_nil] at this
    rw [this]
    rfl
  | record breaks rest fields records h hn hn' hf he _ ih =>
    rw [List.append_assoc, csvFrom_breaks d breaks _ h]
    cases fields with
    | nil => exact absurd rfl hn
    | cons f fs =>
      cases f with
      | nil =>
        cases fs with
        | nil => exact absurd rfl hn'
        | cons g fs =>
          show csvFrom d [] [] false (d :: (delimited d (g :: fs) ++ rest)) = _
          rw [csvFrom, if_neg (by simp [hd.1, hd.2]), if_pos rfl,
            csvFrom_fields d hd rest he fs _ [] g fun x hx => hf x (by simp at hx; simp [hx]), ih]
          simp
      | cons b f =>
        obtain ⟨h1, h2, h3⟩ := hf (b :: f) (by simp) b (by simp)
        have e : delimited d ((b :: f) :: fs) = b :: delimited d (f :: fs) := by
          cases fs <;> rfl
        rw [e, List.cons_append, csvFrom, if_neg (by simp [h2, h3]), if_neg h1,
          csvFrom_fields d hd rest he fs _ _ f, ih]
        · simp
        · intro x hx c hc
          rcases List.mem_cons.1 hx with rfl | hx
          · exact hf (b :: x) (by simp) c (by simp [hc])
          · exact hf x (by simp [hx]) c hc

theorem delimited_exists {α : Type} [DecidableEq α] (d : α) (P : α → Prop) : ∀ l : List α, (∀ c ∈ l, P c) →
    ∃ f fs, l = delimited d (f :: fs) ∧ ∀ g ∈ f :: fs, ∀ c ∈ g, c ≠ d ∧ P c
  | [], _ => ⟨[], [], rfl, by simp⟩
  | c :: l, h => by
    obtain ⟨f, fs, rfl, hf⟩ := delimited_exists d P l fun c hc => h c (by simp [hc])
    by_cases hc : c = d
    · subst hc
      refine ⟨[], f :: fs, rfl, ?_⟩
      intro g hg
      rcases List.mem_cons.1 hg with rfl | hg
      · intro c hc; cases hc
      · exact hf g hg
    · refine ⟨c :: f, fs, ?_, ?_⟩
      · cases fs <;> rfl
      · intro g hg x hx
        rcases List.mem_cons.1 hg with rfl | hg
        · rcases List.mem_cons.1 hx with rfl | hx
          · exact ⟨hc, h _ (by simp)⟩
          · exact hf f (by simp) x hx
        · exact hf g (by simp [hg]) x hx

theorem recordsOf_exists {α : Type} [DecidableEq α] (lf cr d : α) : ∀ (n : Nat) (l : List α),
    l.length ≤ n → ∃ records, RecordsOf lf cr d l records
  | n, l, hn => by
    have hl : l = l.takeWhile (fun c => c = lf ∨ c = cr) ++ l.dropWhile (fun c => c = lf ∨ c = cr) := by simp
    have hbreaks : ∀ c ∈ l.takeWhile (fun c => decide (c = lf ∨ c = cr)), c = lf ∨ c = cr := by
      intro c hc
      have := List.mem_takeWhile_imp hc
      simpa using this
    generalize hB : l.takeWhile (fun c => decide (c = lf ∨ c = cr)) = B at hl hbreaks
    generalize hM : l.dropWhile (fun c => decide (c = lf ∨ c = cr)) = M at hl
    have hM0 : ∀ c, M.head? = some c → ¬ (c = lf ∨ c = cr) := by
      intro c hc
      have := List.head?_dropWhile_not (fun c => decide (c = lf ∨ c = cr)) l
      rw [hM, hc] at this
      simpa using this
    cases M with
    | nil =>
      rw [List.append_nil] at hl
      subst hl
      exact ⟨[], .nil _ hbreaks⟩
    | cons x M =>
      have hx := hM0 x rfl
      generalize hw : (x :: M).takeWhile (fun c => decide (¬ (c = lf ∨ c = cr))) = W
      generalize hR : (x :: M).dropWhile (fun c => decide (¬ (c = lf ∨ c = cr))) = R
      have hWR : x :: M = W ++ R := by rw [← hw, ← hR]; simp
      have hWn : W ≠ [] := by
        rw [← hw, List.takeWhile_cons_of_pos (by simpa using hx)]
        simp
      have hWP : ∀ c ∈ W, ¬ (c = lf ∨ c = cr) := by
        intro c hc
        rw [← hw] at hc
        have := List.mem_takeWhile_imp hc
        simpa using this
      have hR0 : ∀ c, R.head? = some c → c = lf ∨ c = cr := by
        intro c hc
        have := List.head?_dropWhile_not (fun c => decide (¬ (c = lf ∨ c = cr))) (x :: M)
        rw [hR, hc] at this
        by_cases h : c = lf ∨ c = cr
        · exact h
        · simp [h] at this
      obtain ⟨f, fs, hfs, hf⟩ := delimited_exists d (fun c => ¬ (c = lf ∨ c = cr)) W hWP
      have hlen : l.length = B.length + (W.length + R.length) := by
        rw [hl, hWR]; simp
      have hW1 : 0 < W.length := List.length_pos_iff.2 hWn
      cases n with
      | zero => omega
      | succ n =>
        obtain ⟨records, hr⟩ := recordsOf_exists lf cr d n R (by omega)
        refine ⟨(f :: fs) :: records, ?_⟩
        rw [hl, hWR, hfs, ← List.append_assoc]
        refine .record B R (f :: fs) records hbreaks (by simp) ?_ ?_ hR0 hr
        · intro h
          rw [h] at hfs
          exact hWn hfs
        · intro g hg c hc
          have := hf g hg c hc
          exact ⟨this.1, fun e => this.2 (Or.inl e), fun e => this.2 (Or.inr e)⟩

theorem encode_delimited (d : Char) (hd : d.toNat < 0x80) : ∀ fs : List Text,
    encodeUtf8 (delimited d fs) = delimited d.toNat (fs.map encodeUtf8)
  | [] => rfl
  | [_] => rfl
  | f :: g :: fs => by
    show encodeUtf8 (f ++ d :: delimited d (g :: fs)) = encodeUtf8 f ++ d.toNat :: delimited d.toNat _
    rw [encodeUtf8_append, encodeUtf8_cons, encodeChar_ascii hd, encode_delimited d hd (g :: fs)]
    rfl

theorem encode_breaks {breaks : Text} (h : ∀ c ∈ breaks, c = '\n' ∨ c = '\r') :
    ∀ b ∈ encodeUtf8 breaks, b = 10 ∨ b = 13 := by
  intro b hb
  obtain ⟨c, hc, hb⟩ := List.mem_flatMap.1 hb
  rcases h c hc with rfl | rfl
  · rw [encodeChar_ascii (by decide)] at hb; left; simpa using hb
  · rw [encodeChar_ascii (by decide)] at hb; right; simpa using hb

theorem recordsOf_encode {d : Char} (hd : d.toNat < 0x80) {t : Text} {records : List (List Text)}
    (h : RecordsOf '\n' '\r' d t records) :
    RecordsOf 10 13 d.toNat (encodeUtf8 t) (records.map fun r => r.map encodeUtf8) := by
  induction h with
  | nil breaks h => exact .nil _ (encode_breaks h)
  | record breaks rest fields records h hn hn' hf he _ ih =>
    rw [encodeUtf8_append, encodeUtf8_append, encode_delimited d hd, List.map_cons]
    refine .record _ _ _ _ (encode_breaks h) (by simpa using hn) ?_ ?_ ?_ ih
    · intro h
      cases fields with
      | nil => cases h
      | cons f fs =>
        cases fs with
        | nil =>
          simp only [List.map_cons, List.map_nil, List.cons.injEq, and_true] at h
          exact hn' (by rw [encodeUtf8_eq_nil.1 h])
        | cons g fs => simp at h
    · intro f hf' b hb
      obtain ⟨f, hmem, rfl⟩ := List.mem_map.1 hf'
      have key : ∀ x : Char, x.toNat < 0x80 → b = x.toNat → x ∈ f := by
        intro x hx e
        obtain ⟨c, hc, e'⟩ := mem_encodeUtf8 hb (by omega)
        exact toNat_inj (e'.trans e) ▸ hc
      exact ⟨fun e => (hf f hmem d (key d hd e)).1 rfl, fun e => (hf f hmem '\n' (key '\n' (by decide) e)).2.1 rfl,
        fun e => (hf f hmem '\r' (key '\r' (by decide) e)).2.2 rfl⟩
    · intro b hb
      cases rest with
      | nil => cases hb
      | cons c rest =>
        rcases he c rfl with rfl | rfl
        · rw [encodeUtf8_cons, encodeChar_ascii (by decide)] at hb
          left; simpa using hb.symm
        · rw [encodeUtf8_cons, encodeChar_ascii (by decide)] at hb
          right; simpa using hb.symm

theorem delimited_decodable (d : Char) (hd : d.toNat < 0x80) : ∀ fs : List (List Nat),
    (∀ f ∈ fs, ∃ t, f = encodeUtf8 t) → ∃ t, delimited d.toNat fs = encodeUtf8 t
  | [], _ => ⟨[], rfl⟩
  | [f], h => h f (by simp)
  | f :: g :: fs, h => by
    obtain ⟨t, ht⟩ := h f (by simp)
    obtain ⟨t', ht'⟩ := delimited_decodable d hd (g :: fs) fun x hx => h x (by simp at hx; simp [hx])
    refine ⟨t ++ d :: t', ?_⟩
    show f ++ d.toNat :: delimited d.toNat (g :: fs) = _
    rw [encodeUtf8_append, encodeUtf8_cons, encodeChar_ascii hd, ht, ht']
    rfl

theorem breaks_decodable : ∀ bs : List Nat, (∀ b ∈ bs, b = 10 ∨ b = 13) → ∃ t, bs = encodeUtf8 t
  | [], _ => ⟨[], rfl⟩
  | b :: bs, h => by
    obtain ⟨t, ht⟩ := breaks_decodable bs fun x hx => h x (by simp [hx])
    rcases h b (by simp) with rfl | rfl
    · exact ⟨'\n' :: t, by rw [encodeUtf8_cons, encodeChar_ascii (by decide), ← ht]; rfl⟩
    · exact ⟨'\r' :: t, by rw [encodeUtf8_cons, encodeChar_ascii (by decide), ← ht]; rfl⟩

theorem recordsOf_decodable {d : Char} (hd : d.toNat < 0x80) {bytes : List Nat} {records : List (List (List Nat))}
    (h : RecordsOf 10 13 d.toNat bytes records) (hf : ∀ r ∈ records, ∀ f ∈ r, ∃ t, f = encodeUtf8 t) :
    ∃ t, bytes = encodeUtf8 t := by
  induction h with
  | nil breaks h => exact breaks_decodable _ h
  | record breaks rest fields records h _ _ _ _ _ ih =>
    obtain ⟨t1, rfl⟩ := breaks_decodable breaks h
    obtain ⟨t2, h2⟩ := delimited_decodable d hd fields (hf fields (by simp))
    obtain ⟨t3, rfl⟩ := ih fun r hr => hf r (by simp [hr])
    exact ⟨t1 ++ t2 ++ t3, by rw [encodeUtf8_append, encodeUtf8_append, h2]⟩

theorem decodeFields_encode : ∀ fs : List Text, decodeFields (fs.map encodeUtf8) = some fs
  | [] => rfl
  | f :: fs => by
    rw [List.map_cons, decodeFields, decodeUtf8_encode, decodeFields_encode fs]
    rfl

theorem decodeFields_some : ∀ {fs : List (List Nat)} {ts : List Text}, decodeFields fs = some ts →
    fs = ts.map encodeUtf8
  | [], ts, h => by cases h; rfl
  | f :: fs, ts, h => by
    rw [decodeFields] at h
    cases hd : decodeUtf8 f with
    | none => rw [hd] at h; cases h
    | some t =>
      rw [hd] at h
      cases hd' : decodeFields fs with
      | none => rw [hd'] at h; cases h
      | some ts' =>
        rw [hd'] at h
        cases h
        rw [decodeUtf8_iff.1 hd, decodeFields_some hd']
        rfl

theorem readLines_safe (bytes : List Nat) : ∀ l ∈ readLines bytes, l ≠ .panic := by
  intro l hl
  obtain ⟨x, _, rfl⟩ := List.mem_map.1 hl
  unfold utf8OrErr
  split <;> simp

theorem csvCheck_safe (flexible : Bool) : ∀ (expected : Option Nat) (rs : List (List (List Nat))),
    ∀ x ∈ csvCheck flexible expected rs, x ≠ .panic
  | _, [], x, hx => by cases hx
  | expected, r :: rs, x, hx => by
    rw [csvCheck] at hx
    rcases List.mem_cons.1 hx with rfl | hx
    · split
      · simp
      · split <;> simp
    · exact csvCheck_safe flexible _ rs x hx

theorem csvRecords_safe (d : Nat) (flexible : Bool) (bytes : List Nat) :
    ∀ r ∈ csvRecords d flexible bytes, r ≠ .panic := csvCheck_safe flexible _ _

theorem csvFrom_ne_nil (d : Nat) : ∀ (bs : List Nat) (fields : List (List Nat)) (field : List Nat) (started : Bool),
    ∀ r ∈ csvFrom d fields field started bs, r ≠ []
  | [], fields, field, started, r, hr => by
    rw [csvFrom] at hr
    split at hr
    · cases List.mem_singleton.1 hr; simp
    · cases hr
  | b :: bs, fields, field, started, r, hr => by
    rw [csvFrom] at hr
    split at hr
    · split at hr
      · rcases List.mem_cons.1 hr with rfl | hr
        · simp
        · exact csvFrom_ne_nil d bs _ _ _ r hr
      · exact csvFrom_ne_nil d bs _ _ _ r hr
    · split at hr
      · exact csvFrom_ne_nil d bs _ _ _ r hr
      · exact csvFrom_ne_nil d bs _ _ _ r hr

theorem csvCheck_ne_nil (flexible : Bool) : ∀ (expected : Option Nat) (rs : List (List (List Nat))),
    (∀ r ∈ rs, r ≠ []) → ∀ r, .ok r ∈ csvCheck flexible expected rs → r ≠ []
  | _, [], _, r, hr => by cases hr
  | expected, x :: rs, h, r, hr => by
    rw [csvCheck] at hr
    rcases List.mem_cons.1 hr with he | hr
    · split at he
      · cases he
      · split at he
        · rename_i fields hfields
          cases he
          intro e
          subst e
          exact h x (by simp) (decodeFields_some hfields)
        · cases he
    · exact csvCheck_ne_nil flexible _ rs (fun r hr => h r (by simp [hr])) r hr

/-- Every record that is read has a field. -/
theorem csvRecords_ne_nil (d : Nat) (flexible : Bool) (bytes : List Nat) :
    ∀ r, .ok r ∈ csvRecords d flexible bytes → r ≠ [] :=
  csvCheck_ne_nil flexible _ _ (csvFrom_ne_nil d bytes [] [] false)

end Snips
