import Verif.Proofs.JsonStrings

/-! # Lemmas about JSON texts: the parser accepts exactly the texts of the grammar -/

namespace Snips

namespace JsonText

open JsonGrammar

theorem word_sound {w t rest : Text} {j j' : Json} (h : word w j t = some (j', rest)) : t = w ++ rest ∧ j' = j := by
  unfold word at h
  split at h
  · rename_i hp
    obtain ⟨r, rfl⟩ := hp
    cases h
    exact ⟨by simp, rfl⟩
  · cases h

theorem word_complete (w : Text) (j : Json) (rest : Text) : word w j (w ++ rest) = some (j, rest) := by
  simp [word]

/-! ## Soundness -/

/-- What the parser says of values, elements and entries is so. -/
structure Sound (env : JsonNumbers) (fuel : Nat) : Prop where
  value : ∀ d t j rest, value env fuel (d + 1) t = some (j, rest) → ∃ c, t = c ++ rest ∧ Value env.f64 d c j
  elements : ∀ d t l rest, elements env fuel (d + 1) t = some (l, rest) →
    ∃ c, t = c ++ ']' :: rest ∧ ∀ w, Ws w → Elements env.f64 d (w ++ c) l
  members : ∀ d t l rest, members env fuel (d + 1) t = some (l, rest) →
    ∃ c, t = c ++ '}' :: rest ∧ ∀ w, Ws w → Members env.f64 d (w ++ c) l

theorem value_sound_step {env : JsonNumbers} {fuel : Nat} (ih : Sound env fuel) (d : Nat) (t : Text) (j : Json)
    (rest : Text) (h : value env (fuel + 1) (d + 1) t = some (j, rest)) :
    ∃ c, t = c ++ rest ∧ Value env.f64 d c j := by
  cases t with
  | nil => simp [value] at h
  | cons c r =>
    rw [value] at h
    by_cases h1 : c = 'n'
    · rw [if_pos h1] at h
      obtain ⟨e, rfl⟩ := word_sound h
      exact ⟨_, e, Value.null d⟩
    rw [if_neg h1] at h
    by_cases h2 : c = 't'
    · rw [if_pos h2] at h
      obtain ⟨e, rfl⟩ := word_sound h
      exact ⟨_, e, Value.true d⟩
    rw [if_neg h2] at h
    by_cases h3 : c = 'f'
    · rw [if_pos h3] at h
      obtain ⟨e, rfl⟩ := word_sound h
      exact ⟨_, e, Value.false d⟩
    rw [if_neg h3] at h
    by_cases h4 : c = '"'
    · rw [if_pos h4, Option.map_eq_some_iff] at h
      obtain ⟨⟨s, r'⟩, hs, hh⟩ := h
      cases hh
      obtain ⟨c', e, hstr⟩ := string_sound hs
      exact ⟨c', e, Value.string d c' s hstr⟩
    rw [if_neg h4] at h
    by_cases h5 : c = '['
    · rw [if_pos h5] at h
      subst h5
      cases d with
      | zero => simp at h
      | succ d =>
        rw [if_neg (by omega)] at h
        obtain ⟨w, hw, hwr⟩ := skip_spec r
        by_cases hb : ∃ r', skip r = ']' :: r'
        · obtain ⟨r', hb⟩ := hb
          rw [hb] at h
          cases h
          rw [hb] at hwr
          exact ⟨'[' :: w ++ [']'], by rw [hwr]; simp, Value.emptyArray d w hw⟩
        · split at h
          · rename_i r' hr'; exact absurd ⟨r', hr'⟩ hb
          · rw [Option.map_eq_some_iff] at h
            obtain ⟨⟨l, r'⟩, hl, hh⟩ := h
            cases hh
            obtain ⟨c, e, hel⟩ := ih.elements d _ _ _ hl
            rw [e] at hwr
            exact ⟨'[' :: (w ++ c) ++ [']'], by rw [hwr]; simp, Value.array d (w ++ c) l (hel w hw)⟩
    rw [if_neg h5] at h
    by_cases h6 : c = '{'
    · rw [if_pos h6] at h
      subst h6
      cases d with
      | zero => simp at h
      | succ d =>
        rw [if_neg (by omega)] at h
        obtain ⟨w, hw, hwr⟩ := skip_spec r
        by_cases hb : ∃ r', skip r = '}' :: r'
        · obtain ⟨r', hb⟩ := hb
          rw [hb] at h
          cases h
          rw [hb] at hwr
          exact ⟨'{' :: w ++ ['}'], by rw [hwr]; simp, Value.emptyObject d w hw⟩
        · split at h
          · rename_i r' hr'; exact absurd ⟨r', hr'⟩ hb
          · rw [Option.map_eq_some_iff] at h
            obtain ⟨⟨l, r'⟩, hl, hh⟩ := h
            cases hh
            obtain ⟨c, e, hel⟩ := ih.members d _ _ _ hl
            rw [e] at hwr
            exact ⟨'{' :: (w ++ c) ++ ['}'], by rw [hwr]; simp, Value.object d (w ++ c) l (hel w hw)⟩
    rw [if_neg h6] at h
    obtain ⟨c', e, hn⟩ := number_sound h
    exact ⟨c', e, Value.number d c' j hn⟩

theorem elements_sound_step {env : JsonNumbers} {fuel : Nat} (ih : Sound env fuel) (d : Nat) (t : Text) (l : List Json)
    (rest : Text) (h : elements env (fuel + 1) (d + 1) t = some (l, rest)) :
    ∃ c, t = c ++ ']' :: rest ∧ ∀ w, Ws w → Elements env.f64 d (w ++ c) l := by
  rw [elements] at h
  cases hv : value env fuel (d + 1) t with
  | none => rw [hv] at h; cases h
  | some jr =>
    obtain ⟨j, r⟩ := jr
    rw [hv] at h
    simp only at h
    obtain ⟨c, rfl, hval⟩ := ih.value d _ _ _ hv
    obtain ⟨w', hw', hwr⟩ := skip_spec r
    split at h
    · rename_i r' hr'
      rw [Option.map_eq_some_iff] at h
      obtain ⟨⟨l', r''⟩, hl, hh⟩ := h
      cases hh
      obtain ⟨c', e, hel⟩ := ih.elements d _ _ _ hl
      obtain ⟨w₂, hw₂, hwr₂⟩ := skip_spec r'
      rw [e] at hwr₂
      rw [hr', hwr₂] at hwr
      refine ⟨c ++ w' ++ ',' :: (w₂ ++ c'), by rw [hwr]; simp, fun w hw => ?_⟩
      have := Elements.more d w c w' (w₂ ++ c') j l' hw hval hw' (hel w₂ hw₂)
      simpa using this
    · rename_i r' hr'
      cases h
      rw [hr'] at hwr
      refine ⟨c ++ w', by rw [hwr]; simp, fun w hw => ?_⟩
      have := Elements.one d w c w' j hw hval hw'
      simpa using this
    · cases h

theorem members_sound_step {env : JsonNumbers} {fuel : Nat} (ih : Sound env fuel) (d : Nat) (t : Text)
    (l : List (Text × Json)) (rest : Text) (h : members env (fuel + 1) (d + 1) t = some (l, rest)) :
    ∃ c, t = c ++ '}' :: rest ∧ ∀ w, Ws w → Members env.f64 d (w ++ c) l := by
  rw [members] at h
  cases hs : string t with
  | none => rw [hs] at h; cases h
  | some kr =>
    obtain ⟨k, r⟩ := kr
    rw [hs] at h
    simp only at h
    obtain ⟨ck, rfl, hstr⟩ := string_sound hs
    obtain ⟨w₁, hw₁, hwr₁⟩ := skip_spec r
    split at h
    · rename_i r1 hr1
      cases hv : value env fuel (d + 1) (skip r1) with
      | none => rw [hv] at h; cases h
      | some jr =>
        obtain ⟨j, r2⟩ := jr
        rw [hv] at h
        simp only at h
        obtain ⟨c, ec, hval⟩ := ih.value d _ _ _ hv
        obtain ⟨w₂, hw₂, hwr₂⟩ := skip_spec r1
        obtain ⟨w', hw', hwr'⟩ := skip_spec r2
        rw [hr1, hwr₂, ec] at hwr₁
        split at h
        · rename_i r3 hr3
          rw [Option.map_eq_some_iff] at h
          obtain ⟨⟨l', r''⟩, hl, hh⟩ := h
          cases hh
          obtain ⟨c', e, hel⟩ := ih.members d _ _ _ hl
          obtain ⟨w₃, hw₃, hwr₃⟩ := skip_spec r3
          rw [e] at hwr₃
          rw [hr3, hwr₃] at hwr'
          refine ⟨ck ++ w₁ ++ ':' :: w₂ ++ c ++ w' ++ ',' :: (w₃ ++ c'), by rw [hwr₁, hwr']; simp, fun w hw => ?_⟩
          have := Members.more d w ck w₁ w₂ c w' k (w₃ ++ c') j l' hw hstr hw₁ hw₂ hval hw' (hel w₃ hw₃)
          simpa using this
        · rename_i r3 hr3
          cases h
          rw [hr3] at hwr'
          refine ⟨ck ++ w₁ ++ ':' :: w₂ ++ c ++ w', by rw [hwr₁, hwr']; simp, fun w hw => ?_⟩
          have := Members.one d w ck w₁ w₂ c w' k j hw hstr hw₁ hw₂ hval hw'
          simpa using this
        · cases h
    · cases h

theorem sound (env : JsonNumbers) (fuel : Nat) : Sound env fuel := by
  induction fuel with
  | zero =>
    constructor
    · intro d t j rest h; simp [value] at h
    · intro d t j rest h; simp [elements] at h
    · intro d t j rest h; simp [members] at h
  | succ fuel ih => exact ⟨value_sound_step ih, elements_sound_step ih, members_sound_step ih⟩

/-! ## Completeness -/

theorem digit_facts {c : Char} (h : Digit c) : isSpace c = false ∧ c ≠ ']' ∧ c ≠ '}' ∧ c ≠ 'n' ∧ c ≠ 't' ∧ c ≠ 'f' ∧
    c ≠ '"' ∧ c ≠ '[' ∧ c ≠ '{' := by
  unfold Digit at h
  refine ⟨?_, ?_, ?_, ?_, ?_, ?_, ?_, ?_, ?_⟩
  · rw [← Bool.not_eq_true, isSpace_iff]; omega
  all_goals
    rw [Ne, char_eq_iff]
    intro hc
    rw [hc] at h
    exact absurd h (by decide)

theorem number_head {f64 : ℚ → Option ℚ} {c : Text} {j : Json} (h : Number f64 c j) :
    ∃ ch l, c = ch :: l ∧ isSpace ch = false ∧ ch ≠ ']' ∧ ch ≠ '}' ∧ ch ≠ 'n' ∧ ch ≠ 't' ∧ ch ≠ 'f' ∧
      ch ≠ '"' ∧ ch ≠ '[' ∧ ch ≠ '{' := by
  have key : ∀ (sign int rest : Text) (s : Int), SignPart sign s → IntPart int →
      ∃ ch l, sign ++ (int ++ rest) = ch :: l ∧ isSpace ch = false ∧ ch ≠ ']' ∧ ch ≠ '}' ∧ ch ≠ 'n' ∧ ch ≠ 't' ∧
        ch ≠ 'f' ∧ ch ≠ '"' ∧ ch ≠ '[' ∧ ch ≠ '{' := by
    intro sign int rest s hs hi
    cases hs with
    | none =>
      obtain ⟨ch, l, e, hd⟩ := intPart_head (rest := rest) hi
      exact ⟨ch, l, e, digit_facts hd⟩
    | minus => exact ⟨'-', _, rfl, by decide⟩
  cases h with
  | int sign int s hs hi _ _ => simpa using key sign int [] s hs hi
  | big sign int s q hs hi _ _ => simpa using key sign int [] s hs hi
  | float sign int frac exp fs s e q hs hi _ _ _ _ => simpa using key sign int (frac ++ exp) s hs hi

theorem value_head {f64 : ℚ → Option ℚ} {d : Nat} {c : Text} {j : Json} (h : Value f64 d c j) :
    ∃ ch l, c = ch :: l ∧ isSpace ch = false ∧ ch ≠ ']' ∧ ch ≠ '}' := by
  cases h with
  | null => exact ⟨'n', _, rfl, by decide⟩
  | true => exact ⟨'t', _, rfl, by decide⟩
  | false => exact ⟨'f', _, rfl, by decide⟩
  | number _ _ _ hn =>
    obtain ⟨ch, l, e, h1, h2, h3, -⟩ := number_head hn
    exact ⟨ch, l, e, h1, h2, h3⟩
  | string _ _ _ hs => cases hs; exact ⟨'"', _, rfl, by decide⟩
  | emptyArray => exact ⟨'[', _, rfl, by decide⟩
  | array => exact ⟨'[', _, rfl, by decide⟩
  | emptyObject => exact ⟨'{', _, rfl, by decide⟩
  | object => exact ⟨'{', _, rfl, by decide⟩

theorem str_head {k key : Text} (h : Str k key) : ∃ l, k = '"' :: l := by cases h; exact ⟨_, rfl⟩

theorem stops_ws {w rest : Text} {c : Char} (hw : Ws w) (hc : c = ',' ∨ c = ']' ∨ c = '}') : Stops (w ++ c :: rest) := by
  intro x hx
  have hx' : isSpace x = true ∨ x = c := by
    cases w with
    | nil => exact Or.inr (by simpa using hx.symm)
    | cons y w => simp only [List.cons_append, List.head?_cons, Option.some.injEq] at hx
                  subst hx; exact Or.inl (ws_iff.1 hw _ (by simp))
  rcases hx' with h | rfl
  · rw [isSpace_iff] at h
    refine ⟨?_, ?_, ?_, ?_⟩
    · rw [← Bool.not_eq_true, isDigit_iff]; unfold Digit; omega
    all_goals
      rw [Ne, char_eq_iff]
      intro hc
      rw [hc] at h
      exact absurd h (by decide)
  · rcases hc with rfl | rfl | rfl <;> decide

theorem stops_of_ws {w : Text} (hw : Ws w) : Stops w := by
  intro x hx
  have h : isSpace x = true := ws_iff.1 hw x (List.mem_of_mem_head? hx)
  rw [isSpace_iff] at h
  refine ⟨?_, ?_, ?_, ?_⟩
  · rw [← Bool.not_eq_true, isDigit_iff]; unfold Digit; omega
  all_goals
    rw [Ne, char_eq_iff]
    intro hc
    rw [hc] at h
    exact absurd h (by decide)

/-- The parser finds the values, elements and entries of the grammar. -/
structure Complete (env : JsonNumbers) (fuel : Nat) : Prop where
  value : ∀ d c j rest, Value env.f64 d c j → c.length ≤ fuel → Stops rest →
    value env fuel (d + 1) (c ++ rest) = some (j, rest)
  elements : ∀ d c l rest, Elements env.f64 d c l → c.length + 1 ≤ fuel →
    elements env fuel (d + 1) (skip (c ++ ']' :: rest)) = some (l, rest)
  members : ∀ d c l rest, Members env.f64 d c l → c.length + 1 ≤ fuel →
    members env fuel (d + 1) (skip (c ++ '}' :: rest)) = some (l, rest)

theorem elements_skip {f64 : ℚ → Option ℚ} {d : Nat} {c : Text} {l : List Json} (h : Elements f64 d c l) (rest : Text) :
    ∀ r, skip (c ++ rest) ≠ ']' :: r := by
  have key : ∀ (w t r : Text) (j : Json), Ws w → Value f64 d t j → ∀ r', skip (w ++ (t ++ r)) ≠ ']' :: r' := by
    intro w t r j hw hv r' he
    obtain ⟨ch, l, rfl, h1, h2, -⟩ := value_head hv
    rw [List.cons_append, skip_ws hw (noSpace_cons h1)] at he
    exact h2 (List.cons.inj he).1
  intro r
  cases h with
  | one _ w t w' j hw hv hw' => simpa using key w t (w' ++ rest) j hw hv r
  | more _ w t w' ts j l hw hv hw' _ => simpa using key w t (w' ++ ',' :: ts ++ rest) j hw hv r

theorem members_skip {f64 : ℚ → Option ℚ} {d : Nat} {c : Text} {l : List (Text × Json)} (h : Members f64 d c l)
    (rest : Text) : ∀ r, skip (c ++ rest) ≠ '}' :: r := by
  have key : ∀ (w k r key : Text), Ws w → Str k key → ∀ r', skip (w ++ (k ++ r)) ≠ '}' :: r' := by
    intro w k r key hw hk r' he
    obtain ⟨l, rfl⟩ := str_head hk
    rw [List.cons_append, skip_ws hw (noSpace_cons (by decide))] at he
    exact absurd (List.cons.inj he).1 (by decide)
  intro r
  cases h with
  | one _ w k w₁ w₂ t w' ky j hw hk h1 h2 hv hw' => simpa using key w k (w₁ ++ ':' :: w₂ ++ t ++ w' ++ rest) ky hw hk r
  | more _ w k w₁ w₂ t w' ky ts j l hw hk h1 h2 hv hw' _ =>
    simpa using key w k (w₁ ++ ':' :: w₂ ++ t ++ w' ++ ',' :: ts ++ rest) ky hw hk r

theorem value_complete_step {env : JsonNumbers} {fuel : Nat} (ih : Complete env fuel) (d : Nat) (c : Text) (j : Json)
    (rest : Text) (h : Value env.f64 d c j) (hf : c.length ≤ fuel + 1) (hr : Stops rest) :
    value env (fuel + 1) (d + 1) (c ++ rest) = some (j, rest) := by
  cases h with
  | null =>
    show value env (fuel + 1) (d + 1) ('n' :: ("ull".toList ++ rest)) = _
    rw [value]
    exact word_complete "null".toList _ rest
  | true =>
    show value env (fuel + 1) (d + 1) ('t' :: ("rue".toList ++ rest)) = _
    rw [value]
    exact word_complete "true".toList _ rest
  | false =>
    show value env (fuel + 1) (d + 1) ('f' :: ("alse".toList ++ rest)) = _
    rw [value]
    exact word_complete "false".toList _ rest
  | number _ _ _ hn =>
    have hc := number_complete (env := env) hn hr
    obtain ⟨ch, l, rfl, -, -, -, h1, h2, h3, h4, h5, h6⟩ := number_head hn
    simp only [List.cons_append] at hc ⊢
    rw [value, if_neg h1, if_neg h2, if_neg h3, if_neg h4, if_neg h5, if_neg h6, hc]
  | string _ _ s hs =>
    have hc := string_complete hs rest
    obtain ⟨l, rfl⟩ := str_head hs
    simp only [List.cons_append] at hc ⊢
    rw [value, if_neg (by decide), if_neg (by decide), if_neg (by decide), if_pos rfl, hc]
    rfl
  | emptyArray d w hw =>
    simp only [List.cons_append, List.append_assoc, List.nil_append]
    rw [value, if_neg (by decide), if_neg (by decide), if_neg (by decide), if_neg (by decide), if_pos rfl, if_neg (by omega),
      skip_ws hw (noSpace_cons (by decide))]
    rfl
  | array d t l he =>
    have hc := ih.elements d t l rest he (by simp at hf; omega)
    simp only [List.cons_append, List.append_assoc, List.nil_append]
    rw [value, if_neg (by decide), if_neg (by decide), if_neg (by decide), if_neg (by decide), if_pos rfl, if_neg (by omega)]
    split
    · rename_i r hr'; exact absurd hr' (elements_skip he _ r)
    · rw [Nat.add_sub_cancel, hc]; rfl
  | emptyObject d w hw =>
    simp only [List.cons_append, List.append_assoc, List.nil_append]
    rw [value, if_neg (by decide), if_neg (by decide), if_neg (by decide), if_neg (by decide), if_neg (by decide), if_pos rfl,
      if_neg (by omega), skip_ws hw (noSpace_cons (by decide))]
    rfl
  | object d t l he =>
    have hc := ih.members d t l rest he (by simp at hf; omega)
    simp only [List.cons_append, List.append_assoc, List.nil_append]
    rw [value, if_neg (by decide), if_neg (by decide), if_neg (by decide), if_neg (by decide), if_neg (by decide), if_pos rfl,
      if_neg (by omega)]
    split
    · rename_i r hr'; exact absurd hr' (members_skip he _ r)
    · rw [Nat.add_sub_cancel, hc]; rfl

theorem elements_complete_step {env : JsonNumbers} {fuel : Nat} (ih : Complete env fuel) (d : Nat) (c : Text)
    (l : List Json) (rest : Text) (h : Elements env.f64 d c l) (hf : c.length + 1 ≤ fuel + 1) :
    elements env (fuel + 1) (d + 1) (skip (c ++ ']' :: rest)) = some (l, rest) := by
  cases h with
  | one _ w t w' j hw hv hw' =>
    obtain ⟨ch, r, e, h1, -⟩ := value_head hv
    have hs : skip (w ++ t ++ w' ++ ']' :: rest) = t ++ (w' ++ ']' :: rest) := by
      rw [List.append_assoc, List.append_assoc]
      exact skip_ws hw (by rw [e]; exact noSpace_cons h1)
    have hc := ih.value d t j (w' ++ ']' :: rest) hv (by simp at hf; omega) (stops_ws hw' (by decide))
    rw [hs, elements, hc]
    simp only
    rw [skip_ws hw' (noSpace_cons (by decide))]
    rfl
  | more _ w t w' ts j l hw hv hw' hl =>
    obtain ⟨ch, r, e, h1, -⟩ := value_head hv
    have hs : skip (w ++ t ++ w' ++ ',' :: ts ++ ']' :: rest) = t ++ (w' ++ ',' :: (ts ++ ']' :: rest)) := by
      rw [List.append_assoc, List.append_assoc, List.append_assoc]
      exact skip_ws hw (by rw [e]; exact noSpace_cons h1)
    have hc := ih.value d t j (w' ++ ',' :: (ts ++ ']' :: rest)) hv (by simp at hf; omega) (stops_ws hw' (by decide))
    have hl := ih.elements d ts l rest hl (by simp at hf; omega)
    rw [hs, elements, hc]
    simp only
    rw [skip_ws hw' (noSpace_cons (by decide))]
    simp only
    rw [hl]
    rfl

theorem members_complete_step {env : JsonNumbers} {fuel : Nat} (ih : Complete env fuel) (d : Nat) (c : Text)
    (l : List (Text × Json)) (rest : Text) (h : Members env.f64 d c l) (hf : c.length + 1 ≤ fuel + 1) :
    members env (fuel + 1) (d + 1) (skip (c ++ '}' :: rest)) = some (l, rest) := by
  cases h with
  | one _ w k w₁ w₂ t w' ky j hw hk h1 h2 hv hw' =>
    obtain ⟨lk, ek⟩ := str_head hk
    obtain ⟨ch, r, e, hch, -⟩ := value_head hv
    have hs : skip (w ++ k ++ w₁ ++ ':' :: w₂ ++ t ++ w' ++ '}' :: rest) =
        k ++ (w₁ ++ ':' :: (w₂ ++ (t ++ (w' ++ '}' :: rest)))) := by
      simp only [List.append_assoc, List.cons_append]
      exact skip_ws hw (by rw [ek]; exact noSpace_cons (by decide))
    have hc := ih.value d t j (w' ++ '}' :: rest) hv (by simp at hf; omega) (stops_ws hw' (by decide))
    rw [hs, members, string_complete hk]
    simp only
    rw [skip_ws h1 (noSpace_cons (by decide))]
    simp only
    rw [skip_ws h2 (by rw [e]; exact noSpace_cons hch), hc]
    simp only
    rw [skip_ws hw' (noSpace_cons (by decide))]
    rfl
  | more _ w k w₁ w₂ t w' ky ts j l hw hk h1 h2 hv hw' hl =>
    obtain ⟨lk, ek⟩ := str_head hk
    obtain ⟨ch, r, e, hch, -⟩ := value_head hv
    have hs : skip (w ++ k ++ w₁ ++ ':' :: w₂ ++ t ++ w' ++ ',' :: ts ++ '}' :: rest) =
        k ++ (w₁ ++ ':' :: (w₂ ++ (t ++ (w' ++ ',' :: (ts ++ '}' :: rest))))) := by
      simp only [List.append_assoc, List.cons_append]
      exact skip_ws hw (by rw [ek]; exact noSpace_cons (by decide))
    have hc := ih.value d t j (w' ++ ',' :: (ts ++ '}' :: rest)) hv (by simp at hf; omega) (stops_ws hw' (by decide))
    have hl := ih.members d ts l rest hl (by simp at hf; omega)
    rw [hs, members, string_complete hk]
    simp only
    rw [skip_ws h1 (noSpace_cons (by decide))]
    simp only
    rw [skip_ws h2 (by rw [e]; exact noSpace_cons hch), hc]
    simp only
    rw [skip_ws hw' (noSpace_cons (by decide))]
    simp only
    rw [hl]
    rfl

theorem complete (env : JsonNumbers) (fuel : Nat) : Complete env fuel := by
  induction fuel with
  | zero =>
    constructor
    · intro d c j rest h hf
      obtain ⟨ch, r, e, -⟩ := value_head h
      rw [e] at hf
      simp at hf
    · intro d t j rest h hf; simp at hf
    · intro d t j rest h hf; simp at hf
  | succ fuel ih => exact ⟨value_complete_step ih, elements_complete_step ih, members_complete_step ih⟩

theorem skip_eq_nil {t : Text} : skip t = [] ↔ Ws t := by
  constructor
  · intro h
    obtain ⟨w, hw, e⟩ := skip_spec t
    rw [h, List.append_nil] at e
    rw [e]; exact hw
  · intro h
    have := skip_ws h noSpace_nil
    simpa using this

/-- The parser accepts exactly the documents of the grammar. -/
theorem parse_iff (env : JsonNumbers) (t : Text) (j : Json) :
    parse env t = some j ↔ Document env.f64 127 t j := by
  constructor
  · intro h
    unfold parse at h
    split at h
    · cases h
    · rename_i j' rest hv
      split at h
      · rename_i hs
        cases h
        obtain ⟨c, e, hval⟩ := (sound env _).value 127 _ _ _ hv
        obtain ⟨w, hw, hwr⟩ := skip_spec t
        rw [e] at hwr
        rw [hwr, ← List.append_assoc]
        exact Document.mk w c rest _ hw hval (skip_eq_nil.1 hs)
      · cases h
  · rintro ⟨w, c, w', j, hw, hv, hw'⟩
    obtain ⟨ch, r, e, h1, -⟩ := value_head hv
    have hs : skip (w ++ c ++ w') = c ++ w' := by
      rw [List.append_assoc]
      exact skip_ws hw (by rw [e]; exact noSpace_cons h1)
    have hc := (complete env ((w ++ c ++ w').length + 1)).value 127 c j w' hv (by simp; omega) (stops_of_ws hw')
    unfold parse
    rw [hs, hc]
    simp only
    rw [if_pos (skip_eq_nil.2 hw')]

end JsonText

end Snips
