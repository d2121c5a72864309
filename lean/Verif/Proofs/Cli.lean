import Verif.Spec.Cli
import Verif.Proofs.JsonWrite
import Verif.Proofs.ResultJson
import Verif.Proofs.Readers
import Verif.Proofs.Resources
import Verif.Proofs.Cache

/-! # Lemmas about the interactive program -/

namespace Snips

open JsonGrammar JsonText Shown ResultJson

/-! ### The JSON text -/

theorem ws_indent (n : Nat) : Ws (indentText n) := by
  induction n with
  | zero => exact ws_nil
  | succ n ih =>
    intro c hc
    simp only [indentText, List.mem_cons] at hc
    rcases hc with rfl | rfl | hc
    · left; rfl
    · left; rfl
    · exact ih c hc

theorem ws_newline (n : Nat) : Ws ('\n' :: indentText n) := by
  intro c hc
  rcases List.mem_cons.1 hc with rfl | hc
  · right; right; left; rfl
  · exact ws_indent n c hc

theorem ws_space : Ws [' '] := by
  intro c hc
  obtain rfl := List.mem_singleton.1 hc
  left; rfl

theorem elements_pretty {env : JsonNumbers} {d k i : Nat} {l : List Json} (hne : l ≠ [])
    (h : ∀ j ∈ l, Value env.f64 d (pretty env k j) j) :
    Elements env.f64 d (prettyElements env k l ++ '\n' :: indentText i) l := by
  induction l with
  | nil => exact absurd rfl hne
  | cons j l ih =>
    cases l with
    | nil =>
      have := Elements.one (f64 := env.f64) d ('\n' :: indentText k) (pretty env k j) ('\n' :: indentText i) j (ws_newline k)
        (h j (by simp)) (ws_newline i)
      simpa [prettyElements] using this
    | cons j' l =>
      have := Elements.more (f64 := env.f64) d ('\n' :: indentText k) (pretty env k j) [] _ j (j' :: l) (ws_newline k)
        (h j (by simp)) ws_nil (ih (by simp) fun k hk => h k (by simp [hk]))
      simpa [prettyElements] using this

theorem members_pretty {env : JsonNumbers} {d k i : Nat} {l : List (Text × Json)} (hne : l ≠ [])
    (h : ∀ e ∈ l, Value env.f64 d (pretty env k e.2) e.2) :
    Members env.f64 d (prettyMembers env k l ++ '\n' :: indentText i) l := by
  induction l with
  | nil => exact absurd rfl hne
  | cons e l ih =>
    obtain ⟨n, j⟩ := e
    cases l with
    | nil =>
      have := Members.one (f64 := env.f64) d ('\n' :: indentText k) (writeString n) [] [' '] (pretty env k j)
        ('\n' :: indentText i) n j (ws_newline k) (str_writeString n) ws_nil ws_space (h (n, j) (by simp)) (ws_newline i)
      simpa [prettyMembers] using this
    | cons e' l =>
      have := Members.more (f64 := env.f64) d ('\n' :: indentText k) (writeString n) [] [' '] (pretty env k j) [] n _ j
        (e' :: l) (ws_newline k) (str_writeString n) ws_nil ws_space (h (n, j) (by simp)) ws_nil
        (ih (by simp) fun x hx => h x (by simp [hx]))
      simpa [prettyMembers] using this

theorem pretty_grammar {env : JsonNumbers} {d : Nat} {j : Json} (h : Writable env.f64 env.show' d j) :
    ∀ k, Value env.f64 d (pretty env k j) j := by
  induction h with
  | null d => intro k; rw [pretty]; exact Value.null d
  | bool d b => intro k; cases b <;> rw [pretty]; exact Value.false d; exact Value.true d
  | int d n h1 h2 => intro k; rw [pretty]; exact Value.number d _ _ (number_writeInt _ n h1 h2)
  | float d q h => intro k; rw [pretty]; exact Value.number d _ _ h
  | str d t => intro k; rw [pretty]; exact Value.string d _ t (str_writeString t)
  | arr d l _ ih =>
    intro k
    rw [pretty]
    by_cases hl : l = []
    · rw [if_pos hl]; subst hl; exact Value.emptyArray d [] ws_nil
    · rw [if_neg hl]
      exact Value.array d _ l (elements_pretty hl fun j hj => ih j hj (k + 1))
  | obj d l _ ih =>
    intro k
    rw [pretty]
    by_cases hl : l = []
    · rw [if_pos hl]; subst hl; exact Value.emptyObject d [] ws_nil
    · rw [if_neg hl]
      exact Value.object d _ l (members_pretty hl fun j hj => ih j hj (k + 1))

theorem document_pretty {w : Writing} {j : Json} (h : Writable w.f64 w.textOf 127 j) :
    Document w.f64 127 (pretty (numbers w) 0 j) j := by
  have := Document.mk (f64 := w.f64) (d := 127) [] _ [] j ws_nil (pretty_grammar (env := numbers w) h 0) ws_nil
  simpa using this

/-! ### White space -/

theorem isWhitespace_iff (c : Char) : isWhitespace c = true ↔ c.toNat ∈ whiteSpace := by
  unfold isWhitespace whiteSpace
  simp only [Bool.or_eq_true, decide_eq_true_eq, beq_iff_eq, List.mem_cons, List.not_mem_nil, or_false]
  omega

theorem dropWhile_split (p : Char → Bool) (t : Text) :
    ∃ a, t = a ++ t.dropWhile p ∧ (∀ c ∈ a, p c = true) ∧ ∀ c ∈ (t.dropWhile p).head?, p c = false := by
  induction t with
  | nil => exact ⟨[], rfl, by simp, by simp⟩
  | cons c t ih =>
    by_cases h : p c
    · obtain ⟨a, h1, h2, h3⟩ := ih
      rw [List.dropWhile_cons_of_pos h]
      refine ⟨c :: a, by rw [List.cons_append, ← h1], ?_, h3⟩
      intro x hx
      rcases List.mem_cons.1 hx with rfl | hx
      · exact h
      · exact h2 x hx
    · rw [List.dropWhile_cons_of_neg h]
      refine ⟨[], rfl, by simp, ?_⟩
      intro x hx
      rw [List.head?_cons, Option.mem_some_iff] at hx
      subst hx
      simpa using h

theorem trimmed_trimText (t : Text) : Trimmed t (trimText t) := by
  obtain ⟨a, h1, h2, h3⟩ := dropWhile_split isWhitespace t
  obtain ⟨b, g1, g2, g3⟩ := dropWhile_split isWhitespace (t.dropWhile isWhitespace).reverse
  have g1' := congrArg List.reverse g1
  rw [List.reverse_reverse, List.reverse_append] at g1'
  refine ⟨a, b.reverse, ?_, fun c hc => (isWhitespace_iff c).1 (h2 c hc),
    fun c hc => (isWhitespace_iff c).1 (g2 c (List.mem_reverse.1 hc)), ?_, ?_⟩
  · unfold trimText
    rw [List.append_assoc, ← g1', ← h1]
  · intro c hc hw
    rw [← isWhitespace_iff] at hw
    have := h3 c (by
      rw [g1', List.head?_append]
      unfold trimText at hc
      rw [Option.mem_def.1 hc]
      rfl)
    rw [hw] at this
    cases this
  · intro c hc hw
    rw [← isWhitespace_iff] at hw
    unfold trimText at hc
    rw [List.getLast?_reverse] at hc
    have := g3 c hc
    rw [hw] at this
    cases this

theorem trimmed_unique {t u v : Text} (h : Trimmed t u) (h' : Trimmed t v) : u = v := by
  have key : ∀ {a u b a' u' b' : Text}, a ++ u ++ b = a' ++ u' ++ b' → (∀ c ∈ a, c.toNat ∈ whiteSpace) →
      (∀ c ∈ u'.head?, c.toNat ∉ whiteSpace) → (∀ c ∈ b, c.toNat ∈ whiteSpace) → u' ≠ [] → a.length ≤ a'.length := by
    intro a u b a' u' b' he ha hu hb hne
    by_contra hlt
    obtain ⟨x, xs, rfl⟩ := List.exists_cons_of_ne_nil hne
    have h1 : (a ++ u ++ b)[a'.length]? = some x := by
      rw [he, List.append_assoc, List.getElem?_append_right (le_refl _), Nat.sub_self]
      rfl
    rw [List.append_assoc, List.getElem?_append_left (by omega)] at h1
    exact hu x rfl (ha x (List.mem_of_getElem? h1))
  have rev : ∀ {t u : Text}, Trimmed t u → Trimmed t.reverse u.reverse := by
    rintro t u ⟨a, b, rfl, h1, h2, h3, h4⟩
    refine ⟨b.reverse, a.reverse, by simp, by simpa using h2, by simpa using h1, ?_, ?_⟩
    · rw [List.head?_reverse]; exact h4
    · rw [List.getLast?_reverse]; exact h3
  have empty : ∀ {t v : Text}, Trimmed t [] → Trimmed t v → v = [] := by
    rintro t v ⟨a, b, rfl, h1, h2, -, -⟩ ⟨a', b', he, -, -, h3, -⟩
    by_contra hv
    obtain ⟨x, xs, rfl⟩ := List.exists_cons_of_ne_nil hv
    have hx : x ∈ a ++ [] ++ b := by rw [he]; simp
    rw [List.append_nil] at hx
    rcases List.mem_append.1 hx with hx | hx
    · exact h3 x rfl (h1 x hx)
    · exact h3 x rfl (h2 x hx)
  by_cases hu : u = []
  · subst hu
    exact (empty h h').symm
  by_cases hv : v = []
  · subst hv
    exact empty h' h
  have hr := rev h
  have hr' := rev h'
  have e1 := h
  obtain ⟨a, b, rfl, ha, hb, hh, hl⟩ := h
  obtain ⟨a', b', he, ha', hb', hh', hl'⟩ := h'
  have l1 := key he ha hh' hb hv
  have l2 := key he.symm ha' hh hb' hu
  have he' : b.reverse ++ u.reverse ++ a.reverse = b'.reverse ++ v.reverse ++ a'.reverse := by
    have := congrArg List.reverse he
    simpa using this
  have l3 := key he' (by simpa using hb) (by rw [List.head?_reverse]; exact hl') (by simpa using ha) (by simpa using hv)
  have l4 := key he'.symm (by simpa using hb') (by rw [List.head?_reverse]; exact hl) (by simpa using ha') (by simpa using hu)
  rw [List.length_reverse, List.length_reverse] at l3 l4
  have hlen := congrArg List.length he
  simp only [List.length_append] at hlen
  rw [List.append_assoc, List.append_assoc] at he
  have := (List.append_inj he (by omega)).2
  exact (List.append_inj this (by omega)).1

/-! ### Numbers of options -/

theorem digits_iff (t : Text) : Digits t ↔ t ≠ [] ∧ ∀ c ∈ t, '0' ≤ c ∧ c ≤ '9' := Iff.rfl

theorem parseUsize_iff (t : Text) (n : Nat) : parseUsize t = some n ↔ OptionNumber (some t) n := by
  have key : parseUsize t = some n ↔ n < 2 ^ 64 ∧ decimalValue (dropPlus t) = some n := by
    unfold parseUsize
    cases hd : decimalValue (dropPlus t) with
    | none => simp
    | some k =>
      simp only [Option.some.injEq]
      by_cases hk : k < 18446744073709551616
      · rw [if_pos hk]
        constructor
        · intro e; cases e; exact ⟨by norm_num; exact hk, rfl⟩
        · rintro ⟨_, rfl⟩; rfl
      · rw [if_neg hk]
        constructor
        · intro e; cases e
        · rintro ⟨h, rfl⟩; norm_num at h; exact absurd h hk
  rw [key, decimalValue_some]
  constructor
  · rintro ⟨h1, h2, h3, h4⟩
    refine .given t (dropPlus t) n ?_ ⟨h2, h3⟩ h4 h1
    cases t with
    | nil => exact .inl rfl
    | cons c rest =>
      by_cases hc : c = '+'
      · subst hc; exact .inr rfl
      · left; simp [dropPlus, hc]
  · intro h
    cases h with
    | given _ digits _ h1 h2 h3 h4 =>
      have hd : dropPlus t = digits := by
        rcases h1 with rfl | rfl
        · obtain ⟨c, rest, rfl⟩ := List.exists_cons_of_ne_nil h2.1
          have hc : c ≠ '+' := by
            rintro rfl
            exact absurd (h2.2 '+' (by simp)).1 (by decide)
          simp [dropPlus, hc]
        · simp [dropPlus]
      rw [hd]
      exact ⟨h4, h2.1, h2.2, h3⟩

theorem cliNumber_iff (o : Option Text) (n : Nat) : cliNumber o = .ok n ↔ OptionNumber o n := by
  cases o with
  | none =>
    constructor
    · intro h; cases h; exact .absent
    · intro h; cases h; rfl
  | some t =>
    rw [← parseUsize_iff]
    simp only [cliNumber]
    cases parseUsize t with
    | none => simp
    | some k => simp

theorem cliNumber_panic (o : Option Text) (h : ¬ ∃ n, OptionNumber o n) : cliNumber o = .panic := by
  cases o with
  | none => exact absurd ⟨0, .absent⟩ h
  | some t =>
    simp only [cliNumber]
    cases hp : parseUsize t with
    | none => rfl
    | some k => exact absurd ⟨k, (parseUsize_iff t k).1 hp⟩ h

/-! ### Lines -/

theorem readLine_line (b rest : List Nat) (h : 10 ∉ b) : readLine (b ++ 10 :: rest) = (b ++ [10], rest) := by
  induction b with
  | nil => simp [readLine]
  | cons x b ih =>
    simp only [List.mem_cons, not_or] at h
    rw [List.cons_append, readLine, if_neg (Ne.symm h.1), ih h.2]
    rfl

theorem readLine_last (b : List Nat) (h : 10 ∉ b) : readLine b = (b, []) := by
  induction b with
  | nil => rfl
  | cons x b ih =>
    simp only [List.mem_cons, not_or] at h
    rw [readLine, if_neg (Ne.symm h.1), ih h.2]

theorem trimText_eq {t u : Text} (h : Trimmed t u) : trimText t = u := trimmed_unique (trimmed_trimText t) h

theorem trimText_newline (t : Text) : trimText (t ++ ['\n']) = trimText t := by
  apply trimText_eq
  obtain ⟨a, b, h, h1, h2, h3⟩ := trimmed_trimText t
  refine ⟨a, b ++ ['\n'], by rw [← List.append_assoc, ← h], h1, ?_, h3⟩
  intro c hc
  rcases List.mem_append.1 hc with hc | hc
  · exact h2 c hc
  · obtain rfl := List.mem_singleton.1 hc
    decide

theorem newline_notMem {t : Text} (h : '\n' ∉ t) : 10 ∉ encodeUtf8 t := encode_no_byte (d := '\n') (by decide) h

/-- Reading a line with its line feed. -/
theorem read_line {t : Text} (h : '\n' ∉ t) (rest : List Nat) :
    readLine (encodeUtf8 (t ++ ['\n']) ++ rest) = (encodeUtf8 (t ++ ['\n']), rest) := by
  have e : encodeUtf8 (t ++ ['\n']) = encodeUtf8 t ++ [10] := encodeUtf8_append t ['\n']
  rw [e, List.append_assoc]
  exact readLine_line _ _ (newline_notMem h)

/-- What is left after some lines. -/
def leftBytes (lines : List Text) (tail : List Nat) (i : Nat) : List Nat :=
  encodeUtf8 ((lines.drop i).flatMap (· ++ ['\n'])) ++ tail

/-- One round reads the next line. -/
def ReadsLine (inp inp' : List Nat) (line : Text) : Prop :=
  ∃ q, decodeUtf8 (readLine inp).1 = some q ∧ (readLine inp).2 = inp' ∧ trimText q = trimText line

theorem reads_line {lines : List Text} {tail : List Nat} (hl : ∀ t ∈ lines, '\n' ∉ t) {i : Nat} {t : Text}
    (hi : lines[i]? = some t) : ReadsLine (leftBytes lines tail i) (leftBytes lines tail (i + 1)) t := by
  obtain ⟨hlt, rfl⟩ := List.getElem?_eq_some_iff.1 hi
  have e : leftBytes lines tail i = encodeUtf8 (lines[i] ++ ['\n']) ++ leftBytes lines tail (i + 1) := by
    unfold leftBytes
    rw [List.drop_eq_getElem_cons hlt, List.flatMap_cons, encodeUtf8_append, List.append_assoc]
  rw [e]
  refine ⟨lines[i] ++ ['\n'], ?_⟩
  rw [read_line (hl _ (List.getElem_mem hlt))]
  exact ⟨decodeUtf8_encode _, rfl, trimText_newline _⟩

/-- What is left of the typed bytes after some rounds. -/
def typedLeft (lines : List Text) (last : Text) (i : Nat) : List Nat :=
  if i ≤ lines.length then leftBytes lines (encodeUtf8 last) i else []

theorem typedLeft_zero (lines : List Text) (last : Text) : typedLeft lines last 0 = typedBytes lines last := by
  unfold typedLeft leftBytes typedBytes
  rw [if_pos (Nat.zero_le _), encodeUtf8_append, List.drop_zero]

theorem reads_typed {lines : List Text} {last : Text} (hl : ∀ t ∈ lines, '\n' ∉ t) (hlast : '\n' ∉ last) (i : Nat) :
    ReadsLine (typedLeft lines last i) (typedLeft lines last (i + 1)) (typedLine lines last i) := by
  unfold typedLeft typedLine
  rcases Nat.lt_trichotomy i lines.length with h | h | h
  · rw [if_pos h.le, if_pos (Nat.succ_le_of_lt h), List.getElem?_append_left h, List.getElem?_eq_getElem h]
    exact reads_line hl (List.getElem?_eq_getElem h)
  · subst h
    rw [if_pos (le_refl _), if_neg (by omega), List.getElem?_append_right (le_refl _), Nat.sub_self]
    refine ⟨last, ?_⟩
    have e : leftBytes lines (encodeUtf8 last) lines.length = encodeUtf8 last := by
      unfold leftBytes
      rw [List.drop_length]
      rfl
    rw [e, readLine_last _ (newline_notMem hlast)]
    exact ⟨decodeUtf8_encode _, rfl, rfl⟩
  · rw [if_neg (by omega), if_neg (by omega), List.getElem?_eq_none (by simp; omega)]
    exact ⟨[], rfl, rfl, rfl⟩

/-! ### Rounds -/

variable {w : Writing} {meaning : Nat → OValue} {names : KindNames} {e : LoadedEngine} {ni ns : Nat}

theorem cliRound_ok (hts : e.ext.TimeStable) (hnp : e.ext.NoPanic) {m : CliMoment} {s : CliState} (hs : s.caches.Sound e.ext)
    (hh : s.caches.Healthy) {inp' : List Nat} {line : Text} (hr : ReadsLine s.input inp' line)
    (ha : CanAnswer w meaning names e ni ns m line) :
    ∃ text c', Replies w meaning names e ni ns m line text ∧ c'.Sound e.ext ∧ c'.Healthy ∧
      cliRound (numbers w) w.widen meaning names e ni ns m s = .running ⟨inp', c', s.printed ++ text⟩ := by
  obtain ⟨q, h1, h2, h3⟩ := hr
  obtain ⟨r, hr, hw⟩ := ha (trimText line) (trimmed_trimText line)
  obtain ⟨k1, k2, k3⟩ := runCached_spec hts hnp m.time
    ((e.engine names).parseWithAlternatives m.order (trimText q) none none ni ns) s.caches hs hh
  refine ⟨"> ".toList ++ pretty (numbers w) 0 (ResultJson.result w.widen meaning r) ++ "\n".toList, _,
    ⟨trimText line, r, _, _, trimmed_trimText line, hr, document_pretty (writable_result (d := 120) hw), shown_result hw, rfl⟩,
    k2, k3, ?_⟩
  unfold cliRound
  simp only [h1]
  rw [k1, h3]
  unfold cliAnswer LoadedEngine.answers at hr
  rw [hr, h2]
  simp only [List.append_assoc]
  rfl

theorem cliRound_fails (hts : e.ext.TimeStable) (hnp : e.ext.NoPanic) {m : CliMoment} {s : CliState}
    (hs : s.caches.Sound e.ext) (hh : s.caches.Healthy) {inp' : List Nat} {line query : Text} (hr : ReadsLine s.input inp' line)
    (hq : Trimmed line query) (ha : ∀ r, cliAnswer names e ni ns m query ≠ .ok r) :
    cliRound (numbers w) w.widen meaning names e ni ns m s = .panicked (s.printed ++ "> ".toList) := by
  obtain ⟨q, h1, h2, h3⟩ := hr
  obtain ⟨k1, -, -⟩ := runCached_spec hts hnp m.time
    ((e.engine names).parseWithAlternatives m.order (trimText q) none none ni ns) s.caches hs hh
  unfold cliRound
  simp only [h1]
  rw [k1, h3, trimText_eq hq]
  unfold cliAnswer LoadedEngine.answers at ha
  generalize (((e.engine names).parseWithAlternatives m.order query none none ni ns).run (e.ext.world m.time)) = o at ha
  cases o with
  | ok r => exact absurd rfl (ha r)
  | err _ => rfl
  | panic => rfl

theorem cliLoop_ok (hts : e.ext.TimeStable) (hnp : e.ext.NoPanic) {moment : Nat → CliMoment} {inp : Nat → List Nat}
    {line : Nat → Text} {c : Caches} (hs : c.Sound e.ext) (hh : c.Healthy) (p : Text) (n : Nat)
    (hr : ∀ i < n, ReadsLine (inp i) (inp (i + 1)) (line i))
    (ha : ∀ i < n, CanAnswer w meaning names e ni ns (moment i) (line i)) :
    ∃ (texts : List Text) (c' : Caches), texts.length = n ∧
      (∀ i t, texts[i]? = some t → Replies w meaning names e ni ns (moment i) (line i) t) ∧ c'.Sound e.ext ∧ c'.Healthy ∧
      cliLoop (numbers w) w.widen meaning names e ni ns moment n ⟨inp 0, c, p⟩ = .running ⟨inp n, c', p ++ texts.flatten⟩ := by
  induction n with
  | zero => exact ⟨[], c, rfl, by simp, hs, hh, by simp [cliLoop]⟩
  | succ n ih =>
    obtain ⟨texts, c', h1, h2, h3, h4, h5⟩ := ih (fun i hi => hr i (by omega)) fun i hi => ha i (by omega)
    obtain ⟨text, c'', g1, g2, g3, g4⟩ := cliRound_ok (s := ⟨inp n, c', p ++ texts.flatten⟩) hts hnp h3 h4 (hr n (by omega))
      (ha n (by omega))
    refine ⟨texts ++ [text], c'', by simp [h1], ?_, g2, g3, ?_⟩
    · intro i t hi
      rcases Nat.lt_or_ge i n with h | h
      · rw [List.getElem?_append_left (by omega)] at hi
        exact h2 i t hi
      · rw [List.getElem?_append_right (by omega)] at hi
        obtain ⟨hi0, hi1⟩ := List.getElem?_eq_some_iff.1 hi
        simp only [List.length_singleton] at hi0
        obtain rfl : i = n := by omega
        simp only [List.getElem_singleton] at hi1
        rw [← hi1]
        exact g1
    · rw [cliLoop, h5]
      simp only [g4, List.flatten_append, List.flatten_cons, List.flatten_nil, List.append_nil, List.append_assoc]

theorem cliLoop_panicked {moment : Nat → CliMoment} {s : CliState} {n k : Nat} {num : JsonNumbers} {widen : ℚ → ℚ} {t : Text}
    (h : cliLoop num widen meaning names e ni ns moment n s = .panicked t) (hk : n ≤ k) :
    cliLoop num widen meaning names e ni ns moment k s = .panicked t := by
  induction k, hk using Nat.le_induction with
  | base => exact h
  | succ k _ ih => rw [cliLoop, ih]

end Snips
