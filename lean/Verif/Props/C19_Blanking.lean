import Verif.Model.Deterministic
import Verif.Spec.Tokens
import Verif.Proofs.Prog
import Verif.Proofs.Map
import Verif.Spec.Rule
import Mathlib.Data.List.Pairwise

/-! # C19: stop-word blanking preserves positions; C52: stop-word whitelists are honoured -/

namespace Snips

/-- Position `i` belongs to a token that is not an ignored stop word. -/
def KeptAt (fns : TextFns) (stop : List Text) (toks : List Token) (i : Nat) : Prop :=
  ∃ tok ∈ toks, fns.normalize tok.value ∉ stop ∧ tok.charRange.Has i

theorem detPreprocessFrom_spec (fns : TextFns) (stop : List Text) (text : Text) : ∀ (toks : List Token) (cur : Nat),
    (∀ tok ∈ toks, tok.charRange.NonEmpty) → (∀ tok ∈ toks, tok.charRange.stop ≤ text.length) →
    (∀ tok ∈ toks, tok.value = substr text tok.charRange) →
    toks.Pairwise (fun a b => a.charRange.stop ≤ b.charRange.start) →
    (∀ tok ∈ toks, cur ≤ tok.charRange.start) → cur ≤ text.length →
    ∃ t e, detPreprocessFrom fns stop cur toks = .ok (t, e) ∧ cur ≤ e ∧ e ≤ text.length ∧
      t.length = e - cur ∧
      (∀ i, cur ≤ i → i < e → KeptAt fns stop toks i → t[i - cur]? = text[i]?) ∧
      (∀ i, cur ≤ i → i < e → ¬ KeptAt fns stop toks i → t[i - cur]? = some ' ') ∧
      (∀ tok ∈ toks, tok.charRange.stop ≤ e) := by
  intro toks
  induction toks with
  | nil =>
    intro cur _ _ _ _ _ h
    exact ⟨[], cur, rfl, Nat.le_refl _, h, by simp, by intro i h1 h2; omega, by intro i h1 h2; omega, by simp⟩
  | cons tok toks ih =>
    intro cur hne hin hval hord hge hcur
    rw [List.pairwise_cons] at hord
    have hne0 : tok.charRange.start < tok.charRange.stop := hne tok (by simp)
    have hin0 := hin tok (by simp)
    have hge0 := hge tok (by simp)
    have hval0 := hval tok (by simp)
    have hlen : tok.value.length = tok.charRange.stop - tok.charRange.start := by
      rw [hval0, length_substr hin0]
    obtain ⟨t, e, h1, h2, h3, h4, h5, h6, h7⟩ := ih tok.charRange.stop (fun a ha => hne a (by simp [ha]))
      (fun a ha => hin a (by simp [ha])) (fun a ha => hval a (by simp [ha])) hord.2 hord.1 hin0
    unfold detPreprocessFrom
    rw [if_neg (by omega), h1]
    set value := if stop.contains (fns.normalize tok.value) = true then List.replicate tok.value.length ' '
      else tok.value with hvalue
    have hvl : value.length = tok.charRange.stop - tok.charRange.start := by
      rw [hvalue]; split
      · rw [List.length_replicate, hlen]
      · exact hlen
    refine ⟨List.replicate (tok.charRange.start - cur) ' ' ++ value ++ t, e, rfl, by omega, h3, ?_, ?_, ?_, ?_⟩
    · simp only [List.length_append, List.length_replicate, hvl, h4]
      omega
    · intro i hi1 hi2 hk
      obtain ⟨tok', htok', hns, hhas⟩ := hk
      unfold Rng.Has at hhas
      rcases List.mem_cons.1 htok' with rfl | htok'
      · rw [List.append_assoc, List.getElem?_append_right (by simp; omega), List.length_replicate,
          List.getElem?_append_left (by omega)]
        rw [hvalue, if_neg (by simpa using hns), hval0]
        unfold substr
        rw [List.getElem?_take_of_lt (by omega), List.getElem?_drop]
        congr 1
        omega
      · have := hord.1 tok' htok'
        rw [List.getElem?_append_right (by simp [hvl]; omega)]
        have := h5 i (by omega) hi2 ⟨tok', htok', hns, hhas⟩
        rw [← this]
        congr 1
        simp [hvl]
        omega
    · intro i hi1 hi2 hk
      by_cases hc1 : i < tok.charRange.start
      · rw [List.append_assoc, List.getElem?_append_left (by simp; omega), List.getElem?_replicate,
          if_pos (by omega)]
      · by_cases hc2 : i < tok.charRange.stop
        · have hst : fns.normalize tok.value ∈ stop := by
            by_contra hns
            exact hk ⟨tok, by simp, hns, ⟨by omega, hc2⟩⟩
          rw [List.append_assoc, List.getElem?_append_right (by simp; omega), List.length_replicate,
            List.getElem?_append_left (by omega)]
          rw [hvalue, if_pos (by simpa using hst), List.getElem?_replicate, if_pos (by omega)]
        · rw [List.getElem?_append_right (by simp [hvl]; omega)]
          have := h6 i (by omega) hi2 (fun ⟨tok', h, h'⟩ => hk ⟨tok', by simp [h], h'⟩)
          rw [← this]
          congr 1
          simp [hvl]
          omega
    · intro a ha
      rcases List.mem_cons.1 ha with rfl | ha
      · omega
      · exact h7 a ha

/-- The text the deterministic parser matches against has as many characters as the input; a token whose
normalised text is not among the stop words for the intent stands unchanged at its own position, and
every position outside such tokens is a space. -/
theorem c19_positions (fns : TextFns) (p : Det) (text intent : Text)
    (htok : Tokenized text (fns.tokenize text)) :
    ∃ cleaned, p.preprocess fns text intent = .ok cleaned ∧ cleaned.length = text.length ∧
      (∀ tok ∈ fns.tokenize text, fns.normalize tok.value ∉ p.stopWords.forIntent intent →
        substr cleaned tok.charRange = tok.value) ∧
      (∀ i, i < text.length →
        (∀ tok ∈ fns.tokenize text, fns.normalize tok.value ∉ p.stopWords.forIntent intent →
          ¬ tok.charRange.Has i) → cleaned[i]? = some ' ') := by
  obtain ⟨t, e, h1, _, h3, h4, h5, h6, h7⟩ := detPreprocessFrom_spec fns (p.stopWords.forIntent intent) text
    (fns.tokenize text) 0 htok.nonempty htok.inside htok.value htok.ordered (fun _ _ => Nat.zero_le _)
    (Nat.zero_le _)
  have hrun : p.preprocess fns text intent = .ok (t ++ List.replicate (text.length - e) ' ') := by
    unfold Det.preprocess
    rw [h1]
    show (if text.length < e then Outcome.panic else _) = _
    rw [if_neg (by omega)]
  refine ⟨_, hrun, by simp [h4]; omega, ?_, ?_⟩
  · intro tok hmem hns
    rw [htok.value tok hmem]
    have hin := htok.inside tok hmem
    have he := h7 tok hmem
    have hstop : tok.charRange.stop ≤ t.length := by omega
    show substr _ _ = substr text tok.charRange
    unfold substr
    apply List.ext_getElem?
    intro k
    by_cases hk : k < tok.charRange.stop - tok.charRange.start
    · rw [List.getElem?_take_of_lt hk, List.getElem?_take_of_lt hk, List.getElem?_drop, List.getElem?_drop,
        List.getElem?_append_left (by omega)]
      have := h5 (tok.charRange.start + k) (Nat.zero_le _) (by omega) ⟨tok, hmem, hns, ⟨by omega, by omega⟩⟩
      simpa using this
    · rw [List.getElem?_eq_none (by rw [List.length_take]; omega),
        List.getElem?_eq_none (by rw [List.length_take]; omega)]
  · intro i hi hout
    by_cases hie : i < e
    · rw [List.getElem?_append_left (by omega)]
      have := h6 i (Nat.zero_le _) hie (fun ⟨tok, hm, hns, hhas⟩ => hout tok hm hns hhas)
      simpa using this
    · rw [List.getElem?_append_right (by omega), List.getElem?_replicate, if_pos (by omega)]

/-! ### C52 -/

theorem forIntent_new (ignore : Bool) (resource : List Text) (whitelist : Map Text (List Text)) (intent : Text) :
    (StopWords.new ignore resource whitelist).forIntent intent
      = (if ignore then resource else []).filter fun w =>
          !(match whitelist.get intent with | some ws => ws.contains w | none => false) := by
  unfold StopWords.forIntent StopWords.new
  simp only
  generalize (if ignore then resource else []) = general
  induction whitelist with
  | nil => simp [Map.get_nil]
  | cons e m ih =>
    rw [List.map_cons, Map.get_cons, Map.get_cons]
    by_cases h : intent = e.1
    · simp [h]
    · simp only [h, if_false]
      exact ih

/-- `word` is whitelisted for the intent. -/
def WhitelistedFor (whitelist : Map Text (List Text)) (intent word : Text) : Prop :=
  ∃ ws, whitelist.get intent = some ws ∧ word ∈ ws

/-- The words ignored for an intent are exactly the stop words which are not whitelisted for it, and
none when stop-word handling is disabled. -/
theorem c52_ignored_iff (ignore : Bool) (resource : List Text) (whitelist : Map Text (List Text))
    (intent word : Text) :
    word ∈ (StopWords.new ignore resource whitelist).forIntent intent ↔
      ignore = true ∧ word ∈ resource ∧ ¬ WhitelistedFor whitelist intent word := by
  rw [forIntent_new, List.mem_filter]
  unfold WhitelistedFor
  cases ignore <;> cases hg : whitelist.get intent <;> simp

/-- Deterministic parser: a token is blanked exactly when its normalised text is a stop word not
whitelisted for the intent; other tokens stay as they are. -/
theorem c52_deterministic (fns : TextFns) (p : Det) (ignore : Bool) (resource : List Text)
    (whitelist : Map Text (List Text)) (hp : p.stopWords = StopWords.new ignore resource whitelist)
    (text intent : Text) (htok : Tokenized text (fns.tokenize text)) :
    ∃ cleaned, p.preprocess fns text intent = .ok cleaned ∧
      ∀ tok ∈ fns.tokenize text,
        (ignore = true ∧ fns.normalize tok.value ∈ resource ∧
            ¬ WhitelistedFor whitelist intent (fns.normalize tok.value) →
          substr cleaned tok.charRange = List.replicate tok.value.length ' ') ∧
        (¬ (ignore = true ∧ fns.normalize tok.value ∈ resource ∧
            ¬ WhitelistedFor whitelist intent (fns.normalize tok.value)) →
          substr cleaned tok.charRange = tok.value) := by
  obtain ⟨cleaned, h1, h2, h3, h4⟩ := c19_positions fns p text intent htok
  refine ⟨cleaned, h1, fun tok hmem => ⟨fun hs => ?_, fun hs => ?_⟩⟩
  · have hstop : fns.normalize tok.value ∈ p.stopWords.forIntent intent := by
      rw [hp]; exact (c52_ignored_iff _ _ _ _ _).2 hs
    have hin := htok.inside tok hmem
    have hlen : tok.value.length = tok.charRange.stop - tok.charRange.start := by
      rw [htok.value tok hmem]; simp; omega
    apply List.ext_getElem?
    intro k
    unfold substr
    by_cases hk : k < tok.charRange.stop - tok.charRange.start
    · rw [List.getElem?_take_of_lt hk, List.getElem?_drop, List.getElem?_replicate, if_pos (by omega)]
      apply h4 _ (by omega)
      intro tok' hmem' hns hhas
      have hne : tok ≠ tok' := fun h => by subst h; exact hns hstop
      have hord := htok.ordered
      unfold Rng.Has at hhas
      have hd : tok.charRange.stop ≤ tok'.charRange.start ∨ tok'.charRange.stop ≤ tok.charRange.start := by
        have hsym : (fns.tokenize text).Pairwise (fun a b =>
            a.charRange.stop ≤ b.charRange.start ∨ b.charRange.stop ≤ a.charRange.start) :=
          hord.imp (fun h => Or.inl h)
        haveI : Std.Symm (fun a b : Token =>
            a.charRange.stop ≤ b.charRange.start ∨ b.charRange.stop ≤ a.charRange.start) :=
          ⟨fun _ _ h => h.symm⟩
        exact hsym.forall hmem hmem' hne
      omega
    · rw [List.getElem?_eq_none (by rw [List.length_take]; omega),
        List.getElem?_eq_none (by rw [List.length_replicate]; omega)]
  · apply h3 tok hmem
    rw [hp, c52_ignored_iff]
    exact hs

/-- Lookup parser: the key looked up consists of exactly the tokens whose normalised text is not a stop
word, or is whitelisted for the intent, or all tokens when stop-word handling is disabled. -/
theorem c52_lookup (env : RuleEnv) (p : Lookup) (ignore : Bool) (resource : List Text)
    (whitelist : Map Text (List Text)) (hp : p.stopWords = StopWords.new ignore resource whitelist)
    (text intent : Text) :
    ∃ kept : List Text, p.preprocess env text intent = env.fns.lower (joinWith [' '] kept) ∧
      kept.Sublist (env.fns.tokenizeLight text) ∧
      ∀ t, t ∈ kept ↔ t ∈ env.fns.tokenizeLight text ∧
        ¬ (ignore = true ∧ env.fns.normalize t ∈ resource ∧
            ¬ WhitelistedFor whitelist intent (env.fns.normalize t)) := by
  refine ⟨_, rfl, List.filter_sublist, ?_⟩
  intro t
  rw [List.mem_filter]
  have := c52_ignored_iff ignore resource whitelist intent (env.fns.normalize t)
  rw [← this, hp]
  simp

/-! Non-vacuity: "the" and "a" are stop words, "the" is whitelisted for the intent `i`. -/

/-- Words separated by single spaces, as tokens (used in examples). -/
def spaceTokens (cur : Nat) (ws : List Text) : List Token :=
  match ws with
  | [] => []
  | w :: ws => ⟨w, ⟨cur, cur + w.length⟩, ⟨cur, cur + w.length⟩⟩ :: spaceTokens (cur + w.length + 1) ws

/-- Text functions for examples: tokens are the words between spaces. -/
def ruleFns : TextFns where
  lower t := t.map Char.toLower
  upper t := t.map Char.toUpper
  normalize t := t.map Char.toLower
  shape t := t
  tokenize t := (spaceTokens 0 (t.splitOn ' ')).filter fun tok => tok.value ≠ []
  tokenizeLight t := (t.splitOn ' ').filter fun v => v ≠ []
  tokenizeLightEn t := (t.splitOn ' ').filter fun v => v ≠ []
  hashStr t := t.length

example : Tokenized "The  cat a".toList (ruleFns.tokenize "The  cat a".toList) :=
  ⟨by unfold Rng.NonEmpty; decide +kernel, by decide +kernel, by decide +kernel, by decide +kernel⟩

example : (⟨[], [], [], StopWords.new true ["the".toList, "a".toList] [(['i'], ["the".toList])], []⟩ : Det).preprocess
    ruleFns "The  cat a".toList ['i'] = .ok "The  cat  ".toList := by decide +kernel

example : (⟨[], [], [], StopWords.new true ["the".toList, "a".toList] [(['i'], ["the".toList])], []⟩ : Det).preprocess
    ruleFns "The  cat a".toList ['j'] = .ok "     cat  ".toList := by decide +kernel

end Snips
