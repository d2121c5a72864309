import Verif.Proofs.Cli
import Verif.Props.C82_Python

/-! # C95: the interactive program answers every line -/

namespace Snips

open JsonGrammar Shown ResultJson

/-- **C95**: the text of several lines denotes the document. -/
theorem c95_pretty (w : Writing) (j : Json) (h : Writable w.f64 w.textOf 127 j) :
    Document w.f64 127 (pretty ⟨w.f64, w.textOf⟩ 0 j) j := document_pretty h

/-- **C95**: the program enters its loop exactly if its options are numbers and the files of the directory describe an engine;
otherwise it panics, before the engine is loaded or after its message that it is. -/
theorem c95_starts (env : LoadEnv) (num : JsonNumbers) (widen : ℚ → ℚ) (meaning : Nat → OValue) (cwd : Path) (fs : Fs)
    (o : HashOrd) (args : CliArgs) (stdin : List Nat) (moment : Nat → CliMoment) :
    ((∃ s, cliMain env num widen meaning cwd fs o args stdin moment 0 = .running s) ↔
      (∃ n, OptionNumber args.intents n) ∧ (∃ n, OptionNumber args.slots n) ∧
        ∃ e, EngineAt env o fs (joinPath cwd args.dir) e) ∧
    (¬((∃ n, OptionNumber args.intents n) ∧ ∃ n, OptionNumber args.slots n) →
      ∀ rounds, cliMain env num widen meaning cwd fs o args stdin moment rounds = .panicked []) ∧
    (((∃ n, OptionNumber args.intents n) ∧ ∃ n, OptionNumber args.slots n) →
      (¬ ∃ e, EngineAt env o fs (joinPath cwd args.dir) e) →
      ∀ rounds, cliMain env num widen meaning cwd fs o args stdin moment rounds
        = .panicked "\nLoading the nlu engine...\n".toList) := by
  have hbad : ¬((∃ n, OptionNumber args.intents n) ∧ ∃ n, OptionNumber args.slots n) →
      ∀ rounds, cliMain env num widen meaning cwd fs o args stdin moment rounds = .panicked [] := by
    intro h rounds
    unfold cliMain
    by_cases hi : ∃ n, OptionNumber args.intents n
    · obtain ⟨n, hn⟩ := id hi
      rw [(cliNumber_iff _ _).2 hn]
      simp only
      rw [cliNumber_panic _ fun hs => h ⟨hi, hs⟩]
    · rw [cliNumber_panic _ hi]
  have hno : ((∃ n, OptionNumber args.intents n) ∧ ∃ n, OptionNumber args.slots n) →
      (¬ ∃ e, EngineAt env o fs (joinPath cwd args.dir) e) →
      ∀ rounds, cliMain env num widen meaning cwd fs o args stdin moment rounds
        = .panicked "\nLoading the nlu engine...\n".toList := by
    rintro ⟨⟨ni, hi⟩, ns, hs⟩ h rounds
    rw [← c61_loads_iff] at h
    unfold cliMain
    rw [(cliNumber_iff _ _).2 hi, (cliNumber_iff _ _).2 hs]
    simp only
    cases hl : (loadEngine env o (joinPath cwd args.dir) fs).1 with
    | ok e => exact absurd ⟨e, hl⟩ h
    | err _ => rfl
    | panic => rfl
  refine ⟨⟨?_, ?_⟩, hbad, hno⟩
  · rintro ⟨s, h⟩
    by_cases hn : (∃ n, OptionNumber args.intents n) ∧ ∃ n, OptionNumber args.slots n
    · refine ⟨hn.1, hn.2, ?_⟩
      by_contra he
      rw [hno hn he] at h
      cases h
    · rw [hbad hn] at h
      cases h
  · rintro ⟨⟨ni, hi⟩, ⟨ns, hs⟩, h⟩
    rw [← c61_loads_iff] at h
    obtain ⟨e, he⟩ := h
    unfold cliMain
    rw [(cliNumber_iff _ _).2 hi, (cliNumber_iff _ _).2 hs]
    simp only [he]
    exact ⟨_, rfl⟩

theorem cliMain_loop {env : LoadEnv} {num : JsonNumbers} {widen : ℚ → ℚ} {meaning : Nat → OValue} {cwd : Path} {fs : Fs}
    {o : HashOrd} {args : CliArgs} {stdin : List Nat} {moment : Nat → CliMoment} {ni ns : Nat} {e : LoadedEngine}
    (hi : OptionNumber args.intents ni) (hs : OptionNumber args.slots ns)
    (he : (loadEngine env o (joinPath cwd args.dir) fs).1 = .ok e) (n : Nat) :
    cliMain env num widen meaning cwd fs o args stdin moment n = cliLoop num widen meaning env.names e ni ns moment n
      ⟨stdin, Caches.empty 1000, "\nLoading the nlu engine...\n".toList⟩ := by
  unfold cliMain
  rw [(cliNumber_iff _ _).2 hi, (cliNumber_iff _ _).2 hs]
  simp only [he]

/-- **C95**: as long as the engine answers, every round prints the prompt and the JSON text of the answer to the next line
without the white space at its ends. -/
theorem c95_answers (w : Writing) (meaning : Nat → OValue) (env : LoadEnv) (cwd : Path) (fs : Fs) (o : HashOrd)
    (args : CliArgs) (lines : List Text) (last : Text) (hl : ∀ t ∈ lines, '\n' ∉ t) (hlast : '\n' ∉ last)
    (moment : Nat → CliMoment) (ni ns : Nat) (hi : OptionNumber args.intents ni) (hs : OptionNumber args.slots ns)
    (e : LoadedEngine) (he : (loadEngine env o (joinPath cwd args.dir) fs).1 = .ok e) (hts : e.ext.TimeStable)
    (hnp : e.ext.NoPanic) (n : Nat)
    (ha : ∀ i < n, CanAnswer w meaning env.names e ni ns (moment i) (typedLine lines last i)) :
    ∃ (texts : List Text) (s : CliState), texts.length = n ∧
      (∀ i t, texts[i]? = some t → Replies w meaning env.names e ni ns (moment i) (typedLine lines last i) t) ∧
      cliMain env ⟨w.f64, w.textOf⟩ w.widen meaning cwd fs o args (typedBytes lines last) moment n = .running s ∧
      s.printed = "\nLoading the nlu engine...\n".toList ++ texts.flatten := by
  obtain ⟨texts, c, h1, h2, -, -, h3⟩ := cliLoop_ok (w := w) (meaning := meaning) (names := env.names) (moment := moment)
    (inp := typedLeft lines last) hts hnp (Caches.empty_sound _ 1000) (Caches.empty_healthy 1000)
    "\nLoading the nlu engine...\n".toList n (fun i _ => reads_typed hl hlast i) ha
  refine ⟨texts, ⟨typedLeft lines last n, c, "\nLoading the nlu engine...\n".toList ++ texts.flatten⟩, h1, h2, ?_, rfl⟩
  rw [cliMain_loop hi hs he, ← typedLeft_zero]
  exact h3

/-- **C95**: at the first line to which the engine does not answer, the program panics, with the answers to the lines before
printed, and the prompt. -/
theorem c95_fails (w : Writing) (meaning : Nat → OValue) (env : LoadEnv) (cwd : Path) (fs : Fs) (o : HashOrd)
    (args : CliArgs) (lines : List Text) (last : Text) (hl : ∀ t ∈ lines, '\n' ∉ t) (hlast : '\n' ∉ last)
    (moment : Nat → CliMoment) (ni ns : Nat) (hi : OptionNumber args.intents ni) (hs : OptionNumber args.slots ns)
    (e : LoadedEngine) (he : (loadEngine env o (joinPath cwd args.dir) fs).1 = .ok e) (hts : e.ext.TimeStable)
    (hnp : e.ext.NoPanic) (k : Nat)
    (ha : ∀ i < k, CanAnswer w meaning env.names e ni ns (moment i) (typedLine lines last i)) (query : Text)
    (hq : Trimmed (typedLine lines last k) query) (hno : ∀ r, cliAnswer env.names e ni ns (moment k) query ≠ .ok r) (n : Nat)
    (hn : k < n) :
    ∃ texts : List Text, texts.length = k ∧
      (∀ i t, texts[i]? = some t → Replies w meaning env.names e ni ns (moment i) (typedLine lines last i) t) ∧
      cliMain env ⟨w.f64, w.textOf⟩ w.widen meaning cwd fs o args (typedBytes lines last) moment n
        = .panicked ("\nLoading the nlu engine...\n".toList ++ texts.flatten ++ "> ".toList) := by
  obtain ⟨texts, c, h1, h2, k1, k2, h3⟩ := cliLoop_ok (w := w) (meaning := meaning) (names := env.names) (moment := moment)
    (inp := typedLeft lines last) hts hnp (Caches.empty_sound _ 1000) (Caches.empty_healthy 1000)
    "\nLoading the nlu engine...\n".toList k (fun i _ => reads_typed hl hlast i) ha
  refine ⟨texts, h1, h2, ?_⟩
  rw [cliMain_loop hi hs he, ← typedLeft_zero]
  refine cliLoop_panicked ?_ (Nat.succ_le_of_lt hn)
  have hr := cliRound_fails (w := w) (meaning := meaning) (names := env.names) (ni := ni) (ns := ns) (m := moment k)
    (s := ⟨typedLeft lines last k, c, "\nLoading the nlu engine...\n".toList ++ texts.flatten⟩) hts hnp k1 k2
    (reads_typed hl hlast k) hq hno
  have h3' : cliLoop (⟨w.f64, w.textOf⟩ : JsonNumbers) w.widen meaning env.names e ni ns moment k _ = _ := h3
  rw [cliLoop, h3']
  exact hr

/-- **C95**: at the first line that is not UTF-8, the program panics. -/
theorem c95_not_utf8 (w : Writing) (meaning : Nat → OValue) (env : LoadEnv) (cwd : Path) (fs : Fs) (o : HashOrd)
    (args : CliArgs) (lines : List Text) (hl : ∀ t ∈ lines, '\n' ∉ t) (bad rest : List Nat) (hbad : 10 ∉ bad)
    (hrest : rest = [] ∨ rest.head? = some 10) (hutf : ∀ t, bad ≠ encodeUtf8 t)
    (moment : Nat → CliMoment) (ni ns : Nat) (hi : OptionNumber args.intents ni) (hs : OptionNumber args.slots ns)
    (e : LoadedEngine) (he : (loadEngine env o (joinPath cwd args.dir) fs).1 = .ok e) (hts : e.ext.TimeStable)
    (hnp : e.ext.NoPanic)
    (ha : ∀ i t, lines[i]? = some t → CanAnswer w meaning env.names e ni ns (moment i) t) (n : Nat) (hn : lines.length < n) :
    ∃ texts : List Text, texts.length = lines.length ∧
      (∀ i text line, texts[i]? = some text → lines[i]? = some line →
        Replies w meaning env.names e ni ns (moment i) line text) ∧
      cliMain env ⟨w.f64, w.textOf⟩ w.widen meaning cwd fs o args
          (encodeUtf8 (lines.flatMap (· ++ ['\n'])) ++ bad ++ rest) moment n
        = .panicked ("\nLoading the nlu engine...\n".toList ++ texts.flatten ++ "> ".toList) := by
  obtain ⟨texts, c, h1, h2, -, -, h3⟩ := cliLoop_ok (w := w) (meaning := meaning) (names := env.names) (moment := moment)
    (inp := leftBytes lines (bad ++ rest)) (line := typedLine lines []) (ni := ni) (ns := ns) hts hnp
    (Caches.empty_sound _ 1000) (Caches.empty_healthy 1000)
    "\nLoading the nlu engine...\n".toList lines.length
    (fun i hi => by
      have hx := List.getElem?_eq_getElem hi
      have : typedLine lines [] i = lines[i] := by
        unfold typedLine
        rw [List.getElem?_append_left hi, hx]
      rw [this]
      exact reads_line hl hx)
    (fun i hi => by
      have hx := List.getElem?_eq_getElem hi
      have : typedLine lines [] i = lines[i] := by
        unfold typedLine
        rw [List.getElem?_append_left hi, hx]
      rw [this]
      exact ha i _ hx)
  refine ⟨texts, h1, ?_, ?_⟩
  · intro i text line ht hline
    have := h2 i text ht
    unfold typedLine at this
    rw [List.getElem?_append_left (List.getElem?_eq_some_iff.1 hline).1, hline] at this
    exact this
  · rw [cliMain_loop hi hs he]
    have h0 : encodeUtf8 (lines.flatMap (· ++ ['\n'])) ++ bad ++ rest = leftBytes lines (bad ++ rest) 0 := by
      unfold leftBytes
      rw [List.drop_zero, List.append_assoc]
    have hk : leftBytes lines (bad ++ rest) lines.length = bad ++ rest := by
      unfold leftBytes
      rw [List.drop_length]
      rfl
    rw [h0]
    refine cliLoop_panicked ?_ (Nat.succ_le_of_lt hn)
    have h3' : cliLoop (⟨w.f64, w.textOf⟩ : JsonNumbers) w.widen meaning env.names e ni ns moment lines.length _ = _ := h3
    rw [cliLoop, h3']
    simp only [hk]
    unfold cliRound
    have hnone : decodeUtf8 (readLine (bad ++ rest)).1 = none := by
      cases hd : decodeUtf8 (readLine (bad ++ rest)).1 with
      | none => rfl
      | some t =>
        exfalso
        have hd := decodeUtf8_iff.1 hd
        rcases hrest with rfl | hr
        · rw [List.append_nil, readLine_last _ hbad] at hd
          exact hutf t hd
        · cases rest with
          | nil => cases hr
          | cons x rest =>
            obtain rfl : x = 10 := Option.some.inj hr
            rw [readLine_line _ _ hbad] at hd
            simp only at hd
            have hlast : ∃ t', t = t' ++ ['\n'] := by
              rcases List.eq_nil_or_concat t with rfl | ⟨t', c, rfl⟩
              · have := congrArg List.length hd
                simp [encodeUtf8] at this
              · refine ⟨t', ?_⟩
                rw [List.concat_eq_append] at hd ⊢
                have h10 : (10 : Nat) ∈ encodeChar c := by
                  have hl := congrArg List.getLast? hd
                  rw [encodeUtf8_append, List.getLast?_append, List.getLast?_append] at hl
                  have hc : encodeUtf8 [c] = encodeChar c := by rw [encodeUtf8_cons]; simp [encodeUtf8]
                  rw [hc] at hl
                  cases hg : (encodeChar c).getLast? with
                  | none => exact absurd (List.getLast?_eq_none_iff.1 hg) (encodeChar_ne_nil c)
                  | some y =>
                    rw [hg] at hl
                    have hy : y = 10 := by simpa using hl.symm
                    subst hy
                    exact List.mem_of_getLast? hg
                have := mem_encodeChar h10 (by decide)
                rw [toNat_inj (c := c) (d := '\n') this]
            obtain ⟨t', rfl⟩ := hlast
            have e2 : encodeUtf8 (t' ++ ['\n']) = encodeUtf8 t' ++ [10] := encodeUtf8_append t' ['\n']
            rw [e2] at hd
            exact hutf t' (List.append_cancel_right hd)
    simp only [hnone]

/-- **C95**: the end of the input does not end the program: if the engine answers every line and the empty text, the program
goes on printing the answer to the empty text without end. -/
theorem c95_never_ends (w : Writing) (meaning : Nat → OValue) (env : LoadEnv) (cwd : Path) (fs : Fs) (o : HashOrd)
    (args : CliArgs) (lines : List Text) (last : Text) (hl : ∀ t ∈ lines, '\n' ∉ t) (hlast : '\n' ∉ last)
    (moment : Nat → CliMoment) (ni ns : Nat) (hi : OptionNumber args.intents ni) (hs : OptionNumber args.slots ns)
    (e : LoadedEngine) (he : (loadEngine env o (joinPath cwd args.dir) fs).1 = .ok e) (hts : e.ext.TimeStable)
    (hnp : e.ext.NoPanic)
    (ha : ∀ i, ∀ t ∈ [] :: lines ++ [last], CanAnswer w meaning env.names e ni ns (moment i) t) (n : Nat) :
    ∃ (texts : List Text) (s : CliState), texts.length = lines.length + 1 + n ∧
      (∀ i t, lines.length < i → texts[i]? = some t → Replies w meaning env.names e ni ns (moment i) [] t) ∧
      cliMain env ⟨w.f64, w.textOf⟩ w.widen meaning cwd fs o args (typedBytes lines last) moment (lines.length + 1 + n)
        = .running s ∧ s.printed = "\nLoading the nlu engine...\n".toList ++ texts.flatten := by
  obtain ⟨texts, s, h1, h2, h3, h4⟩ := c95_answers w meaning env cwd fs o args lines last hl hlast moment ni ns hi hs e he hts
    hnp (lines.length + 1 + n) (fun i _ => by
      unfold typedLine
      cases hg : (lines ++ [last])[i]? with
      | none => exact ha i [] (by simp)
      | some t => exact ha i t (by
          have := List.mem_of_getElem? hg
          simp only [List.mem_append, List.cons_append, List.mem_cons] at this ⊢
          tauto))
  refine ⟨texts, s, h1, fun i t hi ht => ?_, h3, h4⟩
  have := h2 i t ht
  unfold typedLine at this
  rw [List.getElem?_eq_none (by simp; omega)] at this
  exact this

/-! ### A concrete program -/

/-- Libraries that find no entities. -/
def quietEnv : LoadEnv :=
  { demoLoadEnv with builtinParser := fun _ => .ok fun _ _ _ _ => .ok [], gazetteerParser := fun _ => .ok fun _ _ _ => .ok [] }

/-- Every number is written as 1. -/
def oneNumbers : Writing where
  f64 := some
  textOf _ := ['1', '.', '0']
  widen := id
  rd := .exact

/-- No options. -/
def quietArgs : CliArgs := ⟨['/', 'm'], none, some ['+', '0', '2']⟩

/-- All rounds at the same time. -/
def quietMoment : Nat → CliMoment := fun _ => ⟨0, HashOrd.insertion⟩

theorem quiet_ext {e : LoadedEngine}
    (h : (loadEngine quietEnv HashOrd.insertion (joinPath [] quietArgs.dir) demoHMem.c.disk.fs).1 = .ok e) :
    e.ext.TimeStable ∧ e.ext.NoPanic := by
  obtain ⟨-, m, name, fns, r, -, -, -, ⟨-, hb, m', name', fns', -, hl, ht, hg⟩, -⟩ := c60_engine _ _ _ _ _ h
  have hb' : e.ext.builtinRaw = fun _ _ _ _ => .ok [] := (Outcome.ok.inj hb).symm
  have hg' : e.ext.gazetteer = fun _ _ _ => .ok [] := (Outcome.ok.inj hg).symm
  refine ⟨fun t t' s kinds n => by rw [hb'], fun t s kinds n => by rw [hb']; simp, fun s kinds n => ?_⟩
  unfold Ext.customExtract
  rw [hg']
  simp [mapOutcome]

/-- The numbers of the options. -/
theorem quiet_slots : OptionNumber quietArgs.slots 2 :=
  .given _ ['0', '2'] 2 (.inr rfl) ⟨by simp, by unfold Digit; decide⟩ rfl (by norm_num)

/-- Whether the engine gives this sentence the score 1 and no slots. -/
def quietSays (t : Text) : Bool :=
  match (loadEngine quietEnv HashOrd.insertion (joinPath [] quietArgs.dir) demoHMem.c.disk.fs).1 with
  | .ok e =>
    match cliAnswer quietEnv.names e 0 2 ⟨0, HashOrd.insertion⟩ t with
    | .ok r => r.intent.score = 1 && r.slots = [] && r.alternatives = []
    | _ => false
  | _ => false

theorem quiet_answers {e : LoadedEngine}
    (h : (loadEngine quietEnv HashOrd.insertion (joinPath [] quietArgs.dir) demoHMem.c.disk.fs).1 = .ok e) {t q : Text}
    (hq : trimText t = q) (hs : quietSays q = true) (i : Nat) :
    CanAnswer oneNumbers demoTwo quietEnv.names e 0 2 (quietMoment i) t := by
  intro query hquery
  obtain rfl : query = q := (trimText_eq hquery).symm.trans hq
  unfold quietSays at hs
  rw [h] at hs
  simp only at hs
  unfold quietMoment
  cases ha : cliAnswer quietEnv.names e 0 2 ⟨0, HashOrd.insertion⟩ query with
  | err _ => rw [ha] at hs; cases hs
  | panic => rw [ha] at hs; cases hs
  | ok r =>
    rw [ha] at hs
    simp only [Bool.and_eq_true, decide_eq_true_eq] at hs
    obtain ⟨⟨h1, h2⟩, h3⟩ := hs
    refine ⟨r, rfl, ?_, ?_, ?_⟩
    · rw [h1]
      refine ⟨?_, rfl⟩
      have := demo_text '1' '0' 1 (by unfold Digit; decide) (by unfold Digit; decide) (by
        rw [show decimal ['1'] = 1 from rfl, show decimal ['0'] = 0 from rfl]
        norm_num)
      exact this
    · rw [h2]; simp
    · rw [h3]; simp

theorem quiet_loads :
    ∃ e, (loadEngine quietEnv HashOrd.insertion (joinPath [] quietArgs.dir) demoHMem.c.disk.fs).1 = .ok e := by
  have h : quietSays [] = true := by decide +kernel
  unfold quietSays at h
  cases hl : (loadEngine quietEnv HashOrd.insertion (joinPath [] quietArgs.dir) demoHMem.c.disk.fs).1 with
  | ok e => exact ⟨e, rfl⟩
  | err _ => rw [hl] at h; cases h
  | panic => rw [hl] at h; cases h

/-- **C95** is not what a user expects at the end of the input: with one line to read, the program is still running after any
number of rounds. -/
theorem c95_never_ends_counterexample (n : Nat) :
    ∃ s, cliMain quietEnv ⟨oneNumbers.f64, oneNumbers.textOf⟩ oneNumbers.widen demoTwo [] demoHMem.c.disk.fs HashOrd.insertion
      quietArgs (encodeUtf8 " x \n".toList) quietMoment (n + 2) = .running s := by
  obtain ⟨e, he⟩ := quiet_loads
  obtain ⟨h1, h2⟩ := quiet_ext he
  obtain ⟨-, s, -, -, h, -⟩ := c95_never_ends oneNumbers demoTwo quietEnv [] demoHMem.c.disk.fs HashOrd.insertion quietArgs
    [" x ".toList] [] (by decide) (by decide) quietMoment 0 2 .absent quiet_slots e he h1 h2 (by
      intro i t ht
      simp only [List.cons_append, List.nil_append, List.mem_cons, List.not_mem_nil, or_false] at ht
      rcases ht with rfl | rfl | rfl
      · exact quiet_answers he (q := []) (by decide) (by decide +kernel) i
      · exact quiet_answers he (q := ['x']) (by decide) (by decide +kernel) i
      · exact quiet_answers he (q := []) (by decide) (by decide +kernel) i) n
  refine ⟨s, ?_⟩
  rw [← h]
  congr 1
  simp only [List.length_singleton]
  omega

/-- What is printed. -/
example : (cliMain demoHEnv.load exactNumbers id demoTwo demoHEnv.cwd demoHMem.c.disk.fs demoCirc.order ⟨['/', 'm'], none, none⟩
    (encodeUtf8 "  stop \n".toList) (fun _ => ⟨0, demoCirc.order⟩) 1).printed =
    "\nLoading the nlu engine...\n> {\n  \"input\": \"stop\",\n  \"intent\": {\n    \"intentName\": \"halt\",\n    \"confidenceScore\": 0.5\n  },\n  \"slots\": [],\n  \"alternatives\": []\n}\n".toList := by
  decide +kernel

/-- An engine that fails on the empty text: the hypotheses of `c95_fails` with the empty text at the end of the input. -/
example : (match cliMain demoHEnv.load exactNumbers id demoTwo demoHEnv.cwd demoHMem.c.disk.fs demoCirc.order
    ⟨['/', 'm'], none, none⟩ (encodeUtf8 "stop\n".toList) (fun _ => ⟨0, demoCirc.order⟩) 2 with
    | .panicked t => t.drop (t.length - 4) = "}\n> ".toList
    | .running _ => false) = true := by decide +kernel

/-- A byte that is not UTF-8. -/
example : ∀ t, [255] ≠ encodeUtf8 t := fun t h => by
  have := decodeUtf8_iff.2 h
  rw [show decodeUtf8 [255] = none by decide +kernel] at this
  cases this

example : Trimmed "\u00a0 turn on\r".toList "turn on".toList :=
  ⟨"\u00a0 ".toList, "\r".toList, rfl, by decide, by decide, by decide, by decide⟩

end Snips
