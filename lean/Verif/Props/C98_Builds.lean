import Verif.Proofs.Builds
import Verif.Spec.RuleDemo
import Verif.Spec.LoadingDemo
import Verif.Props.C58_NoPanic

/-! # C98: A release build gives the answers of a debug build -/

namespace Snips

/-- A call of the interface answered (by a result or by an error) in a debug build is answered in the same way in a release
build.  (Only a panic of the debug build may become something else.) -/
theorem c98_answers (e : LoadedEngine) (names : KindNames) (w : World) (call : EngineCall)
    (h : ((e.engine names).code call).run w ≠ .panic) :
    ((e.inRelease.engine names).code call).run w = ((e.engine names).code call).run w :=
  ((code_upto (engine_upto e names) call).run w).eq h

/-- With the caches, for any sequence of calls at any times: if no call panics in a debug build, a release build gives the
same answers one by one, and leaves the caches in the same state. -/
theorem c98_history (e : LoadedEngine) (names : KindNames) (x : Ext) (calls : List (Nat × EngineCall)) (c : Caches)
    (h : ∀ answer ∈ (runHistory x (calls.map fun i => (i.1, (e.engine names).code i.2)) c).1, answer ≠ .panic) :
    runHistory x (calls.map fun i => (i.1, (e.inRelease.engine names).code i.2)) c =
      runHistory x (calls.map fun i => (i.1, (e.engine names).code i.2)) c :=
  runHistory_upto x _ _ (code_upto (engine_upto e names)) calls c h

/-- A release build loads what a debug build loads: the same engine (apart from the checks), or the same error, or a panic
where there is one, and reads the same files in the same order. -/
theorem c98_loading (env : LoadEnv) (o : HashOrd) (dir : Path) (fs : Fs) :
    loadEngine env.inRelease o dir fs = match loadEngine env o dir fs with
      | (.ok e, read) => (.ok e.inRelease, read)
      | (.err e, read) => (.err e, read)
      | (.panic, read) => (.panic, read) := by
  rw [loadEngine_release]
  unfold Load.change Load.bind
  rcases loadEngine env o dir fs with ⟨r, t⟩
  cases r <;> simp [Load.pure]

/-- The loaded engines: one loaded by a debug build and one loaded by a release build from the same files give the same
answers, whenever the former does not panic. -/
theorem c98_loaded (env : LoadEnv) (o : HashOrd) (dir : Path) (fs : Fs) (e e' : LoadedEngine)
    (hl : (loadEngine env o dir fs).1 = .ok e) (hl' : (loadEngine env.inRelease o dir fs).1 = .ok e') (w : World)
    (call : EngineCall) (h : ((e.engine env.names).code call).run w ≠ .panic) :
    ((e'.engine env.names).code call).run w = ((e.engine env.names).code call).run w := by
  rw [c98_loading] at hl'
  rcases hr : loadEngine env o dir fs with ⟨r, t⟩
  rw [hr] at hl hl'
  simp only at hl
  subst hl
  simp only [Outcome.ok.injEq] at hl'
  subst hl'
  exact c98_answers e env.names w call h

/-- Where a debug build of the lookup parser panics although a release build answers: exactly when an entry of the table
that is hit has not as many slots as there are entities. -/
theorem c98_lookup_panics (env : RuleEnv) (hd : env.debugAssertions = true) (p : Lookup) (hs : p.Sound) (w : World)
    (input : Text) (hg : p.GoodMatches env w input) (hn : p.NoRepeats env w input) (o : HashOrd) :
    (∀ filter r, (p.parse env.inRelease o input filter).run w = .ok r →
      ((p.parse env o input filter).run w = .panic ↔ p.Misfit env w input filter)) ∧
    (∀ r, (p.getIntents env.inRelease o input).run w = .ok r →
      ((p.getIntents env o input).run w = .panic ↔ p.Misfit env w input none)) ∧
    (∀ intent r, (p.getSlots env.inRelease o input intent).run w = .ok r →
      ((p.getSlots env o input intent).run w = .panic ↔ p.Misfit env w input (some [intent]))) := by
  have hparse : ∀ filter r, (p.parse env.inRelease o input filter).run w = .ok r →
      ((p.parse env o input filter).run w = .panic ↔ p.Misfit env w input filter) := by
    intro filter r h
    unfold Lookup.parse at h ⊢
    rw [Prog.run_bind, Outcome.bind_ok] at h
    obtain ⟨r', h, -⟩ := h
    obtain ⟨cs, hcs, hok, hp⟩ := lookup_top_panic h
    rw [bind_ret_panic, hp, misfit_iff hd hs hg hn hcs hok]
  refine ⟨hparse, fun r h => ?_, fun intent r h => ?_⟩
  · unfold Lookup.getIntents at h ⊢
    rw [Prog.run_bind, Outcome.bind_ok] at h
    obtain ⟨r', h, -⟩ := h
    obtain ⟨cs, hcs, hok, hp⟩ := lookup_top_panic h
    rw [bind_ret_panic, hp, misfit_iff hd hs hg hn hcs hok]
  · unfold Lookup.getSlots at h ⊢
    by_cases hc : p.intentsNames.contains intent = true
    · rw [if_pos hc, Prog.run_bind, Outcome.bind_ok] at h
      obtain ⟨r', h, -⟩ := h
      rw [if_pos hc, bind_ret_panic]
      exact hparse _ _ h
    · rw [if_neg hc] at h
      cases h

/-- Where a debug build of the deterministic parser panics although a release build answers, for sentences and placeholders
of less than 2^15 characters: exactly when, for an intent that is tried, a placeholder ends beyond 2^15 characters of the
sentence with placeholders. -/
theorem c98_deterministic_panics (env : RuleEnv) (hd : env.debugAssertions = true) (p : Det) (w : World) (input : Text)
    (hi : input.length < 32768) (hg : p.GoodFinds env w input) (o : HashOrd) :
    (∀ filter r, (p.parse env.inRelease o input filter).run w = .ok r →
      ((p.parse env o input filter).run w = .panic ↔ p.TooLong env w input filter)) ∧
    (∀ r, (p.getIntents env.inRelease o input).run w = .ok r →
      ((p.getIntents env o input).run w = .panic ↔ p.TooLong env w input none)) ∧
    (∀ intent r, (p.getSlots env.inRelease o input intent).run w = .ok r →
      ((p.getSlots env o input intent).run w = .panic ↔ p.TooLong env w input (some [intent]))) := by
  have hparse : ∀ filter r, (p.parse env.inRelease o input filter).run w = .ok r →
      ((p.parse env o input filter).run w = .panic ↔ p.TooLong env w input filter) := by
    intro filter r h
    unfold Det.parse at h ⊢
    rw [Prog.run_bind, Outcome.bind_ok] at h
    obtain ⟨r', h, -⟩ := h
    rw [bind_ret_panic, det_top_panic hd hi hg h]
  refine ⟨hparse, fun r h => ?_, fun intent r h => ?_⟩
  · unfold Det.getIntents at h ⊢
    rw [Prog.run_bind, Outcome.bind_ok] at h
    obtain ⟨r', h, -⟩ := h
    rw [bind_ret_panic, det_top_panic hd hi hg h]
  · unfold Det.getSlots at h ⊢
    by_cases hc : p.regexes.keys.contains intent = true
    · rw [if_pos hc, Prog.run_bind, Outcome.bind_ok] at h
      obtain ⟨r', h, -⟩ := h
      rw [if_pos hc, bind_ret_panic]
      exact hparse _ _ h
    · rw [if_neg hc] at h
      cases h

/-! ### Examples -/

/-- An engine of the examples, in a debug build. -/
def buildsEngine : LoadedEngine :=
  ⟨⟨[], [("brew".toList, [("count".toList, "snips/number".toList), ("kind".toList, "drink".toList)]),
    ("idiom".toList, []), ("halt".toList, [])]⟩, [.lookup demoEnv demoLookup, .deterministic demoEnv demoDet],
    ⟨fun t => t, ruleFns.tokenize, fun _ => ruleWorld.builtin, ruleWorld.custom⟩⟩

/-- Whether it is a panic. -/
def Outcome.panics {α : Type} : Outcome α → Bool
  | .panic => true
  | _ => false

/-- The debug build answers. -/
example : ((((buildsEngine.engine demoKinds).code
    (.parse HashOrd.insertion "make two tea".toList none (some ["idiom".toList]) 2 0)).run ruleWorld).panics = false) ∧
    ((((buildsEngine.engine demoKinds).code (.slots HashOrd.insertion "make two tea".toList "brew".toList 0)).run
      ruleWorld).panics = false) := by
  refine ⟨by decide +kernel, by decide +kernel⟩

/-- A sentence with typed placeholders: the debug build panics, the release build answers. -/
example : ((((buildsEngine.engine demoKinds).code
    (.intents HashOrd.insertion "make %snips/number% %drink%".toList)).run ruleWorld).panics = true) ∧
    ((((buildsEngine.inRelease.engine demoKinds).code
      (.intents HashOrd.insertion "make %snips/number% %drink%".toList)).run ruleWorld).panics = false) := by
  refine ⟨by decide +kernel, by decide +kernel⟩

/-- The sentence with typed placeholders hits an entry with two slots, without an entity. -/
example : demoLookup.Misfit demoEnv ruleWorld "make %snips/number% %drink%".toList none := by
  refine ⟨⟨["idiom".toList, "halt".toList], [], []⟩, by simp [demoLookup], "idiom".toList, by simp, by simp [Permits], [], [],
    [.plain "make %snips/number% %drink%".toList], "brew".toList, ["count".toList, "kind".toList],
    ⟨[], [], [], .nil, by decide +kernel, by decide +kernel, rfl⟩, ⟨by simp, by simp, by simp⟩, by decide, by simp [entitiesOf, occs],
    ⟨0, [0, 1], by decide +kernel, rfl, .cons rfl (.cons rfl .nil)⟩, by decide⟩

/-- A sentence without typed placeholders is answered by both. -/
example : (demoLookup.parse demoEnv HashOrd.insertion "make two tea".toList (some ["brew".toList])).run ruleWorld =
    (demoLookup.parse demoEnv.inRelease HashOrd.insertion "make two tea".toList (some ["brew".toList])).run ruleWorld := by
  decide +kernel

/-- What the extractors find for the deterministic parser of the examples. -/
example : demoDet.GoodFinds demoEnv ruleWorld "make two tea".toList := by
  rintro scope hs all ⟨bs, cs, hb, hc, rfl⟩ e he
  cases hb
  cases hc
  revert hs he e scope
  unfold Rng.NonEmpty
  decide +kernel

/-- A directory from which both builds load an engine. -/
example : (loadEngine demoLoadEnv HashOrd.insertion ["m".toList] (demoEngineFs 1)).1.panics = false ∧
    ((loadEngine demoLoadEnv.inRelease HashOrd.insertion ["m".toList] (demoEngineFs 1)).1.map fun _ => ()) = .ok () ∧
    demoLoadEnv.debugAssertions = true := by
  refine ⟨by decide +kernel, by decide +kernel, rfl⟩

end Snips
