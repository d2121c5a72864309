import Verif.Proofs.Extracting
import Verif.Props.C100_Clock
import Verif.Spec.Demo

/-! # C101: within the capacity of the caches nothing is extracted twice -/

namespace Snips

/-- After any calls, take any further calls whose answered requests are, for each of the two caches, among no more than its
capacity.  A request that one of them has been answered is not extracted again. -/
theorem c101_once {α : Type} (x : Ext) (hnp : x.NoPanic) (cap : Nat) (hcap : 0 < cap) (before calls : List (Nat × Prog α))
    (builtin : List (CacheKey Kind)) (custom : List (CacheKey Text)) (hb : builtin.length ≤ cap) (hc : custom.length ≤ cap)
    (hk : AmongKeys (historyAccesses x calls (runHistory x before (Caches.empty cap)).2) builtin custom)
    (pre post : List Access) (a : Access)
    (h : historyAccesses x calls (runHistory x before (Caches.empty cap)).2 = pre ++ a :: post)
    (hseen : ∃ b ∈ pre, b.answered = true ∧ b.key = a.key) : a.extracted = false := by
  have hw := runHistory_well hnp hcap before _ (empty_well cap)
  have ho := historyAccesses_once hnp hb hc calls [] _ hw.recent hk
  rw [h] at ho
  exact once_split pre ho (by simpa using hseen)

/-- What has not been answered since the engine was loaded is extracted. -/
theorem c101_needed {α : Type} (x : Ext) (hnp : x.NoPanic) (cap : Nat) (calls : List (Nat × Prog α))
    (pre post : List Access) (a : Access) (h : historyAccesses x calls (Caches.empty cap) = pre ++ a :: post)
    (hnew : ∀ b ∈ pre, b.answered = true → b.key ≠ a.key) : a.extracted = true := by
  have hn := historyAccesses_needed hnp calls [] _ (empty_only cap)
  rw [h] at hn
  cases he : a.extracted with
  | true => rfl
  | false =>
    obtain ⟨b, hb, hba, hbk⟩ := needed_split pre hn he
    exact absurd hbk (hnew b (by simpa using hb) hba)

/-- A call to the engine made a second time, after any others: it makes the same requests, and extracts none of those that were
answered. -/
theorem c101_again (x : Ext) (hts : x.TimeStable) (hnp : x.NoPanic) (dataset : DatasetMetadata) (names : KindNames)
    (ps : List ParserModel) (cap : Nat) (hcap : 0 < cap) (before : List (Nat × EngineCall)) (call : EngineCall) (t t' : Nat)
    (caches : Caches)
    (hcaches : caches = (runHistory x (before.map fun c => (c.1, (Engine.ofParsers dataset names ps).code c.2)) (Caches.empty cap)).2)
    (builtin : List (CacheKey Kind)) (custom : List (CacheKey Text)) (hb : builtin.length ≤ cap) (hc : custom.length ≤ cap)
    (hk : AmongKeys (((Engine.ofParsers dataset names ps).code call).accesses x t caches) builtin custom) :
    let code := (Engine.ofParsers dataset names ps).code call
    let first := code.accesses x t caches
    let second := code.accesses x t' (code.runCached x t caches).2
    second.map (fun a => (a.key, a.answered)) = first.map (fun a => (a.key, a.answered)) ∧
      ∀ a ∈ second, a.answered = true → a.extracted = false := by
  intro code first second
  have hw : CachesWell cap caches := by rw [hcaches]; exact runHistory_well hnp hcap _ _ (empty_well cap)
  obtain ⟨-, hs, hh⟩ : _ ∧ caches.Sound x ∧ caches.Healthy := by
    rw [hcaches]; exact runHistory_spec hts hnp _ _ (Caches.empty_sound x cap) (Caches.empty_healthy cap)
  obtain ⟨-, hs', hh'⟩ := runCached_spec hts hnp t code caches hs hh
  have hstep : Prog.InStep _ code code := code_inStep (ofParsers_steady dataset names ps) call
  have hreq : second.map Access.request = first.map Access.request := inStep_requests hts hnp t' t hstep _ _ hs' hh' hs hh
  have hsame : ∀ a ∈ second, ∃ b ∈ first, b.key = a.key ∧ b.answered = a.answered := by
    intro a ha
    have : a.request ∈ first.map Access.request := by rw [← hreq]; exact List.mem_map_of_mem ha
    obtain ⟨b, hb, hab⟩ := List.mem_map.1 this
    obtain ⟨h1, h2⟩ := Prod.mk.inj hab
    exact ⟨b, hb, h1, h2⟩
  refine ⟨hreq, fun a ha haa => ?_⟩
  have hk2 : AmongKeys second builtin custom := by
    intro a ha haa
    obtain ⟨b, hb, h1, h2⟩ := hsame a ha
    have := hk b hb (h2.trans haa)
    rwa [h1] at this
  obtain ⟨-, hrec⟩ := accesses_once hnp hb hc t code [] caches hw.recent hk
  obtain ⟨honce, -⟩ := accesses_once hnp hb hc t' code ([] ++ first) _ hrec hk2
  obtain ⟨pre, post, hsplit⟩ := List.append_of_mem ha
  obtain ⟨b, hb, h1, h2⟩ := hsame a ha
  change Once ([] ++ first) second at honce
  rw [hsplit] at honce
  exact once_split pre honce ⟨b, by simp [hb], h2.trans haa, h1⟩

/-- In particular when it makes no more requests than the capacity. -/
theorem c101_again_few (x : Ext) (hts : x.TimeStable) (hnp : x.NoPanic) (dataset : DatasetMetadata) (names : KindNames)
    (ps : List ParserModel) (cap : Nat) (hcap : 0 < cap) (before : List (Nat × EngineCall)) (call : EngineCall) (t t' : Nat)
    (caches : Caches)
    (hcaches : caches = (runHistory x (before.map fun c => (c.1, (Engine.ofParsers dataset names ps).code c.2)) (Caches.empty cap)).2)
    (hfew : (((Engine.ofParsers dataset names ps).code call).accesses x t caches).length ≤ cap) :
    ∀ a ∈ ((Engine.ofParsers dataset names ps).code call).accesses x t'
        (((Engine.ofParsers dataset names ps).code call).runCached x t caches).2,
      a.answered = true → a.extracted = false := by
  refine (c101_again x hts hnp dataset names ps cap hcap before call t t' caches hcaches
    ((((Engine.ofParsers dataset names ps).code call).accesses x t caches).filterMap fun a => a.key.getLeft?)
    ((((Engine.ofParsers dataset names ps).code call).accesses x t caches).filterMap fun a => a.key.getRight?)
    (Nat.le_trans (List.length_filterMap_le _ _) hfew) (Nat.le_trans (List.length_filterMap_le _ _) hfew) ?_).2
  intro a ha _
  cases hk : a.key with
  | inl k => exact List.mem_filterMap.2 ⟨a, ha, by simp [hk]⟩
  | inr k => exact List.mem_filterMap.2 ⟨a, ha, by simp [hk]⟩

/-! ### Concrete cases -/

/-- A call that asks for two texts, and for the first one again. -/
def threeRequests : Prog Unit :=
  .builtinCached ['a'] none fun _ => .builtinCached ['b'] none fun _ => .builtinCached ['a'] none fun _ => .ret ()

/-- With room for two, the third request is not extracted, nor is anything of a second call; with room for one, all are. -/
example :
    (historyAccesses demoExt [(1, threeRequests), (2, threeRequests)] (Caches.empty 2)).map Access.extracted =
      [true, true, false, false, false, false] ∧
    (historyAccesses demoExt [(1, threeRequests), (2, threeRequests)] (Caches.empty 1)).map Access.extracted =
      [true, true, true, false, true, true] := by decide +kernel

/-- The engine of the examples: its second call at another time extracts nothing, and both make the same requests. -/
def extractingCode : Prog EngineAnswer :=
  (Engine.ofParsers readersDataset demoKinds readers).code (.parse HashOrd.insertion "make the two tea".toList none none 0 0)

example :
    ((extractingCode.accesses clockExt 3 (Caches.empty 1000)).map fun a => (a.extracted, a.answered)).count (true, true) = 4 ∧
    ((extractingCode.accesses clockExt 4 (extractingCode.runCached clockExt 3 (Caches.empty 1000)).2).map Access.extracted).all (· == false)
      = true ∧
    (extractingCode.accesses clockExt 3 (Caches.empty 1000)).length ≤ 1000 := by decide +kernel

/-- The hypotheses of `c101_once`, for those calls. -/
example : AmongKeys (historyAccesses demoExt [(1, threeRequests), (2, threeRequests)]
    (runHistory demoExt [(0, threeRequests)] (Caches.empty 2)).2) [⟨['a'], none, 0⟩, ⟨['b'], none, 0⟩] [] := by
  intro a ha _
  have h := List.mem_map_of_mem (f := Access.key) ha
  have hk : (historyAccesses demoExt [(1, threeRequests), (2, threeRequests)]
      (runHistory demoExt [(0, threeRequests)] (Caches.empty 2)).2).map Access.key =
      [.inl ⟨['a'], none, 0⟩, .inl ⟨['b'], none, 0⟩, .inl ⟨['a'], none, 0⟩,
       .inl ⟨['a'], none, 0⟩, .inl ⟨['b'], none, 0⟩, .inl ⟨['a'], none, 0⟩] := by decide +kernel
  rw [hk] at h
  simp only [List.mem_cons, List.not_mem_nil, or_false] at h
  rcases h with h | h | h | h | h | h <;> rw [h] <;> simp

end Snips
