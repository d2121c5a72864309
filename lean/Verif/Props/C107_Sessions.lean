import Verif.Proofs.Sessions
import Verif.Props.C74_SwiftValues
import Verif.Props.C82_Python

/-! # C107 What Swift and Kotlin programs are told is what the model files say

Full claim: in a program that makes engines, asks them questions, catches errors, releases engines and sees its files
change, a question to an engine it still holds is answered by an engine that the files of the directory described when it
was made.  For Swift this holds of answers that Swift can show (C74); for Kotlin as long as no filter is an empty list and
the garbage collector does not run during calls (C72). -/

namespace Snips

open JsonGrammar Shown ResultJson

variable {κ : Type}

theorem hostMade_describes {env : CEnv κ} {m : HostMade} {e : LoadedEngine} (hp : m.Plain)
    (h : loadSource env m.circ m.src m.disk = .ok e) : m.Describes env e := by
  obtain ⟨a, src, c, d⟩ := m
  cases src with
  | inl dir =>
    rw [(c71_source env c d).1 dir hp] at h
    exact c60_engine _ _ _ _ _ h
  | inr b =>
    rw [(c71_source env c d).2 b hp] at h
    exact h

/-- **C107**, Swift.  Missing: answers that Swift cannot show (C74), errors whose message has a null byte (C73). -/
theorem c107_swift_partial {env : CEnv CAnswer} {meaning : Nat → OValue} (henv : UsesHeader env meaning)
    (hu : env.utf8 = utf8OrErr) (msg : Err → List Nat) (repair : List Nat → Text) {s0 s : HMem CAnswer} {l : List HostMade}
    (h : SwHistory env msg (swConv repair) s0 s l) (m : HostMade) (hm : m ∈ l) (hp : m.Plain) :
    ∃ e, m.Describes env e ∧ (e.ext.TimeStable → e.ext.NoPanic → SwTells meaning repair env msg s m.address e) := by
  have hheld := swHistory_held hu h
  obtain ⟨e, hd, h1, h2, hans⟩ := held_answers hheld hm
  refine ⟨e, hostMade_describes hp h1, fun hts hnp => ?_⟩
  have hans := @hans hts hnp
  have ht := hheld.tidy
  refine ⟨?_, ?_, ?_⟩
  · intro c text wl bl ni ns htext hw hb hni hns a ha hshown
    have hq : (Question.parse text wl bl ni ns).Plain :=
      ⟨htext, hw, hb, ⟨Int.natCast_nonneg _, by omega⟩, Int.natCast_nonneg _, by omega⟩
    have hx := (hans c (·.parseWithAlternatives c.order text wl bl ni ns)).trans ha
    have key := c73_answer_partial hu msg (swConv repair) c hq ht h2
    have hstruct : (Question.parse text wl bl ni ns).plainStruct env hd c = a >>= env.cResult := by
      rw [← hx]; rfl
    rw [hstruct] at key
    refine ⟨fun r hr => ?_, fun err hr h0 => ?_, fun hr => ?_⟩
    · obtain ⟨g1, g2⟩ := hshown r hr
      obtain ⟨x, hcx⟩ := cParseResult_plain g2
      exact c74_parse_partial henv hu msg repair c ht h2 hq (hx.trans hr) hcx g1
    · subst hr
      exact (key h0).1
    · subst hr
      exact key
  · intro c text intent ns htext hi hns a ha hshown
    have hq : (Question.getSlots text intent ns).Plain := ⟨htext, hi, Int.natCast_nonneg _, by omega⟩
    have hx := (hans c (·.getSlotsWithAlternatives c.order text intent ns)).trans ha
    have key := c73_answer_partial hu msg (swConv repair) c hq ht h2
    have hstruct : (Question.getSlots text intent ns).plainStruct env hd c = a >>= env.cSlots := by
      rw [← hx]; rfl
    rw [hstruct] at key
    refine ⟨fun r hr => ?_, fun err hr h0 => ?_, fun hr => ?_⟩
    · obtain ⟨x, hcx⟩ := cSlots_plain (meaning := meaning) (l := r) fun t ht => by
        obtain ⟨y, hy, hty⟩ := List.mem_flatMap.1 ht
        exact (hshown r hr y hy).2 t hty
      obtain ⟨ws, g1, g2⟩ := c74_getSlots_partial henv hu msg repair c ht h2 hq (hx.trans hr) (x := .slots x)
        (by unfold cSlotList; rw [hcx]; rfl) fun y hy => (hshown r hr y hy).1
      exact ⟨_, g1, ws, rfl, g2⟩
    · subst hr
      exact (key h0).1
    · subst hr
      exact key
  · intro c text htext a ha hshown
    have hx := (hans c (·.getIntents c.order text)).trans ha
    have key := c73_answer_partial hu msg (swConv repair) c (q := .getIntents text) htext ht h2
    have hstruct : (Question.getIntents text).plainStruct env hd c = a >>= env.cIntents := by
      rw [← hx]; rfl
    rw [hstruct] at key
    refine ⟨fun r hr => ?_, fun err hr h0 => ?_, fun hr => ?_⟩
    · obtain ⟨x, hcx⟩ := mapOutcome_plain (f := cIntent) (l := r) fun i hi =>
        cIntent_plain fun t ht => hshown r hr i hi t (Option.mem_toList.1 ht)
      obtain ⟨ws, g1, g2⟩ := c74_getIntents henv hu msg repair c ht h2 htext (hx.trans hr) (x := .intents x)
        (by unfold cIntentArray; rw [hcx]; rfl)
      exact ⟨_, g1, ws, rfl, g2⟩
    · subst hr
      exact (key h0).1
    · subst hr
      exact key

/-- What Kotlin is told as JSON, from what Python is told. -/
theorem ktTold_of {env : CEnv κ} (hu : env.utf8 = utf8OrErr) (w : Writing) (msg : Err → List Nat) (c : CCirc) {client : Addr}
    {hd : Handle} {s : HMem κ} (ht : s.Tidy) (hh : UsableEngine s.c client hd) {q : Question} (hf : q.FiltersNotEmpty)
    {α : Type} {shows' : Json → α → Prop} {o : Outcome α} {toJson : α → Outcome (List Nat)}
    (hq : q.json env hd c = o >>= fun r => toJson r >>= withoutNull)
    (hans : ∀ a, o = .ok a → ∃ b, (pyAsk env msg c client q s).1 = .ok b ∧ ReadAs w.f64 b (shows' · a)) :
    KtTold w msg shows' o (ktAskJson env msg (fun _ => false) c client q s).1 := by
  obtain ⟨h1, -, h3⟩ := c72_json_partial hu msg c hf ht hh
  refine ⟨fun a ha => ?_, fun e he => ?_, fun hp => ?_⟩
  · obtain ⟨b, g1, g2⟩ := hans a ha
    exact ⟨b, (h3 b).2 g1, g2⟩
  · rw [h1, hq, he]; rfl
  · rw [h1, hq, hp]; rfl

/-- **C107**, Kotlin.  Missing: empty lists as filters, collections during a call, conversions that throw (C72). -/
theorem c107_kotlin_partial {τ : Type} {env : CEnv κ} (hu : env.utf8 = utf8OrErr) (w : Writing) (meaning : Nat → OValue)
    (msg : Err → List Nat) (conv : KtConv κ τ) (hconv : ∀ q x e, conv.of q x ≠ .error e) {s0 s : HMem κ}
    {l : List HostMade} (h : KtHistory (env.withJson (numbers w) w.widen meaning) msg conv s0 s l) (m : HostMade) (hm : m ∈ l)
    (hp : m.Plain) :
    ∃ e, m.Describes env e ∧ (e.ext.TimeStable → e.ext.NoPanic →
      KtTells w meaning (env.withJson (numbers w) w.widen meaning) msg conv s m.address e) := by
  have hu' : (env.withJson (numbers w) w.widen meaning).utf8 = utf8OrErr := hu
  have hheld := ktHistory_held hu' hconv h
  obtain ⟨e, hd, h1, h2, hans⟩ := held_answers hheld hm
  refine ⟨e, hostMade_describes (env := env) hp h1, fun hts hnp => ?_⟩
  have hans := @hans hts hnp
  have ht := hheld.tidy
  refine ⟨?_, ?_, ?_, ?_, ?_, ?_⟩
  · intro c text wl bl ni ns htext hw hb hwe hbe hni hns a ha hr
    have hx := (hans c (·.parseWithAlternatives c.order text wl bl ni ns)).trans ha
    refine ktTold_of hu' w msg c ht h2 (q := .parse text wl bl ni ns) ⟨hwe, hbe⟩ (o := a)
      (toJson := (env.withJson (numbers w) w.widen meaning).jsonResult) ?_
      fun r hra => (c80_parse hu w meaning msg c ht h2 htext hw hb hni hns hx hr).1 r hra
    rw [← hx]
    unfold Question.json Question.native
    simp only
    rw [beforeNull_of_notMem htext, map_beforeNull hw, map_beforeNull hb, asU32_toNat (by omega), asU32_toNat (by omega)]
    rfl
  · intro c text intent ns htext hi hns a ha hr
    have hx := (hans c (·.getSlotsWithAlternatives c.order text intent ns)).trans ha
    refine ktTold_of hu' w msg c ht h2 (q := .getSlots text intent ns) trivial (o := a)
      (toJson := (env.withJson (numbers w) w.widen meaning).jsonSlots) ?_
      fun r hra => (c80_getSlots hu w meaning msg c ht h2 htext hi hns hx hr).1 r hra
    rw [← hx]
    unfold Question.json Question.native
    simp only
    rw [beforeNull_of_notMem htext, beforeNull_of_notMem hi, asU32_toNat (by omega)]
    rfl
  · intro c text htext a ha hr
    have hx := (hans c (·.getIntents c.order text)).trans ha
    refine ktTold_of hu' w msg c ht h2 (q := .getIntents text) trivial (o := a)
      (toJson := (env.withJson (numbers w) w.widen meaning).jsonIntents) ?_
      fun r hra => (c80_getIntents hu w meaning msg c ht h2 htext hx hr).1 r hra
    rw [← hx]
    unfold Question.json Question.native
    simp only
    rw [beforeNull_of_notMem htext]
  · intro c text wl bl ni ns htext hw hb hwe hbe hni hns
    rw [(c72_answer_partial hu' msg conv c (q := .parse text wl bl ni ns)
      ⟨htext, hw, hb, ⟨Int.natCast_nonneg _, by omega⟩, Int.natCast_nonneg _, by omega⟩ ⟨hwe, hbe⟩ ht h2).1,
      ← hans c (·.parseWithAlternatives c.order text wl bl ni ns)]
    rfl
  · intro c text intent ns htext hi hns
    rw [(c72_answer_partial hu' msg conv c (q := .getSlots text intent ns)
      ⟨htext, hi, Int.natCast_nonneg _, by omega⟩ trivial ht h2).1,
      ← hans c (·.getSlotsWithAlternatives c.order text intent ns)]
    rfl
  · intro c text htext
    rw [(c72_answer_partial hu' msg conv c (q := .getIntents text) htext trivial ht h2).1,
      ← hans c (·.getIntents c.order text)]
    rfl

/-- **C107**: a program in Swift can make an engine from a directory exactly if the files of the directory describe one. -/
theorem c107_swift_can_make {env : CEnv κ} (hu : env.utf8 = utf8OrErr) (msg : Err → List Nat) (c : CCirc) {s : HMem κ}
    (ht : s.Tidy) (dir : Text) (hdir : '\x00' ∉ dir) :
    (∃ p, (swInit env msg c (.inl dir) s).1 = .ok p) ↔
      ∃ e, EngineAt env.load c.order s.c.disk.fs (joinPath env.cwd dir) e := by
  rw [← c61_loads_iff, ← (c71_source env c s.c.disk).1 dir hdir]
  have hk := swInit_ends hu msg c ht (src := .inl dir) (by simp)
  unfold Ends at hk
  cases ho : loadSource env c (.inl dir) s.c.disk with
  | ok e =>
    rw [ho] at hk
    obtain ⟨p, h1, -⟩ := hk
    rw [h1]
    simp
  | err e =>
    rw [ho] at hk
    by_cases h0 : 0 ∈ msg e
    · rw [hk.2 h0]
      simp
    · rw [(hk.1 h0).1]
      simp
  | panic =>
    rw [ho] at hk
    rw [show (swInit env msg c (.inl dir) s).1 = .panic from hk]
    simp

/-- **C107**: the same for Kotlin. -/
theorem c107_kotlin_can_make {env : CEnv κ} (hu : env.utf8 = utf8OrErr) (msg : Err → List Nat) (c : CCirc) {s : HMem κ}
    (ht : s.Tidy) (dir : Text) (hdir : '\x00' ∉ dir) :
    (∃ p, (ktCreate env msg c (.inl dir) s).1 = .ok p) ↔
      ∃ e, EngineAt env.load c.order s.c.disk.fs (joinPath env.cwd dir) e := by
  rw [← c61_loads_iff, ← (c71_source env c s.c.disk).1 dir hdir]
  have hk := c72_create hu msg c ht (.inl dir)
  cases ho : loadSource env c (.inl dir) s.c.disk with
  | ok e =>
    rw [ho] at hk
    obtain ⟨p, s', h1, -⟩ := hk
    rw [h1]
    simp
  | err e =>
    rw [ho] at hk
    obtain ⟨s', h1, -⟩ := hk
    rw [h1]
    simp
  | panic =>
    rw [ho] at hk
    simp only at hk
    rw [hk]
    simp

/-! ### Programs that make an engine -/

/-- After an engine has been made in Swift. -/
def demoSwMem1 : HMem CAnswer := (swInit demoSwEnv demoMsg demoCirc (.inl ['/', 'm']) demoSwMem).2

def demoSwMade : HostMade := ⟨1, .inl ['/', 'm'], demoCirc, demoSwMem.c.disk⟩

/-- After a question about an intent that does not exist. -/
def demoSwMem2 : HMem CAnswer := (swAsk demoSwEnv demoMsg (swConv fun _ => []) demoCirc 1
  (.getSlots "stop".toList "no".toList 0) demoSwMem1).2

example : SwHistory demoSwEnv demoMsg (swConv fun _ => []) demoSwMem demoSwMem2 [demoSwMade] :=
  .askThrows (e := .library [111, 111, 112, 115])
    (.init (.start ⟨⟨by decide, ⟨rfl, rfl⟩, fun _ _ => ⟨rfl, rfl⟩⟩, by decide, fun _ _ => ⟨rfl, rfl, rfl, rfl⟩⟩ (fun _ => rfl))
      demoCirc (.inl ['/', 'm']) (p := 1) (s' := demoSwMem1) (Prod.ext (by decide +kernel) rfl))
    demoCirc (List.mem_singleton.2 rfl) (.getSlots "stop".toList "no".toList 0) (Prod.ext (by decide +kernel) rfl)

example : demoSwMade.Plain := by simp [HostMade.Plain, demoSwMade]

example : demoSwMem.Tidy := ⟨⟨by decide, ⟨rfl, rfl⟩, fun _ _ => ⟨rfl, rfl⟩⟩, by decide, fun _ _ => ⟨rfl, rfl, rfl, rfl⟩⟩

/-- What the engine answers after that, in Swift and, with the same engine, in Kotlin. -/
example : (match (swAsk demoSwEnv demoMsg (swConv (fun _ => [])) demoCirc 1 (.parse "stop".toList (some ["halt".toList]) none 0 0)
      demoSwMem2).1 with
      | .ok (.result _ i _ _) => decide (i.intentName = some "halt".toList)
      | _ => false) = true := by decide +kernel

def demoKtMem1 : HMem (Option Text) :=
  (ktCreate (demoHEnv.withJson exactNumbers id demoTwo) demoMsg demoCirc (.inl ['/', 'm']) demoHMem).2

/-- A conversion that does not throw. -/
def keepConv : KtConv (Option Text) (Option Text) := ⟨.ok, .ok, .ok⟩

example : ∀ q x e, keepConv.of q x ≠ .error e := by
  intro q x e
  cases q <;> simp [keepConv, KtConv.of]

example : KtHistory (demoHEnv.withJson exactNumbers id demoTwo) demoMsg keepConv demoHMem demoKtMem1
    [⟨1, .inl ['/', 'm'], demoCirc, demoHMem.c.disk⟩] :=
  .create (.start demoHMem_tidy (fun _ => rfl)) demoCirc _ (Prod.ext (by decide +kernel) rfl)

end Snips
