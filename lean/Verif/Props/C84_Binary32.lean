import Verif.Proofs.Float32
import Verif.Proofs.Rule
import Verif.Proofs.LookupRun
import Verif.Proofs.DetRun
import Verif.Spec.RuleDemo
import Verif.Model.Engine
import Verif.Spec.Rule

/-! # C84: the confidences of the rule based parsers in single precision -/

namespace Snips

/-- **C84**: the result of an operation is the nearest binary32 number, the even one of two; it is infinite exactly from half a
step beyond the largest number on. -/
theorem c84_rounding (x : ℚ) :
    (|x| < (2 ^ 25 - 1) * 2 ^ 103 → ∃ y, Fl.round round32 x = .fin y ∧ RoundsTo32 x y) ∧
    ((2 ^ 25 - 1) * 2 ^ 103 ≤ x → Fl.round round32 x = .inf false) ∧
    (x ≤ -((2 ^ 25 - 1) * 2 ^ 103) → Fl.round round32 x = .inf true) := by
  have hdef : Fl.round round32 x = if max32 < roundPlaces place32 x then .inf false
      else if roundPlaces place32 x < -max32 then .inf true else .fin (roundPlaces place32 x) := rfl
  have hmax : (0 : ℚ) < max32 := by unfold max32; norm_num
  refine ⟨fun h => ⟨_, ?_, roundsTo32 h⟩, fun h => ?_, fun h => ?_⟩
  · have hr := abs_le.1 (round32_in_range h)
    rw [hdef, if_neg (not_lt.2 hr.2), if_neg (not_lt.2 hr.1)]
  · rw [hdef, if_pos (round32_overflow h)]
  · have h1 := round32_overflow (x := -x) (by unfold limit32; linarith)
    rw [roundPlaces_neg] at h1
    rw [hdef, if_neg (by linarith), if_pos (by linarith)]

/-- A binary32 number is not changed by rounding. -/
theorem c84_exact (x : ℚ) (h : Binary32 x) : Fl.round round32 x = .fin x := by
  have hx : |x| ≤ max32 := by
    obtain ⟨m, e, hm, h1, h2, rfl⟩ := h
    rw [abs_mul, abs_of_pos (two_zpow_pos e)]
    unfold max32
    have hm' : |(m : ℚ)| ≤ 2 ^ 24 - 1 := by
      have : |m| ≤ 2 ^ 24 - 1 := by omega
      exact_mod_cast this
    have he : (2 : ℚ) ^ e ≤ 2 ^ 104 := by
      rw [show (2 : ℚ) ^ 104 = 2 ^ (104 : ℤ) by norm_num]
      exact zpow_ge h2
    exact mul_le_mul hm' he (two_zpow_pos e).le (by norm_num)
  have hr : roundPlaces place32 x = x := roundPlaces_grid places32 (binary32_grid h)
  have hr' := abs_le.1 hx
  change (if max32 < roundPlaces place32 x then Fl.inf false
      else if roundPlaces place32 x < -max32 then .inf true else .fin (roundPlaces place32 x)) = _
  rw [hr, if_neg (not_lt.2 hr'.2), if_neg (not_lt.2 hr'.1)]

/-- The result of rounding `x` is determined: a number that is nearest to `x`, and even if there are two, is the one computed. -/
theorem roundsTo32_eq {x y : ℚ} (hy : RoundsTo32 x y) (hb : |x| < limit32) : y = roundPlaces place32 x := by
  by_contra hne
  have hR := roundsTo32 hb
  have htie : |x - y| = |x - roundPlaces place32 x| := le_antisymm (hy.nearest _ hR.number) (hR.nearest _ hy.number)
  obtain ⟨j, hj⟩ := tie_multiple places32 x (binary32_grid hy.number) htie.le
  generalize he : place32 (Int.log 2 |x|) = e at hj
  have hp := two_zpow_pos e
  have hround : roundPlaces place32 x = halfEven (x / 2 ^ e) * 2 ^ e := by unfold roundPlaces; rw [he]
  have h1 : ∀ q : ℚ, |x - q * 2 ^ e| = |x / 2 ^ e - q| * 2 ^ e := by
    intro q
    rw [← abs_of_pos hp, ← abs_mul, abs_of_pos hp, sub_mul, div_mul_cancel₀ _ hp.ne']
  have hjn : j ≠ halfEven (x / 2 ^ e) := by
    intro h
    exact hne (by rw [hj, hround, h])
  have hdist : |x / 2 ^ e - j| = |x / 2 ^ e - halfEven (x / 2 ^ e)| := by
    rw [hj, hround, h1, h1] at htie
    exact mul_right_cancel₀ hp.ne' htie
  have heven := halfEven_tie hjn hdist
  obtain ⟨b1, b2⟩ := halfEven_bounds (x / 2 ^ e)
  have hhalf : |x / 2 ^ e - j| ≤ 1 / 2 := by
    rw [hdist]
    exact abs_le.2 ⟨by linarith, by linarith⟩
  obtain ⟨a1, a2⟩ := abs_le.1 hhalf
  have hodd : j % 2 = 1 := by
    have c1 : j - halfEven (x / 2 ^ e) ≤ 1 := by
      have : ((j - halfEven (x / 2 ^ e) : ℤ) : ℚ) ≤ 1 := by push_cast; linarith
      exact_mod_cast this
    have c2 : -1 ≤ j - halfEven (x / 2 ^ e) := by
      have : (-1 : ℚ) ≤ ((j - halfEven (x / 2 ^ e) : ℤ) : ℚ) := by push_cast; linarith
      exact_mod_cast this
    omega
  obtain ⟨m, e', hm, he1, he2, hme, -, hmeven⟩ := hy.even _ hR.number (fun h => hne h.symm) htie.symm
  by_cases hle : e ≤ e'
  · rw [hj, zpow_split hle, ← mul_assoc] at hme
    have := mul_right_cancel₀ hp.ne' hme
    have hint : j = m * 2 ^ (e' - e).toNat := by exact_mod_cast this
    have : j % 2 = 0 := by
      rw [hint, Int.mul_emod, hmeven]
      simp
    omega
  · push Not at hle
    have hfull : e = Int.log 2 |x| - 23 := by rw [← he] at hle ⊢; unfold place32 at *; omega
    have hx : x ≠ 0 := by
      rintro rfl
      rw [roundPlaces_zero] at htie
      simp only [zero_sub, abs_neg, sub_zero, abs_zero, abs_eq_zero] at htie
      rw [roundPlaces_zero] at hne
      exact hne htie
    have hmag : ((2 ^ 23 : ℤ) : ℚ) ≤ |x / 2 ^ e| := by
      rw [abs_div, abs_of_pos hp, le_div_iff₀ hp, show ((2 ^ 23 : ℤ) : ℚ) = 2 ^ (23 : ℤ) by norm_num,
        ← zpow_add₀ (by norm_num), show (23 : ℤ) + e = Int.log 2 |x| by omega]
      exact mag_le hx
    have hjge : 2 ^ 23 ≤ |j| := by
      have h2 : |x / 2 ^ e| ≤ |(j : ℚ)| + 1 / 2 := by
        have := abs_sub_abs_le_abs_sub (x / 2 ^ e) (j : ℚ)
        linarith
      have h3 : ((2 ^ 23 - 1 : ℤ) : ℚ) < ((|j| : ℤ) : ℚ) := by
        push_cast at hmag ⊢
        linarith
      have h4 : 2 ^ 23 - 1 < |j| := by exact_mod_cast h3
      omega
    have hlow : ((2 ^ 23 : ℤ) : ℚ) * 2 ^ e ≤ |y| := by
      rw [hj, abs_mul, abs_of_pos hp]
      refine mul_le_mul_of_nonneg_right ?_ hp.le
      exact_mod_cast hjge
    have hhigh : |y| < ((2 ^ 24 : ℤ) : ℚ) * 2 ^ e' := by
      rw [hme, abs_mul, abs_of_pos (two_zpow_pos e')]
      refine mul_lt_mul_of_pos_right ?_ (two_zpow_pos e')
      exact_mod_cast hm
    have hmono : ((2 ^ 24 : ℤ) : ℚ) * 2 ^ e' ≤ ((2 ^ 23 : ℤ) : ℚ) * 2 ^ e := by
      have := zpow_ge (a := e' + 1) (b := e) (by omega)
      rw [zpow_add₀ (by norm_num)] at this
      push_cast
      linarith
    linarith

/-- No two numbers are the result of rounding one number. -/
theorem c84_unique (x y z : ℚ) (hy : RoundsTo32 x y) (hz : RoundsTo32 x z) (hb : |x| < (2 ^ 25 - 1) * 2 ^ 103) : y = z :=
  (roundsTo32_eq hy hb).trans (roundsTo32_eq hz hb).symm

/-! ### The parsers -/

theorem mapOutcome_mem {α β : Type} {f : α → Outcome β} {l : List α} {bs : List β} (h : mapOutcome f l = .ok bs) {b : β}
    (hb : b ∈ bs) : ∃ a ∈ l, f a = .ok b := by
  have hF := mapOutcome_ok_iff.1 h
  obtain ⟨k, hk, rfl⟩ := List.mem_iff_getElem.1 hb
  have hk' : k < l.length := hF.length_eq ▸ hk
  exact ⟨l[k], List.getElem_mem hk', hF.get hk' hk⟩

theorem lookupOne_slots {env : RuleEnv} {p : Lookup} (hp : ∀ e ∈ p.map, e.2.2.length < 2 ^ 64) {input : Text}
    {wl : Option (List Text)} {c : Text × List MatchedEntity} {r : InternalResult}
    (h : p.lookupOne env input wl c = .ok (some r)) : r.slots.length < 2 ^ 64 := by
  unfold Lookup.lookupOne at h
  split at h
  · next output ho =>
    have hmem := Map.get_some_mem ho
    unfold Lookup.parseMapOutput at h
    split at h
    · cases h
    · rw [Outcome.bind_eq, Outcome.bind_ok] at h
      obtain ⟨i, _, h⟩ := h
      split at h
      · rw [Outcome.bind_eq, Outcome.bind_ok] at h
        obtain ⟨slots, hs, h⟩ := h
        cases h
        have hlen := (mapOutcome_ok_iff.1 hs).length_eq
        simp only [List.length_zip] at hlen
        have := hp _ hmem
        simp only at this ⊢
        omega
      · cases h
  · cases h

theorem pushAll_mem {rs : List InternalResult} {e : Text × List InternalResult} (he : e ∈ rs.foldl pushResult [])
    {r : InternalResult} (hr : r ∈ e.2) : r ∈ rs := by
  have hget := Map.get_of_mem (pushAll_nodup rs [] (by simp [Map.keys])) he
  rw [pushAll_get] at hget
  split at hget
  · simp [Map.get] at hget
  · simp only [Map.get, Option.some.injEq] at hget
    rw [← hget] at hr
    simp only [List.lookup_nil, Option.getD_none, List.nil_append] at hr
    exact (List.mem_filter.1 hr).1

theorem namedCaptures_length (caps : List (Option Rng)) (names : List (Option Text)) :
    (namedCaptures caps names).length ≤ names.length := by
  unfold namedCaptures
  refine (List.length_filterMap_le _ _).trans ?_
  simp only [List.length_drop, List.length_zip]
  omega

theorem dedupSlots_length (fns : TextFns) (slots : List InternalSlot) : (dedupSlots fns slots).length ≤ slots.length := by
  unfold dedupSlots
  exact ((sortByKey_perm _ _).subperm.trans (dedupItems_subperm _ _ _)).length_le

theorem matchingResult_slots {fns : TextFns} {o : HashOrd} {p : Det} {input formatted : Text} {regex : Regex} {intent : Text}
    {mapping : Option (Map Rng Rng)} {r : InternalResult} (h : p.matchingResult fns o input formatted regex intent mapping = .ok (some r)) :
    r.slots.length ≤ regex.captureNames.length := by
  unfold Det.matchingResult at h
  split at h
  · split at h
    · next caps _ =>
      rw [Outcome.bind_eq, Outcome.bind_ok] at h
      obtain ⟨slots, hs, h⟩ := h
      cases h
      have h1 := (mapOutcome_ok_iff.1 hs).length_eq
      have h2 := namedCaptures_length caps regex.captureNames
      have h3 := dedupSlots_length fns slots
      simp only
      omega
    · cases h
  · cases h

theorem matchIntent_slots {env : RuleEnv} {o : HashOrd} {p : Det} {input : Text} {scope : Text × (List Kind × List Text)} {w : World}
    (hp : ∀ e ∈ p.regexes, ∀ x ∈ e.2, x.captureNames.length < 2 ^ 64) {r : InternalResult}
    (h : (p.matchIntent env o input scope).run w = .ok (some r)) : r.slots.length < 2 ^ 64 := by
  unfold Det.matchIntent at h
  simp only [Prog.run] at h
  split at h
  · split at h
    · rw [Prog.run_ofOutcome] at h
      unfold Det.matchWith at h
      simp only [Outcome.bind_eq, Outcome.bind_ok] at h
      obtain ⟨_, _, _, _, _, _, regexes, hre, h⟩ := h
      have hget : p.regexes.get scope.1 = some regexes := by
        cases hg : p.regexes.get scope.1 with
        | none => rw [hg] at hre; cases hre
        | some x => rw [hg] at hre; cases hre; rfl
      obtain ⟨x, hx, hmatch⟩ := findMapOutcome_some h
      have hlt := hp _ (Map.get_some_mem hget) x hx
      unfold Det.tryRegex at hmatch
      rw [Outcome.bind_eq, Outcome.bind_ok] at hmatch
      obtain ⟨raw, hraw, hmatch⟩ := hmatch
      split at hmatch
      · cases hmatch
        exact lt_of_le_of_lt (matchingResult_slots hraw) hlt
      · exact lt_of_le_of_lt (matchingResult_slots hmatch) hlt
    all_goals cases h
  all_goals cases h

/-- **C84** (lookup parser): computed with 32-bit floating point numbers, infinities and NaN included, the ranking is the one of the
model with rounding to 24 significant bits; no comparison of scores panics. -/
theorem c84_lookup_top (env : RuleEnv) (hrd : env.rd = rounding24) (p : Lookup) (hp : ∀ e ∈ p.map, e.2.2.length < 2 ^ 64)
    (o : HashOrd) (input : Text) (n : Nat) (whitelist : Option (List Text)) (w : World) :
    (p.flTopIntents round32 env o input n whitelist).run w
      = ((p.parseTopIntents env o input n whitelist).run w).bind fun rs => .ok (rs.map InternalResult.toFl) := by
  unfold Lookup.flTopIntents Lookup.parseTopIntents
  simp only [Prog.run_bind, Prog.run_ofOutcome, Prog.run_ret]
  cases hc : (p.getCandidates env input whitelist).run w with
  | err e => rfl
  | panic => rfl
  | ok cs =>
    simp only [Outcome.bind]
    cases hrs : mapOutcome (p.lookupOne env input whitelist) cs with
    | err e => rfl
    | panic => rfl
    | ok rs =>
      have hslots : ∀ r ∈ rs.filterMap id, r.slots.length < 2 ^ 64 := by
        intro r hr
        obtain ⟨x, hx, hxr⟩ := List.mem_filterMap.1 hr
        simp only [id] at hxr
        subst hxr
        obtain ⟨c, _, hc⟩ := mapOutcome_mem hrs hx
        exact lookupOne_slots hp hc
      have hall : ∀ e ∈ o.order 0 ((rs.filterMap id).foldl pushResult []), ∀ r ∈ e.2, r.slots.length < 2 ^ 64 := by
        intro e he r hr
        exact hslots r (pushAll_mem ((o.perm 0 _).mem_iff.1 he) hr)
      simp only [flBest_eq _ hall]
      rw [flRank_eq]
      · rw [hrd]; rfl
      · intro r hr
        obtain ⟨e, he, hr⟩ := List.mem_filterMap.1 hr
        by_cases hne : e.2 = []
        · rw [hne] at hr; cases hr
        · obtain ⟨a, ha, hmax, _⟩ := maxByLast_spec (fun r : InternalResult => slotWeight rounding24 r.slots.length) e.2 hne
          rw [hmax] at hr
          cases hr
          exact hall e he _ ha

/-- **C84** (deterministic parser). -/
theorem c84_deterministic_top (env : RuleEnv) (hrd : env.rd = rounding24) (p : Det)
    (hp : ∀ e ∈ p.regexes, ∀ x ∈ e.2, x.captureNames.length < 2 ^ 64)
    (o : HashOrd) (input : Text) (n : Nat) (whitelist : Option (List Text)) (w : World) :
    (p.flTopIntents round32 env o input n whitelist).run w
      = ((p.parseTopIntents env o input n whitelist).run w).bind fun rs => .ok (rs.map InternalResult.toFl) := by
  unfold Det.flTopIntents Det.parseTopIntents
  simp only [Prog.run_bind, Prog.run_ofOutcome, Prog.run_ret]
  cases hrs : (Prog.mapM (p.matchIntent env o input) ((o.order 0 p.scopes).filter fun s => p.inIntentsSet whitelist s.1)).run w with
  | err e => rfl
  | panic => rfl
  | ok rs =>
    simp only [Outcome.bind]
    rw [flRank_eq, hrd]
    intro r hr
    obtain ⟨x, hx, hxr⟩ := List.mem_filterMap.1 hr
    simp only [id] at hxr
    subst hxr
    have hF := Prog.run_mapM_ok.1 hrs
    obtain ⟨k, hk, hkx⟩ := List.mem_iff_getElem.1 hx
    have h4 := (List.forall₂_iff_get.1 hF).2 k (by have := hF.length_eq; omega) hk
    simp only [List.get_eq_getElem, hkx] at h4
    exact matchIntent_slots hp h4

/-- **C84** (lookup parser): the answer. -/
theorem c84_lookup (env : RuleEnv) (hrd : env.rd = rounding24) (p : Lookup) (hp : ∀ e ∈ p.map, e.2.2.length < 2 ^ 64)
    (o : HashOrd) (input : Text) (whitelist : Option (List Text)) (w : World) :
    (p.flParse round32 env o input whitelist).run w
      = ((p.parse env o input whitelist).run w).bind fun r => .ok r.toFl := by
  unfold Lookup.flParse Lookup.parse
  simp only [Prog.run_bind, Prog.run_ret]
  rw [c84_lookup_top env hrd p hp]
  cases (p.parseTopIntents env o input 1 whitelist).run w with
  | err e => rfl
  | panic => rfl
  | ok rs => simp only [Outcome.bind, flPick_eq]

/-- **C84** (deterministic parser): the answer. -/
theorem c84_deterministic (env : RuleEnv) (hrd : env.rd = rounding24) (p : Det)
    (hp : ∀ e ∈ p.regexes, ∀ x ∈ e.2, x.captureNames.length < 2 ^ 64)
    (o : HashOrd) (input : Text) (whitelist : Option (List Text)) (w : World) :
    (p.flParse round32 env o input whitelist).run w
      = ((p.parse env o input whitelist).run w).bind fun r => .ok r.toFl := by
  unfold Det.flParse Det.parse
  simp only [Prog.run_bind, Prog.run_ret]
  rw [c84_deterministic_top env hrd p hp]
  cases (p.parseTopIntents env o input 1 whitelist).run w with
  | err e => rfl
  | panic => rfl
  | ok rs => simp only [Outcome.bind, flPick_eq]

/-! ### Rounding and hash order -/

/-- A pattern that is the given text, with the groups at the given places. -/
def groupsRegex (t : Text) (groups : List (Rng × Text)) : Regex where
  isMatch s := s = t
  capturesIter s := if s = t then [some ⟨0, t.length⟩ :: groups.map fun g => some g.1] else []
  captureNames := none :: groups.map fun g => some g.2

/-- Five groups: the words of `a b c d e`. -/
def fiveGroups : List (Rng × Text) :=
  [(⟨0, 1⟩, "a".toList), (⟨2, 3⟩, "b".toList), (⟨4, 5⟩, "c".toList), (⟨6, 7⟩, "d".toList), (⟨8, 9⟩, "e".toList)]

/-- The slots of the five words. -/
def fiveSlots : Map Text Text :=
  [("a".toList, "x".toList), ("b".toList, "x".toList), ("c".toList, "x".toList), ("d".toList, "x".toList), ("e".toList, "x".toList)]

/-- Five intents recognised by the same words: one without slots, one with one slot, three with five slots. -/
def spreadDet : Det where
  regexes := [("none".toList, [groupsRegex "a b c d e".toList []]), ("one".toList, [groupsRegex "a b c d e".toList (fiveGroups.take 1)]),
    ("u".toList, [groupsRegex "a b c d e".toList fiveGroups]), ("v".toList, [groupsRegex "a b c d e".toList fiveGroups]),
    ("w".toList, [groupsRegex "a b c d e".toList fiveGroups])]
  groupNames := fiveSlots.map fun s => (s.1, s.1)
  slotEntities := [("none".toList, []), ("one".toList, fiveSlots), ("u".toList, fiveSlots), ("v".toList, fiveSlots), ("w".toList, fiveSlots)]
  stopWords := StopWords.new false [] []
  scopes := detScopes demoKinds [("none".toList, []), ("one".toList, fiveSlots), ("u".toList, fiveSlots), ("v".toList, fiveSlots),
    ("w".toList, fiveSlots)]

/-- The environment of the examples with rounding to 24 significant bits. -/
def env24 : RuleEnv := { demoEnv with rd := rounding24 }

/-- The reverse of the insertion order. -/
def HashOrd.reversed : HashOrd := ⟨fun _ _ l => l.reverse, fun _ _ l => List.reverse_perm l⟩

/-- In single precision whether the parser answers depends on the hash order: the weights 1, 1/2, 1/6, 1/6, 1/6 sum to 2 or to the
number below 2, and the first intent has confidence 1/2, which is not enough, or the number above 1/2, which is. -/
theorem c84_order_counterexample :
    spreadDet.Built demoKinds ∧
    (spreadDet.flParse round32 env24 HashOrd.insertion "a b c d e".toList none).run ruleWorld
      = .ok ⟨some "none".toList, .fin (8388609 / 16777216), []⟩ ∧
    (spreadDet.flParse round32 env24 HashOrd.reversed "a b c d e".toList none).run ruleWorld = .ok ⟨none, .fin 1, []⟩ := by
  refine ⟨⟨rfl, by decide⟩, by decide +kernel, by decide +kernel⟩

/-- The same engine answers the same query differently: C63 needs its hypothesis of exact arithmetic. -/
theorem c84_engine_order_counterexample :
    let e : Engine := ⟨⟨[("x".toList, true)], []⟩, [spreadDet.impl env24], demoKinds⟩
    (e.parseWithAlternatives HashOrd.insertion "a b c d e".toList none none 0 0).run ruleWorld
      = .ok ⟨"a b c d e".toList, ⟨some "none".toList, 8388609 / 16777216⟩, [], []⟩ ∧
    (e.parseWithAlternatives HashOrd.reversed "a b c d e".toList none none 0 0).run ruleWorld
      = .ok ⟨"a b c d e".toList, ⟨none, 1⟩, [], []⟩ := by
  refine ⟨by decide +kernel, by decide +kernel⟩

/-! ### Examples -/

/-- The hypotheses of `c84_deterministic` and `c84_lookup`. -/
example : env24.rd = rounding24 ∧ (∀ e ∈ spreadDet.regexes, ∀ x ∈ e.2, x.captureNames.length < 2 ^ 64) ∧
    (∀ e ∈ demoLookup.map, e.2.2.length < 2 ^ 64) := ⟨rfl, by decide, by decide⟩

/-- Two candidates with 0 and 1 slots: two thirds, rounded up. -/
example : (demoDet.flParse round32 env24 HashOrd.insertion "make the two tea".toList none).run ruleWorld
    = .ok ⟨some "idiom".toList, .fin (11184811 / 16777216), []⟩ := by decide +kernel

/-- One tenth is not a binary32 number; the nearest one is. -/
example : Fl.round round32 (1 / 10) = .fin (13421773 / 134217728) := by decide +kernel

/-- The largest number, and what is too large. -/
example : Fl.round round32 (340282346638528859811704183484516925440) = .fin 340282346638528859811704183484516925440 ∧
    Fl.round round32 (340282356779733661637539395458142568448) = .inf false := by decide +kernel

end Snips
