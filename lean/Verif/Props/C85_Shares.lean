import Verif.Proofs.Shares
import Verif.Props.C84_Binary32

/-! # C85: single precision decides like exact arithmetic unless a share is nearly one half -/

namespace Snips

attribute [local irreducible] rounding24

theorem matches_perm {ms ms' : List (Text × List InternalSlot)} (hn : (ms.map Prod.fst).Nodup) (hn' : (ms'.map Prod.fst).Nodup)
    (h : ∀ m, m ∈ ms ↔ m ∈ ms') : ms.Perm ms' :=
  (List.perm_ext_iff_of_nodup (List.Nodup.of_map _ hn) (List.Nodup.of_map _ hn')).2 h

/-- **C85** (deterministic parser): in single precision, if no permitted match has a share of the weight within the margin of one
half, the answer is the match with more than half of the weight, and its confidence is its share up to the margin. -/
theorem c85_deterministic (env : RuleEnv) (hrd : env.rd = rounding24) (p : Det) (hb : p.Built env.names)
    (hp : ∀ e ∈ p.regexes, ∀ x ∈ e.2, x.captureNames.length < 2 ^ 64)
    (o : HashOrd) (w : World) (input : Text) (filter : Option (List Text)) (ms : List (Text × List InternalSlot))
    (hn : (ms.map Prod.fst).Nodup) (hms : ∀ i sl, (i, sl) ∈ ms ↔ Permits filter i ∧ p.MatchesAlone env o w input i sl)
    (hc : ClearCut ms) (fl : FlResult) (h : (p.flParse round32 env o input filter).run w = .ok fl) :
    ∃ out : InternalResult, fl = ⟨out.intent.name, .fin out.intent.score, out.slots⟩ ∧ ShareVerdict ms out := by
  rw [c84_deterministic env hrd p hp, Outcome.bind_ok] at h
  obtain ⟨out, h, hfl⟩ := h
  cases hfl
  refine ⟨out, rfl, ?_⟩
  unfold Det.parse at h
  rw [Prog.run_bind, Outcome.bind_ok] at h
  obtain ⟨top, htop, h⟩ := h
  simp only [Prog.run_ret, Outcome.ok.injEq] at h
  obtain ⟨ms', rfl, hn', h3, _⟩ := det_top_run hb htop
  have hperm : ms.Perm ms' := matches_perm hn hn' fun m => by rw [hms, h3, matchesAlone_iff hb]
  rw [← h, hrd]
  exact (shareVerdict_of (hc.perm hperm)).perm hperm.symm

theorem verdict_same {ms ms' : List (Text × List InternalSlot)} (hp : ms.Perm ms') (hn : (ms.map Prod.fst).Nodup)
    {out out' : InternalResult} (hv : ShareVerdict ms out) (hv' : ShareVerdict ms' out') :
    out'.intent.name = out.intent.name ∧ out'.slots = out.slots := by
  have hv' := hv'.perm hp.symm
  have hname : out'.intent.name = out.intent.name := by
    cases h : out.intent.name with
    | some i => exact (hv'.winner i).2 ((hv.winner i).1 h)
    | none =>
      cases h' : out'.intent.name with
      | none => rfl
      | some i =>
        have := (hv.winner i).2 ((hv'.winner i).1 h')
        rw [h] at this
        cases this
  refine ⟨hname, ?_⟩
  cases h : out.intent.name with
  | none => rw [hv.absent h, hv'.absent (hname.trans h)]
  | some i =>
    have h1 := hv.slots i h
    have h2 := hv'.slots i (hname.trans h)
    exact mem_unique_key hn h2 h1

/-- **C85**: under the same condition intent and slots do not depend on the hash order. -/
theorem c85_deterministic_order (env : RuleEnv) (hrd : env.rd = rounding24) (p : Det) (hb : p.Built env.names)
    (hp : ∀ e ∈ p.regexes, ∀ x ∈ e.2, x.captureNames.length < 2 ^ 64) (o o' : HashOrd) (w : World) (input : Text)
    (hsm : p.SmallMatches env w input) (filter : Option (List Text))
    (hc : ∀ ms : List (Text × List InternalSlot), (ms.map Prod.fst).Nodup →
      (∀ i sl, (i, sl) ∈ ms ↔ Permits filter i ∧ p.MatchesAlone env o w input i sl) → ClearCut ms)
    (fl : FlResult) (h : (p.flParse round32 env o input filter).run w = .ok fl) :
    ∃ fl', (p.flParse round32 env o' input filter).run w = .ok fl' ∧ fl'.name = fl.name ∧ fl'.slots = fl.slots := by
  rw [c84_deterministic env hrd p hp, Outcome.bind_ok] at h
  obtain ⟨out, h, hfl⟩ := h
  cases hfl
  obtain ⟨ms, ms', hperm, hn, hout, hiff, hrun⟩ := det_parse_matches hb hsm o o' h
  rw [c84_deterministic env hrd p hp, hrun]
  refine ⟨_, rfl, ?_⟩
  have hcut := hc ms hn hiff
  have hv := shareVerdict_of hcut
  have hv' := shareVerdict_of (hcut.perm hperm)
  rw [hrd] at hout ⊢
  rw [hout]
  exact verdict_same hperm hn hv hv'

/-- Fewer slots have a strictly greater weight in single precision, as long as there are fewer than 2^21. -/
theorem weight_strict {m n : Nat} (h : m < n) (hm : m < 2 ^ 21) : slotWeight rounding24 n < slotWeight rounding24 m := by
  have hn := (near_weight relError24 n).le
  have hw := (near_weight relError24 m).ge
  have hb := one_add_mul_le_pow (a := (-(1 / 2 ^ 24) : ℚ)) (by norm_num) 6
  replace hb : (1 : ℚ) - 6 / 2 ^ 24 ≤ (1 + -(1 / 2 ^ 24)) ^ 6 := le_trans (le_of_eq (by norm_num)) hb
  have hmn : (m : ℚ) + 1 ≤ n := by exact_mod_cast h
  have hm' : (m : ℚ) < 2 ^ 21 := by exact_mod_cast hm
  have hm0 : (0 : ℚ) ≤ m := by positivity
  set a : ℚ := 1 - 1 / 2 ^ 24 with ha
  have ha0 : 0 < a := by rw [ha]; norm_num
  have e : a = 1 + -(1 / 2 ^ 24) := by rw [ha]; ring
  rw [← e] at hb
  rw [div_pow, one_pow, div_mul_eq_mul_div, one_mul, le_div_iff₀ (pow_pos ha0 3)] at hn hw
  have hpos : 0 < slotWeight rounding24 m := slotWeight_pos _ _
  by_contra hcon
  push Not at hcon
  have h1 : (1 : ℚ) / (1 + m) * a ^ 3 * a ^ 3 ≤ 1 / (1 + n) := by
    refine le_trans (mul_le_mul_of_nonneg_right hw (pow_pos ha0 3).le) ?_
    exact le_trans (mul_le_mul_of_nonneg_right hcon (pow_pos ha0 3).le) hn
  have h2 : (1 : ℚ) / (1 + n) ≤ 1 / (2 + m) := by
    apply one_div_le_one_div_of_le (by linarith)
    linarith
  have h3 : (1 : ℚ) / (1 + m) * a ^ 6 ≤ 1 / (2 + m) := by
    calc (1 : ℚ) / (1 + m) * a ^ 6 = 1 / (1 + m) * a ^ 3 * a ^ 3 := by ring
      _ ≤ _ := h1.trans h2
  rw [div_mul_eq_mul_div, one_mul, div_le_div_iff₀ (by linarith) (by linarith), one_mul] at h3
  have h4 : (1 - 6 / 2 ^ 24 : ℚ) * (2 + m) ≤ a ^ 6 * (2 + m) := mul_le_mul_of_nonneg_right hb (by linarith)
  have h5 := h4.trans h3
  norm_num at h5
  have hm2 : (m : ℚ) < 2097152 := by norm_num at hm' ⊢; exact_mod_cast hm'
  linarith only [h5, hm2]

theorem hit_slot_count {env : RuleEnv} {p : Lookup} (hp : ∀ e ∈ p.map, e.2.2.length < 2 ^ 21) {w : World} {input : Text}
    {filter : Option (List Text)} {i : Text} {sl : List InternalSlot} (h : p.Hit env w input filter i sl) : sl.length < 2 ^ 21 := by
  obtain ⟨_, _, _, _, _, _, es, _, _, n, ids, hget, _, _, hF⟩ := h
  have h1 := hp _ (Map.get_some_mem hget)
  have h2 := hF.length_eq
  rw [List.length_zip] at h2
  simp only at h1
  omega

/-- **C85** (lookup parser): the matches are, for each permitted intent with an entry in the table for some reading, one with the
fewest slots.  If none has a share within the margin of one half, the answer is the one with more than half of the weight. -/
theorem c85_lookup (env : RuleEnv) (hrd : env.rd = rounding24) (p : Lookup) (hp : ∀ e ∈ p.map, e.2.2.length < 2 ^ 21)
    (o : HashOrd) (w : World) (input : Text) (filter : Option (List Text)) (fl : FlResult)
    (h : (p.flParse round32 env o input filter).run w = .ok fl) :
    ∃ (out : InternalResult) (ms : List (Text × List InternalSlot)), fl = ⟨out.intent.name, .fin out.intent.score, out.slots⟩ ∧
      (ms.map Prod.fst).Nodup ∧
      (∀ i sl, (i, sl) ∈ ms → p.Hit env w input filter i sl ∧
        ∀ sl', p.Hit env w input filter i sl' → sl.length ≤ sl'.length) ∧
      (∀ i sl', p.Hit env w input filter i sl' → ∃ sl, (i, sl) ∈ ms) ∧ (ClearCut ms → ShareVerdict ms out) := by
  have hp64 : ∀ e ∈ p.map, e.2.2.length < 2 ^ 64 := fun e he => lt_trans (hp e he) (by norm_num)
  rw [c84_lookup env hrd p hp64, Outcome.bind_ok] at h
  obtain ⟨out, h, hfl⟩ := h
  cases hfl
  obtain ⟨ms, ms', hn, hperm, hout, h1, h2, _⟩ := lookup_parse_run h
  refine ⟨out, ms', rfl, (hperm.map Prod.fst).nodup_iff.2 hn, ?_, ?_, fun hc => ?_⟩
  · intro i sl hm
    obtain ⟨ha, hb⟩ := h1 i sl (hperm.mem_iff.1 hm)
    refine ⟨ha, fun sl' hsl' => ?_⟩
    by_contra hlt
    push Not at hlt
    have := hb sl' hsl'
    rw [hrd] at this
    exact absurd (weight_strict hlt (hit_slot_count hp hsl')) (not_lt.2 this)
  · intro i sl' hh
    obtain ⟨sl, hsl⟩ := h2 i sl' hh
    exact ⟨sl, hperm.mem_iff.2 hsl⟩
  · rw [hout, hrd]
    exact shareVerdict_of hc

/-- **C85** (lookup parser): under the same condition intent and slots do not depend on the hash order. -/
theorem c85_lookup_order (env : RuleEnv) (hrd : env.rd = rounding24) (p : Lookup) (hp : ∀ e ∈ p.map, e.2.2.length < 2 ^ 21)
    (o o' : HashOrd) (w : World) (input : Text) (filter : Option (List Text))
    (hc : ∀ ms : List (Text × List InternalSlot), (ms.map Prod.fst).Nodup →
      (∀ i sl, (i, sl) ∈ ms → p.Hit env w input filter i sl ∧
        ∀ sl', p.Hit env w input filter i sl' → sl.length ≤ sl'.length) →
      (∀ i sl', p.Hit env w input filter i sl' → ∃ sl, (i, sl) ∈ ms) → ClearCut ms)
    (fl : FlResult) (h : (p.flParse round32 env o input filter).run w = .ok fl) :
    ∃ fl', (p.flParse round32 env o' input filter).run w = .ok fl' ∧ fl'.name = fl.name ∧ fl'.slots = fl.slots := by
  have hp64 : ∀ e ∈ p.map, e.2.2.length < 2 ^ 64 := fun e he => lt_trans (hp e he) (by norm_num)
  have h0 := h
  rw [c84_lookup env hrd p hp64, Outcome.bind_ok] at h
  obtain ⟨out, h, hfl⟩ := h
  cases hfl
  obtain ⟨ms, ms', hn, hperm, hout, h1, h2, h3⟩ := lookup_parse_run h
  obtain ⟨ms'', hp'', hrun⟩ := h3 o'
  rw [c84_lookup env hrd p hp64, hrun]
  refine ⟨_, rfl, ?_⟩
  have hcut : ClearCut ms := by
    refine hc ms hn (fun i sl hm => ?_) h2
    obtain ⟨ha, hb⟩ := h1 i sl hm
    refine ⟨ha, fun sl' hsl' => ?_⟩
    by_contra hlt
    push Not at hlt
    have := hb sl' hsl'
    rw [hrd] at this
    exact absurd (weight_strict hlt (hit_slot_count hp hsl')) (not_lt.2 this)
  have hv := shareVerdict_of (hcut.perm hperm.symm)
  have hv' := shareVerdict_of (hcut.perm hp''.symm)
  rw [hrd] at hout ⊢
  rw [hout]
  exact verdict_same (hperm.trans hp''.symm) ((hperm.map Prod.fst).nodup_iff.2 hn) hv hv'

/-! ### Examples -/

/-- The matches of the example of C84: all shares but the first are far from one half, the first is one half. -/
theorem spread_shares (sl : List InternalSlot) (a b c d e : Text) (u v w : List InternalSlot) (hsl : sl.length = 1)
    (hu : u.length = 5) (hv : v.length = 5) (hw : w.length = 5) :
    share [(a, []), (b, sl), (c, u), (d, v), (e, w)] (a, []) = 1 / 2 := by
  simp only [share, List.map_cons, List.map_nil, List.sum_cons, List.sum_nil, hsl, hu, hv, hw, List.length_nil]
  norm_num

/-- The order of the hash map decides in the example of C84, where the share is one half: C85 fails without `ClearCut`. -/
example : (spreadDet.flParse round32 env24 HashOrd.insertion "a b c d e".toList none).run ruleWorld
    ≠ (spreadDet.flParse round32 env24 HashOrd.reversed "a b c d e".toList none).run ruleWorld := by
  rw [c84_order_counterexample.2.1, c84_order_counterexample.2.2]
  intro h
  cases h

/-- Three matches with 0, 1 and 1 slots would have shares 1/2, 1/4 and 1/4; with 0, 1 and 2 slots they are clear cut. -/
example (s : InternalSlot) :
    ClearCut [("a".toList, []), ("b".toList, [s]), ("c".toList, [s, s])] := by
  have h : ∀ m ∈ [("a".toList, ([] : List InternalSlot)), ("b".toList, [s]), ("c".toList, [s, s])],
      m.2.length = 0 ∨ m.2.length = 1 ∨ m.2.length = 2 := by
    intro m hm
    simp only [List.mem_cons, List.not_mem_nil, or_false] at hm
    rcases hm with rfl | rfl | rfl <;> simp
  intro m hm
  have hs : ([("a".toList, ([] : List InternalSlot)), ("b".toList, [s]), ("c".toList, [s, s])].map
      fun m => (1 : ℚ) / (1 + m.2.length)).sum = 11 / 6 := by
    simp only [List.map_cons, List.map_nil, List.sum_cons, List.sum_nil, List.length_nil, List.length_cons]
    norm_num
  unfold share roundingMargin
  rw [hs]
  rcases h m hm with h | h | h <;> rw [h] <;> norm_num [abs_of_pos, abs_of_neg]

end Snips
