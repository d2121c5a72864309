import Verif.Props.C35_Decision
import Verif.Spec.RuleDemo

/-! # C36: rule parsers' confidences form a distribution; C38: every intent is ranked once;
C09 for the rule-based parsers -/

namespace Snips

/-- `rd` has a relative error of at most `ε`. -/
def Rounding.RelError (rd : Rounding) (ε : ℚ) : Prop :=
  0 ≤ ε ∧ ε < 1 ∧ ∀ x, 0 ≤ x → (1 - ε) * x ≤ rd.rnd x ∧ rd.rnd x ≤ (1 + ε) * x

theorem foldl_relError {rd : Rounding} {ε : ℚ} (h : rd.RelError ε) (ws : List ℚ) (hw : ∀ w ∈ ws, 0 ≤ w) :
    ∀ acc : ℚ, 0 ≤ acc →
      (1 - ε) ^ ws.length * (acc + ws.sum) ≤ ws.foldl (fun acc w => rd.rnd (acc + w)) acc ∧
      ws.foldl (fun acc w => rd.rnd (acc + w)) acc ≤ (1 + ε) ^ ws.length * (acc + ws.sum) := by
  induction ws with
  | nil => intro acc _; simp
  | cons w ws ih =>
    intro acc hacc
    have hw0 := hw w (by simp)
    have hws : 0 ≤ ws.sum := List.sum_nonneg (fun x hx => hw x (by simp [hx]))
    obtain ⟨h0, h1, hr⟩ := h
    obtain ⟨hlo, hhi⟩ := hr (acc + w) (by linarith)
    have hpos : 0 ≤ rd.rnd (acc + w) := rnd_nonneg rd (by linarith)
    obtain ⟨ih1, ih2⟩ := ih (fun x hx => hw x (by simp [hx])) _ hpos
    rw [List.foldl_cons, List.length_cons, List.sum_cons]
    have hp1 : 0 ≤ (1 - ε) ^ ws.length := pow_nonneg (by linarith) _
    have hp2 : 0 ≤ (1 + ε) ^ ws.length := pow_nonneg (by linarith) _
    constructor
    · refine le_trans ?_ ih1
      rw [pow_succ, mul_assoc]
      apply mul_le_mul_of_nonneg_left _ hp1
      nlinarith [mul_nonneg h0 hws]
    · refine le_trans ih2 ?_
      rw [pow_succ, mul_assoc]
      apply mul_le_mul_of_nonneg_left _ hp2
      nlinarith [mul_nonneg h0 hws]

section
variable {ms : List (Text × List InternalSlot)}

/-- The confidences of the matches. -/
def confs (rd : Rounding) (ms : List (Text × List InternalSlot)) : List ℚ :=
  ms.map fun m => confOf rd (ms.map mkRes) m.2.length

theorem weights_mkRes (rd : Rounding) : weights rd (ms.map mkRes) = ms.map fun m => slotWeight rd m.2.length := by
  unfold weights; rw [List.map_map]; rfl

theorem sum_div (l : List ℚ) (t : ℚ) : (l.map fun x => x / t).sum = l.sum / t := by
  induction l with
  | nil => simp
  | cons a l ih => simp [ih, add_div]

theorem weights_sum_pos (rd : Rounding) (h : ms ≠ []) : 0 < (ms.map fun m => slotWeight rd m.2.length).sum := by
  cases ms with
  | nil => exact absurd rfl h
  | cons m ms =>
    rw [List.map_cons, List.sum_cons]
    have h1 := slotWeight_pos rd m.2.length
    have h2 : 0 ≤ (ms.map fun m => slotWeight rd m.2.length).sum := by
      apply List.sum_nonneg
      intro x hx
      obtain ⟨c, _, rfl⟩ := List.mem_map.1 hx
      exact le_of_lt (slotWeight_pos rd _)
    linarith

theorem confs_sum_exact (h : ms ≠ []) : (confs Rounding.exact ms).sum = 1 := by
  have h1 := weights_sum_pos Rounding.exact h
  have : confs Rounding.exact ms = (ms.map fun m => slotWeight Rounding.exact m.2.length).map
      fun x => x / (ms.map fun m => slotWeight Rounding.exact m.2.length).sum := by
    unfold confs confOf
    rw [List.map_map, totalWeight_exact, weights_mkRes]
    rfl
  rw [this, sum_div, div_self (ne_of_gt h1)]

theorem confs_sum_rounded {rd : Rounding} {ε : ℚ} (hε : rd.RelError ε) (h : ms ≠ []) :
    (1 - ε) / (1 + ε) ^ ms.length ≤ (confs rd ms).sum ∧
      (confs rd ms).sum ≤ (1 + ε) / (1 - ε) ^ ms.length := by
  obtain ⟨h0, h1, hr⟩ := hε
  have hS := weights_sum_pos rd h
  set S := (ms.map fun m => slotWeight rd m.2.length).sum with hSdef
  set T := totalWeight rd (weights rd (ms.map mkRes)) with hTdef
  have hT : (1 - ε) ^ ms.length * S ≤ T ∧ T ≤ (1 + ε) ^ ms.length * S := by
    have := foldl_relError ⟨h0, h1, hr⟩ (weights rd (ms.map mkRes)) (weights_nonneg rd _) 0 (le_refl _)
    rw [zero_add] at this
    have hlen : (weights rd (ms.map mkRes)).length = ms.length := by simp [weights]
    rw [hlen, weights_mkRes] at this
    rw [hTdef, weights_mkRes]
    exact this
  have hp1 : 0 < (1 - ε) ^ ms.length := pow_pos (by linarith) _
  have hp2 : 0 < (1 + ε) ^ ms.length := pow_pos (by linarith) _
  have hTpos : 0 < T := lt_of_lt_of_le (mul_pos hp1 hS) hT.1
  have hbounds : (1 - ε) * (S / T) ≤ (confs rd ms).sum ∧ (confs rd ms).sum ≤ (1 + ε) * (S / T) := by
    have hgen : ∀ l : List (Text × List InternalSlot),
        (1 - ε) * ((l.map fun m => slotWeight rd m.2.length).sum / T) ≤
          (l.map fun m => rd.rnd (slotWeight rd m.2.length / T)).sum ∧
        (l.map fun m => rd.rnd (slotWeight rd m.2.length / T)).sum ≤
          (1 + ε) * ((l.map fun m => slotWeight rd m.2.length).sum / T) := by
      intro l
      induction l with
      | nil => simp
      | cons m l ih =>
        simp only [List.map_cons, List.sum_cons]
        have hx := hr (slotWeight rd m.2.length / T)
          (div_nonneg (le_of_lt (slotWeight_pos rd _)) (le_of_lt hTpos))
        rw [add_div, mul_add, mul_add]
        exact ⟨by linarith [ih.1, hx.1], by linarith [ih.2, hx.2]⟩
    exact hgen ms
  have hST1 : 1 / (1 + ε) ^ ms.length ≤ S / T := by
    rw [div_le_div_iff₀ hp2 hTpos]; linarith [hT.2]
  have hST2 : S / T ≤ 1 / (1 - ε) ^ ms.length := by
    rw [div_le_div_iff₀ hTpos hp1]; linarith [hT.1]
  constructor
  · refine le_trans ?_ hbounds.1
    rw [div_eq_mul_one_div]
    exact mul_le_mul_of_nonneg_left hST1 (by linarith)
  · refine le_trans hbounds.2 ?_
    rw [div_eq_mul_one_div (1 + ε)]
    exact mul_le_mul_of_nonneg_left hST2 (by linarith)

/-- Completed ranking of the matches `ms` of a parser with the given intents. -/
theorem completeRanking_spec (rd : Rounding) (intents : List Text) (n : Nat) (hn : (ms.map Prod.fst).Nodup)
    (hlen : ms.length ≤ n) (hsub : ∀ m ∈ ms, m.1 ∈ intents) :
    ∃ matched rest, completeRanking intents ((rankByWeight rd (ms.map mkRes) n).map InternalResult.intent)
        = matched ++ rest ∧
      matched.Perm (ms.map fun m => ⟨some m.1, confOf rd (ms.map mkRes) m.2.length⟩) ∧
      matched.Pairwise (fun a b => b.score ≤ a.score) ∧ (∀ r ∈ rest, r.score = 0) ∧
      (intents.Nodup →
        ((matched ++ rest).map IntentResult.name).Perm (none :: intents.map some)) := by
  set matched := (rankByWeight rd (ms.map mkRes) n).map InternalResult.intent with hmatched
  have hperm : matched.Perm (ms.map fun m => ⟨some m.1, confOf rd (ms.map mkRes) m.2.length⟩) := by
    have := (rank_all (ms := ms) rd hlen).map InternalResult.intent
    rw [List.map_map] at this
    exact this
  refine ⟨matched, (intents.filter fun i => !(matched.filterMap IntentResult.name).contains i).map
    (fun i => ⟨some i, 0⟩) ++ [⟨none, 0⟩], ?_, hperm, ?_, ?_, ?_⟩
  · unfold completeRanking; rw [List.append_assoc]
  · rw [hmatched, List.pairwise_map]; exact rank_sorted rd n
  · intro r hr
    rcases List.mem_append.1 hr with hr | hr
    · obtain ⟨i, _, rfl⟩ := List.mem_map.1 hr; rfl
    · rw [List.mem_singleton] at hr; subst hr; rfl
  · intro hind
    have hnames : (matched.map IntentResult.name).Perm ((ms.map Prod.fst).map some) := by
      have := hperm.map IntentResult.name
      simp only [List.map_map] at this
      simp only [List.map_map]
      exact this
    have hfm : ∀ i, i ∈ matched.filterMap IntentResult.name ↔ i ∈ ms.map Prod.fst := by
      intro i
      rw [List.mem_filterMap]
      constructor
      · rintro ⟨r, hr, hri⟩
        have : some i ∈ (ms.map Prod.fst).map some := hnames.mem_iff.1 (List.mem_map.2 ⟨r, hr, hri⟩)
        obtain ⟨j, hj, hji⟩ := List.mem_map.1 this
        rw [← Option.some.inj hji]; exact hj
      · intro hi
        have : some i ∈ matched.map IntentResult.name := hnames.mem_iff.2 (List.mem_map.2 ⟨i, hi, rfl⟩)
        obtain ⟨r, hr, hri⟩ := List.mem_map.1 this
        exact ⟨r, hr, hri⟩
    have hfilter : (intents.filter fun i => !(matched.filterMap IntentResult.name).contains i)
        = intents.filter fun i => decide (i ∉ ms.map Prod.fst) := by
      apply List.filter_congr
      intro i _
      have := hfm i
      by_cases h : i ∈ ms.map Prod.fst
      · have h' := this.2 h
        simp only [List.contains_eq_mem, h, h', decide_true, Bool.not_true, not_true, decide_false]
      · have h' : i ∉ matched.filterMap IntentResult.name := fun hc => h (this.1 hc)
        simp only [List.contains_eq_mem, h, h', decide_false, Bool.not_false, not_false_eq_true, decide_true]
    rw [hfilter]
    simp only [List.map_append, List.map_map, List.map_cons, List.map_nil]
    have hsplit : (ms.map Prod.fst ++ intents.filter fun i => decide (i ∉ ms.map Prod.fst)).Perm intents := by
      refine (List.perm_ext_iff_of_nodup ?_ hind).2 ?_
      · rw [List.nodup_append]
        refine ⟨hn, hind.filter _, ?_⟩
        intro a ha b hb hab
        subst hab
        exact (of_decide_eq_true (List.mem_filter.1 hb).2) ha
      · intro i
        rw [List.mem_append, List.mem_filter]
        constructor
        · rintro (h | h)
          · obtain ⟨m, hm, rfl⟩ := List.mem_map.1 h; exact hsub m hm
          · exact h.1
        · intro h
          by_cases hc : i ∈ ms.map Prod.fst
          · exact Or.inl hc
          · exact Or.inr ⟨h, by simpa using hc⟩
    have h2 := hsplit.map some
    rw [List.map_append] at h2
    rw [← List.append_assoc]
    refine List.Perm.trans List.perm_append_comm ?_
    refine List.Perm.cons _ ?_
    exact (hnames.append (List.Perm.refl _)).trans h2

end

/-! ### The two parsers -/

/-- What C36 and C38 say about a ranking `out` of a parser with the given intents, whose matching intents
are those satisfying `Matching`. -/
structure RuleRanking (rd : Rounding) (intents : List Text) (Matching : Text → Prop)
    (out : List IntentResult) : Prop where
  /-- every intent once, and the absent intent once -/
  names : intents.Nodup → (out.map IntentResult.name).Perm (none :: intents.map some)
  /-- non-increasing scores -/
  sorted : out.Pairwise (fun a b => b.score ≤ a.score)
  /-- scores of matching intents are in (0,1] -/
  matching : ∀ i, Matching i → ∃ r ∈ out, r.name = some i ∧ 0 < r.score ∧ r.score ≤ 1
  /-- only they have a non-zero score -/
  others : ∀ r ∈ out, r.score ≠ 0 → ∃ i, r.name = some i ∧ Matching i
  /-- the matching intents come before all others -/
  split : ∃ matched rest, out = matched ++ rest ∧
    (∀ i, some i ∈ matched.map IntentResult.name ↔ Matching i) ∧
    (∀ r ∈ matched, 0 < r.score) ∧ (∀ r ∈ rest, r.score = 0)
  /-- scores sum to 1, if any intent matches -/
  total : rd = Rounding.exact → (∃ i, Matching i) → (out.map IntentResult.score).sum = 1
  /-- the same up to rounding -/
  rounded : ∀ ε, rd.RelError ε → (∃ i, Matching i) →
    ∃ n, n ≤ intents.length ∧ (1 - ε) / (1 + ε) ^ n ≤ (out.map IntentResult.score).sum ∧
      (out.map IntentResult.score).sum ≤ (1 + ε) / (1 - ε) ^ n

theorem sum_zero {l : List IntentResult} (h : ∀ r ∈ l, r.score = 0) : (l.map IntentResult.score).sum = 0 := by
  induction l with
  | nil => rfl
  | cons a l ih =>
    rw [List.map_cons, List.sum_cons, h a (by simp), ih (fun r hr => h r (by simp [hr])), zero_add]

theorem ruleRanking_of (rd : Rounding) {ms : List (Text × List InternalSlot)} (hn : (ms.map Prod.fst).Nodup)
    (intents : List Text) {n : Nat} (hlen : ms.length ≤ n) (hlen' : ms.length ≤ intents.length)
    (hsub : ∀ m ∈ ms, m.1 ∈ intents)
    {Matching : Text → Prop} (hM : ∀ i, Matching i ↔ ∃ sl, (i, sl) ∈ ms) :
    RuleRanking rd intents Matching
      (completeRanking intents ((rankByWeight rd (ms.map mkRes) n).map InternalResult.intent)) := by
  obtain ⟨matched, rest, heq, hperm, hsorted, hrest, hnames⟩ :=
    completeRanking_spec rd intents n hn hlen hsub
  rw [heq]
  have hsum : ((matched ++ rest).map IntentResult.score).sum = (confs rd ms).sum := by
    rw [List.map_append, List.sum_append, sum_zero hrest, add_zero]
    have := (hperm.map IntentResult.score).sum_eq
    rw [this, List.map_map]
    rfl
  have hscore : ∀ r ∈ matched, ∃ m ∈ ms, r = ⟨some m.1, confOf rd (ms.map mkRes) m.2.length⟩ ∧ 0 < r.score ∧
      r.score ≤ 1 := by
    intro r hr
    obtain ⟨m, hm, rfl⟩ := List.mem_map.1 (hperm.mem_iff.1 hr)
    have hmem : mkRes m ∈ ms.map mkRes := List.mem_map.2 ⟨m, hm, rfl⟩
    have e1 := conf_pos rd hmem
    have e2 := conf_le_one rd hmem
    exact ⟨m, hm, rfl, e1, e2⟩
  refine ⟨hnames, ?_, ?_, ?_, ?_, ?_, ?_⟩
  · rw [List.pairwise_append]
    refine ⟨hsorted, ?_, ?_⟩
    · apply List.pairwise_of_forall_mem_list
      intro a ha b hb
      rw [hrest a ha, hrest b hb]
    · intro a ha b hb
      obtain ⟨_, _, _, h, _⟩ := hscore a ha
      rw [hrest b hb]
      exact le_of_lt h
  · intro i hi
    obtain ⟨sl, hsl⟩ := (hM i).1 hi
    have hr : (⟨some i, confOf rd (ms.map mkRes) sl.length⟩ : IntentResult) ∈ matched :=
      hperm.mem_iff.2 (List.mem_map.2 ⟨(i, sl), hsl, rfl⟩)
    obtain ⟨_, _, _, h1, h2⟩ := hscore _ hr
    exact ⟨_, List.mem_append_left _ hr, rfl, h1, h2⟩
  · intro r hr hne
    rcases List.mem_append.1 hr with hr | hr
    · obtain ⟨m, hm, rfl, _⟩ := hscore r hr
      exact ⟨m.1, rfl, (hM m.1).2 ⟨m.2, hm⟩⟩
    · exact absurd (hrest r hr) hne
  · refine ⟨matched, rest, rfl, ?_, ?_, hrest⟩
    · intro i
      rw [hM]
      constructor
      · intro hi
        obtain ⟨r, hr, hri⟩ := List.mem_map.1 hi
        obtain ⟨m, hm, rfl, _⟩ := hscore r hr
        cases hri
        exact ⟨m.2, hm⟩
      · rintro ⟨sl, hsl⟩
        exact List.mem_map.2 ⟨_, hperm.mem_iff.2 (List.mem_map.2 ⟨(i, sl), hsl, rfl⟩), rfl⟩
    · intro r hr
      obtain ⟨_, _, _, h, _⟩ := hscore r hr
      exact h
  · rintro rfl ⟨i, hi⟩
    obtain ⟨sl, hsl⟩ := (hM i).1 hi
    rw [hsum]
    exact confs_sum_exact (List.ne_nil_of_mem hsl)
  · rintro ε hε ⟨i, hi⟩
    obtain ⟨sl, hsl⟩ := (hM i).1 hi
    rw [hsum]
    exact ⟨ms.length, hlen', confs_sum_rounded hε (List.ne_nil_of_mem hsl)⟩

/-- Lookup parser: the ranking of `get_intents` lists every intent once and the absent intent once;
confidences of the matching intents are in (0,1] and come first in non-increasing order; all others are 0;
they sum to 1 up to rounding. -/
theorem c36_lookup (env : RuleEnv) (p : Lookup) (o : HashOrd) (w : World) (input : Text)
    (out : List IntentResult) (h : (p.getIntents env o input).run w = .ok out) :
    RuleRanking env.rd p.intentsNames (fun i => ∃ sl, p.Hit env w input none i sl) out := by
  unfold Lookup.getIntents at h
  rw [Prog.run_bind, Outcome.bind_ok] at h
  obtain ⟨top, htop, h⟩ := h
  simp only [Prog.run_ret, Outcome.ok.injEq] at h
  obtain ⟨ms, hn, h1, h2, h3⟩ := lookup_top_run htop
  obtain ⟨ms', hp, hrun⟩ := h3 o
  rw [hrun] at htop
  simp only [Outcome.ok.injEq] at htop
  have hn' := (hp.map Prod.fst).nodup_iff.2 hn
  have hsub : ∀ m ∈ ms', m.1 ∈ p.intentsNames := by
    intro m hm
    obtain ⟨⟨_, _, _, _, _, _, _, _, _, n, _, _, hi, _⟩, _⟩ := h1 m.1 m.2 (hp.mem_iff.1 hm)
    exact List.mem_of_getElem? hi
  have hlen : ms'.length ≤ p.intentsNames.length := by
    have : (ms'.map Prod.fst).Subperm p.intentsNames :=
      hn'.subperm (fun x hx => by obtain ⟨m, hm, rfl⟩ := List.mem_map.1 hx; exact hsub m hm)
    simpa using this.length_le
  rw [← h, ← htop]
  apply ruleRanking_of env.rd hn' _ hlen hlen hsub
  intro i
  constructor
  · rintro ⟨sl, hsl⟩
    obtain ⟨sl', hsl'⟩ := h2 i sl hsl
    exact ⟨sl', hp.mem_iff.2 hsl'⟩
  · rintro ⟨sl, hsl⟩
    exact ⟨sl, (h1 i sl (hp.mem_iff.1 hsl)).1⟩

theorem order_length (o : HashOrd) {α : Type} (k : Nat) (l : List α) : (o.order k l).length = l.length :=
  (o.perm k l).length_eq

/-- Deterministic parser: as for the lookup parser; the intents ranked are those with regexes, and the
matching ones are those recognised when asked about alone. -/
theorem c36_deterministic (env : RuleEnv) (p : Det) (hb : p.Built env.names) (hreg : p.regexes.keys.Nodup)
    (o : HashOrd) (w : World) (input : Text)
    (out : List IntentResult) (h : (p.getIntents env o input).run w = .ok out) :
    RuleRanking env.rd (o.order 2 p.regexes.keys) (fun i => ∃ sl, p.MatchesAlone env o w input i sl) out ∧
      (out.map IntentResult.name).Perm (none :: p.regexes.keys.map some) := by
  have hk := o.perm 2 p.regexes.keys
  have hr : RuleRanking env.rd (o.order 2 p.regexes.keys)
      (fun i => ∃ sl, p.MatchesAlone env o w input i sl) out := by
    unfold Det.getIntents at h
    rw [Prog.run_bind, Outcome.bind_ok] at h
    obtain ⟨top, htop, h⟩ := h
    simp only [Prog.run_ret, Outcome.ok.injEq] at h
    obtain ⟨ms, rfl, hn, h3, h4⟩ := det_top_run hb htop
    have hsub : ∀ m ∈ ms, m.1 ∈ o.order 2 p.regexes.keys := by
      intro m hm
      obtain ⟨_, s, hs, hi, hrun⟩ := (h3 m.1 m.2).1 hm
      rw [hk.mem_iff, ← hi]
      exact matchIntent_ok_regexes hrun
    have hlen : ms.length ≤ (o.order 2 p.regexes.keys).length := by
      have : (ms.map Prod.fst).Subperm (o.order 2 p.regexes.keys) :=
        hn.subperm (fun x hx => by obtain ⟨m, hm, rfl⟩ := List.mem_map.1 hx; exact hsub m hm)
      simpa using this.length_le
    rw [← h]
    apply ruleRanking_of env.rd hn _ (by rw [order_length] at hlen; exact hlen) hlen hsub
    intro i
    constructor
    · rintro ⟨sl, hsl⟩
      exact ⟨sl, (h3 i sl).2 ⟨by intro l hl; simp at hl, (matchesAlone_iff hb).1 hsl⟩⟩
    · rintro ⟨sl, hsl⟩
      exact ⟨sl, (matchesAlone_iff hb).2 ((h3 i sl).1 hsl).2⟩
  exact ⟨hr, (hr.names (hk.nodup_iff.2 hreg)).trans (List.Perm.cons _ (hk.map some))⟩

/-- C38: a ranking with every intent once and the absent intent once; the matching intents come first,
with positive confidences; all others have score 0. -/
structure CompleteRanking (intents : List Text) (Matching : Text → Prop) (out : List IntentResult) : Prop where
  names : (out.map IntentResult.name).Perm (none :: intents.map some)
  split : ∃ matched rest, out = matched ++ rest ∧
    (∀ i, some i ∈ matched.map IntentResult.name ↔ Matching i) ∧
    (∀ r ∈ matched, 0 < r.score) ∧ (∀ r ∈ rest, r.score = 0)

theorem c38_lookup (env : RuleEnv) (p : Lookup) (hnd : p.intentsNames.Nodup) (o : HashOrd) (w : World)
    (input : Text) (out : List IntentResult) (h : (p.getIntents env o input).run w = .ok out) :
    CompleteRanking p.intentsNames (fun i => ∃ sl, p.Hit env w input none i sl) out :=
  have hr := c36_lookup env p o w input out h
  ⟨hr.names hnd, hr.split⟩

theorem c38_deterministic (env : RuleEnv) (p : Det) (hb : p.Built env.names) (hreg : p.regexes.keys.Nodup)
    (o : HashOrd) (w : World) (input : Text)
    (out : List IntentResult) (h : (p.getIntents env o input).run w = .ok out) :
    CompleteRanking p.regexes.keys (fun i => ∃ sl, p.MatchesAlone env o w input i sl) out :=
  have hr := c36_deterministic env p hb hreg o w input out h
  ⟨hr.2, hr.1.split⟩

end Snips
