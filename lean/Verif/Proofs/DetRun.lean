import Verif.Proofs.Rule
import Verif.Proofs.Prog
import Verif.Proofs.Tags
import Verif.Props.C18_Ranges

/-! What running the deterministic parser amounts to. -/

namespace Snips

theorem matchingResult_some {fns : TextFns} {o : HashOrd} {p : Det} {input formatted : Text} {regex : Regex}
    {intent : Text} {mapping : Option (Map Rng Rng)} {r : InternalResult}
    (h : p.matchingResult fns o input formatted regex intent mapping = .ok (some r)) :
    ∃ caps raw, (regex.capturesIter formatted).find? (fun caps => !caps.isEmpty) = some caps ∧
      mapOutcome (p.slotOf o input formatted intent mapping) (namedCaptures caps regex.captureNames) = .ok raw ∧
      r = mkRes (intent, dedupSlots fns raw) := by
  unfold Det.matchingResult at h
  split at h
  · split at h
    · rename_i caps hcaps
      rw [Outcome.bind_eq, Outcome.bind_ok] at h
      obtain ⟨sl, hsl, h⟩ := h
      simp only [Outcome.ok.injEq, Option.some.injEq] at h
      exact ⟨caps, sl, hcaps, hsl, h.symm⟩
    · simp at h
  · simp at h

theorem tryRegex_some {fns : TextFns} {o : HashOrd} {p : Det} {input cleaned cf : Text} {m : Map Rng Rng}
    {intent : Text} {regex : Regex} {r : InternalResult}
    (h : p.tryRegex fns o input cleaned cf m intent regex = .ok (some r)) :
    p.matchingResult fns o input cleaned regex intent none = .ok (some r) ∨
    (p.matchingResult fns o input cleaned regex intent none = .ok none ∧
      p.matchingResult fns o input cf regex intent (some m) = .ok (some r)) := by
  unfold Det.tryRegex at h
  rw [Outcome.bind_eq, Outcome.bind_ok] at h
  obtain ⟨raw, hraw, h⟩ := h
  cases raw with
  | some r' =>
    simp only [Outcome.ok.injEq, Option.some.injEq] at h
    subst h
    exact Or.inl hraw
  | none => exact Or.inr ⟨hraw, h⟩

theorem findMapOutcome_some {α β : Type} {f : α → Outcome (Option β)} {l : List α} {b : β}
    (h : findMapOutcome f l = .ok (some b)) : ∃ a ∈ l, f a = .ok (some b) := by
  induction l with
  | nil => simp [findMapOutcome] at h
  | cons a l ih =>
    unfold findMapOutcome at h
    cases hf : f a with
    | ok r =>
      rw [hf] at h
      cases r with
      | some b' =>
        simp only [Outcome.ok.injEq, Option.some.injEq] at h
        subst h
        exact ⟨a, by simp, hf⟩
      | none =>
        obtain ⟨a', ha', h'⟩ := ih h
        exact ⟨a', by simp [ha'], h'⟩
    | err e => rw [hf] at h; simp at h
    | panic => rw [hf] at h; simp at h

/-- A match of the deterministic parser, taken apart. -/
theorem matchIntent_some {env : RuleEnv} {o : HashOrd} {p : Det} {input : Text} {w : World}
    {scope : Text × (List Kind × List Text)} {r : InternalResult}
    (h : (p.matchIntent env o input scope).run w = .ok (some r)) :
    ∃ bs cs regexes regex, w.builtin input (some scope.2.1) 0 = .ok bs ∧
      w.custom input (some scope.2.2) 0 = .ok cs ∧ p.regexes.get scope.1 = some regexes ∧ regex ∈ regexes ∧
      ∃ formatted mapping, p.matchingResult env.fns o input formatted regex scope.1 mapping = .ok (some r) := by
  unfold Det.matchIntent at h
  rw [Prog.run_builtinCached_ok] at h
  obtain ⟨bs, hbs, h⟩ := h
  rw [Prog.run_custom_ok] at h
  obtain ⟨cs, hcs, h⟩ := h
  rw [Prog.run_ofOutcome] at h
  unfold Det.matchWith at h
  rw [Outcome.bind_eq, Outcome.bind_ok] at h
  obtain ⟨replaced, _, h⟩ := h
  rw [Outcome.bind_eq, Outcome.bind_ok] at h
  obtain ⟨cleaned, _, h⟩ := h
  rw [Outcome.bind_eq, Outcome.bind_ok] at h
  obtain ⟨cf, _, h⟩ := h
  rw [Outcome.bind_eq, Outcome.bind_ok] at h
  obtain ⟨regexes, hreg, h⟩ := h
  obtain ⟨regex, hmem, h⟩ := findMapOutcome_some h
  have hreg' : p.regexes.get scope.1 = some regexes := by
    cases hg : p.regexes.get scope.1 with
    | some x => rw [hg] at hreg; simpa [Outcome.ofOption] using hreg
    | none => rw [hg] at hreg; simp [Outcome.ofOption] at hreg
  refine ⟨bs, cs, regexes, regex, hbs, hcs, hreg', hmem, ?_⟩
  rcases tryRegex_some h with h | ⟨_, h⟩
  · exact ⟨_, _, h⟩
  · exact ⟨_, _, h⟩

/-- An intent that is tried without error has regexes. -/
theorem matchIntent_ok_regexes {env : RuleEnv} {o : HashOrd} {p : Det} {input : Text} {w : World}
    {scope : Text × (List Kind × List Text)} {r : Option InternalResult}
    (h : (p.matchIntent env o input scope).run w = .ok r) : scope.1 ∈ p.regexes.keys := by
  unfold Det.matchIntent at h
  rw [Prog.run_builtinCached_ok] at h
  obtain ⟨bs, hbs, h⟩ := h
  rw [Prog.run_custom_ok] at h
  obtain ⟨cs, hcs, h⟩ := h
  rw [Prog.run_ofOutcome] at h
  unfold Det.matchWith at h
  rw [Outcome.bind_eq, Outcome.bind_ok] at h
  obtain ⟨replaced, _, h⟩ := h
  rw [Outcome.bind_eq, Outcome.bind_ok] at h
  obtain ⟨cleaned, _, h⟩ := h
  rw [Outcome.bind_eq, Outcome.bind_ok] at h
  obtain ⟨cf, _, h⟩ := h
  rw [Outcome.bind_eq, Outcome.bind_ok] at h
  obtain ⟨regexes, hreg, h⟩ := h
  rw [← Map.get_isSome_iff]
  cases hg : p.regexes.get scope.1 with
  | some x => exact ⟨x, rfl⟩
  | none => rw [hg] at hreg; simp [Outcome.ofOption] at hreg

theorem matchIntent_named {env : RuleEnv} {o : HashOrd} {p : Det} {input : Text} {w : World}
    {scope : Text × (List Kind × List Text)} {r : InternalResult}
    (h : (p.matchIntent env o input scope).run w = .ok (some r)) : ∃ sl, r = mkRes (scope.1, sl) := by
  obtain ⟨_, _, _, _, _, _, _, _, _, _, h⟩ := matchIntent_some h
  obtain ⟨_, raw, _, _, hr⟩ := matchingResult_some h
  exact ⟨_, hr⟩

/-- The matches found by trying the intents of a list of scopes. -/
theorem det_matches {env : RuleEnv} {o : HashOrd} {p : Det} {input : Text} {w : World} :
    ∀ {l : List (Text × (List Kind × List Text))} {rs : List (Option InternalResult)},
    List.Forall₂ (fun s r => (p.matchIntent env o input s).run w = .ok r) l rs →
    ∃ ms : List (Text × List InternalSlot), rs.filterMap id = ms.map mkRes ∧
      (ms.map Prod.fst).Sublist (l.map Prod.fst) ∧
      ∀ i sl, (i, sl) ∈ ms ↔ ∃ s ∈ l, s.1 = i ∧ (p.matchIntent env o input s).run w = .ok (some (mkRes (i, sl))) := by
  intro l
  induction l with
  | nil =>
    intro rs h
    cases h
    exact ⟨[], rfl, by simp, by simp⟩
  | cons s l ih =>
    intro rs h
    cases h with
    | cons h1 h2 =>
      rename_i r rs
      obtain ⟨ms, hms1, hms2, hms3⟩ := ih h2
      cases r with
      | none =>
        refine ⟨ms, by simpa using hms1, List.Sublist.cons _ hms2, ?_⟩
        intro i sl
        rw [hms3]
        constructor
        · rintro ⟨s', hs', h⟩; exact ⟨s', by simp [hs'], h⟩
        · rintro ⟨s', hs', hi, h⟩
          rcases List.mem_cons.1 hs' with rfl | hs'
          · rw [h1] at h; simp at h
          · exact ⟨s', hs', hi, h⟩
      | some r =>
        obtain ⟨sl0, rfl⟩ := matchIntent_named h1
        refine ⟨(s.1, sl0) :: ms, by
          rw [List.filterMap_cons, hms1]; rfl, List.Sublist.cons_cons _ hms2, ?_⟩
        intro i sl
        rw [List.mem_cons, hms3]
        constructor
        · rintro (h | ⟨s', hs', h⟩)
          · simp only [Prod.mk.injEq] at h
            obtain ⟨rfl, rfl⟩ := h
            exact ⟨s, by simp, rfl, h1⟩
          · exact ⟨s', by simp [hs'], h⟩
        · rintro ⟨s', hs', hi, h⟩
          rcases List.mem_cons.1 hs' with rfl | hs'
          · left
            rw [h1] at h
            simp only [Outcome.ok.injEq, Option.some.injEq] at h
            have := mkRes_inj h
            exact this.symm
          · exact Or.inr ⟨s', hs', hi, h⟩

theorem detScopes_keys (names : KindNames) (se : Map Text (Map Text Text)) :
    (detScopes names se).keys = se.keys := by
  unfold detScopes Map.keys
  rw [List.map_map]
  rfl

theorem inIntentsSet_iff {env : RuleEnv} {p : Det} (hb : p.Built env.names) (filter : Option (List Text))
    {s : Text × (List Kind × List Text)} (hs : s ∈ p.scopes) :
    p.inIntentsSet filter s.1 = true ↔ Permits filter s.1 := by
  unfold Det.inIntentsSet Permits
  cases filter with
  | some l => simp
  | none =>
    have : s.1 ∈ p.slotEntities.keys := by
      rw [← detScopes_keys env.names, ← hb.scopes]
      exact List.mem_map.2 ⟨s, hs, rfl⟩
    simp [this]

theorem Det.Built.scopes_nodup {env : RuleEnv} {p : Det} (hb : p.Built env.names) : p.scopes.keys.Nodup := by
  rw [hb.scopes, detScopes_keys]; exact hb.nodup

/-- Running `parse_top_intents` of the deterministic parser. -/
theorem det_top_run {env : RuleEnv} {p : Det} (hb : p.Built env.names) {input : Text}
    {filter : Option (List Text)} {w : World} {o : HashOrd} {n : Nat} {out : List InternalResult}
    (h : (p.parseTopIntents env o input n filter).run w = .ok out) :
    ∃ ms : List (Text × List InternalSlot), out = rankByWeight env.rd (ms.map mkRes) n ∧
      (ms.map Prod.fst).Nodup ∧
      (∀ i sl, (i, sl) ∈ ms ↔ Permits filter i ∧ ∃ s ∈ p.scopes, s.1 = i ∧
        (p.matchIntent env o input s).run w = .ok (some (mkRes (i, sl)))) ∧
      (∀ s ∈ p.scopes, Permits filter s.1 → ∃ r, (p.matchIntent env o input s).run w = .ok r) := by
  unfold Det.parseTopIntents at h
  rw [Prog.run_bind, Outcome.bind_ok] at h
  obtain ⟨rs, hrs, h⟩ := h
  simp only [Prog.run_ret, Outcome.ok.injEq] at h
  rw [Prog.run_mapM_ok] at hrs
  obtain ⟨ms, h1, h2, h3⟩ := det_matches hrs
  have hmem : ∀ s, s ∈ (o.order 0 p.scopes).filter (fun s => p.inIntentsSet filter s.1) ↔
      s ∈ p.scopes ∧ Permits filter s.1 := by
    intro s
    rw [List.mem_filter, (o.perm 0 p.scopes).mem_iff]
    constructor
    · rintro ⟨ha, hb'⟩; exact ⟨ha, (inIntentsSet_iff hb filter ha).1 hb'⟩
    · rintro ⟨ha, hb'⟩; exact ⟨ha, (inIntentsSet_iff hb filter ha).2 hb'⟩
  refine ⟨ms, by rw [← h, h1], ?_, ?_, ?_⟩
  · refine List.Nodup.sublist h2 ?_
    refine List.Nodup.sublist (List.Sublist.map Prod.fst (List.filter_sublist)) ?_
    exact ((o.perm 0 p.scopes).map Prod.fst).nodup_iff.2 hb.scopes_nodup
  · intro i sl
    rw [h3]
    constructor
    · rintro ⟨s, hs, rfl, hrun⟩
      have := (hmem s).1 hs
      exact ⟨this.2, s, this.1, rfl, hrun⟩
    · rintro ⟨hp, s, hs, rfl, hrun⟩
      exact ⟨s, (hmem s).2 ⟨hs, hp⟩, rfl, hrun⟩
  · intro s hs hp
    have := (hmem s).2 ⟨hs, hp⟩
    obtain ⟨k, hk, hks⟩ := List.mem_iff_getElem.1 this
    have hlen := hrs.length_eq
    have h4 := (List.forall₂_iff_get.1 hrs).2 k hk (by omega)
    simp only [List.get_eq_getElem, hks] at h4
    exact ⟨_, h4⟩

theorem mem_scopes_unique {env : RuleEnv} {p : Det} (hb : p.Built env.names)
    {s s' : Text × (List Kind × List Text)} (hs : s ∈ p.scopes) (hs' : s' ∈ p.scopes) (h : s.1 = s'.1) :
    s = s' := by
  have h1 := Map.get_of_mem hb.scopes_nodup (k := s.1) (v := s.2) hs
  have h2 := Map.get_of_mem hb.scopes_nodup (k := s'.1) (v := s'.2) hs'
  rw [h] at h1
  rw [h1] at h2
  exact Prod.ext h (Option.some.inj h2)

/-- Asking about one intent alone amounts to trying that intent. -/
theorem matchesAlone_iff {env : RuleEnv} {p : Det} (hb : p.Built env.names) {input : Text} {w : World}
    {o : HashOrd} {i : Text} {sl : List InternalSlot} :
    p.MatchesAlone env o w input i sl ↔
      ∃ s ∈ p.scopes, s.1 = i ∧ (p.matchIntent env o input s).run w = .ok (some (mkRes (i, sl))) := by
  unfold Det.MatchesAlone Det.parse
  constructor
  · intro h
    rw [Prog.run_bind, Outcome.bind_ok] at h
    obtain ⟨top, htop, h⟩ := h
    simp only [Prog.run_ret, Outcome.ok.injEq] at h
    obtain ⟨ms, rfl, hn, h3, _⟩ := det_top_run hb htop
    have v := (roundedVerdict_of (ms := ms) env.rd).slots i (by rw [h])
    rw [h] at v
    exact ((h3 i sl).1 v).2
  · rintro ⟨s, hs, rfl, hrun⟩
    have hl : (o.order 0 p.scopes).filter (fun s' => p.inIntentsSet (some [s.1]) s'.1) = [s] := by
      have hnd : ((o.order 0 p.scopes).filter (fun s' => p.inIntentsSet (some [s.1]) s'.1)).Nodup := by
        refine List.Nodup.filter _ ?_
        exact (o.perm 0 p.scopes).nodup_iff.2 (List.Nodup.of_map Prod.fst hb.scopes_nodup)
      have hall : ∀ x, x ∈ (o.order 0 p.scopes).filter (fun s' => p.inIntentsSet (some [s.1]) s'.1) ↔ x = s := by
        intro x
        rw [List.mem_filter, (o.perm 0 p.scopes).mem_iff]
        constructor
        · rintro ⟨hx, hx'⟩
          have : x.1 = s.1 := by simpa [Det.inIntentsSet] using hx'
          exact mem_scopes_unique hb hx hs this
        · rintro rfl
          exact ⟨hs, by simp [Det.inIntentsSet]⟩
      have hp : ((o.order 0 p.scopes).filter (fun s' => p.inIntentsSet (some [s.1]) s'.1)).Perm [s] :=
        (List.perm_ext_iff_of_nodup hnd (by simp)).2 (by intro x; rw [hall]; simp)
      exact List.perm_singleton.1 hp
    have htop : (p.parseTopIntents env o input 1 (some [s.1])).run w
        = .ok (rankByWeight env.rd (([(s.1, sl)] : List (Text × List InternalSlot)).map mkRes) 1) := by
      unfold Det.parseTopIntents
      rw [hl, Prog.run_bind]
      have : (Prog.mapM (p.matchIntent env o input) [s]).run w = .ok [some (mkRes (s.1, sl))] := by
        rw [Prog.run_mapM_ok]
        exact List.Forall₂.cons hrun List.Forall₂.nil
      rw [this]
      rfl
    rw [Prog.run_bind, htop]
    show Outcome.ok _ = _
    have v := (roundedVerdict_of (ms := [(s.1, sl)]) env.rd).single s.1 sl rfl
    rw [v]

end Snips
