import Verif.Spec.Extension
import Verif.Proofs.DetRun
import Verif.Proofs.Tags
import Verif.Proofs.Rule

/-! Helpers for C111. -/

namespace Snips

namespace Extension

theorem unwrap_get {ν : Type} {m m' : Map Text ν} {k : Text} (h : ∀ v, m.get k = some v → m'.get k = some v) {v : ν}
    (hv : Outcome.unwrap (m.get k) = .ok v) : Outcome.unwrap (m'.get k) = .ok v := by
  cases hg : m.get k with
  | none => rw [hg] at hv; simp [Outcome.unwrap] at hv
  | some x => rw [hg] at hv; rw [h x hg]; exact hv

theorem mapOutcome_ext {α β : Type} {f g : α → Outcome β} (hfg : ∀ a b, f a = .ok b → g a = .ok b) {l : List α} {bs : List β}
    (h : mapOutcome f l = .ok bs) : mapOutcome g l = .ok bs := by
  rw [mapOutcome_ok_iff] at h ⊢
  exact h.imp hfg

theorem slotOf_ext {p p' : Det} (he : p.Extends p') {o : HashOrd} {input formatted intent : Text}
    {mapping : Option (Map Rng Rng)} {c : Rng × Text} {s : InternalSlot}
    (h : p.slotOf o input formatted intent mapping c = .ok s) : p'.slotOf o input formatted intent mapping c = .ok s := by
  unfold Det.slotOf at h ⊢
  rw [Outcome.bind_eq, Outcome.bind_ok] at h ⊢
  obtain ⟨n, hn, h⟩ := h
  refine ⟨n, unwrap_get (he.groups _) hn, ?_⟩
  rw [Outcome.bind_eq, Outcome.bind_ok] at h ⊢
  obtain ⟨m, hm, h⟩ := h
  exact ⟨m, unwrap_get (he.slots _) hm, h⟩

theorem matchingResult_ext {p p' : Det} (he : p.Extends p') {fns : TextFns} {o : HashOrd} {input formatted intent : Text}
    {regex : Regex} {mapping : Option (Map Rng Rng)} {r : Option InternalResult}
    (h : p.matchingResult fns o input formatted regex intent mapping = .ok r) :
    p'.matchingResult fns o input formatted regex intent mapping = .ok r := by
  unfold Det.matchingResult at h ⊢
  split
  · rename_i hm
    rw [if_pos hm] at h
    split
    · rename_i caps hc
      rw [hc] at h
      simp only at h
      rw [Outcome.bind_eq, Outcome.bind_ok] at h ⊢
      obtain ⟨sl, hsl, h⟩ := h
      exact ⟨sl, mapOutcome_ext (fun a b => slotOf_ext he) hsl, h⟩
    · rename_i hc
      rw [hc] at h
      exact h
  · rename_i hm
    rw [if_neg hm] at h
    exact h

theorem tryRegex_ext {p p' : Det} (he : p.Extends p') {fns : TextFns} {o : HashOrd} {input cleaned cf intent : Text}
    {regex : Regex} {m : Map Rng Rng} {r : Option InternalResult}
    (h : p.tryRegex fns o input cleaned cf m intent regex = .ok r) :
    p'.tryRegex fns o input cleaned cf m intent regex = .ok r := by
  unfold Det.tryRegex at h ⊢
  rw [Outcome.bind_eq, Outcome.bind_ok] at h ⊢
  obtain ⟨raw, hraw, h⟩ := h
  refine ⟨raw, matchingResult_ext he hraw, ?_⟩
  cases raw with
  | some x => exact h
  | none => exact matchingResult_ext he h

theorem findMap_ext {α β : Type} {f g : α → Outcome (Option β)} (hfg : ∀ a b, f a = .ok b → g a = .ok b) :
    ∀ {l : List α} {r : Option β}, findMapOutcome f l = .ok r → findMapOutcome g l = .ok r
  | [], _, h => h
  | a :: l, r, h => by
    unfold findMapOutcome at h ⊢
    cases hf : f a with
    | ok b =>
      rw [hf] at h
      rw [hfg a b hf]
      cases b with
      | some b => exact h
      | none => exact findMap_ext hfg h
    | err e => rw [hf] at h; simp at h
    | panic => rw [hf] at h; simp at h

/-- What is found for an intent is found by the extended parser. -/
theorem matchIntent_ext {env : RuleEnv} {p p' : Det} (he : p.Extends p') {o : HashOrd} {input : Text} {w : World}
    {s : Text × (List Kind × List Text)} {m : Map Text Text} (hm : p.slotEntities.get s.1 = some m)
    {r : Option InternalResult} (h : (p.matchIntent env o input s).run w = .ok r) :
    (p'.matchIntent env o input s).run w = .ok r := by
  have hpre : ∀ text, p'.preprocess env.fns text s.1 = p.preprocess env.fns text s.1 := by
    intro text
    unfold Det.preprocess
    rw [he.stopWords s.1 m hm]
  unfold Det.matchIntent at h ⊢
  rw [Prog.run_builtinCached_ok] at h ⊢
  obtain ⟨bs, hbs, h⟩ := h
  refine ⟨bs, hbs, ?_⟩
  rw [Prog.run_custom_ok] at h ⊢
  obtain ⟨cs, hcs, h⟩ := h
  refine ⟨cs, hcs, ?_⟩
  rw [Prog.run_ofOutcome] at h ⊢
  unfold Det.matchWith at h ⊢
  rw [hpre]
  rw [Outcome.bind_eq, Outcome.bind_ok] at h ⊢
  obtain ⟨replaced, hr, h⟩ := h
  refine ⟨replaced, hr, ?_⟩
  rw [hpre]
  rw [Outcome.bind_eq, Outcome.bind_ok] at h ⊢
  obtain ⟨cleaned, hc, h⟩ := h
  refine ⟨cleaned, hc, ?_⟩
  rw [Outcome.bind_eq, Outcome.bind_ok] at h ⊢
  obtain ⟨cf, hcf, h⟩ := h
  refine ⟨cf, hcf, ?_⟩
  rw [Outcome.bind_eq, Outcome.bind_ok] at h ⊢
  obtain ⟨rs, hrs, h⟩ := h
  refine ⟨rs, ?_, findMap_ext (fun a b => tryRegex_ext he) h⟩
  cases hg : p.regexes.get s.1 with
  | none => rw [hg] at hrs; simp [Outcome.ofOption] at hrs
  | some x => rw [hg] at hrs; rw [he.patterns s.1 x hg]; exact hrs

/-- Scopes and intents. -/
theorem scope_iff {names : KindNames} {p : Det} (hb : p.Built names) (s : Text × (List Kind × List Text)) :
    s ∈ p.scopes ↔ ∃ m, p.slotEntities.get s.1 = some m ∧ s ∈ detScopes names [(s.1, m)] := by
  rw [hb.scopes]
  unfold detScopes
  constructor
  · intro h
    obtain ⟨im, him, rfl⟩ := List.mem_map.1 h
    exact ⟨im.2, Map.get_of_mem hb.nodup him, by simp⟩
  · rintro ⟨m, hm, h⟩
    simp only [List.map_cons, List.map_nil, List.mem_singleton] at h
    refine List.mem_map.2 ⟨(s.1, m), Map.get_some_mem hm, h.symm⟩

theorem scope_ext {names : KindNames} {p p' : Det} (hb : p.Built names) (hb' : p'.Built names) (he : p.Extends p')
    {s : Text × (List Kind × List Text)} (hs : s ∈ p.scopes) : s ∈ p'.scopes := by
  rw [scope_iff hb] at hs
  rw [scope_iff hb']
  obtain ⟨m, hm, hs⟩ := hs
  exact ⟨m, he.slots _ _ hm, hs⟩

theorem scope_known {names : KindNames} {p : Det} (hb : p.Built names) {s : Text × (List Kind × List Text)}
    (hs : s ∈ p.scopes) : ∃ m, p.slotEntities.get s.1 = some m := by
  rw [scope_iff hb] at hs
  obtain ⟨m, hm, _⟩ := hs
  exact ⟨m, hm⟩

theorem scope_of_known {names : KindNames} {p : Det} (hb : p.Built names) {i : Text} (hi : i ∈ p.slotEntities.keys) :
    ∃ s ∈ p.scopes, s.1 = i := by
  rw [← detScopes_keys names, ← hb.scopes] at hi
  obtain ⟨s, hs, h⟩ := List.mem_map.1 hi
  exact ⟨s, hs, h⟩

theorem mapM_ok {α β : Type} {w : World} {f : α → Prog β} : ∀ {l : List α}, (∀ a ∈ l, ∃ b, (f a).run w = .ok b) →
    ∃ bs, (Prog.mapM f l).run w = .ok bs
  | [], _ => ⟨[], rfl⟩
  | a :: l, h => by
    obtain ⟨b, hb⟩ := h a (by simp)
    obtain ⟨bs, hbs⟩ := mapM_ok (l := l) fun a ha => h a (by simp [ha])
    refine ⟨b :: bs, ?_⟩
    rw [Prog.run_mapM_ok] at hbs ⊢
    exact List.Forall₂.cons hb hbs

/-- An intent that is asked for alone and not recognised does not match. -/
theorem unmatched {env : RuleEnv} {p : Det} (hb : p.Built env.names) {o : HashOrd} {input : Text} {w : World}
    {s : Text × (List Kind × List Text)} (hs : s ∈ p.scopes)
    (h : (p.parse env o input (some [s.1])).run w = .ok ⟨⟨none, 1⟩, []⟩) : (p.matchIntent env o input s).run w = .ok none := by
  have h0 := h
  unfold Det.parse at h
  rw [Prog.run_bind, Outcome.bind_ok] at h
  obtain ⟨top, htop, _⟩ := h
  obtain ⟨_, _, _, _, h4⟩ := det_top_run hb htop
  obtain ⟨r, hr⟩ := h4 s hs (by simp [Permits])
  cases r with
  | none => exact hr
  | some r =>
    obtain ⟨sl, rfl⟩ := matchIntent_named hr
    have := (matchesAlone_iff hb (o := o) (input := input) (w := w)).2 ⟨s, hs, rfl, hr⟩
    unfold Det.MatchesAlone at this
    rw [h0] at this
    simp at this

/-- The matches of the extended parser are those of the parser, if the new intents do not match. -/
theorem det_top_ext {env : RuleEnv} {p p' : Det} (hb : p.Built env.names) (hb' : p'.Built env.names) (he : p.Extends p')
    {o : HashOrd} {input : Text} {w : World} {f : Option (List Text)} {n n' : Nat} {top : List InternalResult}
    (hnew : ∀ i ∈ p'.slotEntities.keys, i ∉ p.slotEntities.keys → Permits f i →
      (p'.parse env o input (some [i])).run w = .ok ⟨⟨none, 1⟩, []⟩)
    (h : (p.parseTopIntents env o input n f).run w = .ok top) :
    ∃ ms ms' : List (Text × List InternalSlot), ms.Perm ms' ∧ (ms.map Prod.fst).Nodup ∧
      top = rankByWeight env.rd (ms.map mkRes) n ∧ (∀ m ∈ ms, m.1 ∈ p.regexes.keys) ∧
      (p'.parseTopIntents env o input n' f).run w = .ok (rankByWeight env.rd (ms'.map mkRes) n') := by
  obtain ⟨ms, rfl, hn, h3, h4⟩ := det_top_run hb h
  have hall : ∀ s ∈ p'.scopes, Permits f s.1 → s ∈ p.scopes ∨ (p'.matchIntent env o input s).run w = .ok none := by
    intro s hs hf
    obtain ⟨m, hm⟩ := scope_known hb' hs
    by_cases hk : s.1 ∈ p.slotEntities.keys
    · left
      obtain ⟨s0, hs0, hi⟩ := scope_of_known hb hk
      rw [← mem_scopes_unique hb' (scope_ext hb hb' he hs0) hs hi]
      exact hs0
    · right
      exact unmatched hb' hs (hnew _ (Map.get_isSome_iff.1 ⟨m, hm⟩) hk hf)
  have hok : ∃ top', (p'.parseTopIntents env o input n' f).run w = .ok top' := by
    unfold Det.parseTopIntents
    rw [Prog.run_bind]
    obtain ⟨rs, hrs⟩ := mapM_ok (w := w) (f := p'.matchIntent env o input)
      (l := (o.order 0 p'.scopes).filter fun s => p'.inIntentsSet f s.1) (by
        intro s hs
        rw [List.mem_filter, (o.perm 0 p'.scopes).mem_iff] at hs
        have hf := (inIntentsSet_iff hb' f hs.1).1 hs.2
        rcases hall s hs.1 hf with hp | hnone
        · obtain ⟨r, hr⟩ := h4 s hp hf
          obtain ⟨m, hm⟩ := scope_known hb hp
          exact ⟨r, matchIntent_ext he hm hr⟩
        · exact ⟨none, hnone⟩)
    rw [hrs]
    exact ⟨_, rfl⟩
  obtain ⟨top', htop'⟩ := hok
  obtain ⟨ms', rfl, hn', h3', _⟩ := det_top_run hb' htop'
  refine ⟨ms, ms', ?_, hn, rfl, ?_, htop'⟩
  · refine (List.perm_ext_iff_of_nodup (List.Nodup.of_map _ hn) (List.Nodup.of_map _ hn')).2 ?_
    rintro ⟨i, sl⟩
    rw [h3, h3']
    refine and_congr_right fun hf => ?_
    constructor
    · rintro ⟨s, hs, hi, hrun⟩
      obtain ⟨m, hm⟩ := scope_known hb hs
      exact ⟨s, scope_ext hb hb' he hs, hi, matchIntent_ext he hm hrun⟩
    · rintro ⟨s, hs, hi, hrun⟩
      rcases hall s hs (hi ▸ hf) with hp | hnone
      · refine ⟨s, hp, hi, ?_⟩
        obtain ⟨r, hr⟩ := h4 s hp (hi ▸ hf)
        obtain ⟨m, hm⟩ := scope_known hb hp
        rw [matchIntent_ext he hm hr] at hrun
        rw [hr]; exact hrun
      · rw [hnone] at hrun
        simp at hrun
  · intro m hm
    obtain ⟨_, s, _, hi, hrun⟩ := (h3 m.1 m.2).1 hm
    exact hi ▸ matchIntent_ok_regexes hrun

end Extension

end Snips
