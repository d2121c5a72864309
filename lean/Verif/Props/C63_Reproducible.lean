import Verif.Proofs.Reproducible
import Verif.Props.C35_Decision
import Verif.Props.C03_Cascade
import Verif.Props.C08_Ranking
import Verif.Props.C06_Single
import Verif.Spec.RuleDemo

/-! # C63: an engine's answers do not depend on the iteration order of hash maps -/

namespace Snips

/-- What C63 asks of a parser.  Rule-based parsers compute in exact arithmetic; the intents of the lookup
parser are distinct, as are the keys of the tables of the deterministic one, whose texts and matches are in
the range where positions are recovered (see C18).  Nothing is asked of a probabilistic parser. -/
def ParserModel.Reproducible (w : World) (input : Text) : ParserModel → Prop
  | .lookup env p => env.rd = Rounding.exact ∧ p.intentsNames.Nodup
  | .deterministic env p => env.rd = Rounding.exact ∧ p.Built env.names ∧ p.regexes.keys.Nodup ∧
      p.SmallMatches env w input
  | .probabilistic _ _ => True

/-! ### Parsers -/

/-- A parser whose successful answers to an input do not depend on iteration orders. -/
structure ParserImpl.OrderFree (p : ParserImpl) (w : World) (input : Text) : Prop where
  parse : ∀ o o' f f' out, SameFilter f f' → (p.parse o input f).run w = .ok out →
    (p.parse o' input f').run w = .ok out
  slots : ∀ o o' intent out, (p.getSlots o input intent).run w = .ok out →
    (p.getSlots o' input intent).run w = .ok out
  ranking : ∀ o o' out, (p.getIntents o input).run w = .ok out →
    ∃ out', (p.getIntents o' input).run w = .ok out' ∧ Engine.SameRanking out out'

/-- Rankings of the same matches of the same intents contain the same. -/
theorem completeRanking_perm {ms ms' : List (Text × List InternalSlot)} (hp : ms.Perm ms')
    (hn : (ms.map Prod.fst).Nodup) {intents intents' : List Text} (hi : intents.Perm intents')
    (hnd : intents.Nodup) (hsub : ∀ m ∈ ms, m.1 ∈ intents) {n : Nat} (hlen : ms.length ≤ n) :
    let out := completeRanking intents ((rankByWeight Rounding.exact (ms.map mkRes) n).map InternalResult.intent)
    let out' := completeRanking intents' ((rankByWeight Rounding.exact (ms'.map mkRes) n).map InternalResult.intent)
    out.Perm out' ∧ (out.map IntentResult.name).Nodup := by
  intro out out'
  have hn' : (ms'.map Prod.fst).Nodup := (hp.map Prod.fst).nodup_iff.1 hn
  obtain ⟨matched, rest, heq, hperm, _, hrest, hnames⟩ := completeRanking_spec Rounding.exact intents n hn hlen hsub
  obtain ⟨matched', rest', heq', hperm', _, hrest', hnames'⟩ := completeRanking_spec Rounding.exact intents' n hn'
    (by rw [← hp.length_eq]; exact hlen) (fun m hm => hi.mem_iff.1 (hsub m (hp.mem_iff.2 hm)))
  have hN := hnames hnd
  have hN' := hnames' (hi.nodup_iff.1 hnd)
  have hbase : (none :: intents.map some).Nodup := by
    rw [List.nodup_cons]
    exact ⟨by simp, hnd.map (fun _ _ h => Option.some.inj h)⟩
  have hnn : ((matched ++ rest).map IntentResult.name).Nodup := hN.nodup_iff.2 hbase
  have hall : ((matched ++ rest).map IntentResult.name).Perm ((matched' ++ rest').map IntentResult.name) :=
    hN.trans ((List.Perm.cons _ (hi.map some)).trans hN'.symm)
  have hnn' := hall.nodup_iff.1 hnn
  have hm : matched.Perm matched' := by
    refine hperm.trans (List.Perm.trans ?_ hperm'.symm)
    simp only [conf_perm (hp.map mkRes)]
    exact hp.map _
  have key : ∀ {a b a' b' : List IntentResult}, a.Perm a' → (∀ r ∈ b, r.score = 0) → (∀ r ∈ b', r.score = 0) →
      ((a ++ b).map IntentResult.name).Perm ((a' ++ b').map IntentResult.name) →
      ((a ++ b).map IntentResult.name).Nodup → ∀ r ∈ a ++ b, r ∈ a' ++ b' := by
    intro a b a' b' h1 h2 h3 h4 h5 r hr
    rcases List.mem_append.1 hr with hr | hr
    · exact List.mem_append_left _ (h1.mem_iff.1 hr)
    · have : r.name ∈ (a' ++ b').map IntentResult.name :=
        h4.mem_iff.1 (List.mem_map.2 ⟨r, List.mem_append_right _ hr, rfl⟩)
      obtain ⟨r', hr', hname⟩ := List.mem_map.1 this
      rcases List.mem_append.1 hr' with hr'' | hr''
      · rw [List.map_append, List.nodup_append] at h5
        exact absurd hname (h5.2.2 r'.name (List.mem_map.2 ⟨r', h1.mem_iff.2 hr'', rfl⟩) r.name
          (List.mem_map.2 ⟨r, hr, rfl⟩))
      · have hs := h2 r hr
        have hs' := h3 r' hr''
        have : r = r' := by
          cases r; cases r'
          simp only at hs hs' hname
          rw [hs, hs', hname]
        rw [this]
        exact hr'
  refine ⟨?_, by show (List.map IntentResult.name (completeRanking _ _)).Nodup; rw [heq]; exact hnn⟩
  show (completeRanking _ _).Perm (completeRanking _ _)
  rw [heq, heq']
  refine (List.perm_ext_iff_of_nodup (List.Nodup.of_map _ hnn) (List.Nodup.of_map _ hnn')).2 fun r => ⟨?_, ?_⟩
  · exact key hm hrest hrest' hall hnn r
  · exact key hm.symm hrest' hrest hall.symm hnn' r

theorem lookup_order_free (env : RuleEnv) (hrd : env.rd = Rounding.exact) (p : Lookup) (hnd : p.intentsNames.Nodup)
    (w : World) (input : Text) : (p.impl env).OrderFree w input := by
  have hparse : ∀ o o' f f' out, SameFilter f f' → (p.parse env o input f).run w = .ok out →
      (p.parse env o' input f').run w = .ok out := by
    intro o o' f f' out hf h
    rw [← lookup_filter_same env p o' input hf]
    exact c37_lookup env hrd p o o' w input f out h
  refine ⟨hparse, ?_, ?_⟩
  · intro o o' intent out h
    change (p.getSlots env o input intent).run w = .ok out at h
    show (p.getSlots env o' input intent).run w = .ok out
    unfold Lookup.getSlots at h ⊢
    split
    · rename_i hc
      rw [if_pos hc, Prog.run_bind, Outcome.bind_ok] at h
      obtain ⟨r, hr, h⟩ := h
      rw [Prog.run_bind, hparse o o' _ _ r (SameFilter.refl _) hr]
      exact h
    · rename_i hc
      rw [if_neg hc] at h
      exact h
  · intro o o' out h
    change (p.getIntents env o input).run w = .ok out at h
    show ∃ out', (p.getIntents env o' input).run w = .ok out' ∧ _
    unfold Lookup.getIntents at h ⊢
    rw [Prog.run_bind, Outcome.bind_ok] at h
    obtain ⟨top, htop, h⟩ := h
    simp only [Prog.run_ret, Outcome.ok.injEq] at h
    obtain ⟨ms0, hn0, h1, _, h3⟩ := lookup_top_run htop
    obtain ⟨ms, hp, hrun⟩ := h3 o
    obtain ⟨ms', hp', hrun'⟩ := h3 o'
    rw [hrun] at htop
    simp only [Outcome.ok.injEq] at htop
    subst htop
    have hsub : ∀ m ∈ ms, m.1 ∈ p.intentsNames := by
      intro m hm
      obtain ⟨⟨_, _, _, _, _, _, _, _, _, n, _, _, hi, _⟩, _⟩ := h1 m.1 m.2 (hp.mem_iff.1 hm)
      exact List.mem_of_getElem? hi
    have hn := (hp.map Prod.fst).nodup_iff.2 hn0
    have hlen : ms.length ≤ p.intentsNames.length := by
      have : (ms.map Prod.fst).Subperm p.intentsNames :=
        hn.subperm (fun x hx => by obtain ⟨m, hm, rfl⟩ := List.mem_map.1 hx; exact hsub m hm)
      simpa using this.length_le
    obtain ⟨hperm, hnames⟩ := completeRanking_perm (hp.trans hp'.symm) hn (List.Perm.refl p.intentsNames) hnd hsub hlen
    refine ⟨_, by rw [Prog.run_bind, hrun']; rfl, ?_⟩
    rw [← h, hrd]
    exact Engine.sameRanking_of_perm hperm hnames

/-- The matches of a deterministic parser do not depend on the iteration order. -/
theorem det_top_order {env : RuleEnv} {p : Det} (hb : p.Built env.names) {w : World} {input : Text}
    (hsm : p.SmallMatches env w input) (o o' : HashOrd) {n : Nat} {filter : Option (List Text)}
    {ms : List (Text × List InternalSlot)} (hn : (ms.map Prod.fst).Nodup)
    (h3 : ∀ i sl, (i, sl) ∈ ms ↔ Permits filter i ∧ ∃ s ∈ p.scopes, s.1 = i ∧
      (p.matchIntent env o input s).run w = .ok (some (mkRes (i, sl))))
    (h4 : ∀ s ∈ p.scopes, Permits filter s.1 → ∃ r, (p.matchIntent env o input s).run w = .ok r) :
    ∃ ms' : List (Text × List InternalSlot), ms.Perm ms' ∧
      (p.parseTopIntents env o' input n filter).run w = .ok (rankByWeight env.rd (ms'.map mkRes) n) := by
  have hok : ∃ top', (p.parseTopIntents env o' input n filter).run w = .ok top' := by
    unfold Det.parseTopIntents
    rw [Prog.run_bind]
    have : ∀ l : List (Text × (List Kind × List Text)),
        (∀ s ∈ l, ∃ r, (p.matchIntent env o' input s).run w = .ok r) →
        ∃ rs, (Prog.mapM (p.matchIntent env o' input) l).run w = .ok rs := by
      intro l
      induction l with
      | nil => intro _; exact ⟨[], rfl⟩
      | cons s l ih =>
        intro hall
        obtain ⟨r, hr⟩ := hall s (by simp)
        obtain ⟨rs, hrs⟩ := ih (fun s' hs' => hall s' (by simp [hs']))
        refine ⟨r :: rs, ?_⟩
        rw [Prog.run_mapM_ok] at hrs ⊢
        exact List.Forall₂.cons hr hrs
    obtain ⟨rs, hrs⟩ := this ((o'.order 0 p.scopes).filter fun s => p.inIntentsSet filter s.1) (by
      intro s hs
      rw [List.mem_filter, (o'.perm 0 p.scopes).mem_iff] at hs
      rw [matchIntent_order hsm o' o hs.1]
      exact h4 s hs.1 ((inIntentsSet_iff hb filter hs.1).1 hs.2))
    rw [hrs]
    exact ⟨_, rfl⟩
  obtain ⟨top', htop'⟩ := hok
  obtain ⟨ms', rfl, hn', h3', _⟩ := det_top_run hb htop'
  refine ⟨ms', ?_, htop'⟩
  refine (List.perm_ext_iff_of_nodup (List.Nodup.of_map _ hn) (List.Nodup.of_map _ hn')).2 ?_
  rintro ⟨i, sl⟩
  rw [h3, h3']
  refine and_congr_right fun _ => ?_
  constructor
  · rintro ⟨s, hs, hi, hrun⟩
    exact ⟨s, hs, hi, by rw [matchIntent_order hsm o' o hs]; exact hrun⟩
  · rintro ⟨s, hs, hi, hrun⟩
    exact ⟨s, hs, hi, by rw [matchIntent_order hsm o o' hs]; exact hrun⟩

theorem det_order_free (env : RuleEnv) (hrd : env.rd = Rounding.exact) (p : Det) (hb : p.Built env.names)
    (hreg : p.regexes.keys.Nodup) (w : World) (input : Text) (hsm : p.SmallMatches env w input) :
    (p.impl env).OrderFree w input := by
  have hparse : ∀ o o' f f' out, SameFilter f f' → (p.parse env o input f).run w = .ok out →
      (p.parse env o' input f').run w = .ok out := by
    intro o o' f f' out hf h
    rw [← det_filter_same env p o' input hf]
    exact c37_deterministic_partial env hrd p hb o o' w input f hsm out h
  refine ⟨hparse, ?_, ?_⟩
  · intro o o' intent out h
    change (p.getSlots env o input intent).run w = .ok out at h
    show (p.getSlots env o' input intent).run w = .ok out
    unfold Det.getSlots at h ⊢
    split
    · rename_i hc
      rw [if_pos hc, Prog.run_bind, Outcome.bind_ok] at h
      obtain ⟨r, hr, h⟩ := h
      rw [Prog.run_bind, hparse o o' _ _ r (SameFilter.refl _) hr]
      exact h
    · rename_i hc
      rw [if_neg hc] at h
      exact h
  · intro o o' out h
    change (p.getIntents env o input).run w = .ok out at h
    show ∃ out', (p.getIntents env o' input).run w = .ok out' ∧ _
    unfold Det.getIntents at h ⊢
    rw [Prog.run_bind, Outcome.bind_ok] at h
    obtain ⟨top, htop, h⟩ := h
    simp only [Prog.run_ret, Outcome.ok.injEq] at h
    obtain ⟨ms, rfl, hn, h3, h4⟩ := det_top_run hb htop
    obtain ⟨ms', hp, hrun'⟩ := det_top_order hb hsm o o' (n := p.regexes.keys.length) hn h3 h4
    have hsub : ∀ m ∈ ms, m.1 ∈ o.order 2 p.regexes.keys := by
      intro m hm
      obtain ⟨_, s, hs, hi, hrun⟩ := (h3 m.1 m.2).1 hm
      rw [(o.perm 2 _).mem_iff, ← hi]
      exact matchIntent_ok_regexes hrun
    have hlen : ms.length ≤ p.regexes.keys.length := by
      have : (ms.map Prod.fst).Subperm (o.order 2 p.regexes.keys) :=
        hn.subperm (fun x hx => by obtain ⟨m, hm, rfl⟩ := List.mem_map.1 hx; exact hsub m hm)
      simpa [order_length] using this.length_le
    obtain ⟨hperm, hnames⟩ := completeRanking_perm hp hn ((o.perm 2 p.regexes.keys).trans (o'.perm 2 _).symm)
      ((o.perm 2 p.regexes.keys).nodup_iff.2 hreg) hsub hlen
    refine ⟨_, by rw [Prog.run_bind, hrun']; rfl, ?_⟩
    rw [← h, hrd]
    exact Engine.sameRanking_of_perm hperm hnames

theorem prob_order_free (env : ProbEnv) (p : Prob) (w : World) (input : Text) :
    (p.impl env).OrderFree w input := by
  refine ⟨?_, fun o o' intent out h => h, ?_⟩
  · intro o o' f f' out hf h
    change (p.parse env o input f).run w = .ok out at h
    show (p.parse env o' input f').run w = .ok out
    rw [← prob_filter_same env p o' input hf, ← h]
    unfold Prob.parse Classifier.getIntent
    rw [classifier_order_eq env.ops env.feat o o']
  · intro o o' out h
    refine ⟨out, ?_, fun _ => rfl⟩
    change (p.getIntents env o input).run w = .ok out at h
    show (p.getIntents env o' input).run w = .ok out
    rw [← h]
    unfold Prob.getIntents Classifier.getIntents
    rw [classifier_order_eq env.ops env.feat o o']

theorem ParserModel.order_free {w : World} {input : Text} {m : ParserModel} (h : m.Reproducible w input) :
    m.impl.OrderFree w input := by
  cases m with
  | lookup env p => exact lookup_order_free env h.1 p h.2 w input
  | deterministic env p => exact det_order_free env h.1 p h.2.1 h.2.2.1 w input h.2.2.2
  | probabilistic env p => exact prob_order_free env p w input

/-! ### Engines -/

namespace Engine

theorem whitelist_same (e : Engine) (o o' : HashOrd) {whitelist blacklist eff : Option (List Text)}
    (h : e.getIntentsWhitelist o whitelist blacklist = .ok eff) :
    ∃ eff', e.getIntentsWhitelist o' whitelist blacklist = .ok eff' ∧ SameFilter eff eff' := by
  unfold getIntentsWhitelist at h ⊢
  simp only at h ⊢
  split at h
  · cases h
  · rename_i hm
    injection h with h
    refine ⟨_, rfl, ?_⟩
    subst h
    have hmem : ∀ i bl, i ∈ (o.order 0 e.dataset.slotNameMappings.keys).filter (fun i => !List.contains bl i) ↔
        i ∈ (o'.order 0 e.dataset.slotNameMappings.keys).filter (fun i => !List.contains bl i) := by
      intro i bl
      rw [List.mem_filter, List.mem_filter, (o.perm 0 _).mem_iff, (o'.perm 0 _).mem_iff]
    cases whitelist with
    | none =>
      cases blacklist with
      | none => trivial
      | some bl => exact fun i => hmem i bl
    | some wl =>
      cases blacklist with
      | none => exact fun _ => Iff.rfl
      | some bl =>
        intro i
        simp only [Option.map_some, intersect, List.mem_filter]
        simp only [List.mem_filter] at hmem
        rw [hmem i bl]

theorem cascade_same (e : Engine) {w : World} {input : Text} {f f' : Option (List Text)} (hf : SameFilter f f')
    (ns : Nat) (o o' : HashOrd) : ∀ (ps : List ParserImpl) (i : Nat) (score : ℚ) (res : ParseResult),
    (∀ p ∈ ps, p.OrderFree w input) → (e.cascade o input f ns i ps score).run w = .ok res →
    (e.cascade o' input f' ns i ps score).run w = .ok res
  | [], _, _, _, _, h => h
  | p :: ps, i, score, res, hp, h => by
    unfold cascade at h ⊢
    rw [Prog.run_bind_ok] at h ⊢
    obtain ⟨r, hr, h⟩ := h
    refine ⟨r, (hp p (by simp)).parse _ _ _ _ r hf hr, ?_⟩
    cases hn : r.intent.name with
    | some n => simp only [hn] at h ⊢; exact h
    | none =>
      simp only [hn] at h ⊢
      exact cascade_same e hf ns o o' ps (i + 1) _ res (fun q hq => hp q (by simp [hq])) h

theorem slotsCascade_same (e : Engine) {w : World} {input : Text} (intent : Text)
    (ns : Nat) (o o' : HashOrd) : ∀ (ps : List ParserImpl) (i : Nat) (res : List Slot),
    (∀ p ∈ ps, p.OrderFree w input) → (e.slotsCascade o input intent ns i ps).run w = .ok res →
    (e.slotsCascade o' input intent ns i ps).run w = .ok res
  | [], _, _, _, h => h
  | p :: ps, i, res, hp, h => by
    unfold slotsCascade at h ⊢
    rw [Prog.run_bind_ok] at h ⊢
    obtain ⟨r, hr, h⟩ := h
    refine ⟨r, (hp p (by simp)).slots _ _ _ r hr, ?_⟩
    split
    · rename_i hc
      rw [if_pos hc] at h
      exact slotsCascade_same e intent ns o o' ps (i + 1) res (fun q hq => hp q (by simp [hq])) h
    · rename_i hc
      rw [if_neg hc] at h
      exact h

theorem mergeIntents_nodup (m : Map (Option Text) IntentResult) (rs : List IntentResult) (h : m.keys.Nodup) :
    (mergeIntents m rs).keys.Nodup := by
  have aux : ∀ (step : Map (Option Text) IntentResult → IntentResult → Map (Option Text) IntentResult),
      (∀ m r, m.keys.Nodup → (step m r).keys.Nodup) → ∀ (rs : List IntentResult) (m : Map (Option Text) IntentResult),
      m.keys.Nodup → (rs.foldl step m).keys.Nodup := by
    intro step hs rs
    induction rs with
    | nil => intro m h; exact h
    | cons r rs ih => intro m h; exact ih _ (hs m r h)
  unfold mergeIntents
  split
  · exact aux _ (fun m r h => Map.keys_insert_nodup _ _ _ h) rs m h
  · refine aux _ (fun m r h => ?_) rs m h
    have hu : (upsertScore m r).keys.Nodup := by
      unfold upsertScore
      split <;> exact Map.keys_insert_nodup _ _ _ h
    cases hg : m.get r.name <;> simp only <;> split <;> first | exact hu | exact h

theorem collect_same {w : World} {input : Text} (o o' : HashOrd) : ∀ (ps : List ParserImpl) (i : Nat)
    (m m' out : Map (Option Text) IntentResult), (∀ p ∈ ps, p.OrderFree w input) → m.keys.Nodup → m'.keys.Nodup →
    SameMap m m' → (collectIntents o input i ps m).run w = .ok out →
    ∃ out', (collectIntents o' input i ps m').run w = .ok out' ∧ SameMap out out' ∧ out.keys.Nodup ∧ out'.keys.Nodup
  | [], _, m, m', out, _, hn, hn', hm, h => by
    simp only [collectIntents, Prog.run_ret, Outcome.ok.injEq] at h
    subst h
    exact ⟨m', rfl, hm, hn, hn'⟩
  | p :: ps, i, m, m', out, hp, hn, hn', hm, h => by
    unfold collectIntents at h ⊢
    rw [Prog.run_bind_ok] at h
    obtain ⟨rs, hrs, h⟩ := h
    obtain ⟨rs', hrs', hsame⟩ := (hp p (by simp)).ranking _ (o'.sub i) rs hrs
    obtain ⟨out', h1, h2⟩ := collect_same o o' ps (i + 1) _ (mergeIntents m' rs') out (fun q hq => hp q (by simp [hq]))
      (mergeIntents_nodup m rs hn) (mergeIntents_nodup m' rs' hn') (mergeIntents_same hm hsame) h
    exact ⟨out', by rw [Prog.run_bind_ok]; exact ⟨rs', hrs', h1⟩, h2⟩

theorem getIntents_same {e : Engine} {w : World} {input : Text} (hp : ∀ p ∈ e.parsers, p.OrderFree w input)
    (o o' : HashOrd) {out : List IntentResult} (h : (e.getIntents o input).run w = .ok out) :
    ∃ out', (e.getIntents o' input).run w = .ok out' ∧ out'.Perm out := by
  unfold getIntents at h ⊢
  rw [Prog.run_bind_ok] at h
  obtain ⟨m, hm, h⟩ := h
  rw [Prog.run_ret, Outcome.ok.injEq] at h
  obtain ⟨m', hm', hsame, hn, hn'⟩ := collect_same (o.sub 0) (o'.sub 0) e.parsers 0 [] [] m hp (by simp [Map.keys])
    (by simp [Map.keys]) (fun _ => rfl) hm
  refine ⟨_, by rw [Prog.run_bind_ok]; exact ⟨m', hm', rfl⟩, ?_⟩
  rw [← h]
  refine (sortDesc_perm _ _).trans (List.Perm.trans ?_ (sortDesc_perm _ _).symm)
  exact (((o'.perm 0 m').trans (perm_of_same hn' hn (fun k => (hsame k).symm))).trans (o.perm 0 m).symm).map _

theorem alternativesSlots_same {e : Engine} {w : World} {input : Text} (hp : ∀ p ∈ e.parsers, p.OrderFree w input)
    (ns : Nat) (o o' : HashOrd) : ∀ (l : List IntentResult) (i : Nat) (alts : List Alternative),
    (e.alternativesSlots o input ns i l).run w = .ok alts → (e.alternativesSlots o' input ns i l).run w = .ok alts
  | [], _, _, h => h
  | r :: l, i, alts, h => by
    unfold alternativesSlots at h ⊢
    rw [Prog.run_bind_ok] at h ⊢
    obtain ⟨slots, hs, h⟩ := h
    rw [Prog.run_bind_ok] at h
    obtain ⟨rest, hrest, h⟩ := h
    refine ⟨slots, ?_, ?_⟩
    · unfold alternativeSlots at hs ⊢
      cases hn : r.name with
      | none => simp only [hn] at hs ⊢; exact hs
      | some n =>
        simp only [hn] at hs ⊢
        exact slotsCascade_same e n ns _ _ e.parsers 0 slots hp hs
    · rw [Prog.run_bind_ok]
      exact ⟨rest, alternativesSlots_same hp ns o o' l (i + 1) rest hrest, h⟩

end Engine

theorem ofParsers_order_free {dataset : DatasetMetadata} {names : KindNames} {ps : List ParserModel} {w : World}
    {input : Text} (hps : ∀ m ∈ ps, m.Reproducible w input) :
    ∀ p ∈ (Engine.ofParsers dataset names ps).parsers, p.OrderFree w input := by
  intro p hp
  obtain ⟨m, hm, rfl⟩ := List.mem_map.1 hp
  exact ParserModel.order_free (hps m hm)

/-- Two sorted rankings with the same entries and distinct scores are equal. -/
theorem sorted_perm_eq {l l' : List IntentResult} (hp : l'.Perm l) (hs : l.Pairwise fun a b => b.score ≤ a.score)
    (hs' : l'.Pairwise fun a b => b.score ≤ a.score) (hd : (l.map IntentResult.score).Nodup) : l' = l := by
  have strict : ∀ {l : List IntentResult}, (l.Pairwise fun a b => b.score ≤ a.score) →
      (l.map IntentResult.score).Nodup → l.Pairwise fun a b => b.score < a.score := by
    intro l h1 h2
    rw [List.Nodup, List.pairwise_map] at h2
    exact (h1.and h2).imp fun h => lt_of_le_of_ne h.1 (fun hc => h.2 hc.symm)
  have hd' : (l'.map IntentResult.score).Nodup := (hp.map _).nodup_iff.2 hd
  exact hp.eq_of_pairwise (fun a b _ _ h1 h2 => absurd h1 (not_lt.2 (le_of_lt h2))) (strict hs' hd') (strict hs hd)

/-! ### The property -/

/-- A parse that succeeds under one iteration order gives the same result under every other, whatever the
filter and the number of slot alternatives. -/
theorem c63_parse (dataset : DatasetMetadata) (names : KindNames) (ps : List ParserModel) (o o' : HashOrd)
    (w : World) (input : Text) (hps : ∀ m ∈ ps, m.Reproducible w input) (whitelist blacklist : Option (List Text))
    (ns : Nat) (res : ParseResult)
    (h : ((Engine.ofParsers dataset names ps).parseWithAlternatives o input whitelist blacklist 0 ns).run w = .ok res) :
    ((Engine.ofParsers dataset names ps).parseWithAlternatives o' input whitelist blacklist 0 ns).run w = .ok res := by
  unfold Engine.parseWithAlternatives at h ⊢
  rw [Prog.run_bind_ok] at h ⊢
  obtain ⟨eff, heff, h⟩ := h
  rw [Prog.run_ofOutcome] at heff
  obtain ⟨eff', heff', hsame⟩ := Engine.whitelist_same _ (o.sub 0) (o'.sub 0) heff
  refine ⟨eff', by rw [Prog.run_ofOutcome]; exact heff', ?_⟩
  rw [Prog.run_bind_ok] at h ⊢
  obtain ⟨main, hmain, h⟩ := h
  exact ⟨main, Engine.cascade_same _ hsame ns _ _ _ 0 0 main (ofParsers_order_free hps) hmain, h⟩

/-- The same for the slots of an intent. -/
theorem c63_slots (dataset : DatasetMetadata) (names : KindNames) (ps : List ParserModel) (o o' : HashOrd)
    (w : World) (input : Text) (hps : ∀ m ∈ ps, m.Reproducible w input) (intent : Text) (ns : Nat) (res : List Slot)
    (h : ((Engine.ofParsers dataset names ps).getSlotsWithAlternatives o input intent ns).run w = .ok res) :
    ((Engine.ofParsers dataset names ps).getSlotsWithAlternatives o' input intent ns).run w = .ok res :=
  Engine.slotsCascade_same _ intent ns o o' _ 0 res (ofParsers_order_free hps) h

/-- The ranking of the intents has the same intents with the same scores under every iteration order; only
intents with the same score can be swapped. -/
theorem c63_ranking (dataset : DatasetMetadata) (names : KindNames) (ps : List ParserModel) (o o' : HashOrd)
    (w : World) (input : Text) (hps : ∀ m ∈ ps, m.Reproducible w input) (ranked : List IntentResult)
    (h : ((Engine.ofParsers dataset names ps).getIntents o input).run w = .ok ranked) :
    ∃ ranked', ((Engine.ofParsers dataset names ps).getIntents o' input).run w = .ok ranked' ∧
      ranked'.Perm ranked ∧ ranked'.map IntentResult.score = ranked.map IntentResult.score ∧
      ((ranked.map IntentResult.score).Nodup → ranked' = ranked) := by
  obtain ⟨ranked', h', hp⟩ := Engine.getIntents_same (ofParsers_order_free hps) o o' h
  obtain ⟨_, hs, _⟩ := c08_sorted_nodup _ o w input ranked h
  obtain ⟨_, hs', _⟩ := c08_sorted_nodup _ o' w input ranked' h'
  refine ⟨ranked', h', hp, ?_, fun hd => sorted_perm_eq hp hs hs' hd⟩
  exact (hp.map IntentResult.score).eq_of_pairwise (fun a b _ _ h1 h2 => le_antisymm h2 h1)
    (List.pairwise_map.2 hs') (List.pairwise_map.2 hs)

theorem getIntentsWhitelist_filter {e : Engine} {o : HashOrd} {wl bl eff : Option (List Text)}
    (h : e.getIntentsWhitelist o wl bl = .ok eff) : e.IsFilterFor wl bl eff := by
  have hknown : e.FilterKnown wl bl := by
    by_contra hk
    obtain ⟨i, _, _, h3⟩ := getIntentsWhitelist_unknown e o wl bl hk
    rw [h3] at h; cases h
  obtain ⟨eff', h1, h2⟩ := getIntentsWhitelist_known e o wl bl hknown
  rw [h] at h1
  injection h1 with h1
  subst h1
  exact h2

/-- The beginnings of two sorted rankings with the same entries agree up to where the first has no ties. -/
theorem take_perm_eq : ∀ (k : Nat) (l l' : List IntentResult), l'.Perm l →
    (l.Pairwise fun a b => b.score ≤ a.score) → (l'.Pairwise fun a b => b.score ≤ a.score) →
    (∀ r ∈ l.take k, ∀ r' ∈ l, r'.score = r.score → r' = r) → l'.take k = l.take k
  | 0, _, _, _, _, _, _ => by simp
  | k + 1, [], l', hp, _, _, _ => by rw [hp.eq_nil]
  | k + 1, a :: t, [], hp, _, _, _ => by cases hp.symm.eq_nil
  | k + 1, a :: t, b :: t', hp, hs, hs', hd => by
    have hb : b ∈ a :: t := hp.mem_iff.1 (by simp)
    have ha : a ∈ b :: t' := hp.mem_iff.2 (by simp)
    have h1 : b.score ≤ a.score := by
      rcases List.mem_cons.1 hb with h | h
      · rw [h]
      · exact (List.pairwise_cons.1 hs).1 b h
    have h2 : a.score ≤ b.score := by
      rcases List.mem_cons.1 ha with h | h
      · rw [h]
      · exact (List.pairwise_cons.1 hs').1 a h
    have hab : b = a := hd a (by simp) b hb (le_antisymm h1 h2)
    subst hab
    rw [List.take_succ_cons, List.take_succ_cons]
    congr 1
    refine take_perm_eq k t t' hp.cons_inv (List.pairwise_cons.1 hs).2 (List.pairwise_cons.1 hs').2 ?_
    intro r hr r' hr'
    exact hd r (by simp [hr]) r' (by simp [hr'])

/-- With `ni` alternatives too, unless two intents of the same score compete for them: whenever two different
intents passing the filter have the same score, more than `ni` others that pass the filter score better. -/
theorem c63_alternatives (dataset : DatasetMetadata) (names : KindNames) (ps : List ParserModel) (o o' : HashOrd)
    (w : World) (input : Text) (hps : ∀ m ∈ ps, m.Reproducible w input) (whitelist blacklist : Option (List Text))
    (ni ns : Nat) (res : ParseResult) (ranked : List IntentResult)
    (hr : ((Engine.ofParsers dataset names ps).getIntents (o.sub 2) input).run w = .ok ranked)
    (hties : ∀ a ∈ ranked, ∀ b ∈ ranked, a ≠ b → a.score = b.score →
      (Engine.ofParsers dataset names ps).Passes whitelist blacklist a →
      (Engine.ofParsers dataset names ps).Passes whitelist blacklist b →
      ∃ better : List IntentResult, better.Nodup ∧ ni < better.length ∧ ∀ r ∈ better, r ∈ ranked ∧
        (Engine.ofParsers dataset names ps).Passes whitelist blacklist r ∧ a.score < r.score)
    (h : ((Engine.ofParsers dataset names ps).parseWithAlternatives o input whitelist blacklist ni ns).run w = .ok res) :
    ((Engine.ofParsers dataset names ps).parseWithAlternatives o' input whitelist blacklist ni ns).run w = .ok res := by
  unfold Engine.parseWithAlternatives at h ⊢
  rw [Prog.run_bind_ok] at h ⊢
  obtain ⟨eff, heff, h⟩ := h
  rw [Prog.run_ofOutcome] at heff
  obtain ⟨eff', heff', hsame⟩ := Engine.whitelist_same _ (o.sub 0) (o'.sub 0) heff
  refine ⟨eff', by rw [Prog.run_ofOutcome]; exact heff', ?_⟩
  rw [Prog.run_bind_ok] at h ⊢
  obtain ⟨main, hmain, h⟩ := h
  refine ⟨main, Engine.cascade_same _ hsame ns _ _ _ 0 0 main (ofParsers_order_free hps) hmain, ?_⟩
  split
  · rename_i hc
    rw [if_pos hc] at h
    exact h
  · rename_i hc
    rw [if_neg hc, Prog.run_bind_ok] at h
    obtain ⟨ranked1, hr1, h⟩ := h
    rw [hr] at hr1
    injection hr1 with hr1
    subst hr1
    have hf := getIntentsWhitelist_filter heff
    obtain ⟨ranked', hr', hperm, _, _⟩ := c63_ranking dataset names ps (o.sub 2) (o'.sub 2) w input hps ranked hr
    obtain ⟨_, hs, _⟩ := c08_sorted_nodup _ _ w input ranked hr
    obtain ⟨_, hs', _⟩ := c08_sorted_nodup _ _ w input ranked' hr'
    have htake : (ranked'.filter (Engine.passesFilter eff)).take (ni + 1)
        = (ranked.filter (Engine.passesFilter eff)).take (ni + 1) := by
      have hsf : (ranked.filter (Engine.passesFilter eff)).Pairwise fun a b => b.score ≤ a.score :=
        hs.sublist List.filter_sublist
      refine take_perm_eq _ _ _ (hperm.filter _) hsf (hs'.sublist List.filter_sublist) ?_
      intro r hr1 r' hr2 hsc
      by_contra hne
      have hrm := List.mem_filter.1 (List.mem_of_mem_take hr1)
      have hrm' := List.mem_filter.1 hr2
      obtain ⟨better, hbn, hbl, hb⟩ := hties r hrm.1 r' hrm'.1 (fun hc => hne hc.symm) hsc.symm
        ((passesFilter_iff hf r).1 hrm.2) ((passesFilter_iff hf r').1 hrm'.2)
      obtain ⟨j, hj, hjr⟩ := List.mem_iff_getElem.1 hr1
      rw [List.getElem_take] at hjr
      rw [List.length_take] at hj
      have hsub : better.Subperm ((ranked.filter (Engine.passesFilter eff)).take j) := by
        refine hbn.subperm fun x hx => ?_
        obtain ⟨hx1, hx2, hx3⟩ := hb x hx
        obtain ⟨k, hk, hkx⟩ := List.mem_iff_getElem.1 (List.mem_filter.2 ⟨hx1, (passesFilter_iff hf x).2 hx2⟩)
        have hkj : k < j := by
          by_contra hge
          have hle : j ≤ k := not_lt.1 hge
          rcases Nat.lt_or_eq_of_le hle with hlt | heq
          · have := List.pairwise_iff_getElem.1 hsf j k (by omega) hk hlt
            rw [hjr, hkx] at this
            exact absurd hx3 (not_lt.2 this)
          · subst heq
            rw [hjr] at hkx
            rw [hkx] at hx3
            exact absurd hx3 (lt_irrefl _)
        refine List.mem_iff_getElem.2 ⟨k, by rw [List.length_take]; omega, ?_⟩
        rw [List.getElem_take]
        exact hkx
      have := hsub.length_le
      rw [List.length_take] at this
      omega
    rw [Prog.run_bind_ok] at h ⊢
    obtain ⟨alts, halts, h⟩ := h
    refine ⟨ranked', hr', ?_⟩
    rw [Prog.run_bind_ok]
    refine ⟨alts, ?_, h⟩
    rw [← passesFilter_same hsame]
    have hsel : ∀ l : List IntentResult, (l.drop 1).take ni = (l.take (ni + 1)).drop 1 := by
      intro l
      rw [List.drop_take, Nat.add_sub_cancel]
    rw [hsel, htake, ← hsel]
    exact Engine.alternativesSlots_same (ofParsers_order_free hps) ns _ _ _ 0 alts halts

/-! ### Witnesses -/

/-- The insertion order, except for the hash map of the merged ranking, which is in the opposite order. -/
def HashOrd.mergedReversed : HashOrd :=
  ⟨fun site _ l => if site = Nat.pair 2 0 + 3 then l.reverse else l, fun site _ l => by
    split
    · exact List.reverse_perm l
    · exact List.Perm.refl l⟩

/-- Without the hypothesis on ties the alternatives may depend on the iteration order: of two intents with the
same score, which one is listed changes. -/
theorem c63_tie_counterexample :
    ∃ (dataset : DatasetMetadata) (ps : List ParserModel) (res res' : ParseResult),
      (∀ m ∈ ps, m.Reproducible ruleWorld "tea".toList) ∧
      ((Engine.ofParsers dataset demoKinds ps).parseWithAlternatives HashOrd.insertion "tea".toList none none 1 0).run
        ruleWorld = .ok res ∧
      ((Engine.ofParsers dataset demoKinds ps).parseWithAlternatives HashOrd.mergedReversed "tea".toList none none 1 0).run
        ruleWorld = .ok res' ∧
      res.alternatives.map (fun a => a.intent.name) = [some "halt".toList] ∧
      res'.alternatives.map (fun a => a.intent.name) = [some "idiom".toList] := by
  refine ⟨⟨[], []⟩, [.deterministic demoEnv tiedDet],
    ⟨"tea".toList, ⟨none, 1⟩, [], [⟨⟨some "halt".toList, 1 / 2⟩, []⟩]⟩,
    ⟨"tea".toList, ⟨none, 1⟩, [], [⟨⟨some "idiom".toList, 1 / 2⟩, []⟩]⟩, ?_, by decide +kernel, by decide +kernel, rfl, rfl⟩
  intro m hm
  rw [List.mem_singleton] at hm
  subst hm
  refine ⟨rfl, ⟨rfl, by decide⟩, by decide, smallMatches_of_length ?_⟩
  intro s hs bs cs hbs hcs
  simp only [ruleWorld, Outcome.ok.injEq] at hbs hcs
  subst hbs hcs
  revert s
  simp only [Rng.NonEmpty]
  decide +kernel

/-- The parsers of the examples meet the hypotheses. -/
theorem demo_reproducible : ∀ m ∈ [ParserModel.deterministic demoEnv demoDet, .lookup demoEnv demoLookup],
    m.Reproducible ruleWorld "make the two tea".toList := by
  intro m hm
  rcases List.mem_cons.1 hm with rfl | hm
  · refine ⟨rfl, demoDet_built, by decide, smallMatches_of_length ?_⟩
    intro s hs bs cs hbs hcs
    simp only [ruleWorld, Outcome.ok.injEq] at hbs hcs
    subst hbs hcs
    revert s
    simp only [Rng.NonEmpty]
    decide +kernel
  · rw [List.mem_singleton] at hm
    subst hm
    exact ⟨rfl, by decide⟩

/-- `c63_parse`, `c63_slots`, `c63_ranking`: an engine with two parsers, and a filter. -/
example :
    let e := Engine.ofParsers ⟨[("drink".toList, false)], [("brew".toList, []), ("idiom".toList, []), ("halt".toList, [])]⟩
      demoKinds [.deterministic demoEnv demoDet, .lookup demoEnv demoLookup]
    (e.parseWithAlternatives HashOrd.insertion "make the two tea".toList none (some ["idiom".toList]) 0 0).run ruleWorld
      = .ok ⟨"make the two tea".toList, ⟨some "brew".toList, 1⟩,
        [⟨"two".toList, .builtin 2, [], ⟨9, 12⟩, "snips/number".toList, "count".toList⟩], []⟩ ∧
    (e.getSlots HashOrd.insertion "make the two tea".toList "brew".toList).run ruleWorld
      = .ok [⟨"two".toList, .builtin 2, [], ⟨9, 12⟩, "snips/number".toList, "count".toList⟩] ∧
    (e.getIntents HashOrd.insertion "make the two tea".toList).run ruleWorld
      = .ok [⟨some "idiom".toList, 3 / 4⟩, ⟨some "brew".toList, 1 / 3⟩, ⟨some "halt".toList, 0⟩, ⟨none, 0⟩] := by
  decide +kernel

/-- `c63_alternatives`: with one alternative the two intents of score 0 do not compete. -/
example :
    let e := Engine.ofParsers ⟨[("drink".toList, false)], []⟩ demoKinds
      [.deterministic demoEnv demoDet, .lookup demoEnv demoLookup]
    ∃ ranked, (e.getIntents (HashOrd.insertion.sub 2) "make the two tea".toList).run ruleWorld = .ok ranked ∧
      (∀ a ∈ ranked, ∀ b ∈ ranked, a ≠ b → a.score = b.score →
        e.Passes none none a → e.Passes none none b →
        ∃ better : List IntentResult, better.Nodup ∧ 1 < better.length ∧ ∀ r ∈ better, r ∈ ranked ∧
          e.Passes none none r ∧ a.score < r.score) := by
  have hall : ∀ (e : Engine) r, e.Passes none none r := fun e r n _ =>
    ⟨⟨fun _ h => (by cases h), fun _ h => (by cases h)⟩, fun h => absurd ⟨rfl, rfl⟩ h⟩
  refine ⟨[⟨some "idiom".toList, 3 / 4⟩, ⟨some "brew".toList, 1 / 3⟩, ⟨some "halt".toList, 0⟩, ⟨none, 0⟩],
    by decide +kernel, ?_⟩
  intro a ha b hb hab hs _ _
  refine ⟨[⟨some "idiom".toList, 3 / 4⟩, ⟨some "brew".toList, 1 / 3⟩], by decide, by decide, fun r hr => ⟨?_, hall _ r, ?_⟩⟩
  · rcases List.mem_cons.1 hr with rfl | hr
    · simp
    · simp [List.mem_singleton.1 hr]
  · have h0 : a.score = 0 := by
      simp only [List.mem_cons, List.not_mem_nil, or_false] at ha hb
      rcases ha with rfl | rfl | rfl | rfl <;> rcases hb with rfl | rfl | rfl | rfl <;>
        first | rfl | (exact absurd rfl hab) | (norm_num at hs)
    rw [h0]
    simp only [List.mem_cons, List.not_mem_nil, or_false] at hr
    rcases hr with rfl | rfl <;> norm_num

end Snips
