import Verif.Spec.ParserList
import Verif.Props.C63_Reproducible

/-! C115: parsers that recognise nothing may be left out; the order of the parsers matters only between parsers that recognise
something. -/

namespace Snips

namespace ParserList

variable {e : Engine} {w : World} {input : Text} {whitelist blacklist eff eff' : Option (List Text)}

theorem cascade_head {p : ParserImpl} {ps : List ParserImpl} {r : InternalResult} {o : HashOrd} {ns i : Nat} {s : ℚ}
    (h : (p.parse (o.sub i) input eff).run w = .ok r) :
    (e.cascade o input eff ns i (p :: ps) s).run w =
      match r.intent.name with
      | some _ => ((e.resolveSlots input r.slots ns).run w).map fun slots => ⟨input, r.intent, slots, []⟩
      | none => (e.cascade o input eff ns (i + 1) ps r.intent.score).run w := by
  conv_lhs => unfold Engine.cascade
  rw [Prog.bind_eq, Prog.run_bind, h]
  show Prog.run w _ = _
  cases r.intent.name with
  | none => rfl
  | some n =>
    simp only
    rw [Prog.bind_eq, Prog.run_bind]
    cases (e.resolveSlots input r.slots ns).run w <;> rfl

theorem cascade_without {ps ps' : List ParserImpl} (h : Without (e.Idle w input whitelist blacklist) ps ps')
    (hall : ∀ p ∈ ps, ∃ r, e.Says w input whitelist blacklist p r)
    (hsome : ∃ p ∈ ps, ∃ r, e.Says w input whitelist blacklist p r ∧ r.intent.name ≠ none)
    (heff : e.IsFilterFor whitelist blacklist eff) (heff' : e.IsFilterFor whitelist blacklist eff') (o o' : HashOrd)
    (ns i i' : Nat) (s s' : ℚ) :
    (e.cascade o input eff ns i ps s).run w = (e.cascade o' input eff' ns i' ps' s').run w := by
  induction h generalizing i i' s s' with
  | nil =>
    obtain ⟨p, hp, _⟩ := hsome
    cases hp
  | @keep p ps ps' hw ih =>
    obtain ⟨r, hr⟩ := hall p (by simp)
    rw [cascade_head (hr _ _ heff), cascade_head (hr _ _ heff')]
    cases hn : r.intent.name with
    | some n => rfl
    | none =>
      refine ih (fun q hq => hall q (by simp [hq])) ?_ _ _ _ _
      obtain ⟨q, hq, r', hr', hn'⟩ := hsome
      rcases List.mem_cons.1 hq with rfl | hq
      · have h1 := (hr o eff heff).symm.trans (hr' o eff heff)
        cases h1
        exact absurd hn hn'
      · exact ⟨q, hq, r', hr', hn'⟩
  | @drop p ps ps' hidle hw ih =>
    obtain ⟨r, hr, hn⟩ := hidle
    rw [cascade_head (hr _ _ heff), hn]
    refine ih (fun q hq => hall q (by simp [hq])) ?_ _ _ _ _
    obtain ⟨q, hq, r', hr', hn'⟩ := hsome
    rcases List.mem_cons.1 hq with rfl | hq
    · have h1 := (hr o eff heff).symm.trans (hr' o eff heff)
      cases h1
      exact absurd hn hn'
    · exact ⟨q, hq, r', hr', hn'⟩

theorem resolve_withParsers (qs : List ParserImpl) : (e.withParsers qs).resolveSlots = e.resolveSlots := by
  have h : ∀ n bs cs slots, (e.withParsers qs).resolveEach n bs cs slots = e.resolveEach n bs cs slots := by
    intro n bs cs slots
    induction slots with
    | nil => rfl
    | cons s slots ih =>
      unfold Engine.resolveEach
      rw [ih]
      rfl
  funext text slots n
  unfold Engine.resolveSlots
  simp only [h]
  rfl

theorem cascade_withParsers (qs ps : List ParserImpl) (o : HashOrd) (ns i : Nat) (s : ℚ) :
    (e.withParsers qs).cascade o input eff ns i ps s = e.cascade o input eff ns i ps s := by
  induction ps generalizing i s with
  | nil => rfl
  | cons p ps ih =>
    unfold Engine.cascade
    congr 1
    funext r
    cases r.intent.name with
    | some n => simp only [resolve_withParsers]
    | none => exact ih _ _

theorem without_only {idle : ParserImpl → Prop} (post : List ParserImpl) (hpost : ∀ q ∈ post, idle q) : Without idle post [] := by
  induction post with
  | nil => exact .nil
  | cons q post ih => exact .drop (hpost q (by simp)) (ih fun x hx => hpost x (by simp [hx]))

theorem without_one {idle : ParserImpl → Prop} (pre post : List ParserImpl) (p : ParserImpl) (hpre : ∀ q ∈ pre, idle q)
    (hpost : ∀ q ∈ post, idle q) : Without idle (pre ++ p :: post) [p] := by
  induction pre with
  | nil => exact .keep (without_only post hpost)
  | cons q pre ih => exact .drop (hpre q (by simp)) (ih fun x hx => hpre x (by simp [hx]))

theorem slots_head {p : ParserImpl} {ps : List ParserImpl} {slots : List InternalSlot} {intent : Text} {o : HashOrd}
    {ns i : Nat} (h : (p.getSlots (o.sub i) input intent).run w = .ok slots) :
    (e.slotsCascade o input intent ns i (p :: ps)).run w =
      if slots.isEmpty then (e.slotsCascade o input intent ns (i + 1) ps).run w
      else (e.resolveSlots input slots ns).run w := by
  conv_lhs => unfold Engine.slotsCascade
  rw [Prog.bind_eq, Prog.run_bind, h]
  show Prog.run w _ = _
  split <;> rfl

theorem slots_without {ps ps' : List ParserImpl} {intent : Text} (h : Without (fun p => p.Finds w input intent []) ps ps')
    (hall : ∀ p ∈ ps, ∃ slots, p.Finds w input intent slots) (o o' : HashOrd) (ns i i' : Nat) :
    (e.slotsCascade o input intent ns i ps).run w = (e.slotsCascade o' input intent ns i' ps').run w := by
  induction h generalizing i i' with
  | nil => rfl
  | @keep p ps ps' hw ih =>
    obtain ⟨slots, hs⟩ := hall p (by simp)
    rw [slots_head (hs _), slots_head (hs _), ih (fun q hq => hall q (by simp [hq]))]
  | @drop p ps ps' hidle hw ih =>
    rw [slots_head (hidle _)]
    exact ih (fun q hq => hall q (by simp [hq])) _ _

theorem slots_withParsers (qs ps : List ParserImpl) (intent : Text) (o : HashOrd) (ns i : Nat) :
    (e.withParsers qs).slotsCascade o input intent ns i ps = e.slotsCascade o input intent ns i ps := by
  induction ps generalizing i with
  | nil => rfl
  | cons p ps ih =>
    unfold Engine.slotsCascade
    congr 1
    funext slots
    split
    · exact ih _
    · rw [resolve_withParsers]

theorem collect_ok {ps : List ParserImpl} (h : ∀ p ∈ ps, ∃ rs, p.Ranks w input rs) (o : HashOrd) (i : Nat)
    (m : Map (Option Text) IntentResult) : ∃ out, (Engine.collectIntents o input i ps m).run w = .ok out := by
  induction ps generalizing i m with
  | nil => exact ⟨m, rfl⟩
  | cons p ps ih =>
    obtain ⟨rs, _, hrs⟩ := h p (by simp)
    obtain ⟨rs', hr, _⟩ := hrs (o.sub i)
    unfold Engine.collectIntents
    obtain ⟨out, ho⟩ := ih (fun q hq => h q (by simp [hq])) (i + 1) (Engine.mergeIntents m rs')
    exact ⟨out, by rw [Prog.run_bind_ok]; exact ⟨rs', hr, ho⟩⟩

/-- One direction of `c115_ranking`. -/
theorem ranking_subset {ps ps' : List ParserImpl} (names : List (Option Text))
    (hrank : ∀ p ∈ ps, ∃ rs, p.Ranks w input rs ∧ (rs.map IntentResult.name).Perm names) (hsame : ∀ p, p ∈ ps ↔ p ∈ ps')
    {o o' : HashOrd} {out out' : List IntentResult} (h : ((e.withParsers ps).getIntents o input).run w = .ok out)
    (h' : ((e.withParsers ps').getIntents o' input).run w = .ok out') : ∀ r ∈ out, r ∈ out' := by
  have hrank' : ∀ p ∈ ps', ∃ rs, p.Ranks w input rs ∧ (rs.map IntentResult.name).Perm names :=
    fun p hp => hrank p ((hsame p).2 hp)
  have once : ∀ {qs : List ParserImpl} {o : HashOrd}, (∀ p ∈ qs, ∃ rs, p.Ranks w input rs ∧
      (rs.map IntentResult.name).Perm names) → ∀ i rs, (e.withParsers qs).parserRanking o w input i = some (.ok rs) →
      (rs.map IntentResult.name).Nodup ∧ (rs.map IntentResult.name).Perm names := by
    intro qs o hq i rs hi
    unfold Engine.parserRanking at hi
    rw [Option.map_eq_some_iff] at hi
    obtain ⟨p, hp, hi⟩ := hi
    obtain ⟨rs0, ⟨hn, hr⟩, hnm⟩ := hq p (List.mem_of_getElem? hp)
    obtain ⟨rs', h1, h2⟩ := hr (o.sub i)
    rw [h1, Outcome.ok.injEq] at hi
    subst hi
    exact ⟨(h2.map _).nodup_iff.2 hn, (h2.map _).trans hnm⟩
  obtain ⟨hmax, _⟩ := c08_maximum _ o w input out h fun i rs hi => (once hrank i rs hi).1
  obtain ⟨hmax', hpres'⟩ := c08_maximum _ o' w input out' h' fun i rs hi => (once hrank' i rs hi).1
  -- an entry of any parser of one engine is an entry of the same parser of the other
  have move : ∀ {qs qs' : List ParserImpl} {o o' : HashOrd}, (∀ p ∈ qs, ∃ rs, p.Ranks w input rs ∧
      (rs.map IntentResult.name).Perm names) → (∀ p, p ∈ qs → p ∈ qs') → ∀ i rs,
      (e.withParsers qs).parserRanking o w input i = some (.ok rs) → ∀ r ∈ rs,
      ∃ i' rs', (e.withParsers qs').parserRanking o' w input i' = some (.ok rs') ∧ r ∈ rs' := by
    intro qs qs' o o' hq hss i rs hi r hr
    unfold Engine.parserRanking at hi
    rw [Option.map_eq_some_iff] at hi
    obtain ⟨p, hp, hi⟩ := hi
    obtain ⟨rs0, ⟨_, hrk⟩, _⟩ := hq p (List.mem_of_getElem? hp)
    obtain ⟨rs1, h1, h2⟩ := hrk (o.sub i)
    rw [h1, Outcome.ok.injEq] at hi
    subst hi
    obtain ⟨i', hi'⟩ := List.getElem?_of_mem (hss p (List.mem_of_getElem? hp))
    obtain ⟨rs2, h3, h4⟩ := hrk (o'.sub i')
    refine ⟨i', rs2, ?_, h4.mem_iff.2 (h2.mem_iff.1 hr)⟩
    unfold Engine.parserRanking
    rw [show (e.withParsers qs').parsers = qs' from rfl, hi', Option.map_some, h3]
  intro r hr
  obtain ⟨⟨i, rs, hi, hri⟩, hle⟩ := hmax r hr
  obtain ⟨i', rs', hi', hri'⟩ := move (o' := o'.sub 0) hrank (fun p hp => (hsame p).1 hp) i rs hi r hri
  -- the first parser of the other engine ranks the same intent
  have hname : r.name ∈ names := (once hrank i rs hi).2.mem_iff.1 (List.mem_map.2 ⟨r, hri, rfl⟩)
  obtain ⟨r', hr', hrn⟩ : ∃ r' ∈ out', r'.name = r.name := by
    cases hps : ps' with
    | nil =>
      unfold Engine.parserRanking at hi'
      rw [show (e.withParsers ps').parsers = ps' from rfl, hps] at hi'
      cases hi'
    | cons p0 tl =>
      obtain ⟨rs0, ⟨_, hrk⟩, hnm⟩ := hrank' p0 (by rw [hps]; simp)
      obtain ⟨rs1, h1, h2⟩ := hrk ((o'.sub 0).sub 0)
      have h0 : (e.withParsers ps').parserRanking (o'.sub 0) w input 0 = some (.ok rs1) := by
        unfold Engine.parserRanking
        rw [show (e.withParsers ps').parsers = ps' from rfl, hps]
        simp [h1]
      obtain ⟨r0, hr0, hr0n⟩ := List.mem_map.1 (((h2.map _).trans hnm).mem_iff.2 hname)
      obtain ⟨r', h3, h4⟩ := hpres' 0 rs1 h0 r0 hr0 (Or.inr fun j hj => absurd hj (Nat.not_lt_zero j))
      exact ⟨r', h3, h4.trans hr0n⟩
  obtain ⟨⟨k', rsk', hk', hrk'⟩, hle'⟩ := hmax' r' hr'
  obtain ⟨k, rsk, hk, hrk⟩ := move (o' := o.sub 0) hrank' (fun p hp => (hsame p).2 hp) k' rsk' hk' r' hrk'
  have h1 : r'.score ≤ r.score := hle k rsk hk r' hrk hrn
  have h2 : r.score ≤ r'.score := hle' i' rs' hi' r hri' hrn.symm
  have : r' = r := by
    cases r
    cases r'
    simp only at hrn h1 h2
    rw [hrn, le_antisymm h1 h2]
  exact this ▸ hr'

end ParserList

/-- Leaving out parsers that recognise nothing in a query does not change the answer to it, when another parser recognises an
intent; whatever the iteration orders. -/
theorem c115_idle (e : Engine) (w : World) (input : Text) (whitelist blacklist : Option (List Text)) (ns : Nat)
    (o o' : HashOrd) (ps ps' : List ParserImpl) (h : Without (e.Idle w input whitelist blacklist) ps ps')
    (hall : ∀ p ∈ ps, ∃ r, e.Says w input whitelist blacklist p r)
    (hsome : ∃ p ∈ ps, ∃ r, e.Says w input whitelist blacklist p r ∧ r.intent.name ≠ none)
    (hknown : e.FilterKnown whitelist blacklist) :
    ((e.withParsers ps).parseWithAlternatives o input whitelist blacklist 0 ns).run w
      = ((e.withParsers ps').parseWithAlternatives o' input whitelist blacklist 0 ns).run w := by
  obtain ⟨eff, h1, h2⟩ := getIntentsWhitelist_known (e.withParsers ps) (o.sub 0) whitelist blacklist hknown
  obtain ⟨eff', h1', h2'⟩ := getIntentsWhitelist_known (e.withParsers ps') (o'.sub 0) whitelist blacklist hknown
  unfold Engine.parseWithAlternatives
  rw [Prog.bind_eq, Prog.run_bind, Prog.run_ofOutcome, h1, Prog.bind_eq, Prog.run_bind, Prog.run_ofOutcome, h1']
  show Prog.run w (Prog.bind _ _) = Prog.run w (Prog.bind _ _)
  rw [Prog.run_bind, Prog.run_bind, ParserList.cascade_withParsers, ParserList.cascade_withParsers]
  have := ParserList.cascade_without h hall hsome (eff := eff) (eff' := eff') h2 h2' (o.sub 1) (o'.sub 1) ns 0 0 0 0
  show (((e.cascade (o.sub 1) input eff ns 0 ps 0).run w).bind _) = (((e.cascade (o'.sub 1) input eff' ns 0 ps' 0).run w).bind _)
  rw [this]
  rfl

/-- If exactly one parser recognises something in a query, the engine answers as if it had no other parser. -/
theorem c115_alone (e : Engine) (w : World) (input : Text) (whitelist blacklist : Option (List Text)) (ns : Nat)
    (o o' : HashOrd) (pre post : List ParserImpl) (p : ParserImpl) (r : InternalResult)
    (hp : e.Says w input whitelist blacklist p r) (hr : r.intent.name ≠ none)
    (hothers : ∀ q ∈ pre ++ post, e.Idle w input whitelist blacklist q) (hknown : e.FilterKnown whitelist blacklist) :
    ((e.withParsers (pre ++ p :: post)).parseWithAlternatives o input whitelist blacklist 0 ns).run w
      = ((e.withParsers [p]).parseWithAlternatives o' input whitelist blacklist 0 ns).run w := by
  refine c115_idle e w input whitelist blacklist ns o o' _ _ (ParserList.without_one pre post p
    (fun q hq => hothers q (by simp [hq])) fun q hq => hothers q (by simp [hq])) ?_ ⟨p, by simp, r, hp, hr⟩ hknown
  intro q hq
  rw [List.mem_append, List.mem_cons] at hq
  rcases hq with hq | rfl | hq
  · obtain ⟨r', h, _⟩ := hothers q (by simp [hq])
    exact ⟨r', h⟩
  · exact ⟨r, hp⟩
  · obtain ⟨r', h, _⟩ := hothers q (by simp [hq])
    exact ⟨r', h⟩

/-- In that case the order of the parsers does not matter. -/
theorem c115_order (e : Engine) (w : World) (input : Text) (whitelist blacklist : Option (List Text)) (ns : Nat)
    (o o' : HashOrd) (pre post ps' : List ParserImpl) (p : ParserImpl) (r : InternalResult)
    (hp : e.Says w input whitelist blacklist p r) (hr : r.intent.name ≠ none)
    (hothers : ∀ q ∈ pre ++ post, e.Idle w input whitelist blacklist q) (hperm : (pre ++ p :: post).Perm ps')
    (hknown : e.FilterKnown whitelist blacklist) :
    ((e.withParsers (pre ++ p :: post)).parseWithAlternatives o input whitelist blacklist 0 ns).run w
      = ((e.withParsers ps').parseWithAlternatives o' input whitelist blacklist 0 ns).run w := by
  obtain ⟨pre', post', rfl⟩ := List.append_of_mem (hperm.mem_iff.1 (by simp : p ∈ pre ++ p :: post))
  have hp' : (pre ++ post).Perm (pre' ++ post') :=
    (List.perm_middle.symm.trans (hperm.trans List.perm_middle)).cons_inv
  rw [c115_alone e w input whitelist blacklist ns o o pre post p r hp hr hothers hknown,
    c115_alone e w input whitelist blacklist ns o' o pre' post' p r hp hr (fun q hq => hothers q (hp'.mem_iff.2 hq)) hknown]

/-- Parsers that find no slots for an intent may be left out as far as `get_slots` is concerned. -/
theorem c115_slots (e : Engine) (w : World) (input intent : Text) (ns : Nat) (o o' : HashOrd) (ps ps' : List ParserImpl)
    (h : Without (fun p => p.Finds w input intent []) ps ps') (hall : ∀ p ∈ ps, ∃ slots, p.Finds w input intent slots) :
    ((e.withParsers ps).getSlotsWithAlternatives o input intent ns).run w
      = ((e.withParsers ps').getSlotsWithAlternatives o' input intent ns).run w := by
  unfold Engine.getSlotsWithAlternatives
  rw [ParserList.slots_withParsers, ParserList.slots_withParsers]
  exact ParserList.slots_without h hall o o' ns 0 0

/-- The ranking of the intents depends neither on the order of the parsers nor on how often each is listed, if all rank the
same intents: it has the same entries, and these in the same order unless scores are equal. -/
theorem c115_ranking (e : Engine) (w : World) (input : Text) (o o' : HashOrd) (ps ps' : List ParserImpl)
    (names : List (Option Text)) (hrank : ∀ p ∈ ps, ∃ rs, p.Ranks w input rs ∧ (rs.map IntentResult.name).Perm names)
    (hsame : ∀ p, p ∈ ps ↔ p ∈ ps') :
    ∃ out out', ((e.withParsers ps).getIntents o input).run w = .ok out ∧
      ((e.withParsers ps').getIntents o' input).run w = .ok out' ∧ out'.Perm out ∧
      ((out.map IntentResult.score).Nodup → out' = out) := by
  have hrank' : ∀ p ∈ ps', ∃ rs, p.Ranks w input rs ∧ (rs.map IntentResult.name).Perm names :=
    fun p hp => hrank p ((hsame p).2 hp)
  have total : ∀ (qs : List ParserImpl) (o : HashOrd), (∀ p ∈ qs, ∃ rs, p.Ranks w input rs ∧
      (rs.map IntentResult.name).Perm names) → ∃ out, ((e.withParsers qs).getIntents o input).run w = .ok out := by
    intro qs o hq
    obtain ⟨m, hm⟩ := ParserList.collect_ok (fun p hp => by obtain ⟨rs, h, _⟩ := hq p hp; exact ⟨rs, h⟩) (o.sub 0) 0 []
    unfold Engine.getIntents
    exact ⟨_, by rw [Prog.run_bind_ok]; exact ⟨m, hm, rfl⟩⟩
  obtain ⟨out, h⟩ := total ps o hrank
  obtain ⟨out', h'⟩ := total ps' o' hrank'
  obtain ⟨hn, hs, _⟩ := c08_sorted_nodup _ o w input out h
  obtain ⟨hn', hs', _⟩ := c08_sorted_nodup _ o' w input out' h'
  have hperm : out'.Perm out := by
    refine (List.perm_ext_iff_of_nodup hn'.of_map hn.of_map).2 fun r => ⟨?_, ?_⟩
    · exact ParserList.ranking_subset names hrank' (fun p => (hsame p).symm) h' h r
    · exact ParserList.ranking_subset names hrank hsame h h' r
  exact ⟨out, out', h, h', hperm, fun hd => sorted_perm_eq hperm hs hs' hd⟩

theorem ParserList.sameFilter {e : Engine} {whitelist blacklist f f' : Option (List Text)}
    (h : e.IsFilterFor whitelist blacklist f) (h' : e.IsFilterFor whitelist blacklist f') : SameFilter f f' := by
  cases f with
  | none =>
    cases f' with
    | none => trivial
    | some l' => exact absurd h h'.1
  | some l =>
    cases f' with
    | none => exact absurd h' h.1
    | some l' => exact fun i => (h.2 i).trans (h'.2 i).symm

/-- The three kinds of parsers give the answer they give under one iteration order under all of them (C63), so that the
theorems above speak of every answer they can give. -/
theorem c115_says (e : Engine) (w : World) (input : Text) (whitelist blacklist filter : Option (List Text)) (m : ParserModel)
    (hm : m.Reproducible w input) (hf : e.IsFilterFor whitelist blacklist filter) (o : HashOrd) :
    (∀ r, (m.impl.parse o input filter).run w = .ok r → e.Says w input whitelist blacklist m.impl r) ∧
    (∀ intent slots, (m.impl.getSlots o input intent).run w = .ok slots → m.impl.Finds w input intent slots) ∧
    (∀ rs, (m.impl.getIntents o input).run w = .ok rs → (rs.map IntentResult.name).Nodup → m.impl.Ranks w input rs) := by
  have h := ParserModel.order_free hm
  refine ⟨fun r hr o' f' hf' => h.parse o o' filter f' r (ParserList.sameFilter hf hf') hr,
    fun intent slots hs o' => h.slots o o' intent slots hs, fun rs hrs hn => ⟨hn, fun o' => ?_⟩⟩
  obtain ⟨rs', h1, h2⟩ := h.ranking o o' rs hrs
  refine ⟨rs', h1, ?_⟩
  classical
  rw [List.perm_iff_count]
  intro a
  have hc : ∀ l : List IntentResult, l.count a = (l.filter fun r => decide (a.name = r.name)).count a := by
    intro l
    rw [List.count_filter]
    simp
  rw [hc, hc rs, h2 a.name]

/-- A sentence that one of two parsers recognises: the hypotheses are met by the parsers of the examples. -/
example :
    let det := (ParserModel.deterministic demoEnv demoDet).impl
    let lookup := (ParserModel.lookup demoEnv demoLookup).impl
    let e := Engine.ofParsers ⟨[("drink".toList, false)], [("brew".toList, []), ("idiom".toList, []), ("halt".toList, [])]⟩
      demoKinds []
    let input := "please stop it now".toList
    e.Says ruleWorld input none none det ⟨⟨some "halt".toList, 1⟩, []⟩ ∧ e.Idle ruleWorld input none none lookup ∧
    e.FilterKnown none none ∧
    (∃ rs rs', det.Ranks ruleWorld input rs ∧ lookup.Ranks ruleWorld input rs' ∧
      (rs.map IntentResult.name).Perm (rs'.map IntentResult.name)) ∧
    ((e.withParsers [lookup, det]).parseWithAlternatives HashOrd.insertion input none none 0 0).run ruleWorld
      = .ok ⟨input, ⟨some "halt".toList, 1⟩, [], []⟩ := by
  intro det lookup e input
  have hdet : (ParserModel.deterministic demoEnv demoDet).Reproducible ruleWorld input := by
    refine ⟨rfl, demoDet_built, by decide, smallMatches_of_length ?_⟩
    intro s hs bs cs hbs hcs
    simp only [ruleWorld, Outcome.ok.injEq] at hbs hcs
    subst hbs hcs
    revert s
    simp only [Rng.NonEmpty]
    decide +kernel
  have hlook : (ParserModel.lookup demoEnv demoLookup).Reproducible ruleWorld input := ⟨rfl, by decide⟩
  refine ⟨(c115_says e ruleWorld input none none none _ hdet ⟨rfl, rfl⟩ HashOrd.insertion).1 _ (by decide +kernel),
    ⟨⟨⟨none, 1⟩, []⟩, (c115_says e ruleWorld input none none none _ hlook ⟨rfl, rfl⟩ HashOrd.insertion).1 _ (by decide +kernel),
      rfl⟩, ?_, ⟨[⟨some "halt".toList, 1⟩, ⟨some "brew".toList, 0⟩, ⟨some "idiom".toList, 0⟩, ⟨none, 0⟩],
      [⟨some "brew".toList, 0⟩, ⟨some "idiom".toList, 0⟩, ⟨some "halt".toList, 0⟩, ⟨none, 0⟩],
      (c115_says e ruleWorld input none none none _ hdet ⟨rfl, rfl⟩ HashOrd.insertion).2.2 _ (by decide +kernel) (by decide),
      (c115_says e ruleWorld input none none none _ hlook ⟨rfl, rfl⟩ HashOrd.insertion).2.2 _ (by decide +kernel) (by decide),
      by decide⟩, by decide +kernel⟩
  rintro i (h | h) <;> cases h

/-- When no parser recognises an intent, leaving one out can change the confidence: it is that of the last parser. -/
theorem c115_none_score (e : Engine) (w : World) (input : Text) :
    ∃ p q : ParserImpl, e.Idle w input none none p ∧ e.Idle w input none none q ∧
      (∃ res, ((e.withParsers [p, q]).parse HashOrd.insertion input none none).run w = .ok res ∧ res.intent.score = 1) ∧
      ∃ res, ((e.withParsers [p]).parse HashOrd.insertion input none none).run w = .ok res ∧ res.intent.score = 1 / 2 := by
  refine ⟨⟨fun _ _ _ => .ret ⟨⟨none, 1 / 2⟩, []⟩, fun _ _ => .ret [], fun _ _ _ => .ret []⟩,
    ⟨fun _ _ _ => .ret ⟨⟨none, 1⟩, []⟩, fun _ _ => .ret [], fun _ _ _ => .ret []⟩, ⟨_, fun _ _ _ => rfl, rfl⟩,
    ⟨_, fun _ _ _ => rfl, rfl⟩, ⟨_, rfl, rfl⟩, ⟨_, rfl, rfl⟩⟩

end Snips
