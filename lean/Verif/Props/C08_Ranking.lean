import Verif.Proofs.Merge
import Verif.Props.C05_Alternatives

/-! # C08: the intent ranking is a correct merge -/

namespace Snips

/-- `get_intents` lists each intent name at most once (the absent intent included), by non-increasing
score, and every entry is one of the parsers' entries.  No assumption on the parsers. -/
theorem c08_sorted_nodup (e : Engine) (o : HashOrd) (w : World) (input : Text) (out : List IntentResult)
    (h : (e.getIntents o input).run w = .ok out) :
    (out.map IntentResult.name).Nodup ∧ out.Pairwise (fun a b => b.score ≤ a.score) ∧
    ∀ r ∈ out, ∃ i rs, e.parserRanking (o.sub 0) w input i = some (.ok rs) ∧ r ∈ rs := by
  obtain ⟨A, _, hA, rfl⟩ := Engine.getIntents_run h
  obtain ⟨hn, hv⟩ := Engine.Merges₀.all (A := A) (m := []) (L := [])
    ⟨by simp [Map.keys], fun k v hv => by cases hv⟩
  have hmem : ∀ r, r ∈ sortDesc IntentResult.score ((o.order 0 (A.foldl Engine.mergeIntents [])).map Prod.snd)
      ↔ ∃ k, (k, r) ∈ A.foldl Engine.mergeIntents [] := by
    intro r
    rw [mem_sortDesc, List.mem_map]
    constructor
    · rintro ⟨⟨k, v⟩, h1, rfl⟩; exact ⟨k, (o.perm 0 _).mem_iff.1 h1⟩
    · rintro ⟨k, h1⟩; exact ⟨(k, r), (o.perm 0 _).mem_iff.2 h1, rfl⟩
  refine ⟨?_, sortDesc_pairwise _ _, ?_⟩
  · have hp : (sortDesc IntentResult.score
        ((o.order 0 (A.foldl Engine.mergeIntents [])).map Prod.snd)).Perm
        ((A.foldl Engine.mergeIntents []).map Prod.snd) :=
      (sortDesc_perm _ _).trans ((o.perm 0 _).map _)
    rw [(hp.map _).nodup_iff, List.map_map]
    have : (A.foldl Engine.mergeIntents []).map (IntentResult.name ∘ Prod.snd)
        = (A.foldl Engine.mergeIntents []).map Prod.fst := by
      apply List.map_congr_left
      rintro ⟨k, v⟩ hkv
      exact (hv k v (Map.get_of_mem hn hkv)).1
    rw [this]
    exact hn
  · intro r hr
    obtain ⟨k, hk⟩ := (hmem r).1 hr
    have := (hv k r (Map.get_of_mem hn hk)).2
    rw [List.nil_append, List.mem_flatten] at this
    obtain ⟨rs, h1, h2⟩ := this
    obtain ⟨i, hi⟩ := List.getElem?_of_mem h1
    exact ⟨i, rs, (hA i rs).1 hi, h2⟩

/-- When each parser ranks an intent at most once, the score of an entry is the maximum of the scores any
parser gives to that intent, and an intent is listed when the first parser with a non-empty answer ranks
it or any parser gives it a positive score. -/
theorem c08_maximum (e : Engine) (o : HashOrd) (w : World) (input : Text) (out : List IntentResult)
    (h : (e.getIntents o input).run w = .ok out)
    (honce : ∀ i rs, e.parserRanking (o.sub 0) w input i = some (.ok rs) →
      (rs.map IntentResult.name).Nodup) :
    (∀ r ∈ out, (∃ i rs, e.parserRanking (o.sub 0) w input i = some (.ok rs) ∧ r ∈ rs) ∧
      ∀ i rs, e.parserRanking (o.sub 0) w input i = some (.ok rs) →
        ∀ r' ∈ rs, r'.name = r.name → r'.score ≤ r.score) ∧
    (∀ i rs, e.parserRanking (o.sub 0) w input i = some (.ok rs) → ∀ r ∈ rs,
      (0 < r.score ∨ ∀ j < i, e.parserRanking (o.sub 0) w input j = some (.ok [])) →
      ∃ r' ∈ out, r'.name = r.name) := by
  have horigin := (c08_sorted_nodup e o w input out h).2.2
  obtain ⟨A, _, hA, rfl⟩ := Engine.getIntents_run h
  have hM := Engine.Merges.nil.all (A := A) (fun rs hrs => by
    obtain ⟨i, hi⟩ := List.getElem?_of_mem hrs
    exact honce i rs ((hA i rs).1 hi))
  rw [List.nil_append] at hM
  have hmem : ∀ r, r ∈ sortDesc IntentResult.score ((o.order 0 (A.foldl Engine.mergeIntents [])).map Prod.snd)
      ↔ ∃ k, (k, r) ∈ A.foldl Engine.mergeIntents [] := by
    intro r
    rw [mem_sortDesc, List.mem_map]
    constructor
    · rintro ⟨⟨k, v⟩, h1, rfl⟩; exact ⟨k, (o.perm 0 _).mem_iff.1 h1⟩
    · rintro ⟨k, h1⟩; exact ⟨(k, r), (o.perm 0 _).mem_iff.2 h1, rfl⟩
  have hflat : ∀ i rs, e.parserRanking (o.sub 0) w input i = some (.ok rs) → ∀ r ∈ rs, r ∈ A.flatten := by
    intro i rs hi r hr
    exact List.mem_flatten.2 ⟨rs, List.mem_of_getElem? ((hA i rs).2 hi), hr⟩
  refine ⟨fun r hr => ⟨horigin r hr, ?_⟩, ?_⟩
  · intro i rs hi r' hr' hname
    obtain ⟨k, hk⟩ := (hmem r).1 hr
    have hg := Map.get_of_mem hM.nodup hk
    exact hM.top k r hg r' (hflat i rs hi r' hr') (hname.trans (hM.val k r hg).1)
  · intro i rs hi r hr hcond
    have hkey : r.name ∈ (A.foldl Engine.mergeIntents []).keys := by
      rcases hcond with hpos | hfirst
      · by_contra hc
        exact absurd (hM.absent r (hflat i rs hi r hr) (Map.get_none_iff.2 hc)) (not_le.2 hpos)
      · exact Engine.first_present A i rs ((hA i rs).2 hi) (fun j hj => (hA j []).2 (hfirst j hj)) r hr
    obtain ⟨v, hv⟩ := Map.get_isSome_iff.2 hkey
    exact ⟨v, (hmem v).2 ⟨_, Map.get_some_mem hv⟩, (hM.val _ _ hv).1⟩

/-! Non-vacuity: two parsers with different rankings of two intents. -/

/-- A parser that prefers `b` over `a`. -/
def oppositeParser : ParserImpl :=
  ⟨fun _ _ _ => .ret ⟨⟨some ['b'], 1 / 2⟩, []⟩,
   fun _ _ => .ret [⟨some ['b'], 1 / 2⟩, ⟨some ['a'], 1 / 4⟩, ⟨some ['c'], 0⟩],
   fun _ _ _ => .ret []⟩

example :
    let e : Engine := { filterDemo with parsers := [rankingParser, oppositeParser] }
    (∀ i rs, e.parserRanking (HashOrd.insertion.sub 0) noEntities ['x'] i = some (.ok rs) →
      (rs.map IntentResult.name).Nodup) ∧
    (e.getIntents HashOrd.insertion ['x']).run noEntities
      = .ok [⟨some ['a'], 2 / 3⟩, ⟨some ['b'], 1 / 2⟩, ⟨none, 0⟩] := by
  refine ⟨?_, by decide +kernel⟩
  intro i rs hi
  match i, hi with
  | 0, hi =>
    have : [⟨some ['a'], 2 / 3⟩, ⟨some ['b'], 1 / 3⟩, ⟨none, 0⟩] = rs := by
      injection hi with hi; injection hi
    subst this; decide
  | 1, hi =>
    have : [⟨some ['b'], 1 / 2⟩, ⟨some ['a'], 1 / 4⟩, ⟨some ['c'], 0⟩] = rs := by
      injection hi with hi; injection hi
    subst this; decide
  | n + 2, hi => cases hi

end Snips
