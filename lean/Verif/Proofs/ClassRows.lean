import Verif.Spec.ClassRows
import Verif.Props.C40_Classifier

/-! Helpers for C113. -/

namespace Snips

namespace Rows

/-- The score of a class. -/
def score (ops : FloatOps ℚ) (features : List ℚ) (r : ClassRow) : ℚ :=
  logit ops (ops.dot (ops.one :: features) (r.intercept :: r.weights))

def entry (ops : FloatOps ℚ) (features : List ℚ) (r : ClassRow) : IntentResult := ⟨r.name, score ops features r⟩

theorem columns {rows : List ClassRow} {n : Nat} {m : LogReg ℚ}
    (h : LogReg.new (rows.map ClassRow.intercept) (rows.map ClassRow.weights) = .ok m)
    (hn : ∀ r ∈ rows, r.weights.length = n) :
    m.nbFeatures = n ∧ m.columns = rows.map fun r => r.intercept :: r.weights := by
  obtain ⟨⟨first, hf, hnb⟩, hcols⟩ := logRegNew_ok h
  have hm : m.nbFeatures = n := by
    rw [hnb]
    rw [List.getElem?_map] at hf
    cases h0 : rows[0]? with
    | none => rw [h0] at hf; cases hf
    | some r =>
      rw [h0] at hf
      simp only [Option.map_some, Option.some.injEq] at hf
      rw [← hf]
      exact hn r (List.mem_of_getElem? h0)
  refine ⟨hm, ?_⟩
  have hlen : m.columns.length = rows.length := by
    rw [← hcols.length_eq]; simp
  apply List.ext_getElem?
  intro j
  by_cases hj : j < rows.length
  · have hz : ((List.range (rows.map ClassRow.intercept).length).zip (rows.map ClassRow.intercept))[j]?
        = some (j, rows[j].intercept) := by
      rw [List.getElem?_zip_eq_some]
      exact ⟨by simp [hj], by simp [hj]⟩
    obtain ⟨hl, hcj⟩ := List.forall₂_iff_get.1 hcols
    have hjz : j < ((List.range (rows.map ClassRow.intercept).length).zip (rows.map ClassRow.intercept)).length := by
      simp [hj]
    obtain ⟨c, hc, hcol⟩ := hcj j hjz (by omega)
    have hz' := (List.getElem?_eq_some_iff.1 hz).2
    simp only [List.get_eq_getElem, hz'] at hc hcol
    have hcw : c = rows[j].weights := by
      unfold coeffColumn at hc
      rw [mapOutcome_ok_iff] at hc
      have hw : rows[j].weights.length = n := hn _ (List.getElem_mem hj)
      apply List.ext_getElem?
      intro i
      by_cases hi : i < n
      · obtain ⟨hl', hci⟩ := List.forall₂_iff_get.1 hc
        have hi1 : i < (List.range m.nbFeatures).length := by simp [hm, hi]
        have := hci i hi1 (by omega)
        simp only [List.get_eq_getElem, List.getElem_range, unwrap_ok] at this
        rw [List.getElem?_map, List.getElem?_eq_getElem hj] at this
        simp only [Option.map_some, Option.bind_some] at this
        rw [this, List.getElem?_eq_getElem (by omega)]
      · rw [List.getElem?_eq_none (by rw [← hc.length_eq]; simp; omega), List.getElem?_eq_none (by omega)]
    rw [List.getElem?_eq_getElem (by omega), hcol, hcw, List.getElem?_map, List.getElem?_eq_getElem hj]
    rfl
  · rw [List.getElem?_eq_none (by omega), List.getElem?_eq_none (by simp; omega)]

/-- The ranking of such a classifier. -/
theorem ranking {ops : FloatOps ℚ} {env : FeatEnv} {o : HashOrd} {c : Classifier} {f : Featurizer ℚ} {n : Nat}
    {rows : List ClassRow} (hc : c.HasRows f n rows) {input : Text} (hi : input ≠ []) {w : World} (wl : Option (List Text)) :
    (c.getIntentsWithWhitelist ops env o input wl).run w =
      ((f.transform ops env o input).run w).bind fun features =>
        if features.length ≠ n then .err (.external 100)
        else .ok (sortDesc IntentResult.score ((rows.map (entry ops features)).filter (keptByWhitelist wl))) := by
  obtain ⟨hnames, hf, ⟨m, hm, hcm⟩, hn, htwo⟩ := hc
  obtain ⟨hnb, hcols⟩ := columns hm hn
  unfold Classifier.getIntentsWithWhitelist
  rw [if_neg (by rw [hnames, List.length_map]; omega), if_neg hi, hf, hcm]
  simp only
  rw [Prog.run_bind]
  congr 1
  funext features
  rw [Prog.run_bind, Prog.run_ofOutcome]
  unfold LogReg.run
  rw [hnb, hcols]
  split
  · rfl
  · have hres : (rows.map fun r => r.intercept :: r.weights).map
        (fun column => logit ops (ops.dot (ops.one :: features) column)) = rows.map (score ops features) := by
      rw [List.map_map]; rfl
    rw [hres]
    have hz : (c.intentList.zip (rows.map (score ops features))).map (fun ns => (⟨ns.1, ns.2⟩ : IntentResult))
        = rows.map (entry ops features) := by
      rw [hnames, List.zip_map', List.map_map]; rfl
    have hrank : c.rank (rows.map (score ops features)) wl
        = sortDesc IntentResult.score ((rows.map (entry ops features)).filter (keptByWhitelist wl)) := by
      unfold Classifier.rank
      rw [hz]
    rw [← hrank]
    match rows, htwo with
    | _ :: _ :: _, _ => rfl

/-- Two orderings of the same results whose scores are all different. -/
theorem sortDesc_unique {l l' : List IntentResult} (hp : l.Perm l') (hd : (l.map IntentResult.score).Nodup) :
    sortDesc IntentResult.score l = sortDesc IntentResult.score l' := by
  have hp' : (sortDesc IntentResult.score l).Perm (sortDesc IntentResult.score l') :=
    (sortDesc_perm _ _).trans (hp.trans (sortDesc_perm _ _).symm)
  have hd1 : ((sortDesc IntentResult.score l).map IntentResult.score).Nodup :=
    ((sortDesc_perm IntentResult.score l).map _).nodup_iff.2 hd
  have hinj : ∀ a ∈ sortDesc IntentResult.score l, ∀ b ∈ sortDesc IntentResult.score l, a.score = b.score → a = b :=
    fun a ha b hb hab => List.inj_on_of_nodup_map hd1 ha hb hab
  refine hp'.eq_of_pairwise ?_ (sortDesc_pairwise IntentResult.score l) (sortDesc_pairwise IntentResult.score l')
  intro a b ha hb h1 h2
  exact hinj a ha b (hp'.mem_iff.2 hb) (le_antisymm h2 h1)

end Rows

end Snips
