import Verif.Proofs.Merge
import Verif.Proofs.Tfidf
import Verif.Props.C36_Rankings
import Verif.Spec.Parsers

/-! Lemmas for C63: independence of the iteration orders of hash maps. -/

namespace Snips

/-! ### The classifier: no dependence at all -/

theorem setPairs_perm {F : Type} (ops : FloatOps F) (table : Map (Text × Text) Nat) {l l' : List (Text × Text)}
    (h : l.Perm l') : ∀ features : List F, setPairs ops table l features = setPairs ops table l' features := by
  induction h with
  | nil => intro _; rfl
  | cons a _ ih =>
    intro f
    unfold setPairs
    cases table.get a with
    | none => exact ih f
    | some ix => simp only [ih]
  | swap a b l =>
    intro f
    unfold setPairs
    cases ha : table.get a with
    | none =>
      cases hb : table.get b with
      | none => simp only [setPairs, ha, hb]
      | some jb => simp only [setPairs, ha, hb]
    | some ja =>
      cases hb : table.get b with
      | none => simp only [setPairs, ha, hb]
      | some jb =>
        simp only [setPairs, ha, hb, List.length_set]
        by_cases h1 : ja < f.length <;> by_cases h2 : jb < f.length <;> simp only [h1, h2, if_true, if_false]
        by_cases h3 : ja = jb
        · rw [h3]
        · rw [List.set_comm _ _ h3]
  | trans _ _ ih ih' => intro f; rw [ih, ih']

theorem tfidf_order_eq {F : Type} (ops : FloatOps F) (env : FeatEnv) (o o' : HashOrd) (v : Tfidf F) (t : Text) :
    v.transform ops env o t = v.transform ops env o' t := by
  classical
  unfold Tfidf.transform
  simp only [tfidfVector_eq]

theorem cooc_order_eq {F : Type} (ops : FloatOps F) (env : FeatEnv) (o o' : HashOrd) (v : Cooc) (t : Text) :
    v.transform ops env o t = v.transform ops env o' t := by
  unfold Cooc.transform
  have : ∀ toks features, (v.extractWordPairs env o toks).bind (fun pairs => setPairs ops v.wordPairs pairs features)
      = (v.extractWordPairs env o' toks).bind (fun pairs => setPairs ops v.wordPairs pairs features) := by
    intro toks features
    unfold Cooc.extractWordPairs
    split
    · rfl
    · exact setPairs_perm _ _ ((o.perm 1 _).trans (o'.perm 1 _).symm) _
  simp only [Outcome.bind_eq, this]

theorem featurizer_order_eq {F : Type} (ops : FloatOps F) (env : FeatEnv) (o o' : HashOrd) (f : Featurizer F)
    (t : Text) : f.transform ops env o t = f.transform ops env o' t := by
  unfold Featurizer.transform
  rw [tfidf_order_eq ops env o o']
  simp only [cooc_order_eq ops env o o']

theorem classifier_order_eq (ops : FloatOps ℚ) (env : FeatEnv) (o o' : HashOrd) (c : Classifier) (t : Text)
    (filter : Option (List Text)) :
    c.getIntentsWithWhitelist ops env o t filter = c.getIntentsWithWhitelist ops env o' t filter := by
  unfold Classifier.getIntentsWithWhitelist
  simp only [featurizer_order_eq ops env o o']

/-! ### Filters with the same intents -/

/-- Two filters permit the same intents. -/
def SameFilter : Option (List Text) → Option (List Text) → Prop
  | none, none => True
  | some l, some l' => ∀ i, i ∈ l ↔ i ∈ l'
  | _, _ => False

theorem SameFilter.refl (f : Option (List Text)) : SameFilter f f := by
  cases f with
  | none => trivial
  | some l => exact fun _ => Iff.rfl

theorem contains_congr {l l' : List Text} (h : ∀ i, i ∈ l ↔ i ∈ l') (i : Text) : l.contains i = l'.contains i := by
  rw [Bool.eq_iff_iff]
  simp [h i]

theorem allowedBy_same {f f' : Option (List Text)} (h : SameFilter f f') : allowedBy f = allowedBy f' := by
  funext i
  cases f <;> cases f' <;> first | exact h.elim | skip
  · rfl
  · exact contains_congr h i

theorem inIntentsSet_same (p : Det) {f f' : Option (List Text)} (h : SameFilter f f') :
    p.inIntentsSet f = p.inIntentsSet f' := by
  funext i
  cases f <;> cases f' <;> first | exact h.elim | skip
  · rfl
  · exact contains_congr h i

theorem keptByWhitelist_same {f f' : Option (List Text)} (h : SameFilter f f') :
    keptByWhitelist f = keptByWhitelist f' := by
  funext r
  unfold keptByWhitelist
  cases r.name with
  | none => rfl
  | some i =>
    cases f <;> cases f' <;> first | exact h.elim | skip
    · rfl
    · exact contains_congr h i

theorem passesFilter_same {f f' : Option (List Text)} (h : SameFilter f f') :
    Engine.passesFilter f = Engine.passesFilter f' := by
  funext r
  unfold Engine.passesFilter
  cases r.name with
  | none => rfl
  | some i =>
    cases f <;> cases f' <;> first | exact h.elim | skip
    · rfl
    · exact contains_congr h i

theorem candidatesFrom_same (env : RuleEnv) (p : Lookup) (input : Text) {f f' : Option (List Text)}
    (h : SameFilter f f') : ∀ l, p.candidatesFrom env input f l = p.candidatesFrom env input f' l
  | [] => rfl
  | s :: l => by
    unfold Lookup.candidatesFrom
    rw [candidatesFrom_same env p input h l, allowedBy_same h]

theorem lookup_filter_same (env : RuleEnv) (p : Lookup) (o : HashOrd) (input : Text) {f f' : Option (List Text)}
    (h : SameFilter f f') : p.parse env o input f = p.parse env o input f' := by
  unfold Lookup.parse Lookup.parseTopIntents Lookup.getCandidates
  have : p.lookupOne env input f = p.lookupOne env input f' := by
    funext c
    unfold Lookup.lookupOne Lookup.parseMapOutput
    rw [allowedBy_same h]
  rw [candidatesFrom_same env p input h, this]

theorem det_filter_same (env : RuleEnv) (p : Det) (o : HashOrd) (input : Text) {f f' : Option (List Text)}
    (h : SameFilter f f') : p.parse env o input f = p.parse env o input f' := by
  unfold Det.parse Det.parseTopIntents
  rw [inIntentsSet_same p h]

theorem prob_filter_same (env : ProbEnv) (p : Prob) (o : HashOrd) (input : Text) {f f' : Option (List Text)}
    (h : SameFilter f f') : p.parse env o input f = p.parse env o input f' := by
  unfold Prob.parse Classifier.getIntent Classifier.getIntentsWithWhitelist Classifier.rank
  rw [keptByWhitelist_same h]

/-! ### Merging rankings -/

namespace Engine

/-- One cell of the merge into an empty map. -/
def cellNew (_ : Option IntentResult) (r : IntentResult) : Option IntentResult := some r

/-- One cell of the merge into a non-empty map. -/
def cellMax (c : Option IntentResult) (r : IntentResult) : Option IntentResult :=
  match c with
  | some old => if r.score > old.score then some { old with score := r.score } else some old
  | none => if r.score > 0 then some r else none

theorem foldl_cell {step : Map (Option Text) IntentResult → IntentResult → Map (Option Text) IntentResult}
    {cell : Option IntentResult → IntentResult → Option IntentResult}
    (hstep : ∀ m r k, (step m r).get k = if k = r.name then cell (m.get k) r else m.get k)
    (rs : List IntentResult) (k : Option Text) : ∀ m : Map (Option Text) IntentResult,
    (rs.foldl step m).get k = (rs.filter (fun r => decide (k = r.name))).foldl cell (m.get k) := by
  induction rs with
  | nil => intro m; rfl
  | cons r rs ih =>
    intro m
    rw [List.foldl_cons, ih, hstep, List.filter_cons]
    by_cases h : k = r.name
    · simp [h]
    · simp [h]

theorem mergeIntents_get (m : Map (Option Text) IntentResult) (rs : List IntentResult) (k : Option Text) :
    (mergeIntents m rs).get k =
      (rs.filter (fun r => decide (k = r.name))).foldl (if m.isEmpty then cellNew else cellMax) (m.get k) := by
  unfold mergeIntents
  split
  · refine foldl_cell ?_ rs k m
    intro m r k
    rw [Map.get_insert]
    by_cases h : k = r.name
    · rw [if_pos h, if_pos h]; rfl
    · rw [if_neg h, if_neg h]
  · refine foldl_cell ?_ rs k m
    intro m r k
    simp only
    by_cases h : k = r.name
    · rw [if_pos h]
      subst h
      cases hg : m.get r.name with
      | none =>
        simp only [cellMax]
        split
        · unfold upsertScore; rw [hg, Map.get_insert, if_pos rfl]
        · exact hg
      | some old =>
        simp only [cellMax]
        split
        · unfold upsertScore; rw [hg, Map.get_insert, if_pos rfl]
        · exact hg
    · rw [if_neg h]
      have hu : (upsertScore m r).get k = m.get k := by
        unfold upsertScore
        split <;> rw [Map.get_insert, if_neg h]
      cases hg : m.get r.name with
      | none =>
        simp only
        split
        · exact hu
        · rfl
      | some old =>
        simp only
        split
        · exact hu
        · rfl

/-- Two hash maps with the same contents. -/
def SameMap (m m' : Map (Option Text) IntentResult) : Prop := ∀ k, m.get k = m'.get k

theorem SameMap.isEmpty {m m' : Map (Option Text) IntentResult} (h : SameMap m m') : m.isEmpty = m'.isEmpty := by
  have aux : ∀ {m m' : Map (Option Text) IntentResult}, SameMap m m' → m = [] → m' = [] := by
    rintro m m' h rfl
    cases m' with
    | nil => rfl
    | cons e l =>
      have := h e.1
      rw [Map.get_nil, Map.get_cons, if_pos rfl] at this
      cases this
  rw [Bool.eq_iff_iff, List.isEmpty_iff, List.isEmpty_iff]
  exact ⟨aux h, aux fun k => (h k).symm⟩

/-- Rankings with the same entries for every intent, in the same order. -/
def SameRanking (rs rs' : List IntentResult) : Prop :=
  ∀ k : Option Text, rs.filter (fun r => decide (k = r.name)) = rs'.filter (fun r => decide (k = r.name))

theorem mergeIntents_same {m m' : Map (Option Text) IntentResult} {rs rs' : List IntentResult} (h : SameMap m m')
    (hr : SameRanking rs rs') : SameMap (mergeIntents m rs) (mergeIntents m' rs') := by
  intro k
  rw [mergeIntents_get, mergeIntents_get, h.isEmpty, h k, hr k]

theorem sameRanking_of_perm {rs rs' : List IntentResult} (h : rs.Perm rs') (hn : (rs.map IntentResult.name).Nodup) :
    SameRanking rs rs' := by
  intro k
  have hp := h.filter (fun r => decide (k = r.name))
  have hlen : (rs.filter (fun r => decide (k = r.name))).length ≤ 1 := by
    rw [← List.countP_eq_length_filter]
    have h1 : rs.countP (fun r => decide (k = r.name)) = (rs.map IntentResult.name).count k := by
      rw [List.count, List.countP_map]
      apply List.countP_congr
      intro r _
      simp only [decide_eq_true_eq, Function.comp, beq_iff_eq]
      exact eq_comm
    rw [h1]
    exact List.nodup_iff_count_le_one.1 hn k
  generalize rs.filter (fun r => decide (k = r.name)) = l at hp hlen
  match l, hp, hlen with
  | [], hp, _ => exact hp.nil_eq
  | [a], hp, _ => exact (List.singleton_perm.1 hp)
  | _ :: _ :: _, _, hlen => simp at hlen

end Engine

theorem perm_of_same {m m' : Map (Option Text) IntentResult} (hn : m.keys.Nodup) (hn' : m'.keys.Nodup)
    (h : Engine.SameMap m m') : m.Perm m' := by
  refine (List.perm_ext_iff_of_nodup (List.Nodup.of_map _ hn) (List.Nodup.of_map _ hn')).2 ?_
  rintro ⟨k, v⟩
  constructor
  · intro hm; exact Map.get_some_mem (by rw [← h k]; exact Map.get_of_mem hn hm)
  · intro hm; exact Map.get_some_mem (by rw [h k]; exact Map.get_of_mem hn' hm)

end Snips
