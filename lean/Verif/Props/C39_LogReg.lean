import Verif.Spec.Classifier
import Verif.Proofs.Tags
import Verif.Proofs.Weights

/-! # C39: logistic scores are probabilities -/

namespace Snips

theorem sigmoid_pos (x : ℝ) : 0 < sigmoid x := by
  unfold sigmoid; positivity

theorem sigmoid_lt_one (x : ℝ) : sigmoid x < 1 := by
  unfold sigmoid
  rw [div_lt_one (by positivity)]
  have := Real.exp_pos (-x)
  linarith

theorem logit_real (x : ℝ) : logit realOps x = sigmoid x := rfl

theorem unwrap_ok {α : Type} {x : Option α} {a : α} : Outcome.unwrap x = .ok a ↔ x = some a := by
  cases x <;> simp [Outcome.unwrap]

theorem forall₂_getElem? {α β : Type} {R : α → β → Prop} {l : List α} {l' : List β} (h : List.Forall₂ R l l')
    {i : Nat} {a : α} (ha : l[i]? = some a) : ∃ b, l'[i]? = some b ∧ R a b := by
  induction h generalizing i with
  | nil => simp at ha
  | cons hr _ ih =>
    cases i with
    | zero => simp only [List.getElem?_cons_zero, Option.some.injEq] at ha; subst ha; exact ⟨_, rfl, hr⟩
    | succ i => simp only [List.getElem?_cons_succ] at ha ⊢; exact ih ha

theorem coeffColumn_ok {F : Type} {coeffs : List (List F)} {n j : Nat} {col : List F}
    (h : coeffColumn coeffs n j = .ok col) :
    col.length = n ∧ ∀ i < n, ((coeffs[j]?).bind fun row => row[i]?) = col[i]? := by
  unfold coeffColumn at h
  rw [mapOutcome_ok_iff] at h
  have hlen := h.length_eq
  rw [List.length_range] at hlen
  refine ⟨hlen.symm, ?_⟩
  intro i hi
  obtain ⟨x, hx, hu⟩ := forall₂_getElem? h (i := i) (a := i) (by simp [hi])
  rw [unwrap_ok] at hu
  rw [hu, hx]

theorem logRegNew_ok {F : Type} {intercept : List F} {coeffs : List (List F)} {m : LogReg F}
    (h : LogReg.new intercept coeffs = .ok m) :
    (∃ first, coeffs[0]? = some first ∧ m.nbFeatures = first.length) ∧
    List.Forall₂ (fun (jb : Nat × F) col => ∃ c, coeffColumn coeffs m.nbFeatures jb.1 = .ok c ∧ col = jb.2 :: c)
      ((List.range intercept.length).zip intercept) m.columns := by
  unfold LogReg.new at h
  simp only [Outcome.bind_eq, Outcome.bind_ok] at h
  obtain ⟨first, hf, columns, hc, h⟩ := h
  rw [unwrap_ok] at hf
  cases h
  refine ⟨⟨first, hf, rfl⟩, ?_⟩
  rw [mapOutcome_ok_iff] at hc
  refine hc.imp ?_
  intro jb col hcol
  rw [Outcome.bind_ok] at hcol
  obtain ⟨c, h1, h2⟩ := hcol
  cases h2
  exact ⟨c, h1, rfl⟩

theorem run_ok {F : Type} {ops : FloatOps F} {m : LogReg F} {x s : List F} (h : m.run ops x = .ok s) :
    x.length = m.nbFeatures ∧
    (m.columns.length ≠ 1 → s = m.columns.map fun col => logit ops (ops.dot (ops.one :: x) col)) ∧
    (∀ col, m.columns = [col] → s = [ops.sub ops.one (logit ops (ops.dot (ops.one :: x) col)),
      logit ops (ops.dot (ops.one :: x) col)]) := by
  unfold LogReg.run at h
  split at h
  · cases h
  · rename_i hx
    refine ⟨not_not.1 hx, ?_, ?_⟩
    · intro hlen
      match hc : m.columns with
      | [] => rw [hc] at h; cases h; rfl
      | [_] => rw [hc] at hlen; simp at hlen
      | _ :: _ :: _ => rw [hc] at h; cases h; rfl
    · intro col hc
      rw [hc] at h
      cases h
      rfl

/-- Scores of the classifier in exact arithmetic: one per class, the logistic function of its linear
score; with a single row of coefficients, the two scores `1 - p` and `p`. -/
theorem c39_scores (intercept : List ℝ) (coeffs : List (List ℝ)) (m : LogReg ℝ) (x s : List ℝ)
    (hm : LogReg.new intercept coeffs = .ok m) (hs : m.run realOps x = .ok s) :
    ∃ z : List ℝ, z.length = intercept.length ∧
      (∀ (j : Nat) (zj : ℝ), z[j]? = some zj → LinearScore intercept coeffs x j zj) ∧
      (intercept.length ≠ 1 → s = z.map sigmoid) ∧
      (∀ z0, z = [z0] → s = [1 - sigmoid z0, sigmoid z0]) := by
  obtain ⟨⟨first, _, hn⟩, hcols⟩ := logRegNew_ok hm
  obtain ⟨hx, h1, h2⟩ := run_ok hs
  have hlen : m.columns.length = intercept.length := by
    rw [← hcols.length_eq]; simp
  refine ⟨m.columns.map fun col => realOps.dot (realOps.one :: x) col, by simpa using hlen, ?_, ?_, ?_⟩
  · intro j zj hz
    rw [List.getElem?_map] at hz
    cases hcj : m.columns[j]? with
    | none => rw [hcj] at hz; simp at hz
    | some col =>
      rw [hcj] at hz
      simp only [Option.map_some, Option.some.injEq] at hz
      have hj : j < intercept.length := by
        rw [← hlen]; exact (List.getElem?_eq_some_iff.1 hcj).1
      have hzip : ((List.range intercept.length).zip intercept)[j]? = some (j, intercept[j]) := by
        rw [List.getElem?_zip_eq_some]
        exact ⟨by simp [hj], List.getElem?_eq_getElem hj⟩
      obtain ⟨col', hcol', c, hc, hcc⟩ := forall₂_getElem? hcols hzip
      rw [hcj] at hcol'
      cases hcol'
      obtain ⟨hcl, hci⟩ := coeffColumn_ok hc
      refine ⟨intercept[j], c, List.getElem?_eq_getElem hj, by rw [hcl, hx], ?_, ?_⟩
      · intro i hi
        exact hci i (by rw [← hx]; exact hi)
      · rw [← hz, hcc]
        simp [realOps]
  · intro hne
    rw [h1 (by rw [hlen]; exact hne), List.map_map]
    rfl
  · intro z0 hz0
    cases hc : m.columns with
    | nil => rw [hc] at hz0; simp at hz0
    | cons col cols =>
      rw [hc] at hz0
      simp only [List.map_cons, List.cons.injEq, List.map_eq_nil_iff] at hz0
      obtain ⟨hz, rfl⟩ := hz0
      rw [h2 col hc, hz]
      rfl

/-- The scores lie strictly between 0 and 1. -/
theorem c39_strictly_between (intercept : List ℝ) (coeffs : List (List ℝ)) (m : LogReg ℝ) (x s : List ℝ)
    (hm : LogReg.new intercept coeffs = .ok m) (hs : m.run realOps x = .ok s) : ∀ p ∈ s, 0 < p ∧ p < 1 := by
  obtain ⟨z, hl, _, h1, h2⟩ := c39_scores intercept coeffs m x s hm hs
  intro p hp
  by_cases hi : intercept.length = 1
  · obtain ⟨z0, hz0⟩ := List.length_eq_one_iff.1 (hl.trans hi)
    rw [h2 z0 hz0] at hp
    simp only [List.mem_cons, List.not_mem_nil, or_false] at hp
    have a := sigmoid_pos z0
    have b := sigmoid_lt_one z0
    rcases hp with rfl | rfl
    · constructor <;> linarith
    · exact ⟨a, b⟩
  · rw [h1 hi] at hp
    obtain ⟨y, _, rfl⟩ := List.mem_map.1 hp
    exact ⟨sigmoid_pos y, sigmoid_lt_one y⟩

/-- The score is strictly increasing in the linear score. -/
theorem c39_increasing : StrictMono sigmoid := by
  intro a b hab
  unfold sigmoid
  apply one_div_lt_one_div_of_lt (by positivity)
  have := Real.exp_lt_exp.2 (neg_lt_neg hab)
  linarith

/-- With a single row of coefficients there are two scores, which sum to 1. -/
theorem c39_binary_sum (intercept : ℝ) (coeffs : List (List ℝ)) (m : LogReg ℝ) (x s : List ℝ)
    (hm : LogReg.new [intercept] coeffs = .ok m) (hs : m.run realOps x = .ok s) : s.length = 2 ∧ s.sum = 1 := by
  obtain ⟨z, hl, _, _, h2⟩ := c39_scores [intercept] coeffs m x s hm hs
  obtain ⟨z0, hz0⟩ := List.length_eq_one_iff.1 hl
  rw [h2 z0 hz0]
  constructor
  · rfl
  · simp

/-- With rounded operations the scores are between 0 and 1 (inclusive), -/
theorem c39_rounded (rd : Rounding) (ops : FloatOps ℚ) (hops : RoundedOps rd ops) (m : LogReg ℚ) (x s : List ℚ)
    (hs : m.run ops x = .ok s) : ∀ p ∈ s, 0 ≤ p ∧ p ≤ 1 := by
  obtain ⟨_, h1, h2⟩ := run_ok hs
  have hl : ∀ y, 0 ≤ logit ops y ∧ logit ops y ≤ 1 := by
    intro y
    unfold logit
    rw [hops.div, hops.add, hops.one]
    have he := hops.exp_nonneg (ops.neg y)
    have h3 : 1 ≤ rd.rnd (1 + ops.exp (ops.neg y)) := by
      have := rd.mono (show (1 : ℚ) ≤ 1 + ops.exp (ops.neg y) by linarith)
      rwa [rd.one] at this
    constructor
    · exact rnd_nonneg rd (by positivity)
    · apply rnd_le_one
      rw [div_le_one (by linarith)]
      exact h3
  intro p hp
  by_cases hc : m.columns.length = 1
  · obtain ⟨col, hcol⟩ := List.length_eq_one_iff.1 hc
    rw [h2 col hcol] at hp
    simp only [List.mem_cons, List.not_mem_nil, or_false] at hp
    obtain ⟨a, b⟩ := hl (ops.dot (ops.one :: x) col)
    rcases hp with rfl | rfl
    · generalize logit ops (ops.dot (ops.one :: x) col) = r at a b
      rw [hops.sub, hops.one]
      exact ⟨rnd_nonneg rd (by linarith), rnd_le_one rd (by linarith)⟩
    · exact ⟨a, b⟩
  · rw [h1 hc] at hp
    obtain ⟨col, _, rfl⟩ := List.mem_map.1 hp
    exact hl _

/-- and non-decreasing in the linear score. -/
theorem c39_rounded_monotone (rd : Rounding) (ops : FloatOps ℚ) (hops : RoundedOps rd ops) (a b : ℚ)
    (hab : a ≤ b) : logit ops a ≤ logit ops b := by
  unfold logit
  simp only [hops.div, hops.add, hops.one, hops.neg]
  have h1 := hops.exp_mono (-b) (-a) (by linarith)
  have h2 := rd.mono (show 1 + ops.exp (-b) ≤ 1 + ops.exp (-a) by linarith)
  have h3 : 1 ≤ rd.rnd (1 + ops.exp (-b)) := by
    have := rd.mono (show (1 : ℚ) ≤ 1 + ops.exp (-b) by linarith [hops.exp_nonneg (-b)])
    rwa [rd.one] at this
  exact rd.mono (one_div_le_one_div_of_le (by linarith) h2)

/-- A feature vector of the wrong size is an error. -/
theorem c39_feature_mismatch {F : Type} (ops : FloatOps F) (intercept : List F) (coeffs : List (List F))
    (m : LogReg F) (x first : List F) (hm : LogReg.new intercept coeffs = .ok m) (hf : coeffs[0]? = some first)
    (hx : x.length ≠ first.length) : ∃ e, m.run ops x = .err e := by
  obtain ⟨⟨first', hf', hn⟩, _⟩ := logRegNew_ok hm
  rw [hf] at hf'
  cases hf'
  unfold LogReg.run
  rw [if_pos (by rw [hn]; exact hx)]
  exact ⟨_, rfl⟩

theorem mapOutcome_panic {α β : Type} {f : α → Outcome β} {l : List α} (hf : ∀ a ∈ l, ∀ e, f a ≠ .err e)
    {a : α} (ha : a ∈ l) (hp : f a = .panic) : mapOutcome f l = .panic := by
  induction l with
  | nil => simp at ha
  | cons b l ih =>
    unfold mapOutcome
    cases hb : f b with
    | err e => exact absurd hb (hf b (by simp) e)
    | panic => rfl
    | ok c =>
      simp only
      have hmem : a ∈ l := by
        rcases List.mem_cons.1 ha with rfl | h
        · rw [hb] at hp; cases hp
        · exact h
      rw [ih (fun x hx => hf x (by simp [hx])) hmem]

theorem mapOutcome_ne_err {α β : Type} {f : α → Outcome β} {l : List α} (hf : ∀ a ∈ l, ∀ e, f a ≠ .err e) :
    ∀ e, mapOutcome f l ≠ .err e := by
  intro e
  induction l with
  | nil => simp [mapOutcome]
  | cons b l ih =>
    unfold mapOutcome
    have hi := ih (fun x hx => hf x (by simp [hx]))
    cases hb : f b with
    | err e => exact absurd hb (hf b (by simp) e)
    | panic => simp
    | ok c =>
      simp only
      cases hl : mapOutcome f l with
      | err e' => exact fun h => hi (by rw [hl]; exact h)
      | ok bs => simp
      | panic => simp

/-- Missing coefficients make loading panic. -/
theorem c39_missing_coefficients {F : Type} (intercept : List F) (coeffs : List (List F)) (first : List F)
    (hf : coeffs[0]? = some first) (j i : Nat) (hj : j < intercept.length) (hi : i < first.length)
    (hmiss : ((coeffs[j]?).bind fun row => row[i]?) = none) : LogReg.new intercept coeffs = .panic := by
  unfold LogReg.new
  rw [hf]
  simp only [Outcome.unwrap, Outcome.bind_eq]
  have hne : ∀ j, ∀ e, coeffColumn coeffs first.length j ≠ .err e := by
    intro j e
    unfold coeffColumn
    apply mapOutcome_ne_err
    intro a _ e
    cases ((coeffs[j]?).bind fun row => row[a]?) <;> simp [Outcome.unwrap]
  have hpan : coeffColumn coeffs first.length j = .panic := by
    unfold coeffColumn
    refine mapOutcome_panic (a := i) ?_ (by simp [hi]) (by rw [hmiss]; rfl)
    intro a _ e
    cases ((coeffs[j]?).bind fun row => row[a]?) <;> simp [Outcome.unwrap]
  have : mapOutcome (fun jb : Nat × F => (coeffColumn coeffs first.length jb.1).bind fun column =>
      Outcome.ok (jb.2 :: column)) ((List.range intercept.length).zip intercept) = .panic := by
    refine mapOutcome_panic (a := (j, intercept[j])) ?_ ?_ ?_
    · intro jb _ e
      have := hne jb.1
      cases hc : coeffColumn coeffs first.length jb.1 with
      | ok c => simp [Outcome.bind]
      | err e' => exact absurd hc (this e')
      | panic => simp [Outcome.bind]
    · apply List.mem_iff_getElem?.2
      refine ⟨j, ?_⟩
      rw [List.getElem?_zip_eq_some]
      exact ⟨by simp [hj], List.getElem?_eq_getElem hj⟩
    · simp only [hpan, Outcome.bind]
  show Outcome.bind (mapOutcome _ _) _ = _
  rw [this]
  rfl

theorem mapOutcome_exists {α β : Type} {f : α → Outcome β} {l : List α} (h : ∀ a ∈ l, ∃ b, f a = .ok b) :
    ∃ bs, mapOutcome f l = .ok bs := by
  induction l with
  | nil => exact ⟨[], rfl⟩
  | cons a l ih =>
    obtain ⟨b, hb⟩ := h a (by simp)
    obtain ⟨bs, hbs⟩ := ih fun x hx => h x (by simp [hx])
    exact ⟨b :: bs, by simp [mapOutcome, hb, hbs]⟩

theorem mapOutcome_congr_mem {α β : Type} {f g : α → Outcome β} {l : List α} (h : ∀ a ∈ l, f a = g a) :
    mapOutcome f l = mapOutcome g l := by
  induction l with
  | nil => rfl
  | cons a l ih =>
    have := ih fun x hx => h x (by simp [hx])
    simp only [mapOutcome, h a (by simp), this]

/-- Exactly when the coefficients are accepted: there is a first row, and each intercept has a row with a coefficient
wherever the first row has one.  Otherwise loading panics. -/
theorem c39_loads_iff {F : Type} (intercept : List F) (coeffs : List (List F)) :
    ((∃ m, LogReg.new intercept coeffs = .ok m) ↔
      ∃ first, coeffs[0]? = some first ∧ ∀ j < intercept.length, ∀ i < first.length,
        ∃ row c, coeffs[j]? = some row ∧ row[i]? = some c) ∧
    ((¬ ∃ m, LogReg.new intercept coeffs = .ok m) → LogReg.new intercept coeffs = .panic) := by
  cases hc : coeffs[0]? with
  | none =>
    have : LogReg.new intercept coeffs = .panic := by unfold LogReg.new; rw [hc]; rfl
    refine ⟨⟨?_, ?_⟩, fun _ => this⟩
    · rintro ⟨m, h⟩; rw [this] at h; cases h
    · rintro ⟨_, h, _⟩; cases h
  | some first =>
    by_cases hall : ∀ j < intercept.length, ∀ i < first.length, ∃ row c, coeffs[j]? = some row ∧ row[i]? = some c
    · have hok : ∃ m, LogReg.new intercept coeffs = .ok m := by
        have hcol : ∀ j < intercept.length, ∃ col, coeffColumn coeffs first.length j = .ok col := by
          intro j hj
          unfold coeffColumn
          refine mapOutcome_exists fun i hi => ?_
          obtain ⟨row, c, h1, h2⟩ := hall j hj i (by simpa using hi)
          exact ⟨c, by rw [h1]; simp only [Option.bind_some, h2]; rfl⟩
        have hcols : ∃ cols, mapOutcome (fun jb : Nat × F => (coeffColumn coeffs first.length jb.1).bind fun column =>
            Outcome.ok (jb.2 :: column)) ((List.range intercept.length).zip intercept) = .ok cols := by
          refine mapOutcome_exists fun jb hjb => ?_
          obtain ⟨j, b⟩ := jb
          obtain ⟨col, hcol⟩ := hcol j (by simpa using (List.of_mem_zip hjb).1)
          exact ⟨b :: col, by simp only [hcol]; rfl⟩
        obtain ⟨cols, hcols⟩ := hcols
        refine ⟨⟨first.length, cols⟩, ?_⟩
        unfold LogReg.new
        rw [hc]
        show Outcome.bind (mapOutcome _ _) _ = _
        exact (congrArg (fun x => Outcome.bind x _) hcols)
      exact ⟨⟨fun _ => ⟨first, rfl, hall⟩, fun _ => hok⟩, fun h => absurd hok h⟩
    · have hpanic : LogReg.new intercept coeffs = .panic := by
        by_contra hp
        apply hall
        intro j hj i hi
        by_contra hno
        refine hp (c39_missing_coefficients intercept coeffs first hc j i hj hi ?_)
        cases hrow : coeffs[j]? with
        | none => rfl
        | some row =>
          simp only [Option.bind_some]
          cases hr : row[i]? with
          | none => rfl
          | some c => exact absurd ⟨row, c, hrow, hr⟩ hno
      refine ⟨⟨?_, ?_⟩, fun _ => hpanic⟩
      · rintro ⟨m, h⟩; rw [hpanic] at h; cases h
      · rintro ⟨f, h, h'⟩; cases h; exact absurd h' hall

/-- Superfluous coefficients have no influence: only the rows of the intercepts count, up to the length of the
first row. -/
theorem c39_superfluous {F : Type} (intercept : List F) (coeffs coeffs' : List (List F)) (first first' : List F)
    (h : coeffs[0]? = some first) (h' : coeffs'[0]? = some first') (hlen : first'.length = first.length)
    (hsame : ∀ j < intercept.length, ∀ i < first.length,
      ((coeffs[j]?).bind fun row => row[i]?) = (coeffs'[j]?).bind fun row => row[i]?) :
    LogReg.new intercept coeffs = LogReg.new intercept coeffs' := by
  have hcol : ∀ j < intercept.length, coeffColumn coeffs first.length j = coeffColumn coeffs' first.length j := by
    intro j hj
    unfold coeffColumn
    refine mapOutcome_congr_mem fun i hi => ?_
    rw [hsame j hj i (by simpa using hi)]
  unfold LogReg.new
  rw [h, h', Outcome.unwrap, Outcome.unwrap]
  show Outcome.bind (mapOutcome _ _) _ = Outcome.bind (mapOutcome _ _) _
  rw [hlen]
  congr 1
  refine mapOutcome_congr_mem fun jb hjb => ?_
  obtain ⟨j, b⟩ := jb
  rw [hcol j (by simpa using (List.of_mem_zip hjb).1)]

/-- Superfluous coefficients are ignored without notice: two intercepts, three rows, the second row with
an extra coefficient. -/
theorem c39_superfluous_counterexample :
    LogReg.new (F := ℚ) [0, 0] [[1], [2, 5], [3]] = LogReg.new [0, 0] [[1], [2]] := by decide +kernel

example : ∃ m : LogReg ℝ, LogReg.new [0, 1] [[1, 2], [3, 4]] = .ok m ∧ ∃ s, m.run realOps [1, 1] = .ok s :=
  ⟨_, rfl, _, rfl⟩

example : ∃ m : LogReg ℝ, LogReg.new [1] [[3, 4]] = .ok m ∧ ∃ s, m.run realOps [1, 1] = .ok s :=
  ⟨_, rfl, _, rfl⟩

/-- Rational operations with a crude exponential satisfy `RoundedOps`. -/
def crudeOps : FloatOps ℚ where
  zero := 0
  one := 1
  add := (· + ·)
  sub := (· - ·)
  mul := (· * ·)
  div := (· / ·)
  neg := Neg.neg
  exp x := max 0 (1 + x)
  sqrt := id
  pos x := decide (0 < x)
  dot a b := (List.zipWith (· * ·) a b).sum

theorem crudeOps_rounded : RoundedOps Rounding.exact crudeOps :=
  ⟨rfl, fun _ => rfl, fun _ _ => rfl, fun _ _ => rfl, fun _ _ => rfl, fun _ => le_max_left _ _,
    fun _ _ h => max_le_max (le_refl _) (by linarith)⟩

example : (⟨2, [[0, 1, 2], [1, 3, 4]]⟩ : LogReg ℚ).run crudeOps [1, 1] = .ok [1, 1] := by decide +kernel

end Snips
