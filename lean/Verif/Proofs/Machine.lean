import Verif.Model.Machine
import Verif.Spec.Parsers
import Verif.Props.C19_Blanking

/-! # Lemmas about 32-bit arithmetic -/

namespace Snips

theorem fitsI32_iff (x : Int) : fitsI32 x = true ↔ -2147483648 ≤ x ∧ x ≤ 2147483647 := by
  unfold fitsI32
  simp

theorem wrapI32_of_fits {x : Int} (h : -2147483648 ≤ x) (h' : x ≤ 2147483647) : wrapI32 x = x := by
  unfold wrapI32
  apply Int.bmod_eq_of_le <;> omega

theorem wrapI32_nat {n : Nat} (h : n ≤ 2147483647) : wrapI32 n = n :=
  wrapI32_of_fits (by omega) (by omega)

theorem i32Op_of_fits (debug : Bool) {x : Int} (h : -2147483648 ≤ x) (h' : x ≤ 2147483647) :
    i32Op debug x = .ok x := by
  unfold i32Op
  rw [if_pos ((fitsI32_iff x).2 ⟨h, h'⟩)]

/-- Tokens in order after position `from`, within a text of length `n`. -/
inductive TokensFrom (n : Nat) : Nat → List Token → Prop
  | nil (start : Nat) : TokensFrom n start []
  | cons {start : Nat} {tok : Token} {toks : List Token} (h1 : start ≤ tok.charRange.start)
      (h2 : tok.charRange.start < tok.charRange.stop) (h3 : tok.charRange.stop ≤ n)
      (h4 : TokensFrom n tok.charRange.stop toks) : TokensFrom n start (tok :: toks)

theorem tokensFrom_of {t : Text} : ∀ {toks : List Token} (_ : Tokenized t toks) (start : Nat),
    (∀ tok ∈ toks, start ≤ tok.charRange.start) → TokensFrom t.length start toks
  | [], _, start, _ => .nil start
  | tok :: toks, h, start, hs => by
    have hp := List.pairwise_cons.1 h.ordered
    refine .cons (hs tok (by simp)) (h.nonempty tok (by simp)) (h.inside tok (by simp)) ?_
    exact tokensFrom_of ⟨fun x hx => h.nonempty x (by simp [hx]), fun x hx => h.inside x (by simp [hx]),
      fun x hx => h.value x (by simp [hx]), hp.2⟩ _ hp.1

theorem tokenized_tokensFrom {t : Text} {toks : List Token} (h : Tokenized t toks) :
    TokensFrom t.length 0 toks := tokensFrom_of h 0 (fun _ _ => Nat.zero_le _)

theorem TokensFrom.count_le {n : Nat} : ∀ {start : Nat} {toks : List Token}, TokensFrom n start toks →
    start ≤ n → toks.length + start ≤ n
  | _, _, .nil _, h => by simpa using h
  | _, _, .cons h1 h2 h3 h4, _ => by
    have := h4.count_le h3
    simp only [List.length_cons]
    omega

theorem Tokenized.count_le {t : Text} {toks : List Token} (h : Tokenized t toks) :
    toks.length ≤ t.length := by
  have := (tokenized_tokensFrom h).count_le (Nat.zero_le _)
  omega

/-- The shifts stay within the length of the text, and there are at most twice as many as characters. -/
theorem charShiftsFrom_bounds {n : Nat} : ∀ {start : Nat} {toks : List Token}, TokensFrom n start toks →
    ∀ (sp shift : Int), 0 ≤ sp → sp ≤ 1 → -(start : Int) ≤ shift → shift ≤ start →
    (∀ v ∈ charShiftsFrom (start, sp) shift toks, -(n : Int) ≤ v ∧ v ≤ n) ∧
      (start ≤ n → (charShiftsFrom (start, sp) shift toks).length ≤ 2 * (n - start))
  | _, _, .nil _, sp, shift, _, _, _, _ => ⟨by simp [charShiftsFrom], by simp [charShiftsFrom]⟩
  | start, tok :: toks, .cons h1 h2 h3 h4, sp, shift, hs0, hs1, hl, hu => by
    have hb1 : -(tok.charRange.stop : Int) ≤ shift - (((tok.charRange.start : Int) - start) - sp) := by omega
    have hb2 : shift - (((tok.charRange.start : Int) - start) - sp) ≤ tok.charRange.stop := by omega
    obtain ⟨ih1, ih2⟩ := charShiftsFrom_bounds h4 1 _ (by omega) (by omega) hb1 hb2
    constructor
    · intro v hv
      simp only [charShiftsFrom, List.mem_append, List.mem_replicate] at hv
      rcases hv with hv | hv
      · rw [hv.2]; omega
      · exact ih1 v hv
    · intro hn
      have := ih2 h3
      simp only [charShiftsFrom, List.length_append, List.length_replicate, Rng.count]
      omega

theorem charShifts32From_eq (debug : Bool) {n : Nat} (hn : n < 1073741824) : ∀ {start : Nat} {toks : List Token},
    TokensFrom n start toks → ∀ (sp shift : Int), 0 ≤ sp → sp ≤ 1 → start ≤ n → -(start : Int) ≤ shift →
    shift ≤ start → charShifts32From debug (start, sp) shift toks = .ok (charShiftsFrom (start, sp) shift toks)
  | _, _, .nil _, sp, shift, _, _, _, _, _ => rfl
  | start, tok :: toks, .cons h1 h2 h3 h4, sp, shift, hs0, hs1, hst, hl, hu => by
    have hb1 : -(tok.charRange.stop : Int) ≤ shift - (((tok.charRange.start : Int) - start) - sp) := by omega
    have hb2 : shift - (((tok.charRange.start : Int) - start) - sp) ≤ tok.charRange.stop := by omega
    have ih := charShifts32From_eq debug hn h4 1 _ (by omega) (by omega) h3 hb1 hb2
    have hc : tok.charRange.count ≤ n := by unfold Rng.count; omega
    simp only [charShifts32From, charShiftsFrom]
    rw [wrapI32_nat (by omega), wrapI32_nat (by omega), wrapI32_nat (by omega),
      i32Op_of_fits debug (by omega) (by omega)]
    simp only [Outcome.bind_eq, Outcome.bind]
    rw [i32Op_of_fits debug (by omega) (by omega)]
    simp only
    rw [i32Op_of_fits debug (by omega) (by omega)]
    simp only
    rw [i32Op_of_fits debug (by omega) (by omega)]
    simp only
    rw [ih]

theorem remapEntity32_eq (debug : Bool) {n : Nat} (hn : n < 536870912) (shifts : List Int)
    (hv : ∀ v ∈ shifts, -(n : Int) ≤ v ∧ v ≤ n) (hl : shifts.length ≤ 2 * n) (e : CustomEntity) :
    remapEntity32 debug shifts e = remapEntity shifts e := by
  unfold remapEntity32 remapEntity
  cases h1 : shifts[e.range.start]? with
  | none => rfl
  | some s1 =>
    cases hs : e.range.stop with
    | zero => rfl
    | succ stop =>
      simp only
      cases h2 : shifts[stop]? with
      | none => rfl
      | some s2 =>
        simp only
        have b1 := hv s1 (List.mem_of_getElem? h1)
        have b2 := hv s2 (List.mem_of_getElem? h2)
        obtain ⟨l1, -⟩ := List.getElem?_eq_some_iff.1 h1
        obtain ⟨l2, -⟩ := List.getElem?_eq_some_iff.1 h2
        rw [wrapI32_nat (by omega), wrapI32_nat (by omega), i32Op_of_fits debug (by omega) (by omega),
          i32Op_of_fits debug (by omega) (by omega)]
        rfl

theorem mapOutcome_congr32 {α β : Type} {f g : α → Outcome β} : ∀ {l : List α}, (∀ a ∈ l, f a = g a) →
    mapOutcome f l = mapOutcome g l
  | [], _ => rfl
  | a :: l, h => by
    simp only [mapOutcome]
    rw [h a (by simp), mapOutcome_congr32 (fun x hx => h x (by simp [hx]))]

theorem findMapOutcome_congr {α β : Type} {f g : α → Outcome (Option β)} : ∀ {l : List α},
    (∀ a ∈ l, f a = g a) → findMapOutcome f l = findMapOutcome g l
  | [], _ => rfl
  | a :: l, h => by
    simp only [findMapOutcome]
    rw [h a (by simp), findMapOutcome_congr (fun x hx => h x (by simp [hx]))]

/-! ### Features -/

/-- All the values a program can return satisfy `P`. -/
def Prog.AllRet {α : Type} (P : α → Prop) : Prog α → Prop
  | .ret a => P a
  | .fail _ => True
  | .panic => True
  | .builtinCached _ _ k => ∀ r, (k r).AllRet P
  | .builtinFresh _ _ _ k => ∀ r, (k r).AllRet P
  | .custom _ _ _ k => ∀ r, (k r).AllRet P

theorem Prog.bind_congr {α β : Type} {P : α → Prop} {f g : α → Prog β} (h : ∀ a, P a → f a = g a) :
    ∀ {p : Prog α}, p.AllRet P → p.bind f = p.bind g
  | .ret a, hp => h a hp
  | .fail _, _ => rfl
  | .panic, _ => rfl
  | .builtinCached s k c, hp => by
    simp only [Prog.bind]
    congr 1
    funext r
    exact Prog.bind_congr h (hp r)
  | .builtinFresh s k n c, hp => by
    simp only [Prog.bind]
    congr 1
    funext r
    exact Prog.bind_congr h (hp r)
  | .custom s k n c, hp => by
    simp only [Prog.bind]
    congr 1
    funext r
    exact Prog.bind_congr h (hp r)

theorem Prog.AllRet.bind {α β : Type} {P : α → Prop} {Q : β → Prop} {f : α → Prog β}
    (h : ∀ a, P a → (f a).AllRet Q) : ∀ {p : Prog α}, p.AllRet P → (p.bind f).AllRet Q
  | .ret a, hp => h a hp
  | .fail _, _ => trivial
  | .panic, _ => trivial
  | .builtinCached _ _ _, hp => fun r => Prog.AllRet.bind h (hp r)
  | .builtinFresh _ _ _ _, hp => fun r => Prog.AllRet.bind h (hp r)
  | .custom _ _ _ _, hp => fun r => Prog.AllRet.bind h (hp r)

theorem Prog.allRet_true {α : Type} : ∀ p : Prog α, p.AllRet (fun _ => True)
  | .ret _ => trivial
  | .fail _ => trivial
  | .panic => trivial
  | .builtinCached _ _ k => fun r => Prog.allRet_true (k r)
  | .builtinFresh _ _ _ k => fun r => Prog.allRet_true (k r)
  | .custom _ _ _ k => fun r => Prog.allRet_true (k r)

theorem pushFeature_rows (i : Nat) (value : Text) (fs : List (List (Text × Text))) (ok : Int × Text) :
    (pushFeature i value fs ok).length = fs.length := by
  unfold pushFeature
  split <;> simp

theorem foldl_pushFeature_rows (i : Nat) (value : Text) (l : List (Int × Text)) :
    ∀ fs : List (List (Text × Text)), (l.foldl (pushFeature i value) fs).length = fs.length := by
  induction l with
  | nil => intro fs; rfl
  | cons a l ih => intro fs; rw [List.foldl_cons, ih, pushFeature_rows]

theorem asUsize_nonneg {x : Int} (h : 0 ≤ x) (h' : x ≤ 2147483647) : asUsize x = x.toNat := by
  unfold asUsize
  rw [Int.emod_eq_of_lt h (by omega)]

/-- An offset for which the position it leads to is not computed wrongly from any of `n` positions: any `i32`
in a release build. -/
def OffsetSafe (debug : Bool) (n : Nat) (offset : Int) : Prop :=
  -2147483648 ≤ offset ∧ offset ≤ 2147483647 ∧ (debug = true → (n : Int) - offset ≤ 2147483648)

theorem pushFeature32_eq (debug : Bool) {n i : Nat} (hn : n ≤ 2147483647) (hi : i < n) (value : Text)
    (fs : List (List (Text × Text))) (hf : fs.length = n) (ok : Int × Text) (ho : OffsetSafe debug n ok.1) :
    pushFeature32 debug n i value fs ok = .ok (pushFeature i value fs ok) := by
  obtain ⟨h1, h2, h3⟩ := ho
  unfold pushFeature32 pushFeature
  rw [wrapI32_nat (by omega), wrapI32_nat hn, hf]
  by_cases hfit : (i : Int) - ok.1 ≤ 2147483647
  · rw [i32Op_of_fits debug (by omega) hfit]
    simp only [Outcome.bind_eq, Outcome.bind]
    by_cases hc : (i : Int) - ok.1 ≥ 0 ∧ (i : Int) - ok.1 < n
    · rw [if_pos hc, if_pos hc, asUsize_nonneg hc.1 hfit, if_pos (by omega)]
    · rw [if_neg hc, if_neg hc]
  · have hd : debug = false := by
      cases debug with
      | false => rfl
      | true => exact absurd (h3 rfl) (by omega)
    have hw : wrapI32 ((i : Int) - ok.1) = (i : Int) - ok.1 - 4294967296 := by
      unfold wrapI32 Int.bmod
      simp only [Nat.cast_ofNat]
      split <;> omega
    rw [if_neg (show ¬ ((i : Int) - ok.1 ≥ 0 ∧ (i : Int) - ok.1 < n) by omega)]
    unfold i32Op
    rw [if_neg (by rw [fitsI32_iff]; omega), hd, if_neg (by simp), hw]
    simp only [Outcome.bind_eq, Outcome.bind]
    rw [if_neg (by omega)]

theorem foldOutcome_ok {α β : Type} {f : β → α → Outcome β} {g : β → α → β} (P : β → Prop)
    (hP : ∀ b a, P b → P (g b a)) : ∀ {l : List α} {b : β}, P b → (∀ b, P b → ∀ a ∈ l, f b a = .ok (g b a)) →
    foldOutcome f b l = .ok (l.foldl g b)
  | [], _, _, _ => rfl
  | a :: l, b, hb, h => by
    simp only [foldOutcome]
    rw [h b hb a (by simp)]
    exact foldOutcome_ok P hP (hP b a hb) (fun b' hb' x hx => h b' hb' x (by simp [hx]))

/-- The size of an n-gram is a `usize`; with overflow checks a shape n-gram does not end beyond the largest one. -/
def SizeSafe (debug : Bool) (n : Nat) (f : Feature) : Prop :=
  (∀ size common stemmer, f = .ngram size common stemmer → size < 18446744073709551616) ∧
  ∀ size, f = .shapeNgram size → size < 18446744073709551616 ∧ (debug = true → size + n ≤ 18446744073709551616)

theorem usizeAdd_fits (debug : Bool) {a b : Nat} (h : a + b < 18446744073709551616) : usizeAdd debug a b = .ok (a + b) := by
  unfold usizeAdd usizeCount
  rw [if_pos h]

theorem usizeAdd_debug {a b : Nat} (h : 18446744073709551616 ≤ a + b) : usizeAdd true a b = .panic := by
  unfold usizeAdd usizeCount
  rw [if_neg (by omega), if_pos rfl]

theorem usizeAdd_release {a b : Nat} (h : 18446744073709551616 ≤ a + b) (hb : b < 18446744073709551616)
    (ha : a < 18446744073709551616) : ∃ c, usizeAdd false a b = .ok c ∧ c < a := by
  refine ⟨a + b - 18446744073709551616, ?_, by omega⟩
  unfold usizeAdd usizeCount
  rw [if_neg (by omega), if_neg (by simp), Nat.mod_eq_sub_mod h, Nat.mod_eq_of_lt (by omega)]

theorem sliceOf_ok {α : Type} {l : List α} {start n : Nat} (h : start + n ≤ l.length) :
    sliceOf l start (start + n) = .ok ((l.drop start).take n) := by
  unfold sliceOf
  rw [if_pos ⟨by omega, h⟩, Nat.add_sub_cancel_left]

theorem compute64_eq (debug : Bool) (fns : TextFns) (toks : List Token) (hn : toks.length ≤ 2147483647) {i : Nat}
    (hi : i < toks.length) (f : Feature) (hf : SizeSafe debug toks.length f) :
    f.compute64 debug fns toks i = f.compute fns toks i := by
  obtain ⟨h1, h2⟩ := hf
  cases f with
  | ngram n common stemmer =>
    have hsize := h1 n common stemmer rfl
    simp only [Feature.compute64, Feature.compute]
    by_cases hfit : i + n < 18446744073709551616
    · rw [if_neg (by unfold usizeCount; omega), usizeAdd_fits debug hfit]
      simp only [Outcome.bind_eq, Outcome.bind]
      by_cases hlen : i + n > toks.length
      · rw [if_pos hlen, if_pos hlen]; rfl
      · rw [if_neg hlen, if_neg hlen, sliceOf_ok (by omega)]; rfl
    · rw [if_pos (by unfold usizeCount; omega)]
      cases debug with
      | true => rw [usizeAdd_debug (by omega)]; rfl
      | false =>
        obtain ⟨c, hc, hlt⟩ := usizeAdd_release (a := i) (b := n) (by omega) hsize (by omega)
        rw [hc]
        simp only [Outcome.bind_eq, Outcome.bind]
        rw [if_neg (by omega)]
        unfold sliceOf
        rw [if_neg (by omega)]
        rfl
  | shapeNgram n =>
    obtain ⟨hsize, hdebug⟩ := h2 n rfl
    simp only [Feature.compute64, Feature.compute]
    by_cases hfit : i + n < 18446744073709551616
    · rw [usizeAdd_fits debug hfit]
      simp only [Outcome.bind_eq, Outcome.bind]
      by_cases hlen : i < i + n ∧ i + n ≤ toks.length
      · rw [if_pos hlen, if_pos hlen, sliceOf_ok hlen.2]; rfl
      · rw [if_neg hlen, if_neg hlen]; rfl
    · cases debug with
      | true => exact absurd (hdebug rfl) (by omega)
      | false =>
        obtain ⟨c, hc, hlt⟩ := usizeAdd_release (a := i) (b := n) (by omega) hsize (by omega)
        rw [hc]
        simp only [Outcome.bind_eq, Outcome.bind]
        rw [if_neg (by omega), if_neg (by omega)]
        rfl
  | _ => rfl

theorem featureLoop32_eq (debug : Bool) (fns : TextFns) (toks : List Token) (hn : toks.length ≤ 2147483647)
    (o : Offsetter) (ho : ∀ off ∈ o.offsets, OffsetSafe debug toks.length off)
    (hsz : SizeSafe debug toks.length o.feature) :
    ∀ (is : List Nat), (∀ i ∈ is, i < toks.length) → ∀ fs : List (List (Text × Text)),
      fs.length = toks.length → featureLoop32 debug fns toks o is fs = featureLoop fns toks o is fs := by
  intro is
  induction is with
  | nil => intro _ fs _; rfl
  | cons i is ih =>
    intro hi fs hf
    simp only [featureLoop32, featureLoop]
    rw [compute64_eq debug fns toks hn (hi i (by simp)) o.feature hsz]
    congr 1
    funext v
    cases v with
    | none => exact ih (fun j hj => hi j (by simp [hj])) fs hf
    | some value =>
      simp only
      rw [foldOutcome_ok (g := pushFeature i value) (fun b => b.length = toks.length)
        (fun b a hb => by rw [pushFeature_rows, hb]) hf]
      · simp only [Prog.ofOutcome, Prog.bind]
        exact ih (fun j hj => hi j (by simp [hj])) _ (by rw [foldl_pushFeature_rows, hf])
      · intro b hb a ha
        refine pushFeature32_eq debug hn (hi i (by simp)) value b hb a (ho _ ?_)
        unfold Offsetter.offsetsWithName at ha
        obtain ⟨off, hoff, rfl⟩ := List.mem_map.1 ha
        exact hoff

theorem featureLoop_allRet (fns : TextFns) (toks : List Token) (o : Offsetter) :
    ∀ (is : List Nat) (fs : List (List (Text × Text))), fs.length = toks.length →
      (featureLoop fns toks o is fs).AllRet (fun r => r.length = toks.length) := by
  intro is
  induction is with
  | nil => intro fs hf; exact hf
  | cons i is ih =>
    intro fs hf
    simp only [featureLoop]
    refine Prog.AllRet.bind (P := fun _ => True) ?_ (Prog.allRet_true _)
    intro v _
    cases v with
    | none => exact ih fs hf
    | some value => exact ih _ (by rw [foldl_pushFeature_rows, hf])

theorem offsettersLoop32_eq (debug : Bool) (fns : TextFns) (toks : List Token) (hn : toks.length ≤ 2147483647) :
    ∀ (os : List Offsetter), (∀ o ∈ os, ∀ off ∈ o.offsets, OffsetSafe debug toks.length off) →
      (∀ o ∈ os, SizeSafe debug toks.length o.feature) → ∀ fs : List (List (Text × Text)), fs.length = toks.length →
      offsettersLoop32 debug fns toks os fs = offsettersLoop fns toks os fs := by
  intro os
  induction os with
  | nil => intro _ _ fs _; rfl
  | cons o os ih =>
    intro ho hsz fs hf
    simp only [offsettersLoop32, offsettersLoop]
    rw [featureLoop32_eq debug fns toks hn o (ho o (by simp)) (hsz o (by simp)) _ (by simp) fs hf]
    exact Prog.bind_congr (P := fun r => r.length = toks.length)
      (fun r hr => ih (fun o' ho' => ho o' (by simp [ho'])) (fun o' ho' => hsz o' (by simp [ho'])) r hr) (featureLoop_allRet fns toks o _ fs hf)

/-! ### Overlap removal -/

theorem sortByKey_congr {α κ : Type} [LE κ] [DecidableLE κ] {f g : α → κ} {l : List α}
    (h : ∀ a ∈ l, f a = g a) : sortByKey f l = sortByKey g l := by
  unfold sortByKey
  induction l with
  | nil => rfl
  | cons a l ih =>
    simp only [List.insertionSort_cons]
    rw [ih (fun x hx => h x (by simp [hx]))]
    have hm : ∀ x ∈ List.insertionSort (fun a b => g a ≤ g b) l, f x = g x := fun x hx =>
      h x (by simp [(List.mem_insertionSort _).1 hx])
    have ha := h a (by simp)
    generalize List.insertionSort (fun a b => g a ≤ g b) l = m at hm
    induction m with
    | nil => rfl
    | cons b m ihm =>
      simp only [List.orderedInsert]
      rw [ihm (fun x hx => hm x (by simp [hx]))]
      have hb := hm b (by simp)
      by_cases hc : g a ≤ g b
      · rw [if_pos hc, if_pos (by rw [ha, hb]; exact hc)]
      · rw [if_neg hc, if_neg (by rw [ha, hb]; exact hc)]

theorem dedupItems32_eq {α : Type} (debug : Bool) (overlap : α → α → Bool) (size : α → Nat) (items : List α)
    (h : ∀ e ∈ items, size e ≤ 2147483647) :
    dedupItems32 debug overlap size items = .ok (dedupItems overlap (fun e => -(size e : Int)) items) := by
  unfold dedupItems32
  rw [if_neg]
  · unfold dedupItems
    rw [sortByKey_congr (g := fun e => -(size e : Int))]
    intro e he
    have := h e he
    rw [wrapI32_nat this, wrapI32_of_fits (by omega) (by omega)]
  · rw [Bool.and_eq_true, not_and]
    intro _
    rw [List.any_eq_true]
    rintro ⟨e, he, hf⟩
    have := h e he
    rw [wrapI32_nat this, Bool.not_eq_true', ← Bool.not_eq_true, fitsI32_iff] at hf
    omega

theorem dedupEntities32_eq (debug : Bool) (es : List MatchedEntity) (h : ∀ e ∈ es, e.range.count ≤ 2147483647) :
    dedupEntities32 debug es = .ok (dedupEntities es) := by
  unfold dedupEntities32
  rw [dedupItems32_eq debug _ _ es h]
  rfl

theorem replaceEntities32_eq (debug : Bool) (text : Text) (ms : List MatchedEntity) (placeholder : Text → Text)
    (h : ∀ e ∈ ms, e.range.count ≤ 2147483647) :
    replaceEntities32 debug text ms placeholder = replaceChecked debug text ms placeholder := by
  unfold replaceEntities32 replaceChecked replaceEntities
  by_cases hm : ms.isEmpty
  · have : ms = [] := by simpa using hm
    subst this
    rw [if_pos hm, if_neg]
    · rfl
    · simp [dedupEntities, dedupItems, sortByKey, replaceOverflows]
  · rw [if_neg hm, if_neg hm, dedupEntities32_eq debug ms h]
    rfl

theorem dedupSlots32_eq (debug : Bool) (fns : TextFns) (slots : List InternalSlot)
    (h : ∀ s ∈ slots, (fns.tokenize s.value).length + s.value.length ≤ 2147483647) :
    dedupSlots32 debug fns slots = .ok (dedupSlots fns slots) := by
  unfold dedupSlots32
  rw [dedupItems32_eq debug _ _ slots h]
  rfl

/-! ### Ranges of captures -/

theorem rangeShift32From_eq (debug : Bool) (matchStart : Nat) (hm : matchStart ≤ 1073741823) :
    ∀ (l : List (Rng × Rng)) (prevEnd : Nat) (shift : Int), (∀ x ∈ l, x.2.stop ≤ 1073741823) →
      -(1073741823 : Int) ≤ shift → shift ≤ 1073741823 →
      rangeShift32From debug matchStart prevEnd shift l = .ok (rangeShiftFrom matchStart prevEnd shift l) ∧
      -(1073741823 : Int) ≤ rangeShiftFrom matchStart prevEnd shift l ∧
      rangeShiftFrom matchStart prevEnd shift l ≤ 1073741823 := by
  intro l
  induction l with
  | nil => intro pe s _ h1 h2; exact ⟨rfl, h1, h2⟩
  | cons x l ih =>
    obtain ⟨replaced, orig⟩ := x
    intro pe s hx h1 h2
    have ho : orig.stop ≤ 1073741823 := hx (replaced, orig) (by simp)
    simp only [rangeShift32From, rangeShiftFrom]
    by_cases hc : replaced.stop ≤ matchStart ∧ replaced.stop > pe
    · rw [if_pos hc, if_pos hc, wrapI32_nat (by omega), wrapI32_nat (by omega),
        i32Op_of_fits debug (by omega) (by omega)]
      exact ih _ _ (fun y hy => hx y (by simp [hy])) (by omega) (by omega)
    · rw [if_neg hc, if_neg hc]
      exact ih _ _ (fun y hy => hx y (by simp [hy])) h1 h2

theorem originalRange32_eq (debug : Bool) (o : HashOrd) (mapping : Option (Map Rng Rng)) (r : Rng)
    (hs : r.start ≤ 1073741823) (ht : r.stop ≤ 1073741823)
    (hm : ∀ m, mapping = some m → ∀ x ∈ m, x.2.stop ≤ 1073741823) :
    originalRange32 debug o mapping r = .ok (originalRange o mapping r) := by
  unfold originalRange32 originalRange
  cases mapping with
  | none => rfl
  | some m =>
    simp only
    cases m.get r with
    | some orig => rfl
    | none =>
      simp only
      obtain ⟨h1, h2, h3⟩ := rangeShift32From_eq debug r.start hs (o.order 1 m) 0 0
        (fun x hx => hm m rfl x ((o.perm 1 m).mem_iff.1 hx)) (by omega) (by omega)
      rw [h1, wrapI32_nat (by omega), wrapI32_nat (by omega)]
      simp only [Outcome.bind_eq, Outcome.bind]
      rw [i32Op_of_fits debug (by omega) (by omega)]
      simp only
      rw [i32Op_of_fits debug (by omega) (by omega)]
      rfl

theorem convertToCharIndexFrom_le : ∀ (t : Text) (acc ci b : Nat),
    convertToCharIndexFrom t acc ci b ≤ ci + t.length
  | [], _, ci, _ => by simp [convertToCharIndexFrom]
  | c :: t, acc, ci, b => by
    unfold convertToCharIndexFrom
    split
    · omega
    · have := convertToCharIndexFrom_le t (acc + c.utf8Size) (ci + 1) b
      simp only [List.length_cons]
      omega

theorem convertToCharIndex_le (t : Text) (b : Nat) : convertToCharIndex t b ≤ t.length := by
  have := convertToCharIndexFrom_le t 0 0 b
  unfold convertToCharIndex
  omega

/-- Texts short enough for `i32` arithmetic on positions. -/
theorem slotOf32_eq (debug : Bool) (o : HashOrd) (p : Det) (input formatted intent : Text)
    (mapping : Option (Map Rng Rng)) (c : Rng × Text) (hf : formatted.length ≤ 1073741823)
    (hm : ∀ m, mapping = some m → ∀ x ∈ m, x.2.stop ≤ 1073741823) :
    p.slotOf32 debug o input formatted intent mapping c = p.slotOf o input formatted intent mapping c := by
  unfold Det.slotOf32 Det.slotOf
  rw [originalRange32_eq debug o mapping _ (le_trans (convertToCharIndex_le _ _) hf)
    (le_trans (convertToCharIndex_le _ _) hf) hm]
  rfl

theorem slotOf_value_length {o : HashOrd} {p : Det} {input formatted intent : Text}
    {mapping : Option (Map Rng Rng)} {c : Rng × Text} {s : InternalSlot}
    (h : p.slotOf o input formatted intent mapping c = .ok s) : s.value.length ≤ input.length := by
  unfold Det.slotOf at h
  simp only [Outcome.bind_eq, Outcome.bind_ok] at h
  obtain ⟨_, _, _, _, _, _, h⟩ := h
  simp only [Outcome.ok.injEq] at h
  subst h
  simp only [substr]
  simp

theorem mapOutcome_source {α β : Type} {f : α → Outcome β} : ∀ {l : List α} {bs : List β}, mapOutcome f l = .ok bs →
    ∀ b ∈ bs, ∃ a ∈ l, f a = .ok b
  | [], bs, h, b, hb => by
    simp only [mapOutcome, Outcome.ok.injEq] at h
    subst h
    cases hb
  | a :: l, bs, h, b, hb => by
    simp only [mapOutcome] at h
    cases ha : f a with
    | err e => rw [ha] at h; cases h
    | panic => rw [ha] at h; cases h
    | ok b0 =>
      rw [ha] at h
      simp only at h
      cases hl : mapOutcome f l with
      | err e => rw [hl] at h; cases h
      | panic => rw [hl] at h; cases h
      | ok bs0 =>
        rw [hl] at h
        simp only [Outcome.ok.injEq] at h
        subst h
        rcases List.mem_cons.1 hb with rfl | hb
        · exact ⟨a, by simp, ha⟩
        · obtain ⟨x, hx, hfx⟩ := mapOutcome_source hl b hb
          exact ⟨x, by simp [hx], hfx⟩

theorem matchingResult32_eq (debug : Bool) (fns : TextFns) (htok : ∀ t, Tokenized t (fns.tokenize t)) (o : HashOrd)
    (p : Det) (input formatted : Text) (regex : Regex) (intent : Text) (mapping : Option (Map Rng Rng))
    (hi : input.length ≤ 1073741823) (hf : formatted.length ≤ 1073741823)
    (hm : ∀ m, mapping = some m → ∀ x ∈ m, x.2.stop ≤ 1073741823) :
    p.matchingResult32 debug fns o input formatted regex intent mapping =
      p.matchingResult fns o input formatted regex intent mapping := by
  unfold Det.matchingResult32 Det.matchingResult
  split
  · cases hc : (regex.capturesIter formatted).find? (fun caps => !caps.isEmpty) with
    | none => rfl
    | some caps =>
      simp only
      rw [mapOutcome_congr32 (fun a _ => slotOf32_eq debug o p input formatted intent mapping a hf hm)]
      cases hs : mapOutcome (p.slotOf o input formatted intent mapping)
          (namedCaptures caps regex.captureNames) with
      | err e => rfl
      | panic => rfl
      | ok slots =>
        simp only [Outcome.bind_eq, Outcome.bind]
        rw [dedupSlots32_eq]
        intro s hsm
        obtain ⟨a, -, ha⟩ := mapOutcome_source hs s hsm
        have h1 := slotOf_value_length ha
        have h2 := (htok s.value).count_le
        omega
  · rfl

end Snips
