import Verif.Proofs.Dedup
import Verif.Spec.Segments

/-! Lemmas on placeholder substitution. -/

namespace Snips

theorem wrapI16_eq {x : Int} (h : -32768 ≤ x) (h' : x < 32768) : wrapI16 x = x := by
  unfold wrapI16
  exact Int.bmod_eq_of_le (by omega) (by omega)

theorem asUsize_eq {x : Int} (h : 0 ≤ x) (h' : x < 18446744073709551616) : asUsize x = x.toNat := by
  unfold asUsize
  rw [Int.emod_eq_of_lt h (by omega)]

/-- The pieces of `text` from position `cur` on, given the sorted matches. -/
def buildSegs (text : Text) : Nat → List MatchedEntity → List Seg
  | cur, [] => [.plain (text.drop cur)]
  | cur, m :: ms =>
    .plain (substr text ⟨cur, m.range.start⟩) :: .ent (substr text m.range) m.name ::
      buildSegs text m.range.stop ms

/-- Sorted, disjoint, in-bounds matches starting after `cur`. -/
def Chain (n : Nat) : Nat → List MatchedEntity → Prop
  | cur, [] => cur ≤ n
  | cur, m :: ms => cur ≤ m.range.start ∧ m.range.start < m.range.stop ∧ Chain n m.range.stop ms

theorem chain_cons {n cur : Nat} {m : MatchedEntity} {ms : List MatchedEntity} :
    Chain n cur (m :: ms) ↔
      cur ≤ m.range.start ∧ m.range.start < m.range.stop ∧ Chain n m.range.stop ms := Iff.rfl

theorem Chain.le {n : Nat} {ms : List MatchedEntity} : ∀ {cur : Nat}, Chain n cur ms → cur ≤ n := by
  induction ms with
  | nil => intro cur h; exact h
  | cons m ms ih =>
    intro cur h
    rw [chain_cons] at h
    have := ih h.2.2
    omega

theorem length_substr {t : Text} {r : Rng} (h : r.stop ≤ t.length) :
    (substr t r).length = r.stop - r.start := by
  unfold substr
  rw [List.length_take, List.length_drop]
  omega

theorem substr_append_drop {t : Text} {a b : Nat} (h : a ≤ b) :
    substr t ⟨a, b⟩ ++ t.drop b = t.drop a := by
  unfold substr
  have : t.drop b = (t.drop a).drop (b - a) := by rw [List.drop_drop]; congr 1; omega
  simp only
  rw [this, List.take_append_drop]

theorem origText_buildSegs (text : Text) (ms : List MatchedEntity) : ∀ (cur : Nat),
    Chain text.length cur ms → origText (buildSegs text cur ms) = text.drop cur := by
  induction ms with
  | nil => intro cur _; simp [origText, buildSegs, Seg.orig]
  | cons m ms ih =>
    intro cur h
    obtain ⟨h1, h2, h3⟩ := chain_cons.1 h
    have ih := ih m.range.stop h3
    unfold origText at *
    simp only [buildSegs, List.map_cons, List.flatten_cons, Seg.orig]
    rw [ih, show substr text m.range = substr text ⟨m.range.start, m.range.stop⟩ from rfl,
      substr_append_drop (Nat.le_of_lt h2), substr_append_drop h1]

theorem replText_cons (ph : Text → Text) (s : Seg) (segs : List Seg) :
    replText ph (s :: segs) = s.repl ph ++ replText ph segs := by
  simp [replText]

theorem replaceFold_text (text : Text) (ph : Text → Text) : ∀ (ms : List MatchedEntity)
    (st : ReplaceState),
    let out := ms.foldl (replaceStep text ph) st
    out.processed ++ suffixFrom text out.currentIx
      = st.processed ++ replText ph (buildSegs text st.currentIx ms)
  | [], st => by simp [buildSegs, replText, Seg.repl, suffixFrom]
  | m :: ms, st => by
    have ih := replaceFold_text text ph ms (replaceStep text ph st m)
    simp only [List.foldl_cons] at *
    rw [ih]
    simp only [buildSegs, replText_cons, Seg.repl, replaceStep, List.append_assoc]

theorem occs_buildSegs (text : Text) (ph : Text → Text) (ms : List MatchedEntity) :
    ∀ (cur n : Nat), Chain text.length cur ms →
    (occs ph cur n (buildSegs text cur ms)).map (fun o => (⟨o.orig, o.name⟩ : MatchedEntity))
      = ms := by
  induction ms with
  | nil => intro cur n _; simp [buildSegs, occs]
  | cons m ms ih =>
    intro cur n h
    obtain ⟨h1, h2, h3⟩ := chain_cons.1 h
    have hle := h3.le
    have l1 : (substr text ⟨cur, m.range.start⟩).length = m.range.start - cur :=
      length_substr (by simp only; omega)
    have l2 : (substr text m.range).length = m.range.stop - m.range.start := length_substr hle
    have e1 : cur + (m.range.start - cur) = m.range.start := by omega
    have e2 : m.range.start + (m.range.stop - m.range.start) = m.range.stop := by omega
    simp only [buildSegs, occs, l1, l2, e1, e2, List.map_cons]
    rw [ih _ _ h3]

theorem occs_repl_ge (ph : Text → Text) : ∀ (segs : List Seg) (o n : Nat),
    ∀ x ∈ occs ph o n segs, n ≤ x.repl.start ∧ x.repl.start ≤ x.repl.stop
      ∧ x.repl.stop ≤ n + (replText ph segs).length
  | [], _, _ => by simp [occs]
  | .plain t :: segs, o, n => by
    intro x hx
    have := occs_repl_ge ph segs _ _ x hx
    rw [replText_cons, List.length_append]
    simp only [Seg.repl]
    omega
  | .ent t name :: segs, o, n => by
    intro x hx
    rw [replText_cons, List.length_append]
    simp only [occs, List.mem_cons] at hx
    simp only [Seg.repl]
    rcases hx with rfl | hx
    · simp only; omega
    · have := occs_repl_ge ph segs _ _ x hx
      omega

theorem Map.insert_of_notMem {κ ν : Type} [DecidableEq κ] : ∀ (m : Map κ ν) (k : κ) (v : ν),
    k ∉ m.map Prod.fst → Map.insert m k v = m ++ [(k, v)]
  | [], _, _, _ => rfl
  | (k', v') :: m, k, v, h => by
    simp only [List.map_cons, List.mem_cons, not_or] at h
    rw [Map.insert, if_neg (fun he => h.1 he.symm), Map.insert_of_notMem m k v h.2]
    rfl

theorem wrap_sum (a b : Int) : wrapI16 (wrapI16 a + wrapI16 b) = wrapI16 (a + b) := by
  simp [wrapI16]

theorem wrap_diff (a b : Int) : wrapI16 (wrapI16 a - wrapI16 b) = wrapI16 (a - b) := by
  simp [wrapI16]

theorem wrap_arith {ix s e c pl phl n' : Nat} {off : Int} (h1 : ix ≤ s) (hc : c + s = e)
    (hn : n' = pl + (s - ix) + phl) (hoff : off = wrapI16 ((pl : Int) - ix)) :
    wrapI16 (wrapI16 s + off) = wrapI16 ((pl + (s - ix) : Nat) : Int) ∧
    wrapI16 (off + wrapI16 (wrapI16 phl - wrapI16 c)) = wrapI16 ((n' : Int) - e) ∧
    wrapI16 (wrapI16 e + wrapI16 (off + wrapI16 (wrapI16 phl - wrapI16 c))) = wrapI16 (n' : Int) := by
  have h2 : wrapI16 (off + wrapI16 (wrapI16 phl - wrapI16 c)) = wrapI16 ((n' : Int) - e) := by
    rw [hoff, wrap_diff, wrap_sum]
    exact congrArg wrapI16 (by omega)
  refine ⟨?_, h2, ?_⟩
  · rw [hoff, wrap_sum]
    exact congrArg wrapI16 (by omega)
  · rw [h2, wrap_sum]
    exact congrArg wrapI16 (by omega)

/-- Whatever the sizes, the table has the ranges of the placeholders as 16-bit integers see them. -/
theorem replaceFold_mapping (text : Text) (ph : Text → Text) (ms : List MatchedEntity) : ∀ (st : ReplaceState),
    Chain text.length st.currentIx ms →
    st.offset = wrapI16 ((st.processed.length : Int) - st.currentIx) →
    (ms.foldl (replaceStep text ph) st).mapping =
      (occs ph st.currentIx st.processed.length (buildSegs text st.currentIx ms)).foldl
        (fun m c => Map.insert m c.repl.as16 c.orig) st.mapping := by
  induction ms with
  | nil => intro st _ _; simp [buildSegs, occs]
  | cons m ms ih =>
    intro st h hoff
    obtain ⟨h1, h2, h3⟩ := chain_cons.1 h
    have hle := h3.le
    have l1 : (substr text ⟨st.currentIx, m.range.start⟩).length = m.range.start - st.currentIx :=
      length_substr (by simp only; omega)
    have l2 : (substr text m.range).length = m.range.stop - m.range.start := length_substr hle
    have hcnt : m.range.count + m.range.start = m.range.stop := by unfold Rng.count; omega
    have hn : (st.processed ++ substr text ⟨st.currentIx, m.range.start⟩ ++ ph m.name).length
        = st.processed.length + (m.range.start - st.currentIx) + (ph m.name).length := by
      simp only [List.length_append, l1]
    obtain ⟨hstart, hoff', hstop⟩ := wrap_arith h1 hcnt hn hoff
    have hstep : replaceStep text ph st m =
        { mapping := Map.insert st.mapping (Rng.as16 ⟨st.processed.length + (m.range.start - st.currentIx),
            st.processed.length + (m.range.start - st.currentIx) + (ph m.name).length⟩) m.range
          processed := st.processed ++ substr text ⟨st.currentIx, m.range.start⟩ ++ ph m.name
          offset := wrapI16 (((st.processed ++ substr text ⟨st.currentIx, m.range.start⟩ ++ ph m.name).length : Int)
            - m.range.stop)
          currentIx := m.range.stop } := by
      unfold replaceStep
      simp only
      rw [hstart, hstop, hoff', hn]
      rfl
    rw [List.foldl_cons, hstep, ih _ h3 rfl]
    simp only [buildSegs, occs, List.foldl_cons, List.length_append, l1, l2]
    have e1 : st.currentIx + (m.range.start - st.currentIx) = m.range.start := by omega
    have e2 : m.range.start + (m.range.stop - m.range.start) = m.range.stop := by omega
    simp only [e1, e2]

theorem as16_of_small {r : Rng} (h1 : r.start ≤ r.stop) (h2 : r.stop < 32768) : r.as16 = r := by
  have h : ∀ n : Nat, n < 32768 → pos16 n = n := by
    intro n hn
    unfold pos16
    rw [wrapI16_eq (by omega) (by omega), asUsize_eq (by omega) (by omega)]; omega
  obtain ⟨a, b⟩ := r
  simp only at h1 h2
  unfold Rng.as16
  simp only
  rw [h a (by omega), h b h2]

/-- The ends of placeholders that are not empty increase. -/
theorem occs_stops (ph : Text → Text) (hph : ∀ name, ph name ≠ []) : ∀ (segs : List Seg) (o n : Nat),
    (occs ph o n segs).Pairwise (fun a b => a.repl.stop < b.repl.stop)
  | [], _, _ => by simp [occs]
  | .plain t :: segs, o, n => occs_stops ph hph segs _ _
  | .ent t name :: segs, o, n => by
    simp only [occs, List.pairwise_cons]
    refine ⟨?_, occs_stops ph hph segs _ _⟩
    intro x hx
    have hlt : ∀ (segs : List Seg) (o n : Nat), ∀ x ∈ occs ph o n segs, n < x.repl.stop := by
      intro segs
      induction segs with
      | nil => intro o n x hx; simp [occs] at hx
      | cons s segs ih =>
        intro o n x hx
        cases s with
        | plain t => have := ih _ _ x hx; omega
        | ent t name =>
          have hpos : 0 < (ph name).length := List.length_pos_iff.2 (hph name)
          rcases List.mem_cons.1 hx with rfl | hx
          · show n < n + (ph name).length; omega
          · have := ih _ _ x hx; omega
    exact hlt segs _ _ x hx

theorem foldl_insert_fresh {α κ ν : Type} [DecidableEq κ] (k : α → κ) (v : α → ν) : ∀ (l : List α) (m : Map κ ν),
    (l.map k).Nodup → (∀ a ∈ l, k a ∉ m.map Prod.fst) →
    l.foldl (fun m a => Map.insert m (k a) (v a)) m = m ++ l.map fun a => (k a, v a)
  | [], m, _, _ => by simp
  | a :: l, m, hn, hm => by
    rw [List.map_cons, List.nodup_cons] at hn
    rw [List.foldl_cons, Map.insert_of_notMem m _ _ (hm a (by simp)),
      foldl_insert_fresh k v l _ hn.2]
    · simp
    · intro b hb
      rw [List.map_append, List.mem_append, not_or]
      refine ⟨hm b (by simp [hb]), ?_⟩
      simp only [List.map_cons, List.map_nil, List.mem_singleton]
      intro he
      exact hn.1 (List.mem_map.2 ⟨b, hb, he⟩)

theorem overflowsI16_iff {x : Int} : overflowsI16 x = true ↔ x < -32768 ∨ 32767 < x := by
  unfold overflowsI16
  rw [Bool.or_eq_true, decide_eq_true_eq, decide_eq_true_eq]

theorem overflow_arith {B ix s e c pl phl n : Nat} {off : Int} (hB : B = 32768) (h1 : ix ≤ s) (h3 : e ≤ n)
    (hc : c + s = e) (ht : n < B) (hp : phl < B) (hoff : off = (pl : Int) - ix) :
    (overflowsI16 (wrapI16 s + off) = true ∨ overflowsI16 (wrapI16 phl - wrapI16 c) = true ∨
      overflowsI16 (off + wrapI16 (wrapI16 phl - wrapI16 c)) = true ∨
      overflowsI16 (wrapI16 e + wrapI16 (off + wrapI16 (wrapI16 phl - wrapI16 c))) = true ↔
        B ≤ pl + (s - ix) + phl) ∧
    (pl + (s - ix) + phl < B → wrapI16 (off + wrapI16 (wrapI16 phl - wrapI16 c)) = off + (phl - c)) := by
  have hw : ∀ x : Int, -(B : Int) ≤ x → x < B → wrapI16 x = x := by
    intro x h h'
    rw [hB] at h h'
    exact wrapI16_eq h h'
  have ho : ∀ x : Int, overflowsI16 x = true ↔ x < -(B : Int) ∨ (B : Int) ≤ x := by
    intro x
    rw [hB, overflowsI16_iff]
    exact Iff.rfl
  clear hB
  have hall : wrapI16 (s : Int) = s ∧ wrapI16 (e : Int) = e ∧ wrapI16 (phl : Int) = phl ∧ wrapI16 (c : Int) = c ∧
      wrapI16 ((phl : Int) - c) = phl - c := by
    refine ⟨?_, ?_, ?_, ?_, ?_⟩ <;> exact hw _ (by omega) (by omega)
  rw [hall.1, hall.2.1, hall.2.2.1, hall.2.2.2.1, hall.2.2.2.2]
  clear hall
  simp only [ho]
  refine ⟨?_, fun h => hw _ (by omega) (by omega)⟩
  by_cases hbig : (B : Int) ≤ off + ((phl : Int) - c)
  · exact ⟨fun _ => by omega, fun _ => Or.inr (Or.inr (Or.inl (Or.inr hbig)))⟩
  · rw [hw (off + ((phl : Int) - c)) (by omega) (by omega)]
    omega

/-- With a text and placeholders of less than 2^15 characters, an operation overflows exactly if a placeholder
ends at position 2^15 or later. -/
theorem replaceOverflows_iff (text : Text) (ph : Text → Text) (B : Nat) (hB : B = 32768) (ht : text.length < B)
    (ms : List MatchedEntity) : ∀ (st : ReplaceState), (∀ m ∈ ms, (ph m.name).length < B) →
    Chain text.length st.currentIx ms →
    st.offset = (st.processed.length : Int) - st.currentIx →
    (replaceOverflows text ph st ms = true ↔
      ∃ c ∈ occs ph st.currentIx st.processed.length (buildSegs text st.currentIx ms), B ≤ c.repl.stop) := by
  induction ms with
  | nil => intro st _ _ _; simp [buildSegs, occs, replaceOverflows]
  | cons m ms ih =>
    intro st hph h hoff
    obtain ⟨h1, h2, h3⟩ := chain_cons.1 h
    have hle := h3.le
    have hpl := hph m (by simp)
    have l1 : (substr text ⟨st.currentIx, m.range.start⟩).length = m.range.start - st.currentIx :=
      length_substr (by simp only; omega)
    have l2 : (substr text m.range).length = m.range.stop - m.range.start := length_substr hle
    have hcnt : m.range.count + m.range.start = m.range.stop := by unfold Rng.count; omega
    have e1 : st.currentIx + (m.range.start - st.currentIx) = m.range.start := by omega
    have e2 : m.range.start + (m.range.stop - m.range.start) = m.range.stop := by omega
    obtain ⟨ov, wo⟩ := overflow_arith hB h1 hle hcnt ht hpl hoff
    have hstep : replaceStepOverflows ph st m = true ↔
        B ≤ st.processed.length + (m.range.start - st.currentIx) + (ph m.name).length := by
      rw [← ov]
      unfold replaceStepOverflows
      simp only [Bool.or_eq_true, or_assoc]
    simp only [replaceOverflows, Bool.or_eq_true, hstep, buildSegs, occs, l1, l2, e1, e2, List.mem_cons,
      exists_eq_or_imp]
    refine or_congr_right' fun hsmall => ?_
    have hst := ih (replaceStep text ph st m) (fun m' h' => hph m' (by simp [h'])) h3 (by
      simp only [replaceStep, wo (by omega), List.length_append, l1]
      omega)
    rw [hst]
    simp only [replaceStep, List.length_append, l1]

theorem placeholder_le_replText (text : Text) (ph : Text → Text) : ∀ (ms : List MatchedEntity) (cur : Nat),
    ∀ m ∈ ms, (ph m.name).length ≤ (replText ph (buildSegs text cur ms)).length
  | m' :: ms, cur, m, hm => by
    simp only [buildSegs, replText_cons, List.length_append, Seg.repl]
    rcases List.mem_cons.1 hm with rfl | hm
    · omega
    · have := placeholder_le_replText text ph ms m'.range.stop m hm
      omega

/-- The matches with their ranges in the new text, computed from the matches alone. -/
def occOf (ph : Text → Text) : Nat → Nat → List MatchedEntity → List Occ
  | _, _, [] => []
  | o, n, m :: ms =>
    ⟨m.range, ⟨n + (m.range.start - o), n + (m.range.start - o) + (ph m.name).length⟩, m.name⟩ ::
      occOf ph m.range.stop (n + (m.range.start - o) + (ph m.name).length) ms

theorem occs_orig_ge (ph : Text → Text) : ∀ (segs : List Seg) (o n : Nat), ∀ x ∈ occs ph o n segs, o ≤ x.orig.start
  | [], _, _ => by simp [occs]
  | .plain t :: segs, o, n => by
    intro x hx
    have := occs_orig_ge ph segs _ _ x hx
    omega
  | .ent t name :: segs, o, n => by
    intro x hx
    rcases List.mem_cons.1 hx with rfl | hx
    · exact Nat.le_refl _
    · have := occs_orig_ge ph segs _ _ x hx
      omega

theorem occs_eq_occOf (ph : Text → Text) : ∀ (segs : List Seg) (o n : Nat),
    occs ph o n segs = occOf ph o n ((occs ph o n segs).map fun c => (⟨c.orig, c.name⟩ : MatchedEntity))
  | [], _, _ => rfl
  | .plain t :: segs, o, n => by
    have ih := occs_eq_occOf ph segs (o + t.length) (n + t.length)
    have hge := occs_orig_ge ph segs (o + t.length) (n + t.length)
    show occs ph (o + t.length) (n + t.length) segs =
      occOf ph o n ((occs ph (o + t.length) (n + t.length) segs).map fun c => (⟨c.orig, c.name⟩ : MatchedEntity))
    generalize occs ph (o + t.length) (n + t.length) segs = l at ih hge
    cases l with
    | nil => rfl
    | cons c l =>
      have h := hge c (by simp)
      have e : n + t.length + (c.orig.start - (o + t.length)) = n + (c.orig.start - o) := by omega
      simp only [List.map_cons, occOf, List.cons.injEq, e] at ih ⊢
      exact ih
  | .ent t name :: segs, o, n => by
    have ih := occs_eq_occOf ph segs (o + t.length) (n + (ph name).length)
    simp only [occs, List.map_cons, occOf, Nat.sub_self, Nat.add_zero, List.cons.injEq, true_and]
    exact ih

/-- However a text is cut around the same matches, the placeholders are at the same places. -/
theorem occs_unique (ph : Text → Text) {segs segs' : List Seg} {ms : List MatchedEntity}
    (h : (occs ph 0 0 segs).map (fun c => (⟨c.orig, c.name⟩ : MatchedEntity)) = ms)
    (h' : (occs ph 0 0 segs').map (fun c => (⟨c.orig, c.name⟩ : MatchedEntity)) = ms) :
    occs ph 0 0 segs = occs ph 0 0 segs' := by
  rw [occs_eq_occOf ph segs, occs_eq_occOf ph segs', h, h']

theorem pos16_range (n : Nat) : pos16 n < 32768 ∨ 18446744073709518848 ≤ pos16 n := by
  have h1 : -32768 ≤ wrapI16 (n : Int) := Int.le_bmod (x := n) (m := 65536) (by omega)
  have h2 : wrapI16 (n : Int) < 32768 := Int.bmod_lt (x := n) (m := 65536) (by omega)
  unfold pos16 asUsize
  generalize wrapI16 (n : Int) = x at h1 h2
  omega

theorem foldl_insert_keys {α κ ν : Type} [DecidableEq κ] (k : α → κ) (v : α → ν) : ∀ (l : List α) (m : Map κ ν),
    ∀ x ∈ (l.foldl (fun m a => Map.insert m (k a) (v a)) m).map Prod.fst, x ∈ m.map Prod.fst ∨ ∃ a ∈ l, x = k a
  | [], m, x, hx => Or.inl hx
  | a :: l, m, x, hx => by
    rw [List.foldl_cons] at hx
    rcases foldl_insert_keys k v l _ x hx with h | ⟨b, hb, rfl⟩
    · have : ∀ (m : Map κ ν), x ∈ (Map.insert m (k a) (v a)).map Prod.fst → x = k a ∨ x ∈ m.map Prod.fst := by
        intro m
        induction m with
        | nil => intro h; simpa [Map.insert] using h
        | cons e m ih =>
          obtain ⟨ek, ev⟩ := e
          intro h
          unfold Map.insert at h
          split at h
          · rename_i he
            simp only [List.map_cons, List.mem_cons] at h ⊢
            rcases h with h | h
            · exact Or.inl h
            · exact Or.inr (Or.inr h)
          · simp only [List.map_cons, List.mem_cons] at h ⊢
            rcases h with h | h
            · exact Or.inr (Or.inl h)
            · rcases ih h with h | h
              · exact Or.inl h
              · exact Or.inr (Or.inr h)
      rcases this m h with h | h
      · exact Or.inr ⟨a, by simp, h⟩
      · exact Or.inl h
    · exact Or.inr ⟨b, by simp [hb], rfl⟩

theorem chain_of_before {n : Nat} (ms : List MatchedEntity) : ∀ (cur : Nat), cur ≤ n →
    (∀ m ∈ ms, cur ≤ m.range.start ∧ m.range.start < m.range.stop ∧ m.range.stop ≤ n) →
    ms.Pairwise (fun a b => a.range.Before b.range) → Chain n cur ms := by
  induction ms with
  | nil => intro _ h _ _; exact h
  | cons m ms ih =>
    intro cur _ h hp
    rw [List.pairwise_cons] at hp
    obtain ⟨h1, h2, h3⟩ := h m (by simp)
    refine ⟨h1, h2, ih m.range.stop h3 ?_ hp.2⟩
    intro m' hm'
    obtain ⟨h1', h2', h3'⟩ := h m' (by simp [hm'])
    exact ⟨hp.1 m' hm', h2', h3'⟩

end Snips
