import Mathlib.Data.Nat.Digits.Defs
import Verif.Proofs.Map
import Verif.Spec.Resources

/-! Lemmas on gazetteers, stemmers and word clusters. -/

namespace Snips

theorem LastAt.cons {α κ : Type} {key : α → κ} {l pre : List α} {k : κ} {a b : α}
    (h : LastAt key l k pre a) : LastAt key (b :: l) k (b :: pre) a := by
  obtain ⟨post, h1, h2, h3⟩ := h
  exact ⟨post, by simp [h1], h2, h3⟩

/-- Every key that occurs has a last occurrence. -/
theorem exists_lastAt {α κ : Type} [DecidableEq κ] (key : α → κ) (l : List α) (k : κ) :
    (∃ pre a, LastAt key l k pre a) ∨ ∀ b ∈ l, key b ≠ k := by
  induction l with
  | nil => exact Or.inr (by simp)
  | cons b l ih =>
    rcases ih with ⟨pre, a, h⟩ | h
    · exact Or.inl ⟨_, _, h.cons⟩
    · by_cases hb : key b = k
      · exact Or.inl ⟨[], b, l, rfl, hb, h⟩
      · refine Or.inr ?_
        intro c hc
        rcases List.mem_cons.1 hc with rfl | hc
        · exact hb
        · exact h c hc

theorem get_foldl_insert {α κ ν : Type} [DecidableEq κ] (f : α → κ) (g : α → ν) (l : List α) (m : Map κ ν)
    (k : κ) :
    (∀ pre a, LastAt f l k pre a → Map.get (l.foldl (fun m e => m.insert (f e) (g e)) m) k = some (g a)) ∧
    ((∀ b ∈ l, f b ≠ k) → Map.get (l.foldl (fun m e => m.insert (f e) (g e)) m) k = Map.get m k) := by
  induction l generalizing m with
  | nil =>
    refine ⟨?_, fun _ => rfl⟩
    rintro pre a ⟨post, h, _⟩
    simp at h
  | cons b l ih =>
    simp only [List.foldl_cons]
    obtain ⟨ih1, ih2⟩ := ih (m.insert (f b) (g b))
    refine ⟨?_, ?_⟩
    · rintro pre a ⟨post, h, hk, hpost⟩
      rcases pre with _ | ⟨c, pre⟩
      · simp only [List.nil_append, List.cons.injEq] at h
        obtain ⟨rfl, rfl⟩ := h
        rw [ih2 hpost, Map.get_insert]
        simp [hk]
      · simp only [List.cons_append, List.cons.injEq] at h
        exact ih1 pre a ⟨post, h.2, hk, hpost⟩
    · intro h
      rw [ih2 (fun c hc => h c (List.mem_cons_of_mem _ hc)), Map.get_insert]
      have := h b (List.mem_cons_self)
      simp [Ne.symm this]

theorem Gazetteer.load_spec (hash : Text → Int) (words : List Text) (values : List Int) :
    ∃ g, Gazetteer.load hash (words.map .ok) values = .ok g ∧
      ∀ h, h ∈ g.values ↔ h ∈ values ∨ ∃ w ∈ words, w ≠ [] ∧ hash w = h := by
  induction words generalizing values with
  | nil => exact ⟨⟨values⟩, rfl, by simp⟩
  | cons w ws ih =>
    by_cases hw : w = []
    · obtain ⟨g, hg, hs⟩ := ih values
      refine ⟨g, ?_, ?_⟩
      · simp only [List.map_cons, Gazetteer.load]
        change (if w = [] then _ else _) = _
        rw [if_pos hw]; exact hg
      · intro h; rw [hs]; simp [hw]
    · obtain ⟨g, hg, hs⟩ := ih (if values.contains (hash w) then values else values ++ [hash w])
      refine ⟨g, ?_, ?_⟩
      · simp only [List.map_cons, Gazetteer.load]
        change (if w = [] then _ else _) = _
        rw [if_neg hw]; exact hg
      · intro h
        rw [hs]
        have : (h ∈ (if values.contains (hash w) then values else values ++ [hash w])) ↔
            (h ∈ values ∨ h = hash w) := by
          by_cases hc : values.contains (hash w) = true
          · rw [if_pos hc]
            constructor
            · exact Or.inl
            · rintro (h' | rfl)
              · exact h'
              · simpa using hc
          · rw [if_neg hc]; simp
        rw [this]
        simp only [List.mem_cons, exists_eq_or_imp]
        constructor
        · rintro ((h1 | h1) | h1)
          · exact Or.inl h1
          · exact Or.inr (Or.inl ⟨hw, h1.symm⟩)
          · exact Or.inr (Or.inr h1)
        · rintro (h1 | ⟨_, h1⟩ | h1)
          · exact Or.inl (Or.inl h1)
          · exact Or.inl (Or.inr h1.symm)
          · exact Or.inr h1

theorem Stemmer.addValues_eq (hash : Text → Int) (stem : Text) (m : Map Int Text) (ws : List Text) :
    Stemmer.addValues hash stem m ws =
      (ws.map fun w => (w, stem)).foldl (fun m e => m.insert (hash e.1) e.2) m := by
  unfold Stemmer.addValues
  rw [List.foldl_map]

theorem Stemmer.load_spec (hash : Text → Int) {records : List (Outcome (List Text))}
    {entries : List (Text × List Text)} (h : StemFile records entries) (m : Map Int Text) :
    Stemmer.load hash records m = .ok ⟨(stemLines entries).foldl (fun m e => m.insert (hash e.1) e.2) m⟩ := by
  unfold StemFile at h
  induction h generalizing m with
  | nil => rfl
  | cons hr _ ih =>
    rename_i r e rs es _
    subst hr
    unfold Stemmer.load
    change Stemmer.load hash rs (Stemmer.addValues hash e.1 m e.2) = _
    rw [ih, Stemmer.addValues_eq]
    simp only [stemLines, List.flatMap_cons, List.foldl_append]

/-! ### Word clusters -/

theorem isDigit_iff (c : Char) : c.isDigit = true ↔ '0' ≤ c ∧ c ≤ '9' := by
  unfold Char.isDigit
  simp only [Bool.and_eq_true, decide_eq_true_eq]
  rfl

theorem decimal_foldl (t : Text) (n : Nat) :
    t.foldl (fun n c => 10 * n + (c.toNat - '0'.toNat)) n =
      n * 10 ^ t.length + Nat.ofDigits 10 (t.reverse.map digitOf) := by
  induction t generalizing n with
  | nil => simp
  | cons c t ih =>
    rw [List.foldl_cons, ih]
    simp only [List.reverse_cons, List.map_append, List.map_cons, List.map_nil, Nat.ofDigits_append,
      List.length_map, List.length_reverse, Nat.ofDigits_singleton, List.length_cons, digitOf]
    ring

theorem decimalValue_some (t : Text) (n : Nat) :
    decimalValue t = some n ↔ t ≠ [] ∧ (∀ c ∈ t, '0' ≤ c ∧ c ≤ '9') ∧
      Nat.ofDigits 10 (t.reverse.map digitOf) = n := by
  unfold decimalValue
  rw [decimal_foldl]
  have hall : t.all Char.isDigit = true ↔ ∀ c ∈ t, '0' ≤ c ∧ c ≤ '9' := by
    rw [List.all_eq_true]
    exact forall₂_congr fun c _ => isDigit_iff c
  by_cases h : t ≠ [] ∧ t.all Char.isDigit = true
  · rw [if_pos h]
    simp only [Nat.zero_mul, Nat.zero_add, Option.some.injEq]
    exact ⟨fun e => ⟨h.1, hall.1 h.2, e⟩, fun e => e.2.2⟩
  · rw [if_neg h]
    constructor
    · intro e; cases e
    · rintro ⟨h1, h2, _⟩; exact absurd ⟨h1, hall.2 h2⟩ h

theorem parseU16_some (t : Text) (n : Nat) : parseU16 t = some n ↔ DenotesU16 t n := by
  have key : ∀ d : Text, (match decimalValue d with
      | some n => if n < 65536 then some n else none
      | none => none) = some n ↔ (n < 2 ^ 16 ∧ decimalValue d = some n) := by
    intro d
    cases hd : decimalValue d with
    | none => simp
    | some k =>
      simp only [Option.some.injEq]
      by_cases hk : k < 65536
      · rw [if_pos hk]
        constructor
        · intro e; cases e; exact ⟨by norm_num; exact hk, rfl⟩
        · rintro ⟨_, rfl⟩; rfl
      · rw [if_neg hk]
        constructor
        · intro e; cases e
        · rintro ⟨h, rfl⟩; norm_num at h; exact absurd h hk
  have plus : ¬ ('0' ≤ '+' ∧ '+' ≤ '9') := by decide
  unfold parseU16
  refine (key (dropPlus t)).trans ?_
  rw [decimalValue_some]
  unfold DenotesU16
  have hd : dropPlus t = t ∨ t = '+' :: dropPlus t := by
    cases t with
    | nil => exact Or.inl rfl
    | cons c rest =>
      by_cases hc : c = '+'
      · right; simp [dropPlus, hc]
      · left; simp [dropPlus, hc]
  constructor
  · rintro ⟨h1, h2⟩
    refine ⟨h1, dropPlus t, ?_, h2⟩
    rcases hd with hd | hd
    · exact Or.inl hd.symm
    · exact Or.inr hd
  · rintro ⟨h1, d, ht, h2⟩
    refine ⟨h1, ?_⟩
    suffices hh : dropPlus t = d by rw [hh]; exact h2
    rcases ht with rfl | rfl
    · rcases t with _ | ⟨c, rest⟩
      · rfl
      · have hc : c ≠ '+' := fun e => plus (e ▸ h2.2.1 c (List.mem_cons_self))
        simp [dropPlus, hc]
    · simp [dropPlus]

/-- What is stored for an entry after the entries `pre`. -/
def storedName (pre : List (Text × Text)) (e : Text × Text) : Text :=
  if ∀ x ∈ pre ++ [e], (parseU16 x.2).isSome then
    match parseU16 e.2 with
    | some n => natText n
    | none => e.2
  else e.2

/-- The value kept for a hash. -/
def WordClusterer.atHash (w : WordClusterer) (k : Int) : Option Text :=
  match w with
  | .numeric values => (values.get k).map natText
  | .textual values => values.get k

theorem WordClusterer.getCluster_eq (hash : Text → Int) (w : WordClusterer) (word : Text) :
    w.getCluster hash word = w.atHash (hash word) := by cases w <;> rfl

theorem toTextual_get (o : HashOrd) (m : Map Int Nat) (hm : m.keys.Nodup) (k : Int) :
    Map.get (WordClusterer.toTextual o m) k = (m.get k).map natText := by
  unfold WordClusterer.toTextual
  obtain ⟨h1, h2⟩ := get_foldl_insert (fun e : Int × Nat => e.1) (fun e => natText e.2) (o.order 0 m) [] k
  rcases exists_lastAt (fun e : Int × Nat => e.1) (o.order 0 m) k with ⟨pre, a, h⟩ | h
  · rw [h1 pre a h]
    obtain ⟨post, e, hk, _⟩ := h
    have hmem : a ∈ m := by
      have : a ∈ o.order 0 m := by rw [e]; simp
      exact (o.perm 0 m).mem_iff.1 this
    rw [Map.get_of_mem hm (k := k) (v := a.2) (by rw [← hk]; exact hmem)]
    rfl
  · rw [h2 h]
    have : Map.get m k = none := by
      rw [Map.get_none_iff]
      intro hk
      obtain ⟨e, he, hek⟩ := List.mem_map.1 hk
      exact h e ((o.perm 0 m).mem_iff.2 he) hek
    rw [this]; rfl

theorem loadTextual_spec (hash : Text → Int) {records : List (Outcome (List Text))}
    {entries : List (Text × Text)} (h : ClusterFile records entries) (m : Map Int Text) :
    WordClusterer.loadTextual hash records m =
      .ok (.textual (entries.foldl (fun m e => m.insert (hash e.1) e.2) m)) := by
  unfold ClusterFile at h
  induction h generalizing m with
  | nil => rfl
  | cons hr _ ih =>
    rename_i r e rs es _
    obtain ⟨more, rfl⟩ := hr
    unfold WordClusterer.loadTextual
    change WordClusterer.loadTextual hash rs (m.insert (hash e.1) e.2) = _
    rw [ih]
    rfl

theorem storedName_cons_numeric {x e : Text × Text} {pre : List (Text × Text)}
    (hx : (parseU16 x.2).isSome) : storedName (x :: pre) e = storedName pre e := by
  unfold storedName
  simp only [List.cons_append, List.mem_cons, forall_eq_or_imp, hx, true_and]

theorem loadNumeric_spec (hash : Text → Int) (o : HashOrd) {records : List (Outcome (List Text))}
    {entries : List (Text × Text)} (h : ClusterFile records entries) (m : Map Int Nat) (hm : m.keys.Nodup) :
    ∃ w, WordClusterer.loadNumeric hash o records m = .ok w ∧ ∀ k,
      (∀ pre e, LastAt (fun e : Text × Text => hash e.1) entries k pre e → w.atHash k = some (storedName pre e)) ∧
      ((∀ e ∈ entries, hash e.1 ≠ k) → w.atHash k = (m.get k).map natText) := by
  unfold ClusterFile at h
  induction h generalizing m with
  | nil =>
    refine ⟨.numeric m, rfl, fun k => ⟨?_, fun _ => rfl⟩⟩
    rintro pre e ⟨post, h, _⟩
    simp at h
  | cons hr hrest ih =>
    rename_i r x rs es
    obtain ⟨more, rfl⟩ := hr
    cases hp : parseU16 x.2 with
    | some n =>
      obtain ⟨w, hw, hs⟩ := ih (m.insert (hash x.1) n) (Map.keys_insert_nodup _ _ _ hm)
      refine ⟨w, ?_, ?_⟩
      · unfold WordClusterer.loadNumeric
        change (match parseU16 x.2 with | some n => _ | none => _) = _
        rw [hp]
        exact hw
      · intro k
        obtain ⟨hs1, hs2⟩ := hs k
        refine ⟨?_, ?_⟩
        · rintro pre e ⟨post, h, hk, hpost⟩
          rcases pre with _ | ⟨c, pre⟩
          · simp only [List.nil_append, List.cons.injEq] at h
            obtain ⟨rfl, rfl⟩ := h
            rw [hs2 hpost, Map.get_insert]
            simp [hk, storedName, hp]
          · simp only [List.cons_append, List.cons.injEq] at h
            obtain ⟨rfl, h⟩ := h
            rw [hs1 pre e ⟨post, h, hk, hpost⟩, storedName_cons_numeric (by simp [hp])]
        · intro h
          rw [hs2 (fun c hc => h c (List.mem_cons_of_mem _ hc)), Map.get_insert]
          have := h x (List.mem_cons_self)
          simp [Ne.symm this]
    | none =>
      refine ⟨.textual (es.foldl (fun m e => m.insert (hash e.1) e.2)
        ((WordClusterer.toTextual o m).insert (hash x.1) x.2)), ?_, ?_⟩
      · unfold WordClusterer.loadNumeric
        change (match parseU16 x.2 with | some n => _ | none => _) = _
        rw [hp]
        exact loadTextual_spec hash hrest _
      · intro k
        obtain ⟨h1, h2⟩ := get_foldl_insert (fun e : Text × Text => hash e.1) (fun e => e.2) (x :: es)
          (WordClusterer.toTextual o m) k
        refine ⟨?_, ?_⟩
        · intro pre e hl
          have hst : storedName pre e = e.2 := by
            unfold storedName
            rw [if_neg]
            intro hall
            obtain ⟨post, heq, _⟩ := hl
            have hx : x ∈ pre ++ [e] := by
              rcases pre with _ | ⟨c, pre⟩
              · simp only [List.nil_append, List.cons.injEq] at heq
                simp [heq.1]
              · simp only [List.cons_append, List.cons.injEq] at heq
                simp [heq.1]
            have := hall x hx
            simp [hp] at this
          rw [hst]
          exact h1 pre e hl
        · intro h
          rw [← toTextual_get o m hm k]
          exact h2 h

end Snips
