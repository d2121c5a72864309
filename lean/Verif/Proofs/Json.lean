import Verif.Spec.Json
import Verif.Proofs.Prog
import Verif.Proofs.Resources
import Verif.Proofs.Safety
import Verif.Proofs.Tags

/-! Lemmas on the decoding of JSON documents. -/

namespace Snips

theorem Outcome.bind_safe' {α β : Type} {o : Outcome α} {f : α → Outcome β} (ho : o ≠ .panic)
    (hf : ∀ a, f a ≠ .panic) : (o >>= f) ≠ .panic :=
  Outcome.bind_safe ho fun a _ => hf a

theorem jsonError_ne_panic {α : Type} : (jsonError : Outcome α) ≠ .panic := by simp [jsonError]

theorem jsonError_ne_ok {α : Type} {a : α} : (jsonError : Outcome α) ≠ .ok a := by simp [jsonError]

/-! ### Kinds of documents -/

theorem reads_text : Reads Json.text TextDoc where
  sound j a h := by
    cases j <;> simp [Json.text, jsonError] at h
    exact congrArg Json.str h
  complete j a h := by cases h; exact ⟨a, rfl⟩
  safe j := by cases j <;> simp [Json.text, jsonError]

theorem reads_boolean : Reads Json.boolean BoolDoc where
  sound j a h := by
    cases j <;> simp [Json.boolean, jsonError] at h
    exact congrArg Json.bool h
  complete j a h := by cases h; exact ⟨a, rfl⟩
  safe j := by cases j <;> simp [Json.boolean, jsonError]

theorem reads_natBelow (bound : Nat) : Reads (Json.natBelow bound) (NatDoc bound) where
  sound j a h := by
    cases j with
    | int n =>
      simp only [Json.natBelow] at h
      split at h
      · next hn =>
        cases h
        exact ⟨by congr 1; omega, by omega⟩
      · exact absurd h jsonError_ne_ok
    | _ => exact absurd h jsonError_ne_ok
  complete j a h := by
    obtain ⟨rfl, h⟩ := h
    exact ⟨a, by simp [Json.natBelow, h]⟩
  safe j := by
    cases j with
    | int n => simp only [Json.natBelow]; split <;> simp [jsonError]
    | _ => exact jsonError_ne_panic

theorem reads_i32 : Reads Json.i32 IntDoc where
  sound j a h := by
    cases j with
    | int n =>
      simp only [Json.i32] at h
      split at h
      · next hn =>
        cases h
        exact ⟨rfl, by norm_num; exact hn.1, by norm_num; exact hn.2⟩
      · exact absurd h jsonError_ne_ok
    | _ => exact absurd h jsonError_ne_ok
  complete j a h := by
    obtain ⟨rfl, h⟩ := h
    norm_num at h
    exact ⟨a, by simp only [Json.i32]; rw [if_pos h]⟩
  safe j := by
    cases j with
    | int n => simp only [Json.i32]; split <;> simp [jsonError]
    | _ => exact jsonError_ne_panic

theorem reads_f32 (rd : Rounding) : Reads (Json.f32 rd) (FloatDoc rd) where
  sound j a h := by
    cases j with
    | int n => cases h; exact Or.inl ⟨n, rfl, rfl⟩
    | float q => cases h; exact Or.inr ⟨q, rfl, rfl⟩
    | _ => exact absurd h jsonError_ne_ok
  complete j a h := by
    rcases h with ⟨n, rfl, rfl⟩ | ⟨x, rfl, rfl⟩
    · exact ⟨_, rfl⟩
    · exact ⟨_, rfl⟩
  safe j := by cases j <;> simp [Json.f32, jsonError]

theorem reads_anyValue : Reads anyValue AnyDoc where
  sound j a h := by cases h; rfl
  complete j a _ := ⟨j, rfl⟩
  safe j := by simp [anyValue]

theorem option_of_ne_null {α : Type} {d : Json → Outcome α} {j : Json} (h : j ≠ .null) :
    Json.option d j = (do
      let a ← d j
      .ok (some a)) := by
  cases j with
  | null => exact absurd rfl h
  | _ => rfl

theorem Reads.option {α : Type} {d : Json → Outcome α} {P : Json → α → Prop} (h : Reads d P) :
    Reads (Json.option d) (OptionDoc P) where
  sound j o ho := by
    by_cases hj : j = .null
    · subst hj; cases ho; exact Or.inl ⟨rfl, rfl⟩
    · rw [option_of_ne_null hj, Outcome.bind_ok_iff'] at ho
      obtain ⟨a, ha, ho⟩ := ho
      cases ho
      exact Or.inr ⟨hj, a, h.sound _ _ ha, rfl⟩
  complete j o ho := by
    rcases ho with ⟨rfl, rfl⟩ | ⟨hj, a, ha, rfl⟩
    · exact ⟨none, rfl⟩
    · obtain ⟨a', ha'⟩ := h.complete _ _ ha
      exact ⟨some a', by rw [option_of_ne_null hj, Outcome.bind_ok_iff']; exact ⟨a', ha', rfl⟩⟩
  safe j := by
    by_cases hj : j = .null
    · subst hj; simp [Json.option]
    · rw [option_of_ne_null hj]
      exact Outcome.bind_safe' (h.safe _) fun _ => by simp

theorem reads_mapOutcome {ι α : Type} {d : ι → Outcome α} {P : ι → α → Prop} (h : Reads d P) :
    Reads (mapOutcome d) (List.Forall₂ P) where
  sound l r hr := by
    rw [mapOutcome_ok_iff] at hr
    exact hr.imp fun j a => h.sound j a
  complete l r hr := by
    have : ∃ r', List.Forall₂ (fun a b => d a = .ok b) l r' := by
      induction hr with
      | nil => exact ⟨[], .nil⟩
      | cons ha _ ih =>
        obtain ⟨r', hr'⟩ := ih
        obtain ⟨a', ha'⟩ := h.complete _ _ ha
        exact ⟨a' :: r', .cons ha' hr'⟩
    obtain ⟨r', hr'⟩ := this
    exact ⟨r', mapOutcome_ok_iff.2 hr'⟩
  safe l := mapOutcome_safe fun a _ => h.safe a

theorem Reads.vec {α : Type} {d : Json → Outcome α} {P : Json → α → Prop} (h : Reads d P) :
    Reads (Json.vec d) (ListDoc P) where
  sound j l hl := by
    cases j with
    | arr items => exact ⟨items, rfl, (reads_mapOutcome h).sound _ _ hl⟩
    | _ => exact absurd hl jsonError_ne_ok
  complete j l hl := by
    obtain ⟨items, rfl, hl⟩ := hl
    exact (reads_mapOutcome h).complete _ _ hl
  safe j := by
    cases j with
    | arr items => exact (reads_mapOutcome h).safe _
    | _ => exact jsonError_ne_panic

theorem Reads.pair {α β : Type} {d : Json → Outcome α} {d' : Json → Outcome β} {P : Json → α → Prop}
    {Q : Json → β → Prop} (h : Reads d P) (h' : Reads d' Q) : Reads (Json.pair d d') (PairDoc P Q) where
  sound j p hp := by
    unfold Json.pair at hp
    split at hp
    · rw [Outcome.bind_ok_iff'] at hp
      obtain ⟨a, ha, hp⟩ := hp
      rw [Outcome.bind_ok_iff'] at hp
      obtain ⟨b, hb, hp⟩ := hp
      cases hp
      exact ⟨_, _, rfl, h.sound _ _ ha, h'.sound _ _ hb⟩
    · exact absurd hp jsonError_ne_ok
  complete j p hp := by
    obtain ⟨x, y, rfl, ha, hb⟩ := hp
    obtain ⟨a, ha⟩ := h.complete _ _ ha
    obtain ⟨b, hb⟩ := h'.complete _ _ hb
    refine ⟨(a, b), ?_⟩
    simp only [Json.pair]
    rw [Outcome.bind_ok_iff']
    refine ⟨a, ha, ?_⟩
    rw [Outcome.bind_ok_iff']
    exact ⟨b, hb, rfl⟩
  safe j := by
    unfold Json.pair
    split
    · exact Outcome.bind_safe' (h.safe _) fun _ => Outcome.bind_safe' (h'.safe _) fun _ => by simp
    · exact jsonError_ne_panic

/-! ### Tables -/

/-- The table after the pairs have been inserted in turn. -/
theorem foldl_insert_get {κ ν : Type} [DecidableEq κ] (pairs : List (κ × ν)) (m : Map κ ν) (k : κ) (v : ν) :
    (pairs.foldl (fun (m : Map κ ν) p => m.insert p.1 p.2) m).get k = some v ↔
      (∃ before after, pairs = before ++ (k, v) :: after ∧ ∀ p ∈ after, p.1 ≠ k) ∨
      ((∀ p ∈ pairs, p.1 ≠ k) ∧ m.get k = some v) := by
  induction pairs generalizing m with
  | nil => simp
  | cons q pairs ih =>
    rw [List.foldl_cons, ih, Map.get_insert]
    constructor
    · rintro (⟨before, after, e, h⟩ | ⟨h, hv⟩)
      · exact Or.inl ⟨q :: before, after, by rw [e]; rfl, h⟩
      · split at hv
        · next hk =>
          injection hv with hv
          exact Or.inl ⟨[], pairs, by rw [hk, ← hv]; rfl, h⟩
        · next hk =>
          refine Or.inr ⟨?_, hv⟩
          intro p hp
          rcases List.mem_cons.1 hp with rfl | hp
          · exact fun e => hk e.symm
          · exact h p hp
    · rintro (⟨before, after, e, h⟩ | ⟨h, hv⟩)
      · cases before with
        | nil =>
          rw [List.nil_append] at e
          injection e with e1 e2
          subst e1 e2
          exact Or.inr ⟨h, by simp⟩
        | cons b before =>
          rw [List.cons_append] at e
          injection e with e1 e2
          exact Or.inl ⟨before, after, e2, h⟩
      · refine Or.inr ⟨fun p hp => h p (List.mem_cons_of_mem _ hp), ?_⟩
        rw [if_neg (fun e => h q List.mem_cons_self e.symm)]
        exact hv

theorem foldl_insert_nodup {κ ν : Type} [DecidableEq κ] (pairs : List (κ × ν)) (m : Map κ ν) (h : m.keys.Nodup) :
    (pairs.foldl (fun (m : Map κ ν) p => m.insert p.1 p.2) m).keys.Nodup := by
  induction pairs generalizing m with
  | nil => exact h
  | cons q pairs ih => exact ih _ (Map.keys_insert_nodup _ _ _ h)

/-- A decoded entry. -/
def decodeEntry {κ ν : Type} (key : Text → Outcome κ) (d : Json → Outcome ν) (e : Text × Json) : Outcome (κ × ν) := do
  let k ← key e.1
  let v ← d e.2
  .ok (k, v)

theorem hashMapFrom_eq {κ ν : Type} [DecidableEq κ] (key : Text → Outcome κ) (d : Json → Outcome ν)
    (entries : List (Text × Json)) (m : Map κ ν) :
    Json.hashMapFrom key d entries m = (do
      let pairs ← mapOutcome (decodeEntry key d) entries
      .ok (pairs.foldl (fun (m : Map κ ν) p => m.insert p.1 p.2) m)) := by
  induction entries generalizing m with
  | nil => rfl
  | cons e entries ih =>
    unfold Json.hashMapFrom mapOutcome
    have he : decodeEntry key d e = (key e.1).bind fun k => (d e.2).bind fun v => .ok (k, v) := rfl
    rw [he]
    cases hk : key e.1 with
    | err => rfl
    | panic => rfl
    | ok k =>
      cases hv : d e.2 with
      | err => rfl
      | panic => rfl
      | ok v =>
        change Json.hashMapFrom key d entries (m.insert k v) = _
        rw [ih]
        cases mapOutcome (decodeEntry key d) entries <;> rfl

theorem reads_entry {κ ν : Type} {key : Text → Outcome κ} {d : Json → Outcome ν} {K : Text → κ → Prop}
    {P : Json → ν → Prop} (hk : Reads key K) (hd : Reads d P) :
    Reads (decodeEntry key d) (fun e p => K e.1 p.1 ∧ P e.2 p.2) where
  sound e p hp := by
    unfold decodeEntry at hp
    rw [Outcome.bind_ok_iff'] at hp
    obtain ⟨k, h1, hp⟩ := hp
    rw [Outcome.bind_ok_iff'] at hp
    obtain ⟨v, h2, hp⟩ := hp
    cases hp
    exact ⟨hk.sound _ _ h1, hd.sound _ _ h2⟩
  complete e p hp := by
    obtain ⟨k, h1⟩ := hk.complete _ _ hp.1
    obtain ⟨v, h2⟩ := hd.complete _ _ hp.2
    refine ⟨(k, v), ?_⟩
    unfold decodeEntry
    rw [Outcome.bind_ok_iff']
    refine ⟨k, h1, ?_⟩
    rw [Outcome.bind_ok_iff']
    exact ⟨v, h2, rfl⟩
  safe e := Outcome.bind_safe' (hk.safe _) fun _ => Outcome.bind_safe' (hd.safe _) fun _ => by simp

theorem Reads.hashMap {κ ν : Type} [DecidableEq κ] {key : Text → Outcome κ} {d : Json → Outcome ν}
    {K : Text → κ → Prop} {P : Json → ν → Prop} (hk : Reads key K) (hd : Reads d P) :
    Reads (Json.hashMap key d) (MapDoc K P) where
  sound j m hm := by
    cases j with
    | obj entries =>
      simp only [Json.hashMap] at hm
      rw [hashMapFrom_eq, Outcome.bind_ok_iff'] at hm
      obtain ⟨pairs, hp, hm⟩ := hm
      cases hm
      refine ⟨entries, pairs, rfl, (reads_mapOutcome (reads_entry hk hd)).sound _ _ hp, ?_, ?_⟩
      · exact foldl_insert_nodup _ _ List.nodup_nil
      · intro k v
        rw [foldl_insert_get]
        simp [Map.get_nil]
    | _ => exact absurd hm jsonError_ne_ok
  complete j m hm := by
    obtain ⟨entries, pairs, rfl, hp, _⟩ := hm
    obtain ⟨pairs', hp'⟩ := (reads_mapOutcome (reads_entry hk hd)).complete _ _ hp
    refine ⟨pairs'.foldl (fun (m : Map κ ν) p => m.insert p.1 p.2) [], ?_⟩
    simp only [Json.hashMap]
    rw [hashMapFrom_eq, Outcome.bind_ok_iff']
    exact ⟨pairs', hp', rfl⟩
  safe j := by
    cases j with
    | obj entries =>
      simp only [Json.hashMap]
      rw [hashMapFrom_eq]
      exact Outcome.bind_safe' ((reads_mapOutcome (reads_entry hk hd)).safe _) fun _ => by simp
    | _ => exact jsonError_ne_panic

/-! ### Keys -/

theorem reads_textKey : Reads textKey TextKey where
  sound t k h := by cases h; rfl
  complete t k _ := ⟨t, rfl⟩
  safe t := by simp [textKey]

theorem dropPlus_numeral (t : Text) (n : Nat) :
    decimalValue (dropPlus t) = some n ↔ Numeral t n ∨ ∃ d, t = '+' :: d ∧ Numeral d n := by
  have plus : ¬ ('0' ≤ '+' ∧ '+' ≤ '9') := by decide
  rw [decimalValue_some]
  cases t with
  | nil => simp [dropPlus, Numeral]
  | cons c rest =>
    by_cases hc : c = '+'
    · subst hc
      simp only [dropPlus, if_true]
      constructor
      · exact fun h => Or.inr ⟨rest, rfl, h⟩
      · rintro (h | ⟨d, e, h⟩)
        · exact absurd (h.2.1 _ List.mem_cons_self) plus
        · injection e with _ e; subst e; exact h
    · simp only [dropPlus, if_neg hc]
      constructor
      · exact fun h => Or.inl h
      · rintro (h | ⟨d, e, h⟩)
        · exact h
        · injection e with e _; exact absurd e hc

theorem reads_usizeKey : Reads Json.usizeKey NatKey where
  sound t k h := by
    unfold Json.usizeKey at h
    cases hd : decimalValue (dropPlus t) with
    | none => rw [hd] at h; exact absurd h jsonError_ne_ok
    | some n =>
      rw [hd] at h
      simp only at h
      split at h
      · next hn => cases h; exact ⟨by norm_num; exact hn, (dropPlus_numeral _ _).1 hd⟩
      · exact absurd h jsonError_ne_ok
  complete t k h := by
    obtain ⟨h1, h2⟩ := h
    norm_num at h1
    refine ⟨k, ?_⟩
    unfold Json.usizeKey
    rw [(dropPlus_numeral _ _).2 h2]
    simp only
    rw [if_pos h1]
  safe t := by
    unfold Json.usizeKey
    split
    · split <;> simp [jsonError]
    · exact jsonError_ne_panic

theorem i32Key_minus (rest : Text) : Json.i32Key ('-' :: rest) =
    match decimalValue rest with
    | some n => if n ≤ 2147483648 then .ok (-(n : Int)) else jsonError
    | none => jsonError := rfl

theorem i32Key_other {t : Text} (h : ∀ rest, t ≠ '-' :: rest) : Json.i32Key t =
    match decimalValue (dropPlus t) with
    | some n => if n < 2147483648 then .ok (n : Int) else jsonError
    | none => jsonError := by
  unfold Json.i32Key
  split
  · next rest => exact absurd rfl (h rest)
  · rfl

theorem reads_i32Key : Reads Json.i32Key IntKey where
  sound t i h := by
    by_cases ht : ∃ rest, t = '-' :: rest
    · obtain ⟨rest, rfl⟩ := ht
      rw [i32Key_minus] at h
      cases hd : decimalValue rest with
      | none => rw [hd] at h; exact absurd h jsonError_ne_ok
      | some n =>
        rw [hd] at h
        simp only at h
        split at h
        · next hn =>
          cases h
          refine ⟨by norm_num; omega, by norm_num; omega, n, Or.inr ⟨rfl, rest, rfl, ?_⟩⟩
          exact (decimalValue_some _ _).1 hd
        · exact absurd h jsonError_ne_ok
    · rw [i32Key_other (fun rest e => ht ⟨rest, e⟩)] at h
      cases hd : decimalValue (dropPlus t) with
      | none => rw [hd] at h; exact absurd h jsonError_ne_ok
      | some n =>
        rw [hd] at h
        simp only at h
        split at h
        · next hn =>
          cases h
          exact ⟨by omega, by omega, n, Or.inl ⟨rfl, (dropPlus_numeral _ _).1 hd⟩⟩
        · exact absurd h jsonError_ne_ok
  complete t i h := by
    obtain ⟨h1, h2, n, ⟨rfl, hn⟩ | ⟨rfl, d, rfl, hn⟩⟩ := h
    · norm_num at h2
      have hd := (dropPlus_numeral _ _).2 hn
      have ht : ∀ rest, t ≠ '-' :: rest := by
        rintro rest rfl
        have minus : ¬ ('0' ≤ '-' ∧ '-' ≤ '9') := by decide
        rcases hn with hn | ⟨d, e, _⟩
        · exact minus (hn.2.1 _ List.mem_cons_self)
        · injection e with e _; exact absurd e (by decide)
      rw [i32Key_other ht, hd]
      simp only
      rw [if_pos (by omega)]
      exact ⟨_, rfl⟩
    · norm_num at h1
      rw [i32Key_minus, (decimalValue_some _ _).2 hn]
      simp only
      rw [if_pos (by omega)]
      exact ⟨_, rfl⟩
  safe t := by
    by_cases ht : ∃ rest, t = '-' :: rest
    · obtain ⟨rest, rfl⟩ := ht
      rw [i32Key_minus]
      split
      · split <;> simp [jsonError]
      · exact jsonError_ne_panic
    · rw [i32Key_other (fun rest e => ht ⟨rest, e⟩)]
      split
      · split <;> simp [jsonError]
      · exact jsonError_ne_panic

/-! ### Records -/

/-- The fields read from a record. -/
structure FieldsOf (names : List String) (j : Json) (s : Json.Fields) : Prop where
  record : RecordDoc names j
  get : ∀ n ∈ names, ∀ v, s.get n.toList = some v ↔ FieldIs names j n v
  positional : s.positional = false ↔ ∃ entries, j = .obj entries

theorem pairwise_filter {names : List Text} (entries : List (Text × Json)) :
    (entries.Pairwise fun e e' => e.1 = e'.1 → e.1 ∉ names) ↔
      ¬ (names.any fun n => decide (1 < (entries.filter fun e => e.1 = n).length)) = true := by
  simp only [List.any_eq_true, decide_eq_true_eq, not_exists, not_and, not_lt]
  induction entries with
  | nil => simp
  | cons e entries ih =>
    rw [List.pairwise_cons, ih]
    constructor
    · rintro ⟨h1, h2⟩ n hn
      by_cases he : e.1 = n
      · have : (entries.filter fun e => decide (e.1 = n)) = [] := by
          rw [List.filter_eq_nil_iff]
          intro e' he' hd
          rw [decide_eq_true_eq] at hd
          exact h1 e' he' (he.trans hd.symm) (he ▸ hn)
        simp [he, this]
      · simpa [List.filter_cons, he] using h2 n hn
    · intro h
      refine ⟨?_, ?_⟩
      · intro e' he' hee hn
        have h' := h _ hn
        simp only [List.filter_cons, decide_true, if_true, List.length_cons] at h'
        have hnil : (entries.filter fun x => decide (x.1 = e.1)) = [] := List.length_eq_zero_iff.1 (by omega)
        rw [List.filter_eq_nil_iff] at hnil
        exact hnil e' he' (by simp [hee])
      · intro n hn
        refine le_trans ?_ (h n hn)
        rw [List.filter_cons]
        split
        · exact Nat.le_succ _
        · exact le_refl _

theorem lookup_of_pairwise {names : List Text} {entries : List (Text × Json)} {n : Text} (hn : n ∈ names)
    (h : entries.Pairwise fun e e' => e.1 = e'.1 → e.1 ∉ names) (v : Json) :
    entries.lookup n = some v ↔ (n, v) ∈ entries := by
  induction entries with
  | nil => simp
  | cons e entries ih =>
    obtain ⟨k, w⟩ := e
    rw [List.pairwise_cons] at h
    rw [List.lookup_cons]
    by_cases hk : n = k
    · subst hk
      simp only [beq_self_eq_true, Option.some.injEq, List.mem_cons, Prod.mk.injEq, true_and]
      constructor
      · exact fun e => Or.inl e.symm
      · rintro (e | e)
        · exact e.symm
        · exact absurd hn (h.1 _ e rfl)
    · have : (n == k) = false := by simpa using hk
      rw [this]
      simp only [Bool.false_eq_true, if_false, List.mem_cons, Prod.mk.injEq, hk, false_and, false_or]
      exact ih h.2

theorem lookup_zip {names : List Text} {items : List Json} (hn : names.Nodup) (n : Text) (v : Json) :
    (names.zip items).lookup n = some v ↔ ∃ i : Nat, names[i]? = some n ∧ items[i]? = some v := by
  induction names generalizing items with
  | nil => simp
  | cons k names ih =>
    rw [List.nodup_cons] at hn
    cases items with
    | nil => simp
    | cons x items =>
      rw [List.zip_cons_cons, List.lookup_cons]
      by_cases hk : n = k
      · subst hk
        simp only [beq_self_eq_true, Option.some.injEq]
        constructor
        · rintro rfl; exact ⟨0, rfl, rfl⟩
        · rintro ⟨i, h1, h2⟩
          cases i with
          | zero => simpa using h2
          | succ i =>
            rw [List.getElem?_cons_succ] at h1
            exact absurd (List.mem_of_getElem? h1) hn.1
      · have : (n == k) = false := by simpa using hk
        rw [this]
        simp only [Bool.false_eq_true, if_false]
        rw [ih hn.2]
        constructor
        · rintro ⟨i, h⟩; exact ⟨i + 1, by simpa using h⟩
        · rintro ⟨i, h1, h2⟩
          cases i with
          | zero =>
            rw [List.getElem?_cons_zero] at h1
            injection h1 with h1
            exact absurd h1.symm hk
          | succ i => exact ⟨i, by simpa using h1, by simpa using h2⟩

theorem toList_injective : Function.Injective String.toList := fun _ _ h => String.ext h

theorem fields_ok {names : List String} (hn : names.Nodup) {j : Json} {s : Json.Fields}
    (h : j.fields (names.map String.toList) = .ok s) : FieldsOf names j s := by
  cases j with
  | obj entries =>
    simp only [Json.fields] at h
    split at h
    · exact absurd h jsonError_ne_ok
    · next hp =>
      cases h
      have hp := (pairwise_filter entries).2 hp
      refine ⟨Or.inl ⟨entries, rfl, hp⟩, ?_, by simp⟩
      intro n hmem v
      have hmem' : n.toList ∈ names.map String.toList := List.mem_map_of_mem hmem
      simp only [List.contains_iff_mem, hmem', if_true]
      rw [lookup_of_pairwise hmem' hp]
      constructor
      · exact fun h => Or.inl ⟨entries, rfl, h⟩
      · rintro (⟨_, e, h⟩ | ⟨_, _, e, _⟩)
        · cases e; exact h
        · cases e
  | arr items =>
    simp only [Json.fields, List.length_map] at h
    split at h
    · exact absurd h jsonError_ne_ok
    · next hl =>
      cases h
      refine ⟨Or.inr ⟨items, rfl, by omega⟩, ?_, by simp⟩
      intro n _ v
      simp only
      rw [lookup_zip (hn.map toList_injective)]
      constructor
      · rintro ⟨i, h1, h2⟩
        rw [List.getElem?_map, Option.map_eq_some_iff] at h1
        obtain ⟨n', h1, e⟩ := h1
        cases toList_injective e
        exact Or.inr ⟨items, i, rfl, h1, h2⟩
      · rintro (⟨_, e, _⟩ | ⟨_, i, e, h1, h2⟩)
        · cases e
        · cases e
          exact ⟨i, by rw [List.getElem?_map, h1]; rfl, h2⟩
  | _ => exact absurd h jsonError_ne_ok

theorem fields_total {names : List String} {j : Json} (h : RecordDoc names j) :
    ∃ s, j.fields (names.map String.toList) = .ok s := by
  rcases h with ⟨entries, rfl, hp⟩ | ⟨items, rfl, hl⟩
  · simp only [Json.fields]
    rw [if_neg ((pairwise_filter entries).1 hp)]
    exact ⟨_, rfl⟩
  · simp only [Json.fields, List.length_map]
    rw [if_neg (by omega)]
    exact ⟨_, rfl⟩

theorem fields_safe (names : List Text) (j : Json) : j.fields names ≠ .panic := by
  cases j with
  | obj entries => simp only [Json.fields]; split <;> simp [jsonError]
  | arr items => simp only [Json.fields]; split <;> simp [jsonError]
  | _ => exact jsonError_ne_panic

section
variable {α : Type} {names : List String} {j : Json} {s : Json.Fields} {n : String} {d : Json → Outcome α}
  {P : Json → α → Prop}

theorem FieldsOf.absent (hs : FieldsOf names j s) (hn : n ∈ names) :
    s.get n.toList = none ↔ ∀ v, ¬ FieldIs names j n v := by
  rw [Option.eq_none_iff_forall_ne_some]
  exact forall_congr' fun v => not_congr (hs.get n hn v)

theorem FieldsOf.required (hs : FieldsOf names j s) (hd : Reads d P) (hn : n ∈ names) {a : α}
    (h : s.required n d = .ok a) : Required names j n P a := by
  unfold Json.Fields.required at h
  cases hg : s.get n.toList with
  | none => rw [hg] at h; exact absurd h jsonError_ne_ok
  | some v => rw [hg] at h; exact ⟨v, (hs.get n hn v).1 hg, hd.sound _ _ h⟩

theorem FieldsOf.required_total (hs : FieldsOf names j s) (hd : Reads d P) (hn : n ∈ names) {a : α}
    (h : Required names j n P a) : ∃ a', s.required n d = .ok a' := by
  obtain ⟨v, hv, ha⟩ := h
  unfold Json.Fields.required
  rw [(hs.get n hn v).2 hv]
  exact hd.complete _ _ ha

theorem required_safe (hd : Reads d P) : s.required n d ≠ .panic := by
  unfold Json.Fields.required
  split
  · exact hd.safe _
  · exact jsonError_ne_panic

theorem FieldsOf.optional (hs : FieldsOf names j s) (hd : Reads d P) (hn : n ∈ names) {a : Option α}
    (h : s.optional n d = .ok a) : Optional names j n P a := by
  unfold Json.Fields.optional at h
  cases hg : s.get n.toList with
  | none =>
    rw [hg] at h
    simp only at h
    split at h
    · exact absurd h jsonError_ne_ok
    · next hp => cases h; exact Or.inr ⟨(hs.absent hn).1 hg, hs.positional.1 (by simpa using hp), rfl⟩
  | some v => rw [hg] at h; exact Or.inl ⟨v, (hs.get n hn v).1 hg, hd.option.sound _ _ h⟩

theorem FieldsOf.optional_total (hs : FieldsOf names j s) (hd : Reads d P) (hn : n ∈ names) {a : Option α}
    (h : Optional names j n P a) : ∃ a', s.optional n d = .ok a' := by
  unfold Json.Fields.optional
  rcases h with ⟨v, hv, ha⟩ | ⟨hv, hp, rfl⟩
  · rw [(hs.get n hn v).2 hv]
    exact hd.option.complete _ _ ha
  · rw [(hs.absent hn).2 hv]
    simp only
    rw [hs.positional.2 hp]
    exact ⟨none, rfl⟩

theorem optional_safe (hd : Reads d P) : s.optional n d ≠ .panic := by
  unfold Json.Fields.optional
  split
  · exact hd.option.safe _
  · split <;> simp [jsonError]

theorem FieldsOf.orDefault (hs : FieldsOf names j s) (hd : Reads d P) (hn : n ∈ names) {a b : α}
    (h : s.orDefault n d b = .ok a) : Defaulted names j n P b a := by
  unfold Json.Fields.orDefault at h
  cases hg : s.get n.toList with
  | none => rw [hg] at h; cases h; exact Or.inr ⟨(hs.absent hn).1 hg, rfl⟩
  | some v => rw [hg] at h; exact Or.inl ⟨v, (hs.get n hn v).1 hg, hd.sound _ _ h⟩

theorem FieldsOf.orDefault_total (hs : FieldsOf names j s) (hd : Reads d P) (hn : n ∈ names) {a b : α}
    (h : Defaulted names j n P b a) : ∃ a', s.orDefault n d b = .ok a' := by
  unfold Json.Fields.orDefault
  rcases h with ⟨v, hv, ha⟩ | ⟨hv, rfl⟩
  · rw [(hs.get n hn v).2 hv]
    exact hd.complete _ _ ha
  · rw [(hs.absent hn).2 hv]
    exact ⟨_, rfl⟩

theorem orDefault_safe (hd : Reads d P) {b : α} : s.orDefault n d b ≠ .panic := by
  unfold Json.Fields.orDefault
  split
  · exact hd.safe _
  · simp

end

theorem filter_singleton {α : Type} {p : α → Bool} {l : List α} {a : α} (h : l.filter p = [a]) :
    ∃ before after, l = before ++ a :: after ∧ p a = true ∧ ∀ x ∈ before ++ after, p x = false := by
  induction l with
  | nil => cases h
  | cons b l ih =>
    rw [List.filter_cons] at h
    by_cases hb : p b = true
    · rw [if_pos hb] at h
      injection h with h1 h2
      subst h1
      refine ⟨[], l, rfl, hb, fun x hx => ?_⟩
      rw [List.filter_eq_nil_iff] at h2
      simpa using h2 x hx
    · rw [if_neg hb] at h
      obtain ⟨before, after, e, ha, hx⟩ := ih h
      refine ⟨b :: before, after, by rw [e]; rfl, ha, fun x hx' => ?_⟩
      rcases List.mem_cons.1 hx' with rfl | hx'
      · simpa using hb
      · exact hx x hx'

end Snips
