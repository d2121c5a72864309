import Verif.Proofs.Decode

/-! Order of the entries of objects, unknown entries, and uniqueness of the decoded value. -/

namespace Snips

theorem lookup_perm {names : List Text} {entries entries' : List (Text × Json)} {n : Text} (hn : n ∈ names)
    (h : entries.Pairwise fun e e' => e.1 = e'.1 → e.1 ∉ names)
    (h' : entries'.Pairwise fun e e' => e.1 = e'.1 → e.1 ∉ names) (hp : entries.Perm entries') :
    entries.lookup n = entries'.lookup n := by
  apply Option.ext
  intro v
  rw [lookup_of_pairwise hn h, lookup_of_pairwise hn h', hp.mem_iff]

theorem fields_perm (names : List Text) {entries entries' : List (Text × Json)} (hp : entries.Perm entries') :
    (Json.obj entries).fields names = (Json.obj entries').fields names := by
  have hsym : ∀ {a b : Text × Json}, (a.1 = b.1 → a.1 ∉ names) → (b.1 = a.1 → b.1 ∉ names) :=
    fun h e => e ▸ h e.symm
  have hiff : (entries.Pairwise fun e e' => e.1 = e'.1 → e.1 ∉ names) ↔
      (entries'.Pairwise fun e e' => e.1 = e'.1 → e.1 ∉ names) := hp.pairwise_iff hsym
  unfold Json.fields
  by_cases h : entries.Pairwise fun e e' => e.1 = e'.1 → e.1 ∉ names
  · have h' := hiff.1 h
    simp only
    rw [if_neg ((pairwise_filter entries).1 h), if_neg ((pairwise_filter entries').1 h')]
    congr 2
    funext n
    split
    · next hn => exact lookup_perm (List.contains_iff_mem.1 hn) h h' hp
    · rfl
  · have h' := fun x => h (hiff.2 x)
    simp only
    rw [if_pos (not_not.1 fun x => h ((pairwise_filter entries).2 x)),
      if_pos (not_not.1 fun x => h' ((pairwise_filter entries').2 x))]

theorem tag_perm (name : Text) {entries entries' : List (Text × Json)} (hp : entries.Perm entries') :
    (Json.obj entries).tag name = (Json.obj entries').tag name := by
  have h := hp.filter fun e => decide (e.1 = name)
  unfold Json.tag
  simp only
  generalize (entries.filter fun e => decide (e.1 = name)) = l at h ⊢
  generalize (entries'.filter fun e => decide (e.1 = name)) = l' at h ⊢
  match l, l', h with
  | [], [], _ => rfl
  | [], _ :: _, h => exact absurd h.length_eq (by simp)
  | [a], l', h =>
    rw [List.perm_singleton.1 h.symm]
  | a :: b :: l, [], h => exact absurd h.length_eq (by simp)
  | a :: b :: l, [c], h => exact absurd h.length_eq (by simp)
  | a :: b :: l, c :: d :: l', _ => rfl

theorem fields_unknown {names : List Text} (entries : List (Text × Json)) {n : Text} (v : Json) (hn : n ∉ names) :
    (Json.obj ((n, v) :: entries)).fields names = (Json.obj entries).fields names := by
  have hne : ∀ m ∈ names, n ≠ m := fun m hm e => hn (e ▸ hm)
  unfold Json.fields
  simp only
  have h1 : (names.any fun m => decide (1 < (((n, v) :: entries).filter fun e => decide (e.1 = m)).length)) =
      names.any fun m => decide (1 < (entries.filter fun e => decide (e.1 = m)).length) := by
    refine Bool.eq_iff_iff.2 ?_
    simp only [List.any_eq_true, decide_eq_true_eq]
    refine exists_congr fun m => and_congr_right fun hm => ?_
    rw [List.filter_cons, if_neg (by simpa using hne m hm)]
  rw [h1]
  split
  · rfl
  · congr 2
    funext m
    split
    · next hm =>
      rw [List.lookup_cons]
      have : (m == n) = false := by
        rw [beq_eq_false_iff_ne]
        exact fun e => hne m (List.contains_iff_mem.1 hm) e.symm
      rw [this]
    · rfl

/-! ### Uniqueness -/

/-- The document determines the value. -/
def Determines {ι α : Type} (P : ι → α → Prop) : Prop := ∀ j a a', P j a → P j a' → a = a'

theorem Reads.exact {ι α : Type} {d : ι → Outcome α} {P : ι → α → Prop} (h : Reads d P) (hp : Determines P) (j : ι)
    (a : α) : d j = .ok a ↔ P j a := by
  constructor
  · exact h.sound j a
  · intro ha
    obtain ⟨a', ha'⟩ := h.complete j a ha
    rw [ha', hp j a a' ha (h.sound _ _ ha')]

theorem determines_text : Determines TextDoc := fun j a a' h h' => by
  cases h; cases h'; rfl

theorem determines_float (rd : Rounding) : Determines (FloatDoc rd) := fun j a a' h h' => by
  rcases h with ⟨n, rfl, rfl⟩ | ⟨x, rfl, rfl⟩ <;> rcases h' with ⟨n, h', rfl⟩ | ⟨x, h', rfl⟩ <;> cases h' <;> rfl

theorem determines_usage : Determines UsageDoc := fun j a a' h h' => by
  rcases h with ⟨rfl, rfl⟩ | ⟨rfl, rfl⟩ | ⟨rfl, rfl⟩ <;> rcases h' with ⟨h', rfl⟩ | ⟨h', rfl⟩ | ⟨h', rfl⟩ <;>
    first | rfl | cases h'

theorem Determines.option {α : Type} {P : Json → α → Prop} (h : Determines P) : Determines (OptionDoc P) := by
  rintro j a a' (⟨rfl, rfl⟩ | ⟨hj, x, hx, rfl⟩) (⟨e, rfl⟩ | ⟨hj', x', hx', rfl⟩)
  · rfl
  · exact absurd rfl hj'
  · exact absurd e hj
  · rw [h _ _ _ hx hx']

theorem forall₂_determines {ι α : Type} {P : ι → α → Prop} (h : Determines P) : Determines (List.Forall₂ P) := by
  intro l a a' ha
  induction ha generalizing a' with
  | nil => intro h'; cases h'; rfl
  | cons hx _ ih =>
    intro h'
    cases h' with
    | cons hy hl => rw [h _ _ _ hx hy, ih _ hl]

theorem Determines.list {α : Type} {P : Json → α → Prop} (h : Determines P) : Determines (ListDoc P) := by
  rintro j a a' ⟨items, rfl, ha⟩ ⟨items', e, ha'⟩
  cases e
  exact forall₂_determines h _ _ _ ha ha'

theorem fieldIs_unique {names : List String} (hn : names.Nodup) {j : Json} (hr : RecordDoc names j) {n : String}
    (hmem : n ∈ names) {v v' : Json} (h : FieldIs names j n v) (h' : FieldIs names j n v') : v = v' := by
  obtain ⟨s, hs⟩ := fields_total hr
  have hs := fields_ok hn hs
  have := ((hs.get n hmem v).2 h).symm.trans ((hs.get n hmem v').2 h')
  injection this

section
variable {α : Type} {names : List String} (hn : names.Nodup) {j : Json} (hr : RecordDoc names j) {n : String}
  (hmem : n ∈ names) {P : Json → α → Prop} (hP : Determines P)
include hn hr hmem hP

theorem required_unique {a a' : α} (h : Required names j n P a) (h' : Required names j n P a') : a = a' := by
  obtain ⟨v, hv, h⟩ := h
  obtain ⟨v', hv', h'⟩ := h'
  cases fieldIs_unique hn hr hmem hv hv'
  exact hP _ _ _ h h'

theorem optional_unique {a a' : Option α} (h : Optional names j n P a) (h' : Optional names j n P a') : a = a' := by
  rcases h with ⟨v, hv, h⟩ | ⟨hv, _, rfl⟩ <;> rcases h' with ⟨v', hv', h'⟩ | ⟨hv', _, rfl⟩
  · cases fieldIs_unique hn hr hmem hv hv'
    exact hP.option _ _ _ h h'
  · exact absurd hv (hv' v)
  · exact absurd hv' (hv v')
  · rfl

end

theorem determines_version : Determines VersionDoc := fun _ _ _ h h' =>
  required_unique (by decide) h.record (by decide) determines_text h.modelVersion h'.modelVersion

/-- The name of a unit. -/
def unitText : UnitKind → String
  | .deterministicIntentParser => "deterministic_intent_parser"
  | .lookupIntentParser => "lookup_intent_parser"
  | .probabilisticIntentParser => "probabilistic_intent_parser"
  | .crfSlotFiller => "crf_slot_filler"
  | .logRegIntentClassifier => "log_reg_intent_classifier"

theorem unitName_eq {s : String} {u : UnitKind} (h : UnitName s u) : s = unitText u := by cases h <;> rfl

theorem determines_unit : Determines UnitDoc := by
  rintro j u u' h h'
  obtain ⟨name, hn, h⟩ := h
  obtain ⟨name', hn', h'⟩ := h'
  have : name = name' := by
    rcases h with ⟨before, after, rfl, hb⟩ | ⟨rest, rfl⟩
    · rcases h' with ⟨before', after', e, hb'⟩ | ⟨rest', e⟩
      · injection e with e
        have hmem : ("unit_name".toList, Json.str name.toList) ∈
            before' ++ ("unit_name".toList, Json.str name'.toList) :: after' := by
          rw [← e]; simp
        rw [List.mem_append, List.mem_cons] at hmem
        rcases hmem with hm | hm | hm
        · exact absurd rfl (hb' _ (List.mem_append_left _ hm))
        · injection hm with _ hm
          injection hm with hm
          exact toList_injective hm
        · exact absurd rfl (hb' _ (List.mem_append_right _ hm))
      · cases e
    · rcases h' with ⟨before', after', e, hb'⟩ | ⟨rest', e⟩
      · cases e
      · injection e with e
        injection e with e _
        injection e with e
        exact toList_injective e
  rw [unitName_eq hn, unitName_eq hn'] at this
  revert this
  cases u <;> cases u' <;> simp [unitText]

theorem determines_resources : Determines ResourcesDoc := by
  rintro j ⟨a1, a2, a3, a4⟩ ⟨b1, b2, b3, b4⟩ h h'
  congr 1
  · exact optional_unique (by decide) h.record (by decide) determines_text.list h.gazetteers h'.gazetteers
  · exact optional_unique (by decide) h.record (by decide) determines_text.list h.wordClusters h'.wordClusters
  · exact optional_unique (by decide) h.record (by decide) determines_text h.stems h'.stems
  · exact optional_unique (by decide) h.record (by decide) determines_text h.stopWords h'.stopWords

theorem determines_customParser : Determines CustomParserDoc := by
  rintro j ⟨a1, a2, a3⟩ ⟨b1, b2, b3⟩ h h'
  congr 1
  · exact required_unique (by decide) h.record (by decide) determines_text h.language h'.language
  · exact required_unique (by decide) h.record (by decide) determines_text h.parserDirectory h'.parserDirectory
  · exact required_unique (by decide) h.record (by decide) determines_usage h.parserUsage h'.parserUsage

theorem determines_slotFillerName : Determines SlotFillerNameDoc := by
  rintro j ⟨a1, a2⟩ ⟨b1, b2⟩ h h'
  congr 1
  · exact required_unique (by decide) h.record (by decide) determines_text h.intent h'.intent
  · exact required_unique (by decide) h.record (by decide) determines_text h.slotFillerName h'.slotFillerName

theorem determines_probabilistic : Determines ProbabilisticDoc := fun _ _ _ h h' =>
  required_unique (by decide) h.record (by decide) determines_slotFillerName.list h.slotFillers h'.slotFillers

theorem determines_classifier (rd : Rounding) : Determines (ClassifierDoc rd) := by
  rintro j ⟨a1, a2, a3, a4⟩ ⟨b1, b2, b3, b4⟩ h h'
  congr 1
  · exact optional_unique (by decide) h.record (by decide) determines_text h.featurizer h'.featurizer
  · exact optional_unique (by decide) h.record (by decide) (determines_float rd).list h.intercept h'.intercept
  · exact optional_unique (by decide) h.record (by decide) (determines_float rd).list.list h.coeffs h'.coeffs
  · exact required_unique (by decide) h.record (by decide) determines_text.option.list h.intentList h'.intentList

theorem determines_featurizer : Determines FeaturizerDoc := by
  rintro j ⟨a1, a2⟩ ⟨b1, b2⟩ h h'
  congr 1
  · exact required_unique (by decide) h.record (by decide) determines_text h.tfidfVectorizer h'.tfidfVectorizer
  · exact optional_unique (by decide) h.record (by decide) determines_text h.cooccurrenceVectorizer
      h'.cooccurrenceVectorizer

end Snips
