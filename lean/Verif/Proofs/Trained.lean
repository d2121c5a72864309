import Verif.Model.TrainedPattern

/-! # Lemmas about trained patterns -/

namespace Snips

theorem matchSpaces_some {α : Type} {white : Char → Bool} {k : Text → Nat → Option α} : ∀ {t : Text} {pos : Nat} {a : α},
    matchSpaces white k t pos = some a →
      ∃ gap rest, t = gap ++ rest ∧ (∀ c ∈ gap, white c = true) ∧ k rest (pos + gap.length) = some a
  | [], pos, a, h => ⟨[], [], rfl, by simp, h⟩
  | c :: t, pos, a, h => by
    unfold matchSpaces at h
    split at h
    · rename_i hc
      split at h
      · rename_i b hb
        cases h
        obtain ⟨gap, rest, rfl, hg, hk⟩ := matchSpaces_some hb
        refine ⟨c :: gap, rest, rfl, ?_, ?_⟩
        · intro x hx
          rcases List.mem_cons.1 hx with rfl | hx
          · exact hc
          · exact hg x hx
        · rw [List.length_cons, ← hk]
          congr 1
          omega
      · exact ⟨[], c :: t, rfl, by simp, h⟩
    · exact ⟨[], c :: t, rfl, by simp, h⟩

theorem matchSpaces_isSome {α : Type} {white : Char → Bool} {k : Text → Nat → Option α} : ∀ (gap : Text) {rest : Text}
    {pos : Nat}, (∀ c ∈ gap, white c = true) → (k rest (pos + gap.length)).isSome = true →
      (matchSpaces white k (gap ++ rest) pos).isSome = true
  | [], [], pos, _, h => h
  | [], c :: t, pos, _, h => by
    simp only [List.nil_append]
    unfold matchSpaces
    split
    · split
      · rfl
      · exact h
    · exact h
  | c :: gap, rest, pos, hg, h => by
    have ih : (matchSpaces white k (gap ++ rest) (pos + 1)).isSome = true := by
      refine matchSpaces_isSome gap (fun x hx => hg x (by simp [hx])) ?_
      rw [List.length_cons] at h
      rw [show pos + 1 + gap.length = pos + (gap.length + 1) by omega]
      exact h
    rw [List.cons_append]
    unfold matchSpaces
    rw [if_pos (hg c (by simp))]
    obtain ⟨a, ha⟩ := Option.isSome_iff_exists.1 ih
    rw [ha]
    rfl

theorem matchText_some {cr : CharRules} : ∀ {body t rest : Text}, matchText cr.same body t = some rest ↔
    ∃ b, t = b ++ rest ∧ cr.SameText body b
  | [], t, rest => by
    simp only [matchText, Option.some.injEq, CharRules.SameText]
    constructor
    · rintro rfl; exact ⟨[], rfl, .nil⟩
    · rintro ⟨b, rfl, h⟩; cases h; rfl
  | c :: body, [], rest => by
    simp only [matchText, CharRules.SameText]
    constructor
    · intro h; cases h
    · rintro ⟨b, h1, h2⟩
      cases h2
      simp at h1
  | c :: body, d :: t, rest => by
    simp only [matchText]
    by_cases hc : cr.same c d = true
    · rw [if_pos hc, matchText_some]
      constructor
      · rintro ⟨b, rfl, h⟩; exact ⟨d :: b, rfl, .cons hc h⟩
      · rintro ⟨b, h1, h2⟩
        cases h2 with
        | cons hd htl =>
          simp only [List.cons_append, List.cons.injEq] at h1
          exact ⟨_, h1.2, htl⟩
    · rw [if_neg hc]
      constructor
      · intro h; cases h
      · rintro ⟨b, h1, h2⟩
        cases h2 with
        | cons hd htl =>
          simp only [List.cons_append, List.cons.injEq] at h1
          rw [h1.1] at hc
          exact absurd hd hc

theorem CharRules.SameText.length_eq {cr : CharRules} {body b : Text} (h : cr.SameText body b) :
    b.length = body.length := (List.Forall₂.length_eq h).symm

/-- What the matcher finds follows the pattern. -/
theorem matchItems_follows {cr : CharRules} : ∀ {items : List PatItem} {t : Text} {pos : Nat} {gs : List (Text × Rng)},
    matchItems cr items t pos = some gs → Follows cr items t pos gs
  | [], [], pos, gs, h => by
    simp only [matchItems, Option.some.injEq] at h
    subst h
    exact .nil pos
  | [], _ :: _, _, _, h => by simp [matchItems] at h
  | .spaces :: items, t, pos, gs, h => by
    rw [matchItems] at h
    obtain ⟨gap, rest, rfl, hg, hk⟩ := matchSpaces_some h
    exact .spaces hg (matchItems_follows hk)
  | .space :: items, [], pos, gs, h => by simp [matchItems] at h
  | .space :: items, c :: t, pos, gs, h => by
    simp only [matchItems] at h
    split at h
    · exact .space (by assumption) (matchItems_follows h)
    · cases h
  | .lit c :: items, [], pos, gs, h => by simp [matchItems] at h
  | .lit c :: items, d :: t, pos, gs, h => by
    simp only [matchItems] at h
    split at h
    · exact .lit (by assumption) (matchItems_follows h)
    · cases h
  | .group name body :: items, t, pos, gs, h => by
    simp only [matchItems] at h
    split at h
    · cases h
    · rename_i rest hr
      split at h
      · cases h
      · rename_i gs' hgs
        cases h
        obtain ⟨b, rfl, hb⟩ := matchText_some.1 hr
        rw [← hb.length_eq] at hgs ⊢
        exact .group hb (matchItems_follows hgs)

/-- The matcher finds a text that follows the pattern. -/
theorem follows_matchItems {cr : CharRules} {items : List PatItem} {t : Text} {pos : Nat} {gs : List (Text × Rng)}
    (h : Follows cr items t pos gs) : (matchItems cr items t pos).isSome = true := by
  induction h with
  | nil pos => rfl
  | spaces h rest ih =>
    rw [matchItems]
    exact matchSpaces_isSome _ h ih
  | space h rest ih => simp only [matchItems, if_pos h]; exact ih
  | lit h rest ih => simp only [matchItems, if_pos h]; exact ih
  | @group items name body b t pos gs h rest ih =>
    simp only [matchItems]
    rw [matchText_some.2 ⟨b, rfl, h⟩]
    simp only
    rw [h.length_eq] at ih
    obtain ⟨a, ha⟩ := Option.isSome_iff_exists.1 ih
    rw [ha]
    rfl

theorem trainedRegex_implements (cr : CharRules) (items : List PatItem) :
    (trainedRegex cr items).Implements cr items := by
  refine ⟨rfl, ?_, ?_, ?_⟩
  · intro t
    simp only [trainedRegex]
    constructor
    · intro h
      obtain ⟨gs, hgs⟩ := Option.isSome_iff_exists.1 h
      exact ⟨gs, matchItems_follows hgs⟩
    · rintro ⟨gs, h⟩
      exact follows_matchItems h
  · intro t caps h
    simp only [trainedRegex] at h
    split at h
    · rename_i gs hgs
      exact ⟨gs, matchItems_follows hgs, by simpa using h⟩
    · cases h
  · intro t h
    simp only [trainedRegex] at h ⊢
    obtain ⟨gs, hgs⟩ := Option.isSome_iff_exists.1 h
    rw [hgs]
    simp

/-! ### A text follows a pattern in one way -/

theorem solid_cons {cr : CharRules} {i : PatItem} {items : List PatItem} (h : Solid cr (i :: items)) : Solid cr items :=
  ⟨fun c hc => h.lit c (by simp [hc]), fun n b hb => h.group n b (by simp [hb])⟩

theorem append_prefix {a b c d : Text} (h : a ++ b = c ++ d) (hl : a.length ≤ c.length) :
    ∃ v, c = a ++ v ∧ b = v ++ d := by
  rcases List.append_eq_append_iff.1 h with ⟨v, h1, h2⟩ | ⟨v, h1, h2⟩
  · exact ⟨v, h1, h2⟩
  · have : v = [] := by
      have := congrArg List.length h1
      simp only [List.length_append] at this
      exact List.length_eq_zero_iff.1 (by omega)
    subst this
    simp only [List.append_nil, List.nil_append] at h1 h2
    exact ⟨[], by simp [h1], by simp [h2]⟩

theorem follows_unique_aux {cr : CharRules} : ∀ {items : List PatItem}, Solid cr items → ∀ {u t : Text} {pos : Nat}
    {gs gs' : List (Text × Rng)}, (∀ c ∈ u, cr.white c = true) → Follows cr items t (pos + u.length) gs →
    Follows cr items (u ++ t) pos gs' → gs = gs'
  | [], _, u, t, pos, gs, gs', hu, h, h' => by
    cases h
    generalize hx : u ++ [] = x at h'
    cases h'
    rfl
  | .spaces :: items, hs, u, t, pos, gs, gs', hu, h, h' => by
    generalize hx : u ++ t = x at h'
    cases h with
    | @spaces _ gap t1 _ _ hg rest =>
      cases h' with
      | @spaces _ gap' t1' _ _ hg' rest' =>
        rw [← List.append_assoc] at hx
        by_cases hl : gap'.length ≤ (u ++ gap).length
        · obtain ⟨v, h1, h2⟩ := append_prefix hx.symm hl
          have hv : ∀ c ∈ v, cr.white c = true := by
            intro c hc
            have : c ∈ u ++ gap := by rw [h1]; simp [hc]
            rcases List.mem_append.1 this with h | h
            · exact hu c h
            · exact hg c h
          have hlen := congrArg List.length h1
          simp only [List.length_append] at hlen
          refine follows_unique_aux (solid_cons hs) (u := v) (pos := pos + gap'.length) hv ?_ (h2 ▸ rest')
          rw [show pos + gap'.length + v.length = pos + u.length + gap.length by omega]
          exact rest
        · obtain ⟨v, h1, h2⟩ := append_prefix hx (by omega)
          have hv : ∀ c ∈ v, cr.white c = true := fun c hc => hg' c (by rw [h1]; simp [hc])
          have hlen := congrArg List.length h1
          simp only [List.length_append] at hlen
          refine (follows_unique_aux (solid_cons hs) (u := v) (pos := pos + u.length + gap.length) hv ?_
            (h2 ▸ rest)).symm
          rw [show pos + u.length + gap.length + v.length = pos + gap'.length by omega]
          exact rest'
  | .space :: items, hs, u, t, pos, gs, gs', hu, h, h' => by
    generalize hx : u ++ t = x at h'
    cases h with
    | @space _ c t1 _ _ hc rest =>
      cases h' with
      | @space _ c' t1' _ _ hc' rest' =>
        cases u with
        | nil =>
          simp only [List.nil_append, List.cons.injEq] at hx
          obtain ⟨rfl, rfl⟩ := hx
          exact follows_unique_aux (solid_cons hs) (u := []) (pos := pos + 1) (by simp) (by simpa using rest) rest'
        | cons d u =>
          simp only [List.cons_append, List.cons.injEq] at hx
          obtain ⟨rfl, rfl⟩ := hx
          refine follows_unique_aux (solid_cons hs) (u := u ++ [c]) (pos := pos + 1) ?_ ?_ (by simpa using rest')
          · intro x hxm
            rcases List.mem_append.1 hxm with h | h
            · exact hu x (by simp [h])
            · rw [List.mem_singleton.1 h]; exact hc
          · rw [show pos + 1 + (u ++ [c]).length = pos + (d :: u).length + 1 by simp; omega]
            exact rest
  | .lit a :: items, hs, u, t, pos, gs, gs', hu, h, h' => by
    generalize hx : u ++ t = x at h'
    cases h with
    | @lit _ _ c t1 _ _ hc rest =>
      cases h' with
      | @lit _ _ c' t1' _ _ hc' rest' =>
        cases u with
        | nil =>
          simp only [List.nil_append, List.cons.injEq] at hx
          obtain ⟨rfl, rfl⟩ := hx
          exact follows_unique_aux (solid_cons hs) (u := []) (pos := pos + 1) (by simp) (by simpa using rest) rest'
        | cons d u =>
          simp only [List.cons_append, List.cons.injEq] at hx
          have h1 := hs.lit a (by simp) c' hc'
          have h2 := hu d (by simp)
          rw [hx.1, h1] at h2
          cases h2
  | .group n body :: items, hs, u, t, pos, gs, gs', hu, h, h' => by
    generalize hx : u ++ t = x at h'
    cases h with
    | @group _ _ _ b t1 _ gs1 hb rest =>
      cases h' with
      | @group _ _ _ b' t1' _ gs1' hb' rest' =>
        obtain ⟨hne, hsol⟩ := hs.group n body (by simp)
        cases u with
        | nil =>
          have hl : b.length = b'.length := by rw [hb.length_eq, hb'.length_eq]
          have hx' : b ++ t1 = b' ++ t1' := hx
          obtain ⟨rfl, rfl⟩ := List.append_inj hx' hl
          have := follows_unique_aux (solid_cons hs) (u := []) (pos := pos + b.length) (by simp) (by simpa using rest) rest'
          rw [this]
          rfl
        | cons d u =>
          exfalso
          cases hb' with
          | nil => exact hne rfl
          | @cons c e body b' hce htl =>
            simp only [List.cons_append, List.cons.injEq] at hx
            have h1 := hsol c (by simp) e hce
            have h2 := hu d (by simp)
            rw [hx.1, h1] at h2
            cases h2

end Snips

namespace Snips

/-! ### A pattern is written in one way -/

/-- The characters up to a closing parenthesis, and what comes after it. -/
def unescape : Text → Text × Text
  | [] => ([], [])
  | c :: r =>
    if c = ')' then ([], r)
    else if c = '\\' then
      match r with
      | [] => ([], [])
      | d :: r' => (d :: (unescape r').1, (unescape r').2)
    else (c :: (unescape r).1, (unescape r).2)

/-- The first piece of a pattern, and what comes after it. -/
def firstItem : Text → Option (PatItem × Text)
  | [] => none
  | c :: r =>
    if c = '\\' then
      match r with
      | [] => none
      | d :: r' =>
        if d = 's' then
          if r'.head? = some '*' then some (.spaces, r'.tail) else some (.space, r')
        else some (.lit d, r')
    else if c = '(' then
      let name := (r.drop 3).takeWhile (fun x => x ≠ '>')
      let u := unescape ((r.drop 3).drop (name.length + 1))
      some (.group name u.1, u.2)
    else if c = '$' then none
    else some (.lit c, r)

theorem escaped_cons (c : Char) (t : Text) :
    escaped (c :: t) = (if c ∈ metaChars then ['\\', c] else [c]) ++ escaped t := by
  simp [escaped]

theorem unescape_escaped (body r : Text) : unescape (escaped body ++ ')' :: r) = (body, r) := by
  induction body with
  | nil =>
    rw [escaped, List.flatMap_nil, List.nil_append, unescape.eq_def]
    simp only
    rw [if_pos trivial]
  | cons c body ih =>
    rw [escaped_cons, List.append_assoc]
    by_cases hc : c ∈ metaChars
    · rw [if_pos hc]
      simp only [List.cons_append, List.nil_append]
      rw [unescape.eq_def]
      simp only
      rw [if_neg (by decide), if_pos trivial, ih]
    · rw [if_neg hc]
      simp only [List.cons_append, List.nil_append]
      rw [unescape.eq_def]
      simp only
      rw [if_neg (by rintro rfl; exact hc (by decide)), if_neg (by rintro rfl; exact hc (by decide)), ih]

theorem takeWhile_name (name r : Text) (h : ∀ c ∈ name, c ≠ '>') :
    (name ++ '>' :: r).takeWhile (fun x => x ≠ '>') = name := by
  induction name with
  | nil => simp
  | cons c name ih =>
    simp only [List.cons_append]
    rw [List.takeWhile_cons, if_pos (by simpa using h c (by simp)), ih (fun x hx => h x (by simp [hx]))]

theorem rest_head (items : List PatItem) : (items.flatMap PatItem.text ++ ['$']).head? ≠ some '*' := by
  cases items with
  | nil => decide
  | cons i items =>
    rw [List.flatMap_cons, List.append_assoc]
    cases i with
    | spaces => simp [PatItem.text]
    | space => simp [PatItem.text]
    | lit c =>
      simp only [PatItem.text, escaped, List.flatMap_cons, List.flatMap_nil, List.append_nil]
      by_cases hc : c ∈ metaChars
      · rw [if_pos hc]; simp
      · rw [if_neg hc]
        simp only [List.cons_append, List.nil_append, List.head?_cons, ne_eq, Option.some.injEq]
        rintro rfl
        exact hc (by decide)
    | group name body => simp [PatItem.text]

theorem firstItem_text (i : PatItem) (hn : ∀ name body, i = .group name body → ∀ c ∈ name, c ≠ '>') (rest : Text)
    (hr : rest.head? ≠ some '*') : firstItem (i.text ++ rest) = some (i, rest) := by
  cases i with
  | spaces => simp [PatItem.text, firstItem]
  | space => simp [PatItem.text, firstItem, hr]
  | lit c =>
    simp only [PatItem.text, escaped, List.flatMap_cons, List.flatMap_nil, List.append_nil]
    by_cases hc : c ∈ metaChars
    · rw [if_pos hc]
      simp only [List.cons_append, List.nil_append]
      rw [firstItem.eq_def]
      simp only
      rw [if_pos trivial, if_neg (by rintro rfl; revert hc; decide)]
    · rw [if_neg hc]
      simp only [List.cons_append, List.nil_append]
      rw [firstItem.eq_def]
      simp only
      rw [if_neg (by rintro rfl; exact hc (by decide)), if_neg (by rintro rfl; exact hc (by decide)),
        if_neg (by rintro rfl; exact hc (by decide))]
  | group name body =>
    have h1 : (PatItem.group name body).text ++ rest =
        '(' :: '?' :: 'P' :: '<' :: (name ++ '>' :: (escaped body ++ ')' :: rest)) := by
      simp [PatItem.text]
    rw [h1, firstItem.eq_def]
    simp only [List.drop_succ_cons, List.drop_zero]
    rw [if_neg (by decide), if_pos trivial]
    rw [takeWhile_name _ _ (hn name body rfl)]
    have : (name ++ '>' :: (escaped body ++ ')' :: rest)).drop (name.length + 1) = escaped body ++ ')' :: rest := by
      rw [← List.drop_drop, List.drop_left]
      rfl
    rw [this, unescape_escaped]

theorem items_inj : ∀ {items items' : List PatItem}, (∀ n ∈ groupsOf items, ∀ c ∈ n, c ≠ '>') →
    (∀ n ∈ groupsOf items', ∀ c ∈ n, c ≠ '>') →
    items.flatMap PatItem.text ++ ['$'] = items'.flatMap PatItem.text ++ ['$'] → items = items'
  | [], [], _, _, _ => rfl
  | [], i :: items', _, h', h => by
    have h2 := firstItem_text i (fun name body he => h' name (by simp [groupsOf, he]))
      (items'.flatMap PatItem.text ++ ['$']) (rest_head _)
    rw [List.flatMap_cons, List.append_assoc] at h
    rw [← h] at h2
    simp [firstItem] at h2
  | i :: items, [], h', _, h => by
    have h2 := firstItem_text i (fun name body he => h' name (by simp [groupsOf, he]))
      (items.flatMap PatItem.text ++ ['$']) (rest_head _)
    rw [List.flatMap_cons, List.append_assoc] at h
    rw [h] at h2
    simp [firstItem] at h2
  | i :: items, i' :: items', h1, h2, h => by
    have e1 := firstItem_text i (fun name body he => h1 name (by simp [groupsOf, he]))
      (items.flatMap PatItem.text ++ ['$']) (rest_head _)
    have e2 := firstItem_text i' (fun name body he => h2 name (by simp [groupsOf, he]))
      (items'.flatMap PatItem.text ++ ['$']) (rest_head _)
    rw [List.flatMap_cons, List.append_assoc, List.flatMap_cons, List.append_assoc] at h
    rw [h, e2] at e1
    simp only [Option.some.injEq, Prod.mk.injEq] at e1
    have hsub : ∀ (j : PatItem) (l : List PatItem) (n : Text), n ∈ groupsOf l → n ∈ groupsOf (j :: l) := by
      intro j l n hn
      unfold groupsOf at hn ⊢
      rw [List.filterMap_cons]
      split
      · exact hn
      · exact List.mem_cons_of_mem _ hn
    rw [e1.1, items_inj (fun n hn => h1 n (hsub _ _ n hn)) (fun n hn => h2 n (hsub _ _ n hn)) e1.2.symm]

theorem wellNamed_noAngle {items : List PatItem} (h : WellNamed items) : ∀ n ∈ groupsOf items, ∀ c ∈ n, c ≠ '>' := by
  intro n hn c hc
  rcases (h.2 n hn).2 c hc with h | h
  · rintro rfl
    revert h
    decide
  · rintro rfl
    revert h
    decide

end Snips
