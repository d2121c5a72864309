import Verif.Spec.Ffi
import Verif.Proofs.Cache
import Verif.Proofs.Loading

/-! Lemmas on the C interface. -/

namespace Snips

namespace CM

variable {κ α β : Type}

theorem bind_ok_iff {m : CM κ α} {f : α → CM κ β} {s s' : CMem κ} {b : β} :
    (m >>= f) s = (.ok b, s') ↔ ∃ a s1, m s = (.ok a, s1) ∧ f a s1 = (.ok b, s') := by
  change CM.bind m f s = _ ↔ _
  unfold CM.bind
  constructor
  · intro h
    split at h
    · exact ⟨_, _, by assumption, h⟩
    · cases h
    · cases h
    · cases h
  · rintro ⟨a, s1, h1, h2⟩
    rw [h1]
    exact h2

theorem bind_of_ok {m : CM κ α} {f : α → CM κ β} {s s1 : CMem κ} {a : α} (h : m s = (.ok a, s1)) :
    (m >>= f) s = f a s1 := by
  change CM.bind m f s = _
  unfold CM.bind
  rw [h]

theorem bind_of_err {m : CM κ α} {f : α → CM κ β} {s s1 : CMem κ} {e : Err} (h : m s = (.err e, s1)) :
    (m >>= f) s = (.err e, s1) := by
  change CM.bind m f s = _
  unfold CM.bind
  rw [h]

theorem pure_ok_iff {a b : α} {s s' : CMem κ} : (Pure.pure a : CM κ α) s = (.ok b, s') ↔ b = a ∧ s' = s := by
  change (CEnd.ok a, s) = (.ok b, s') ↔ _
  simp only [Prod.mk.injEq, CEnd.ok.injEq, eq_comm]

theorem lift_ok_iff {o : Outcome α} {s s' : CMem κ} {a : α} :
    (lift o : CM κ α) s = (.ok a, s') ↔ o = .ok a ∧ s' = s := by
  unfold lift
  cases o <;> simp [eq_comm]

theorem rustString_ok_iff {env : CEnv κ} {p : Addr} {s s' : CMem κ} {t : Text} :
    rustString env p s = (.ok t, s') ↔ ReadsText env s p t ∧ s' = s := by
  unfold rustString ReadsText
  by_cases hp : p = 0
  · simp [hp]
  · rw [if_neg hp]
    cases hb : s.strings p with
    | none => simp
    | some b =>
      simp only
      rw [lift_ok_iff]
      simp [hp]

theorem element_ok_iff {env : CEnv κ} {p : Addr} {s s' : CMem κ} {t : Text} :
    element env p s = (.ok t, s') ↔ (∃ b, s.strings p = some b ∧ env.utf8 b = .ok t) ∧ s' = s := by
  unfold element
  cases hb : s.strings p with
  | none => simp
  | some b =>
    simp only
    rw [lift_ok_iff]
    simp

theorem elements_ok_iff {env : CEnv κ} {ps : List Addr} {s s' : CMem κ} {ts : List Text} :
    elements env ps s = (.ok ts, s') ↔
      List.Forall₂ (fun q t => ∃ b, s.strings q = some b ∧ env.utf8 b = .ok t) ps ts ∧ s' = s := by
  induction ps generalizing ts s' with
  | nil =>
    unfold elements
    change (CEnd.ok [], s) = (.ok ts, s') ↔ _
    rw [List.forall₂_nil_left_iff]
    simp only [Prod.mk.injEq, CEnd.ok.injEq, eq_comm]
  | cons p ps ih =>
    unfold elements
    rw [bind_ok_iff]
    constructor
    · rintro ⟨t, s1, h1, h2⟩
      obtain ⟨h1, rfl⟩ := element_ok_iff.1 h1
      obtain ⟨ts', s2, h3, h4⟩ := bind_ok_iff.1 h2
      obtain ⟨h3, rfl⟩ := ih.1 h3
      obtain ⟨rfl, rfl⟩ := pure_ok_iff.1 h4
      exact ⟨.cons h1 h3, rfl⟩
    · rintro ⟨h, rfl⟩
      cases h with
      | @cons _ t _ ts' h1 h2 =>
        exact ⟨t, s', element_ok_iff.2 ⟨h1, rfl⟩, bind_ok_iff.2 ⟨ts', s', ih.2 ⟨h2, rfl⟩, pure_ok_iff.2 ⟨rfl, rfl⟩⟩⟩

theorem filterArg_ok_iff {env : CEnv κ} {p : Addr} {s s' : CMem κ} {f : Option (List Text)} :
    filterArg env p s = (.ok f, s') ↔ FilterIs env s p f ∧ s' = s := by
  unfold filterArg
  by_cases hp : p = 0
  · subst hp
    rw [if_neg (by simp)]
    refine pure_ok_iff.trans ?_
    cases f with
    | none => simp [FilterIs]
    | some l => simp [FilterIs]
  · rw [if_pos hp, bind_ok_iff]
    constructor
    · rintro ⟨l, s1, h1, h2⟩
      obtain ⟨rfl, rfl⟩ := pure_ok_iff.1 h2
      unfold convertToRustVec at h1
      cases ha : s.arrays p with
      | none => rw [ha] at h1; cases h1
      | some ps =>
        rw [ha] at h1
        obtain ⟨h1, rfl⟩ := elements_ok_iff.1 h1
        exact ⟨⟨hp, ps, ha, h1⟩, rfl⟩
    · rintro ⟨h, rfl⟩
      cases f with
      | none => exact absurd h hp
      | some l =>
        obtain ⟨_, ps, ha, h⟩ := h
        refine ⟨l, s', ?_, pure_ok_iff.2 ⟨rfl, rfl⟩⟩
        unfold convertToRustVec
        rw [ha]
        exact elements_ok_iff.2 ⟨h, rfl⟩

theorem withGuard_ok_iff {client : Addr} {m : CM κ α} {s s' : CMem κ} {a : α} :
    withGuard client m s = (.ok a, s') ↔ m s = (.ok a, s') := by
  unfold withGuard
  split
  · rename_i h
    rw [h]
    simp
  · rename_i h
    exact Iff.rfl

theorem withEngine_ok_iff {client : Addr} {body : Engine → CM κ α} {s s' : CMem κ} {a : α} :
    withEngine client body s = (.ok a, s') ↔ ∃ h, UsableEngine s client h ∧ body h.engine s = (.ok a, s') := by
  unfold withEngine UsableEngine
  by_cases hc : client = 0
  · simp [hc]
  · rw [if_neg hc]
    cases he : s.engines client with
    | none => simp
    | some h =>
      simp only
      cases hp : h.poisoned with
      | true =>
        simp only [if_true, Prod.mk.injEq, reduceCtorEq, false_and, false_iff, not_exists, not_and]
        rintro h' ⟨_, h1, h2⟩
        cases h1
        rw [hp] at h2
        cases h2
      | false =>
        simp only [Bool.false_eq_true, if_false]
        rw [withGuard_ok_iff]
        constructor
        · exact fun h1 => ⟨h, ⟨hc, rfl, hp⟩, h1⟩
        · rintro ⟨h', ⟨_, h1, _⟩, h2⟩
          cases h1
          exact h2

/-- The memory after a method of the engine. -/
def afterCall (c : CCirc) (client : Addr) (h : Handle) (p : Prog α) (s : CMem κ) : CMem κ :=
  { s with engines := fun a =>
      if a = client then some { h with caches := (p.runCached h.ext c.time h.caches).2 } else s.engines a }

theorem callEngine_ok_iff {c : CCirc} {client : Addr} {p : Prog α} {s s' : CMem κ} {a : α} :
    callEngine c client p s = (.ok a, s') ↔
      ∃ h, s.engines client = some h ∧ h.answer c p = .ok a ∧ s' = afterCall c client h p s := by
  unfold callEngine
  cases he : s.engines client with
  | none => simp
  | some h =>
    simp only
    rw [lift_ok_iff]
    simp [Handle.answer, afterCall]

/-- The memory after an object has been given. -/
def afterGive (result : Addr) (x : CObj κ) (s : CMem κ) : CMem κ :=
  { s with
    objects := fun a => if a = s.next then some x else s.objects a,
    vars := fun a => if a = result then some s.next else s.vars a,
    next := s.next + 1 }

theorem give_ok_iff {result : Addr} {x : CObj κ} {s s' : CMem κ} {u : Unit} :
    give result x s = (.ok u, s') ↔ s.vars result ≠ none ∧ s' = afterGive result x s := by
  unfold give
  cases hv : s.vars result with
  | none => simp
  | some v => simp [afterGive, eq_comm]

theorem pointToString_ok_iff {result : Addr} {b : List Nat} {s s' : CMem κ} {u : Unit} :
    pointToString result b s = (.ok u, s') ↔ 0 ∉ b ∧ s.vars result ≠ none ∧ s' = afterGive result (.string b) s := by
  unfold pointToString
  by_cases h : 0 ∈ b
  · simp [h]
  · rw [if_neg h, give_ok_iff]
    simp [h]

/-! ### What code leaves alone -/

/-- A handle is in order: what its caches hold is what would be extracted. -/
def _root_.Snips.Handle.Good (h : Handle) : Prop :=
  h.ext.TimeStable → h.ext.NoPanic → h.caches.Sound h.ext ∧ h.caches.Healthy

/-- Nothing is given or destroyed, and only the engine `client` does something, staying what it is. -/
structure Frame (client : Addr) (s s' : CMem κ) : Prop where
  strings : s'.strings = s.strings
  arrays : s'.arrays = s.arrays
  bytes : s'.bytes = s.bytes
  vars : s'.vars = s.vars
  objects : s'.objects = s.objects
  next : s'.next = s.next
  others : ∀ a, a ≠ client → s'.engines a = s.engines a
  dead : s.engines client = none → s'.engines client = none
  alive : ∀ h, s.engines client = some h → ∃ h', s'.engines client = some h' ∧ h'.engine = h.engine ∧ h'.ext = h.ext ∧
    (h.Good → h'.Good)

theorem Frame.refl (client : Addr) (s : CMem κ) : Frame client s s :=
  ⟨rfl, rfl, rfl, rfl, rfl, rfl, fun _ _ => rfl, id, fun h hh => ⟨h, hh, rfl, rfl, id⟩⟩

theorem Frame.trans {client : Addr} {s1 s2 s3 : CMem κ} (h : Frame client s1 s2) (h' : Frame client s2 s3) :
    Frame client s1 s3 := by
  refine ⟨h'.strings.trans h.strings, h'.arrays.trans h.arrays, h'.bytes.trans h.bytes, h'.vars.trans h.vars,
    h'.objects.trans h.objects, h'.next.trans h.next,
    fun a ha => (h'.others a ha).trans (h.others a ha), fun hn => h'.dead (h.dead hn), fun hd hh => ?_⟩
  obtain ⟨h2, e2, e3, e4, e5⟩ := h.alive hd hh
  obtain ⟨h3, f2, f3, f4, f5⟩ := h'.alive h2 e2
  exact ⟨h3, f2, f3.trans e3, f4.trans e4, fun g => f5 (e5 g)⟩

/-- Code that gives nothing. -/
def Framed (client : Addr) (m : CM κ α) : Prop := ∀ s, Frame client s (m s).2

/-- Code that gives one object in the variable `v` if it succeeds, and nothing else. -/
def Gives (client v : Addr) (m : CM κ Unit) : Prop := ∀ s,
  ((m s).1 = .ok () → ∃ x s1, Frame client s s1 ∧ (m s).2 = afterGive v x s1) ∧
  ((m s).1 ≠ .ok () → Frame client s (m s).2)

theorem bind_framed {client : Addr} {m : CM κ α} {f : α → CM κ β} (hm : Framed client m) (hf : ∀ a, Framed client (f a)) :
    Framed client (m >>= f) := by
  intro s
  change Frame client s (CM.bind m f s).2
  unfold CM.bind
  have h := hm s
  rcases hr : m s with ⟨r, s1⟩
  rw [hr] at h
  cases r with
  | ok a => exact h.trans (hf a s1)
  | err e => exact h
  | panic => exact h
  | undefined => exact h

theorem bind_gives {client v : Addr} {m : CM κ α} {f : α → CM κ Unit} (hm : Framed client m)
    (hf : ∀ a, Gives client v (f a)) : Gives client v (m >>= f) := by
  intro s
  have h := hm s
  have hb : (m >>= f) s = CM.bind m f s := rfl
  rw [hb]
  unfold CM.bind
  rcases hr : m s with ⟨r, s1⟩
  rw [hr] at h
  cases r with
  | ok a =>
    obtain ⟨h1, h2⟩ := hf a s1
    refine ⟨fun ho => ?_, fun ho => h.trans (h2 ho)⟩
    obtain ⟨x, s2, h3, h4⟩ := h1 ho
    exact ⟨x, s2, h.trans h3, h4⟩
  | err e => exact ⟨fun ho => (nomatch ho), fun _ => h⟩
  | panic => exact ⟨fun ho => (nomatch ho), fun _ => h⟩
  | undefined => exact ⟨fun ho => (nomatch ho), fun _ => h⟩

theorem same_framed {client : Addr} {m : CM κ α} (h : ∀ s, (m s).2 = s) : Framed client m := fun s => by
  rw [h]; exact Frame.refl client s

theorem lift_same (o : Outcome α) (s : CMem κ) : ((lift o : CM κ α) s).2 = s := by unfold lift; cases o <;> rfl

theorem rustString_same (env : CEnv κ) (p : Addr) (s : CMem κ) : (rustString env p s).2 = s := by
  unfold rustString
  split
  · rfl
  · split
    · rfl
    · exact lift_same _ _

theorem elements_same (env : CEnv κ) (ps : List Addr) (s : CMem κ) : (elements env ps s).2 = s := by
  induction ps with
  | nil => rfl
  | cons p ps ih =>
    unfold elements
    change (CM.bind _ _ s).2 = s
    have h1 : (element env p s).2 = s := by
      unfold element
      split
      · rfl
      · exact lift_same _ _
    unfold CM.bind
    rcases hr : element env p s with ⟨r, s1⟩
    rw [hr] at h1
    simp only at h1
    subst h1
    cases r with
    | ok a =>
      change (CM.bind _ _ s1).2 = s1
      unfold CM.bind
      rcases hr' : elements env ps s1 with ⟨r', s2⟩
      rw [hr'] at ih
      simp only at ih
      subst ih
      cases r' <;> rfl
    | err e => rfl
    | panic => rfl
    | undefined => rfl

theorem filterArg_same (env : CEnv κ) (p : Addr) (s : CMem κ) : (filterArg env p s).2 = s := by
  unfold filterArg
  by_cases hp : p = 0
  · rw [if_neg (by simp [hp])]; rfl
  · rw [if_pos hp]
    change (CM.bind _ _ s).2 = s
    unfold CM.bind
    have h1 : (convertToRustVec env p s).2 = s := by
      unfold convertToRustVec
      split
      · rfl
      · exact elements_same _ _ _
    rcases hr : convertToRustVec env p s with ⟨r, s1⟩
    rw [hr] at h1
    simp only at h1
    subst h1
    cases r <;> rfl

theorem callEngine_framed (c : CCirc) (client : Addr) (p : Prog α) : Framed client (callEngine c client p : CM κ α) := by
  intro s
  unfold callEngine
  cases he : s.engines client with
  | none => exact Frame.refl _ _
  | some h =>
    simp only
    rw [lift_same]
    refine ⟨rfl, rfl, rfl, rfl, rfl, rfl, fun a ha => by simp [ha], fun h' => by simp [he] at h', fun h' hh => ?_⟩
    rw [he] at hh
    cases hh
    refine ⟨_, if_pos rfl, rfl, rfl, fun g hts hnp => ?_⟩
    obtain ⟨g1, g2⟩ := g hts hnp
    exact (runCached_spec hts hnp c.time p h.caches g1 g2).2

theorem withGuard_gives {client v : Addr} {m : CM κ Unit} (hm : Gives client v m) : Gives client v (withGuard client m) := by
  intro s
  obtain ⟨h1, h2⟩ := hm s
  unfold withGuard
  rcases hr : m s with ⟨r, s1⟩
  rw [hr] at h1 h2
  cases r with
  | ok a => exact ⟨h1, h2⟩
  | err e => exact ⟨h1, h2⟩
  | undefined => exact ⟨h1, h2⟩
  | panic =>
    refine ⟨fun ho => (nomatch ho), fun _ => (h2 (by simp)).trans ?_⟩
    refine ⟨rfl, rfl, rfl, rfl, rfl, rfl, fun a ha => if_neg ha, fun h => ?_, fun h hh => ?_⟩
    · change (if client = client then _ else _) = _
      rw [if_pos rfl]
      simp only at h
      rw [h]
      rfl
    · refine ⟨{ h with poisoned := true }, ?_, rfl, rfl, id⟩
      change (if client = client then _ else _) = _
      rw [if_pos rfl]
      simp only at hh
      rw [hh]
      rfl

theorem withEngine_gives {client v : Addr} {body : Engine → CM κ Unit} (hb : ∀ e, Gives client v (body e)) :
    Gives client v (withEngine client body) := by
  intro s
  unfold withEngine
  split
  · exact ⟨fun ho => (nomatch ho), fun _ => Frame.refl _ _⟩
  · split
    · exact ⟨fun ho => (nomatch ho), fun _ => Frame.refl _ _⟩
    · split
      · exact ⟨fun ho => (nomatch ho), fun _ => Frame.refl _ _⟩
      · exact withGuard_gives (hb _) s

theorem give_gives (client v : Addr) (x : CObj κ) : Gives client v (give v x) := by
  intro s
  unfold give
  split
  · exact ⟨fun ho => (nomatch ho), fun _ => Frame.refl _ _⟩
  · exact ⟨fun _ => ⟨x, s, Frame.refl _ _, rfl⟩, fun ho => absurd rfl ho⟩

theorem pointToString_gives (client v : Addr) (b : List Nat) : Gives client v (pointToString v b : CM κ Unit) := by
  intro s
  unfold pointToString
  split
  · exact ⟨fun ho => (nomatch ho), fun _ => Frame.refl _ _⟩
  · exact give_gives client v _ s

end CM

open CM

variable {κ : Type}

theorem runParseWithAlternatives_gives (env : CEnv κ) (c : CCirc) (client input wl bl : Addr) (ni ns : Nat) (v : Addr) :
    Gives client v (runParseWithAlternatives env c client input wl bl ni ns v) := by
  refine bind_gives (same_framed (rustString_same _ _)) fun _ => withEngine_gives fun _ => ?_
  refine bind_gives (same_framed (filterArg_same _ _)) fun _ => bind_gives (same_framed (filterArg_same _ _)) fun _ => ?_
  exact bind_gives (callEngine_framed _ _ _) fun _ => bind_gives (same_framed (lift_same _)) fun _ => give_gives _ _ _

theorem runGetSlots_gives (env : CEnv κ) (c : CCirc) (client input intent : Addr) (ns : Nat) (v : Addr) :
    Gives client v (runGetSlots env c client input intent ns v) := by
  refine bind_gives (same_framed (rustString_same _ _)) fun _ => bind_gives (same_framed (rustString_same _ _)) fun _ => ?_
  refine withEngine_gives fun _ => ?_
  exact bind_gives (callEngine_framed _ _ _) fun _ => bind_gives (same_framed (lift_same _)) fun _ => give_gives _ _ _

theorem runGetIntents_gives (env : CEnv κ) (c : CCirc) (client input v : Addr) :
    Gives client v (runGetIntents env c client input v) := by
  refine bind_gives (same_framed (rustString_same _ _)) fun _ => withEngine_gives fun _ => ?_
  exact bind_gives (callEngine_framed _ _ _) fun _ => bind_gives (same_framed (lift_same _)) fun _ => give_gives _ _ _

theorem runParseWithAlternativesIntoJson_gives (env : CEnv κ) (c : CCirc) (client input wl bl : Addr) (ni ns : Nat)
    (v : Addr) : Gives client v (runParseWithAlternativesIntoJson env c client input wl bl ni ns v) := by
  refine bind_gives (same_framed (rustString_same _ _)) fun _ => withEngine_gives fun _ => ?_
  refine bind_gives (same_framed (filterArg_same _ _)) fun _ => bind_gives (same_framed (filterArg_same _ _)) fun _ => ?_
  exact bind_gives (callEngine_framed _ _ _) fun _ => bind_gives (same_framed (lift_same _)) fun _ =>
    pointToString_gives _ _ _

theorem runGetSlotsIntoJson_gives (env : CEnv κ) (c : CCirc) (client input intent : Addr) (ns : Nat) (v : Addr) :
    Gives client v (runGetSlotsIntoJson env c client input intent ns v) := by
  refine bind_gives (same_framed (rustString_same _ _)) fun _ => bind_gives (same_framed (rustString_same _ _)) fun _ => ?_
  refine withEngine_gives fun _ => ?_
  exact bind_gives (callEngine_framed _ _ _) fun _ => bind_gives (same_framed (lift_same _)) fun _ =>
    pointToString_gives _ _ _

theorem runGetIntentsIntoJson_gives (env : CEnv κ) (c : CCirc) (client input v : Addr) :
    Gives client v (runGetIntentsIntoJson env c client input v) := by
  refine bind_gives (same_framed (rustString_same _ _)) fun _ => withEngine_gives fun _ => ?_
  exact bind_gives (callEngine_framed _ _ _) fun _ => bind_gives (same_framed (lift_same _)) fun _ =>
    pointToString_gives _ _ _

/-! ### Creation of engines -/

/-- The memory after an engine has been given. -/
def CM.afterGiveEngine (v : Addr) (h : Handle) (s : CMem κ) : CMem κ :=
  { s with
    engines := fun a => if a = s.next then some h else s.engines a,
    vars := fun a => if a = v then some s.next else s.vars a,
    next := s.next + 1 }

/-- Code that gives one fresh engine in the variable `v` if it succeeds, and nothing else. -/
def CM.GivesEngine (env : CEnv κ) (v : Addr) (m : CM κ Unit) : Prop := ∀ s,
  ((m s).1 = .ok () → ∃ e s1, Frame 0 s s1 ∧ (m s).2 = afterGiveEngine v (Handle.fresh env e) s1) ∧
  ((m s).1 ≠ .ok () → Frame 0 s (m s).2)

theorem CM.bind_givesEngine {α : Type} {env : CEnv κ} {v : Addr} {m : CM κ α} {f : α → CM κ Unit} (hm : Framed 0 m)
    (hf : ∀ a, GivesEngine env v (f a)) : GivesEngine env v (m >>= f) := by
  intro s
  have h := hm s
  have hb : (m >>= f) s = CM.bind m f s := rfl
  rw [hb]
  unfold CM.bind
  rcases hr : m s with ⟨r, s1⟩
  rw [hr] at h
  cases r with
  | ok a =>
    obtain ⟨h1, h2⟩ := hf a s1
    refine ⟨fun ho => ?_, fun ho => h.trans (h2 ho)⟩
    obtain ⟨x, s2, h3, h4⟩ := h1 ho
    exact ⟨x, s2, h.trans h3, h4⟩
  | err e => exact ⟨fun ho => (nomatch ho), fun _ => h⟩
  | panic => exact ⟨fun ho => (nomatch ho), fun _ => h⟩
  | undefined => exact ⟨fun ho => (nomatch ho), fun _ => h⟩

theorem CM.giveEngine_givesEngine (env : CEnv κ) (v : Addr) (e : LoadedEngine) :
    GivesEngine env v (giveEngine v (Handle.fresh env e)) := by
  intro s
  unfold giveEngine
  split
  · exact ⟨fun ho => (nomatch ho), fun _ => Frame.refl _ _⟩
  · exact ⟨fun _ => ⟨e, s, Frame.refl _ _, rfl⟩, fun ho => absurd rfl ho⟩

theorem createFromDir_gives (env : CEnv κ) (c : CCirc) (root v : Addr) :
    GivesEngine env v (createFromDir env c root v) := by
  refine bind_givesEngine (same_framed (rustString_same _ _)) fun _ => bind_givesEngine (same_framed fun s => ?_)
    fun _ => giveEngine_givesEngine _ _ _
  exact lift_same _ _

theorem CM.readBytes_same (zip : Addr) (size : Nat) (s : CMem κ) : (readBytes zip size s).2 = s := by
  unfold readBytes
  split
  · split <;> rfl
  · rfl

theorem CM.loadFromZip_framed (env : CEnv κ) (c : CCirc) (bytes : List Nat) : Framed 0 (loadFromZip env c bytes) := by
  intro s
  unfold loadFromZip
  simp only
  rw [lift_same]
  exact ⟨rfl, rfl, rfl, rfl, rfl, rfl, fun _ _ => rfl, id, fun h hh => ⟨h, hh, rfl, rfl, id⟩⟩

theorem createFromZip_gives (env : CEnv κ) (c : CCirc) (zip : Addr) (size : Nat) (v : Addr) :
    GivesEngine env v (createFromZip env c zip size v) := by
  exact bind_givesEngine (same_framed (readBytes_same zip size)) fun _ =>
    bind_givesEngine (loadFromZip_framed env c _) fun _ => giveEngine_givesEngine _ _ _

/-- What creation needs to succeed. -/
theorem CM.giveEngine_ok_iff {v : Addr} {h : Handle} {s s' : CMem κ} {u : Unit} :
    giveEngine v h s = (.ok u, s') ↔ s.vars v ≠ none ∧ s' = afterGiveEngine v h s := by
  unfold giveEngine
  cases hv : s.vars v with
  | none => simp
  | some w => simp [afterGiveEngine, eq_comm]

theorem CM.loadFromDir_ok_iff {env : CEnv κ} {c : CCirc} {dir : Text} {s s' : CMem κ} {e : LoadedEngine} :
    loadFromDir env c dir s = (.ok e, s') ↔
      (loadEngine env.load c.order (joinPath env.cwd dir) s.disk.fs).1 = .ok e ∧ s' = s := lift_ok_iff

theorem CM.readBytes_ok_iff {zip : Addr} {size : Nat} {s s' : CMem κ} {b : List Nat} :
    readBytes zip size s = (.ok b, s') ↔ (∃ m, s.bytes zip = some m ∧ size ≤ m.length ∧ b = m.take size) ∧ s' = s := by
  unfold readBytes
  cases hb : s.bytes zip with
  | none => simp
  | some m =>
    simp only
    by_cases hs : size ≤ m.length
    · simp [hs, eq_comm]
    · simp [hs]

theorem CM.loadFromZip_ok_iff {env : CEnv κ} {c : CCirc} {bytes : List Nat} {s s' : CMem κ} {e : LoadedEngine} :
    loadFromZip env c bytes s = (.ok e, s') ↔
      fromZip env.load c.order c.fault c.left (env.readZip bytes) c.tmp s.disk = (.ok e, s'.disk) ∧
      s' = { s with disk := (fromZip env.load c.order c.fault c.left (env.readZip bytes) c.tmp s.disk).2 } := by
  unfold loadFromZip
  simp only
  rw [lift_ok_iff]
  constructor
  · rintro ⟨h1, rfl⟩
    exact ⟨Prod.ext h1 rfl, rfl⟩
  · rintro ⟨h1, h2⟩
    exact ⟨by rw [h1], h2⟩

theorem createFromDir_ok_iff {env : CEnv κ} {c : CCirc} {root v : Addr} {s s' : CMem κ} {u : Unit} :
    createFromDir env c root v s = (.ok u, s') ↔
    ∃ dir e, ReadsText env s root dir ∧ (loadEngine env.load c.order (joinPath env.cwd dir) s.disk.fs).1 = .ok e ∧
      s.vars v ≠ none ∧ s' = afterGiveEngine v (Handle.fresh env e) s := by
  unfold createFromDir
  rw [bind_ok_iff]
  constructor
  · rintro ⟨dir, s1, h1, h2⟩
    obtain ⟨h1, rfl⟩ := rustString_ok_iff.1 h1
    obtain ⟨e, s2, h3, h4⟩ := bind_ok_iff.1 h2
    obtain ⟨h3, rfl⟩ := loadFromDir_ok_iff.1 h3
    obtain ⟨h4, h5⟩ := giveEngine_ok_iff.1 h4
    exact ⟨dir, e, h1, h3, h4, h5⟩
  · rintro ⟨dir, e, h1, h2, h3, h4⟩
    exact ⟨dir, s, rustString_ok_iff.2 ⟨h1, rfl⟩, bind_ok_iff.2 ⟨e, s, loadFromDir_ok_iff.2 ⟨h2, rfl⟩,
      giveEngine_ok_iff.2 ⟨h3, h4⟩⟩⟩

theorem createFromZip_ok_iff {env : CEnv κ} {c : CCirc} {zip v : Addr} {size : Nat} {s s' : CMem κ} {u : Unit} :
    createFromZip env c zip size v s = (.ok u, s') ↔
    ∃ m e d, s.bytes zip = some m ∧ size ≤ m.length ∧
      fromZip env.load c.order c.fault c.left (env.readZip (m.take size)) c.tmp s.disk = (.ok e, d) ∧
      s.vars v ≠ none ∧ s' = afterGiveEngine v (Handle.fresh env e) { s with disk := d } := by
  unfold createFromZip
  rw [bind_ok_iff]
  constructor
  · rintro ⟨b, s1, h1, h2⟩
    obtain ⟨⟨m, h0, h0', rfl⟩, rfl⟩ := readBytes_ok_iff.1 h1
    obtain ⟨e, s2, h3, h4⟩ := bind_ok_iff.1 h2
    obtain ⟨h3, h6⟩ := loadFromZip_ok_iff.1 h3
    obtain ⟨h4, h5⟩ := giveEngine_ok_iff.1 h4
    refine ⟨m, e, _, h0, h0', h3, ?_, ?_⟩
    · rw [h6] at h4; exact h4
    · rw [h5]
      congr 1
      rw [h3] at h6
      exact h6
  · rintro ⟨m, e, d, h1, h2, h3, h4, h5⟩
    refine ⟨_, s, readBytes_ok_iff.2 ⟨⟨m, h1, h2, rfl⟩, rfl⟩, bind_ok_iff.2 ⟨e, { s with disk := d }, ?_, ?_⟩⟩
    · exact loadFromZip_ok_iff.2 ⟨h3, by rw [h3]⟩
    · exact giveEngine_ok_iff.2 ⟨h4, h5⟩

theorem CM.bind_defined {α β : Type} {m : CM κ α} {f : α → CM κ β} {s : CMem κ} (hm : (m s).1 ≠ .undefined)
    (hf : ∀ a s1, m s = (.ok a, s1) → (f a s1).1 ≠ .undefined) : ((m >>= f) s).1 ≠ .undefined := by
  have hb : (m >>= f) s = CM.bind m f s := rfl
  rw [hb]
  unfold CM.bind
  rcases hr : m s with ⟨r, s1⟩
  rw [hr] at hm
  cases r with
  | ok a => exact hf a s1 hr
  | err e => simp
  | panic => simp
  | undefined => exact absurd rfl hm

theorem CM.lift_defined {α : Type} (o : Outcome α) (s : CMem κ) : ((lift o : CM κ α) s).1 ≠ .undefined := by
  unfold lift; cases o <;> simp

/-! ### Questions -/

/-- The memory after a panic under the guard of the engine. -/
def CM.poison (client : Addr) (s : CMem κ) : CMem κ :=
  { s with engines := fun a =>
      if a = client then (s.engines a).map fun h => { h with poisoned := true } else s.engines a }

/-- How a question ends, when its arguments are readable and the variable is writable. -/
def CM.finish (client v : Addr) (s : CMem κ) : Outcome (CObj κ) → CEnd Unit × CMem κ
  | .ok x => (.ok (), afterGive v x s)
  | .err e => (.err e, s)
  | .panic => (.panic, poison client s)

theorem CM.give_writable {v : Addr} {x : CObj κ} {s : CMem κ} (hv : s.vars v ≠ none) :
    give v x s = (.ok (), afterGive v x s) := by
  unfold give
  cases h : s.vars v with
  | none => exact absurd h hv
  | some _ => rfl

/-- Code that converts an answer and gives it. -/
def CM.Concludes {α : Type} (v : Addr) (conv : α → Outcome (CObj κ)) (k : α → CM κ Unit) : Prop :=
  ∀ r s, s.vars v ≠ none → k r s = match conv r with
    | .ok x => (.ok (), afterGive v x s)
    | .err e => (.err e, s)
    | .panic => (.panic, s)

theorem CM.concludes_object {α : Type} (v : Addr) (f : α → Outcome κ) (obj : κ → CObj κ) :
    Concludes v (fun r => (f r).map obj) (fun r => lift (f r) >>= fun x => give v (obj x)) := by
  intro r s hv
  change CM.bind (lift (f r)) (fun x => give v (obj x)) s = _
  unfold CM.bind lift
  beta_reduce
  cases f r with
  | ok x => exact give_writable hv
  | err e => rfl
  | panic => rfl

theorem CM.concludes_string {α : Type} (v : Addr) (f : α → Outcome (List Nat)) :
    Concludes (κ := κ) v (fun r => f r >>= stringObject) (fun r => lift (f r) >>= fun x => pointToString v x) := by
  intro r s hv
  change CM.bind (lift (f r)) (fun x => pointToString v x) s = _
  unfold CM.bind lift
  beta_reduce
  cases f r with
  | ok x =>
    change pointToString v x s = match stringObject x with
      | .ok x => (CEnd.ok (), afterGive v x s)
      | .err e => (.err e, s)
      | .panic => (.panic, s)
    unfold pointToString stringObject
    by_cases h0 : 0 ∈ x
    · rw [if_pos h0, if_pos h0]
    · rw [if_neg h0, if_neg h0]
      exact give_writable hv
  | err e => rfl
  | panic => rfl

theorem CM.withGuard_finish {client v : Addr} {m : CM κ Unit} {s s1 : CMem κ} {o : Outcome (CObj κ)}
    (h : m s = match o with
      | .ok x => (.ok (), afterGive v x s1)
      | .err e => (.err e, s1)
      | .panic => (.panic, s1)) : withGuard client m s = finish client v s1 o := by
  unfold withGuard
  rw [h]
  cases o <;> rfl

theorem CM.ask_native {α : Type} {c : CCirc} {client v : Addr} {h : Handle} {s : CMem κ} {p : Prog α}
    {conv : α → Outcome (CObj κ)} {k : α → CM κ Unit} (hk : Concludes v conv k) (hh : s.engines client = some h)
    (hv : s.vars v ≠ none) :
    withGuard client (callEngine c client p >>= k) s =
      finish client v (afterCall c client h p s) (h.answer c p >>= conv) := by
  have hc : callEngine c client p s = lift (h.answer c p) (afterCall c client h p s) := by
    unfold callEngine
    rw [hh]
    rfl
  have hb : (callEngine c client p >>= k) s = CM.bind (callEngine c client p) k s := rfl
  refine withGuard_finish (hb.trans ?_)
  unfold CM.bind
  rw [hc]
  unfold lift
  cases h.answer c p with
  | ok r => exact hk r (afterCall c client h p s) hv
  | err e => rfl
  | panic => rfl

theorem CM.withEngine_usable {client : Addr} {h : Handle} {s : CMem κ} {body : Engine → CM κ Unit}
    (hh : UsableEngine s client h) : withEngine client body s = withGuard client (body h.engine) s := by
  obtain ⟨h1, h2, h3⟩ := hh
  unfold withEngine
  rw [if_neg h1, h2]
  simp only
  rw [h3]
  rfl

theorem CM.bind_assoc_guard {α β : Type} {client : Addr} {m : CM κ α} {f : α → CM κ β} {s : CMem κ} {a : α}
    (h : m s = (.ok a, s)) : withGuard client (m >>= f) s = withGuard client (f a) s := by
  unfold withGuard
  rw [bind_of_ok h]

/-- A question whose arguments are readable ends as the native answer says. -/
theorem query_native {env : CEnv κ} {c : CCirc} {s : CMem κ} {call : CCall} {o : Outcome (CObj κ)}
    (hn : NativeOutcome env c s call o) {v : Addr} (hr : call.resultVar = some v) (hv : s.vars v ≠ none) :
    ∃ client s1, call.client = some client ∧ Frame client s s1 ∧ call.body env c s = finish client v s1 o := by
  have hframe : ∀ {α : Type} {client : Addr} {h : Handle} (p : Prog α), UsableEngine s client h →
      Frame client s (afterCall c client h p s) := by
    intro α client h p hh
    have := callEngine_framed (κ := κ) c client p s
    unfold callEngine at this
    rw [hh.2.1] at this
    simp only at this
    rw [lift_same] at this
    exact this
  have conclude : ∀ {α : Type} {client : Addr} {h : Handle} {p : Prog α} {conv : α → Outcome (CObj κ)}
      {k : α → CM κ Unit}, Concludes v conv k → UsableEngine s client h → call.client = some client →
      call.body env c s = withGuard client (callEngine c client p >>= k) s →
      ∃ client s1, call.client = some client ∧ Frame client s s1 ∧
        call.body env c s = finish client v s1 (h.answer c p >>= conv) :=
    fun hk hh hc hb => ⟨_, _, hc, hframe _ hh, hb.trans (ask_native hk hh.2.1 hv)⟩
  cases hn with
  | parse ht hh hw hb =>
    cases hr
    refine conclude (concludes_object _ env.cResult .result) hh rfl ?_
    refine (bind_of_ok (rustString_ok_iff.2 ⟨ht, rfl⟩)).trans ((withEngine_usable hh).trans ?_)
    refine (bind_assoc_guard (filterArg_ok_iff.2 ⟨hw, rfl⟩)).trans ?_
    exact bind_assoc_guard (filterArg_ok_iff.2 ⟨hb, rfl⟩)
  | parseWithAlternatives ht hh hw hb =>
    cases hr
    refine conclude (concludes_object _ env.cResult .result) hh rfl ?_
    refine (bind_of_ok (rustString_ok_iff.2 ⟨ht, rfl⟩)).trans ((withEngine_usable hh).trans ?_)
    refine (bind_assoc_guard (filterArg_ok_iff.2 ⟨hw, rfl⟩)).trans ?_
    exact bind_assoc_guard (filterArg_ok_iff.2 ⟨hb, rfl⟩)
  | parseJson ht hh hw hb =>
    cases hr
    refine conclude (concludes_string _ env.jsonResult) hh rfl ?_
    refine (bind_of_ok (rustString_ok_iff.2 ⟨ht, rfl⟩)).trans ((withEngine_usable hh).trans ?_)
    refine (bind_assoc_guard (filterArg_ok_iff.2 ⟨hw, rfl⟩)).trans ?_
    exact bind_assoc_guard (filterArg_ok_iff.2 ⟨hb, rfl⟩)
  | parseWithAlternativesJson ht hh hw hb =>
    cases hr
    refine conclude (concludes_string _ env.jsonResult) hh rfl ?_
    refine (bind_of_ok (rustString_ok_iff.2 ⟨ht, rfl⟩)).trans ((withEngine_usable hh).trans ?_)
    refine (bind_assoc_guard (filterArg_ok_iff.2 ⟨hw, rfl⟩)).trans ?_
    exact bind_assoc_guard (filterArg_ok_iff.2 ⟨hb, rfl⟩)
  | getSlots ht hi hh =>
    cases hr
    refine conclude (concludes_object _ env.cSlots .slots) hh rfl ?_
    refine (bind_of_ok (rustString_ok_iff.2 ⟨ht, rfl⟩)).trans ((bind_of_ok (rustString_ok_iff.2 ⟨hi, rfl⟩)).trans ?_)
    exact withEngine_usable hh
  | getSlotsWithAlternatives ht hi hh =>
    cases hr
    refine conclude (concludes_object _ env.cSlots .slots) hh rfl ?_
    refine (bind_of_ok (rustString_ok_iff.2 ⟨ht, rfl⟩)).trans ((bind_of_ok (rustString_ok_iff.2 ⟨hi, rfl⟩)).trans ?_)
    exact withEngine_usable hh
  | getSlotsJson ht hi hh =>
    cases hr
    refine conclude (concludes_string _ env.jsonSlots) hh rfl ?_
    refine (bind_of_ok (rustString_ok_iff.2 ⟨ht, rfl⟩)).trans ((bind_of_ok (rustString_ok_iff.2 ⟨hi, rfl⟩)).trans ?_)
    exact withEngine_usable hh
  | getSlotsWithAlternativesJson ht hi hh =>
    cases hr
    refine conclude (concludes_string _ env.jsonSlots) hh rfl ?_
    refine (bind_of_ok (rustString_ok_iff.2 ⟨ht, rfl⟩)).trans ((bind_of_ok (rustString_ok_iff.2 ⟨hi, rfl⟩)).trans ?_)
    exact withEngine_usable hh
  | getIntents ht hh =>
    cases hr
    refine conclude (concludes_object _ env.cIntents .intents) hh rfl ?_
    exact (bind_of_ok (rustString_ok_iff.2 ⟨ht, rfl⟩)).trans (withEngine_usable hh)
  | getIntentsJson ht hh =>
    cases hr
    refine conclude (concludes_string _ env.jsonIntents) hh rfl ?_
    exact (bind_of_ok (rustString_ok_iff.2 ⟨ht, rfl⟩)).trans (withEngine_usable hh)

/-! ### Arguments are readable or lead to an error -/

theorem CM.rustString_total {env : CEnv κ} (hu : ∀ b, env.utf8 b ≠ .panic) {s : CMem κ} {p : Addr} (h : StringArg s p) :
    (∃ t, ReadsText env s p t) ∨ ∃ e, rustString env p s = (.err e, s) := by
  unfold rustString ReadsText
  by_cases hp : p = 0
  · exact .inr ⟨_, by rw [if_pos hp]⟩
  · have h := h.resolve_left hp
    rw [if_neg hp]
    cases hb : s.strings p with
    | none => exact absurd hb h
    | some b =>
      simp only
      cases ht : env.utf8 b with
      | ok t => exact .inl ⟨t, hp, b, rfl, ht⟩
      | err e => exact .inr ⟨e, rfl⟩
      | panic => exact absurd ht (hu b)

theorem CM.elements_total {env : CEnv κ} (hu : ∀ b, env.utf8 b ≠ .panic) {s : CMem κ} {ps : List Addr}
    (h : ∀ q ∈ ps, s.strings q ≠ none) :
    (∃ ts, elements env ps s = (.ok ts, s)) ∨ ∃ e, elements env ps s = (.err e, s) := by
  induction ps with
  | nil => exact .inl ⟨[], rfl⟩
  | cons p ps ih =>
    unfold elements
    cases hb : s.strings p with
    | none => exact absurd hb (h p (by simp))
    | some b =>
      cases ht : env.utf8 b with
      | ok t =>
        have he : element env p s = (.ok t, s) := element_ok_iff.2 ⟨⟨b, hb, ht⟩, rfl⟩
        rw [bind_of_ok he]
        rcases ih (fun q hq => h q (List.mem_cons_of_mem _ hq)) with ⟨ts, h1⟩ | ⟨e, h1⟩
        · exact .inl ⟨t :: ts, by rw [bind_of_ok h1]; rfl⟩
        · exact .inr ⟨e, bind_of_err h1⟩
      | err e =>
        have he : element env p s = (.err e, s) := by unfold element; rw [hb]; simp only; rw [ht]; rfl
        exact .inr ⟨e, bind_of_err he⟩
      | panic => exact absurd ht (hu b)

theorem CM.filterArg_total {env : CEnv κ} (hu : ∀ b, env.utf8 b ≠ .panic) {s : CMem κ} {p : Addr} (h : ArrayArg s p) :
    (∃ f, FilterIs env s p f) ∨ ∃ e, filterArg env p s = (.err e, s) := by
  by_cases hp : p = 0
  · exact .inl ⟨none, hp⟩
  · obtain ⟨ps, ha, hq⟩ := h.resolve_left hp
    unfold filterArg
    rw [if_pos hp]
    have hc : convertToRustVec env p s = elements env ps s := by unfold convertToRustVec; rw [ha]
    rcases elements_total hu hq with ⟨ts, h1⟩ | ⟨e, h1⟩
    · exact .inl ⟨some ts, hp, ps, ha, (elements_ok_iff.1 h1).1⟩
    · exact .inr ⟨e, bind_of_err (hc.trans h1)⟩

theorem CM.withEngine_total {s : CMem κ} {client : Addr} (h : EngineArg s client) :
    (∃ hd, UsableEngine s client hd) ∨ ∀ (body : Engine → CM κ Unit), ∃ e, withEngine client body s = (.err e, s) := by
  unfold withEngine UsableEngine
  by_cases hp : client = 0
  · exact .inr fun _ => ⟨_, by rw [if_pos hp]⟩
  · cases he : s.engines client with
    | none => exact absurd he (h.resolve_left hp)
    | some hd =>
      cases hq : hd.poisoned with
      | false => exact .inl ⟨hd, hp, rfl, hq⟩
      | true => exact .inr fun _ => ⟨_, by rw [if_neg hp]; simp only; rw [hq]; rfl⟩

theorem CM.guard_err {client : Addr} {m : CM κ Unit} {s s1 : CMem κ} {e : Err} (h : m s = (.err e, s1)) :
    withGuard client m s = (.err e, s1) := by
  unfold withGuard
  rw [h]

/-- A question with valid arguments has a native answer, or ends with an error at once. -/
theorem query_total {env : CEnv κ} (hu : ∀ b, env.utf8 b ≠ .panic) (c : CCirc) {s : CMem κ} {call : CCall}
    (hval : call.Valid s) {client : Addr} (hq : call.client = some client) :
    (∃ o, NativeOutcome env c s call o) ∨ ∃ e, call.body env c s = (.err e, s) := by
  have parse : ∀ {client input wl bl : Addr} {k : Engine → Text → Option (List Text) → Option (List Text) → CM κ Unit},
      EngineArg s client → StringArg s input → ArrayArg s wl → ArrayArg s bl →
      (∃ t h w b, ReadsText env s input t ∧ UsableEngine s client h ∧ FilterIs env s wl w ∧ FilterIs env s bl b) ∨
      ∃ e, (rustString env input >>= fun t => withEngine client fun e => do
        let w ← filterArg env wl
        let b ← filterArg env bl
        k e t w b) s = (.err e, s) := by
    intro client input wl bl k h1 h2 h3 h4
    rcases rustString_total hu h2 with ⟨t, ht⟩ | ⟨e, he⟩
    · rcases withEngine_total h1 with ⟨h, hh⟩ | hw
      · rcases filterArg_total hu h3 with ⟨w, hw⟩ | ⟨e, he⟩
        · rcases filterArg_total hu h4 with ⟨b, hb⟩ | ⟨e, he⟩
          · exact .inl ⟨t, h, w, b, ht, hh, hw, hb⟩
          · refine .inr ⟨e, (bind_of_ok (rustString_ok_iff.2 ⟨ht, rfl⟩)).trans ((withEngine_usable hh).trans ?_)⟩
            refine (bind_assoc_guard (filterArg_ok_iff.2 ⟨hw, rfl⟩)).trans ?_
            exact guard_err (bind_of_err he)
        · refine .inr ⟨e, (bind_of_ok (rustString_ok_iff.2 ⟨ht, rfl⟩)).trans ((withEngine_usable hh).trans ?_)⟩
          exact guard_err (bind_of_err he)
      · obtain ⟨e, he⟩ := hw fun e => do
          let w ← filterArg env wl
          let b ← filterArg env bl
          k e t w b
        exact .inr ⟨e, (bind_of_ok (rustString_ok_iff.2 ⟨ht, rfl⟩)).trans he⟩
    · exact .inr ⟨e, bind_of_err he⟩
  have slots : ∀ {client input intent : Addr} {k : Engine → Text → Text → CM κ Unit},
      EngineArg s client → StringArg s input → StringArg s intent →
      (∃ t n h, ReadsText env s input t ∧ ReadsText env s intent n ∧ UsableEngine s client h) ∨
      ∃ e, (rustString env input >>= fun t => rustString env intent >>= fun n =>
        withEngine client fun e => k e t n) s = (.err e, s) := by
    intro client input intent k h1 h2 h3
    rcases rustString_total hu h2 with ⟨t, ht⟩ | ⟨e, he⟩
    · rcases rustString_total hu h3 with ⟨n, hn⟩ | ⟨e, he⟩
      · rcases withEngine_total h1 with ⟨h, hh⟩ | hw
        · exact .inl ⟨t, n, h, ht, hn, hh⟩
        · obtain ⟨e, he⟩ := hw fun e => k e t n
          exact .inr ⟨e, (bind_of_ok (rustString_ok_iff.2 ⟨ht, rfl⟩)).trans
            ((bind_of_ok (rustString_ok_iff.2 ⟨hn, rfl⟩)).trans he)⟩
      · exact .inr ⟨e, (bind_of_ok (rustString_ok_iff.2 ⟨ht, rfl⟩)).trans (bind_of_err he)⟩
    · exact .inr ⟨e, bind_of_err he⟩
  have intents : ∀ {client input : Addr} {k : Engine → Text → CM κ Unit},
      EngineArg s client → StringArg s input →
      (∃ t h, ReadsText env s input t ∧ UsableEngine s client h) ∨
      ∃ e, (rustString env input >>= fun t => withEngine client fun e => k e t) s = (.err e, s) := by
    intro client input k h1 h2
    rcases rustString_total hu h2 with ⟨t, ht⟩ | ⟨e, he⟩
    · rcases withEngine_total h1 with ⟨h, hh⟩ | hw
      · exact .inl ⟨t, h, ht, hh⟩
      · obtain ⟨e, he⟩ := hw fun e => k e t
        exact .inr ⟨e, (bind_of_ok (rustString_ok_iff.2 ⟨ht, rfl⟩)).trans he⟩
    · exact .inr ⟨e, bind_of_err he⟩
  cases call with
  | createFromDir => cases hq
  | createFromZip => cases hq
  | destroyString => cases hq
  | destroyClient => cases hq
  | destroyResult => cases hq
  | destroySlots => cases hq
  | destroyIntentClassifierResults => cases hq
  | getModelVersion => cases hq
  | runParse =>
    obtain ⟨h1, h2, h3, h4, _⟩ := hval
    exact (parse h1 h2 h3 h4).imp (fun ⟨_, _, _, _, a, b, c, d⟩ => ⟨_, .parse a b c d⟩) id
  | runParseWithAlternatives =>
    obtain ⟨h1, h2, h3, h4, _⟩ := hval
    exact (parse h1 h2 h3 h4).imp (fun ⟨_, _, _, _, a, b, c, d⟩ => ⟨_, .parseWithAlternatives a b c d⟩) id
  | runParseIntoJson =>
    obtain ⟨h1, h2, h3, h4, _⟩ := hval
    exact (parse h1 h2 h3 h4).imp (fun ⟨_, _, _, _, a, b, c, d⟩ => ⟨_, .parseJson a b c d⟩) id
  | runParseWithAlternativesIntoJson =>
    obtain ⟨h1, h2, h3, h4, _⟩ := hval
    exact (parse h1 h2 h3 h4).imp (fun ⟨_, _, _, _, a, b, c, d⟩ => ⟨_, .parseWithAlternativesJson a b c d⟩) id
  | runGetSlots =>
    obtain ⟨h1, h2, h3, _⟩ := hval
    exact (slots h1 h2 h3).imp (fun ⟨_, _, _, a, b, c⟩ => ⟨_, .getSlots a b c⟩) id
  | runGetSlotsWithAlternatives =>
    obtain ⟨h1, h2, h3, _⟩ := hval
    exact (slots h1 h2 h3).imp (fun ⟨_, _, _, a, b, c⟩ => ⟨_, .getSlotsWithAlternatives a b c⟩) id
  | runGetSlotsIntoJson =>
    obtain ⟨h1, h2, h3, _⟩ := hval
    exact (slots h1 h2 h3).imp (fun ⟨_, _, _, a, b, c⟩ => ⟨_, .getSlotsJson a b c⟩) id
  | runGetSlotsWithAlternativesIntoJson =>
    obtain ⟨h1, h2, h3, _⟩ := hval
    exact (slots h1 h2 h3).imp (fun ⟨_, _, _, a, b, c⟩ => ⟨_, .getSlotsWithAlternativesJson a b c⟩) id
  | runGetIntents =>
    obtain ⟨h1, h2, _⟩ := hval
    exact (intents h1 h2).imp (fun ⟨_, _, a, b⟩ => ⟨_, .getIntents a b⟩) id
  | runGetIntentsIntoJson =>
    obtain ⟨h1, h2, _⟩ := hval
    exact (intents h1 h2).imp (fun ⟨_, _, a, b⟩ => ⟨_, .getIntentsJson a b⟩) id

/-! ### What any call changes -/

theorem query_gives (env : CEnv κ) (c : CCirc) {call : CCall} {client : Addr} (hq : call.client = some client) :
    ∃ v, call.resultVar = some v ∧ Gives client v (call.body env c) := by
  cases call <;> cases hq
  · exact ⟨_, rfl, by apply runParseWithAlternatives_gives⟩
  · exact ⟨_, rfl, by apply runParseWithAlternatives_gives⟩
  · exact ⟨_, rfl, by apply runGetSlots_gives⟩
  · exact ⟨_, rfl, by apply runGetSlots_gives⟩
  · exact ⟨_, rfl, by apply runGetIntents_gives⟩
  · exact ⟨_, rfl, by apply runParseWithAlternativesIntoJson_gives⟩
  · exact ⟨_, rfl, by apply runParseWithAlternativesIntoJson_gives⟩
  · exact ⟨_, rfl, by apply runGetSlotsIntoJson_gives⟩
  · exact ⟨_, rfl, by apply runGetSlotsIntoJson_gives⟩
  · exact ⟨_, rfl, by apply runGetIntentsIntoJson_gives⟩

theorem create_gives (env : CEnv κ) (c : CCirc) {call : CCall} {v : Addr} (hr : call.resultVar = some v)
    (hq : call.client = none) (hm : ∀ p, call ≠ .getModelVersion p) : GivesEngine env v (call.body env c) := by
  cases call <;> cases hr <;> first | (cases hq; done) | apply createFromDir_gives | apply createFromZip_gives | exact absurd rfl (hm _)

theorem destroyObject_cases (kind : CObj κ → Bool) (p : Addr) (s : CMem κ) :
    (∃ x, p ≠ 0 ∧ s.objects p = some x ∧ kind x = true ∧
      destroyObject kind p s = (.ok (), { s with objects := fun a => if a = p then none else s.objects a })) ∨
    (p = 0 ∧ destroyObject kind p s = (.err (.external 240), s)) ∨
    (p ≠ 0 ∧ (∀ x, s.objects p = some x → kind x = false) ∧ destroyObject kind p s = (.undefined, s)) := by
  unfold destroyObject
  by_cases hp : p = 0
  · exact .inr (.inl ⟨hp, by rw [if_pos hp]⟩)
  · rw [if_neg hp]
    cases ho : s.objects p with
    | none => exact .inr (.inr ⟨hp, (fun x hx => nomatch hx), rfl⟩)
    | some x =>
      simp only
      cases hk : kind x with
      | true => exact .inl ⟨x, hp, rfl, hk, rfl⟩
      | false => exact .inr (.inr ⟨hp, (fun y hy => by cases hy; exact hk), rfl⟩)

theorem destroyClient_cases (p : Addr) (s : CMem κ) :
    (∃ h, p ≠ 0 ∧ s.engines p = some h ∧
      destroyClient p s = (.ok (), { s with engines := fun a => if a = p then none else s.engines a })) ∨
    (p = 0 ∧ destroyClient p s = (.err (.external 240), s)) ∨
    (p ≠ 0 ∧ s.engines p = none ∧ destroyClient p s = (.undefined, s)) := by
  unfold destroyClient
  by_cases hp : p = 0
  · exact .inr (.inl ⟨hp, by rw [if_pos hp]⟩)
  · rw [if_neg hp]
    cases ho : s.engines p with
    | none => exact .inr (.inr ⟨hp, rfl, rfl⟩)
    | some x => exact .inl ⟨x, hp, rfl, rfl⟩

/-- What a successful call does. -/
inductive CM.Effect (env : CEnv κ) (call : CCall) (s : CMem κ) : CMem κ → Prop where
  | gave {client v x s1} (hc : ∀ a, call.client = some a → a = client) (hr : call.resultVar = some v)
      (hd : call.destroys = none) (h : Frame client s s1) : Effect env call s (afterGive v x s1)
  | gaveEngine {v e s1} (hc : call.client = none) (hr : call.resultVar = some v)
      (hd : call.destroys = none) (h : Frame 0 s s1) : Effect env call s (afterGiveEngine v (Handle.fresh env e) s1)
  | destroyed {p x} (hc : call.client = none) (hr : call.resultVar = none) (hd : call.destroys = some p) (hp : p ≠ 0)
      (hx : s.objects p = some x) (hne : ∀ q, call ≠ .destroyClient q) :
      Effect env call s { s with objects := fun a => if a = p then none else s.objects a }
  | destroyedClient {p h} (he : call = .destroyClient p) (hp : p ≠ 0) (hx : s.engines p = some h) :
      Effect env call s { s with engines := fun a => if a = p then none else s.engines a }

theorem run_of_body {env : CEnv κ} {c : CCirc} {call : CCall} {s : CMem κ} :
    ((call.run env c s).1 = .ok ↔ (call.body env c s).1 = .ok ()) ∧
    ((call.run env c s).1 = .ok → (call.run env c s).2 = (call.body env c s).2) := by
  unfold CCall.run
  rcases call.body env c s with ⟨r, s'⟩
  cases r <;> simp

/-- Calls by what they may do. -/
theorem call_kinds (env : CEnv κ) (c : CCirc) (call : CCall) :
    (∃ client v, call.client = some client ∧ call.resultVar = some v ∧ call.destroys = none ∧
      Gives client v (call.body env c)) ∨
    (∃ v, call.client = none ∧ call.resultVar = some v ∧ call.destroys = none ∧ GivesEngine env v (call.body env c)) ∨
    (∃ v, call = .getModelVersion v) ∨ (∃ p, call = .destroyClient p) ∨
    (∃ kind p, call.client = none ∧ call.resultVar = none ∧ call.destroys = some p ∧
      call.body env c = destroyObject kind p ∧ ∀ q, call ≠ .destroyClient q) := by
  cases call with
  | createFromDir => exact .inr (.inl ⟨_, rfl, rfl, rfl, by apply createFromDir_gives⟩)
  | createFromZip => exact .inr (.inl ⟨_, rfl, rfl, rfl, by apply createFromZip_gives⟩)
  | getModelVersion => exact .inr (.inr (.inl ⟨_, rfl⟩))
  | destroyClient => exact .inr (.inr (.inr (.inl ⟨_, rfl⟩)))
  | destroyString => exact .inr (.inr (.inr (.inr ⟨_, _, rfl, rfl, rfl, rfl, by simp⟩)))
  | destroyResult => exact .inr (.inr (.inr (.inr ⟨_, _, rfl, rfl, rfl, rfl, by simp⟩)))
  | destroySlots => exact .inr (.inr (.inr (.inr ⟨_, _, rfl, rfl, rfl, rfl, by simp⟩)))
  | destroyIntentClassifierResults => exact .inr (.inr (.inr (.inr ⟨_, _, rfl, rfl, rfl, rfl, by simp⟩)))
  | runParse => exact .inl ⟨_, _, rfl, rfl, rfl, by apply runParseWithAlternatives_gives⟩
  | runParseWithAlternatives => exact .inl ⟨_, _, rfl, rfl, rfl, by apply runParseWithAlternatives_gives⟩
  | runGetSlots => exact .inl ⟨_, _, rfl, rfl, rfl, by apply runGetSlots_gives⟩
  | runGetSlotsWithAlternatives => exact .inl ⟨_, _, rfl, rfl, rfl, by apply runGetSlots_gives⟩
  | runGetIntents => exact .inl ⟨_, _, rfl, rfl, rfl, by apply runGetIntents_gives⟩
  | runParseIntoJson => exact .inl ⟨_, _, rfl, rfl, rfl, by apply runParseWithAlternativesIntoJson_gives⟩
  | runParseWithAlternativesIntoJson => exact .inl ⟨_, _, rfl, rfl, rfl, by apply runParseWithAlternativesIntoJson_gives⟩
  | runGetSlotsIntoJson => exact .inl ⟨_, _, rfl, rfl, rfl, by apply runGetSlotsIntoJson_gives⟩
  | runGetSlotsWithAlternativesIntoJson => exact .inl ⟨_, _, rfl, rfl, rfl, by apply runGetSlotsIntoJson_gives⟩
  | runGetIntentsIntoJson => exact .inl ⟨_, _, rfl, rfl, rfl, by apply runGetIntentsIntoJson_gives⟩

theorem CM.Frame.of_error {client : Addr} {s s' : CMem κ} (h : Frame client s s') (e : Option Err) :
    Frame client s { s' with lastError := e } :=
  ⟨h.strings, h.arrays, h.bytes, h.vars, h.objects, h.next, h.others, h.dead, h.alive⟩

theorem run_failed {env : CEnv κ} {c : CCirc} {call : CCall} {s : CMem κ} (h : (call.run env c s).1 ≠ .ok) :
    ∃ client, (∀ a, call.client = some a → a = client) ∧ Frame client s (call.run env c s).2 := by
  have hb : (call.body env c s).1 ≠ .ok () := fun hb => h (run_of_body.1.2 hb)
  have key : ∃ client, (∀ a, call.client = some a → a = client) ∧ Frame client s (call.body env c s).2 := by
    rcases call_kinds env c call with ⟨client, v, h1, _, _, h3⟩ | ⟨v, h1, _, _, h3⟩ | ⟨v, rfl⟩ | ⟨p, rfl⟩ |
      ⟨kind, p, h1, _, _, h3, _⟩
    · exact ⟨client, fun a ha => by rw [h1] at ha; exact (Option.some.inj ha).symm, (h3 s).2 hb⟩
    · exact ⟨0, fun a ha => (nomatch h1.symm.trans ha), (h3 s).2 hb⟩
    · exact ⟨0, fun a ha => (nomatch ha), (pointToString_gives 0 v _ s).2 hb⟩
    · refine ⟨0, fun a ha => (nomatch ha), ?_⟩
      rcases destroyClient_cases p s with ⟨_, _, _, h4⟩ | ⟨_, h4⟩ | ⟨_, _, h4⟩
      · exact absurd (congrArg Prod.fst h4) hb
      · change Frame 0 s (destroyClient p s).2
        rw [h4]; exact Frame.refl _ _
      · change Frame 0 s (destroyClient p s).2
        rw [h4]; exact Frame.refl _ _
    · refine ⟨0, fun a ha => (nomatch h1.symm.trans ha), ?_⟩
      rw [h3] at hb ⊢
      rcases destroyObject_cases kind p s with ⟨_, _, _, _, h4⟩ | ⟨_, h4⟩ | ⟨_, _, h4⟩
      · exact absurd (congrArg Prod.fst h4) hb
      · rw [h4]; exact Frame.refl _ _
      · rw [h4]; exact Frame.refl _ _
  obtain ⟨client, hc, hf⟩ := key
  refine ⟨client, hc, ?_⟩
  unfold CCall.run
  rcases hr : call.body env c s with ⟨r, s'⟩
  rw [hr] at hf
  cases r with
  | ok => exact hf
  | err e => exact hf.of_error _
  | panic => exact hf
  | undefined => exact hf

theorem run_succeeded {env : CEnv κ} {c : CCirc} {call : CCall} {s : CMem κ} (h : (call.run env c s).1 = .ok) :
    Effect env call s (call.run env c s).2 := by
  have hb := run_of_body.1.1 h
  rw [run_of_body.2 h]
  rcases call_kinds env c call with ⟨client, v, h1, h2, hd, h3⟩ | ⟨v, h1, h2, hd, h3⟩ | ⟨v, rfl⟩ | ⟨p, rfl⟩ |
    ⟨kind, p, h1, h2, hd, h3, hne⟩
  · obtain ⟨x, s1, h4, h5⟩ := (h3 s).1 hb
    rw [h5]
    exact .gave (fun a ha => by rw [h1] at ha; exact (Option.some.inj ha).symm) h2 hd h4
  · obtain ⟨x, s1, h4, h5⟩ := (h3 s).1 hb
    rw [h5]
    exact .gaveEngine h1 h2 hd h4
  · obtain ⟨x, s1, h4, h5⟩ := (pointToString_gives 0 v _ s).1 hb
    change Effect env _ s (pointToString v _ s).2
    rw [h5]
    exact .gave (client := 0) (fun a ha => (nomatch ha)) rfl rfl h4
  · change (destroyClient p s).1 = _ at hb
    change Effect env _ s (destroyClient p s).2
    rcases destroyClient_cases p s with ⟨_, h5, h6, h4⟩ | ⟨_, h4⟩ | ⟨_, _, h4⟩
    · rw [h4]; exact .destroyedClient rfl h5 h6
    · rw [h4] at hb; cases hb
    · rw [h4] at hb; cases hb
  · rw [h3] at hb ⊢
    rcases destroyObject_cases kind p s with ⟨x, h5, h6, _, h4⟩ | ⟨_, h4⟩ | ⟨_, _, h4⟩
    · rw [h4]; exact .destroyed h1 h2 hd h5 h6 hne
    · rw [h4] at hb; cases hb
    · rw [h4] at hb; cases hb

/-! ### Sessions -/

theorem Handle.fresh_good (env : CEnv κ) (e : LoadedEngine) : (Handle.fresh env e).Good :=
  fun _ _ => ⟨Caches.empty_sound _ _, Caches.empty_healthy _⟩

theorem CM.Frame.engine {client : Addr} {s s' : CMem κ} (hf : Frame client s s') (a : Addr) :
    (s.engines a = none → s'.engines a = none) ∧ ∀ h, s.engines a = some h → ∃ h', s'.engines a = some h' ∧
      h'.engine = h.engine ∧ h'.ext = h.ext ∧ (h.Good → h'.Good) := by
  by_cases ha : a = client
  · subst ha
    exact ⟨hf.dead, hf.alive⟩
  · rw [hf.others a ha]
    exact ⟨id, fun h hh => ⟨h, hh, rfl, rfl, id⟩⟩

theorem CM.Frame.tidy {client : Addr} {s s' : CMem κ} (hf : Frame client s s') (h : s.Tidy) : s'.Tidy := by
  refine ⟨hf.next ▸ h.pos, ⟨hf.objects ▸ h.null.1, (hf.engine 0).1 h.null.2⟩, fun a ha => ?_⟩
  rw [hf.next] at ha
  exact ⟨hf.objects ▸ (h.fresh a ha).1, (hf.engine a).1 (h.fresh a ha).2⟩

/-- Every engine is in order. -/
def CM.AllGood (s : CMem κ) : Prop := ∀ a h, s.engines a = some h → h.Good

theorem CM.Frame.allGood {client : Addr} {s s' : CMem κ} (hf : Frame client s s') (h : AllGood s) : AllGood s' := by
  intro a hd hh
  cases he : s.engines a with
  | none => rw [(hf.engine a).1 he] at hh; cases hh
  | some h0 =>
    obtain ⟨h', h1, _, _, h2⟩ := (hf.engine a).2 h0 he
    rw [hh] at h1
    cases h1
    exact h2 (h a h0 he)

theorem CM.effect_inv {env : CEnv κ} {call : CCall} {s s' : CMem κ} (h : Effect env call s s') (ht : s.Tidy)
    (hg : AllGood s) : s'.Tidy ∧ AllGood s' := by
  cases h with
  | @gave client v x s1 hc hr hd h =>
    have t1 := h.tidy ht
    refine ⟨⟨Nat.succ_pos _, ⟨?_, t1.null.2⟩, fun a ha => ?_⟩, h.allGood hg⟩
    · exact (if_neg (Nat.ne_of_lt t1.pos)).trans t1.null.1
    · simp only [afterGive] at ha ⊢
      rw [if_neg (Nat.ne_of_gt ha)]
      exact t1.fresh a (Nat.le_of_lt ha)
  | @gaveEngine v e s1 hc hr hd h =>
    have t1 := h.tidy ht
    refine ⟨⟨Nat.succ_pos _, ⟨t1.null.1, ?_⟩, fun a ha => ?_⟩, fun a hh hhh => ?_⟩
    · exact (if_neg (Nat.ne_of_lt t1.pos)).trans t1.null.2
    · simp only [afterGiveEngine] at ha ⊢
      rw [if_neg (Nat.ne_of_gt ha)]
      exact t1.fresh a (Nat.le_of_lt ha)
    · simp only [afterGiveEngine] at hhh
      by_cases ha : a = s1.next
      · rw [if_pos ha] at hhh
        cases hhh
        exact Handle.fresh_good env e
      · rw [if_neg ha] at hhh
        exact h.allGood hg a hh hhh
  | @destroyed p x hc hr hd hp hx hne =>
    refine ⟨⟨ht.pos, ⟨?_, ht.null.2⟩, fun a ha => ⟨?_, (ht.fresh a ha).2⟩⟩, hg⟩
    · simp only; split
      · rfl
      · exact ht.null.1
    · simp only; split
      · rfl
      · exact (ht.fresh a ha).1
  | @destroyedClient p h he hp hx =>
    refine ⟨⟨ht.pos, ⟨ht.null.1, ?_⟩, fun a ha => ⟨(ht.fresh a ha).1, ?_⟩⟩, fun a hh hhh => ?_⟩
    · simp only; split
      · rfl
      · exact ht.null.2
    · simp only; split
      · rfl
      · exact (ht.fresh a ha).2
    · simp only at hhh
      split at hhh
      · cases hhh
      · exact hg a hh hhh

theorem session_inv {env : CEnv κ} {s : CMem κ} (h : Session env s) : s.Tidy ∧ AllGood s := by
  induction h with
  | start s hpos ho he =>
    exact ⟨⟨hpos, ⟨ho 0, he 0⟩, fun a _ => ⟨ho a, he a⟩⟩, fun a h hh => by rw [he a] at hh; cases hh⟩
  | @call s h c call hv ih =>
    by_cases hok : (call.run env c s).1 = .ok
    · exact effect_inv (run_succeeded hok) ih.1 ih.2
    · obtain ⟨client, _, hf⟩ := run_failed hok
      exact ⟨hf.tidy ih.1, hf.allGood ih.2⟩
  | @own s h s' he ho hn ih =>
    obtain ⟨h1, h2⟩ := ih
    refine ⟨⟨hn ▸ h1.pos, ⟨ho ▸ h1.null.1, he ▸ h1.null.2⟩, fun a ha => ?_⟩, fun a hh hhh => ?_⟩
    · rw [hn] at ha
      exact ⟨ho ▸ (h1.fresh a ha).1, he ▸ (h1.fresh a ha).2⟩
    · rw [he] at hhh
      exact h2 a hh hhh

end Snips
