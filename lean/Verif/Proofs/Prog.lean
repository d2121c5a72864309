import Verif.Model.Prog

/-! Lemmas on running programs. -/

namespace Snips

theorem Outcome.bind_eq {α β : Type} (o : Outcome α) (f : α → Outcome β) : (o >>= f) = o.bind f := rfl

theorem Outcome.pure_eq {α : Type} (a : α) : (pure a : Outcome α) = .ok a := rfl

theorem Prog.bind_eq {α β : Type} (p : Prog α) (f : α → Prog β) : (p >>= f) = p.bind f := rfl

theorem Prog.pure_eq {α : Type} (a : α) : (pure a : Prog α) = .ret a := rfl

theorem Prog.run_bind {α β : Type} (w : World) (p : Prog α) (f : α → Prog β) :
    (p.bind f).run w = (p.run w).bind (fun a => (f a).run w) := by
  induction p with
  | ret a => rfl
  | fail e => rfl
  | panic => rfl
  | builtinCached s kinds k ih =>
    simp only [Prog.bind, Prog.run]
    cases w.builtin s kinds 0 with
    | ok es => exact ih _
    | err e => rfl
    | panic => rfl
  | builtinFresh s kinds n k ih =>
    simp only [Prog.bind, Prog.run]
    cases w.builtin s kinds n with
    | ok es => exact ih _
    | err e => rfl
    | panic => rfl
  | custom s kinds n k ih =>
    simp only [Prog.bind, Prog.run]
    cases w.custom s kinds n with
    | ok es => exact ih _
    | err e => rfl
    | panic => rfl

theorem Prog.run_bind' {α β : Type} (w : World) (p : Prog α) (f : α → Prog β) :
    (p >>= f).run w = (p.run w).bind (fun a => (f a).run w) := Prog.run_bind w p f

theorem Outcome.bind_ok {α β : Type} {o : Outcome α} {f : α → Outcome β} {b : β} :
    o.bind f = .ok b ↔ ∃ a, o = .ok a ∧ f a = .ok b := by
  cases o <;> simp [Outcome.bind]

theorem Outcome.bind_assoc {α β γ : Type} (o : Outcome α) (f : α → Outcome β) (g : β → Outcome γ) :
    (o.bind f).bind g = o.bind (fun a => (f a).bind g) := by cases o <;> rfl

theorem Prog.run_bind_ok {α β : Type} {w : World} {p : Prog α} {f : α → Prog β} {b : β} :
    (p >>= f).run w = .ok b ↔ ∃ a, p.run w = .ok a ∧ (f a).run w = .ok b := by
  rw [Prog.run_bind', Outcome.bind_ok]

theorem Prog.run_bind_of_ok {α β : Type} {w : World} {p : Prog α} {f : α → Prog β} {a : α}
    (h : p.run w = .ok a) : (p >>= f).run w = (f a).run w := by
  rw [Prog.run_bind', h]; rfl

theorem Prog.run_ret {α : Type} {w : World} (a : α) : (Prog.ret a).run w = .ok a := rfl

theorem Prog.run_ofOutcome {α : Type} (w : World) (o : Outcome α) : (Prog.ofOutcome o).run w = o := by
  cases o <;> rfl

theorem Prog.run_builtinCached_ok {α : Type} {w : World} {s : Text} {kinds : Option (List Kind)}
    {k : List KindMatch → Prog α} {a : α} :
    (Prog.builtinCached s kinds k).run w = .ok a ↔
      ∃ es, w.builtin s kinds 0 = .ok es ∧ (k (es.map BuiltinEntity.kindMatch)).run w = .ok a := by
  simp only [Prog.run]
  cases w.builtin s kinds 0 <;> simp

theorem Prog.run_builtinFresh_ok {α : Type} {w : World} {s : Text} {kinds : Option (List Kind)} {n : Nat}
    {k : List BuiltinEntity → Prog α} {a : α} :
    (Prog.builtinFresh s kinds n k).run w = .ok a ↔
      ∃ es, w.builtin s kinds n = .ok es ∧ (k es).run w = .ok a := by
  simp only [Prog.run]
  cases w.builtin s kinds n <;> simp

theorem Prog.run_custom_ok {α : Type} {w : World} {s : Text} {kinds : Option (List Text)} {n : Nat}
    {k : List CustomEntity → Prog α} {a : α} :
    (Prog.custom s kinds n k).run w = .ok a ↔
      ∃ es, w.custom s kinds n = .ok es ∧ (k es).run w = .ok a := by
  simp only [Prog.run]
  cases w.custom s kinds n <;> simp

theorem Prog.run_mapM_ok {α β : Type} {w : World} {f : α → Prog β} {l : List α} {bs : List β} :
    (Prog.mapM f l).run w = .ok bs ↔ List.Forall₂ (fun a b => (f a).run w = .ok b) l bs := by
  induction l generalizing bs with
  | nil =>
    simp only [Prog.mapM, Prog.run_ret, Outcome.ok.injEq, List.forall₂_nil_left_iff]
    exact ⟨fun h => h.symm, fun h => h.symm⟩
  | cons a l ih =>
    simp only [Prog.mapM]
    rw [Prog.run_bind, Outcome.bind_ok]
    constructor
    · rintro ⟨b, hb, h⟩
      rw [Prog.run_bind, Outcome.bind_ok] at h
      obtain ⟨bs', hbs', h⟩ := h
      simp only [Prog.run_ret, Outcome.ok.injEq] at h
      subst h
      exact List.Forall₂.cons hb (ih.1 hbs')
    · intro h
      cases h with
      | cons hb hbs =>
        refine ⟨_, hb, ?_⟩
        rw [Prog.run_bind, Outcome.bind_ok]
        exact ⟨_, ih.2 hbs, rfl⟩

theorem Outcome.bind_ok_iff' {α β : Type} {m : Outcome α} {f : α → Outcome β} {b : β} :
    (m >>= f) = .ok b ↔ ∃ a, m = .ok a ∧ f a = .ok b := by
  cases m with
  | ok a => exact ⟨fun h => ⟨a, rfl, h⟩, fun ⟨_, h, h'⟩ => by cases h; exact h'⟩
  | err e => exact ⟨fun h => (nomatch h), fun ⟨_, h, _⟩ => (nomatch h)⟩
  | panic => exact ⟨fun h => (nomatch h), fun ⟨_, h, _⟩ => (nomatch h)⟩

end Snips
