import Verif.Proofs.Sort
import Verif.Spec.Archive

/-! Lemmas on archive extraction. -/

namespace Snips

theorem Fs.set_self (fs : Fs) (p : Path) (n : Option Node) : fs.set p n p = n := by simp [Fs.set]

theorem Fs.set_ne (fs : Fs) {p q : Path} (n : Option Node) (h : q ≠ p) : fs.set p n q = fs q := by
  simp [Fs.set, h]

theorem resolve_plain {p : Path} (h : PlainPath p) : resolve p = p := by
  have : ∀ (acc q : Path), PlainPath q →
      q.foldl (fun acc c => if c = dotDot then acc.dropLast else acc ++ [c]) acc = acc ++ q := by
    intro acc q hq
    induction q generalizing acc with
    | nil => simp
    | cons c q ih =>
      unfold PlainPath at hq ih
      simp only [List.mem_cons, not_or] at hq
      rw [List.foldl_cons, if_neg (fun e => hq.1 e.symm), ih _ hq.2]
      simp
  exact (this [] p h).trans (by simp)

theorem splitSlash_ne_nil (t : Text) : splitSlash t ≠ [] := by
  cases t with
  | nil => simp [splitSlash]
  | cons c t =>
    unfold splitSlash
    split
    · simp
    · split <;> simp

theorem splitSlash_mem (t : Text) : ∀ w ∈ splitSlash t, '/' ∉ w ∧ ∀ c ∈ w, c ∈ t := by
  induction t with
  | nil => simp [splitSlash]
  | cons c t ih =>
    intro w hw
    unfold splitSlash at hw
    cases hs : splitSlash t with
    | nil => exact absurd hs (splitSlash_ne_nil t)
    | cons v vs =>
      rw [hs] at hw
      rw [hs] at ih
      by_cases hc : c = '/'
      · simp only [hc, if_true, List.mem_cons] at hw
        rcases hw with rfl | hw
        · simp
        · obtain ⟨h1, h2⟩ := ih w (by simpa using hw)
          exact ⟨h1, fun x hx => List.mem_cons_of_mem _ (h2 x hx)⟩
      · simp only [hc, if_false, List.mem_cons] at hw
        rcases hw with rfl | hw
        · obtain ⟨h1, h2⟩ := ih v (by simp)
          refine ⟨?_, ?_⟩
          · simp only [List.mem_cons, not_or]; exact ⟨fun e => hc e.symm, h1⟩
          · intro x hx
            rcases List.mem_cons.1 hx with rfl | hx
            · simp
            · exact List.mem_cons_of_mem _ (h2 x hx)
        · obtain ⟨h1, h2⟩ := ih w (by simp [hw])
          exact ⟨h1, fun x hx => List.mem_cons_of_mem _ (h2 x hx)⟩

theorem takeWhile_mem {α : Type} (f : α → Bool) (l : List α) : ∀ x ∈ l.takeWhile f, f x = true := by
  induction l with
  | nil => simp
  | cons a l ih =>
    intro x hx
    rw [List.takeWhile_cons] at hx
    split at hx
    · rcases List.mem_cons.1 hx with rfl | hx
      · assumption
      · exact ih x hx
    · simp at hx

theorem prefix_append_cases {α : Type} {r a b : List α} (h : r <+: a ++ b) :
    r <+: a ∨ ∃ t, r = a ++ t ∧ t <+: b := by
  rcases List.prefix_or_prefix_of_prefix h (List.prefix_append a b) with h' | ⟨t, rfl⟩
  · exact Or.inl h'
  · exact Or.inr ⟨t, rfl, (List.prefix_append_right_inj a).1 h⟩

theorem sanitizedName_normal (name : Text) : ∀ c ∈ sanitizedName name, NormalComponent c := by
  intro c hc
  unfold sanitizedName pathComponents at hc
  rw [List.mem_filter, List.mem_filter] at hc
  obtain ⟨⟨h1, h2⟩, h3⟩ := hc
  obtain ⟨hs, hm⟩ := splitSlash_mem _ c h1
  simp only [ne_eq, decide_eq_true_eq] at h2 h3
  have hchar : ∀ x ∈ c, x ≠ '\\' ∧ x ≠ '\x00' := by
    intro x hx
    obtain ⟨y, hy, rfl⟩ := List.mem_map.1 (hm x hx)
    have hy0 : y ≠ '\x00' := by
      have := takeWhile_mem _ _ _ hy
      simpa using this
    split
    · exact ⟨by decide, by decide⟩
    · exact ⟨by assumption, hy0⟩
  exact ⟨h2.1, h2.2, h3, hs, fun h => (hchar _ h).1 rfl, fun h => (hchar _ h).2 rfl⟩

theorem sanitizedName_plain (name : Text) : PlainPath (sanitizedName name) :=
  fun h => (sanitizedName_normal name _ h).notDotDot rfl

theorem PlainPath.append {p q : Path} (hp : PlainPath p) (hq : PlainPath q) : PlainPath (p ++ q) := by
  unfold PlainPath at *
  simp [hp, hq]

theorem PlainPath.dropLast {p : Path} (hp : PlainPath p) : PlainPath p.dropLast :=
  fun h => hp (List.dropLast_subset _ h)

theorem mkdirs_spec (fs : Fs) (at_ : Path) (rest : List Text) (k : Option Nat) (p : Path) :
    (mkdirs fs at_ rest k).2 p = fs p ∨
      (fs p = none ∧ (mkdirs fs at_ rest k).2 p = some .dir ∧ ∃ r, r ≠ [] ∧ r <+: rest ∧ p = at_ ++ r) := by
  induction rest generalizing fs at_ k with
  | nil => cases k <;> exact Or.inl rfl
  | cons c rest ih =>
    unfold mkdirs
    cases hn : fs (at_ ++ [c]) with
    | some n =>
      cases n with
      | dir =>
        simp only
        rcases ih fs (at_ ++ [c]) k with h | ⟨h1, h2, r, h3, h4, h5⟩
        · exact Or.inl h
        · refine Or.inr ⟨h1, h2, c :: r, by simp, ?_, by simp [h5]⟩
          exact List.cons_prefix_cons.2 ⟨rfl, h4⟩
      | file b => exact Or.inl rfl
    | none =>
      have goOn : ∀ k', ((mkdirs (fs.set (at_ ++ [c]) (some .dir)) (at_ ++ [c]) rest k').2 p = fs p ∨
          (fs p = none ∧ (mkdirs (fs.set (at_ ++ [c]) (some .dir)) (at_ ++ [c]) rest k').2 p = some .dir ∧
            ∃ r, r ≠ [] ∧ r <+: (c :: rest) ∧ p = at_ ++ r)) := by
        intro k'
        by_cases hp : p = at_ ++ [c]
        · subst hp
          rcases ih (fs.set (at_ ++ [c]) (some .dir)) (at_ ++ [c]) k' with h | ⟨h1, _⟩
          · right
            refine ⟨hn, ?_, [c], by simp, ?_, rfl⟩
            · rw [h, Fs.set_self]
            · exact List.cons_prefix_cons.2 ⟨rfl, List.nil_prefix⟩
          · rw [Fs.set_self] at h1; cases h1
        · rcases ih (fs.set (at_ ++ [c]) (some .dir)) (at_ ++ [c]) k' with h | ⟨h1, h2, r, h3, h4, h5⟩
          · left; rw [h, Fs.set_ne _ _ hp]
          · rw [Fs.set_ne _ _ hp] at h1
            exact Or.inr ⟨h1, h2, c :: r, by simp, List.cons_prefix_cons.2 ⟨rfl, h4⟩, by simp [h5]⟩
      cases k with
      | none => exact goOn none
      | some k =>
        cases k with
        | zero => exact Or.inl rfl
        | succ k => exact goOn (some k)

/-- After success all the directories exist. -/
theorem mkdirs_ok (fs : Fs) (at_ : Path) (rest : List Text) (k : Option Nat)
    (h : (mkdirs fs at_ rest k).1 = true) :
    ∀ r, r ≠ [] → r <+: rest → (mkdirs fs at_ rest k).2 (at_ ++ r) = some .dir := by
  induction rest generalizing fs at_ k with
  | nil =>
    intro r hr hp
    exact absurd (List.prefix_nil.1 hp) hr
  | cons c rest ih =>
    unfold mkdirs at h ⊢
    intro r hr hp
    obtain ⟨r', rfl, hr'⟩ : ∃ r', r = c :: r' ∧ r' <+: rest := by
      cases r with
      | nil => exact absurd rfl hr
      | cons d r' =>
        obtain ⟨rfl, h'⟩ := List.cons_prefix_cons.1 hp
        exact ⟨r', rfl, h'⟩
    have fin : ∀ (fs' : Fs) k', fs' (at_ ++ [c]) = some .dir →
        (mkdirs fs' (at_ ++ [c]) rest k').1 = true →
        (mkdirs fs' (at_ ++ [c]) rest k').2 (at_ ++ c :: r') = some .dir := by
      intro fs' k' hfs hk
      by_cases h0 : r' = []
      · subst h0
        rcases mkdirs_spec fs' (at_ ++ [c]) rest k' (at_ ++ [c]) with h | ⟨h1, _⟩
        · rw [h, hfs]
        · rw [hfs] at h1; cases h1
      · have := ih fs' (at_ ++ [c]) k' hk r' h0 hr'
        simpa using this
    cases hn : fs (at_ ++ [c]) with
    | some n =>
      rw [hn] at h
      cases n with
      | dir => exact fin fs k hn h
      | file b => cases h
    | none =>
      rw [hn] at h
      cases k with
      | none => exact fin _ none (Fs.set_self _ _ _) h
      | some k =>
        cases k with
        | zero => cases h
        | succ k => exact fin _ (some k) (Fs.set_self _ _ _) h

/-- It succeeds when nothing but directories is in the way and it is not interrupted. -/
theorem mkdirs_succeeds (fs : Fs) (at_ : Path) (rest : List Text)
    (h : ∀ r, r ≠ [] → r <+: rest → ∀ b, fs (at_ ++ r) ≠ some (.file b)) :
    (mkdirs fs at_ rest none).1 = true := by
  induction rest generalizing fs at_ with
  | nil => rfl
  | cons c rest ih =>
    unfold mkdirs
    have h0 := h [c] (by simp) (List.cons_prefix_cons.2 ⟨rfl, List.nil_prefix⟩)
    cases hn : fs (at_ ++ [c]) with
    | some n =>
      cases n with
      | dir =>
        refine ih fs (at_ ++ [c]) ?_
        intro r hr hp b
        have := h (c :: r) (by simp) (List.cons_prefix_cons.2 ⟨rfl, hp⟩) b
        simpa using this
      | file b => exact absurd hn (h0 b)
    | none =>
      refine ih _ (at_ ++ [c]) ?_
      intro r hr hp b
      rw [Fs.set_ne]
      · have := h (c :: r) (by simp) (List.cons_prefix_cons.2 ⟨rfl, hp⟩) b
        simpa using this
      · intro e
        exact hr (List.append_right_eq_self.1 e)

/-! ### One entry -/

/-- What extracting one entry may change. -/
structure EntryEffect (dest : Path) (e : ZipEntry) (fs fs' : Fs) : Prop where
  /-- only paths strictly below the destination change -/
  below : ∀ p, ¬ Below dest p → fs' p = fs p
  /-- a change is a directory put where there was nothing, or a file put at the path of the entry -/
  change : ∀ p, fs' p = fs p ∨
    (fs p = none ∧ fs' p = some .dir ∧
      ∃ r, p = dest ++ r ∧ r <+: sanitizedName e.name ∧ (e.isDir = false → r ≠ sanitizedName e.name)) ∨
    (p = dest ++ sanitizedName e.name ∧ e.isDir = false ∧ fs p ≠ some .dir ∧ ∃ b, fs' p = some (.file b))

theorem EntryEffect.refl (dest : Path) (e : ZipEntry) (fs : Fs) : EntryEffect dest e fs fs :=
  ⟨fun _ _ => rfl, fun _ => Or.inl rfl⟩

theorem createDirAll_effect {fault : Faults} {dest : Path} (hdest : PlainPath dest) (e : ZipEntry) (d : Disk)
    (hd : DirExists d.fs dest) {s : Path} (hs : s <+: sanitizedName e.name)
    (hdir : e.isDir = false → s ≠ sanitizedName e.name) :
    EntryEffect dest e d.fs (d.createDirAll fault (dest ++ s)).2.fs := by
  have hplain : PlainPath (dest ++ s) :=
    hdest.append fun h => sanitizedName_plain e.name (hs.subset h)
  unfold Disk.createDirAll
  rw [resolve_plain hplain]
  simp only
  have key : ∀ p, (mkdirs d.fs [] (dest ++ s) (fault d.ops)).2 p = d.fs p ∨
      (d.fs p = none ∧ (mkdirs d.fs [] (dest ++ s) (fault d.ops)).2 p = some .dir ∧
        ∃ r, r ≠ [] ∧ p = dest ++ r ∧ r <+: s) := by
    intro p
    rcases mkdirs_spec d.fs [] (dest ++ s) (fault d.ops) p with h | ⟨h1, h2, r, _, h4, h5⟩
    · exact Or.inl h
    · right
      refine ⟨h1, h2, ?_⟩
      simp only [List.nil_append] at h5
      subst h5
      rcases prefix_append_cases h4 with h | ⟨t, rfl, ht⟩
      · rw [hd _ h] at h1; cases h1
      · refine ⟨t, ?_, rfl, ht⟩
        rintro rfl
        rw [List.append_nil] at h1
        rw [hd _ List.prefix_rfl] at h1; cases h1
  refine ⟨?_, ?_⟩
  · intro p hp
    rcases key p with h | ⟨_, _, r, hr, h5, _⟩
    · exact h
    · exact absurd ⟨r, hr, h5⟩ hp
  · intro p
    rcases key p with h | ⟨h1, h2, r, hr, h5, h6⟩
    · exact Or.inl h
    · refine Or.inr (Or.inl ⟨h1, h2, r, h5, h6.trans hs, ?_⟩)
      intro hf he
      refine hdir hf ?_
      have := h6.length_le
      have h2' := hs.length_le
      have : s.length = (sanitizedName e.name).length := by rw [he] at this; omega
      exact hs.eq_of_length this

theorem EntryEffect.dirExists {dest : Path} {e : ZipEntry} {fs fs' : Fs} (h : EntryEffect dest e fs fs')
    (hd : DirExists fs dest) : DirExists fs' dest := by
  intro q hq
  rw [h.below q ?_]
  · exact hd q hq
  · rintro ⟨r, hr, rfl⟩
    have := hq.length_le
    simp only [List.length_append] at this
    exact hr (List.length_eq_zero_iff.1 (by omega))

/-- The effect of an entry after the creation of its parent. -/
theorem EntryEffect.file {dest : Path} {e : ZipEntry} {fs fs' : Fs} (hf : e.isDir = false)
    (hne : sanitizedName e.name ≠ [])
    (hp : EntryEffect dest e fs fs') (hnd : fs' (dest ++ sanitizedName e.name) ≠ some .dir) (b : List Nat) :
    EntryEffect dest e fs (fs'.set (dest ++ sanitizedName e.name) (some (.file b))) := by
  refine ⟨?_, ?_⟩
  · intro p hb
    rw [Fs.set_ne]
    · exact hp.below p hb
    · rintro rfl; exact hb ⟨_, hne, rfl⟩
  · intro p
    by_cases hpe : p = dest ++ sanitizedName e.name
    · subst hpe
      refine Or.inr (Or.inr ⟨rfl, hf, ?_, b, Fs.set_self _ _ _⟩)
      rcases hp.change (dest ++ sanitizedName e.name) with h | ⟨_, h, _⟩ | ⟨_, _, h, _⟩
      · rw [← h]; exact hnd
      · exact absurd h hnd
      · exact h
    · rw [Fs.set_ne _ _ hpe]
      exact hp.change p

theorem writeEntry_effect {fault : Faults} {dest : Path} (hdest : PlainPath dest) (e : ZipEntry) (fs : Fs)
    (d : Disk) (hd : DirExists d.fs dest) (hf : e.isDir = false) (he : EntryEffect dest e fs d.fs) :
    EntryEffect dest e fs (writeEntry fault (dest ++ sanitizedName e.name) e d).2.fs ∧
    ((writeEntry fault (dest ++ sanitizedName e.name) e d).1 = .ok () →
      (writeEntry fault (dest ++ sanitizedName e.name) e d).2.fs (dest ++ sanitizedName e.name) =
        some (.file e.bytes)) ∧
    (fault d.ops = none → sanitizedName e.name ≠ [] →
      d.fs (dest ++ (sanitizedName e.name).dropLast) = some .dir →
      d.fs (dest ++ sanitizedName e.name) ≠ some .dir →
      (writeEntry fault (dest ++ sanitizedName e.name) e d).1 ≠ .panic) := by
  have hplain := hdest.append (sanitizedName_plain e.name)
  generalize hw : writeEntry fault (dest ++ sanitizedName e.name) e d = w
  unfold writeEntry Disk.createFile at hw
  rw [resolve_plain hplain] at hw
  cases hfault : fault d.ops with
  | some k =>
    rw [hfault] at hw
    simp only at hw
    subst hw
    exact ⟨he, by simp, by simp⟩
  | none =>
    rw [hfault] at hw
    simp only at hw
    by_cases hc : dest ++ sanitizedName e.name ≠ [] ∧
        d.fs (dest ++ sanitizedName e.name).dropLast = some .dir ∧
        d.fs (dest ++ sanitizedName e.name) ≠ some .dir
    · rw [if_pos hc] at hw
      simp only at hw
      have hne : sanitizedName e.name ≠ [] := by
        intro h0
        have := hc.2.2
        rw [h0, List.append_nil] at this
        exact this (hd _ List.prefix_rfl)
      have hmid := EntryEffect.file hf hne he hc.2.2
      have hfin : ∀ b b', ((d.fs.set (dest ++ sanitizedName e.name) (some (.file b))).set
          (dest ++ sanitizedName e.name) (some (.file b'))) =
          d.fs.set (dest ++ sanitizedName e.name) (some (.file b')) := by
        intro b b'; funext q; by_cases hq : q = dest ++ sanitizedName e.name
        · subst hq; rw [Fs.set_self, Fs.set_self]
        · rw [Fs.set_ne _ _ hq, Fs.set_ne _ _ hq, Fs.set_ne _ _ hq]
      unfold Disk.write at hw
      rw [resolve_plain hplain] at hw
      simp only at hw
      cases hf2 : fault (d.ops + 1) with
      | some k =>
        rw [hf2] at hw
        simp only [Bool.false_eq_true, false_and, if_false] at hw
        subst hw
        simp only [hfin]
        exact ⟨hmid _, by simp, by simp⟩
      | none =>
        rw [hf2] at hw
        simp only [true_and] at hw
        subst hw
        simp only [hfin]
        refine ⟨hmid _, fun _ => Fs.set_self _ _ _, fun _ _ _ _ => ?_⟩
        split <;> simp
    · rw [if_neg hc] at hw
      simp only at hw
      subst hw
      refine ⟨he, by simp, ?_⟩
      intro _ hne h1 h2
      refine absurd ⟨by simp [hne], ?_, h2⟩ hc
      rw [List.dropLast_append_of_ne_nil hne]
      exact h1

theorem extractEntry_effect {fault : Faults} {dest : Path} (hdest : PlainPath dest) (e : ZipEntry)
    (d : Disk) (hd : DirExists d.fs dest) :
    EntryEffect dest e d.fs (extractEntry fault dest e d).2.fs ∧
    ((extractEntry fault dest e d).1 = .ok () →
      (extractEntry fault dest e d).2.fs (dest ++ sanitizedName e.name) =
        some (if e.isDir then .dir else .file e.bytes)) := by
  unfold extractEntry
  by_cases hop : e.opens = true
  · rw [if_pos hop]
    simp only
    by_cases hdir : e.isDir = true
    · rw [if_pos hdir]
      have hplain := hdest.append (sanitizedName_plain e.name)
      have heff := createDirAll_effect (fault := fault) hdest e d hd (s := sanitizedName e.name) List.prefix_rfl
        (by simp [hdir])
      have hok : (d.createDirAll fault (dest ++ sanitizedName e.name)).1 = true →
          (d.createDirAll fault (dest ++ sanitizedName e.name)).2.fs (dest ++ sanitizedName e.name) = some .dir := by
        unfold Disk.createDirAll
        rw [resolve_plain hplain]
        intro h
        by_cases h0 : dest ++ sanitizedName e.name = []
        · simp only [List.append_eq_nil_iff] at h0
          have := heff.below [] (by rw [h0.1]; rintro ⟨r, hr, h⟩; exact hr (by simpa using h.symm))
          unfold Disk.createDirAll at this
          rw [resolve_plain hplain] at this
          rw [h0.1, h0.2] at this ⊢
          simp only [List.append_nil] at this ⊢
          rw [this]
          rw [h0.1] at hd
          exact hd [] List.prefix_rfl
        · have := mkdirs_ok d.fs [] _ _ h _ h0 List.prefix_rfl
          simpa using this
      generalize hw : d.createDirAll fault (dest ++ sanitizedName e.name) = w at heff hok
      obtain ⟨b, d'⟩ := w
      cases b with
      | true => exact ⟨heff, fun _ => by simpa [hdir] using hok rfl⟩
      | false => exact ⟨heff, by simp⟩
    · rw [if_neg hdir]
      have hf : e.isDir = false := by simpa using hdir
      have fin : ∀ (d' : Disk), DirExists d'.fs dest → EntryEffect dest e d.fs d'.fs →
          EntryEffect dest e d.fs (writeEntry fault (dest ++ sanitizedName e.name) e d').2.fs ∧
          ((writeEntry fault (dest ++ sanitizedName e.name) e d').1 = .ok () →
          (writeEntry fault (dest ++ sanitizedName e.name) e d').2.fs (dest ++ sanitizedName e.name) =
            some (if e.isDir then .dir else .file e.bytes)) := by
        intro d' hd' he
        obtain ⟨h1, h2, _⟩ := writeEntry_effect (fault := fault) hdest e d.fs d' hd' hf he
        refine ⟨h1, fun h => ?_⟩
        rw [h2 h]; simp [hf]
      by_cases hex : dest ++ sanitizedName e.name = [] ∨ d.pathExists (dest ++ sanitizedName e.name).dropLast = true
      · rw [if_pos hex]
        exact fin d hd (EntryEffect.refl _ _ _)
      · rw [if_neg hex]
        have hne : sanitizedName e.name ≠ [] := by
          intro h0
          refine hex (Or.inr ?_)
          rw [h0, List.append_nil]
          unfold Disk.pathExists
          rw [resolve_plain hdest.dropLast, hd _ (List.dropLast_prefix _)]
          rfl
        rw [List.dropLast_append_of_ne_nil hne]
        have heff := createDirAll_effect (fault := fault) hdest e d hd (s := (sanitizedName e.name).dropLast)
          (List.dropLast_prefix _) (by
            intro _ h
            have hl := congrArg List.length h
            rw [List.length_dropLast] at hl
            have := List.length_pos_iff.2 hne
            omega)
        generalize hw : d.createDirAll fault (dest ++ (sanitizedName e.name).dropLast) = w at heff
        obtain ⟨b, d'⟩ := w
        cases b with
        | true => exact fin d' (heff.dirExists hd) heff
        | false => exact ⟨heff, by simp⟩
  · rw [if_neg hop]
    exact ⟨EntryEffect.refl _ _ _, by simp⟩

end Snips
