import Verif.Props.C47_Archive

/-! The disk remains a tree during extraction. -/

namespace Snips

theorem TreeFs.prefix_dir {fs : Fs} (h : TreeFs fs) {p q : Path} (hp : fs p ≠ none) (hq : q <+: p) (hne : q ≠ p) :
    fs q = some .dir := by
  obtain ⟨t, rfl⟩ := hq
  have key : ∀ (n : Nat) (t : Path), t.length = n → t ≠ [] → fs (q ++ t) ≠ none → fs q = some .dir := by
    intro n
    induction n with
    | zero => intro t ht hne _; exact absurd (List.length_eq_zero_iff.1 ht) hne
    | succ n ih =>
      intro t ht hne hp
      have hlast : t = t.dropLast ++ [t.getLast hne] := (List.dropLast_append_getLast hne).symm
      have h1 : fs (q ++ t.dropLast) = some .dir := by
        refine h.inDir (q ++ t.dropLast) (t.getLast hne) ?_
        rw [List.append_assoc, ← hlast]; exact hp
      by_cases h0 : t.dropLast = []
      · rw [h0, List.append_nil] at h1; exact h1
      · exact ih t.dropLast (by rw [List.length_dropLast, ht]; rfl) h0 (by rw [h1]; simp)
  refine key _ t rfl (fun h0 => hne ?_) hp
  rw [h0, List.append_nil]

theorem append_singleton_ne (p : Path) (c : Text) : p ≠ p ++ [c] := by
  intro h
  have := congrArg List.length h
  simp at this

theorem TreeFs.addDir {fs : Fs} (h : TreeFs fs) {p : Path} {c : Text} (hp : fs p = some .dir) :
    TreeFs (fs.set (p ++ [c]) (some .dir)) := by
  refine ⟨?_, ?_⟩
  · rw [Fs.set_ne _ _ (by simp)]; exact h.root
  · intro q x hq
    by_cases hqp : q = p ++ [c]
    · rw [hqp, Fs.set_self]
    · rw [Fs.set_ne _ _ hqp]
      by_cases he : q ++ [x] = p ++ [c]
      · obtain ⟨rfl, -⟩ := List.append_inj' he rfl
        exact hp
      · rw [Fs.set_ne _ _ he] at hq
        exact h.inDir q x hq

theorem TreeFs.addFile {fs : Fs} (h : TreeFs fs) {p : Path} {b : List Nat} (hne : p ≠ [])
    (hp : fs p.dropLast = some .dir) (hd : fs p ≠ some .dir) : TreeFs (fs.set p (some (.file b))) := by
  refine ⟨?_, ?_⟩
  · rw [Fs.set_ne _ _ (Ne.symm hne)]; exact h.root
  · intro q x hq
    by_cases he : q ++ [x] = p
    · have hqp : q = p.dropLast := by rw [← he, List.dropLast_concat]
      have : q ≠ p := he ▸ append_singleton_ne q x
      rw [Fs.set_ne _ _ this, hqp]; exact hp
    · rw [Fs.set_ne _ _ he] at hq
      have h1 := h.inDir q x hq
      by_cases hqp : q = p
      · exact absurd (hqp ▸ h1) hd
      · rw [Fs.set_ne _ _ hqp]; exact h1

theorem mkdirs_tree (fs : Fs) (at_ : Path) (rest : List Text) (k : Option Nat) (h : TreeFs fs)
    (hat : fs at_ = some .dir) : TreeFs (mkdirs fs at_ rest k).2 := by
  induction rest generalizing fs at_ k with
  | nil => cases k <;> exact h
  | cons c rest ih =>
    unfold mkdirs
    cases hn : fs (at_ ++ [c]) with
    | some n =>
      cases n with
      | dir => exact ih fs _ k h hn
      | file b => exact h
    | none =>
      cases k with
      | none => exact ih _ _ none (h.addDir hat) (Fs.set_self _ _ _)
      | some k =>
        cases k with
        | zero => exact h
        | succ k => exact ih _ _ (some k) (h.addDir hat) (Fs.set_self _ _ _)

theorem createDirAll_tree (fault : Faults) (d : Disk) (p : Path) (h : TreeFs d.fs) :
    TreeFs (d.createDirAll fault p).2.fs := mkdirs_tree _ _ _ _ h h.root

theorem set_set (fs : Fs) (p : Path) (a b : Option Node) : (fs.set p a).set p b = fs.set p b := by
  funext q
  by_cases hq : q = p
  · subst hq; rw [Fs.set_self, Fs.set_self]
  · rw [Fs.set_ne _ _ hq, Fs.set_ne _ _ hq, Fs.set_ne _ _ hq]

theorem writeEntry_tree (fault : Faults) (outpath : Path) (e : ZipEntry) (d : Disk) (h : TreeFs d.fs) :
    TreeFs (writeEntry fault outpath e d).2.fs := by
  generalize hw : writeEntry fault outpath e d = w
  unfold writeEntry Disk.createFile at hw
  simp only at hw
  cases hfault : fault d.ops with
  | some k => rw [hfault] at hw; simp only at hw; subst hw; exact h
  | none =>
    rw [hfault] at hw
    simp only at hw
    by_cases hc : resolve outpath ≠ [] ∧ d.fs (resolve outpath).dropLast = some .dir ∧
        d.fs (resolve outpath) ≠ some .dir
    · rw [if_pos hc] at hw
      simp only at hw
      unfold Disk.write at hw
      simp only at hw
      cases hf2 : fault (d.ops + 1) with
      | some k =>
        rw [hf2] at hw
        simp only at hw
        subst hw
        simp only [set_set]
        exact h.addFile hc.1 hc.2.1 hc.2.2
      | none =>
        rw [hf2] at hw
        simp only at hw
        subst hw
        simp only [set_set]
        exact h.addFile hc.1 hc.2.1 hc.2.2
    · rw [if_neg hc] at hw
      simp only at hw; subst hw; exact h

theorem extractEntry_tree (fault : Faults) (dest : Path) (e : ZipEntry) (d : Disk) (h : TreeFs d.fs) :
    TreeFs (extractEntry fault dest e d).2.fs := by
  unfold extractEntry
  split
  · simp only
    split
    · have := createDirAll_tree fault d (dest ++ sanitizedName e.name) h
      generalize d.createDirAll fault (dest ++ sanitizedName e.name) = w at this ⊢
      obtain ⟨b, d'⟩ := w
      cases b <;> exact this
    · split
      · exact writeEntry_tree _ _ _ _ h
      · have := createDirAll_tree fault d (dest ++ sanitizedName e.name).dropLast h
        generalize d.createDirAll fault (dest ++ sanitizedName e.name).dropLast = w at this ⊢
        obtain ⟨b, d'⟩ := w
        cases b with
        | false => exact this
        | true => exact writeEntry_tree _ _ _ _ this
  · exact h

theorem extractEntries_tree (fault : Faults) (dest : Path) (entries : List ZipEntry) (d : Disk) (h : TreeFs d.fs) :
    TreeFs (extractEntries fault dest entries d).2.fs := by
  induction entries generalizing d with
  | nil => exact h
  | cons e es ih =>
    unfold extractEntries
    have := extractEntry_tree fault dest e d h
    generalize extractEntry fault dest e d = w at this ⊢
    obtain ⟨o, d'⟩ := w
    cases o with
    | ok u => exact ih d' this
    | err x => exact this
    | panic => exact this

theorem TreeFs.dirExists {fs : Fs} (h : TreeFs fs) {p : Path} (hp : fs p = some .dir) : DirExists fs p := by
  intro q hq
  by_cases hne : q = p
  · rw [hne]; exact hp
  · exact h.prefix_dir (by rw [hp]; simp) hq hne

theorem find_reverse_split {α : Type} (f : α → Bool) (l : List α) (a : α) (h : l.reverse.find? f = some a) :
    ∃ pre post, l = pre ++ a :: post ∧ f a = true ∧ ∀ x ∈ post, f x = false := by
  induction l with
  | nil => simp at h
  | cons b l ih =>
    rw [List.reverse_cons, List.find?_append] at h
    cases hl : l.reverse.find? f with
    | some x =>
      rw [hl] at h
      simp only [Option.some_or, Option.some.injEq] at h
      subst h
      obtain ⟨pre, post, h1, h2, h3⟩ := ih hl
      exact ⟨b :: pre, post, by rw [h1]; rfl, h2, h3⟩
    | none =>
      rw [hl] at h
      simp only [Option.none_or] at h
      have hb := List.find?_some h
      have hab : a = b := by
        have := List.mem_of_find?_eq_some h
        simpa using this
      subst hab
      refine ⟨[], l, rfl, hb, fun x hx => ?_⟩
      have := List.find?_eq_none.1 hl x (by simpa using hx)
      simpa using this

end Snips
