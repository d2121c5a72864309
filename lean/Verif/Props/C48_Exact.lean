import Verif.Proofs.ArchiveExact

/-! # When extraction succeeds and when it panics (C47, C48) -/

namespace Snips

/-- **C48**, exactly: extraction into an empty directory of a working disk panics if and only if reading the
archive's table does, or some file entry, after entries that can all be extracted, has the path of a directory
(possibly of the destination itself) or a path directly inside a file. -/
theorem c48_panics_iff (fault : Faults) (archive : Outcome (List ZipEntry)) (dest : Path) (d : Disk)
    (hplain : PlainPath dest) (htree : TreeFs d.fs) (hdest : d.fs dest = some .dir)
    (hfresh : ∀ p, Below dest p → d.fs p = none) (hfault : ∀ n, fault n = none) :
    (extractArchive fault archive dest d).1 = .panic ↔
      archive = .panic ∨ ∃ pre e post, archive = .ok (pre ++ e :: post) ∧ AllGoThrough pre ∧
        Collides (placeAfter pre) e := by
  cases archive with
  | panic => simp [extractArchive]
  | err x => simp [extractArchive]
  | ok entries =>
    obtain ⟨-, h2⟩ := extractEntries_exact (fault := fault) hfault hplain d htree hdest hfresh entries
    simp only [reduceCtorEq, false_or, Outcome.ok.injEq]
    rw [← h2]
    unfold extractArchive
    simp only
    generalize extractEntries fault dest entries d = w
    obtain ⟨o, d'⟩ := w
    cases o with
    | err x => simp
    | panic => simp
    | ok u =>
      simp only [reduceCtorEq, iff_false]
      unfold engineDir
      cases entries with
      | nil => simp
      | cons e es =>
        simp only
        split
        · split <;> simp
        · simp

/-- **C47**, exactly when extraction succeeds: every entry can be extracted after those before it, and the first one
has a name, of which the first component is the engine directory. -/
theorem c47_succeeds_iff (fault : Faults) (entries : List ZipEntry) (dest q : Path) (d : Disk)
    (hplain : PlainPath dest) (htree : TreeFs d.fs) (hdest : d.fs dest = some .dir)
    (hfresh : ∀ p, Below dest p → d.fs p = none) (hfault : ∀ n, fault n = none) :
    (extractArchive fault (.ok entries) dest d).1 = .ok q ↔
      AllGoThrough entries ∧ ∃ e es c rest, entries = e :: es ∧ sanitizedName e.name = c :: rest ∧ q = dest ++ [c] := by
  obtain ⟨h1, -⟩ := extractEntries_exact (fault := fault) hfault hplain d htree hdest hfresh entries
  rw [← h1]
  constructor
  · intro h
    refine ⟨?_, ?_⟩
    · unfold extractArchive at h
      simp only at h
      generalize extractEntries fault dest entries d = w at h
      obtain ⟨o, d'⟩ := w
      cases o with
      | err x => cases h
      | panic => cases h
      | ok u => rfl
    · obtain ⟨e, es, c, rest, he, hn, _, hq⟩ := c47_engine_dir fault (.ok entries) dest q d h
      cases he
      exact ⟨e, es, c, rest, rfl, hn, hq⟩
  · rintro ⟨h, e, es, c, rest, rfl, hn, rfl⟩
    have hg : e.opens = true := (h1.1 h [] e es rfl).opens
    unfold extractArchive
    simp only
    generalize extractEntries fault dest (e :: es) d = w at h
    obtain ⟨o, d'⟩ := w
    simp only at h
    subst h
    simp only [engineDir, hg, hn, if_true]
    have hc : NormalComponent c := c47_names_normal e.name c (by rw [hn]; simp)
    rw [joinPath_normal hc]

/-! ### Examples -/

/-- The conditions can be computed. -/
instance (place : Path → Option Node) (e : ZipEntry) : Decidable (Collides place e) :=
  decidable_of_iff (e.opens = true ∧ e.isDir = false ∧
      (place (sanitizedName e.name) = some .dir ∨
        (match place (sanitizedName e.name).dropLast with
          | some (.file _) => true
          | _ => false) = true)) (by
    constructor
    · rintro ⟨h1, h2, h3⟩
      refine ⟨h1, h2, h3.imp id fun h => ?_⟩
      split at h
      · next b hb => exact ⟨b, hb⟩
      · cases h
    · rintro ⟨h1, h2, h3⟩
      refine ⟨h1, h2, h3.imp id ?_⟩
      rintro ⟨b, hb⟩
      rw [hb])

/-- A file `a` and then a file `a/b`: the second one panics. -/
example : Collides (placeAfter [fileEntry ['a'] [1]]) (fileEntry ['a', '/', 'b'] [2]) := by decide +kernel

/-- A file `a/b` and then a file `a`: so does the second one. -/
example : Collides (placeAfter [fileEntry ['a', '/', 'b'] [1]]) (fileEntry ['a'] [2]) := by decide +kernel

/-- But a file `a` and then a file `a/b/c` is only an error. -/
example : ¬ Collides (placeAfter [fileEntry ['a'] [1]]) (fileEntry ['a', '/', 'b', '/', 'c'] [2]) := by decide +kernel

example : (extractArchive (fun _ => none) (.ok [fileEntry ['a'] [1], fileEntry ['a', '/', 'b', '/', 'c'] [2]])
    [['t', 'm', 'p'], ['x']] emptyTmp).1 = .err (.external 202) := by decide +kernel

end Snips
