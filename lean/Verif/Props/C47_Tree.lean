import Verif.Proofs.ArchiveTree

/-! # C47: the extracted directory is the contents of the archive -/

namespace Snips

/-- **C47**: when extraction into an empty directory succeeds, the directory holds exactly what the archive
holds: for each name the file or directory of the last entry with this name, the directories leading to the
entries, and nothing else. -/
theorem c47_exact (fault : Faults) (entries : List ZipEntry) (dest q : Path) (d : Disk) (hplain : PlainPath dest)
    (htree : TreeFs d.fs) (hdest : d.fs dest = some .dir) (hfresh : ∀ p, Below dest p → d.fs p = none)
    (h : (extractArchive fault (.ok entries) dest d).1 = .ok q) (p : Path) (hp : p ≠ []) :
    (extractArchive fault (.ok entries) dest d).2.fs (dest ++ p) = archiveAt entries p := by
  have hd := htree.dirExists hdest
  unfold archiveAt
  cases hf : entries.reverse.find? (fun e => decide (sanitizedName e.name = p)) with
  | some e =>
    simp only
    obtain ⟨pre, post, h1, h2, h3⟩ := find_reverse_split _ _ _ hf
    have he : sanitizedName e.name = p := by simpa using h2
    subst h1 he
    exact c47_contents fault pre e post dest q d hplain hd (fun x hx => by simpa using h3 x hx) h
  | none =>
    simp only
    have hno : ∀ e ∈ entries, sanitizedName e.name ≠ p := by
      intro e he
      have := List.find?_eq_none.1 hf e (by simpa using he)
      simpa using this
    split
    · next hex =>
      obtain ⟨e, he, hpre⟩ := hex
      have hsome : (entries.reverse.find? fun x => decide (sanitizedName x.name = sanitizedName e.name)).isSome := by
        rw [List.find?_isSome]
        exact ⟨e, by simpa using he, by simp⟩
      obtain ⟨x, hx⟩ := Option.isSome_iff_exists.1 hsome
      obtain ⟨pre, post, h1, h2, h3⟩ := find_reverse_split _ _ _ hx
      have hxe : sanitizedName x.name = sanitizedName e.name := by simpa using h2
      have hcont := by
        refine c47_contents fault pre x post dest q d hplain hd (fun y hy => ?_) (h1 ▸ h)
        rw [hxe]; simpa using h3 y hy
      rw [← h1, hxe] at hcont
      have ht : TreeFs (extractArchive fault (.ok entries) dest d).2.fs := by
        rw [extractArchive_fs]; exact extractEntries_tree _ _ _ _ htree
      refine ht.prefix_dir (p := dest ++ sanitizedName e.name) (by rw [hcont]; simp)
        ((List.prefix_append_right_inj dest).2 hpre) ?_
      intro h'
      exact hno e he (List.append_cancel_left h').symm
    · next hex =>
      have hnone := hfresh (dest ++ p) ⟨p, hp, rfl⟩
      by_contra hne
      rcases c47_only_entries fault entries dest d hplain hd (dest ++ p) (by rw [hnone]; exact hne) with
        ⟨_, _, e, he, r, hr, hr'⟩ | ⟨_, _, e, he, _, hr⟩
      · rw [← List.append_cancel_left hr] at hr'
        exact hex ⟨e, he, hr'⟩
      · exact hno e he (List.append_cancel_left hr).symm

/-- The disk of the example is a tree. -/
theorem emptyTmp_tree : TreeFs emptyTmp.fs := by
  refine ⟨by simp [emptyTmp], ?_⟩
  intro p c h
  have h1 : p ++ [c] <+: [['t', 'm', 'p'], ['x']] := by
    by_contra hn
    exact h (by simp [emptyTmp, hn])
  simp [emptyTmp, (List.prefix_append p [c]).trans h1]

/-- The theorem applies to the ordinary archive. -/
example (p : Path) (hp : p ≠ []) :
    (extractArchive (fun _ => none) (.ok plainArchive) [['t', 'm', 'p'], ['x']] emptyTmp).2.fs
      ([['t', 'm', 'p'], ['x']] ++ p) = archiveAt plainArchive p :=
  c47_exact _ _ _ [['t', 'm', 'p'], ['x'], ['e']] _ (by unfold PlainPath; decide) emptyTmp_tree (by decide +kernel)
    emptyTmp_fresh (by decide +kernel) p hp

example : archiveAt plainArchive [['e'], ['p']] = some .dir ∧ archiveAt plainArchive [['e'], ['j']] = some (.file [1, 2]) ∧
    archiveAt plainArchive [['e'], ['k']] = none := by decide +kernel

end Snips
