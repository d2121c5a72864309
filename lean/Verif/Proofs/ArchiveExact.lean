import Verif.Proofs.ArchiveTree
import Verif.Props.C47_Archive
import Mathlib.Data.List.Induction

namespace Snips

/-- What is below the destination after a successful extraction. -/
theorem extractEntries_at {fault : Faults} {entries : List ZipEntry} {dest : Path} {d : Disk} (hplain : PlainPath dest)
    (htree : TreeFs d.fs) (hdest : d.fs dest = some .dir) (hfresh : ∀ p, Below dest p → d.fs p = none)
    (h : (extractEntries fault dest entries d).1 = .ok ()) (p : Path) (hp : p ≠ []) :
    (extractEntries fault dest entries d).2.fs (dest ++ p) = archiveAt entries p := by
  have hd := htree.dirExists hdest
  unfold archiveAt
  cases hf : entries.reverse.find? (fun e => decide (sanitizedName e.name = p)) with
  | some e =>
    simp only
    obtain ⟨pre, post, h1, h2, h3⟩ := find_reverse_split _ _ _ hf
    have he : sanitizedName e.name = p := by simpa using h2
    subst h1 he
    exact extractEntries_contents hplain pre e post d hd (fun x hx => by simpa using h3 x hx) h
  | none =>
    simp only
    have hno : ∀ e ∈ entries, sanitizedName e.name ≠ p := by
      intro e he
      have := List.find?_eq_none.1 hf e (by simpa using he)
      simpa using this
    split
    · next hex =>
      obtain ⟨e, he, hpre⟩ := hex
      have hsome : (entries.reverse.find? fun x => decide (sanitizedName x.name = sanitizedName e.name)).isSome := by
        rw [List.find?_isSome]
        exact ⟨e, by simpa using he, by simp⟩
      obtain ⟨x, hx⟩ := Option.isSome_iff_exists.1 hsome
      obtain ⟨pre, post, h1, h2, h3⟩ := find_reverse_split _ _ _ hx
      have hxe : sanitizedName x.name = sanitizedName e.name := by simpa using h2
      have hcont := by
        refine extractEntries_contents hplain pre x post d hd (fun y hy => ?_) (h1 ▸ h)
        rw [hxe]; simpa using h3 y hy
      rw [← h1, hxe] at hcont
      have ht : TreeFs (extractEntries fault dest entries d).2.fs := extractEntries_tree _ _ _ _ htree
      refine ht.prefix_dir (p := dest ++ sanitizedName e.name) (by rw [hcont]; simp)
        ((List.prefix_append_right_inj dest).2 hpre) ?_
      intro h'
      exact hno e he (List.append_cancel_left h').symm
    · next hex =>
      have hnone := hfresh (dest ++ p) ⟨p, hp, rfl⟩
      rcases (extractEntries_effect (fault := fault) hplain entries d hd).change (dest ++ p) with
        h' | ⟨_, _, e, he, r, hr, hr'⟩ | ⟨e, he, hr, _⟩
      · rw [h', hnone]
      · rw [← List.append_cancel_left hr] at hr'
        exact absurd ⟨e, he, hr'⟩ hex
      · exact absurd (List.append_cancel_left hr).symm (hno e he)

theorem mkdirs_fails {fs : Fs} {at_ : Path} {rest : List Text} {r : Path} {b : List Nat} (hr : r ≠ [])
    (hp : r <+: rest) (hf : fs (at_ ++ r) = some (.file b)) : (mkdirs fs at_ rest none).1 = false := by
  cases hm : (mkdirs fs at_ rest none).1 with
  | false => rfl
  | true =>
    have h1 := mkdirs_ok fs at_ rest none hm r hr hp
    rcases mkdirs_spec fs at_ rest none (at_ ++ r) with h | ⟨h, _⟩
    · rw [h1, hf] at h; cases h
    · rw [hf] at h; cases h

theorem writeEntry_exact {fault : Faults} (hfault : ∀ n, fault n = none) {out : Path} (hplain : PlainPath out)
    (e : ZipEntry) (d : Disk) :
    (writeEntry fault out e d).1 =
      if out ≠ [] ∧ d.fs out.dropLast = some .dir ∧ d.fs out ≠ some .dir then
        (if e.intact = true then .ok () else .err (.external 200)) else .panic := by
  unfold writeEntry Disk.createFile
  rw [resolve_plain hplain, hfault]
  simp only
  by_cases hc : out ≠ [] ∧ d.fs out.dropLast = some .dir ∧ d.fs out ≠ some .dir
  · rw [if_pos hc, if_pos hc]
    simp only
    unfold Disk.write
    rw [hfault]
    simp
  · rw [if_neg hc, if_neg hc]

theorem prefix_dropLast_ne {p r : Path} (hne : p ≠ []) (hr : r <+: p.dropLast) : r <+: p ∧ r ≠ p := by
  refine ⟨hr.trans (List.dropLast_prefix _), ?_⟩
  rintro rfl
  have := hr.length_le
  rw [List.length_dropLast] at this
  have := List.length_pos_iff.2 hne
  omega

theorem prefix_dropLast_of_ne {p r : Path} (hr : r <+: p) (hne : r ≠ p) : r <+: p.dropLast := by
  obtain ⟨t, rfl⟩ := hr
  have ht : t ≠ [] := by rintro rfl; simp at hne
  rw [List.dropLast_append_of_ne_nil ht]
  exact List.prefix_append _ _

/-- The outcome of one entry in terms of what is below the destination. -/
theorem extractEntry_exact {fault : Faults} (hfault : ∀ n, fault n = none) {dest : Path} (hdest : PlainPath dest)
    (e : ZipEntry) (d : Disk) (htree : TreeFs d.fs) (hdir : d.fs dest = some .dir) :
    ((extractEntry fault dest e d).1 = .ok () ↔ GoesThrough (fun r => d.fs (dest ++ r)) e) ∧
    ((extractEntry fault dest e d).1 = .panic ↔ Collides (fun r => d.fs (dest ++ r)) e) := by
  have hd := htree.dirExists hdir
  have hplain := sanitizedName_plain e.name
  have hpl := hdest.append hplain
  unfold extractEntry
  by_cases hop : e.opens = true
  · rw [if_pos hop]
    simp only
    by_cases hisdir : e.isDir = true
    · rw [if_pos hisdir]
      have hnc : ¬ Collides (fun r => d.fs (dest ++ r)) e := fun h => by have := h.isFile; rw [hisdir] at this; cases this
      by_cases hno : ∀ r, r <+: sanitizedName e.name → ∀ b, d.fs (dest ++ r) ≠ some (.file b)
      · obtain ⟨h1, -⟩ := createDirAll_succeeds hdest d hd (hfault d.ops) hplain hno
        generalize d.createDirAll fault (dest ++ sanitizedName e.name) = w at h1
        obtain ⟨b, d'⟩ := w
        simp only at h1
        subst h1
        simp only [reduceCtorEq, false_iff]
        refine ⟨⟨fun _ => ?_, fun _ => trivial⟩, hnc⟩
        exact ⟨hop, fun r b hr _ => hno r hr b, fun _ b => hno _ List.prefix_rfl b,
          fun h => by rw [hisdir] at h; cases h⟩
      · have hnot : ¬ GoesThrough (fun r => d.fs (dest ++ r)) e := by
          intro h
          apply hno
          intro r hr b
          by_cases hre : r = sanitizedName e.name
          · subst hre; exact h.asDir hisdir b
          · exact h.way r b hr hre
        have h1 : (d.createDirAll fault (dest ++ sanitizedName e.name)).1 = false := by
          push Not at hno
          obtain ⟨r, hr, b, hb⟩ := hno
          unfold Disk.createDirAll
          rw [resolve_plain hpl, hfault]
          simp only
          refine mkdirs_fails (r := dest ++ r) (b := b) ?_ ((List.prefix_append_right_inj dest).2 hr)
            (by rw [List.nil_append]; exact hb)
          intro h0
          rw [h0, htree.root] at hb
          cases hb
        generalize d.createDirAll fault (dest ++ sanitizedName e.name) = w at h1
        obtain ⟨b, d'⟩ := w
        simp only at h1
        subst h1
        simp only [reduceCtorEq, false_iff]
        exact ⟨hnot, hnc⟩
    · rw [if_neg hisdir]
      have hf : e.isDir = false := by simpa using hisdir
      by_cases hne : sanitizedName e.name = []
      · -- the destination itself
        have hcol : Collides (fun r => d.fs (dest ++ r)) e := ⟨hop, hf, Or.inl (by rw [hne, List.append_nil]; exact hdir)⟩
        have hng : ¬ GoesThrough (fun r => d.fs (dest ++ r)) e := by
          intro h
          apply (h.asFile hf).1
          rw [hne, List.append_nil]; exact hdir
        have hex : dest ++ sanitizedName e.name = [] ∨
            d.pathExists (dest ++ sanitizedName e.name).dropLast = true := by
          rw [hne, List.append_nil]
          by_cases h0 : dest = []
          · exact Or.inl h0
          · right
            unfold Disk.pathExists
            rw [resolve_plain hdest.dropLast, hd _ (List.dropLast_prefix _)]
            rfl
        rw [if_pos hex, writeEntry_exact hfault hpl, if_neg (by
          rintro ⟨_, _, h⟩
          rw [hne, List.append_nil] at h
          exact h hdir)]
        exact ⟨⟨fun h => (by cases h), fun h => absurd h hng⟩, ⟨fun _ => hcol, fun _ => rfl⟩⟩
      · have hw : ∀ d' : Disk, (writeEntry fault (dest ++ sanitizedName e.name) e d').1 =
            if d'.fs (dest ++ (sanitizedName e.name).dropLast) = some .dir ∧
              d'.fs (dest ++ sanitizedName e.name) ≠ some .dir then
              (if e.intact = true then .ok () else .err (.external 200)) else .panic := by
          intro d'
          rw [writeEntry_exact hfault hpl, List.dropLast_append_of_ne_nil hne]
          simp [hne]
        rw [List.dropLast_append_of_ne_nil hne]
        have hpd : PlainPath (dest ++ (sanitizedName e.name).dropLast) := hdest.append hplain.dropLast
        by_cases hex : dest ++ sanitizedName e.name = [] ∨
            d.pathExists (dest ++ (sanitizedName e.name).dropLast) = true
        · rw [if_pos hex, hw]
          rcases hex with hex | hex
          · simp [hne] at hex
          unfold Disk.pathExists at hex
          rw [resolve_plain hpd] at hex
          cases hn : d.fs (dest ++ (sanitizedName e.name).dropLast) with
          | none => rw [hn] at hex; cases hex
          | some n =>
            cases n with
            | file b =>
              rw [if_neg (by simp)]
              refine ⟨⟨fun h => (by cases h), fun h => ?_⟩, ⟨fun _ => ⟨hop, hf, Or.inr ⟨b, hn⟩⟩, fun _ => rfl⟩⟩
              obtain ⟨h1, h2⟩ := prefix_dropLast_ne hne List.prefix_rfl
              exact absurd hn (h.way _ b h1 h2)
            | dir =>
              have hway : ∀ r b, r <+: sanitizedName e.name → r ≠ sanitizedName e.name →
                  d.fs (dest ++ r) ≠ some (.file b) := by
                intro r b hr hrne
                rw [htree.dirExists hn _ ((List.prefix_append_right_inj dest).2 (prefix_dropLast_of_ne hr hrne))]
                simp
              by_cases hdd : d.fs (dest ++ sanitizedName e.name) = some .dir
              · rw [if_neg (by simp [hdd])]
                refine ⟨⟨fun h => (by cases h), fun h => absurd hdd (h.asFile hf).1⟩,
                  ⟨fun _ => ⟨hop, hf, Or.inl hdd⟩, fun _ => rfl⟩⟩
              · rw [if_pos ⟨rfl, hdd⟩]
                constructor
                · by_cases hin : e.intact = true
                  · rw [if_pos hin]
                    exact ⟨fun _ => ⟨hop, hway, fun h => absurd h hisdir, fun _ => ⟨hdd, hin⟩⟩, fun _ => rfl⟩
                  · rw [if_neg hin]
                    exact ⟨fun h => (by cases h), fun h => absurd (h.asFile hf).2 hin⟩
                · refine ⟨fun h => ?_, fun h => ?_⟩
                  · split at h <;> cases h
                  · rcases h.taken with h' | ⟨b, h'⟩
                    · exact absurd h' hdd
                    · rw [hn] at h'; cases h'
        · rw [if_neg hex]
          push Not at hex
          have hnone : d.fs (dest ++ (sanitizedName e.name).dropLast) = none := by
            have := hex.2
            unfold Disk.pathExists at this
            rw [resolve_plain hpd] at this
            simpa using this
          have hnone' : d.fs (dest ++ sanitizedName e.name) = none := by
            by_contra hn
            have := htree.prefix_dir (q := dest ++ (sanitizedName e.name).dropLast) hn
              ((List.prefix_append_right_inj dest).2 (List.dropLast_prefix _)) (by
                intro h
                exact (prefix_dropLast_ne hne List.prefix_rfl).2 (List.append_cancel_left h))
            rw [hnone] at this
            cases this
          have hnc : ¬ Collides (fun r => d.fs (dest ++ r)) e := by
            intro h
            rcases h.taken with h' | ⟨b, h'⟩
            · rw [hnone'] at h'; cases h'
            · rw [hnone] at h'; cases h'
          by_cases hno : ∀ r, r <+: (sanitizedName e.name).dropLast → ∀ b, d.fs (dest ++ r) ≠ some (.file b)
          · obtain ⟨h1, h2⟩ := createDirAll_succeeds hdest d hd (hfault d.ops) hplain.dropLast hno
            have heff := createDirAll_effect (fault := fault) hdest e d hd (s := (sanitizedName e.name).dropLast)
              (List.dropLast_prefix _) (fun _ => (prefix_dropLast_ne hne List.prefix_rfl).2)
            have h3 : (d.createDirAll fault (dest ++ (sanitizedName e.name).dropLast)).2.fs
                (dest ++ sanitizedName e.name) ≠ some .dir := by
              rcases heff.change (dest ++ sanitizedName e.name) with h | ⟨_, _, r, hr, _, hrn⟩ | ⟨_, _, _, b, h⟩
              · rw [h, hnone']; simp
              · exact absurd (List.append_cancel_left hr).symm (hrn hf)
              · rw [h]; simp
            generalize d.createDirAll fault (dest ++ (sanitizedName e.name).dropLast) = w at h1 h2 h3
            obtain ⟨b, d'⟩ := w
            simp only at h1 h2 h3
            subst h1
            simp only
            rw [hw, if_pos ⟨h2, h3⟩]
            constructor
            · by_cases hin : e.intact = true
              · rw [if_pos hin]
                refine ⟨fun _ => ⟨hop, fun r b hr hrne => hno r (prefix_dropLast_of_ne hr hrne) b,
                  fun h => absurd h hisdir, fun _ => ⟨by rw [hnone']; simp, hin⟩⟩, fun _ => rfl⟩
              · rw [if_neg hin]
                exact ⟨fun h => (by cases h), fun h => absurd (h.asFile hf).2 hin⟩
            · refine ⟨fun h => ?_, fun h => absurd h hnc⟩
              split at h <;> cases h
          · have hng : ¬ GoesThrough (fun r => d.fs (dest ++ r)) e := by
              intro h
              apply hno
              intro r hr b
              obtain ⟨h1, h2⟩ := prefix_dropLast_ne hne hr
              exact h.way r b h1 h2
            have h1 : (d.createDirAll fault (dest ++ (sanitizedName e.name).dropLast)).1 = false := by
              push Not at hno
              obtain ⟨r, hr, b, hb⟩ := hno
              unfold Disk.createDirAll
              rw [resolve_plain hpd, hfault]
              simp only
              refine mkdirs_fails (r := dest ++ r) (b := b) ?_ ((List.prefix_append_right_inj dest).2 hr)
                (by rw [List.nil_append]; exact hb)
              intro h0
              rw [h0, htree.root] at hb
              cases hb
            generalize d.createDirAll fault (dest ++ (sanitizedName e.name).dropLast) = w at h1
            obtain ⟨b, d'⟩ := w
            simp only at h1
            subst h1
            simp only [reduceCtorEq, false_iff]
            exact ⟨hng, hnc⟩
  · rw [if_neg hop]
    simp only [reduceCtorEq, false_iff]
    exact ⟨fun h => hop h.opens, fun h => hop h.opens⟩

theorem extractEntries_snoc (fault : Faults) (dest : Path) (pre : List ZipEntry) (e : ZipEntry) (d : Disk) :
    extractEntries fault dest (pre ++ [e]) d =
      match extractEntries fault dest pre d with
      | (.ok (), d') => extractEntry fault dest e d'
      | (.err x, d') => (.err x, d')
      | (.panic, d') => (.panic, d') := by
  induction pre generalizing d with
  | nil =>
    simp only [List.nil_append, extractEntries]
    generalize extractEntry fault dest e d = w
    obtain ⟨o, d'⟩ := w
    cases o <;> rfl
  | cons x pre ih =>
    rw [List.cons_append]
    unfold extractEntries
    generalize extractEntry fault dest x d = w
    obtain ⟨o, d'⟩ := w
    cases o with
    | ok u => exact ih d'
    | err _ => rfl
    | panic => rfl

theorem extractEntries_exact {fault : Faults} (hfault : ∀ n, fault n = none) {dest : Path} (hplain : PlainPath dest)
    (d : Disk) (htree : TreeFs d.fs) (hdest : d.fs dest = some .dir) (hfresh : ∀ p, Below dest p → d.fs p = none)
    (entries : List ZipEntry) :
    ((extractEntries fault dest entries d).1 = .ok () ↔ AllGoThrough entries) ∧
    ((extractEntries fault dest entries d).1 = .panic ↔
      ∃ pre e post, entries = pre ++ e :: post ∧ AllGoThrough pre ∧ Collides (placeAfter pre) e) := by
  induction entries using List.reverseRec with
  | nil =>
    refine ⟨⟨fun _ pre e post h => ?_, fun _ => rfl⟩, ⟨fun h => (by cases h), ?_⟩⟩
    · simp at h
    · rintro ⟨pre, e, post, h, _⟩; simp at h
  | append_singleton es e ih =>
    obtain ⟨ih1, ih2⟩ := ih
    have hall : AllGoThrough (es ++ [e]) ↔ AllGoThrough es ∧ GoesThrough (placeAfter es) e := by
      constructor
      · intro h
        exact ⟨fun pre x post hx => h pre x (post ++ [e]) (by rw [hx]; simp), h es e [] rfl⟩
      · rintro ⟨h1, h2⟩ pre x post hx
        rcases List.eq_nil_or_concat post with rfl | ⟨post', y, rfl⟩
        · obtain ⟨rfl, h⟩ := List.append_inj' hx rfl
          cases h
          exact h2
        · have hx' : es ++ [e] = (pre ++ x :: post') ++ [y] := by rw [hx]; simp
          obtain ⟨hx1, _⟩ := List.append_inj' hx' rfl
          exact h1 pre x post' hx1
    have hpanic : (∃ pre x post, es ++ [e] = pre ++ x :: post ∧ AllGoThrough pre ∧ Collides (placeAfter pre) x) ↔
        (∃ pre x post, es = pre ++ x :: post ∧ AllGoThrough pre ∧ Collides (placeAfter pre) x) ∨
          (AllGoThrough es ∧ Collides (placeAfter es) e) := by
      constructor
      · rintro ⟨pre, x, post, hx, h1, h2⟩
        rcases List.eq_nil_or_concat post with rfl | ⟨post', y, rfl⟩
        · obtain ⟨rfl, h⟩ := List.append_inj' hx rfl
          cases h
          exact Or.inr ⟨h1, h2⟩
        · have hx' : es ++ [e] = (pre ++ x :: post') ++ [y] := by rw [hx]; simp
          obtain ⟨hx1, _⟩ := List.append_inj' hx' rfl
          exact Or.inl ⟨pre, x, post', hx1, h1, h2⟩
      · rintro (⟨pre, x, post, hx, h⟩ | h)
        · exact ⟨pre, x, post ++ [e], by rw [hx]; simp, h⟩
        · exact ⟨es, e, [], rfl, h⟩
    rw [hall, hpanic, ← ih1, ← ih2, extractEntries_snoc]
    have hd := htree.dirExists hdest
    have hat := extractEntries_at (fault := fault) (entries := es) hplain htree hdest hfresh
    have htree' := extractEntries_tree fault dest es d htree
    have hdest' : (extractEntries fault dest es d).2.fs dest = some .dir := by
      rw [(extractEntries_effect (fault := fault) hplain es d hd).below dest ?_]
      · exact hdest
      · rintro ⟨r, hr, h⟩
        exact hr (by simpa using h)
    generalize extractEntries fault dest es d = w at hat htree' hdest'
    obtain ⟨o, d'⟩ := w
    cases o with
    | err x => simp
    | panic => simp
    | ok u =>
      have hplace : (fun r => d'.fs (dest ++ r)) = placeAfter es := by
        funext r
        unfold placeAfter
        by_cases h0 : r = []
        · rw [if_pos h0, h0, List.append_nil]; exact hdest'
        · rw [if_neg h0]; exact hat rfl r h0
      obtain ⟨h1, h2⟩ := extractEntry_exact hfault hplain e d' htree' hdest'
      rw [hplace] at h1 h2
      simp only [h1, h2]
      simp

end Snips
