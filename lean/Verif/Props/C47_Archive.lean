import Verif.Proofs.Archive

/-! # C47, C48: extraction of archives -/

namespace Snips

/-- What extracting several entries may change. -/
structure ArchiveEffect (dest : Path) (entries : List ZipEntry) (fs fs' : Fs) : Prop where
  below : ∀ p, ¬ Below dest p → fs' p = fs p
  change : ∀ p, fs' p = fs p ∨
    (fs p = none ∧ fs' p = some .dir ∧ ∃ e ∈ entries, ∃ r, p = dest ++ r ∧ r <+: sanitizedName e.name) ∨
    (∃ e ∈ entries, p = dest ++ sanitizedName e.name ∧ e.isDir = false ∧ fs p ≠ some .dir ∧
      ∃ b, fs' p = some (.file b))

theorem extractEntries_effect {fault : Faults} {dest : Path} (hdest : PlainPath dest)
    (entries : List ZipEntry) (d : Disk) (hd : DirExists d.fs dest) :
    ArchiveEffect dest entries d.fs (extractEntries fault dest entries d).2.fs := by
  induction entries generalizing d with
  | nil => exact ⟨fun _ _ => rfl, fun _ => Or.inl rfl⟩
  | cons e es ih =>
    unfold extractEntries
    obtain ⟨heff, -⟩ := extractEntry_effect (fault := fault) hdest e d hd
    have hstop : ArchiveEffect dest (e :: es) d.fs (extractEntry fault dest e d).2.fs := by
      refine ⟨heff.below, fun p => ?_⟩
      rcases heff.change p with h | ⟨h1, h2, r, h3, h4, _⟩ | ⟨h1, h2, h3, h4⟩
      · exact Or.inl h
      · exact Or.inr (Or.inl ⟨h1, h2, e, by simp, r, h3, h4⟩)
      · exact Or.inr (Or.inr ⟨e, by simp, h1, h2, h3, h4⟩)
    generalize extractEntry fault dest e d = w at heff hstop
    obtain ⟨o, d'⟩ := w
    cases o with
    | err x => exact hstop
    | panic => exact hstop
    | ok u =>
      have h2 := ih d' (heff.dirExists hd)
      refine ⟨fun p hp => (h2.below p hp).trans (hstop.below p hp), fun p => ?_⟩
      rcases h2.change p with h | ⟨h1, h2, x, hx, r, h3, h4⟩ | ⟨x, hx, h1, h2, h3, h4⟩
      · rw [h]; exact hstop.change p
      · rcases hstop.change p with h | ⟨_, h', _⟩ | ⟨_, _, _, _, _, b, h'⟩
        · simp only at h
          exact Or.inr (Or.inl ⟨h.symm.trans h1, h2, x, by simp [hx], r, h3, h4⟩)
        · simp only at h'; rw [h1] at h'; cases h'
        · simp only at h'; rw [h1] at h'; cases h'
      · refine Or.inr (Or.inr ⟨x, by simp [hx], h1, h2, ?_, h4⟩)
        rcases hstop.change p with h | ⟨_, h', _⟩ | ⟨_, _, _, _, h', _⟩
        · simp only at h; rw [← h]; exact h3
        · exact absurd h' h3
        · exact h'

theorem extractArchive_fs (fault : Faults) (entries : List ZipEntry) (dest : Path) (d : Disk) :
    (extractArchive fault (.ok entries) dest d).2 = (extractEntries fault dest entries d).2 := by
  unfold extractArchive
  simp only
  generalize extractEntries fault dest entries d = w
  obtain ⟨o, d'⟩ := w
  cases o <;> rfl

/-- **C47**: whatever the archive, whatever goes wrong and whatever the outcome, a path that is not strictly
below the destination directory keeps its contents. -/
theorem c47_confined (fault : Faults) (archive : Outcome (List ZipEntry)) (dest : Path) (d : Disk)
    (hplain : PlainPath dest) (hdest : DirExists d.fs dest) (p : Path) (hp : ¬ Below dest p) :
    (extractArchive fault archive dest d).2.fs p = d.fs p := by
  cases archive with
  | ok entries =>
    rw [extractArchive_fs]
    exact (extractEntries_effect hplain entries d hdest).below p hp
  | err _ => rfl
  | panic => rfl

/-- **C47**: below the destination, the only paths that change are those of the entries and of the
directories leading to them; directories are only added, and no directory is replaced by a file. -/
theorem c47_only_entries (fault : Faults) (entries : List ZipEntry) (dest : Path) (d : Disk)
    (hplain : PlainPath dest) (hdest : DirExists d.fs dest) (p : Path)
    (hp : (extractArchive fault (.ok entries) dest d).2.fs p ≠ d.fs p) :
    (d.fs p = none ∧ (extractArchive fault (.ok entries) dest d).2.fs p = some .dir ∧
      ∃ e ∈ entries, ∃ r, p = dest ++ r ∧ r <+: sanitizedName e.name) ∨
    (d.fs p ≠ some .dir ∧ (∃ b, (extractArchive fault (.ok entries) dest d).2.fs p = some (.file b)) ∧
      ∃ e ∈ entries, e.isDir = false ∧ p = dest ++ sanitizedName e.name) := by
  rw [extractArchive_fs] at hp ⊢
  rcases (extractEntries_effect hplain entries d hdest).change p with h | h | ⟨e, he, h1, h2, h3, h4⟩
  · exact absurd h hp
  · exact Or.inl h
  · exact Or.inr ⟨h3, h4, e, he, h2, h1⟩

theorem joinPath_normal {dest : Path} {c : Text} (hc : NormalComponent c) : joinPath dest c = dest ++ [c] := by
  have hsplit : ∀ t : Text, '/' ∉ t → splitSlash t = [t] := by
    intro t ht
    induction t with
    | nil => rfl
    | cons x t ih =>
      simp only [List.mem_cons, not_or] at ht
      unfold splitSlash
      rw [ih ht.2]
      simp only
      rw [if_neg (fun e => ht.1 e.symm)]
  have hcomp : pathComponents c = [c] := by
    unfold pathComponents
    rw [hsplit c hc.noSlash]
    simp [hc.nonempty, hc.notDot]
  unfold joinPath
  split
  · exact absurd (by simp) hc.noSlash
  · rw [hcomp]

/-- **C47**: the engine is loaded from a directory directly below the destination, whose name is the first
component of the first entry and is neither empty, nor dots, nor contains a separator. -/
theorem c47_engine_dir (fault : Faults) (archive : Outcome (List ZipEntry)) (dest q : Path) (d : Disk)
    (h : (extractArchive fault archive dest d).1 = .ok q) :
    ∃ e es c rest, archive = .ok (e :: es) ∧ sanitizedName e.name = c :: rest ∧ NormalComponent c ∧
      q = dest ++ [c] := by
  unfold extractArchive at h
  cases archive with
  | err _ => cases h
  | panic => cases h
  | ok entries =>
    simp only at h
    generalize extractEntries fault dest entries d = w at h
    obtain ⟨o, d'⟩ := w
    cases o with
    | err _ => cases h
    | panic => cases h
    | ok u =>
      simp only at h
      unfold engineDir at h
      cases entries with
      | nil => cases h
      | cons e es =>
        simp only at h
        split at h
        · cases hs : sanitizedName e.name with
          | nil => rw [hs] at h; cases h
          | cons c rest =>
            rw [hs] at h
            have hc : NormalComponent c := sanitizedName_normal e.name c (by rw [hs]; simp)
            refine ⟨e, es, c, rest, rfl, hs, hc, ?_⟩
            simp only [Outcome.ok.injEq] at h
            rw [← h, joinPath_normal hc]
        · cases h

/-- **C47**: entry names lose everything that would lead elsewhere: each remaining component is a plain
name.  (This and the next theorem say what `sanitizedName` is, independently of how it is computed.) -/
theorem c47_names_normal (name : Text) : ∀ c ∈ sanitizedName name, NormalComponent c :=
  sanitizedName_normal name

theorem takeWhile_all {α : Type} (f : α → Bool) (l : List α) (h : ∀ x ∈ l, f x = true) : l.takeWhile f = l := by
  induction l with
  | nil => rfl
  | cons a l ih =>
    rw [List.takeWhile_cons, if_pos (h a (by simp)), ih fun x hx => h x (by simp [hx])]

theorem splitSlash_append {t : Text} (ht : '/' ∉ t) (rest : Text) :
    splitSlash (t ++ '/' :: rest) = t :: splitSlash rest := by
  induction t with
  | nil =>
    rw [List.nil_append]
    conv => lhs; unfold splitSlash
    cases h : splitSlash rest with
    | nil => exact absurd h (splitSlash_ne_nil _)
    | cons w ws => simp
  | cons x t ih =>
    simp only [List.mem_cons, not_or] at ht
    rw [List.cons_append]
    conv => lhs; unfold splitSlash
    rw [ih ht.2]
    simp only
    rw [if_neg (fun e => ht.1 e.symm)]

theorem splitSlash_intercalate (cs : List Text) (h : ∀ c ∈ cs, '/' ∉ c) (hne : cs ≠ []) :
    splitSlash (List.intercalate ['/'] cs) = cs := by
  induction cs with
  | nil => exact absurd rfl hne
  | cons c cs ih =>
    cases cs with
    | nil =>
      have hc := h c (by simp)
      simp only [List.intercalate_singleton]
      clear ih h
      induction c with
      | nil => rfl
      | cons x t ih =>
        simp only [List.mem_cons, not_or] at hc
        unfold splitSlash
        rw [ih (by simp) hc.2]
        simp only
        rw [if_neg (fun e => hc.1 e.symm)]
    | cons c' cs =>
      have hi : List.intercalate ['/'] (c :: c' :: cs) = c ++ '/' :: List.intercalate ['/'] (c' :: cs) := by
        simp [List.intercalate]
      rw [hi, splitSlash_append (h c (by simp)), ih (fun x hx => h x (by simp [hx])) (by simp)]

/-- **C47**: an ordinary name, `a/b/c`, keeps all its components. -/
theorem c47_ordinary_name (cs : List Text) (h : ∀ c ∈ cs, NormalComponent c) :
    sanitizedName (List.intercalate ['/'] cs) = cs := by
  by_cases hne : cs = []
  · subst hne; decide
  · have hmem : ∀ x ∈ List.intercalate ['/'] cs, x ≠ '\\' ∧ x ≠ '\x00' := by
      clear hne
      induction cs with
      | nil => simp [List.intercalate]
      | cons c cs ih =>
        have hc := h c (by simp)
        have hcc : ∀ x ∈ c, x ≠ '\\' ∧ x ≠ '\x00' := fun x hx =>
          ⟨fun e => hc.noBackslash (e ▸ hx), fun e => hc.noNull (e ▸ hx)⟩
        cases cs with
        | nil => simpa [List.intercalate] using hcc
        | cons c' cs =>
          have hi : List.intercalate ['/'] (c :: c' :: cs) = c ++ '/' :: List.intercalate ['/'] (c' :: cs) := by
            simp [List.intercalate]
          rw [hi]
          intro x hx
          rcases List.mem_append.1 hx with hx | hx
          · exact hcc x hx
          · rcases List.mem_cons.1 hx with rfl | hx
            · exact ⟨by decide, by decide⟩
            · exact ih (fun y hy => h y (by simp [hy])) x hx
    unfold sanitizedName
    have htake : (List.intercalate ['/'] cs).takeWhile (fun c => decide (c ≠ '\x00')) = List.intercalate ['/'] cs := by
      refine takeWhile_all _ _ fun x hx => ?_
      simpa using (hmem x hx).2
    have hmap : (List.intercalate ['/'] cs).map (fun c => if c = '\\' then '/' else c) = List.intercalate ['/'] cs := by
      conv => rhs; rw [← List.map_id (List.intercalate ['/'] cs)]
      apply List.map_congr_left
      intro x hx
      simp [(hmem x hx).1]
    rw [htake, hmap]
    unfold pathComponents
    rw [splitSlash_intercalate cs (fun c hc => (h c hc).noSlash) hne]
    rw [List.filter_eq_self.2, List.filter_eq_self.2]
    · intro c hc; simpa using ⟨(h c hc).nonempty, (h c hc).notDot⟩
    · intro c hc
      rw [List.filter_eq_self.2] at hc
      · exact decide_eq_true (h c hc).notDotDot
      · intro c hc; simpa using ⟨(h c hc).nonempty, (h c hc).notDot⟩

theorem extractEntries_contents {fault : Faults} {dest : Path} (hdest : PlainPath dest)
    (pre : List ZipEntry) (e : ZipEntry) (post : List ZipEntry) (d : Disk) (hd : DirExists d.fs dest)
    (hlast : ∀ e' ∈ post, sanitizedName e'.name ≠ sanitizedName e.name)
    (h : (extractEntries fault dest (pre ++ e :: post) d).1 = .ok ()) :
    (extractEntries fault dest (pre ++ e :: post) d).2.fs (dest ++ sanitizedName e.name) =
      some (if e.isDir then .dir else .file e.bytes) := by
  induction pre generalizing d with
  | nil =>
    rw [List.nil_append] at h ⊢
    unfold extractEntries at h ⊢
    obtain ⟨heff, hok⟩ := extractEntry_effect (fault := fault) hdest e d hd
    generalize extractEntry fault dest e d = w at heff hok h ⊢
    obtain ⟨o, d'⟩ := w
    cases o with
    | err _ => cases h
    | panic => cases h
    | ok u =>
      simp only at h ⊢
      have h2 := hok rfl
      simp only at h2
      rcases (extractEntries_effect (fault := fault) hdest post d' (heff.dirExists hd)).change
        (dest ++ sanitizedName e.name) with h' | ⟨h', _⟩ | ⟨x, hx, h', _⟩
      · rw [h', h2]
      · rw [h2] at h'; cases h'
      · exact absurd (List.append_cancel_left h').symm (hlast x hx)
  | cons a pre ih =>
    rw [List.cons_append] at h ⊢
    unfold extractEntries at h ⊢
    obtain ⟨heff, -⟩ := extractEntry_effect (fault := fault) hdest a d hd
    generalize extractEntry fault dest a d = w at heff h ⊢
    obtain ⟨o, d'⟩ := w
    cases o with
    | err _ => cases h
    | panic => cases h
    | ok u => exact ih d' (heff.dirExists hd) h

/-- **C47**: after success every entry is in its place: a directory for a directory entry, and for a file
entry the bytes of the last entry with that path. -/
theorem c47_contents (fault : Faults) (pre : List ZipEntry) (e : ZipEntry) (post : List ZipEntry)
    (dest q : Path) (d : Disk) (hplain : PlainPath dest) (hdest : DirExists d.fs dest)
    (hlast : ∀ e' ∈ post, sanitizedName e'.name ≠ sanitizedName e.name)
    (h : (extractArchive fault (.ok (pre ++ e :: post)) dest d).1 = .ok q) :
    (extractArchive fault (.ok (pre ++ e :: post)) dest d).2.fs (dest ++ sanitizedName e.name) =
      some (if e.isDir then .dir else .file e.bytes) := by
  rw [extractArchive_fs]
  refine extractEntries_contents hplain pre e post d hdest hlast ?_
  unfold extractArchive at h
  simp only at h
  generalize extractEntries fault dest (pre ++ e :: post) d = w at h
  obtain ⟨o, d'⟩ := w
  cases o with
  | err _ => cases h
  | panic => cases h
  | ok u => rfl

/-! ### C48 -/

/-- The disk has nothing in the way of the entries. -/
structure Compatible (dest : Path) (entries : List ZipEntry) (fs : Fs) : Prop where
  files : ∀ e ∈ entries, e.isDir = false → fs (dest ++ sanitizedName e.name) ≠ some .dir
  dirs : ∀ e ∈ entries, ∀ r, r <+: sanitizedName e.name → (e.isDir = false → r ≠ sanitizedName e.name) →
    ∀ b, fs (dest ++ r) ≠ some (.file b)

theorem Compatible.step {dest : Path} {entries : List ZipEntry} (hc : Consistent entries) {fs fs' : Fs}
    (h : Compatible dest entries fs) {e : ZipEntry} (he : e ∈ entries) (heff : EntryEffect dest e fs fs') :
    Compatible dest entries fs' := by
  refine ⟨?_, ?_⟩
  · intro x hx hxf hdir
    rcases heff.change (dest ++ sanitizedName x.name) with h' | ⟨_, _, r, h1, h2, h3⟩ | ⟨_, _, _, b, h'⟩
    · rw [h'] at hdir; exact h.files x hx hxf hdir
    · have hr : sanitizedName x.name = r := List.append_cancel_left h1
      rw [← hr] at h2 h3
      obtain ⟨hs, hf⟩ := hc.notInTheWay x hx e he hxf h2
      exact h3 hf hs
    · rw [h'] at hdir; cases hdir
  · intro x hx r hr hrx b hfile
    rcases heff.change (dest ++ r) with h' | ⟨_, h', _⟩ | ⟨h1, h2, _, _⟩
    · rw [h'] at hfile; exact h.dirs x hx r hr hrx b hfile
    · rw [h'] at hfile; cases hfile
    · have hre : r = sanitizedName e.name := List.append_cancel_left h1
      rw [hre] at hr hrx
      obtain ⟨hs, hf⟩ := hc.notInTheWay e he x hx h2 hr
      exact hrx hf hs

theorem createDirAll_succeeds {fault : Faults} {dest : Path} (hdest : PlainPath dest) (d : Disk)
    (hd : DirExists d.fs dest) (hfault : fault d.ops = none) {s : Path} (hs : PlainPath s)
    (hno : ∀ r, r <+: s → ∀ b, d.fs (dest ++ r) ≠ some (.file b)) :
    (d.createDirAll fault (dest ++ s)).1 = true ∧
    (d.createDirAll fault (dest ++ s)).2.fs (dest ++ s) = some .dir := by
  have hok : (mkdirs d.fs [] (dest ++ s) none).1 = true := by
    refine mkdirs_succeeds d.fs [] (dest ++ s) ?_
    intro r hr hp b
    rw [List.nil_append]
    rcases prefix_append_cases hp with h | ⟨t, rfl, ht⟩
    · rw [hd _ h]; simp
    · exact hno t ht b
  have hdir : (mkdirs d.fs [] (dest ++ s) none).2 (dest ++ s) = some .dir := by
    by_cases h0 : dest ++ s = []
    · rcases mkdirs_spec d.fs [] (dest ++ s) none (dest ++ s) with h | ⟨_, h, _⟩
      · rw [h, h0]; exact hd [] List.nil_prefix
      · exact h
    · have := mkdirs_ok d.fs [] _ none hok _ h0 List.prefix_rfl
      simpa using this
  unfold Disk.createDirAll
  rw [resolve_plain (hdest.append hs), hfault]
  exact ⟨hok, hdir⟩

theorem extractEntry_outcome {fault : Faults} {dest : Path} (hdest : PlainPath dest)
    (hfault : ∀ n, fault n = none) {entries : List ZipEntry} (hc : Consistent entries) {e : ZipEntry}
    (he : e ∈ entries) (d : Disk) (hd : DirExists d.fs dest) (hcomp : Compatible dest entries d.fs) :
    (extractEntry fault dest e d).1 =
      if e.opens then (if e.isDir = true ∨ e.intact = true then .ok () else .err (.external 200))
      else .err (.external 203) := by
  have hplain := sanitizedName_plain e.name
  unfold extractEntry
  by_cases hop : e.opens = true
  · rw [if_pos hop, if_pos hop]
    simp only
    by_cases hdir : e.isDir = true
    · rw [if_pos hdir, if_pos (Or.inl hdir)]
      obtain ⟨h1, -⟩ := createDirAll_succeeds hdest d hd (hfault d.ops) hplain
        (fun r hr b => hcomp.dirs e he r hr (by simp [hdir]) b)
      generalize d.createDirAll fault (dest ++ sanitizedName e.name) = w at h1
      obtain ⟨b, d'⟩ := w
      simp only at h1
      subst h1
      rfl
    · rw [if_neg hdir]
      have hf : e.isDir = false := by simpa using hdir
      have hne := hc.named e he hf
      have hresolve := resolve_plain (hdest.append hplain)
      have fin : ∀ d' : Disk, d'.fs (dest ++ (sanitizedName e.name).dropLast) = some .dir →
          d'.fs (dest ++ sanitizedName e.name) ≠ some .dir →
          (writeEntry fault (dest ++ sanitizedName e.name) e d').1 =
            if e.isDir = true ∨ e.intact = true then .ok () else .err (.external 200) := by
        intro d' h1 h2
        unfold writeEntry Disk.createFile
        rw [hresolve, hfault]
        simp only
        rw [if_pos ⟨by simp [hne], by rw [List.dropLast_append_of_ne_nil hne]; exact h1, h2⟩]
        simp only
        unfold Disk.write
        rw [hfault]
        simp [hf]
      have hproper : ∀ r, r <+: (sanitizedName e.name).dropLast →
          r <+: sanitizedName e.name ∧ (e.isDir = false → r ≠ sanitizedName e.name) := by
        intro r hr
        refine ⟨hr.trans (List.dropLast_prefix _), ?_⟩
        rintro _ rfl
        have := hr.length_le
        rw [List.length_dropLast] at this
        have := List.length_pos_iff.2 hne
        omega
      rw [List.dropLast_append_of_ne_nil hne]
      by_cases hex : dest ++ sanitizedName e.name = [] ∨
          d.pathExists (dest ++ (sanitizedName e.name).dropLast) = true
      · rw [if_pos hex]
        rcases hex with hex | hex
        · simp [hne] at hex
        · refine fin d ?_ (hcomp.files e he hf)
          unfold Disk.pathExists at hex
          rw [resolve_plain (hdest.append hplain.dropLast)] at hex
          cases hn : d.fs (dest ++ (sanitizedName e.name).dropLast) with
          | none => rw [hn] at hex; cases hex
          | some n =>
            cases n with
            | dir => rfl
            | file b =>
              obtain ⟨h1, h2⟩ := hproper _ List.prefix_rfl
              exact absurd hn (hcomp.dirs e he _ h1 h2 b)
      · rw [if_neg hex]
        obtain ⟨h1, h2⟩ := createDirAll_succeeds hdest d hd (hfault d.ops) hplain.dropLast
          (fun r hr b => hcomp.dirs e he r (hproper r hr).1 (hproper r hr).2 b)
        have heff := createDirAll_effect (fault := fault) hdest e d hd (s := (sanitizedName e.name).dropLast)
          (List.dropLast_prefix _) (hproper _ List.prefix_rfl).2
        have h3 := (hcomp.step hc he heff).files e he hf
        generalize d.createDirAll fault (dest ++ (sanitizedName e.name).dropLast) = w at h1 h2 h3
        obtain ⟨b, d'⟩ := w
        simp only at h1
        subst h1
        exact fin d' h2 h3
  · rw [if_neg hop, if_neg hop]

theorem extractEntries_outcome {fault : Faults} {dest : Path} (hdest : PlainPath dest)
    (hfault : ∀ n, fault n = none) {all : List ZipEntry} (hc : Consistent all) (entries : List ZipEntry)
    (hsub : ∀ e ∈ entries, e ∈ all) (d : Disk) (hd : DirExists d.fs dest) (hcomp : Compatible dest all d.fs) :
    (extractEntries fault dest entries d).1 ≠ .panic ∧
    ((∀ e ∈ entries, e.opens = true ∧ e.intact = true) → (extractEntries fault dest entries d).1 = .ok ()) := by
  induction entries generalizing d with
  | nil => exact ⟨by simp [extractEntries], fun _ => rfl⟩
  | cons e es ih =>
    unfold extractEntries
    have he := hsub e (by simp)
    have hout := extractEntry_outcome hdest hfault hc he d hd hcomp
    obtain ⟨heff, -⟩ := extractEntry_effect (fault := fault) hdest e d hd
    generalize extractEntry fault dest e d = w at hout heff
    obtain ⟨o, d'⟩ := w
    simp only at hout heff
    cases o with
    | ok u =>
      obtain ⟨h1, h2⟩ := ih (fun x hx => hsub x (by simp [hx])) d' (heff.dirExists hd) (hcomp.step hc he heff)
      exact ⟨h1, fun h => h2 fun x hx => h x (by simp [hx])⟩
    | err x =>
      refine ⟨by simp, fun h => ?_⟩
      obtain ⟨h1, h2⟩ := h e (by simp)
      simp [h1, h2] at hout
    | panic => split at hout <;> (try split at hout) <;> cases hout

theorem Compatible.fresh {dest : Path} {entries : List ZipEntry} (hc : Consistent entries) {fs : Fs}
    (hdest : DirExists fs dest) (hfresh : ∀ p, Below dest p → fs p = none) : Compatible dest entries fs := by
  refine ⟨?_, ?_⟩
  · intro e he hf
    rw [hfresh _ ⟨_, hc.named e he hf, rfl⟩]; simp
  · intro e _ r _ _ b
    by_cases h0 : r = []
    · rw [h0, List.append_nil, hdest _ List.prefix_rfl]; simp
    · rw [hfresh _ ⟨r, h0, rfl⟩]; simp

/-- **C48**, partial: extraction into an empty directory does not panic when the disk works and no file
entry of the archive has an empty path or is in the way of another entry.  Missing: those three cases, where
the code does panic (`c48_counterexample_dots`, `c48_counterexample_conflict`, `c48_counterexample_fault`). -/
theorem c48_no_panic_partial (fault : Faults) (archive : Outcome (List ZipEntry)) (dest : Path) (d : Disk)
    (hplain : PlainPath dest) (hdest : DirExists d.fs dest) (hfresh : ∀ p, Below dest p → d.fs p = none)
    (hfault : ∀ n, fault n = none) (hread : archive ≠ .panic)
    (hcons : ∀ entries, archive = .ok entries → Consistent entries) :
    (extractArchive fault archive dest d).1 ≠ .panic := by
  cases archive with
  | panic => exact absurd rfl hread
  | err e => simp [extractArchive]
  | ok entries =>
    have hc := hcons entries rfl
    obtain ⟨h1, -⟩ := extractEntries_outcome (fault := fault) hplain hfault hc entries (fun _ h => h) d hdest
      (Compatible.fresh hc hdest hfresh)
    unfold extractArchive
    simp only
    generalize extractEntries fault dest entries d = w at h1
    obtain ⟨o, d'⟩ := w
    cases o with
    | panic => exact absurd rfl h1
    | err e => simp
    | ok u =>
      simp only
      unfold engineDir
      split
      · simp
      · split
        · split <;> simp
        · simp

/-- **C47**: in the same situation, an archive whose entries can all be read and whose first entry has a
path is extracted and gives a directory. -/
theorem c47_succeeds (fault : Faults) (e : ZipEntry) (es : List ZipEntry) (dest : Path) (d : Disk)
    (hplain : PlainPath dest) (hdest : DirExists d.fs dest) (hfresh : ∀ p, Below dest p → d.fs p = none)
    (hfault : ∀ n, fault n = none) (hcons : Consistent (e :: es))
    (hread : ∀ x ∈ e :: es, x.opens = true ∧ x.intact = true) (c : Text) (rest : Path)
    (hname : sanitizedName e.name = c :: rest) :
    (extractArchive fault (.ok (e :: es)) dest d).1 = .ok (dest ++ [c]) := by
  obtain ⟨-, h1⟩ := extractEntries_outcome (fault := fault) hplain hfault hcons (e :: es) (fun _ h => h) d hdest
      (Compatible.fresh hcons hdest hfresh)
  have h2 := h1 hread
  unfold extractArchive
  simp only
  generalize extractEntries fault dest (e :: es) d = w at h2
  obtain ⟨o, d'⟩ := w
  simp only at h2
  subst h2
  simp only
  unfold engineDir
  simp only
  rw [if_pos (hread e (by simp)).1, hname]
  simp only
  rw [joinPath_normal (sanitizedName_normal e.name c (by rw [hname]; simp))]

/-! ### Witnesses -/

/-- A disk with the directory `/tmp/x` and nothing in it. -/
def emptyTmp : Disk where
  fs := fun p => if p <+: [['t', 'm', 'p'], ['x']] then some .dir else none
  ops := 0

/-- A file entry that can be read. -/
def fileEntry (name : Text) (bytes : List Nat) : ZipEntry := ⟨name, true, bytes, true⟩

/-- **C48**, counterexample: an entry named `..` makes the code panic. -/
theorem c48_counterexample_dots :
    (extractArchive (fun _ => none) (.ok [fileEntry ['.', '.'] [1]]) [['t', 'm', 'p'], ['x']] emptyTmp).1 =
      .panic := by decide +kernel

/-- **C48**, counterexample: so do a file `a` and a file `a/b`. -/
theorem c48_counterexample_conflict :
    (extractArchive (fun _ => none) (.ok [fileEntry ['a'] [1], fileEntry ['a', '/', 'b'] [2]])
      [['t', 'm', 'p'], ['x']] emptyTmp).1 = .panic := by decide +kernel

/-- **C48**, counterexample: and a failure of the disk when a file is created. -/
theorem c48_counterexample_fault :
    (extractArchive (fun _ => some 0) (.ok [fileEntry ['a'] [1]]) [['t', 'm', 'p'], ['x']] emptyTmp).1 =
      .panic := by decide +kernel

/-! ### Examples -/

theorem emptyTmp_dir : DirExists emptyTmp.fs [['t', 'm', 'p'], ['x']] := by
  intro q hq
  simp [emptyTmp, hq]

theorem emptyTmp_fresh : ∀ p, Below [['t', 'm', 'p'], ['x']] p → emptyTmp.fs p = none := by
  rintro p ⟨r, hr, rfl⟩
  simp only [emptyTmp, ite_eq_right_iff, reduceCtorEq, imp_false]
  intro h
  have := h.length_le
  simp only [List.length_append] at this
  exact hr (List.length_eq_zero_iff.1 (by omega))

/-- An adversarial name is cut down. -/
example : sanitizedName "../../etc\\..\\passwd".toList = ["etc".toList, "passwd".toList] := by decide +kernel

/-- An ordinary archive: a directory `e/`, then `e/nlu_engine.json` and `e/p/x`. -/
def plainArchive : List ZipEntry :=
  [⟨['e', '/'], true, [], true⟩, fileEntry ['e', '/', 'j'] [1, 2], fileEntry ['e', '/', 'p', '/', 'x'] [3]]

/-- The hypotheses of `c48_no_panic_partial` and `c47_succeeds` hold for it. -/
example : Consistent plainArchive := by
  refine ⟨?_, ?_⟩
  · decide +kernel
  · have : ∀ e ∈ plainArchive, ∀ e' ∈ plainArchive, e.isDir = false →
      (sanitizedName e.name).isPrefixOf (sanitizedName e'.name) = true →
      sanitizedName e.name = sanitizedName e'.name ∧ e'.isDir = false := by decide +kernel
    intro e he e' he' h1 h2
    exact this e he e' he' h1 (List.isPrefixOf_iff_prefix.2 h2)

example : (extractArchive (fun _ => none) (.ok plainArchive) [['t', 'm', 'p'], ['x']] emptyTmp).1 =
    .ok [['t', 'm', 'p'], ['x'], ['e']] := by decide +kernel

example : (extractArchive (fun _ => none) (.ok plainArchive) [['t', 'm', 'p'], ['x']] emptyTmp).2.fs
    [['t', 'm', 'p'], ['x'], ['e'], ['p'], ['x']] = some (.file [3]) := by decide +kernel

/-- Which entries are directories: those whose name ends with a slash or a backslash. -/
theorem c47_directories (e : ZipEntry) : e.isDir = true ↔ ∃ n, e.name = n ++ ['/'] ∨ e.name = n ++ ['\\'] := by
  unfold ZipEntry.isDir
  rw [Bool.or_eq_true, decide_eq_true_iff, decide_eq_true_iff, List.getLast?_eq_some_iff, List.getLast?_eq_some_iff,
    exists_or]

end Snips
