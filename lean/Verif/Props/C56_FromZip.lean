import Verif.Model.FromZip
import Verif.Props.C47_Tree
import Verif.Props.C57_Relocation

/-! # C56: loading from an archive -/

namespace Snips

/-- The archive holds the contents of a directory under the name `root`. -/
def ArchiveOf (entries : List ZipEntry) (root : Text) (fs : Fs) (dir : Path) : Prop :=
  ∀ r, archiveAt entries (root :: r) = fs (dir ++ r)

/-- A place for a temporary directory: nothing is there and its parent is a directory. -/
structure TempPlace (fs : Fs) (tmp : Path) : Prop where
  plain : PlainPath tmp
  nonempty : tmp ≠ []
  parent : fs tmp.dropLast = some .dir
  free : ∀ p, tmp <+: p → fs p = none

theorem makeTemp_place {fault : Faults} {tmp : Path} {d d' : Disk} (htree : TreeFs d.fs) (hp : TempPlace d.fs tmp)
    (h : makeTemp fault tmp d = (true, d')) :
    TreeFs d'.fs ∧ d'.fs tmp = some .dir ∧ (∀ p, Below tmp p → d'.fs p = none) ∧ ∀ p, ¬ tmp <+: p → d'.fs p = d.fs p := by
  unfold makeTemp at h
  cases hf : fault d.ops with
  | some k => rw [hf] at h; cases h
  | none =>
    rw [hf] at h
    simp only [Prod.mk.injEq, true_and] at h
    subst h
    have hlast : tmp = tmp.dropLast ++ [tmp.getLast hp.nonempty] := (List.dropLast_append_getLast hp.nonempty).symm
    refine ⟨?_, Fs.set_self _ _ _, ?_, ?_⟩
    · simp only
      rw [hlast]
      exact htree.addDir hp.parent
    · rintro p ⟨r, hr, rfl⟩
      simp only
      rw [Fs.set_ne _ _ (fun e => hr (List.append_right_eq_self.1 e))]
      exact hp.free _ (List.prefix_append _ _)
    · intro p hn
      simp only
      rw [Fs.set_ne]
      rintro rfl
      exact hn List.prefix_rfl

theorem makeTemp_failed {fault : Faults} {tmp : Path} {d d' : Disk} (h : makeTemp fault tmp d = (false, d')) :
    d'.fs = d.fs := by
  unfold makeTemp at h
  cases hf : fault d.ops with
  | some k => rw [hf] at h; simp only [Prod.mk.injEq, true_and] at h; subst h; rfl
  | none => rw [hf] at h; simp at h

theorem below_prefix {tmp p : Path} (h : Below tmp p) : tmp <+: p := by
  obtain ⟨r, _, rfl⟩ := h
  exact List.prefix_append _ _

theorem loadExtracted_disk (env : LoadEnv) (o : HashOrd) (fault : Faults) (archive : Outcome (List ZipEntry))
    (tmp : Path) (d : Disk) :
    (loadExtracted env o fault archive tmp d).2 = (extractArchive fault archive tmp d).2 := by
  unfold loadExtracted
  generalize extractArchive fault archive tmp d = w
  obtain ⟨o', d'⟩ := w
  cases o' <;> rfl

theorem loadExtracted_ok {env : LoadEnv} {o : HashOrd} {fault : Faults} {archive : Outcome (List ZipEntry)}
    {tmp : Path} {d : Disk} {q : Path} (h : (extractArchive fault archive tmp d).1 = .ok q) :
    (loadExtracted env o fault archive tmp d).1 = (loadEngine env o q (extractArchive fault archive tmp d).2.fs).1 := by
  unfold loadExtracted
  generalize extractArchive fault archive tmp d = w at h
  obtain ⟨o', d'⟩ := w
  simp only at h
  subst h
  rfl

/-- **C56**: whatever the archive, the outcome and the failures of the disk, nothing outside of the temporary
directory changes. -/
theorem c56_outside_untouched (env : LoadEnv) (o : HashOrd) (fault : Faults) (left : Fs)
    (archive : Outcome (List ZipEntry)) (tmp : Path) (d : Disk) (htree : TreeFs d.fs) (hp : TempPlace d.fs tmp)
    (p : Path) (hn : ¬ tmp <+: p) :
    (fromZip env o fault left archive tmp d).2.fs p = d.fs p := by
  unfold fromZip
  generalize hm : makeTemp fault tmp d = w
  obtain ⟨b, d'⟩ := w
  cases b with
  | false => simp only; rw [makeTemp_failed hm]
  | true =>
    obtain ⟨ht, h1, -, h3⟩ := makeTemp_place htree hp hm
    simp only
    unfold dropTemp
    simp only
    rw [if_neg hn, loadExtracted_disk, c47_confined _ _ _ _ hp.plain (ht.dirExists h1) p (fun h => hn (below_prefix h)),
      h3 p hn]

/-- **C56**: when the last operation, the removal of the temporary directory, works, the disk is as it was, even
when the archive is rejected or its extraction panics. -/
theorem c56_disk_restored (env : LoadEnv) (o : HashOrd) (fault : Faults) (left : Fs)
    (archive : Outcome (List ZipEntry)) (tmp : Path) (d : Disk) (htree : TreeFs d.fs) (hp : TempPlace d.fs tmp)
    (hlast : fault ((fromZip env o fault left archive tmp d).2.ops - 1) = none) :
    (fromZip env o fault left archive tmp d).2.fs = d.fs := by
  funext p
  by_cases hn : tmp <+: p
  · rw [hp.free p hn]
    unfold fromZip at hlast ⊢
    generalize hm : makeTemp fault tmp d = w at hlast ⊢
    obtain ⟨b, d'⟩ := w
    cases b with
    | false =>
      simp only
      rw [makeTemp_failed hm]; exact hp.free p hn
    | true =>
      simp only at hlast ⊢
      unfold dropTemp at hlast ⊢
      simp only [Nat.add_sub_cancel] at hlast ⊢
      rw [if_pos hn, hlast]
  · exact c56_outside_untouched env o fault left archive tmp d htree hp p hn

/-- **C56**: no temporary directory, no engine: the outcome is an error and the disk is as it was. -/
theorem c56_no_temp (env : LoadEnv) (o : HashOrd) (fault : Faults) (left : Fs)
    (archive : Outcome (List ZipEntry)) (tmp : Path) (d : Disk) (h : fault d.ops ≠ none) :
    (∃ e, (fromZip env o fault left archive tmp d).1 = .err e) ∧
    (fromZip env o fault left archive tmp d).2.fs = d.fs := by
  unfold fromZip makeTemp
  cases hf : fault d.ops with
  | none => exact absurd hf h
  | some k => exact ⟨⟨_, rfl⟩, rfl⟩

theorem archiveAt_single_dir {entries : List ZipEntry} {q : Path} {fault : Faults} {dest : Path} {d : Disk}
    (h : (extractArchive fault (.ok entries) dest d).1 = .ok q) :
    ∃ e es c rest, entries = e :: es ∧ sanitizedName e.name = c :: rest ∧ q = dest ++ [c] := by
  obtain ⟨e, es, c, rest, h1, h2, _, h4⟩ := c47_engine_dir fault _ dest q d h
  simp only [Outcome.ok.injEq] at h1
  exact ⟨e, es, c, rest, h1, h2, h4⟩

theorem fromZip_extracted {env : LoadEnv} {o : HashOrd} {fault : Faults} {left : Fs} {e : ZipEntry} {es : List ZipEntry}
    {tmp : Path} {d d' : Disk} {root : Text} {rest : Path} {fs₀ : Fs} {dir : Path} {q : Path}
    (hm : makeTemp fault tmp d = (true, d'))
    (htree : TreeFs d.fs) (hp : TempPlace d.fs tmp) (hlang : PlainLanguages env) (hnames : PlainEngine env fs₀ dir)
    (hdir : PlainPath dir) (hroot : sanitizedName e.name = root :: rest) (harch : ArchiveOf (e :: es) root fs₀ dir)
    (hq : (extractArchive fault (.ok (e :: es)) tmp d').1 = .ok q) :
    (fromZip env o fault left (.ok (e :: es)) tmp d).1 = (loadEngine env o dir fs₀).1 := by
  obtain ⟨ht, h1, h2, h3⟩ := makeTemp_place htree hp hm
  have hres : (fromZip env o fault left (.ok (e :: es)) tmp d).1
      = (loadExtracted env o fault (.ok (e :: es)) tmp d').1 := by
    unfold fromZip
    rw [hm]
  rw [hres, loadExtracted_ok hq]
  obtain ⟨e', es', c, rest', h4, h5, rfl⟩ := archiveAt_single_dir hq
  simp only [List.cons.injEq] at h4
  obtain ⟨rfl, rfl⟩ := h4
  rw [hroot] at h5
  simp only [List.cons.injEq] at h5
  obtain ⟨rfl, rfl⟩ := h5
  refine c57_relocatable env o dir fs₀ _ _ hdir ?_ ?_ hlang hnames
  · refine hp.plain.append ?_
    have hc := c47_names_normal e.name root (by rw [hroot]; simp)
    exact PlainPath.single hc.notDotDot
  · intro r
    rw [List.append_assoc, ← harch r]
    exact c47_exact fault (e :: es) tmp _ d' hp.plain ht h1 h2 hq _ (by simp)

/-- **C56**: an archive of a directory, whose first entry is in the archived directory, loads as the directory
itself does: the same engine, the same error or the same panic.  The disk that makes the archive, `fs₀`, and the
one where it is extracted can be different. -/
theorem c56_same_as_directory (env : LoadEnv) (o : HashOrd) (fault : Faults) (left : Fs) (e : ZipEntry)
    (es : List ZipEntry) (root : Text) (rest : Path) (tmp : Path) (d : Disk) (fs₀ : Fs) (dir : Path)
    (htree : TreeFs d.fs) (hp : TempPlace d.fs tmp) (hlang : PlainLanguages env) (hdir : PlainPath dir)
    (hnames : PlainEngine env fs₀ dir) (hroot : sanitizedName e.name = root :: rest)
    (harch : ArchiveOf (e :: es) root fs₀ dir) (hcons : Consistent (e :: es))
    (hread : ∀ x ∈ e :: es, x.opens = true ∧ x.intact = true) (hfault : ∀ n, fault n = none) :
    (fromZip env o fault left (.ok (e :: es)) tmp d).1 = (loadEngine env o dir fs₀).1 := by
  have hm : ∃ d', makeTemp fault tmp d = (true, d') := by
    unfold makeTemp; rw [hfault]; exact ⟨_, rfl⟩
  obtain ⟨d', hm⟩ := hm
  obtain ⟨ht, h1, h2, -⟩ := makeTemp_place htree hp hm
  exact fromZip_extracted hm htree hp hlang hnames hdir hroot harch
    (c47_succeeds fault e es tmp d' hp.plain (ht.dirExists h1) h2 hfault hcons hread root rest hroot)

/-- **C56**: with failures of the disk or unreadable entries as well, an engine obtained from the archive is the
one the directory gives. -/
theorem c56_success_is_directory (env : LoadEnv) (o : HashOrd) (fault : Faults) (left : Fs) (e : ZipEntry)
    (es : List ZipEntry) (root : Text) (rest : Path) (tmp : Path) (d : Disk) (fs₀ : Fs) (dir : Path)
    (htree : TreeFs d.fs) (hp : TempPlace d.fs tmp) (hlang : PlainLanguages env) (hdir : PlainPath dir)
    (hnames : PlainEngine env fs₀ dir) (hroot : sanitizedName e.name = root :: rest)
    (harch : ArchiveOf (e :: es) root fs₀ dir) (engine : LoadedEngine)
    (h : (fromZip env o fault left (.ok (e :: es)) tmp d).1 = .ok engine) :
    (loadEngine env o dir fs₀).1 = .ok engine := by
  rw [← h]
  symm
  generalize hm : makeTemp fault tmp d = w
  obtain ⟨b, d'⟩ := w
  cases b with
  | false => unfold fromZip at h; rw [hm] at h; cases h
  | true =>
    cases hq : (extractArchive fault (.ok (e :: es)) tmp d').1 with
    | ok q => exact fromZip_extracted hm htree hp hlang hnames hdir hroot harch hq
    | err x =>
      exfalso
      unfold fromZip loadExtracted at h
      rw [hm] at h
      simp only at h
      generalize extractArchive fault (.ok (e :: es)) tmp d' = v at h hq
      obtain ⟨o', d''⟩ := v
      simp only at hq
      subst hq
      cases h
    | panic =>
      exfalso
      unfold fromZip loadExtracted at h
      rw [hm] at h
      simp only at h
      generalize extractArchive fault (.ok (e :: es)) tmp d' = v at h hq
      obtain ⟨o', d''⟩ := v
      simp only at hq
      subst hq
      cases h

/-! ### Examples -/

/-- The example engine as an archive. -/
def demoEngineZip : List ZipEntry :=
  (demoEngineFiles 1).map fun f => fileEntry (List.intercalate ['/'] ("m".toList :: f.1.map String.toList)) f.2

theorem demoEngineZip_consistent : Consistent demoEngineZip := by
  refine ⟨by decide +kernel, ?_⟩
  have : ∀ e ∈ demoEngineZip, ∀ e' ∈ demoEngineZip, e.isDir = false →
      (sanitizedName e.name).isPrefixOf (sanitizedName e'.name) = true →
      sanitizedName e.name = sanitizedName e'.name ∧ e'.isDir = false := by decide +kernel
  intro e he e' he' h1 h2
  exact this e he e' he' h1 (List.isPrefixOf_iff_prefix.2 h2)

theorem emptyTmp_place : TempPlace emptyTmp.fs [['t', 'm', 'p'], ['x'], ['n']] := by
  refine ⟨by unfold PlainPath; decide, by simp, by decide +kernel, ?_⟩
  intro p hp
  refine emptyTmp_fresh p ?_
  obtain ⟨t, rfl⟩ := hp
  exact ⟨['n'] :: t, by simp, rfl⟩

/-- The hypotheses of `c56_same_as_directory` hold for the archive and a disk with its contents. -/
example : (fromZip demoLoadEnv HashOrd.insertion (fun _ => none) (fun _ => none) (.ok demoEngineZip)
      [['t', 'm', 'p'], ['x'], ['n']] emptyTmp).1
    = (loadEngine demoLoadEnv HashOrd.insertion ["m".toList] (archiveAt demoEngineZip)).1 :=
  c56_same_as_directory demoLoadEnv HashOrd.insertion (fun _ => none) (fun _ => none)
    (fileEntry "m/nlu_engine.json".toList [1]) demoEngineZip.tail "m".toList ["nlu_engine.json".toList] _ emptyTmp
    (archiveAt demoEngineZip) ["m".toList] emptyTmp_tree emptyTmp_place demo_plainLanguages
    (by unfold PlainPath; decide) (fun _ b _ => demo_plainFile b) (by decide +kernel) (fun _ => rfl)
    demoEngineZip_consistent (by decide +kernel) (fun _ => rfl)

example : ((loadEngine demoLoadEnv HashOrd.insertion ["m".toList] (archiveAt demoEngineZip)).1.map
    fun e => e.parsers.length) = .ok 3 := by decide +kernel

end Snips
