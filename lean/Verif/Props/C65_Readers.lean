import Verif.Props.C50_Clusters
import Verif.Props.C60_Layout
import Verif.Proofs.Readers
import Verif.Proofs.Safety

/-! # C65: the resource files mean what is written in them

Files are bytes.  A file whose bytes are the UTF-8 encoding of a text is read line by line (gazetteers, stop words) or
record by record (stems: fields separated by commas; word clusters: by tabulations); any other file is refused. -/

namespace Snips

/-- The encoding used in the statements below is UTF-8 as defined by the Lean core library. -/
theorem c65_utf8 (t : Text) : encodeUtf8 t = (t.flatMap String.utf8EncodeChar).map UInt8.toNat := by
  have key : ∀ c : Char, encodeChar c = (String.utf8EncodeChar c).map UInt8.toNat := by
    intro c
    have hv : c.val.toNat < 0x110000 := by
      rcases c.valid with h | h
      · exact Nat.lt_of_lt_of_le h (by decide)
      · exact h.2
    unfold encodeChar String.utf8EncodeChar
    change (if c.val.toNat < 0x80 then _ else _) = _
    have e : c.toNat = c.val.toNat := rfl
    rw [e]
    generalize c.val.toNat = n at hv
    simp only
    by_cases h1 : n < 0x80
    · rw [if_pos h1, if_pos (by omega)]
      simp; omega
    by_cases h2 : n < 0x800
    · rw [if_neg h1, if_pos h2, if_neg (by omega), if_pos (by omega)]
      simp; omega
    by_cases h3 : n < 0x10000
    · rw [if_neg h1, if_neg h2, if_pos h3, if_neg (by omega), if_neg (by omega), if_pos (by omega)]
      simp; omega
    · rw [if_neg h1, if_neg h2, if_neg h3, if_neg (by omega), if_neg (by omega), if_neg (by omega)]
      simp; omega
  unfold encodeUtf8
  induction t with
  | nil => rfl
  | cons c t ih => rw [List.flatMap_cons, List.flatMap_cons, List.map_append, key c, ih]

theorem encodeUtf8_injective : Function.Injective encodeUtf8 := by
  intro a b h
  have := decodeUtf8_encode a
  rw [h, decodeUtf8_encode] at this
  exact (Option.some.inj this).symm

/-- **C65**, lines.  Every text has lines, in one way, and they are what is read from its encoding. -/
theorem c65_lines (t : Text) :
    ∃ lines, LinesOf '\n' '\r' t lines ∧ (∀ lines', LinesOf '\n' '\r' t lines' → lines' = lines) ∧
      readLines (encodeUtf8 t) = lines.map .ok := by
  have read : ∀ lines, LinesOf '\n' '\r' t lines → readLines (encodeUtf8 t) = lines.map .ok := by
    intro lines h
    rw [readLines_bytes (linesOf_encode h), List.map_map]
    exact List.map_congr_left fun l _ => utf8OrErr_encode l
  obtain ⟨lines, h⟩ := linesOf_exists '\n' '\r' t.length t (Nat.le_refl _) (by decide)
  refine ⟨lines, h, fun lines' h' => ?_, read lines h⟩
  have := (read lines' h').symm.trans (read lines h)
  exact List.map_injective_iff.2 (fun a b h => by cases h; rfl) this

/-- A file that is no encoding of a text has a line that cannot be read. -/
theorem c65_lines_invalid (bytes : List Nat) (h : ∀ t, bytes ≠ encodeUtf8 t) :
    ∃ l ∈ readLines bytes, l = .err (.external 310) := by
  obtain ⟨lines, hl⟩ := linesOf_exists 10 13 bytes.length bytes (Nat.le_refl _) (by decide)
  rw [readLines_bytes hl]
  by_contra hno
  refine absurd (linesOf_decodable hl fun l hmem => ?_) (fun ⟨t, ht⟩ => h t ht)
  cases hd : decodeUtf8 l with
  | some t => exact ⟨t, decodeUtf8_iff.1 hd⟩
  | none => exact (hno ⟨_, List.mem_map.2 ⟨l, hmem, rfl⟩, by unfold utf8OrErr; rw [hd]⟩).elim

/-- Two lines, the first ending with a carriage return and a line feed; a file with a stray byte. -/
example : LinesOf '\n' '\r' "été\r\n\nx".toList ["été".toList, [], ['x']] ∧
    readLines (encodeUtf8 "été\r\n\nx".toList) = [.ok "été".toList, .ok [], .ok ['x']] ∧
    readLines [0x78, 10, 0xC3, 10, 0x79] = [.ok ['x'], .err (.external 310), .ok ['y']] :=
  ⟨.crlf "été".toList "\nx".toList _ (by decide) (.line [] ['x'] _ (by decide) (by decide) (.last _ (by decide) (by decide))),
    by decide +kernel, by decide +kernel⟩

/-! ### Gazetteers and stop words -/

/-- **C65**, gazetteers.  A gazetteer contains the values that have the hash of a non-empty line of its file. -/
theorem c65_gazetteer (hash : Text → Int) {t : Text} {lines : List Text} (h : LinesOf '\n' '\r' t lines) :
    ∃ g, Gazetteer.fromReader hash (readLines (encodeUtf8 t)) = .ok g ∧
      ∀ v, g.contains hash v = true ↔ ∃ w ∈ lines, w ≠ [] ∧ hash w = hash v := by
  obtain ⟨lines', h', hu, hr⟩ := c65_lines t
  cases hu lines h
  rw [hr]
  obtain ⟨g, hg, _, hs⟩ := c51_gazetteer hash lines
  exact ⟨g, hg, hs⟩

theorem gazetteer_load_ok {hash : Text → Int} : ∀ {ls : List (Outcome Text)} {values : List Int} {g : Gazetteer},
    Gazetteer.load hash ls values = .ok g → ∀ l ∈ ls, ∃ w, l = .ok w
  | [], _, _, _, l, hl => by cases hl
  | x :: ls, values, g, h, l, hl => by
    rw [Gazetteer.load, Outcome.bind_ok_iff'] at h
    obtain ⟨w, rfl, h⟩ := h
    rcases List.mem_cons.1 hl with rfl | hl
    · exact ⟨w, rfl⟩
    · split at h
      · exact gazetteer_load_ok h l hl
      · exact gazetteer_load_ok h l hl

/-- A gazetteer file that is not UTF-8 is refused. -/
theorem c65_gazetteer_invalid (hash : Text → Int) (bytes : List Nat) (h : ∀ t, bytes ≠ encodeUtf8 t) :
    ∀ g, Gazetteer.fromReader hash (readLines bytes) ≠ .ok g := by
  intro g hg
  obtain ⟨l, hl, rfl⟩ := c65_lines_invalid bytes h
  obtain ⟨w, hw⟩ := gazetteer_load_ok hg _ hl
  cases hw

theorem collectStopWords_lines : ∀ (lines acc : List Text), ∃ out, collectStopWords (lines.map .ok) acc = .ok out
  | [], acc => ⟨acc, rfl⟩
  | w :: lines, acc => by
    obtain ⟨out, h⟩ := collectStopWords_lines lines (if w = [] ∨ acc.contains w then acc else acc ++ [w])
    exact ⟨out, h⟩

/-- **C65**, stop words.  The stop words are the non-empty lines of their file. -/
theorem c65_stop_words {t : Text} {lines : List Text} (h : LinesOf '\n' '\r' t lines) :
    ∃ out, collectStopWords (readLines (encodeUtf8 t)) [] = .ok out ∧ ∀ w, w ∈ out ↔ w ∈ lines ∧ w ≠ [] := by
  obtain ⟨lines', h', hu, hr⟩ := c65_lines t
  cases hu lines h
  rw [hr]
  obtain ⟨out, ho⟩ := collectStopWords_lines lines []
  refine ⟨out, ho, fun w => ?_⟩
  rw [(collectStopWords_ok _ _ _ ho).2 w]
  simp [IsLine]

/-- A file of stop words that is not UTF-8 is refused. -/
theorem c65_stop_words_invalid (bytes : List Nat) (h : ∀ t, bytes ≠ encodeUtf8 t) :
    ∀ out, collectStopWords (readLines bytes) [] ≠ .ok out := by
  intro out ho
  obtain ⟨l, hl, rfl⟩ := c65_lines_invalid bytes h
  obtain ⟨w, hw⟩ := (collectStopWords_ok _ _ _ ho).1 _ hl
  cases hw

/-! ### Records -/

/-- Every text has records, in one way. -/
theorem c65_records (d : Char) (hd : d.toNat < 0x80) (hb : d ≠ '\n' ∧ d ≠ '\r') (t : Text) :
    ∃ records, RecordsOf '\n' '\r' d t records ∧ (∀ records', RecordsOf '\n' '\r' d t records' → records' = records) ∧
      csvFrom d.toNat [] [] false (encodeUtf8 t) = records.map fun r => r.map encodeUtf8 := by
  have hb' : d.toNat ≠ 10 ∧ d.toNat ≠ 13 :=
    ⟨fun e => hb.1 (toNat_inj (d := '\n') e), fun e => hb.2 (toNat_inj (d := '\r') e)⟩
  have read : ∀ records, RecordsOf '\n' '\r' d t records →
      csvFrom d.toNat [] [] false (encodeUtf8 t) = records.map fun r => r.map encodeUtf8 :=
    fun records h => csvFrom_spec hb' (recordsOf_encode hd h)
  obtain ⟨records, h⟩ := recordsOf_exists '\n' '\r' d t.length t (Nat.le_refl _)
  refine ⟨records, h, fun records' h' => ?_, read records h⟩
  have := (read records' h').symm.trans (read records h)
  exact List.map_injective_iff.2 (List.map_injective_iff.2 encodeUtf8_injective) this

theorem recordsOf_fields {α : Type} {lf cr d : α} {l : List α} {records : List (List (List α))}
    (h : RecordsOf lf cr d l records) : ∀ r ∈ records, r ≠ [] := by
  induction h with
  | nil => intro r hr; cases hr
  | record breaks rest fields records _ hn _ _ _ _ ih =>
    intro r hr
    rcases List.mem_cons.1 hr with rfl | hr
    · exact hn
    · exact ih r hr

theorem csvCheck_flexible (expected : Option Nat) (records : List (List Text)) :
    csvCheck true expected (records.map fun r => r.map encodeUtf8) = records.map .ok := by
  induction records generalizing expected with
  | nil => rfl
  | cons r records ih =>
    rw [List.map_cons, csvCheck, ih, decodeFields_encode]
    simp

/-- **C65**, records of a reader that accepts any number of fields. -/
theorem c65_records_flexible (d : Char) (hd : d.toNat < 0x80) (hb : d ≠ '\n' ∧ d ≠ '\r') {t : Text}
    {records : List (List Text)} (h : RecordsOf '\n' '\r' d t records) :
    csvRecords d.toNat true (encodeUtf8 t) = records.map .ok := by
  obtain ⟨r', _, hu, hr⟩ := c65_records d hd hb t
  cases hu records h
  unfold csvRecords
  rw [hr, csvCheck_flexible]

theorem csvCheck_strict (n : Nat) (records : List (List Text)) :
    csvCheck false (some n) (records.map fun r => r.map encodeUtf8) =
      records.map fun r => if r.length = n then .ok r else .err (.external 311) := by
  induction records with
  | nil => rfl
  | cons r records ih =>
    rw [List.map_cons, csvCheck, decodeFields_encode, Option.getD_some, ih]
    by_cases hn : r.length = n
    · simp [hn]
    · have : n ≠ r.length := fun e => hn e.symm
      simp [hn, this]

/-- **C65**, records of a reader that wants as many fields in each record as in the first one. -/
theorem c65_records_strict (d : Char) (hd : d.toNat < 0x80) (hb : d ≠ '\n' ∧ d ≠ '\r') {t : Text}
    {first : List Text} {records : List (List Text)} (h : RecordsOf '\n' '\r' d t (first :: records)) :
    csvRecords d.toNat false (encodeUtf8 t) =
      .ok first :: records.map fun r => if r.length = first.length then .ok r else .err (.external 311) := by
  obtain ⟨r', _, hu, hr⟩ := c65_records d hd hb t
  cases hu _ h
  unfold csvRecords
  rw [hr, List.map_cons, csvCheck, decodeFields_encode, Option.getD_none, List.length_map, csvCheck_strict]
  simp

theorem csvCheck_ok (flexible : Bool) : ∀ {expected : Option Nat} {rs : List (List (List Nat))},
    (∀ x ∈ csvCheck flexible expected rs, ∃ r, x = .ok r) → ∀ r ∈ rs, ∀ f ∈ r, ∃ t, f = encodeUtf8 t
  | _, [], _, r, hr => by cases hr
  | expected, x :: rs, h, r, hr => by
    rw [csvCheck] at h
    rcases List.mem_cons.1 hr with rfl | hr
    · obtain ⟨out, ho⟩ := h _ (by simp; left; rfl)
      split at ho
      · cases ho
      · split at ho
        · rename_i fields hfields
          intro f hf
          rw [decodeFields_some hfields] at hf
          obtain ⟨t, _, rfl⟩ := List.mem_map.1 hf
          exact ⟨t, rfl⟩
        · cases ho
    · exact csvCheck_ok flexible (fun y hy => h y (List.mem_cons_of_mem _ hy)) r hr

/-- In a file that is no encoding of a text, some record cannot be read. -/
theorem c65_records_invalid (d : Char) (hd : d.toNat < 0x80) (hb : d ≠ '\n' ∧ d ≠ '\r') (flexible : Bool)
    (bytes : List Nat) (h : ∀ t, bytes ≠ encodeUtf8 t) :
    ∃ x ∈ csvRecords d.toNat flexible bytes, ∀ r, x ≠ .ok r := by
  have hb' : d.toNat ≠ 10 ∧ d.toNat ≠ 13 :=
    ⟨fun e => hb.1 (toNat_inj (d := '\n') e), fun e => hb.2 (toNat_inj (d := '\r') e)⟩
  obtain ⟨records, hr⟩ := recordsOf_exists 10 13 d.toNat bytes.length bytes (Nat.le_refl _)
  by_contra hno
  refine absurd (recordsOf_decodable hd hr ?_) (fun ⟨t, ht⟩ => h t ht)
  refine csvCheck_ok flexible (expected := none) fun x hx => ?_
  by_contra hx'
  refine hno ⟨x, ?_, fun r hr' => hx' ⟨r, hr'⟩⟩
  unfold csvRecords
  rw [csvFrom_spec hb' hr]
  exact hx

/-! ### Stems -/

/-- **C65**, stems.  Each record of a file of stems is a stem followed by words; the stem of a word is that of the last
of these words that has the same hash as the normalised form of the word, and the word itself when there is none. -/
theorem c65_stemmer (fns : TextFns) (t : Text) :
    ∃ entries : List (Text × List Text), RecordsOf '\n' '\r' ',' t (entries.map fun e => e.1 :: e.2) ∧
    ∃ s, Stemmer.fromReader fns.hashStr (csvRecords 44 true (encodeUtf8 t)) = .ok s ∧ ∀ word,
      (∀ pre line, LastAt (fun l : Text × Text => fns.hashStr l.1) (stemLines entries)
          (fns.hashStr (fns.normalize word)) pre line → s.stem fns word = line.2) ∧
      ((∀ line ∈ stemLines entries, fns.hashStr line.1 ≠ fns.hashStr (fns.normalize word)) →
        s.stem fns word = word) := by
  obtain ⟨records, h, hu, hc⟩ := c65_records ',' (by decide) (by decide) t
  clear hu hc
  have hread := c65_records_flexible ',' (by decide) (by decide) h
  have : ∃ entries : List (Text × List Text), records = entries.map fun e => e.1 :: e.2 := by
    have hne := recordsOf_fields h
    clear h hread
    induction records with
    | nil => exact ⟨[], rfl⟩
    | cons r records ih =>
      obtain ⟨entries, rfl⟩ := ih fun r hr => hne r (by simp [hr])
      cases r with
      | nil => exact absurd rfl (hne [] (by simp))
      | cons stem words => exact ⟨(stem, words) :: entries, rfl⟩
  obtain ⟨entries, rfl⟩ := this
  refine ⟨entries, h, ?_⟩
  have hf : StemFile (csvRecords 44 true (encodeUtf8 t)) entries := by
    have e : csvRecords 44 true (encodeUtf8 t) = _ := hread
    rw [e, List.map_map]
    unfold StemFile
    clear h hread e
    induction entries with
    | nil => exact .nil
    | cons x entries ih => exact .cons rfl ih
  exact c51_stemmer fns hf

theorem stemmer_load_ok {hash : Text → Int} : ∀ {rs : List (Outcome (List Text))} {values : Map Int Text} {s : Stemmer},
    Stemmer.load hash rs values = .ok s → ∀ r ∈ rs, ∃ x, r = .ok x
  | [], _, _, _, r, hr => by cases hr
  | x :: rs, values, s, h, r, hr => by
    rw [Stemmer.load, Outcome.bind_ok_iff'] at h
    obtain ⟨w, rfl, h⟩ := h
    rcases List.mem_cons.1 hr with rfl | hr
    · exact ⟨w, rfl⟩
    · rw [Outcome.bind_ok_iff'] at h
      obtain ⟨stem, _, h⟩ := h
      exact stemmer_load_ok h r hr

/-- A file of stems that is not UTF-8 is refused. -/
theorem c65_stemmer_invalid (hash : Text → Int) (bytes : List Nat) (h : ∀ t, bytes ≠ encodeUtf8 t) :
    ∀ s, Stemmer.fromReader hash (csvRecords 44 true bytes) ≠ .ok s := by
  intro s hs
  obtain ⟨x, hx, hno⟩ := c65_records_invalid ',' (by decide) (by decide) true bytes h
  obtain ⟨r, hr⟩ := stemmer_load_ok hs x hx
  exact hno r hr

/-- A file of stems with records of three and two fields and an empty line. -/
example : RecordsOf '\n' '\r' ',' "do,does,did\n\ngo,went\n".toList
      [["do".toList, "does".toList, "did".toList], ["go".toList, "went".toList]] ∧
    csvRecords 44 true (encodeUtf8 "do,does,did\n\ngo,went\n".toList) =
      [.ok ["do".toList, "does".toList, "did".toList], .ok ["go".toList, "went".toList]] := by
  have h : RecordsOf '\n' '\r' ',' "do,does,did\n\ngo,went\n".toList
      [["do".toList, "does".toList, "did".toList], ["go".toList, "went".toList]] :=
    .record [] "\n\ngo,went\n".toList ["do".toList, "does".toList, "did".toList] _ (by decide) (by decide) (by decide)
      (by decide) (by decide) (.record "\n\n".toList "\n".toList ["go".toList, "went".toList] _ (by decide) (by decide)
        (by decide) (by decide) (by decide) (.nil _ (by decide)))
  exact ⟨h, c65_records_flexible ',' (by decide) (by decide) h⟩

/-! ### Word clusters -/

theorem clusterFile_map (entries : List (List Text)) (h : ∀ r ∈ entries, 2 ≤ r.length) :
    ∃ es : List (Text × Text), List.Forall₂ (fun (r : List Text) (e : Text × Text) => ∃ more, r = e.1 :: e.2 :: more) entries es ∧
      ClusterFile (entries.map .ok) es := by
  induction entries with
  | nil => exact ⟨[], .nil, .nil⟩
  | cons r entries ih =>
    obtain ⟨es, h1, h2⟩ := ih fun r hr => h r (by simp [hr])
    have hr := h r (by simp)
    match r, hr with
    | w :: c :: more, _ => exact ⟨(w, c) :: es, .cons ⟨more, rfl⟩ h1, .cons ⟨more, rfl⟩ h2⟩

/-- **C65**, word clusters.  The records of a file of clusters begin with a word and its cluster.  If all of them have
the same number of fields, at least two, the file is read and the cluster of a word is that of the last record whose
word has the same hash (in the notation described at `c50_storage`). -/
theorem c65_clusters (hash : Text → Int) (o : HashOrd) {t : Text} {records : List (List Text)}
    (h : RecordsOf '\n' '\r' '\t' t records) (n : Nat) (hn : 2 ≤ n) (hlen : ∀ r ∈ records, r.length = n) :
    ∃ entries : List (Text × Text),
      List.Forall₂ (fun (r : List Text) (e : Text × Text) => ∃ more, r = e.1 :: e.2 :: more) records entries ∧
    ∃ w, WordClusterer.fromReader hash o (csvRecords 9 false (encodeUtf8 t)) = .ok w ∧ ∀ word,
      (∀ pre e, LastAt (fun e : Text × Text => hash e.1) entries (hash word) pre e →
        ((∃ x ∈ pre ++ [e], ∀ n, ¬ DenotesU16 x.2 n) → w.getCluster hash word = some e.2) ∧
        ((∀ x ∈ pre ++ [e], ∃ n, DenotesU16 x.2 n) → ∀ n, DenotesU16 e.2 n →
          w.getCluster hash word = some (toString n).toList)) ∧
      ((∀ e ∈ entries, hash e.1 ≠ hash word) → w.getCluster hash word = none) := by
  obtain ⟨es, h1, h2⟩ := clusterFile_map records fun r hr => by rw [hlen r hr]; exact hn
  refine ⟨es, h1, ?_⟩
  have e : csvRecords 9 false (encodeUtf8 t) = records.map .ok := by
    cases records with
    | nil =>
      obtain ⟨r', _, hu, hr⟩ := c65_records '\t' (by decide) (by decide) t
      cases hu _ h
      unfold csvRecords
      have hr : csvFrom 9 [] [] false (encodeUtf8 t) = [] := hr
      rw [hr]
      rfl
    | cons first records =>
      have := c65_records_strict '\t' (by decide) (by decide) h
      refine Eq.trans this ?_
      rw [List.map_cons]
      congr 1
      refine List.map_congr_left fun r hr => ?_
      rw [if_pos]
      rw [hlen r (by simp [hr]), hlen first (by simp)]
  rw [e]
  exact c50_storage hash o h2

theorem load_stemmer_safe {hash : Text → Int} : ∀ (records : List (Outcome (List Text))) (values : Map Int Text),
    (∀ r ∈ records, r ≠ .panic) → (∀ r, .ok r ∈ records → 1 ≤ r.length) → Stemmer.load hash records values ≠ .panic
  | [], _, _, _ => by simp [Stemmer.load]
  | r :: records, values, h, h1 => by
    refine Outcome.bind_safe (h r (by simp)) fun e he => ?_
    subst he
    have := h1 e (by simp)
    cases e with
    | nil => simp at this
    | cons w e =>
      exact load_stemmer_safe records _ (fun r hr => h r (by simp [hr])) fun r hr => h1 r (by simp [hr])

theorem load_textual_safe {hash : Text → Int} : ∀ (records : List (Outcome (List Text))) (values : Map Int Text),
    (∀ r ∈ records, r ≠ .panic) → (∀ r, .ok r ∈ records → 2 ≤ r.length) →
    WordClusterer.loadTextual hash records values ≠ .panic
  | [], _, _, _ => by simp [WordClusterer.loadTextual]
  | r :: records, values, h, h1 => by
    refine Outcome.bind_safe (h r (by simp)) fun e he => ?_
    subst he
    have := h1 e (by simp)
    match e, this with
    | w :: c :: e, _ =>
      exact load_textual_safe records _ (fun r hr => h r (by simp [hr])) fun r hr => h1 r (by simp [hr])

theorem load_numeric_safe {hash : Text → Int} {o : HashOrd} :
    ∀ (records : List (Outcome (List Text))) (values : Map Int Nat),
    (∀ r ∈ records, r ≠ .panic) → (∀ r, .ok r ∈ records → 2 ≤ r.length) →
    WordClusterer.loadNumeric hash o records values ≠ .panic
  | [], _, _, _ => by simp [WordClusterer.loadNumeric]
  | r :: records, values, h, h1 => by
    refine Outcome.bind_safe (h r (by simp)) fun e he => ?_
    subst he
    have := h1 e (by simp)
    match e, this with
    | w :: c :: e, _ =>
      show (match parseU16 c with
        | some n => WordClusterer.loadNumeric hash o records (values.insert (hash w) n)
        | none => WordClusterer.loadTextual hash records
            ((WordClusterer.toTextual o values).insert (hash w) c)) ≠ .panic
      split
      · exact load_numeric_safe records _ (fun r hr => h r (by simp [hr])) fun r hr => h1 r (by simp [hr])
      · exact load_textual_safe records _ (fun r hr => h r (by simp [hr])) fun r hr => h1 r (by simp [hr])

theorem csvCheck_length : ∀ {n : Nat} {rs : List (List (List Nat))} {r : List Text},
    .ok r ∈ csvCheck false (some n) rs → r.length = n
  | n, x :: rs, r, h => by
    rw [csvCheck] at h
    rcases List.mem_cons.1 h with h | h
    · split at h
      · cases h
      · rename_i hn
        split at h
        · rename_i fields hf
          cases h
          have := congrArg List.length (decodeFields_some hf)
          rw [List.length_map] at this
          simp at hn
          omega
        · cases h
    · exact csvCheck_length h

theorem clusters_panic_iff {hash : Text → Int} {o : HashOrd} {bytes : List Nat} :
    WordClusterer.fromReader hash o (csvRecords 9 false bytes) = .panic ↔ BareWord bytes := by
  constructor
  · intro hp
    obtain ⟨records, hr⟩ := recordsOf_exists 10 13 9 bytes.length bytes (Nat.le_refl _)
    unfold csvRecords at hp
    rw [csvFrom_spec (by decide) hr] at hp
    cases records with
    | nil => cases hp
    | cons first records =>
      rw [csvCheck] at hp
      simp only [Option.any_none, Bool.and_false, Bool.false_eq_true, if_false, Option.getD_none] at hp
      cases hd : decodeFields first with
      | none => rw [hd] at hp; cases hp
      | some fields =>
        rw [hd] at hp
        have hf := decodeFields_some hd
        match fields with
        | [] => exact absurd hf (recordsOf_fields hr first (by simp))
        | [w] => exact ⟨w, records, by rw [hf] at hr; exact hr⟩
        | w :: c :: more =>
          refine absurd hp (load_numeric_safe _ _ ?_ ?_)
          · intro r hr'
            rcases List.mem_cons.1 hr' with rfl | hr'
            · simp
            · exact csvCheck_safe _ _ _ r hr'
          · intro r hr'
            rcases List.mem_cons.1 hr' with hr' | hr'
            · cases hr'; simp
            · rw [csvCheck_length hr', hf]; simp
  · rintro ⟨word, records, h⟩
    unfold csvRecords
    rw [csvFrom_spec (by decide) h, csvCheck]
    have := decodeFields_encode [word]
    rw [List.map_cons, List.map_nil] at this
    rw [this]
    exact (c50_malformed hash o (records := []) (entries := []) .nil _).1 word

/-- Reading a file of clusters panics exactly if its first record is a word alone. -/
theorem c65_clusters_panic_iff (hash : Text → Int) (o : HashOrd) (bytes : List Nat) :
    WordClusterer.fromReader hash o (csvRecords 9 false bytes) = .panic ↔ BareWord bytes :=
  clusters_panic_iff

/-- If the first record has a single field, reading the file panics. -/
theorem c65_clusters_panic (hash : Text → Int) (o : HashOrd) {t : Text} {word : Text} {records : List (List Text)}
    (h : RecordsOf '\n' '\r' '\t' t ([word] :: records)) :
    WordClusterer.fromReader hash o (csvRecords 9 false (encodeUtf8 t)) = .panic := by
  have e : csvRecords 9 false (encodeUtf8 t) = _ := c65_records_strict '\t' (by decide) (by decide) h
  rw [e]
  exact (c50_malformed hash o (records := []) (entries := []) .nil _).1 word

/-- If the records before some record have as many fields as the first one, at least two, and that record has another
number of fields, the file is refused. -/
theorem c65_clusters_error (hash : Text → Int) (o : HashOrd) {t : Text} {first bad : List Text}
    {before after : List (List Text)} (h : RecordsOf '\n' '\r' '\t' t (first :: before ++ bad :: after))
    (hfirst : 2 ≤ first.length) (hbefore : ∀ r ∈ before, r.length = first.length) (hbad : bad.length ≠ first.length) :
    WordClusterer.fromReader hash o (csvRecords 9 false (encodeUtf8 t)) = .err (.external 311) := by
  have e : csvRecords 9 false (encodeUtf8 t) = _ := c65_records_strict '\t' (by decide) (by decide) h
  rw [e]
  change WordClusterer.fromReader hash o (Outcome.ok first :: List.map _ (before ++ bad :: after)) = _
  rw [List.map_append, List.map_cons, if_neg hbad]
  obtain ⟨es, _, hf⟩ := clusterFile_map (first :: before) fun r hr => by
    rcases List.mem_cons.1 hr with rfl | hr
    · exact hfirst
    · rw [hbefore r hr]; exact hfirst
  have e2 : (before.map fun r => if r.length = first.length then Outcome.ok r else .err (.external 311)) =
      before.map .ok := List.map_congr_left fun r hr => if_pos (hbefore r hr)
  rw [e2]
  have := (c50_malformed hash o hf
    (after.map fun r => if r.length = first.length then Outcome.ok r else .err (.external 311))).2 (.external 311)
  simpa using this

theorem textual_load_ok {hash : Text → Int} : ∀ {rs : List (Outcome (List Text))} {values : Map Int Text}
    {w : WordClusterer}, WordClusterer.loadTextual hash rs values = .ok w → ∀ r ∈ rs, ∃ x, r = .ok x
  | [], _, _, _, r, hr => by cases hr
  | x :: rs, values, w, h, r, hr => by
    rw [WordClusterer.loadTextual, Outcome.bind_ok_iff'] at h
    obtain ⟨y, rfl, h⟩ := h
    rcases List.mem_cons.1 hr with rfl | hr
    · exact ⟨y, rfl⟩
    · rw [Outcome.bind_ok_iff'] at h
      obtain ⟨_, _, h⟩ := h
      rw [Outcome.bind_ok_iff'] at h
      obtain ⟨_, _, h⟩ := h
      exact textual_load_ok h r hr

theorem numeric_load_ok {hash : Text → Int} {o : HashOrd} : ∀ {rs : List (Outcome (List Text))} {values : Map Int Nat}
    {w : WordClusterer}, WordClusterer.loadNumeric hash o rs values = .ok w → ∀ r ∈ rs, ∃ x, r = .ok x
  | [], _, _, _, r, hr => by cases hr
  | x :: rs, values, w, h, r, hr => by
    rw [WordClusterer.loadNumeric, Outcome.bind_ok_iff'] at h
    obtain ⟨y, rfl, h⟩ := h
    rcases List.mem_cons.1 hr with rfl | hr
    · exact ⟨y, rfl⟩
    · rw [Outcome.bind_ok_iff'] at h
      obtain ⟨_, _, h⟩ := h
      rw [Outcome.bind_ok_iff'] at h
      obtain ⟨_, _, h⟩ := h
      split at h
      · exact numeric_load_ok h r hr
      · exact textual_load_ok h r hr

/-- A file of clusters that is not UTF-8 is not read. -/
theorem c65_clusters_invalid (hash : Text → Int) (o : HashOrd) (bytes : List Nat) (h : ∀ t, bytes ≠ encodeUtf8 t) :
    ∀ w, WordClusterer.fromReader hash o (csvRecords 9 false bytes) ≠ .ok w := by
  intro w hw
  obtain ⟨x, hx, hno⟩ := c65_records_invalid '\t' (by decide) (by decide) false bytes h
  obtain ⟨r, hr⟩ := numeric_load_ok hw x hx
  exact hno r hr

/-- Files of clusters: two words; a word without cluster (one field, the reader panics); a missing field in the second
record (refused); a byte that is not UTF-8. -/
example :
    RecordsOf '\n' '\r' '\t' "dog\tanimal\ncat\t12".toList
      [["dog".toList, "animal".toList], ["cat".toList, "12".toList]] ∧
    RecordsOf '\n' '\r' '\t' "dog\ncat\t12".toList [["dog".toList], ["cat".toList, "12".toList]] ∧
    RecordsOf '\n' '\r' '\t' "dog\tanimal\ncat".toList [["dog".toList, "animal".toList], ["cat".toList]] ∧
    ∀ t, [100, 9, 0xC3] ≠ encodeUtf8 t := by
  refine ⟨?_, ?_, ?_, ?_⟩
  · exact .record [] "\ncat\t12".toList ["dog".toList, "animal".toList] _ (by decide) (by decide) (by decide) (by decide)
      (by decide) (.record "\n".toList [] ["cat".toList, "12".toList] _ (by decide) (by decide) (by decide) (by decide)
        (by decide) (.nil _ (by decide)))
  · exact .record [] "\ncat\t12".toList ["dog".toList] _ (by decide) (by decide) (by decide) (by decide)
      (by decide) (.record "\n".toList [] ["cat".toList, "12".toList] _ (by decide) (by decide) (by decide) (by decide)
        (by decide) (.nil _ (by decide)))
  · exact .record [] "\ncat".toList ["dog".toList, "animal".toList] _ (by decide) (by decide) (by decide) (by decide)
      (by decide) (.record "\n".toList [] ["cat".toList] _ (by decide) (by decide) (by decide) (by decide)
        (by decide) (.nil _ (by decide)))
  · intro t ht
    have := decodeUtf8_encode t
    rw [← ht] at this
    revert this
    have : decodeUtf8 [100, 9, 0xC3] = none := by decide +kernel
    rw [this]
    simp

end Snips
