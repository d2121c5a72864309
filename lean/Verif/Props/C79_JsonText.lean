import Verif.Proofs.JsonWrite
import Verif.Proofs.Readers
import Verif.Conformance.JsonEq
import Verif.Proofs.Loading

/-! # C79: model files are read as RFC 8259 says

`Verif/Spec/JsonText.lean` is the grammar of JSON with what its texts denote. -/

namespace Snips

open JsonGrammar

/-- **C79**: a document is read from a file exactly if the file is UTF-8 and its text is a JSON text that denotes the
document and nests at most 127 arrays and objects. -/
theorem c79_reads (env : JsonNumbers) (bytes : List Nat) (j : Json) :
    JsonText.read env bytes = some j ↔ ∃ t, bytes = encodeUtf8 t ∧ Document env.f64 127 t j := by
  unfold JsonText.read
  simp only [Option.bind_eq_some_iff, decodeUtf8_iff, JsonText.parse_iff]

/-- **C79**: the grammar is unambiguous, so what is read is what the file denotes. -/
theorem c79_unambiguous (f64 : ℚ → Option ℚ) (d d' : Nat) (t : Text) (j j' : Json) (h : Document f64 d t j)
    (h' : Document f64 d' t j') : j = j' := by
  have mono : ∀ d t j, Value f64 d t j → ∀ e, d ≤ e → Value f64 e t j := by
    intro d t j hv
    refine Value.rec (f64 := f64) (motive_1 := fun d t j _ => ∀ e, d ≤ e → Value f64 e t j)
      (motive_2 := fun d t l _ => ∀ e, d ≤ e → Elements f64 e t l)
      (motive_3 := fun d t l _ => ∀ e, d ≤ e → Members f64 e t l)
      ?_ ?_ ?_ ?_ ?_ ?_ ?_ ?_ ?_ ?_ ?_ ?_ ?_ hv
    · exact fun d e _ => Value.null e
    · exact fun d e _ => Value.true e
    · exact fun d e _ => Value.false e
    · exact fun d t j hn e _ => Value.number e t j hn
    · exact fun d t s hs e _ => Value.string e t s hs
    · intro d w hw e he
      obtain ⟨e, rfl⟩ : ∃ k, e = k + 1 := ⟨e - 1, by omega⟩
      exact Value.emptyArray e w hw
    · intro d t l _ ih e he
      obtain ⟨e, rfl⟩ : ∃ k, e = k + 1 := ⟨e - 1, by omega⟩
      exact Value.array e t l (ih e (by omega))
    · intro d w hw e he
      obtain ⟨e, rfl⟩ : ∃ k, e = k + 1 := ⟨e - 1, by omega⟩
      exact Value.emptyObject e w hw
    · intro d t l _ ih e he
      obtain ⟨e, rfl⟩ : ∃ k, e = k + 1 := ⟨e - 1, by omega⟩
      exact Value.object e t l (ih e (by omega))
    · exact fun d w t w' j hw _ hw' ih e he => Elements.one e w t w' j hw (ih e he) hw'
    · exact fun d w t w' ts j l hw _ hw' _ ih ih' e he => Elements.more e w t w' ts j l hw (ih e he) hw' (ih' e he)
    · exact fun d w k w₁ w₂ t w' key j hw hk h1 h2 _ hw' ih e he =>
        Members.one e w k w₁ w₂ t w' key j hw hk h1 h2 (ih e he) hw'
    · exact fun d w k w₁ w₂ t w' key ts j l hw hk h1 h2 _ hw' _ ih ih' e he =>
        Members.more e w k w₁ w₂ t w' key ts j l hw hk h1 h2 (ih e he) hw' (ih' e he)
  have read : ∀ d j, Document f64 d t j → ∀ e, d ≤ e → ∃ r,
      JsonText.value ⟨f64, fun _ => []⟩ (t.length + 1) (e + 1) (JsonText.skip t) = some (j, r) := by
    rintro d j ⟨w, c, w', j, hw, hv, hw'⟩ e he
    have hv := mono d c j hv e he
    obtain ⟨ch, r, ec, h1, -⟩ := JsonText.value_head hv
    have hs : JsonText.skip (w ++ c ++ w') = c ++ w' := by
      rw [List.append_assoc]
      exact JsonText.skip_ws hw (by rw [ec]; exact JsonText.noSpace_cons h1)
    rw [hs]
    exact ⟨w', (JsonText.complete ⟨f64, fun _ => []⟩ _).value e c j w' hv (by simp; omega) (JsonText.stops_of_ws hw')⟩
  obtain ⟨r, hr⟩ := read d j h (max d d') (by omega)
  obtain ⟨r', hr'⟩ := read d' j' h' (max d d') (by omega)
  rw [hr] at hr'
  cases hr'
  rfl

/-- **C79**: a document that is written is read back. -/
theorem c79_writes (env : JsonNumbers) (j : Json) (h : Writable env.f64 env.show' 127 j) :
    JsonText.read env (encodeUtf8 (JsonText.write env j)) = some j := by
  rw [c79_reads]
  refine ⟨_, rfl, ?_⟩
  have := Document.mk (f64 := env.f64) (d := 127) [] _ [] j JsonText.ws_nil (JsonText.write_grammar h) JsonText.ws_nil
  simpa using this

/-- **C79**: a file of the model is read as `m` only if its text denotes a document that describes `m`
(`Verif/Spec/Json.lean`), and is read if its text denotes a document that describes anything. -/
theorem c79_file {α : Type} (env : LoadEnv) (num : JsonNumbers) (hj : env.json = JsonText.read num)
    {d : Json → Outcome α} {P : Json → α → Prop} (h : Reads d P) (bytes : List Nat) :
    (∀ m, env.decode d bytes = .ok m → ∃ t j, bytes = encodeUtf8 t ∧ Document num.f64 127 t j ∧ P j m) ∧
    (∀ t j m, bytes = encodeUtf8 t → Document num.f64 127 t j → P j m → ∃ m', env.decode d bytes = .ok m' ∧ P j m') := by
  have hr := env.reads_decode h
  constructor
  · intro m hm
    obtain ⟨j, hj', hp⟩ := hr.sound bytes m hm
    rw [hj, c79_reads] at hj'
    obtain ⟨t, ht, hd⟩ := hj'
    exact ⟨t, j, ht, hd, hp⟩
  · intro t j m ht hd hp
    have hj' : env.json bytes = some j := by rw [hj, c79_reads]; exact ⟨t, ht, hd⟩
    obtain ⟨m', hm'⟩ := hr.complete bytes m ⟨j, hj', hp⟩
    obtain ⟨j', hj'', hp'⟩ := hr.sound _ _ hm'
    rw [hj'] at hj''
    cases hj''
    exact ⟨m', hm', hp'⟩

/-- **C79**: a file is never read as `nlu_engine.json` if its text is no JSON text. -/
theorem c79_no_text (env : LoadEnv) (num : JsonNumbers) (hj : env.json = JsonText.read num) (bytes : List Nat)
    (h : ∀ t j, bytes = encodeUtf8 t → ¬Document num.f64 127 t j) : env.engine bytes = jsonError := by
  have : env.json bytes = none := by
    rw [hj]
    cases hr : JsonText.read num bytes with
    | none => rfl
    | some j =>
      obtain ⟨t, ht, hd⟩ := (c79_reads num bytes j).1 hr
      exact absurd hd (h t j ht)
  unfold LoadEnv.engine LoadEnv.decode
  rw [this]

/-! ### Examples -/

/-- A text is read as this document. -/
def readsAs (t : String) (j : Json) : Bool :=
  match JsonText.read exactNumbers (encodeUtf8 t.toList) with
  | some j' => j'.beq j
  | none => false

/-- A text is rejected. -/
def rejected (t : String) : Bool := (JsonText.read exactNumbers (encodeUtf8 t.toList)).isNone

-- texts that are read: whitespace, numbers, escapes, a character in two halves, a repeated key
example : readsAs " [ 1 , -20,0.25e+1 , 1E-2]\n" (.arr [.int 1, .int (-20), .float (5 / 2), .float (1 / 100)]) = true := by
  decide +kernel
example : readsAs "{\"a\\n\\u00e9\\uD83D\\uDE00/\\/\": null, \"b\":[], \"b\" : {}}"
    (.obj [("a\né😀//".toList, .null), ("b".toList, .arr []), ("b".toList, .obj [])]) = true := by decide +kernel
example : readsAs "18446744073709551615" (.int 18446744073709551615) = true := by decide +kernel
example : readsAs "18446744073709551616" (.float 18446744073709551616) = true := by decide +kernel
-- texts that are not
example : (["", "nul", "01", "1.", ".5", "-", "1e", "+1", "[1,]", "[,1]", "{\"a\":1,}", "{a:1}", "[1 2]", "1 2", "\"\\x\"",
    "\"\\ud83d\"", "\"\\ude00\\ud83d\"", "\"\t\"", "\"a", "'a'", "True"].map rejected).all id = true := by decide +kernel
-- the depth
example : (JsonText.parse exactNumbers (List.replicate 127 '[' ++ List.replicate 127 ']')).isSome = true := by
  decide +kernel
example : (JsonText.parse exactNumbers (List.replicate 128 '[' ++ List.replicate 128 ']')).isSome = false := by
  decide +kernel
-- an overlong form of '/' is no UTF-8
example : (JsonText.read exactNumbers [34, 0xC0, 0xAF, 34]).isNone = true := by decide +kernel

/-- A document that satisfies the hypothesis of `c79_writes`. -/
example : Writable exactNumbers.f64 exactNumbers.show' 127
    (.obj [("k\n".toList, .arr [.int (-5), .float (1 / 2), .str ['"'], .null, .bool true])]) := by
  refine Writable.obj 126 _ fun e he => ?_
  obtain rfl := List.mem_singleton.1 he
  refine Writable.arr 125 _ fun j hj => ?_
  simp only [List.mem_cons, List.not_mem_nil, or_false] at hj
  rcases hj with rfl | rfl | rfl | rfl | rfl
  · exact Writable.int _ _ (by decide) (by decide)
  · refine Writable.float _ _ ?_
    have := Number.float (f64 := exactNumbers.f64) [] ['0'] ['.', '5'] [] ['5'] 1 0 (1 / 2) SignPart.none (Or.inl rfl)
      (FracPart.some ['5'] ⟨by decide, by unfold Digit; decide⟩) ExpPart.none (by decide)
      (by rw [show decimal ['0'] = 0 from rfl, show decimal ['5'] = 5 from rfl]; norm_num [exactNumbers])
    exact this
  · exact Writable.str _ _
  · exact Writable.null _
  · exact Writable.bool _ _

end Snips
