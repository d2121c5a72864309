import Verif.Spec.Keys
import Verif.Props.C81_LookupTable
import Verif.Props.C50_Clusters
import Mathlib.Data.Set.Finite.Basic
import Mathlib.Order.Interval.Set.Infinite
import Mathlib.Data.Int.Interval
import Verif.Spec.RuleDemo

/-! # C104: texts are told apart by 32-bit keys

A sentence is found in a look-up table, and a word in a gazetteer, if its key is there.  Keys are 32-bit numbers, so some
texts cannot be told apart, whatever the function that makes the keys. -/

namespace Snips

/-- If the keys of the training sentences and of the readings of the query are those of different texts only when these
differ, an intent that is returned is that of a training sentence which is a reading of the query, and the slots are its
slots.  Partial: the claim is made without the assumption on keys, see `c104_lookup_false`. -/
theorem c104_lookup_partial (env : RuleEnv) (p : Lookup) (hs : p.Sound) (sentences : List TrainingSentence)
    (ht : p.TrainedOn env sentences) (o : HashOrd) (w : World) (input : Text) (hg : p.GoodMatches env w input)
    (filter : Option (List Text))
    (hkeys : ∀ u ∈ sentences, ∀ key es, p.Reading env w input filter key es →
      env.fns.hashStr key = env.fns.hashStr u.text → key = u.text)
    (out : InternalResult) (h : (p.parse env o input filter).run w = .ok out) (i : Text)
    (hi : out.intent.name = some i) :
    ∃ u ∈ sentences, ∃ es names, p.Reading env w input filter u.text es ∧ p.intentsNames[u.intent]? = some i ∧
      List.Forall₂ (fun id name => p.slotsNames[id]? = some name) u.slots names ∧
      out.slots = (names.zip es).map fun x => ⟨substr input x.2.range, x.2.range, x.2.name, x.1⟩ := by
  obtain ⟨⟨scope, hscope, owner, howner, hperm, -, all, kept, segs, names, hm, hk, hseg, hsub, hentry, hslots⟩, -, -⟩ :=
    c81_sound env p hs o w input hg filter out h i hi
  obtain ⟨n, ids, hget, hn, hids⟩ := hentry
  obtain ⟨u, hu, hkey, hval⟩ := ht _ _ hget
  have hread : p.Reading env w input filter (p.keyOf env owner (replText (entityPlaceholder env.fns) segs))
      (entitiesOf segs) :=
    ⟨scope, hscope, owner, howner, hperm, all, kept, segs, hm, hk, hseg, hsub, rfl, rfl⟩
  have heq := hkeys u hu _ _ hread hkey
  obtain ⟨h1, h2⟩ := Prod.mk.inj hval
  have h1' : n = u.intent := by exact_mod_cast h1
  have h2' : ids = u.slots := by
    have hinj : Function.Injective (fun i : Nat => (i : Int)) := fun a b hab => Int.ofNat.inj hab
    exact List.map_injective_iff.mpr hinj h2
  subst h1' h2'
  refine ⟨u, hu, entitiesOf segs, names, ?_, hn, hids, hslots⟩
  rw [← heq]
  exact hread

/-- Two different words with the same key, whatever the keys. -/
theorem collision (fns : TextFns) (h : fns.Hash32) : ∃ m n, m ≠ n ∧ fns.hashStr (wordOf m) = fns.hashStr (wordOf n) := by
  by_contra hne
  push Not at hne
  have hinj : Function.Injective fun n => fns.hashStr (wordOf n) := fun a b hab => by
    by_contra hab'
    exact hne a b hab' hab
  have hfin : (Set.range fun n => fns.hashStr (wordOf n)).Finite :=
    (Set.finite_Icc (-2 ^ 31 : ℤ) (2 ^ 31)).subset (by
      rintro _ ⟨n, rfl⟩
      exact ⟨(h _).1, (h _).2.le⟩)
  exact Set.infinite_range_of_injective hinj hfin

theorem wordOf_injective {m n : Nat} (h : wordOf m = wordOf n) : m = n := by
  have := congrArg List.length h
  simpa [wordOf] using this

theorem replText_of_no_entities (f : Text → Text) (segs : List Seg) (h : entitiesOf segs = []) :
    replText f segs = origText segs := by
  have key : ∀ segs a b, occs (fun _ => []) a b segs = [] → replText f segs = origText segs := by
    intro segs
    induction segs with
    | nil => intros; rfl
    | cons s segs ih =>
      intro a b hs
      cases s with
      | plain t =>
        have := ih _ _ hs
        simp only [replText, origText, List.map_cons, List.flatten_cons, Seg.repl, Seg.orig] at this ⊢
        rw [this]
      | ent t name => cases hs
  exact key segs 0 0 (List.map_eq_nil_iff.mp h)

/-- A table for one training sentence, which is one word. -/
def oneWordLookup (fns : TextFns) (t : Text) : Lookup where
  slotsNames := []
  intentsNames := ["play".toList]
  map := [(fns.hashStr t, (0, []))]
  stopWords := StopWords.new true [] []
  scopes := [⟨["play".toList], [], []⟩]

theorem oneWordLookup_sound (env : RuleEnv) (t : Text) : (oneWordLookup env.fns t).Sound :=
  ⟨fun e he => by cases List.mem_singleton.mp he; exact ⟨le_refl _, Int.zero_lt_one⟩,
    fun e he => by cases List.mem_singleton.mp he; nofun⟩

theorem oneWordLookup_trained (env : RuleEnv) (t : Text) : (oneWordLookup env.fns t).TrainedOn env [⟨t, 0, []⟩] := by
  intro key entry h
  refine ⟨_, List.mem_singleton_self _, ?_⟩
  have := Map.get_some_mem h
  cases List.mem_singleton.mp this
  exact ⟨rfl, rfl⟩

theorem oneWordLookup_matches (env : RuleEnv) (input : Text) (scope : GroupedScope) (all : List MatchedEntity)
    (h : scope.Matches env silentWorld input all) : all = [] := by
  obtain ⟨kinds, bs, cs, -, hb, hc, rfl⟩ := h
  cases hb
  cases hc
  rfl

theorem oneWordLookup_good (env : RuleEnv) (t input : Text) :
    (oneWordLookup env.fns t).GoodMatches env silentWorld input := by
  intro scope _ all hall e he
  rw [oneWordLookup_matches env input scope all hall] at he
  cases he

/-- A word is read as itself. -/
theorem oneWordLookup_reading (env : RuleEnv) (t input : Text) (hw : env.fns.PlainWord input) (key : Text)
    (es : List MatchedEntity) (h : (oneWordLookup env.fns t).Reading env silentWorld input none key es) :
    key = input ∧ es = [] := by
  obtain ⟨scope, hsc, owner, -, -, all, kept, segs, hall, hk, hseg, hsub, rfl, rfl⟩ := h
  rw [oneWordLookup_matches env input scope all hall] at hk
  have hkept : kept = [] := List.eq_nil_iff_forall_not_mem.mpr fun e he => nomatch hk.subset e he
  subst hkept
  have hnil : entitiesOf segs = [] := List.sublist_nil.mp hsub
  refine ⟨?_, hnil⟩
  rw [replText_of_no_entities _ segs hnil, hseg]
  unfold Lookup.keyOf
  rw [hw.light]
  have : ((oneWordLookup env.fns t).stopWords.forIntent owner) = [] := rfl
  rw [this]
  simp [hw.lower]

/-- Whatever the function that makes the keys: there is a table made from one sentence, and another sentence, which is not
read as this one, for which the intent of the first is returned with certainty. -/
theorem c104_lookup_false (env : RuleEnv) (h : env.fns.Hash32) (hw : ∀ n, env.fns.PlainWord (wordOf n)) :
    ∃ (p : Lookup) (u : TrainingSentence) (input i : Text),
      p.Sound ∧ p.TrainedOn env [u] ∧ p.GoodMatches env silentWorld input ∧
      (∀ o, (p.parse env o input none).run silentWorld = .ok ⟨⟨some i, 1⟩, []⟩) ∧
      ∀ key es, p.Reading env silentWorld input none key es → key = input ∧ key ≠ u.text := by
  obtain ⟨m, n, hmn, heq⟩ := collision env.fns h
  have hne : wordOf n ≠ wordOf m := fun hc => hmn (wordOf_injective hc).symm
  have hsound := oneWordLookup_sound env (wordOf m)
  have hread := fun key es => oneWordLookup_reading env (wordOf m) (wordOf n) (hw n) key es
  refine ⟨oneWordLookup env.fns (wordOf m), ⟨wordOf m, 0, []⟩, wordOf n, "play".toList, hsound, ?_, ?_, ?_, ?_⟩
  · exact oneWordLookup_trained env _
  · exact oneWordLookup_good env _ _
  · intro o
    have hpre : ∀ owner, (oneWordLookup env.fns (wordOf m)).preprocess env (wordOf n) owner = wordOf n := by
      intro owner
      unfold Lookup.preprocess
      rw [(hw n).light]
      have : ((oneWordLookup env.fns (wordOf m)).stopWords.forIntent owner) = [] := rfl
      rw [this]
      simp [(hw n).lower, joinWith]
    have hcand : ((oneWordLookup env.fns (wordOf m)).getCandidates env (wordOf n) none).run silentWorld
        = .ok [(wordOf n, [])] := by
      have : ((oneWordLookup env.fns (wordOf m)).getCandidates env (wordOf n) none).run silentWorld
          = .ok (unique [((oneWordLookup env.fns (wordOf m)).preprocess env (wordOf n) "play".toList, []),
            ((oneWordLookup env.fns (wordOf m)).preprocess env (wordOf n) "play".toList, [])]) := rfl
      rw [this, hpre]
      simp [unique]
    have hone : (oneWordLookup env.fns (wordOf m)).lookupOne env (wordOf n) none (wordOf n, [])
        = .ok (some ⟨⟨some "play".toList, 1⟩, []⟩) := by
      unfold Lookup.lookupOne
      have : (oneWordLookup env.fns (wordOf m)).map.get (env.fns.hashStr (wordOf n)) = some (0, []) := by
        rw [← heq]
        simp [oneWordLookup, Map.get]
      simp only [this]
      simp [Lookup.parseMapOutput, mapOutcome, allowedBy, indexName, oneWordLookup, Outcome.unwrap]
      rfl
    have hord : o.order 0 [("play".toList, [(⟨⟨some "play".toList, 1⟩, []⟩ : InternalResult)])]
        = [("play".toList, [⟨⟨some "play".toList, 1⟩, []⟩])] := List.perm_singleton.mp (o.perm 0 _)
    have hbest : bestPerIntent env.rd o [⟨⟨some "play".toList, 1⟩, []⟩] = [⟨⟨some "play".toList, 1⟩, []⟩] := by
      have : ([⟨⟨some "play".toList, 1⟩, []⟩] : List InternalResult).foldl pushResult []
          = [("play".toList, [⟨⟨some "play".toList, 1⟩, []⟩])] := rfl
      unfold bestPerIntent
      rw [this, hord]
      rfl
    have hrank : rankByWeight env.rd [⟨⟨some "play".toList, 1⟩, []⟩] 1 = [⟨⟨some "play".toList, 1⟩, []⟩] := by
      simp [rankByWeight, totalWeight, slotWeight, env.rd.zero, env.rd.one, sortDesc, env.rd.idem]
    unfold Lookup.parse Lookup.parseTopIntents
    simp only [Prog.run_bind, hcand, Outcome.bind, mapOutcome, hone]
    show Outcome.ok (pickUnambiguous (rankByWeight env.rd (bestPerIntent env.rd o [⟨⟨some "play".toList, 1⟩, []⟩]) 1)) = _
    rw [hbest, hrank]
    norm_num [pickUnambiguous]
  · intro key es hr
    exact ⟨(hread key es hr).1, (hread key es hr).1 ▸ hne⟩

/-- If keys tell the value from the listed words, a word that is contained is one of the lines.  Partial: see
`c104_gazetteer_false`. -/
theorem c104_gazetteer_partial (hash : Text → Int) (words : List Text) (g : Gazetteer)
    (h : Gazetteer.fromReader hash (words.map .ok) = .ok g) (value : Text)
    (hkeys : ∀ w ∈ words, hash w = hash value → w = value) (hc : g.contains hash value = true) : value ∈ words := by
  obtain ⟨g', hg', -, hs⟩ := c51_gazetteer hash words
  obtain rfl : g = g' := Outcome.ok.inj (h.symm.trans hg')
  obtain ⟨w, hw, -, he⟩ := (hs value).mp hc
  exact hkeys w hw he ▸ hw

/-- Whatever the function that makes the keys: a gazetteer of one word contains another word. -/
theorem c104_gazetteer_false (fns : TextFns) (h : fns.Hash32) :
    ∃ listed other g, other ≠ listed ∧ Gazetteer.fromReader fns.hashStr [.ok listed] = .ok g ∧
      g.contains fns.hashStr other = true := by
  obtain ⟨m, n, hmn, heq⟩ := collision fns h
  obtain ⟨g, hg, -, hs⟩ := c51_gazetteer fns.hashStr [wordOf m]
  refine ⟨wordOf m, wordOf n, g, fun hc => hmn (wordOf_injective hc).symm, hg, ?_⟩
  exact (hs _).mpr ⟨wordOf m, List.mem_singleton_self _, by simp [wordOf], heq⟩

/-- Whatever the function that makes the keys: a stemmer that knows the stem of one word changes another word, which is
normalized and which it does not know. -/
theorem c104_stemmer_false (fns : TextFns) (h : fns.Hash32) (hn : ∀ n, fns.normalize (wordOf n) = wordOf n) :
    ∃ listed other stem s, other ≠ listed ∧ other ≠ stem ∧ Stemmer.fromReader fns.hashStr [.ok [stem, listed]] = .ok s ∧
      s.stem fns other = stem := by
  obtain ⟨m, n, hmn, heq⟩ := collision fns h
  refine ⟨wordOf m, wordOf n, "b".toList, ⟨[(fns.hashStr (wordOf m), "b".toList)]⟩,
    fun hc => hmn (wordOf_injective hc).symm, ?_, rfl, ?_⟩
  · intro hc
    cases congrArg List.head? hc
  · unfold Stemmer.stem
    rw [hn, ← heq]
    simp [Map.get]

/-! ### Concrete cases -/

/-- The functions of the examples make 32-bit keys. -/
theorem demoEnv_hash32 : demoEnv.fns.Hash32 := by
  have key : ∀ (t : Text) (acc : Int), 0 ≤ acc → acc < 1000003 →
      0 ≤ t.foldl (fun (acc : Int) c => (256 * acc + (c.toNat : Int)) % 1000003) acc ∧
      t.foldl (fun (acc : Int) c => (256 * acc + (c.toNat : Int)) % 1000003) acc < 1000003 := by
    intro t
    induction t with
    | nil => exact fun acc h1 h2 => ⟨h1, h2⟩
    | cons c t ih => exact fun acc _ _ => ih _ (Int.emod_nonneg _ (by norm_num)) (Int.emod_lt_of_pos _ (by norm_num))
  intro t
  have := key t 0 le_rfl (by norm_num)
  have e : demoEnv.fns.hashStr t = t.foldl (fun (acc : Int) c => (256 * acc + (c.toNat : Int)) % 1000003) 0 := rfl
  rw [e]
  constructor <;> omega

/-- For them, a text of letters a is a word in lower case. -/
theorem demoEnv_plainWord (n : Nat) : demoEnv.fns.PlainWord (wordOf n) where
  light := by
    have h : (wordOf n).splitOn ' ' = [wordOf n] := List.splitOnP_eq_singleton (by simp [wordOf])
    show ((wordOf n).splitOn ' ').filter (fun v => v ≠ []) = _
    rw [h]
    simp [wordOf]
  lower := by
    show (wordOf n).map Char.toLower = _
    simp only [wordOf, List.map_replicate]
    rfl

/-- Two of them with the same key. -/
example : ∃ m n, m ≠ n ∧ demoEnv.fns.hashStr (wordOf m) = demoEnv.fns.hashStr (wordOf n) := collision _ demoEnv_hash32

/-- A word that was trained on is found. -/
example : (oneWordLookup demoEnv.fns (wordOf 3)).TrainedOn demoEnv [⟨wordOf 3, 0, []⟩] ∧
    (oneWordLookup demoEnv.fns (wordOf 3)).GoodMatches demoEnv silentWorld (wordOf 3) ∧
    (∀ u ∈ [(⟨wordOf 3, 0, []⟩ : TrainingSentence)], ∀ key es,
      (oneWordLookup demoEnv.fns (wordOf 3)).Reading demoEnv silentWorld (wordOf 3) none key es →
      demoEnv.fns.hashStr key = demoEnv.fns.hashStr u.text → key = u.text) ∧
    ((oneWordLookup demoEnv.fns (wordOf 3)).parse demoEnv HashOrd.insertion (wordOf 3) none).run silentWorld
      = .ok ⟨⟨some "play".toList, 1⟩, []⟩ := by
  refine ⟨oneWordLookup_trained _ _, oneWordLookup_good _ _ _, fun u hu key es hr _ => ?_, by decide +kernel⟩
  cases List.mem_singleton.mp hu
  exact (oneWordLookup_reading _ _ _ (demoEnv_plainWord 3) key es hr).1

/-- Gazetteer: the keys of the words and of the value differ if the words do. -/
example : ∃ g, Gazetteer.fromReader demoEnv.fns.hashStr (["tea".toList, "milk".toList].map .ok) = .ok g ∧
    (∀ w ∈ ["tea".toList, "milk".toList], demoEnv.fns.hashStr w = demoEnv.fns.hashStr "milk".toList → w = "milk".toList) ∧
    g.contains demoEnv.fns.hashStr "milk".toList = true :=
  ⟨_, rfl, by decide +kernel, by decide +kernel⟩

/-- Stemmer: texts of letters a are normalized. -/
example (n : Nat) : demoEnv.fns.normalize (wordOf n) = wordOf n := (demoEnv_plainWord n).lower

end Snips
