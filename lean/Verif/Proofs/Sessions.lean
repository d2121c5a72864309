import Verif.Spec.Sessions
import Verif.Proofs.Python
import Verif.Proofs.SwiftValues
import Verif.Props.C73_Swift
import Verif.Proofs.Cli

/-! # Engines held by programs in Swift and Kotlin -/

namespace Snips

open HM CM

variable {κ α β τ : Type}

/-! ## Caches stay in order -/

theorem good_swGetLast (msg : Err → List Nat) : (swGetLast msg : HM κ HostError).KeepsGood := by
  refine good_bind (good_same fun _ => rfl) fun v => good_bind (good_lastError _ _) fun ok => ?_
  split
  · exact good_bind (good_readObject _ _) fun _ => good_pure _
  · exact good_same fun _ => rfl

theorem good_swNewStrings : ∀ bs : List (List Nat), (swNewStrings bs : HM κ (List Addr)).KeepsGood
  | [] => good_pure _
  | _ :: bs => good_bind (good_same fun _ => rfl) fun _ => good_bind (good_swNewStrings bs) fun _ => good_pure _

theorem good_swFilter (l : Option (List Text)) : (swFilter l : HM κ (Addr × List Addr)).KeepsGood := by
  cases l with
  | none => exact good_pure _
  | some l => exact good_bind (good_swNewStrings _) fun _ => good_bind (good_same fun _ => rfl) fun _ => good_pure _

theorem good_swFree (f : Addr × List Addr) : (swFree f : HM κ Unit).KeepsGood := good_same fun s => by
  unfold swFree
  simp only
  split
  · rfl
  · rw [foldl_setString]
    rfl

theorem good_swU32 (n : Int) : (swU32 n : HM κ Nat).KeepsGood := good_same fun s => by
  unfold swU32
  split <;> rfl

theorem good_swQuery (env : CEnv κ) (msg : Err → List Nat) (c : CCirc) (call : CCall) (v : Addr) (sel : CObj κ → Option κ)
    (conv : κ → Except HostError τ) : (swQuery env msg c call v sel conv).KeepsGood := by
  refine good_bind (good_ccall _ _ _) fun ok => ?_
  split
  · refine good_bind (good_readVar _) fun p => ?_
    split
    · exact good_throws _
    · refine good_bind (good_readObject _ _) fun x => ?_
      split
      · exact good_throws _
      · exact good_pure _
  · exact good_bind (good_swGetLast _) fun e => good_throws e

theorem good_swAsk (env : CEnv κ) (msg : Err → List Nat) (conv : KtConv κ τ) (c : CCirc) (client : Addr) (q : Question) :
    (swAsk env msg conv c client q).KeepsGood := by
  cases q with
  | parse text wl bl ni ns =>
    exact good_withVar fun v => good_bind (good_swFilter _) fun w => good_bind (good_swFilter _) fun b =>
      good_finally (good_withString fun p => good_bind (good_swU32 _) fun _ => good_bind (good_swU32 _) fun _ =>
        good_swQuery _ _ _ _ _ _ _)
        (good_bind (good_readVar _) fun _ => good_bind (good_ccall _ _ _) fun _ => good_bind (good_swFree _) fun _ => good_swFree _)
  | getSlots text intent ns =>
    exact good_withVar fun v => good_finally (good_withString fun p => good_withString fun i =>
      good_bind (good_swU32 _) fun _ => good_swQuery _ _ _ _ _ _ _)
      (good_bind (good_readVar _) fun _ => good_bind (good_ccall _ _ _) fun _ => good_pure _)
  | getIntents text =>
    exact good_withVar fun v => good_finally (good_withString fun p => good_swQuery _ _ _ _ _ _ _)
      (good_bind (good_readVar _) fun _ => good_bind (good_ccall _ _ _) fun _ => good_pure _)

theorem good_swInit (env : CEnv κ) (msg : Err → List Nat) (c : CCirc) (src : Text ⊕ List Nat) :
    (swInit env msg c src).KeepsGood := by
  have key : ∀ call : Addr → CCall, (withVar fun v => do
      let ok ← ccall env c (call v)
      if ok then readVar v
      else do
        let e ← swGetLast msg
        throws e : HM κ Addr).KeepsGood := fun call =>
    good_withVar fun v => good_bind (good_ccall _ _ _) fun ok => by
      split
      · exact good_readVar _
      · exact good_bind (good_swGetLast _) fun e => good_throws e
  unfold swInit
  cases src with
  | inl dir => exact good_withString fun p => key _
  | inr b =>
    refine good_withBytes fun p => good_bind (good_swU32 _) fun n => ?_
    exact key fun v => .createFromZip p n v

theorem good_ktParseError (env : CEnv κ) (msg : Err → List Nat) (c : CCirc) (ok : Bool) : (ktParseError env msg c ok).KeepsGood := by
  unfold ktParseError
  split
  · exact good_pure _
  · refine good_withVar fun v => good_bind (good_lastError _ _) fun _ => good_bind (good_readVar _) fun p => ?_
    split
    · exact good_throws _
    · exact good_bind (good_readObject _ _) fun b => good_bind (good_ccall _ _ _) fun _ => good_throws _

theorem good_ktFilter {l : Option (List Text)} {k : List Addr → Addr → HM κ α} (h : ∀ ps p, (k ps p).KeepsGood) :
    (ktFilter l k).KeepsGood := by
  unfold ktFilter
  cases l with
  | none => exact h [] 0
  | some l => exact good_withStrings fun ps => good_withArray (h ps)

theorem good_ktQuery (env : CEnv κ) (msg : Err → List Nat) (c : CCirc) (call : Addr → CCall) (sel : CObj κ → Option β)
    (conv : β → Except HostError τ) (destroy : Addr → CCall) : (ktQuery env msg c call sel conv destroy).KeepsGood := by
  refine good_withVar fun v => good_bind (good_ccall _ _ _) fun ok => good_bind (good_ktParseError _ _ _ _) fun _ =>
    good_bind (good_readObject _ _) fun x => ?_
  split
  · exact good_throws _
  · exact good_bind (good_readVar _) fun p => good_bind (good_ccall _ _ _) fun _ => good_pure _

theorem good_collect (gc : Addr → Bool) (ps : List Addr) : (collect gc ps : HM κ Unit).KeepsGood := good_same fun _ => rfl

theorem good_ktAsk (env : CEnv κ) (msg : Err → List Nat) (conv : KtConv κ τ) (gc : Addr → Bool) (c : CCirc) (client : Addr)
    (q : Question) : (ktAsk env msg conv gc c client q).KeepsGood := by
  cases q with
  | parse text wl bl ni ns =>
    exact good_withString fun p => good_ktFilter fun ws w => good_ktFilter fun bs b =>
      good_bind (good_collect _ _) fun _ => good_ktQuery _ _ _ _ _ _ _
  | getSlots text intent ns => exact good_withString fun p => good_withString fun i => good_ktQuery _ _ _ _ _ _ _
  | getIntents text => exact good_withString fun p => good_ktQuery _ _ _ _ _ _ _

theorem good_ktAskJson (env : CEnv κ) (msg : Err → List Nat) (gc : Addr → Bool) (c : CCirc) (client : Addr)
    (q : Question) : (ktAskJson env msg gc c client q).KeepsGood := by
  cases q with
  | parse text wl bl ni ns =>
    exact good_withString fun p => good_ktFilter fun ws w => good_ktFilter fun bs b =>
      good_bind (good_collect _ _) fun _ => good_ktQuery _ _ _ _ _ _ _
  | getSlots text intent ns => exact good_withString fun p => good_withString fun i => good_ktQuery _ _ _ _ _ _ _
  | getIntents text => exact good_withString fun p => good_ktQuery _ _ _ _ _ _ _

theorem good_ktCreate (env : CEnv κ) (msg : Err → List Nat) (c : CCirc) (src : Text ⊕ List Nat) :
    (ktCreate env msg c src).KeepsGood := by
  have key : ∀ call : Addr → CCall, (withVar fun v => do
      let ok ← ccall env c (call v)
      ktParseError env msg c ok
      readVar v : HM κ Addr).KeepsGood := fun call =>
    good_withVar fun v => good_bind (good_ccall _ _ _) fun ok => good_bind (good_ktParseError _ _ _ _) fun _ => good_readVar _
  cases src with
  | inl dir => exact good_withString fun p => key _
  | inr b => exact good_withBytes fun p => key _

/-! ## The engines that are held -/

/-- The memory is in order, and every engine held is the one that was loaded. -/
structure Held (env : CEnv κ) (s : HMem κ) (l : List HostMade) : Prop where
  tidy : s.Tidy
  good : AllGood s.c
  engines : ∀ m ∈ l, ∃ e hd, loadSource env m.circ m.src m.disk = .ok e ∧ UsableEngine s.c m.address hd ∧
    hd.engine = e.engine env.load.names ∧ hd.ext = e.ext

theorem held_same {env : CEnv κ} {s s' : HMem κ} {l : List HostMade} (h : Held env s l) (ht : s'.Tidy) (hg : AllGood s'.c)
    (hs : SameEngines s.c s'.c) : Held env s' l := by
  refine ⟨ht, hg, fun m hm => ?_⟩
  obtain ⟨e, hd, h1, ⟨h2, h3, h4⟩, h5, h6⟩ := h.engines m hm
  obtain ⟨hd', f1, f2, f3, f4⟩ := (hs m.address).2 hd h3
  exact ⟨e, hd', h1, ⟨h2, f1, f4.trans h4⟩, f2.trans h5, f3.trans h6⟩

theorem held_added {env : CEnv κ} {s s' : HMem κ} {l : List HostMade} (h : Held env s l) (ht : s'.Tidy) (hg : AllGood s'.c)
    {m : HostMade} {e : LoadedEngine} (he : loadSource env m.circ m.src m.disk = .ok e)
    (ha : Added m.address (Handle.fresh env e) s s') : Held env s' (m :: l) := by
  refine ⟨ht, hg, fun m' hm => ?_⟩
  rcases List.mem_cons.1 hm with rfl | hm
  · exact ⟨e, _, he, ⟨ha.fresh.1, ha.engine, rfl⟩, rfl, rfl⟩
  · obtain ⟨e', hd, g1, ⟨g2, g3, g4⟩, g5, g6⟩ := h.engines m' hm
    have hne : m'.address ≠ m.address := fun he => by
      rw [he, ha.fresh.2] at g3
      cases g3
    exact ⟨e', hd, g1, ⟨g2, by rw [ha.others _ hne]; exact g3, g4⟩, g5, g6⟩

theorem held_closed {env : CEnv κ} {c : CCirc} {s s' : HMem κ} {l : List HostMade} (h : Held env s l) {m : HostMade}
    (hm : m ∈ l) (hr : ktClose env c m.address s = (.ok (), s')) :
    Held env s' (l.filter fun x => x.address ≠ m.address) := by
  obtain ⟨e, hd, -, hh, -, -⟩ := h.engines m hm
  have hgood := good_pyDel env c m.address s h.good
  rw [show pyDel env c m.address s = ktClose env c m.address s from rfl, hr] at hgood
  have hd' := ktClose_live (env := env) (c := c) hh.1 hh.2.1
  rw [hr] at hd'
  have hs := (Prod.mk.inj hd').2
  subst hs
  have none_of : ∀ a, s.c.engines a = none → (if a = m.address then none else s.c.engines a) = none := fun a ha => by
    split
    · rfl
    · exact ha
  refine ⟨⟨⟨h.tidy.c.pos, ⟨h.tidy.c.null.1, none_of 0 h.tidy.c.null.2⟩, fun a ha => ⟨(h.tidy.c.fresh a ha).1,
    none_of a (h.tidy.c.fresh a ha).2⟩⟩, h.tidy.pos, h.tidy.fresh⟩, hgood, fun m' hm' => ?_⟩
  obtain ⟨hm', hne⟩ := List.mem_filter.1 hm'
  have hne : m'.address ≠ m.address := by simpa using hne
  obtain ⟨e', hd', g1, ⟨g2, g3, g4⟩, g5, g6⟩ := h.engines m' hm'
  exact ⟨e', hd', g1, ⟨g2, (if_neg hne).trans g3, g4⟩, g5, g6⟩

theorem held_disk {env : CEnv κ} {s : HMem κ} {l : List HostMade} (h : Held env s l) (d : Disk) :
    Held env { s with c := { s.c with disk := d } } l :=
  ⟨⟨⟨h.tidy.c.pos, h.tidy.c.null, h.tidy.c.fresh⟩, h.tidy.pos, h.tidy.fresh⟩, h.good, h.engines⟩

/-! ### Swift -/

theorem swAsk_kept {env : CEnv κ} (hu : env.utf8 = utf8OrErr) {msg : Err → List Nat} {conv : KtConv κ τ} {c : CCirc}
    {client : Addr} {hd : Handle} {q : Question} {s s' : HMem κ} (ht : s.Tidy) (hh : UsableEngine s.c client hd)
    {r : HEnd τ} (hr : swAsk env msg conv c client q s = (r, s')) (h1 : r ≠ .panic) (h2 : r ≠ .undefined) (h3 : r ≠ .trap) :
    s'.Tidy ∧ SameEngines s.c s'.c := by
  by_cases hq : q.NumbersFit
  · have key := swAsk_ends hu msg conv c hq ht hh
    unfold Ends at key
    rw [hr] at key
    cases ho : q.struct env hd c with
    | ok x =>
      rw [ho] at key
      exact ⟨key.2.tidy ht, key.2.engines⟩
    | err e =>
      rw [ho] at key
      by_cases h0 : 0 ∈ msg e
      · exact absurd (key.2 h0) h2
      · exact ⟨(key.1 h0).2.tidy, (key.1 h0).2.engines⟩
    | panic =>
      rw [ho] at key
      exact absurd key h1
  · have := swAsk_traps env msg conv c client hq s
    rw [hr] at this
    exact absurd this h3

theorem swInit_source {env : CEnv κ} {msg : Err → List Nat} {c : CCirc} {src : Text ⊕ List Nat} {s s' : HMem κ}
    {r : HEnd Addr} (hr : swInit env msg c src s = (r, s')) (h2 : r ≠ .undefined) (h3 : r ≠ .trap) :
    ∀ b, src = .inr b → b ≠ [] ∧ b.length < 2 ^ 32 := by
  rintro b rfl
  constructor
  · rintro rfl
    have := swInit_empty (env := env) msg c s
    rw [hr] at this
    exact h2 this
  · by_contra hlt
    have := swInit_traps env msg c (b := b) (by omega) s
    rw [hr] at this
    exact h3 this

theorem swHistory_held {env : CEnv κ} (hu : env.utf8 = utf8OrErr) {msg : Err → List Nat} {conv : KtConv κ τ} {s0 s : HMem κ}
    {l : List HostMade} (h : SwHistory env msg conv s0 s l) : Held env s l := by
  induction h with
  | start ht he => exact ⟨ht, fun a h hh => absurd (he a) (by rw [hh]; simp), by simp⟩
  | @init s s' l h c src p hr ih =>
    have hgood := good_swInit env msg c src s ih.good
    rw [hr] at hgood
    have hsrc := swInit_source hr (by simp) (by simp)
    have key := swInit_ends hu msg c ih.tidy hsrc
    unfold Ends at key
    rw [hr] at key
    cases ho : loadSource env c src s.c.disk with
    | ok e =>
      rw [ho] at key
      obtain ⟨p', h1, h2⟩ := key
      cases h1
      exact held_added ih (h2.tidy ih.tidy) hgood ho h2.toAdded
    | err e =>
      rw [ho] at key
      by_cases h0 : 0 ∈ msg e
      · cases key.2 h0
      · cases (key.1 h0).1
    | panic =>
      rw [ho] at key
      cases key
  | @initThrows s s' l h c src e hr ih =>
    have hgood := good_swInit env msg c src s ih.good
    rw [hr] at hgood
    have hsrc := swInit_source hr (by simp) (by simp)
    have key := swInit_ends hu msg c ih.tidy hsrc
    unfold Ends at key
    rw [hr] at key
    cases ho : loadSource env c src s.c.disk with
    | ok e' =>
      rw [ho] at key
      obtain ⟨p', h1, h2⟩ := key
      cases h1
    | err e' =>
      rw [ho] at key
      by_cases h0 : 0 ∈ msg e'
      · cases key.2 h0
      · exact held_same ih (key.1 h0).2.tidy hgood (key.1 h0).2.engines
    | panic =>
      rw [ho] at key
      cases key
  | @ask s s' l h c m hm q y hr ih =>
    obtain ⟨e, hd, -, hh, -, -⟩ := ih.engines m hm
    have hgood := good_swAsk env msg conv c m.address q s ih.good
    rw [hr] at hgood
    obtain ⟨h1, h2⟩ := swAsk_kept hu ih.tidy hh hr (by simp) (by simp) (by simp)
    exact held_same ih h1 hgood h2
  | @askThrows s s' l h c m hm q e hr ih =>
    obtain ⟨e, hd, -, hh, -, -⟩ := ih.engines m hm
    have hgood := good_swAsk env msg conv c m.address q s ih.good
    rw [hr] at hgood
    obtain ⟨h1, h2⟩ := swAsk_kept hu ih.tidy hh hr (by simp) (by simp) (by simp)
    exact held_same ih h1 hgood h2
  | @deinit s s' l h c m hm hr ih =>
    obtain ⟨e, hd, -, hh, -, -⟩ := ih.engines m hm
    have hsame : swDeinit env c m.address s = ktClose env c m.address s := by
      unfold swDeinit
      rw [if_pos hh.1]
      rfl
    rw [hsame] at hr
    exact held_closed ih hm hr
  | disk h d ih => exact held_disk ih d

/-! ### Kotlin -/

theorem ktCreate_held {env : CEnv κ} (hu : env.utf8 = utf8OrErr) {msg : Err → List Nat} {c : CCirc} {src : Text ⊕ List Nat}
    {s s' : HMem κ} {l : List HostMade} (ih : Held env s l) {r : HEnd Addr} (hr : ktCreate env msg c src s = (r, s')) :
    (∀ p, r = .ok p → Held env s' (⟨p, src, c, s.c.disk⟩ :: l)) ∧ ∀ e, r = .throws e → Held env s' l := by
  have hgood := good_ktCreate env msg c src s ih.good
  rw [hr] at hgood
  have key := c72_create hu msg c ih.tidy src
  rw [hr] at key
  cases ho : loadSource env c src s.c.disk with
  | ok e =>
    rw [ho] at key
    obtain ⟨p, s2, h1, h2, h3⟩ := key
    cases h1
    exact ⟨fun p' hp => by cases hp; exact held_added (m := ⟨p, src, c, s.c.disk⟩) ih h3 hgood ho h2, fun e' he => by cases he⟩
  | err e =>
    rw [ho] at key
    obtain ⟨s2, h1, h2, h3⟩ := key
    cases h1
    exact ⟨fun p' hp => by (cases hp), fun e' _ => held_same ih h3 hgood h2.engines⟩
  | panic =>
    rw [ho] at key
    simp only at key
    subst key
    exact ⟨fun p' hp => by (cases hp), fun e' he => by cases he⟩

theorem ktHistory_held {env : CEnv κ} (hu : env.utf8 = utf8OrErr) {msg : Err → List Nat} {conv : KtConv κ τ}
    (hconv : ∀ q x e, conv.of q x ≠ .error e) {s0 s : HMem κ} {l : List HostMade} (h : KtHistory env msg conv s0 s l) :
    Held env s l := by
  have askKept : ∀ {s s' : HMem κ} {l : List HostMade} {c : CCirc} {m : HostMade} {q : Question} {r : HEnd τ}, Held env s l →
      m ∈ l → q.FiltersNotEmpty → ktAsk env msg conv (fun _ => false) c m.address q s = (r, s') → r ≠ .panic → Held env s' l := by
    intro s s' l c m q r ih hm hf hr hp
    obtain ⟨e, hd, -, hh, -, -⟩ := ih.engines m hm
    have hgood := good_ktAsk env msg conv (fun _ => false) c m.address q s ih.good
    obtain ⟨h1, h2⟩ := ktAsk_ends hu msg conv c hf ih.tidy hh
    rw [hr] at hgood h1 h2
    have hk := h2 (fun ho => hp (h1.trans (by rw [ho]; rfl))) fun x e _ => hconv q x e
    exact held_same ih (hk.tidy ih.tidy) hgood hk.engines
  have jsonKept : ∀ {s s' : HMem κ} {l : List HostMade} {c : CCirc} {m : HostMade} {q : Question} {r : HEnd (List Nat)},
      Held env s l → m ∈ l → q.FiltersNotEmpty → ktAskJson env msg (fun _ => false) c m.address q s = (r, s') → r ≠ .panic →
      Held env s' l := by
    intro s s' l c m q r ih hm hf hr hp
    obtain ⟨e, hd, -, hh, -, -⟩ := ih.engines m hm
    have hgood := good_ktAskJson env msg (fun _ => false) c m.address q s ih.good
    obtain ⟨h1, h2⟩ := ktAskJson_ends hu msg c hf ih.tidy hh
    rw [hr] at hgood h1 h2
    have hk := h2 (fun ho => hp (h1.trans (by rw [ho]; rfl))) fun x e _ => by simp
    exact held_same ih (hk.tidy ih.tidy) hgood hk.engines
  induction h with
  | start ht he => exact ⟨ht, fun a h hh => absurd (he a) (by rw [hh]; simp), by simp⟩
  | create h c src hr ih => exact (ktCreate_held hu ih hr).1 _ rfl
  | createThrows h c src hr ih => exact (ktCreate_held hu ih hr).2 _ rfl
  | ask h c hm q hf hr ih => exact askKept ih hm hf hr (by simp)
  | askThrows h c hm q hf hr ih => exact askKept ih hm hf hr (by simp)
  | askJson h c hm q hf hr ih => exact jsonKept ih hm hf hr (by simp)
  | askJsonThrows h c hm q hf hr ih => exact jsonKept ih hm hf hr (by simp)
  | close h c hm hr ih => exact held_closed ih hm hr
  | disk h d ih => exact held_disk ih d

/-! ## Answers -/

theorem held_answers {env : CEnv κ} {s : HMem κ} {l : List HostMade} (h : Held env s l) {m : HostMade} (hm : m ∈ l) :
    ∃ e hd, loadSource env m.circ m.src m.disk = .ok e ∧ UsableEngine s.c m.address hd ∧
      (e.ext.TimeStable → e.ext.NoPanic → ∀ (c : CCirc) {α : Type} (p : Engine → Prog α),
        hd.answer c (p hd.engine) = e.answers env.load.names c.time p) := by
  obtain ⟨e, hd, h1, h2, h3, h4⟩ := h.engines m hm
  refine ⟨e, hd, h1, h2, fun hts hnp c α p => ?_⟩
  have hg := h.good m.address hd h2.2.1
  rw [← h4] at hts hnp
  obtain ⟨g1, g2⟩ := hg hts hnp
  unfold LoadedEngine.answers
  rw [← h4]
  exact ((runCached_spec hts hnp c.time (p hd.engine) hd.caches g1 g2).1).trans (by rw [h3])

/-! ## Answers without null characters can be given to C -/

theorem cString_plain {t : Text} (h : '\x00' ∉ t) : cString t = .ok (encodeUtf8 t) :=
  if_neg (encode_no_byte (d := '\x00') (by decide) h)

theorem cOptString_plain {t : Option Text} (h : ∀ x ∈ t.toList, '\x00' ∉ x) : ∃ b, cOptString t = .ok b := by
  cases t with
  | none => exact ⟨none, rfl⟩
  | some t =>
    refine ⟨some (encodeUtf8 t), ?_⟩
    unfold cOptString
    simp only
    rw [cString_plain (h t (by simp))]
    rfl

theorem cSlotValue_plain {v : OValue} (h : ∀ t ∈ v.texts, '\x00' ∉ t) : ∃ b, cSlotValue v = .ok b := by
  cases v with
  | number | ordinal | duration | percentage => exact ⟨_, rfl⟩
  | custom t | musicAlbum t | musicArtist t | musicTrack t | city t | country t | region t =>
    unfold cSlotValue
    simp only
    rw [cString_plain (h t (by simp [OValue.texts]))]
    exact ⟨_, rfl⟩
  | instantTime t g p =>
    unfold cSlotValue
    simp only
    rw [cString_plain (h t (by simp [OValue.texts]))]
    exact ⟨_, rfl⟩
  | timeInterval a b =>
    obtain ⟨a', ha⟩ := cOptString_plain (t := a) fun x hx => h x (List.mem_append_left _ hx)
    obtain ⟨b', hb⟩ := cOptString_plain (t := b) fun x hx => h x (List.mem_append_right _ hx)
    unfold cSlotValue
    simp only
    rw [ha, hb]
    exact ⟨_, rfl⟩
  | amountOfMoney x p u =>
    obtain ⟨u', hu⟩ := cOptString_plain (t := u) fun x hx => h x hx
    unfold cSlotValue
    simp only
    rw [hu]
    exact ⟨_, rfl⟩
  | temperature x u =>
    obtain ⟨u', hu⟩ := cOptString_plain (t := u) fun x hx => h x hx
    unfold cSlotValue
    simp only
    rw [hu]
    exact ⟨_, rfl⟩

theorem mapOutcome_plain {f : α → Outcome β} {l : List α} (h : ∀ a ∈ l, ∃ b, f a = .ok b) : ∃ bs, mapOutcome f l = .ok bs := by
  induction l with
  | nil => exact ⟨[], rfl⟩
  | cons a l ih =>
    obtain ⟨b, hb⟩ := h a (by simp)
    obtain ⟨bs, hbs⟩ := ih fun x hx => h x (List.mem_cons_of_mem _ hx)
    refine ⟨b :: bs, ?_⟩
    simp only [mapOutcome, hb, hbs]

theorem cIntent_plain {r : IntentResult} (h : ∀ t ∈ r.name.toList, '\x00' ∉ t) : ∃ x, cIntent r = .ok x := by
  obtain ⟨n, hn⟩ := cOptString_plain h
  unfold cIntent
  rw [hn]
  exact ⟨_, rfl⟩

theorem cSlot_plain {meaning : Nat → OValue} {s : Slot} (h : ∀ t ∈ s.texts meaning, '\x00' ∉ t) : ∃ x, cSlot meaning s = .ok x := by
  have hv : ∀ v ∈ s.value :: s.alternatives, ∃ b, cSlotValue (v.meant meaning) = .ok b := fun v hv =>
    cSlotValue_plain fun t ht => h t (by
      simp only [Slot.texts, List.mem_cons]
      exact .inr (.inr (.inr (List.mem_flatMap.2 ⟨v, hv, ht⟩))))
  obtain ⟨v, h1⟩ := hv s.value (by simp)
  obtain ⟨vs, h2⟩ := mapOutcome_plain (f := fun v => cSlotValue (SlotValue.meant meaning v)) fun x hx => hv x (List.mem_cons_of_mem _ hx)
  unfold cSlot
  rw [h1, h2, cString_plain (h s.rawValue (by simp [Slot.texts])), cString_plain (h s.entity (by simp [Slot.texts])),
    cString_plain (h s.slotName (by simp [Slot.texts]))]
  exact ⟨_, rfl⟩

theorem cSlots_plain {meaning : Nat → OValue} {l : List Slot} (h : ∀ t ∈ l.flatMap (Slot.texts meaning), '\x00' ∉ t) :
    ∃ x, mapOutcome (cSlot meaning) l = .ok x :=
  mapOutcome_plain fun s hs => cSlot_plain fun t ht => h t (List.mem_flatMap.2 ⟨s, hs, ht⟩)

theorem cParseResult_plain {meaning : Nat → OValue} {r : ParseResult} (h : ∀ t ∈ r.texts meaning, '\x00' ∉ t) :
    ∃ x, cParseResult meaning r = .ok x := by
  unfold ParseResult.texts at h
  simp only [List.cons_append, List.mem_cons, List.mem_append] at h
  obtain ⟨i, h1⟩ := cIntent_plain fun t ht => h t (.inr (.inl (.inl ht)))
  obtain ⟨l, h2⟩ := cSlots_plain fun t ht => h t (.inr (.inl (.inr ht)))
  obtain ⟨as, h3⟩ := mapOutcome_plain (f := cAlternative meaning) (l := r.alternatives) fun a ha => by
    have ha' : ∀ t ∈ a.intent.name.toList ++ a.slots.flatMap (Slot.texts meaning), '\x00' ∉ t := fun t ht =>
      h t (.inr (.inr (List.mem_flatMap.2 ⟨a, ha, ht⟩)))
    obtain ⟨j, g1⟩ := cIntent_plain fun t ht => ha' t (List.mem_append_left _ ht)
    obtain ⟨k, g2⟩ := cSlots_plain fun t ht => ha' t (List.mem_append_right _ ht)
    unfold cAlternative
    rw [g1, g2]
    exact ⟨_, rfl⟩
  unfold cParseResult
  rw [cString_plain (h r.input (.inl rfl)), h1, h2, h3]
  exact ⟨_, rfl⟩

end Snips
