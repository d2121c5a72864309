import Verif.Model.TaggerShared

/-! Vocabulary for statements about threads that share a slot filler. -/

namespace Snips

/-- The tagger without state that the rest of the model uses: features are given to it with each request. -/
def CrfLib.stateless (lib : CrfLib) : Tagger where
  tag f := lib.set f >>= fun _ => lib.viterbi f
  labels := lib.labels
  probability f labels := lib.set f >>= fun _ => lib.score f labels

/-- The answer to a call made by a single thread, according to the model of the slot filler without state. -/
def FillerCall.alone (codec : TagCodec) (f : SlotFiller) (w : World) : FillerCall → Outcome FillerAnswer
  | .slots text => (f.getSlots codec text).run w >>= fun l => .ok (.slots l)
  | .probability toks tags => (f.getSequenceProbability codec toks tags).run w >>= fun p => .ok (.probability p)

/-- The calls on one slot filler, all about to start. -/
def fillerStart (codec : TagCodec) (f : SlotFiller) (c : Caches) (current : Option TokenFeatures)
    (calls : List (Nat × FillerCall)) : TSystem FillerAnswer :=
  TSystem.start c current (calls.map fun p => (p.1, p.2.code codec f))

/-- Whether a thread holds the lock of the tagger. -/
def TThread.holds {α : Type} : TThread α → Bool
  | .holding _ => true
  | _ => false

end Snips
