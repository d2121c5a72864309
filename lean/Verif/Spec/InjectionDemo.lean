import Verif.Spec.Injection
import Verif.Spec.LoadingDemo

/-! A concrete engine directory and gazetteer parser library used to show that hypotheses about injection are
satisfiable.  A parser is the number of values it knows. -/

namespace Snips

/-- The library of the examples: the parser is in the file `v` of its directory. -/
def demoInjectEnv : InjectEnv Nat where
  load := demoLoadEnv
  builtinMeta b := if b = [30] then .ok (some "gaz".toList) else if b = [33] then .ok none else .err (.external 310)
  gazetteerMeta b :=
    if b = [31] then .ok ⟨[("artist".toList, "p0".toList)]⟩
    else if b = [32] then .ok ⟨[("drink".toList, "p1".toList)]⟩ else .err (.external 310)
  language t := if t = "en".toList then .ok fun w => (w.splitOnP (· = ' ')) else .err (.external 311)
  isGazetteerKind t := t = "artist".toList
  isGrammarKind t := t = "number".toList
  lower := id
  fromFolder fs := match fs ["v".toList] with
    | some (.file [n]) => .ok n
    | _ => .err (.external 312)
  injectNewValues n vs _ fv := if vs.length > 3 then .err (.external 313) else .ok (if fv then vs.length else n + vs.length)
  dump n := fun q => if q = ["v".toList] then some (.file [n]) else if q = [] then some .dir else none

/-- The files of the example. -/
def demoInjectFiles : List (List String × List Nat) :=
  demoEngineFiles 1 ++
  [(["builtin", "metadata.json"], [30]), (["builtin", "gaz", "metadata.json"], [31]),
   (["builtin", "gaz", "p0", "v"], [5]), (["custom", "parser", "metadata.json"], [32]),
   (["custom", "parser", "p1", "v"], [7])]

/-- A disk with the example in the directory `/m` and nothing else. -/
def demoInjectFs : Fs := fun p =>
  (demoInjectFiles.find? fun f => p = "m".toList :: f.1.map String.toList).map fun f => .file f.2

/-- A request for one builtin and one custom entity. -/
def demoInjector : Injector :=
  (((Injector.new ["m".toList]).addValue "artist".toList "Abba".toList).addValue "drink".toList
    "green tea".toList).addValue "drink".toList "mate".toList

/-- What the directory of the example says. -/
def demoDesc : EngineDesc where
  words w := w.splitOnP (· = ' ')
  customEntities := ["drink".toList]
  usage := .withoutStems
  customParsers := [("drink".toList, ["m", "custom", "parser", "p1"].map String.toList)]
  builtinParsers := [("artist".toList, ["m", "builtin", "gaz", "p0"].map String.toList)]

end Snips
