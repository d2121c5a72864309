import Verif.Model.ResultJson
import Verif.Model.Loading
import Verif.Model.Resources

/-! # The interactive program

`examples/interactive_parsing_cli.rs`.  Not modelled: the logger, the reading of the command line by `clap` (external; the
program starts with the arguments it found), and failures of the standard streams.  `unwrap` of an error ends the program by a
panic. -/

namespace Snips

/-- `serde_json::ser::indent`: two spaces for every level. -/
def indentText : Nat → Text
  | 0 => []
  | n + 1 => ' ' :: ' ' :: indentText n

mutual

/-- `serde_json::to_string_pretty` (external, transcribed; examples/interactive_parsing_cli.rs:66) at a depth. -/
def pretty (num : JsonNumbers) (depth : Nat) : Json → Text
  | .null => "null".toList
  | .bool true => "true".toList
  | .bool false => "false".toList
  | .int n => JsonText.writeInt n
  | .float q => num.show' q
  | .str t => JsonText.writeString t
  | .arr l => if l = [] then ['[', ']'] else '[' :: prettyElements num (depth + 1) l ++ '\n' :: indentText depth ++ [']']
  | .obj l => if l = [] then ['{', '}'] else '{' :: prettyMembers num (depth + 1) l ++ '\n' :: indentText depth ++ ['}']

/-- `begin_array_value` and the value, for every element. -/
def prettyElements (num : JsonNumbers) (depth : Nat) : List Json → Text
  | [] => []
  | [j] => '\n' :: indentText depth ++ pretty num depth j
  | j :: j' :: l => '\n' :: indentText depth ++ pretty num depth j ++ ',' :: prettyElements num depth (j' :: l)

/-- `begin_object_key`, the key, `begin_object_value` and the value, for every entry. -/
def prettyMembers (num : JsonNumbers) (depth : Nat) : List (Text × Json) → Text
  | [] => []
  | [(k, j)] => '\n' :: indentText depth ++ JsonText.writeString k ++ ':' :: ' ' :: pretty num depth j
  | (k, j) :: e :: l =>
    '\n' :: indentText depth ++ JsonText.writeString k ++ ':' :: ' ' :: pretty num depth j ++ ',' :: prettyMembers num depth (e :: l)

end

/-- `char::is_whitespace` (standard library, transcribed). -/
def isWhitespace (c : Char) : Bool :=
  let n := c.toNat
  decide (9 ≤ n ∧ n ≤ 13) || n == 0x20 || n == 0x85 || n == 0xA0 || n == 0x1680 || decide (0x2000 ≤ n ∧ n ≤ 0x200A) ||
    n == 0x2028 || n == 0x2029 || n == 0x202F || n == 0x205F || n == 0x3000

/-- `str::trim` (standard library, transcribed; examples/interactive_parsing_cli.rs:59). -/
def trimText (t : Text) : Text := ((t.dropWhile isWhitespace).reverse.dropWhile isWhitespace).reverse

/-- `usize::from_str` (standard library, transcribed; examples/interactive_parsing_cli.rs:42, :46), on 64 bits. -/
def parseUsize (t : Text) : Option Nat :=
  match decimalValue (dropPlus t) with
  | some n => if n < 18446744073709551616 then some n else none
  | none => none

/-- `Stdin::read_line` (examples/interactive_parsing_cli.rs:56): the bytes up to the first line feed, with it, and the
remaining ones; no bytes at the end of the input. -/
def readLine : List Nat → List Nat × List Nat
  | [] => ([], [])
  | b :: rest => if b = 10 then ([b], rest) else (b :: (readLine rest).1, (readLine rest).2)

/-- What `clap` found on the command line (examples/interactive_parsing_cli.rs:16-39). -/
structure CliArgs where
  dir : Text
  intents : Option Text
  slots : Option Text

/-- `matches.value_of(..).map(|v| v.to_string().parse::<usize>().unwrap()).unwrap_or(0)`
(examples/interactive_parsing_cli.rs:40-47). -/
def cliNumber : Option Text → Outcome Nat
  | none => .ok 0
  | some t =>
    match parseUsize t with
    | some n => .ok n
    | none => .panic

/-- When a round of the loop takes place: the time, and the iteration orders of its hash tables. -/
structure CliMoment where
  time : Nat
  order : HashOrd

/-- The program in its loop: what of the input has not been read, the caches of the engine, and what has been printed. -/
structure CliState where
  input : List Nat
  caches : Caches
  printed : Text

/-- What a round does: the program goes on, or has panicked after printing this. -/
inductive CliEnd where
  | running (s : CliState)
  | panicked (printed : Text)

/-- What has been printed. -/
def CliEnd.printed : CliEnd → Text
  | .running s => s.printed
  | .panicked t => t

/-- One round of the loop (examples/interactive_parsing_cli.rs:52-68).  The answers are given by `e`, with numbers of
alternatives `ni` and `ns`. -/
def cliRound (num : JsonNumbers) (widen : ℚ → ℚ) (meaning : Nat → OValue) (names : KindNames) (e : LoadedEngine) (ni ns : Nat)
    (m : CliMoment) (s : CliState) : CliEnd :=
  let printed := s.printed ++ "> ".toList
  let line := readLine s.input
  match decodeUtf8 line.1 with
  | none => .panicked printed
  | some query =>
    let r := ((e.engine names).parseWithAlternatives m.order (trimText query) none none ni ns).runCached e.ext m.time s.caches
    match r.1 with
    | .ok result => .running ⟨line.2, r.2, printed ++ pretty num 0 (ResultJson.result widen meaning result) ++ ['\n']⟩
    | .err _ => .panicked printed
    | .panic => .panicked printed

/-- The loop, watched for some rounds. -/
def cliLoop (num : JsonNumbers) (widen : ℚ → ℚ) (meaning : Nat → OValue) (names : KindNames) (e : LoadedEngine) (ni ns : Nat)
    (moment : Nat → CliMoment) : Nat → CliState → CliEnd
  | 0, s => .running s
  | n + 1, s =>
    match cliLoop num widen meaning names e ni ns moment n s with
    | .running s' => cliRound num widen meaning names e ni ns (moment n) s'
    | .panicked t => .panicked t

/-- `main` (examples/interactive_parsing_cli.rs:11-70), watched for some rounds of its loop.  `o` is the order of hash tables
during the loading. -/
def cliMain (env : LoadEnv) (num : JsonNumbers) (widen : ℚ → ℚ) (meaning : Nat → OValue) (cwd : Path) (fs : Fs) (o : HashOrd)
    (args : CliArgs) (stdin : List Nat) (moment : Nat → CliMoment) (rounds : Nat) : CliEnd :=
  match cliNumber args.intents with
  | .ok ni =>
    match cliNumber args.slots with
    | .ok ns =>
      let greeting := "\nLoading the nlu engine...\n".toList
      match (loadEngine env o (joinPath cwd args.dir) fs).1 with
      | .ok e => cliLoop num widen meaning env.names e ni ns moment rounds ⟨stdin, Caches.empty 1000, greeting⟩
      | .err _ => .panicked greeting
      | .panic => .panicked greeting
    | .err _ => .panicked []
    | .panic => .panicked []
  | .err _ => .panicked []
  | .panic => .panicked []

end Snips
