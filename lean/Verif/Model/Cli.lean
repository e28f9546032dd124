import Verif.Model.Gen
import Verif.Model.Main

/-!
# Command lines

The package `flag` of Go 1.18 (which the `Dockerfile` builds with), as far as `cli/packet-gen/main.go` and `cli/receiver/main.go` use it:
`flag.Parse` with string, int and float64 options. `strconv.ParseInt(s, 0, 64)` is modelled exactly; `strconv.ParseFloat` is a
parameter.
-/

namespace Egts

/-- How an argument begins (`flag.FlagSet.parseOne`). -/
inductive ArgKind
  /-- not an option: shorter than two bytes, or not beginning with `-` -/
  | stop
  /-- `--` -/
  | dashes
  /-- `bad flag syntax` -/
  | bad
  /-- an option, and its value if there is a `=` -/
  | option (name : Bytes) (value : Option Bytes)
  deriving DecidableEq, Repr

/-- `for i := 1; i < len(name); i++ { if name[i] == '=' …` of `parseOne`: `acc` is what has been gone through. -/
def splitEq (acc : Bytes) : Bytes → Bytes × Option Bytes
  | [] => (acc, none)
  | c :: r => if c = 61 ∧ acc ≠ [] then (acc, some r) else splitEq (acc ++ [c]) r

/-- The beginning of `parseOne`. -/
def argKind (s : Bytes) : ArgKind :=
  match s with
  | 45 :: 45 :: [] => .dashes
  | 45 :: c :: t =>
    let name := if c = 45 then t else c :: t
    match name with
    | [] => .bad
    | n0 :: _ =>
      if n0 = 45 ∨ n0 = 61 then .bad
      else
        let (n, v) := splitEq [] name
        .option n v
  | _ => .stop

/-- Why `Parse` ends the program: `ErrHelp` with exit code 0, any other error with exit code 2 (`flag.ExitOnError`). -/
inductive FlagErr
  | help
  | usage
  deriving DecidableEq, Repr

/-- `FlagSet.Parse`: the settings `s` changed by the options in turn, and the arguments that remain. `formal` is the map of defined
options: what setting one to a value does, `none` if the value is invalid. -/
def flagParse {S : Type} (formal : Bytes → Option (Bytes → S → Option S)) : List Bytes → S → Except FlagErr (S × List Bytes)
  | [], s => .ok (s, [])
  | a :: rest, s =>
    match argKind a with
    | .stop => .ok (s, a :: rest)
    | .dashes => .ok (s, rest)
    | .bad => .error .usage
    | .option name value =>
      match formal name with
      | none => .error (if name = go!"help" ∨ name = go!"h" then .help else .usage)
      | some set =>
        match value with
        | some v =>
          match set v s with
          | none => .error .usage
          | some s => flagParse formal rest s
        | none =>
          match rest with
          | [] => .error .usage
          | v :: rest =>
            match set v s with
            | none => .error .usage
            | some s => flagParse formal rest s

/-! ## `strconv.ParseInt(s, 0, 64)` -/

/-- `lower(c)` of `strconv`: `c | ('x' - 'X')`. -/
def lowerByte (c : UInt8) : UInt8 := c ||| 32

/-- The value of a digit: `0`-`9`, then letters. -/
def digitVal (c : UInt8) : Option Nat :=
  if 48 ≤ c ∧ c ≤ 57 then some (c - 48).toNat
  else if 97 ≤ lowerByte c ∧ lowerByte c ≤ 122 then some ((lowerByte c - 97).toNat + 10)
  else none

/-- The loop of `strconv.ParseUint` with base 0; underscores are skipped. Values of 2^64 and more are a range error. -/
def uintLoop (base : Nat) : Nat → Bytes → Option Nat
  | n, [] => some n
  | n, c :: r =>
    if c = 95 then uintLoop base n r
    else
      match digitVal c with
      | none => none
      | some d => if base ≤ d then none else if 2 ^ 64 ≤ n * base + d then none else uintLoop base (n * base + d) r

/-- The last character `underscoreOK` has seen. -/
inductive Saw
  | start | digit | underscore | other
  deriving DecidableEq, Repr

/-- The loop of `strconv.underscoreOK`. -/
def underscoreLoop (hex : Bool) : Saw → Bytes → Bool
  | saw, [] => saw ≠ .underscore
  | saw, c :: r =>
    if (48 ≤ c ∧ c ≤ 57) ∨ (hex ∧ 97 ≤ lowerByte c ∧ lowerByte c ≤ 102) then underscoreLoop hex .digit r
    else if c = 95 then if saw = .digit then underscoreLoop hex .underscore r else false
    else if saw = .underscore then false
    else underscoreLoop hex .other r

/-- `strconv.underscoreOK` of a text without a sign. -/
def underscoreOK (s : Bytes) : Bool :=
  match s with
  | 48 :: c :: r =>
    if lowerByte c = 98 ∨ lowerByte c = 111 ∨ lowerByte c = 120 then underscoreLoop (lowerByte c = 120) .digit r
    else underscoreLoop false .start s
  | _ => underscoreLoop false .start s

/-- The base and the digits: `0b`, `0o` and `0x` if a digit follows, `0` for octal. -/
def uintBase (s : Bytes) : Nat × Bytes :=
  match s with
  | 48 :: c :: d :: r =>
    if lowerByte c = 98 then (2, d :: r)
    else if lowerByte c = 111 then (8, d :: r)
    else if lowerByte c = 120 then (16, d :: r)
    else (8, c :: d :: r)
  | 48 :: r => (8, r)
  | _ => (10, s)

/-- `strconv.ParseUint(s, 0, 64)`. -/
def parseUint0 (s : Bytes) : Option Nat :=
  if s = [] then none
  else
    match uintLoop (uintBase s).1 0 (uintBase s).2 with
    | none => none
    | some n => if 95 ∈ s ∧ ¬ underscoreOK s then none else some n

/-- `strconv.ParseInt(s, 0, 64)`. -/
def parseInt0 (s : Bytes) : Option Int :=
  match s with
  | [] => none
  | c :: r =>
    if c = 45 then
      match parseUint0 r with
      | none => none
      | some n => if 2 ^ 63 < n then none else some (-n)
    else
      match parseUint0 (if c = 43 then r else s) with
      | none => none
      | some n => if 2 ^ 63 ≤ n then none else some n

/-! ## packet-gen -/

/-- The values of the options and their defaults (`packet-gen/main.go:46-62`). -/
structure GenOpts where
  args : GenArgs := {}
  server : Bytes := go!"localhost:5555"

/-- The defined options (`packet-gen/main.go:55-62`). `pf` is `strconv.ParseFloat(·, 64)`. -/
def genFormal (pf : Bytes → Option F64) (name : Bytes) : Option (Bytes → GenOpts → Option GenOpts) :=
  if name = go!"pid" then some fun v o => (parseInt0 v).map fun n => { o with args := { o.args with pid := n } }
  else if name = go!"oid" then some fun v o => (parseInt0 v).map fun n => { o with args := { o.args with oid := n } }
  else if name = go!"time" then some fun v o => some { o with args := { o.args with ts := v } }
  else if name = go!"liquid" then some fun v o => (parseInt0 v).map fun n => { o with args := { o.args with liqLvl := n } }
  else if name = go!"lat" then some fun v o => (pf v).map fun x => { o with args := { o.args with lat := x } }
  else if name = go!"lon" then some fun v o => (pf v).map fun x => { o with args := { o.args with lon := x } }
  else if name = go!"timeout" then some fun v o => (parseInt0 v).map fun n => { o with args := { o.args with ackTimeout := n } }
  else if name = go!"server" then some fun v o => some { o with server := v }
  else none

/-- How a run of a program ends that may not get beyond its command line. -/
inductive CliEnd (α : Type)
  | flags (e : FlagErr)
  | main (e : α)
  deriving DecidableEq, Repr

/-- packet-gen with its command line (`packet-gen/main.go:44-225`); the arguments that remain are ignored. `net` is the network at each
address. -/
def packetGen (env : Env) (pt : Bytes → Option GoTime) (pf : Bytes → Option F64) (argv : List Bytes) (net : Bytes → GenNet) :
    Option Bytes × CliEnd GenEnd :=
  match flagParse (genFormal pf) argv {} with
  | .error e => (none, .flags e)
  | .ok (o, _) => let (out, e) := genMain env pt o.args (net o.server); (out, .main e)

/-! ## receiver -/

/-- The only option of the receiver (`receiver/main.go:12-14`). -/
def receiverFormal (name : Bytes) : Option (Bytes → Bytes → Option Bytes) :=
  if name = go!"c" then some fun v _ => some v else none

/-- The receiver with its command line (`receiver/main.go:11-43`). -/
def receiverCli {W E : Type} (lib : Lib W E) (order : List (Bytes × Params) → List (Bytes × Params)) (fs : Bytes → Option Yaml)
    (argv : List Bytes) (w : W) : CliEnd (Start W E) :=
  match flagParse receiverFormal argv [] with
  | .error e => .flags e
  | .ok (path, _) => .main (receiverMain lib order fs path w)

end Egts
