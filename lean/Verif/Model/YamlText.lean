import Verif.Model.Main

/-! # The text of the configuration file (`cli/receiver/config/config.go:52-60`)

What `yaml.Unmarshal` (`config.go:58`, `gopkg.in/yaml.v2` 2.4.0) makes of the text of a file, for texts written like those in
`/repo/configs`: a line `key: value` or `key:`, nested by indentation with spaces; values in double quotes without escapes, plain
words of small letters and decimal numbers; blank lines and lines with a comment. Of other texts `yamlRead` says nothing
(`none`): they may be YAML or not. -/

namespace Egts

/-- The lines of a text. -/
def splitLines : Bytes → List Bytes
  | [] => [[]]
  | c :: r =>
    if c = 10 then [] :: splitLines r
    else
      match splitLines r with
      | [] => [[c]]
      | l :: ls => (c :: l) :: ls

/-- The plain words of small letters that yaml.v2 does not take for strings (`resolve.go`, `resolveMapList`). -/
def yamlReserved : List Bytes :=
  [go!"y", go!"yes", go!"on", go!"true", go!"n", go!"no", go!"off", go!"false", go!"null"]

/-- Characters of keys. -/
def yamlKeyChar (c : UInt8) : Bool := (97 ≤ c && c ≤ 122) || c = 95

/-- A value that follows a key on its line. -/
def yamlScalar (v : Bytes) : Option Yaml :=
  match v with
  | [] => none
  | 34 :: r => if r.getLast? = some 34 ∧ (34 : UInt8) ∉ r.dropLast ∧ (92 : UInt8) ∉ r.dropLast then some (.str r.dropLast) else none
  | c :: r =>
    if (c :: r).all (fun c => 48 ≤ c && c ≤ 57) then
      if (c = 48 → r = []) ∧ r.length < 18 then some (.int ((c :: r).foldl (fun n c => n * 10 + (c.toNat - 48)) 0 : Nat) (c :: r)) else none
    else if (c :: r).all (fun c => 97 ≤ c && c ≤ 122) ∧ c :: r ∉ yamlReserved then some (.str (c :: r))
    else none

/-- What a line contributes: nothing, or a key at some indentation with or without a value. -/
inductive YamlLine
  | blank
  | entry (indent : Nat) (key : Bytes) (v : Option Yaml)

/-- A line. -/
def yamlLine (l : Bytes) : Option YamlLine :=
  let indent := (l.takeWhile (· = 32)).length
  let r := l.dropWhile (· = 32)
  if r = [] ∨ r.head? = some 35 then some .blank
  else
    let key := r.takeWhile yamlKeyChar
    if key = [] ∨ key ∈ yamlReserved then none
    else
      match r.dropWhile yamlKeyChar with
      | [58] => some (.entry indent key none)
      | 58 :: 32 :: v =>
        match yamlScalar v with
        | some v => some (.entry indent key (some v))
        | none => none
      | _ => none

/-- The lines, without those that contribute nothing. -/
def yamlLines : List Bytes → Option (List (Nat × Bytes × Option Yaml))
  | [] => some []
  | l :: ls =>
    match yamlLine l, yamlLines ls with
    | some .blank, some ts => some ts
    | some (.entry n key v), some ts => some ((n, key, v) :: ts)
    | _, _ => none

/-- The nesting: a key without a value has the entries below it that are indented further, which have to be indented alike. -/
def yamlBuild : List (Nat × Bytes × Option Yaml) → Option (List (Nat × Bytes × Yaml))
  | [] => some []
  | (n, key, v) :: ts =>
    match yamlBuild ts with
    | none => none
    | some es =>
      let below := es.takeWhile (fun e => n < e.1)
      let rest := es.dropWhile (fun e => n < e.1)
      match v, below with
      | some v, [] => some ((n, key, v) :: rest)
      | some _, _ :: _ => none
      | none, [] => some ((n, key, .null) :: rest)
      | none, e :: es => if es.all (fun x => x.1 = e.1) then some ((n, key, .map ((e :: es).map (·.2))) :: rest) else none

/-- The text of a configuration file. -/
def yamlRead (text : Bytes) : Option Yaml :=
  if text.all (fun c => c = 10 || (32 ≤ c && c ≤ 126)) then
    match yamlLines (splitLines text) with
    | none => none
    | some ts =>
      match yamlBuild ts with
      | none => none
      | some [] => some .null
      | some (e :: es) => if (e :: es).all (fun x => x.1 = 0) then some (.map ((e :: es).map (·.2))) else none
  else none

end Egts
