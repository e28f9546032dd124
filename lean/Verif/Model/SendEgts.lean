import Verif.Model.Go

/-! # `tools/send_egts.py`

The script sends the packets of a text file, one per line in hexadecimal digits, and waits for an answer after each. Texts are lists of
bytes (files beyond ASCII are not modelled: their lines are no hexadecimal digits anyway). The command line and the errors of sockets are
not modelled. -/

namespace Egts

/-- `f.readlines()` of a file opened as text (`send_egts.py:22-23`): `\r\n` and `\r` count as `\n`; `cur` is the line begun. -/
def pyLines (cur : Bytes) : Bytes → List Bytes
  | [] => if cur = [] then [] else [cur]
  | 10 :: r => (cur ++ [10]) :: pyLines [] r
  | 13 :: 10 :: r => (cur ++ [10]) :: pyLines [] r
  | 13 :: r => (cur ++ [10]) :: pyLines [] r
  | c :: r => pyLines (cur ++ [c]) r

/-- The value of a hexadecimal digit. -/
def pyHexDigit (c : UInt8) : Option UInt8 :=
  if 48 ≤ c ∧ c ≤ 57 then some (c - 48)
  else if 97 ≤ c ∧ c ≤ 102 then some (c - 87)
  else if 65 ≤ c ∧ c ≤ 70 then some (c - 55)
  else none

/-- ASCII white space. -/
def pySpace (c : UInt8) : Bool := c = 32 ∨ 9 ≤ c ∧ c ≤ 13

/-- `bytes.fromhex` (Python 3.7 and later): `none` for a `ValueError`. -/
def fromHex : Bytes → Option Bytes
  | [] => some []
  | [c] => if pySpace c then some [] else none
  | c :: d :: r =>
    if pySpace c then fromHex (d :: r)
    else
      match pyHexDigit c, pyHexDigit d with
      | some h, some l => (fromHex r).map fun b => (h * 16 + l) :: b
      | _, _ => none

/-- What the script does with its socket; `valueError` is the end by an exception. -/
inductive PyAct
  | send (b : Bytes)
  | recv
  | close
  | valueError
  deriving DecidableEq, Repr

/-- The loop over the lines and what follows (`send_egts.py:23-31`); `rec[:-1]` is `dropLast`. -/
def sendLines : List Bytes → List PyAct
  | [] => [.close]
  | l :: ls =>
    match fromHex l.dropLast with
    | none => [.valueError]
    | some b => .send b :: .recv :: sendLines ls

/-- The script with the contents of the file. -/
def sendEgts (file : Bytes) : List PyAct := sendLines (pyLines [] file)

end Egts
