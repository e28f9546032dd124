import Verif.Spec.Connectors
import Verif.Model.Main

/-! # Specification vocabulary for the configuration and the start of the receiver -/

namespace Egts

/-- The value of a key of a YAML mapping: the last one, if it is given more than once. -/
def lastOf (ms : List (Bytes × Yaml)) (key : Bytes) : Option Yaml := ((ms.filter (fun x => x.1 = key)).getLast?).map (·.2)

/-- The node can be read as this text: it is a scalar that is written so. -/
def Yaml.IsText (v : Yaml) (x : Bytes) : Prop := v = .str x ∨ (∃ n, v = .int n x) ∨ (∃ q, v = .float q x) ∨ v = .other x ∨ v = .null x

/-- There is nothing in the node. -/
def Yaml.IsNothing (v : Yaml) : Prop := ∃ text, v = .null text

/-- The node can be read as this number of type `int`: an integer, a number of which `n` is the integer part, or nothing. -/
def Yaml.IsNumber (v : Yaml) (n : Int) : Prop :=
  (∃ text, v = .int n text ∧ -2 ^ 63 ≤ n ∧ n < 2 ^ 63) ∨
  (∃ q text, v = .float q text ∧ -2 ^ 63 ≤ q ∧ q < 2 ^ 63 ∧ (0 ≤ q ∧ n ≤ q ∧ q < n + 1 ∨ q < 0 ∧ q ≤ n ∧ n < q + 1)) ∨
  v.IsNothing ∧ n = 0

/-- The node can be read as settings of a storage: a mapping of texts, or nothing at all. -/
def Yaml.IsParams (v : Yaml) (p : Params) : Prop :=
  v.IsNothing ∧ p = none ∨
  ∃ ps q, v = .map ps ∧ p = some q ∧ ∀ key, (lastOf ps key = none → lookup q key = none) ∧
    ∀ u, lastOf ps key = some u → ∃ x, lookup q key = some x ∧ u.IsText x

/-- A value of the kind that the key demands. -/
def WellTyped (key : Bytes) (v : Yaml) : Prop :=
  (key = go!"host" ∨ key = go!"port" ∨ key = go!"log_level" → ∃ x, v.IsText x) ∧
  (key = go!"conn_ttl" → ∃ n, v.IsNumber n) ∧
  (key = go!"storage" → v.IsNothing ∨ ∃ ss, v = .map ss ∧ ∀ s ∈ ss, s.2.IsNothing ∨ ∃ ps, s.2 = .map ps ∧ ∀ p ∈ ps, ∃ x, p.2.IsText x)

/-- Whether entries of level Info are printed at a log level of the configuration file. -/
def Prints (logLevel : Bytes) : Prop := logLevel ≠ go!"WARN" ∧ logLevel ≠ go!"ERROR"

instance (l : Bytes) : Decidable (Prints l) := inferInstanceAs (Decidable (_ ∧ _))

/-- What is due for a record: the storages, and at the end the log if it is in use. -/
def duesWithLog (cfg : List (Bytes × Params)) (log : Bool) (r : NavRecord) : List (List Bytes × Option Bytes) :=
  dues cfg r ++ if log then [([go!"log"], some r.indented)] else []

end Egts
