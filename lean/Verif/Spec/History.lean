import Verif.Spec.Conn
import Verif.Spec.Server

/-!
# What is done with a packet, but for whose it is and when it came (C115)
-/

namespace Egts

/-- A saved record without the identifier and the time of receipt. -/
def NavRecord.anonymous (r : NavRecord) : NavRecord := { r with client := 0, receivedTimestamp := 0 }

/-- An effect without the identifier and the time of receipt. -/
def Effect.anonymous : Effect → Effect
  | .save r => .save r.anonymous
  | e => e

/-- A frame on which `Decode` does not panic, whatever lies behind it in memory. -/
def Safe (env : Env) (f : Bytes) : Prop := ∀ spare, Package.decode env none {} ⟨f, spare⟩ ≠ .panic

end Egts
