import Verif.Model.Go

/-! # What a flag string must look like to be accepted -/

namespace Egts

/-- The number a string of `0`s and `1`s spells. -/
def binVal (s : Bytes) : Nat := s.foldl (fun n c => 2 * n + (if c = 49 then 1 else 0)) 0

/-- A non-empty string of `0`s and `1`s that spells a number below 256. -/
def SpellsByte (s : Bytes) : Prop := s ≠ [] ∧ (∀ c ∈ s, c = 48 ∨ c = 49) ∧ binVal s < 256

instance (s : Bytes) : Decidable (SpellsByte s) := by unfold SpellsByte; infer_instance

end Egts
