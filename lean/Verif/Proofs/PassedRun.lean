import Verif.Model.F64
import Verif.Proofs.Float

/-! # A run of numbers each of which is passed on as the one below (C113) -/

namespace Egts

/-- From 3054279064 (64.0013 degrees of latitude) down, 1433 numbers in a row are passed on as the one below. -/
theorem lat_run : ∀ i : Fin 1433, ((3054279064 - i.val - 1 : Nat) : Rat) ≤ rnd (rnd (decLat (UInt32.ofNat (3054279064 - i.val)) / 90) * 4294967295) ∧
    rnd (rnd (decLat (UInt32.ofNat (3054279064 - i.val)) / 90) * 4294967295) < ((3054279064 - i.val : Nat) : Rat) := by decide +kernel

theorem lon_run : ∀ i : Fin 1433, ((3054279064 - i.val - 1 : Nat) : Rat) ≤ rnd (rnd (decLon (UInt32.ofNat (3054279064 - i.val)) / 180) * 4294967295) ∧
    rnd (rnd (decLon (UInt32.ofNat (3054279064 - i.val)) / 180) * 4294967295) < ((3054279064 - i.val : Nat) : Rat) := by decide +kernel

end Egts
