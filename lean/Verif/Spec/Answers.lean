import Verif.Spec.Conn

/-! # How much is written on a connection (C110) -/

namespace Egts

/-- The number of bytes written. -/
def bytesWritten (effs : List Effect) : Nat := (writes effs).flatten.length

end Egts
