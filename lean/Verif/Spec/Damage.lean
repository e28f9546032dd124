import Verif.Spec.Conn

/-! # Words for a connection on which one packet is damaged -/

namespace Egts

/-- The surroundings of a connection on which packet number `n` is left out: those of the other packets are the same. -/
def ConnEnv.without (ce : ConnEnv) (n : Nat) : ConnEnv :=
  { clock := fun i => ce.clock (if i < n then i else i + 1), spare := fun i => ce.spare (if i < n then i else i + 1) }

end Egts
