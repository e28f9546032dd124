import Verif.Spec.Package

/-!
# What the bytes of a packet tell (C111)

`SubData.Told env a c`: of the value `a`, the bytes that are sent for it tell `c`: the values of the fields that are sent, zero in the
others, as in `SubData.Same`; but if the separate ninth bit of a direction is set, they do not tell the eighth.
-/

namespace Egts

def SubData.Told (env : Env) : SubData → SubData → Prop
  | .pos a, c => (SubData.pos { a with direction := a.directionBack }).Same env c
  | x, c => x.Same env c

end Egts
