import Verif.Model.Record

/-! # Specification vocabulary: moments and the seconds they lie in -/

namespace Egts

/-- The number of the second in which a moment lies, counted from 2010-01-01 00:00:00 UTC (negative before). -/
def secondOf (t : GoTime) : Int := (t - timeOffset) / 1000000000

/-- The nanoseconds of that second that have passed. -/
def nanosOf (t : GoTime) : Int := (t - timeOffset) % 1000000000

/-- The beginning of the second with a number. -/
def startOf (s : Int) : GoTime := timeOffset + s * 1000000000

end Egts
