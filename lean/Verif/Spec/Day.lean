import Verif.Base.Bytes
/-!
# Days
-/
namespace Verif

/-- The clock shows a time on the day that begins `d` times 24 hours after the beginning of 1970. -/
structure OnDay (d : Nat) (now : I64) : Prop where
  start : d * (24 * 60 * 60) ≤ now.toNat
  stop : now.toNat < (d + 1) * (24 * 60 * 60)
  positive : now.toNat < 2 ^ 63

end Verif
