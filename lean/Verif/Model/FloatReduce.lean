import Verif.Model.Mips
import Verif.Model.FloatArith
import Verif.Model.FloatKmeans
/-!
# The reduction of inner products to distances in `float` arithmetic (include/utils.h:284-357)
-/

namespace Grann

/-- The square root of IEEE-754: the nearest `float`. The number of which the root is taken is `2 u 4^40 / 2^230`, if `x` is `u` units; the bit below those of the
root tells whether it is exact. -/
def F32.sqrt (x : F32) : F32 :=
  if x.isNan then F32.nan
  else if x.mag = 0 then x
  else if x.sign then F32.nan
  else if x.isInf then x
  else
    let n := x.units.natAbs * 2 * 4 ^ 40
    let r := n.sqrt
    F32.pack false (nearestBits (2 * r + if r * r = n then 0 else 1) (2 ^ 116))

/-- The arithmetic of `prepare_base_for_inner_products` (include/utils.h:284-357), with functions for division and square root. -/
def mipsF (ftz : Bool) (dv : F32 → F32 → F32) (sq : F32 → F32) : MOps F32 where
  zero := F32.zero
  one := F32.one
  add := F32.add ftz
  mul := F32.mul ftz
  sub := F32.sub ftz
  div := dv
  sqrt := sq
  lt := F32.lt
  le := F32.le

/-- Multiplication by the reciprocal, which `-Ofast` allows instead of the divisions of include/utils.h:347, 352. -/
def recipDiv (ftz : Bool) (x y : F32) : F32 := F32.mul ftz x (F32.div ftz F32.one y)

end Grann
