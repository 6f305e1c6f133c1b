import Verif.Model.RiemannMhd

/-!
# Wave speed functions of `mhd_utils.h` that the solvers do not call
-/

namespace EulerKokkos

variable {R : Type} [RealOps R]

/-- `find_speed_alfven(qvar)` and `find_speed_alfven(d, a)`, `/repo/src/shared/mhd_utils.h:133-160` -/
def findSpeedAlfven (d a : R) : R := RealOps.sqrt (a * a / d)

/-- `fast_mhd_speed<NDIM>`, `/repo/src/shared/mhd_utils.h:244-301`: speeds along x, y, z (the 2D
instantiation computes the first two).  The variable `some_vit` is computed once, from the x direction. -/
def fastMhdSpeed (s : Settings R) (q : MS R) : R × R × R :=
  let mag_perp := (q.b * q.b + q.c * q.c) / q.d
  let alfv := q.a * q.a / q.d
  let vit_son := s.gamma0 * q.p / q.d
  let some_vit := mag_perp + alfv + vit_son
  let some_vit2 := some_vit * some_vit
  let delta := fmax (lit 0) (some_vit2 - lit 4 * vit_son * alfv)
  let fx := RealOps.sqrt (lit (1 / 2) * (some_vit + RealOps.sqrt delta))
  let alfv := q.b * q.b / q.d
  let delta := fmax (lit 0) (some_vit2 - lit 4 * vit_son * alfv)
  let fy := RealOps.sqrt (lit (1 / 2) * (some_vit + RealOps.sqrt delta))
  let alfv := q.c * q.c / q.d
  let delta := fmax (lit 0) (some_vit2 - lit 4 * vit_son * alfv)
  let fz := RealOps.sqrt (lit (1 / 2) * (some_vit + RealOps.sqrt delta))
  (fx, fy, fz)

end EulerKokkos
