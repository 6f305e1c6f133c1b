import Verif.Model.Riemann

/-!
# `EulerEquations<2>` and `EulerEquations<3>`

Models `/repo/src/shared/EulerEquations.h`.  The header is not included by any compiled file; it is a
library of flux functions, viscous fluxes and characteristic variables for the Euler system.  It uses the
identifier `IT`, which no file of the repository declares (`/repo/src/shared/enums.h` declares `IX`, `IY`,
`IZ`): the model reads `IT` as `IY`.  A two-dimensional state is `HS` with the field `w`, which
`HydroState2d` does not have; it is returned as zero and never read.  `std::map` of variable names
(lines 73-86 and 467-482) is not modelled.
-/

namespace EulerKokkos.EulerEq

variable {R : Type} [RealOps R]

/-- template parameter `dir` (`IX`, `IT` read as `IY`, `IZ`) -/
inductive Dir | x | y | z
deriving DecidableEq, Repr

/-- `GradTensor` (`/repo/src/shared/EulerEquations.h:54-67,449-470`): components of the velocity gradient;
the two-dimensional tensor has only `ux uy vx vy`. -/
structure Grad (R : Type) where
  ux : R
  uy : R
  uz : R
  vx : R
  vy : R
  vz : R
  wx : R
  wy : R
  wz : R

/-- `Vector` (`/repo/src/shared/EulerEquations.h:70,473`) -/
structure Vec (R : Type) where
  x : R
  y : R
  z : R

/-- `smallp`, `/repo/src/shared/EulerEquations.h:37,432`. -/
def smallp : R := lit (1/10000000)

/-- `EulerEquations<2>::compute_pressure`, `/repo/src/shared/EulerEquations.h:95-108`. -/
def computePressure2 (q : HS R) (gamma0 : R) : R :=
  let ekin := lit (1/2) * (q.u * q.u + q.v * q.v) / q.d
  let pressure := (gamma0 - lit 1) * (q.p - ekin)
  if gtb pressure (smallp * q.d) then pressure else smallp * q.d

/-- `EulerEquations<3>::compute_pressure`, `/repo/src/shared/EulerEquations.h:492-505`. -/
def computePressure3 (q : HS R) (gamma0 : R) : R :=
  let ekin := lit (1/2) * (q.u * q.u + q.v * q.v + q.w * q.w) / q.d
  let pressure := (gamma0 - lit 1) * (q.p - ekin)
  if gtb pressure (smallp * q.d) then pressure else smallp * q.d

/-- `compute_speed_of_sound`, `/repo/src/shared/EulerEquations.h:117-123,514-520` (no square root in the
source). -/
def computeSpeedOfSound (w : HS R) (gamma0 : R) : R := w.p * gamma0 / w.d

/-- `EulerEquations<2>::convert_to_primitive`, `/repo/src/shared/EulerEquations.h:131-151`. -/
def convertToPrimitive2 (q : HS R) (gamma0 : R) : HS R :=
  let rho := fmax q.d (lit (1/100000000))
  let ekin := lit (1/2) * (q.u * q.u + q.v * q.v) / rho
  let pressure := (gamma0 - lit 1) * (q.p - ekin)
  let pressure := fmax pressure (smallp * rho)
  ⟨q.d, pressure, q.u / q.d, q.v / q.d, lit 0⟩

/-- `EulerEquations<3>::convert_to_primitive`, `/repo/src/shared/EulerEquations.h:528-546`. -/
def convertToPrimitive3 (q : HS R) (gamma0 : R) : HS R :=
  let ekin := lit (1/2) * (q.u * q.u + q.v * q.v + q.w * q.w) / q.d
  let pressure := (gamma0 - lit 1) * (q.p - ekin)
  let pressure := fmax pressure (smallp * q.d)
  ⟨q.d, pressure, q.u / q.d, q.v / q.d, q.w / q.d⟩

/-- `EulerEquations<2>::flux_x`, `flux_y`, `/repo/src/shared/EulerEquations.h:161-187`. There is no
`flux_z` in two dimensions. -/
def flux2 (dir : Dir) (q : HS R) (p : R) : HS R :=
  match dir with
  | .x => ⟨q.u, q.u / q.d * (q.p + p), q.u * q.u / q.d + p, q.u * q.v / q.d, lit 0⟩
  | .y => ⟨q.v, q.v / q.d * (q.p + p), q.v * q.u / q.d, q.v * q.v / q.d + p, lit 0⟩
  | .z => ⟨lit 0, lit 0, lit 0, lit 0, lit 0⟩

/-- `EulerEquations<3>::flux_x`, `flux_y`, `flux_z`, `/repo/src/shared/EulerEquations.h:557-615`. -/
def flux3 (dir : Dir) (q : HS R) (p : R) : HS R :=
  match dir with
  | .x => let u := q.u / q.d
          ⟨q.u, u * (q.p + p), u * q.u + p, u * q.v, u * q.w⟩
  | .y => let v := q.v / q.d
          ⟨q.v, v * (q.p + p), v * q.u, v * q.v + p, v * q.w⟩
  | .z => let w := q.w / q.d
          ⟨q.w, w * (q.p + p), w * q.u, w * q.v, w * q.w + p⟩

/-- `EulerEquations<2>::flux_visc_x`, `flux_visc_y`, `/repo/src/shared/EulerEquations.h:201-248`. -/
def fluxVisc2 (dir : Dir) (g : Grad R) (v f : Vec R) (mu : R) : HS R :=
  match dir with
  | .x => let tau_xx := lit 2 * mu * (g.ux - lit (1/2) * (g.ux + g.vy))
          let tau_xy := mu * (g.vx + g.uy)
          ⟨lit 0, v.x * tau_xx + v.y * tau_xy + f.x, tau_xx, tau_xy, lit 0⟩
  | .y => let tau_yy := lit 2 * mu * (g.vy - lit (1/2) * (g.ux + g.vy))
          let tau_xy := mu * (g.vx + g.uy)
          ⟨lit 0, v.x * tau_xy + v.y * tau_yy + f.y, tau_xy, tau_yy, lit 0⟩
  | .z => ⟨lit 0, lit 0, lit 0, lit 0, lit 0⟩

/-- `ONE_THIRD`, `/repo/src/shared/EulerEquations.h:429`: the quotient `1.0 / 3`. -/
def oneThird : R := lit 1 / lit 3

/-- `EulerEquations<3>::flux_visc_x`, `flux_visc_y`, `flux_visc_z`,
`/repo/src/shared/EulerEquations.h:629-706`. -/
def fluxVisc3 (dir : Dir) (g : Grad R) (v f : Vec R) (mu : R) : HS R :=
  match dir with
  | .x => let tau_xx := lit 2 * mu * (g.ux - oneThird * (g.ux + g.vy + g.wz))
          let tau_yx := mu * (g.vx + g.uy)
          let tau_zx := mu * (g.wx + g.uz)
          ⟨lit 0, v.x * tau_xx + v.y * tau_yx + v.z * tau_zx + f.x, tau_xx, tau_yx, tau_zx⟩
  | .y => let tau_xy := mu * (g.uy + g.vx)
          let tau_yy := lit 2 * mu * (g.vy - oneThird * (g.ux + g.vy + g.wz))
          let tau_zy := mu * (g.wy + g.vz)
          ⟨lit 0, v.x * tau_xy + v.y * tau_yy + v.z * tau_zy + f.y, tau_xy, tau_yy, tau_zy⟩
  | .z => let tau_xz := mu * (g.uz + g.wx)
          let tau_yz := mu * (g.vz + g.wy)
          let tau_zz := lit 2 * mu * (g.wz - oneThird * (g.ux + g.vy + g.wz))
          ⟨lit 0, v.x * tau_xz + v.y * tau_yz + v.z * tau_zz + f.z, tau_xz, tau_yz, tau_zz⟩

/-- `EulerEquations<2>::cons_to_charac<dir>`, `/repo/src/shared/EulerEquations.h:284-339`: new value of
`data`.  (The instantiation with `IZ` would leave `tmp` unset; it is modelled as returning `data`.) -/
def consToCharac2 (dir : Dir) (data q : HS R) (c gamma0 : R) : HS R :=
  let u := q.u / q.d
  let v := q.v / q.d
  let c2 := c * c
  let g1 := gamma0 - lit 1
  let beta := lit 1 / lit 2 / c2
  let V2 := u * u + v * v
  let H := lit (1/2) * V2 + c2 / g1
  let phi2 := g1 * H - c2
  match dir with
  | .x =>
    ⟨data.d * beta * (phi2 + u * c) + data.u * (-beta * (g1 * u + c)) + data.v * (-beta * g1 * v)
        + data.p * beta * g1,
     data.d * beta * (phi2 - u * c) + data.u * (-beta * (g1 * u - c)) + data.v * (-beta * g1 * v)
        + data.p * beta * g1,
     data.d * (lit 1 - phi2 / c2) + data.u * g1 * u / c2 + data.v * g1 * v / c2 + data.p * (-g1 / c2),
     data.d * (-v) + data.v,
     lit 0⟩
  | .y =>
    ⟨data.d * beta * (phi2 + v * c) + data.u * (-beta * g1 * u) + data.v * (-beta * (g1 * v + c))
        + data.p * beta * g1,
     data.d * beta * (phi2 - v * c) + data.u * (-beta * g1 * u) + data.v * (-beta * (g1 * v - c))
        + data.p * beta * g1,
     data.d * (lit 1 - phi2 / c2) + data.u * g1 * u / c2 + data.v * g1 * v / c2 + data.p * (-g1 / c2),
     data.d * (-u) + data.u,
     lit 0⟩
  | .z => data

/-- `EulerEquations<2>::charac_to_cons<dir>`, `/repo/src/shared/EulerEquations.h:372-419`. -/
def characToCons2 (dir : Dir) (data q : HS R) (c gamma0 : R) : HS R :=
  let u := q.u / q.d
  let v := q.v / q.d
  let c2 := c * c
  let g1 := gamma0 - lit 1
  let V2 := u * u + v * v
  let H := lit (1/2) * V2 + c2 / g1
  match dir with
  | .x =>
    ⟨data.d + data.u + data.p,
     data.d * (H - u * c) + data.u * V2 / lit 2 + data.v * v + data.p * (H + u * c),
     data.d * (u - c) + data.u * u + data.p * (u + c),
     data.d * v + data.u * v + data.v + data.p * v,
     lit 0⟩
  | .y =>
    ⟨data.d + data.u + data.p,
     data.d * (H - v * c) + data.u * V2 / lit 2 + data.v * u + data.p * (H + v * c),
     data.d * u + data.u * u + data.v + data.p * u,
     data.d * (v - c) + data.u * v + data.p * (v + c),
     lit 0⟩
  | .z => data

/-- `EulerEquations<3>::cons_to_charac<dir>`, `/repo/src/shared/EulerEquations.h:753-826`. -/
def consToCharac3 (dir : Dir) (data q : HS R) (c gamma0 : R) : HS R :=
  let u := q.u / q.d
  let v := q.v / q.d
  let w := q.w / q.d
  let c2 := c * c
  let g1 := gamma0 - lit 1
  let beta := lit 1 / lit 2 / c2
  let V2 := u * u + v * v + w * w
  let H := lit (1/2) * V2 + c2 / g1
  let phi2 := g1 * H - c2
  match dir with
  | .x =>
    ⟨data.d * beta * (phi2 + u * c) + data.u * (-beta * (g1 * u + c)) + data.v * (-beta * g1 * v)
        + data.w * (-beta * g1 * w) + data.p * beta * g1,
     data.d * beta * (phi2 - u * c) + data.u * (-beta * (g1 * u - c)) + data.v * (-beta * g1 * v)
        + data.w * (-beta * g1 * w) + data.p * beta * g1,
     data.d * (lit 1 - phi2 / c2) + data.u * g1 * u / c2 + data.v * g1 * v / c2
        + data.w * g1 * w / c2 + data.p * (-g1 / c2),
     data.d * (-v) + data.v,
     data.d * (-w) + data.w⟩
  | .y =>
    ⟨data.d * beta * (phi2 + v * c) + data.u * (-beta * g1 * u) + data.v * (-beta * (g1 * v + c))
        + data.w * (-beta * g1 * w) + data.p * beta * g1,
     data.d * beta * (phi2 - v * c) + data.u * (-beta * g1 * u) + data.v * (-beta * (g1 * v - c))
        + data.w * (-beta * g1 * w) + data.p * beta * g1,
     data.d * (lit 1 - phi2 / c2) + data.u * g1 * u / c2 + data.v * g1 * v / c2
        + data.w * g1 * w / c2 + data.p * (-g1 / c2),
     data.d * (-u) + data.u,
     data.d * (-w) + data.w⟩
  | .z =>
    ⟨data.d * beta * (phi2 + w * c) + data.u * (-beta * g1 * u) + data.v * (-beta * g1 * v)
        + data.w * (-beta * (g1 * w + c)) + data.p * beta * g1,
     data.d * beta * (phi2 - w * c) + data.u * (-beta * g1 * u) + data.v * (-beta * g1 * v)
        + data.w * (-beta * (g1 * w - c)) + data.p * beta * g1,
     data.d * (lit 1 - phi2 / c2) + data.u * g1 * u / c2 + data.v * g1 * v / c2
        + data.w * g1 * w / c2 + data.p * (-g1 / c2),
     data.d * (-u) + data.u,
     data.d * (-v) + data.v⟩

/-- `EulerEquations<3>::charac_to_cons<dir>`, `/repo/src/shared/EulerEquations.h:856-918`. -/
def characToCons3 (dir : Dir) (data q : HS R) (c gamma0 : R) : HS R :=
  let u := q.u / q.d
  let v := q.v / q.d
  let w := q.w / q.d
  let c2 := c * c
  let g1 := gamma0 - lit 1
  let V2 := u * u + v * v + w * w
  let H := lit (1/2) * V2 + c2 / g1
  match dir with
  | .x =>
    ⟨data.d + data.u + data.p,
     data.d * (H - u * c) + data.u * V2 / lit 2 + data.v * v + data.w * w + data.p * (H + u * c),
     data.d * (u - c) + data.u * u + data.p * (u + c),
     data.d * v + data.u * v + data.v + data.p * v,
     data.d * w + data.u * w + data.w + data.p * w⟩
  | .y =>
    ⟨data.d + data.u + data.p,
     data.d * (H - v * c) + data.u * V2 / lit 2 + data.v * u + data.w * w + data.p * (H + v * c),
     data.d * u + data.u * u + data.v + data.p * u,
     data.d * (v - c) + data.u * v + data.p * (v + c),
     data.d * w + data.u * w + data.w + data.p * w⟩
  | .z =>
    ⟨data.d + data.u + data.p,
     data.d * (H - w * c) + data.u * V2 / lit 2 + data.v * u + data.w * v + data.p * (H + w * c),
     data.d * u + data.u * u + data.v + data.p * u,
     data.d * v + data.u * v + data.w + data.p * v,
     data.d * (w - c) + data.u * w + data.p * (w + c)⟩

end EulerKokkos.EulerEq
