import Verif.Model.Boundaries
import Verif.Model.InitParams

/-!
# The double Mach reflection border condition and the jet parameters

Models `/repo/src/shared/BoundariesFunctorsWedge.h`, `/repo/src/shared/problems/WedgeParams.h` and
`/repo/src/shared/problems/JetParams.h`.  The repository contains no code launching the functor: the model
launches it the way `SolverBase::make_boundary` launches the ordinary ghost functor
(`/repo/src/shared/SolverBase.cpp:313-379`) and runs the four faces in the order of
`make_boundaries_serial` (`:488-497`).  `real_t` is `double`; `getFloat` converts computed defaults to
`float` (`MathLib.narrow`) and literal ones likewise (`FloatLib.single`).
-/

set_option linter.constructorNameAsVariable false

namespace EulerKokkos

variable {R : Type} [RealOps R]
open Prog (rd wr forN forRange)

/-- `WedgeParams`, `/repo/src/shared/problems/WedgeParams.h:19-36`: front geometry, and the conservative
states behind (`s1`: `rho1, e_tot1, rho_u1, rho_v1, rho_w1`) and ahead (`s2`) of the shock. -/
structure WedgeParams (R : Type) where
  x_f : R
  angle_f : R
  slope_f : R
  shock_speed : R
  delta_x : R
  s1 : HS R
  s2 : HS R

/-- the conservative state the constructors of `WedgeParams` and `JetParams` compute from density, pressure
and velocity (`/repo/src/shared/problems/WedgeParams.h:58-62`, `:73-77`,
`/repo/src/shared/problems/JetParams.h:65-69`, `:81-85`) -/
def bcState (gamma0 rho p u v w : R) : HS R :=
  ⟨rho, p / (gamma0 - lit 1) + lit (1 / 2) * rho * (u * u + v * v + w * w), rho * u, rho * v, rho * w⟩

/-- constructor of `WedgeParams` at time `t`, `/repo/src/shared/problems/WedgeParams.h:38-79`; `tan` is the C
library function -/
def wedgeParams (F : FloatLib R) (M : MathLib R) (tan : R → R) (c : Ini.Reader) (t : R) : WedgeParams R :=
  let gamma0 : R := cfgFloat F c "hydro" "gamma0" (14 / 10)
  let x_f : R := cfgFloat F c "wedge" "front_x" (1 / 10)
  let angle_f : R := cfgFloatD F M c "wedge" "front_angle" (M.pi / lit 3)
  let slope_f := tan angle_f
  let shock_speed : R := cfgFloat F c "wedge" "shock_speed" 10
  let shock_speed := shock_speed / M.cos (M.pi / lit 2 - angle_f)
  let delta_x := shock_speed * t
  let rho1 : R := cfgFloat F c "wedge" "rho1" 8
  let p1 : R := cfgFloat F c "wedge" "p1" (1165 / 10)
  let u1 : R := cfgFloatD F M c "wedge" "u1" (lit (825 / 100) * M.cos (angle_f - M.pi / lit 2))
  let v1 : R := cfgFloatD F M c "wedge" "v1" (lit (825 / 100) * M.sin (angle_f - M.pi / lit 2))
  let w1 : R := cfgFloat F c "wedge" "w1" 0
  let rho2 : R := cfgFloat F c "wedge" "rho2" (14 / 10)
  let p2 : R := cfgFloat F c "wedge" "p2" 1
  let u2 : R := cfgFloat F c "wedge" "u2" 0
  let v2 : R := cfgFloat F c "wedge" "v2" 0
  let w2 : R := cfgFloat F c "wedge" "w2" 0
  { x_f := x_f, angle_f := angle_f, slope_f := slope_f, shock_speed := shock_speed, delta_x := delta_x
    s1 := bcState gamma0 rho1 p1 u1 v1 w1
    s2 := bcState gamma0 rho2 p2 u2 v2 w2 }

/-- `JetParams`, `/repo/src/shared/problems/JetParams.h:25-54`: primitive (`jet`, `bulk`) and conservative
(`s1`, `s2`) states of the jet and of the ambient fluid, position and width of the nozzle -/
structure JetParams (R : Type) where
  jet : HS R
  bulk : HS R
  s1 : HS R
  s2 : HS R
  pos_jet : R
  width_jet : R

/-- constructor, `/repo/src/shared/problems/JetParams.h:56-87` -/
def jetParams (F : FloatLib R) (M : MathLib R) (c : Ini.Reader) : JetParams R :=
  let gamma0 : R := cfgFloatD F M c "hydro" "gamma0" (lit 5 / lit 3)
  let rho_jet : R := cfgFloat F c "jet" "rho_jet" 5
  let u_jet : R := cfgFloat F c "jet" "u_jet" 800
  let v_jet : R := cfgFloat F c "jet" "v_jet" 0
  let w_jet : R := cfgFloat F c "jet" "w_jet" 0
  let p_jet : R := cfgFloat F c "jet" "p_jet" (4127 / 10000)
  let pos_jet : R := cfgFloat F c "jet" "pos_jet" 0
  let width_jet : R := cfgFloat F c "jet" "width_jet" (1 / 10)
  let rho_bulk : R := cfgFloat F c "jet" "rho_bulk" (1 / 2)
  let u_bulk : R := cfgFloat F c "jet" "u_bulk" 0
  let v_bulk : R := cfgFloat F c "jet" "v_bulk" 0
  let w_bulk : R := cfgFloat F c "jet" "w_bulk" 0
  let p_bulk : R := cfgFloat F c "jet" "p_bulk" (4127 / 10000)
  { jet := ⟨rho_jet, p_jet, u_jet, v_jet, w_jet⟩
    bulk := ⟨rho_bulk, p_bulk, u_bulk, v_bulk, w_bulk⟩
    s1 := bcState gamma0 rho_jet p_jet u_jet v_jet w_jet
    s2 := bcState gamma0 rho_bulk p_bulk u_bulk v_bulk w_bulk
    pos_jet := pos_jet, width_jet := width_jet }

/-- `for (iVar) Udata(i, j, iVar) = Udata(i0, j0, iVar)`, `/repo/src/shared/BoundariesFunctorsWedge.h:92-94`,
`:172-174` -/
def wedgeCopy (nbvar : Nat) (U : Arr) (i j i0 j0 : Int) : Prog Arr R Unit :=
  forN nbvar fun v => do
    let x ← rd ⟨U, i0, j0, 0, v⟩
    wr ⟨U, i, j, 0, v⟩ x

/-- the local `sign` of the reflecting part of the bottom border: set to `-1` when the loop reaches `IV`, and
not set back (`/repo/src/shared/BoundariesFunctorsWedge.h:129-136`) -/
def wedgeSign (v : Nat) : R := if IV ≤ v then lit (-1) else lit 1

/-- cell centre abscissa, `/repo/src/shared/BoundariesFunctorsWedge.h:110`, `:155` (no MPI offset) -/
def wedgeX (p : Params R) (i : Int) : R := p.xmin + p.dx / lit 2 + intLit (i - p.ghostWidth) * p.dx

/-- cell centre ordinate, `/repo/src/shared/BoundariesFunctorsWedge.h:156` -/
def wedgeY (p : Params R) (j : Int) : R := p.ymin + p.dy / lit 2 + intLit (j - p.ghostWidth) * p.dy

/-- `MakeBoundariesFunctor2D_wedge<face>::operator()`, `/repo/src/shared/BoundariesFunctorsWedge.h:32-179` -/
def makeBoundaryWedge (p : Params R) (w : WedgeParams R) (U : Arr) (f : Face) (index : Int) :
    Prog Arr R Unit :=
  let gw := p.ghostWidth
  match f with
  | .xmin =>
    let j := index.tdiv gw
    let i := index - j * gw
    if j ≥ p.jmin ∧ j ≤ p.jmax ∧ i ≥ 0 ∧ i < gw then putHS2 U i j w.s1 else pure ()
  | .xmax =>
    let j := index.tdiv gw
    let i := index - j * gw
    let i := i + (p.nx + gw)
    if j ≥ p.jmin ∧ j ≤ p.jmax ∧ i ≥ p.nx + gw ∧ i ≤ p.nx + 2 * gw - 1 then
      wedgeCopy p.nbvar U i j (p.nx + gw - 1) j
    else pure ()
  | .ymin =>
    let i := index.tdiv gw
    let j := index - i * gw
    let x := wedgeX p i
    if i ≥ p.imin ∧ i ≤ p.imax ∧ j ≥ 0 ∧ j < gw then
      if RealOps.lt x w.x_f then putHS2 U i j w.s1
      else copyVars p.nbvar U (i, j, 0) (i, 2 * gw - 1 - j, 0) wedgeSign
    else pure ()
  | .ymax =>
    let i := index.tdiv gw
    let j := index - i * gw
    let j := j + (p.ny + gw)
    let x := wedgeX p i
    let y := wedgeY p j
    if i ≥ p.imin ∧ i ≤ p.imax ∧ j ≥ p.ny + gw ∧ j ≤ p.ny + 2 * gw - 1 then
      if RealOps.lt x (w.x_f + y / w.slope_f + w.delta_x) then putHS2 U i j w.s1
      else wedgeCopy p.nbvar U i j i (p.ny + gw - 1)
    else pure ()
  | .zmin => pure ()
  | .zmax => pure ()

/-- the functor over the index range of `SolverBase::make_boundary`, `/repo/src/shared/SolverBase.cpp:313-379` -/
def wedgeBoundaryK (p : Params R) (w : WedgeParams R) (U : Arr) (f : Face) : Kern Arr R :=
  forRange (range1 (nbIter2 p)) (makeBoundaryWedge p w U f)

/-- the four faces in the order of `make_boundaries_serial`, `/repo/src/shared/SolverBase.cpp:488-497` -/
def wedgeBoundaries (p : Params R) (w : WedgeParams R) (U : Arr) : Kern Arr R :=
  Kern.seqs [wedgeBoundaryK p w U .xmin, wedgeBoundaryK p w U .xmax,
    wedgeBoundaryK p w U .ymin, wedgeBoundaryK p w U .ymax]

end EulerKokkos
