import Verif.Spec.Scheme3D
import Verif.Spec.Euler

/-!
# Specification: symmetries of the Cartesian grid

Exchanging two axes and reflecting an axis, acting on parameters, states, fields and gravity fields.
-/

namespace EulerKokkos.Spec

/-- exchange of the second and third velocity -/
def HSswapVW {R : Type} (q : HS R) : HS R := { q with v := q.w, w := q.v }

/-- the same 3D run with the x and y axes exchanged -/
def swapXYParams (p : Params ℝ) : Params ℝ :=
  { p with
    nx := p.ny, ny := p.nx, imin := p.jmin, jmin := p.imin, imax := p.jmax, jmax := p.imax
    isize := p.jsize, jsize := p.isize
    xmin := p.ymin, ymin := p.xmin, xmax := p.ymax, ymax := p.xmax, dx := p.dy, dy := p.dx
    boundary_type_xmin := p.boundary_type_ymin, boundary_type_ymin := p.boundary_type_xmin
    boundary_type_xmax := p.boundary_type_ymax, boundary_type_ymax := p.boundary_type_xmax }

/-- the same 3D run with the x and z axes exchanged -/
def swapXZParams (p : Params ℝ) : Params ℝ :=
  { p with
    nx := p.nz, nz := p.nx, imin := p.kmin, kmin := p.imin, imax := p.kmax, kmax := p.imax
    isize := p.ksize, ksize := p.isize
    xmin := p.zmin, zmin := p.xmin, xmax := p.zmax, zmax := p.xmax, dx := p.dz, dz := p.dx
    boundary_type_xmin := p.boundary_type_zmin, boundary_type_zmin := p.boundary_type_xmin
    boundary_type_xmax := p.boundary_type_zmax, boundary_type_zmax := p.boundary_type_xmax }

/-- a 3D field with the x and y axes exchanged -/
def swapXY (u : Fld3 ℝ) : Fld3 ℝ := fun i j k => (u j i k).swapUV
/-- a 3D field with the x and z axes exchanged -/
def swapXZ (u : Fld3 ℝ) : Fld3 ℝ := fun i j k => (u k j i).swapUW
/-- a gravity field with the x and y axes exchanged -/
def swapXYG (g : Grav3 ℝ) : Grav3 ℝ := fun i j k => ((g j i k).2.1, (g j i k).1, (g j i k).2.2)
/-- a gravity field with the x and z axes exchanged -/
def swapXZG (g : Grav3 ℝ) : Grav3 ℝ := fun i j k => ((g k j i).2.2, (g k j i).2.1, (g k j i).1)

/-- the same run with the direction of the x axis reversed: the two x boundary conditions change
places (the coordinates `xmin`, `xmax` only label cells; the scheme does not use them) -/
def reverseXParams (p : Params ℝ) : Params ℝ :=
  { p with boundary_type_xmin := p.boundary_type_xmax, boundary_type_xmax := p.boundary_type_xmin }
/-- the same for the y axis -/
def reverseYParams (p : Params ℝ) : Params ℝ :=
  { p with boundary_type_ymin := p.boundary_type_ymax, boundary_type_ymax := p.boundary_type_ymin }
/-- the same for the z axis -/
def reverseZParams (p : Params ℝ) : Params ℝ :=
  { p with boundary_type_zmin := p.boundary_type_zmax, boundary_type_zmax := p.boundary_type_zmin }

/-- the cell index reached by reversing an axis of `n` cells with `gw` ghost cells at both ends -/
def revIdx (n gw i : Int) : Int := 2 * gw + n - 1 - i

/-- a 2D field with the x axis reversed: the x velocity (momentum) changes sign -/
def reverseX2 (p : Params ℝ) (u : Fld2 ℝ) : Fld2 ℝ := fun i j => mirror (u (revIdx p.nx p.ghostWidth i) j)
/-- a 2D gravity field with the x axis reversed -/
def reverseX2G (p : Params ℝ) (g : Grav2 ℝ) : Grav2 ℝ := fun i j =>
  (-(g (revIdx p.nx p.ghostWidth i) j).1, (g (revIdx p.nx p.ghostWidth i) j).2)
/-- a 2D field with the y axis reversed -/
def reverseY2 (p : Params ℝ) (u : Fld2 ℝ) : Fld2 ℝ := fun i j =>
  { u i (revIdx p.ny p.ghostWidth j) with v := -(u i (revIdx p.ny p.ghostWidth j)).v }
/-- a 2D gravity field with the y axis reversed -/
def reverseY2G (p : Params ℝ) (g : Grav2 ℝ) : Grav2 ℝ := fun i j =>
  ((g i (revIdx p.ny p.ghostWidth j)).1, -(g i (revIdx p.ny p.ghostWidth j)).2)

/-- a 3D field with the x axis reversed -/
def reverseX3 (p : Params ℝ) (u : Fld3 ℝ) : Fld3 ℝ := fun i j k =>
  mirror (u (revIdx p.nx p.ghostWidth i) j k)
/-- a 3D gravity field with the x axis reversed -/
def reverseX3G (p : Params ℝ) (g : Grav3 ℝ) : Grav3 ℝ := fun i j k =>
  (-(g (revIdx p.nx p.ghostWidth i) j k).1, (g (revIdx p.nx p.ghostWidth i) j k).2)
/-- a 3D field with the y axis reversed -/
def reverseY3 (p : Params ℝ) (u : Fld3 ℝ) : Fld3 ℝ := fun i j k =>
  { u i (revIdx p.ny p.ghostWidth j) k with v := -(u i (revIdx p.ny p.ghostWidth j) k).v }
/-- a 3D gravity field with the y axis reversed -/
def reverseY3G (p : Params ℝ) (g : Grav3 ℝ) : Grav3 ℝ := fun i j k =>
  ((g i (revIdx p.ny p.ghostWidth j) k).1, -(g i (revIdx p.ny p.ghostWidth j) k).2.1,
    (g i (revIdx p.ny p.ghostWidth j) k).2.2)
/-- a 3D field with the z axis reversed -/
def reverseZ3 (p : Params ℝ) (u : Fld3 ℝ) : Fld3 ℝ := fun i j k =>
  { u i j (revIdx p.nz p.ghostWidth k) with w := -(u i j (revIdx p.nz p.ghostWidth k)).w }
/-- a 3D gravity field with the z axis reversed -/
def reverseZ3G (p : Params ℝ) (g : Grav3 ℝ) : Grav3 ℝ := fun i j k =>
  ((g i j (revIdx p.nz p.ghostWidth k)).1, (g i j (revIdx p.nz p.ghostWidth k)).2.1,
    -(g i j (revIdx p.nz p.ghostWidth k)).2.2)

/-- the second velocity (momentum, momentum flux) changes sign -/
def flipV (q : HS ℝ) : HS ℝ := { q with v := -q.v }
/-- the third velocity changes sign -/
def flipW (q : HS ℝ) : HS ℝ := { q with w := -q.w }

/-- the interior cell reached from the interior cell `c` by moving `a` cells along an axis that closes on
itself after `n` cells; the interior cells are numbered `gw, …, gw+n-1` -/
def rotIdx (n gw a c : Int) : Int := gw + (c - gw + a) % n

/-- the domain may be moved by `a` cells along an axis: both its ends are periodic, or there is nothing
to move -/
def Rotates (bcMin bcMax : BC) (a : Int) : Prop := (bcMin = .periodic ∧ bcMax = .periodic) ∨ a = 0

end EulerKokkos.Spec
