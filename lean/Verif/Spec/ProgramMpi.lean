import Verif.Model.ProgramMpi
import Verif.Spec.Decomposition
import Verif.Spec.Program

/-!
# The parameter file of the equivalent serial run
-/

namespace EulerKokkos.Spec

/-- a key other than the numbers of cells and of processes -/
def OtherKey (s n : List Char) : Prop :=
  ∀ k ∈ [("mesh", "nx"), ("mesh", "ny"), ("mesh", "nz"), ("mpi", "mx"), ("mpi", "my"), ("mpi", "mz")],
    Ini.makeKey s n ≠ Ini.makeKey k.1.toList k.2.toList

/-- The configuration `c` of a distributed run gives the numbers of cells of a block, `c'` those of the whole
domain; they agree on everything else, except
that the serial build has no use for the numbers of processes. -/
structure WholeDomain (T : Topo) (c c' : Ini.Reader) : Prop where
  nx : cfgInt c' "mesh" "nx" 1 = cfgInt c "mesh" "nx" 1 * T.mx
  ny : cfgInt c' "mesh" "ny" 1 = cfgInt c "mesh" "ny" 1 * T.my
  nz : cfgInt c' "mesh" "nz" 1 = cfgInt c "mesh" "nz" 1 * T.mz
  same : ∀ s n d, OtherKey s n → c'.getString s n d = c.getString s n d

end EulerKokkos.Spec
