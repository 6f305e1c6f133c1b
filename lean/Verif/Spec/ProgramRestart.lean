import Verif.Spec.Program
import Verif.Spec.Restart

/-!
# Parameter files that restart a run
-/

namespace EulerKokkos.Spec

/-- the file does not mention the key -/
def Absent (c : Ini.Reader) (section_ key : String) : Prop :=
  ∀ d, c.getString section_.toList key.toList d = d

/-- the file switches the option on -/
def SwitchedOn (c : Ini.Reader) (section_ key : String) : Prop :=
  ∃ v ∈ ["1", "yes", "true", "on"], Sets c section_ key v

/-- the file switches the option off -/
def SwitchedOff (c : Ini.Reader) (section_ key : String) : Prop :=
  ∃ v ∈ ["0", "no", "false", "off"], Sets c section_ key v

/-- the option is off, being off unless switched on -/
def OptionOff (c : Ini.Reader) (section_ key : String) : Prop :=
  Absent c section_ key ∨ SwitchedOff c section_ key

/-- the option is on, being on unless switched off -/
def OptionOn (c : Ini.Reader) (section_ key : String) : Prop :=
  Absent c section_ key ∨ SwitchedOn c section_ key

/-- a key other than those that ask for a restart -/
def NotRestartKey (s n : List Char) : Prop :=
  ∀ k ∈ ["restart_enabled", "restart_filename", "restart_reset_totaltime", "restart_upscale"],
    Ini.makeKey s n ≠ Ini.makeKey "run".toList k.toList

/-- HDF5 files, of the interior cells, in one piece -/
structure PlainHdf5 (c : Ini.Reader) : Prop where
  enabled : SwitchedOn c "output" "hdf5_enabled"
  ghosts : OptionOff c "output" "ghostIncluded"
  allghosts : OptionOff c "output" "allghostIncluded"
  pieces : OptionOn c "output" "reassembleInFile"

/-- the parameter file asks for a restart from the HDF5 file `name`, at the resolution of that file -/
structure AsksRestart (c : Ini.Reader) (name : String) : Prop where
  enabled : SwitchedOn c "run" "restart_enabled"
  file : Sets c "run" "restart_filename" name
  ending : ∃ stem : String, name = stem ++ ".h5"
  upscale : OptionOff c "run" "restart_upscale"

/-- The parameter file `c'` is `c` with a restart from the HDF5 file `name` asked for. -/
structure Restarts (c c' : Ini.Reader) (name : String) : Prop where
  same : ∀ s n d, NotRestartKey s n → c'.getString s n d = c.getString s n d
  enabled : SwitchedOn c' "run" "restart_enabled"
  file : Sets c' "run" "restart_filename" name
  ending : ∃ stem : String, name = stem ++ ".h5"
  upscale : OptionOff c' "run" "restart_upscale"

/-- What the user has: an execution of the program on `file` that reached `tend`, one of its files `o`, saved as
the HDF5 file `f`; and, for the restart, the file `f` on disk under the name the parameter file `file'` gives. -/
structure Restarting (F : FloatLib ℝ) (M : MathLib ℝ) (file file' : Option (List Char)) (name : String)
    (e e' : Env ℝ) (A : RunState ℝ) (pre : List (Output ℝ)) (o : Output ℝ) (post : List (Output ℝ))
    (f : H5File ℝ) : Prop where
  identA : e.ident ≤ 0
  identB : e'.ident ≤ 0
  restart : Restarts (Ini.broadcastSerial file) (Ini.broadcastSerial file') name
  plain : PlainHdf5 (Ini.broadcastSerial file)
  up : OptionOff (Ini.broadcastSerial file) "run" "restart_upscale"
  outputs : (hydroParams F (Ini.broadcastSerial file)).nOutput ≠ 0
  run : serialMain F M e file (.finished A)
  reached : (hydroParams F (Ini.broadcastSerial file)).tEnd - 1 / 100000000000000 ≤ A.t
  which : A.outputs = pre ++ o :: post
  saved : saveH5 e.lay (h5Options (Ini.broadcastSerial file)) (hydroParams F (Ini.broadcastSerial file)) o.data o.number
    o.time f
  hdf5 : e'.hdf5 = true
  disk : e'.disk name.toList = some f

end EulerKokkos.Spec
