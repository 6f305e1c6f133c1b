import Verif.Spec.Xdmf
import Verif.Props.C65
import Verif.Props.C66

/-!
# C78 — the XDMF index shows every HDF5 file of the run
-/

set_option linter.constructorNameAsVariable false
set_option linter.unusedSectionVars false
set_option linter.unusedSimpArgs false

namespace EulerKokkos
open Spec

variable {R : Type} [RealOps R] {p : Params R}

/-- different numbers give different HDF5 files -/
theorem h5Name_inj {dir pre : List Char} {n m : Nat} (h : h5Name dir pre n = h5Name dir pre m) : n = m := by
  unfold h5Name h5Ref at h
  have h1 := List.append_cancel_left h
  simp only [List.cons.injEq, true_and] at h1
  have h2 := List.append_cancel_left h1
  simp only [List.cons.injEq, true_and] at h2
  exact zeroPad_inj (List.append_cancel_right h2)

/-- every file of the run is on disk in the end -/
theorem h5Written_get {save : Output R → H5File R → Prop} {dir pre : List Char} {os : List (Output R)}
    {disk : Disk (H5File R)} (h : H5Written save dir pre os disk)
    (hnd : (os.map fun o => o.number.toNat).Nodup) {o : Output R} (ho : o ∈ os) :
    ∃ f, disk (h5Name dir pre o.number.toNat) = some f ∧ save o f := by
  induction h with
  | nil => cases ho
  | @snoc os d o' f h hf ih =>
    rw [List.map_append, List.nodup_append] at hnd
    obtain ⟨h1, -, h3⟩ := hnd
    rcases List.mem_append.1 ho with ho | ho
    · obtain ⟨g, hg1, hg2⟩ := ih h1 ho
      refine ⟨g, ?_, hg2⟩
      unfold Disk.write
      rw [if_neg]
      · exact hg1
      · intro e
        exact h3 _ (List.mem_map.2 ⟨o, ho, rfl⟩) o'.number.toNat (by simp) (h5Name_inj e)
    · rw [List.mem_singleton] at ho
      subst ho
      exact ⟨f, by simp [Disk.write], hf⟩

theorem countUp_get {lo hi : Int} {n : Nat} (h : lo + n ≤ hi) : (countUp lo hi)[n]? = some (lo + n) := by
  unfold countUp
  rw [List.getElem?_map, List.getElem?_range (by omega)]
  rfl

theorem countUp_length (lo hi : Int) : (countUp lo hi).length = (hi - lo + 1).toNat := by
  unfold countUp; simp

theorem xdmf_fields (T : Option Topo) (o : H5Options) (hn : UsualFields p) (pre : List Char) (n : Int) :
    (xdmfGrid T o p pre n).attributes =
      (List.range p.nbvar).map (xdmfAttribute (xdmfDims T o p) (h5Ref pre n.toNat)) := by
  unfold UsualFields at hn
  rw [hn]
  unfold xdmfGrid
  cases hm : p.mhdEnabled <;> cases hd : p.dimType <;>
    simp [hm, hd, ID, IP, IU, IV, IW, IA, IB, IC, List.range_succ]

theorem xdmf_shows2 {T : Option Topo} {o : H5Options} (hn : UsualFields p) {disk : Disk (H5File R)}
    {dir pre : List Char} {n : Int} {f : H5File R} (hf : disk (h5Name dir pre n.toNat) = some f) {nx ny : Int}
    (hdims : xdmfDims T o p = [ny, nx]) {G : Int → Int → Nat → R} (hs : Stores2 f p.nbvar nx ny G) :
    GridShows2 disk dir (xdmfGrid T o p pre n) p.nbvar nx ny G := by
  refine ⟨by rw [xdmf_fields T o hn, List.map_map]; rfl, fun v hv => ?_⟩
  obtain ⟨d, h1, h2, h3⟩ := hs v hv
  refine ⟨xdmfAttribute (xdmfDims T o p) (h5Ref pre n.toNat) v, d, ?_, ⟨⟨f, hf, h1⟩, ?_⟩, hdims, h3⟩
  · rw [xdmf_fields T o hn, List.getElem?_map, List.getElem?_range hv]; rfl
  · rw [h2]; exact hdims.symm

theorem xdmf_shows3 {T : Option Topo} {o : H5Options} (hn : UsualFields p) {disk : Disk (H5File R)}
    {dir pre : List Char} {n : Int} {f : H5File R} (hf : disk (h5Name dir pre n.toNat) = some f) {nx ny nz : Int}
    (hdims : xdmfDims T o p = [nz, ny, nx]) {G : Int → Int → Int → Nat → R}
    (hs : Stores3 f p.nbvar nx ny nz G) :
    GridShows3 disk dir (xdmfGrid T o p pre n) p.nbvar nx ny nz G := by
  refine ⟨by rw [xdmf_fields T o hn, List.map_map]; rfl, fun v hv => ?_⟩
  obtain ⟨d, h1, h2, h3⟩ := hs v hv
  refine ⟨xdmfAttribute (xdmfDims T o p) (h5Ref pre n.toNat) v, d, ?_, ⟨⟨f, hf, h1⟩, ?_⟩, hdims, h3⟩
  · rw [xdmf_fields T o hn, List.getElem?_map, List.getElem?_range hv]; rfl
  · rw [h2]; exact hdims.symm

theorem output_number {S : SolverOps R} {m : Mem Arr R} {t : R} {sv : Int} {s' : RunState R}
    (h : runMain p S m t sv s') {o : Output R} (ho : o ∈ s'.outputs) :
    sv ≤ o.number ∧ o.number < s'.times_saved := by
  obtain ⟨h1, h2, -⟩ := C16_gapless h
  have : o.number ∈ s'.outputs.map Output.number := List.mem_map.2 ⟨o, ho, rfl⟩
  rw [h1] at this
  obtain ⟨i, hi, e⟩ := List.mem_map.1 this
  rw [List.mem_range] at hi
  omega

theorem mainXdmf_get {T : Option Topo} {q : H5Options} {pr : Params R} {pre : List Char} {s : RunState R} {n : Int}
    (h0 : 0 ≤ n) (h1 : n < s.times_saved) : (mainXdmf T q pr pre s)[n.toNat]? = some (xdmfGrid T q pr pre n) := by
  unfold mainXdmf writeXdmf
  simp only [Bool.false_eq_true, if_false]
  rw [List.getElem?_map, countUp_get (by omega)]
  simp only [Option.map_some, Option.some.injEq]
  congr 1
  omega

/-! ## The list of grids -/

/-- **C78 (list).** The index written at the end of a run has one grid for each output number from 0 to the
last one, in this order; grid `n` is named after output `n`, and its time is `n`.  The numbers of the outputs of
the run are the last ones. -/
theorem C78_list {S : SolverOps R} {m : Mem Arr R} {t : R} {sv : Int} {s' : RunState R}
    (h : runMain p S m t sv s') (hsv : 0 ≤ sv) (T : Option Topo) (q : H5Options) (pr : Params R)
    (pre : List Char) :
    (mainXdmf T q pr pre s').map XdmfGrid.time = (List.range (sv.toNat + s'.outputs.length)).map Int.ofNat ∧
    (mainXdmf T q pr pre s').map XdmfGrid.name =
      (List.range (sv.toNat + s'.outputs.length)).map (fun n => pre ++ '_' :: zeroPad 7 n) ∧
    s'.outputs.map Output.number = (List.range s'.outputs.length).map (fun i => sv + (i : Nat)) := by
  obtain ⟨h1, h2, -⟩ := C16_gapless h
  have e : mainXdmf T q pr pre s' =
      (List.range (sv.toNat + s'.outputs.length)).map fun n : Nat => xdmfGrid T q pr pre (n : Int) := by
    unfold mainXdmf writeXdmf countUp
    simp only [Bool.false_eq_true, if_false, List.map_map]
    rw [show (s'.times_saved - 1 - 0 + 1).toNat = sv.toNat + s'.outputs.length by omega]
    apply List.map_congr_left
    intro a _
    simp
  refine ⟨?_, ?_, h1⟩
  · rw [e, List.map_map]; rfl
  · rw [e, List.map_map]
    apply List.map_congr_left
    intro a _
    simp [xdmfGrid]

/-! ## Serial runs -/

/-- **C78 (2D).** Every state the solver saved in a serial run is shown by the grid of its number: the grid has
the variables of the solver in order, and each reference, followed in the output directory, leads to a dataset
of the announced extent holding the interior cells. -/
theorem C78_run_2d (lay : Layout) (hw : p.WF) (hd : p.dimType = .two) (hn : UsualFields p)
    {S : SolverOps R} {m : Mem Arr R} {t : R} {sv : Int} {s' : RunState R} (h : runMain p S m t sv s')
    (hsv : 0 ≤ sv) {dir pre : List Char} {disk : Disk (H5File R)}
    (hdisk : H5Written (fun o f => saveH5 lay {} p o.data o.number o.time f) dir pre s'.outputs disk)
    {o : Output R} (ho : o ∈ s'.outputs) :
    ∃ g, (mainXdmf none {} p pre s')[o.number.toNat]? = some g ∧ g.name = pre ++ '_' :: zeroPad 7 o.number.toNat ∧
      GridShows2 disk dir g p.nbvar p.nx p.ny
        fun i j v => o.data ⟨(), i + p.ghostWidth, j + p.ghostWidth, 0, v⟩ := by
  obtain ⟨n1, n2⟩ := output_number h ho
  obtain ⟨f, hf, hs⟩ := h5Written_get hdisk (numbers_nodup h hsv) ho
  refine ⟨_, mainXdmf_get (by omega) n2, rfl, xdmf_shows2 hn hf ?_ (C66_file_2d lay hw hd hn hs).2.2⟩
  simp [xdmfDims, xdmfSizes, hd]

/-- **C78 (3D).** -/
theorem C78_run_3d (lay : Layout) (hw : p.WF) (hd : p.dimType = .three) (hn : UsualFields p)
    {S : SolverOps R} {m : Mem Arr R} {t : R} {sv : Int} {s' : RunState R} (h : runMain p S m t sv s')
    (hsv : 0 ≤ sv) {dir pre : List Char} {disk : Disk (H5File R)}
    (hdisk : H5Written (fun o f => saveH5 lay {} p o.data o.number o.time f) dir pre s'.outputs disk)
    {o : Output R} (ho : o ∈ s'.outputs) :
    ∃ g, (mainXdmf none {} p pre s')[o.number.toNat]? = some g ∧ g.name = pre ++ '_' :: zeroPad 7 o.number.toNat ∧
      GridShows3 disk dir g p.nbvar p.nx p.ny p.nz
        fun i j k v => o.data ⟨(), i + p.ghostWidth, j + p.ghostWidth, k + p.ghostWidth, v⟩ := by
  obtain ⟨n1, n2⟩ := output_number h ho
  obtain ⟨f, hf, hs⟩ := h5Written_get hdisk (numbers_nodup h hsv) ho
  refine ⟨_, mainXdmf_get (by omega) n2, rfl, xdmf_shows3 hn hf ?_ (C66_file_3d lay hw hd hn hs).2.2⟩
  simp [xdmfDims, xdmfSizes, hd]

/-! ## Every option: the announced extents are those of the datasets -/

/-- **C78 (extents, serial).** With or without ghost cells, every dataset of the index has the announced
extent. -/
theorem C78_extents {lay : Layout} {q : H5Options} {U : Loc Unit → R} {n : Int} {t : R} {f : H5File R}
    (hn : UsualFields p) (h : saveH5 lay q p U n t f) (pre : List Char) (k : Int) {a : XdmfAttribute}
    (ha : a ∈ (xdmfGrid none q p pre k).attributes) :
    ∃ d, f.field a.dataset = some d ∧ d.dims = a.dims := by
  rw [xdmf_fields none q hn] at ha
  obtain ⟨v, hv, rfl⟩ := List.mem_map.1 ha
  obtain ⟨d, junk, h1, h2⟩ := h.2.2 v ((mem_h5Fields hn).2 (List.mem_range.1 hv))
  refine ⟨d, h1, ?_⟩
  rw [h2.1]
  unfold xdmfAttribute xdmfDims xdmfSizes logical
  cases hd : p.dimType <;> cases q.ghostIncluded <;> simp

/-- **C78 (extents, distributed).** The same for the file all processes write together, for every combination
of the ghost options and of `reassembleInFile`; a 2D process grid has one layer. -/
theorem C78_extents_mpi {lay : Layout} {q : H5Options} {T : Topo} (hT : p.dimType = .two → T.mz = 1)
    {U : T.Rank → Loc Unit → R} {n : Int} {t : R} {f : H5File R}
    (hn : UsualFields p) (h : saveH5Mpi lay q T p U n t f) (pre : List Char) (k : Int) {a : XdmfAttribute}
    (ha : a ∈ (xdmfGrid (some T) q p pre k).attributes) :
    ∃ d, f.field a.dataset = some d ∧ d.dims = a.dims := by
  rw [xdmf_fields (some T) q hn] at ha
  obtain ⟨v, hv, rfl⟩ := List.mem_map.1 ha
  obtain ⟨d, junk, h1, h2⟩ := h.2.2 v ((mem_h5Fields hn).2 (List.mem_range.1 hv))
  refine ⟨d, h1, ?_⟩
  rw [h2.1]
  unfold xdmfAttribute xdmfDims xdmfSizes logical fileDims stackedDims chunk pieces Topo.size
  cases hd : p.dimType <;> rw [hd] at hT <;> cases q.ghostIncluded <;> cases q.allghostIncluded <;>
    cases q.reassembleInFile <;> simp [mul_comm, mul_left_comm, mul_assoc, hT]

/-! ## Distributed runs -/

/-- **C78 (distributed, 2D).** Every state of the whole domain (the processes hold its blocks, C11) is shown by
the grid of its number. -/
theorem C78_run_mpi_2d (lay : Layout) {T : Topo} (hw : (localParams T p).WF) (hd : p.dimType = .two)
    (hn : UsualFields p) {S : SolverOps R} {m : Mem Arr R} {t : R} {sv : Int} {s' : RunState R}
    (h : runMain (globalParams T p) S m t sv s') (hsv : 0 ≤ sv) {dir pre : List Char} {disk : Disk (H5File R)}
    (hdisk : H5Written (fun g f => ∃ o : T.Rank → Output R, (∀ r, BlockFile2 T p r (o r) g) ∧
      saveH5Mpi lay {} T (localParams T p) (fun r => (o r).data) g.number g.time f) dir pre s'.outputs disk)
    {o : Output R} (ho : o ∈ s'.outputs) :
    ∃ g, (mainXdmf (some T) {} (localParams T p) pre s')[o.number.toNat]? = some g ∧
      g.name = pre ++ '_' :: zeroPad 7 o.number.toNat ∧
      GridShows2 disk dir g p.nbvar (p.nx * T.mx) (p.ny * T.my)
        fun i j v => o.data ⟨(), i + p.ghostWidth, j + p.ghostWidth, 0, v⟩ := by
  obtain ⟨n1, n2⟩ := output_number h ho
  obtain ⟨f, hf, os, hb, hs⟩ := h5Written_get hdisk (numbers_nodup h hsv) ho
  have hn' : UsualFields (localParams T p) := hn
  refine ⟨_, mainXdmf_get (by omega) n2, rfl, xdmf_shows2 (p := localParams T p) hn' hf ?_ ?_⟩
  · have hd' : (localParams T p).dimType = .two := hd
    have e1 : (localParams T p).nx = p.nx := rfl
    have e2 : (localParams T p).ny = p.ny := rfl
    simp [xdmfDims, xdmfSizes, hd', e1, e2, mul_comm]
  · have l1 : (localParams T p).nx = p.nx := rfl
    have l2 : (localParams T p).ny = p.ny := rfl
    have l4 : (localParams T p).ghostWidth = p.ghostWidth := rfl
    refine (C66_file_mpi_2d lay T hw hd hn' (fun r i j v hi hj hv => ?_) hs).2.2
    rw [l1] at hi
    rw [l2] at hj
    have e := (hb r).2.2 (i + p.ghostWidth) (j + p.ghostWidth) v
      ⟨by rw [l4]; omega, by rw [l4, l1]; omega, by rw [l4]; omega, by rw [l4, l2]; omega⟩ hv
    refine e.trans ?_
    simp only [globalCell, l1, l2]
    congr 2 <;> ring

/-- **C78 (distributed, 3D).** -/
theorem C78_run_mpi_3d (lay : Layout) {T : Topo} (hw : (localParams T p).WF) (hd : p.dimType = .three)
    (hn : UsualFields p) {S : SolverOps R} {m : Mem Arr R} {t : R} {sv : Int} {s' : RunState R}
    (h : runMain (globalParams T p) S m t sv s') (hsv : 0 ≤ sv) {dir pre : List Char} {disk : Disk (H5File R)}
    (hdisk : H5Written (fun g f => ∃ o : T.Rank → Output R, (∀ r, BlockFile3 T p r (o r) g) ∧
      saveH5Mpi lay {} T (localParams T p) (fun r => (o r).data) g.number g.time f) dir pre s'.outputs disk)
    {o : Output R} (ho : o ∈ s'.outputs) :
    ∃ g, (mainXdmf (some T) {} (localParams T p) pre s')[o.number.toNat]? = some g ∧
      g.name = pre ++ '_' :: zeroPad 7 o.number.toNat ∧
      GridShows3 disk dir g p.nbvar (p.nx * T.mx) (p.ny * T.my) (p.nz * T.mz)
        fun i j k v => o.data ⟨(), i + p.ghostWidth, j + p.ghostWidth, k + p.ghostWidth, v⟩ := by
  obtain ⟨n1, n2⟩ := output_number h ho
  obtain ⟨f, hf, os, hb, hs⟩ := h5Written_get hdisk (numbers_nodup h hsv) ho
  have hn' : UsualFields (localParams T p) := hn
  have l1 : (localParams T p).nx = p.nx := rfl
  have l2 : (localParams T p).ny = p.ny := rfl
  have l3 : (localParams T p).nz = p.nz := rfl
  have l4 : (localParams T p).ghostWidth = p.ghostWidth := rfl
  refine ⟨_, mainXdmf_get (by omega) n2, rfl, xdmf_shows3 (p := localParams T p) hn' hf ?_ ?_⟩
  · have hd' : (localParams T p).dimType = .three := hd
    simp [xdmfDims, xdmfSizes, hd', l1, l2, l3, mul_comm]
  · refine (C66_file_mpi_3d lay T hw hd hn' (fun r i j k v hi hj hk hv => ?_) hs).2.2
    rw [l1] at hi
    rw [l2] at hj
    rw [l3] at hk
    have e := (hb r).2.2 (i + p.ghostWidth) (j + p.ghostWidth) (k + p.ghostWidth) v
      ⟨⟨by rw [l4]; omega, by rw [l4, l1]; omega⟩, ⟨by rw [l4]; omega, by rw [l4, l2]; omega⟩,
        by rw [l4]; omega, by rw [l4, l3]; omega⟩ hv
    refine e.trans ?_
    simp only [globalCell, l1, l2, l3]
    congr 2 <;> ring

/-! ## What the index does not say -/

/-- **C78 (finding).** The mesh of a grid has as many *nodes* in each direction as the attributes have values,
hence one layer of cells fewer than the solver: the index cannot show the values as values of cells.  The
spacing is 1 and the origin 0 whatever the domain is. -/
theorem C78_mesh (T : Option Topo) (q : H5Options) (p : Params R) (pre : List Char) (n : Int) :
    (∀ a ∈ (xdmfGrid T q p pre n).attributes,
      a.dims = (xdmfGrid T q p pre n).topology ∧ a.dims ≠ cellsOfMesh (xdmfGrid T q p pre n).topology) ∧
    (∀ x ∈ (xdmfGrid T q p pre n).spacing, x = 1) ∧ (∀ x ∈ (xdmfGrid T q p pre n).origin, x = 0) := by
  refine ⟨fun a ha => ?_, fun x hx => List.eq_of_mem_replicate hx, fun x hx => List.eq_of_mem_replicate hx⟩
  obtain ⟨v, -, rfl⟩ := List.mem_map.1 ha
  refine ⟨rfl, ?_⟩
  show xdmfDims T q p ≠ cellsOfMesh (xdmfDims T q p)
  unfold xdmfDims cellsOfMesh
  cases p.dimType <;> simp <;> omega

/-- **C78 (finding).** Asked for the index of a single step, the function lists this step and the next one. -/
theorem C78_single_step (T : Option Topo) (q : H5Options) (p : Params R) (pre : List Char) (n : Int) :
    (writeXdmf T q p pre n true).map XdmfGrid.time = [n, n + 1] := by
  unfold writeXdmf countUp
  simp only [if_true, List.map_map]
  rw [show (n + 1 - n + 1).toNat = 2 by omega]
  simp [List.range_succ, xdmfGrid]

/-- **C78 (finding).** The references hold no directory: a reader follows them from the directory `cwd` the
index was written to, the working directory.  They lead to the files only if this is the output directory. -/
theorem C78_directory {cwd dir pre : List Char} {n : Nat} :
    cwd ++ '/' :: h5Ref pre n = h5Name dir pre n ↔ cwd = dir := by
  refine ⟨fun h => List.append_cancel_right h, fun h => by rw [h]; rfl⟩

/-! ## A complete case -/

theorem h5Written_exists {save : Output R → H5File R → Prop} (hs : ∀ o, ∃ f, save o f) (dir pre : List Char)
    (os : List (Output R)) : ∃ disk, H5Written save dir pre os disk := by
  induction os using List.reverseRecOn with
  | nil => exact ⟨fun _ => none, .nil _⟩
  | append_singleton os o ih =>
    obtain ⟨d, hd⟩ := ih
    obtain ⟨f, hf⟩ := hs o
    exact ⟨_, .snoc hd hf⟩

/-- an MHD run on 4 × 3 cells: it has at least two outputs, and the index shows all of them -/
example (G : Mem Arr ℝ) (jk : JunkM ℝ) (dir pre : List Char) :
    let p := sampleM .dirichlet .periodic 1
    ∃ s' disk, runMain p (mhdOps2 p (-1) jk) G 0 0 s' ∧ 2 ≤ s'.outputs.length ∧
      (mainXdmf none {} p pre s').length = s'.outputs.length ∧
      H5Written (fun o f => saveH5 .left {} p o.data o.number o.time f) dir pre s'.outputs disk ∧
      ∀ o ∈ s'.outputs, ∃ g, (mainXdmf none {} p pre s')[o.number.toNat]? = some g ∧
        GridShows2 disk dir g 8 4 3 fun i j v => o.data ⟨(), i + 3, j + 3, 0, v⟩ := by
  intro p
  have hp : Mhd2 p := sampleM_mhd2 .dirichlet .periodic 1
  have hlog : p.nlog ≠ 0 := by simp [p, sampleM, sampleMHD, rawSample, Params.init]
  obtain ⟨s', hs'⟩ : ∃ s', runMain p (mhdOps2 p (-1) jk) G 0 0 s' := by
    have hT := total_mhd2 hp.wf hp.faces (-1) jk
    obtain ⟨s, hs⟩ := C14_starts (p := p) hT G 0 0
    obtain ⟨_, s', _, _, h⟩ := C14_completes hT hlog hs
    exact ⟨_, h⟩
  obtain ⟨disk, hdisk⟩ := h5Written_exists
    (save := fun o f => saveH5 .left {} p o.data o.number o.time f)
    (fun o => saveH5_exists .left {} p o.data o.number o.time) dir pre s'.outputs
  refine ⟨s', disk, hs', (C16_first_last hs' ?_).1, ?_, hdisk, fun o ho => ?_⟩
  · simp [p, sampleM, sampleMHD, rawSample, Params.init]
  · have := congrArg List.length (C78_list hs' le_rfl none {} p pre).1
    simpa using this
  · obtain ⟨g, h1, -, h2⟩ := C78_run_2d .left hp.wf rfl
      (by simp [UsualFields, p, sampleM, sampleMHD, rawSample, Params.init]) hs' le_rfl hdisk ho
    exact ⟨g, h1, h2⟩

end EulerKokkos
