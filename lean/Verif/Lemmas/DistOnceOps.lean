import Verif.Lemmas.DistOnce
import Verif.Lemmas.Halo2

/-!
# The four solvers of the MPI build have one result
-/

set_option linter.constructorNameAsVariable false
set_option linter.unusedSectionVars false
set_option linter.unusedSimpArgs false

namespace EulerKokkos
open Spec Spmd

variable {R : Type} [RealOps R] {num sg : R → Prop} {T : Topo} {p : Params R} {lay : Layout}

theorem halo2_total (hw : p.WF) (hf : Faces2Ok p) (mhd : Bool) {U : Arr} (hU : NotBuf U) :
    ∀ ph ∈ makeBoundariesMpi2 lay mhd T p U, OncePhase ph := by
  obtain ⟨f1, f2, f3, f4⟩ := hf
  intro ph hph
  simp only [makeBoundariesMpi2, exchangeDir2, barrier, List.cons_append, List.nil_append, List.mem_cons,
    List.not_mem_nil, or_false] at hph
  rcases hph with rfl | rfl | rfl | rfl | rfl | rfl | rfl | rfl | rfl | rfl <;> try trivial
  · exact fun _ => det_seq (packK2_is lay hw U .xmin (hU _).1 trivial).det
      (packK2_is lay hw U .xmax (hU _).1 trivial).det
  · exact fun r => det_seq (fillFace2_is hw lay mhd T hU .xmin trivial f1 r).det
      (fillFace2_is hw lay mhd T hU .xmax trivial f2 r).det
  · exact fun _ => det_seq (packK2_is lay hw U .ymin (hU _).1 trivial).det
      (packK2_is lay hw U .ymax (hU _).1 trivial).det
  · exact fun r => det_seq (fillFace2_is hw lay mhd T hU .ymin trivial f3 r).det
      (fillFace2_is hw lay mhd T hU .ymax trivial f4 r).det

theorem halo3_total (hw : p.WF) (hf : Faces3Ok p) (mhd : Bool) {U : Arr} (hU : NotBuf U) :
    ∀ ph ∈ makeBoundariesMpi3 lay mhd T p U, OncePhase ph := by
  obtain ⟨⟨f1, f2, f3, f4⟩, f5, f6⟩ := hf
  intro ph hph
  simp only [makeBoundariesMpi3, exchangeDir3, barrier, List.cons_append, List.nil_append, List.mem_cons,
    List.not_mem_nil, or_false] at hph
  rcases hph with rfl | rfl | rfl | rfl | rfl | rfl | rfl | rfl | rfl | rfl | rfl | rfl | rfl | rfl | rfl <;>
    try trivial
  · exact fun _ => det_seq (packK3_is lay hw U .xmin (hU _).1).det (packK3_is lay hw U .xmax (hU _).1).det
  · exact fun r => det_seq (fillFace3_is hw lay mhd T hU .xmin f1 r).det
      (fillFace3_is hw lay mhd T hU .xmax f2 r).det
  · exact fun _ => det_seq (packK3_is lay hw U .ymin (hU _).1).det (packK3_is lay hw U .ymax (hU _).1).det
  · exact fun r => det_seq (fillFace3_is hw lay mhd T hU .ymin f3 r).det
      (fillFace3_is hw lay mhd T hU .ymax f4 r).det
  · exact fun _ => det_seq (packK3_is lay hw U .zmin (hU _).1).det (packK3_is lay hw U .zmax (hU _).1).det
  · exact fun r => det_seq (fillFace3_is hw lay mhd T hU .zmin f5 r).det
      (fillFace3_is hw lay mhd T hU .zmax f6 r).det

theorem notBuf_ping (n : Nat) : NotBuf (pingIn n) := by
  unfold pingIn
  intro f
  split_ifs <;> simp

theorem iff_of_unique {α : Type} {q : α → Prop} (he : ∃ d, q d) (hu : ∀ d d', q d → q d' → d = d') :
    ∃ d, ∀ d', q d' ↔ d' = d := by
  obtain ⟨d, hd⟩ := he
  exact ⟨d, fun d' => ⟨fun h => hu d' d h hd, fun h => h ▸ hd⟩⟩

theorem iff_of_det {α : Type} {q : α → Prop} (he : ∃! d, q d) : ∃ d, ∀ d', q d' ↔ d' = d := by
  obtain ⟨d, hd, hu⟩ := he
  exact ⟨d, fun d' => ⟨fun h => hu d' h, fun h => h ▸ hd⟩⟩

theorem mpiOnce_hydro2 (hL : MaxLaws R num sg) (hw : p.WF) (hf : Faces2Ok p)
    (hi : p.implementationVersion = 0 ∨ p.implementationVersion = 1) (hx : sg p.dx) (hy : sg p.dy)
    (g : GravityParams) {ident : R} (hid : num ident) (jk : T.Rank → Junk R) :
    (mpiHydro2 lay T p g ident jk).Once where
  setup := by
    refine bulk_total fun ph hph => ?_
    rcases List.mem_append.1 hph with hph | hph
    · exact halo2_total hw hf false (notBuf_ping 0) ph hph
    · rcases List.mem_singleton.1 hph with rfl
      exact fun _ m => ⟨_, rfl, fun _ h => h⟩
  pre n m := ⟨m, BulkRel.nil m⟩
  dt r n m := iff_of_unique ((once_hydro2 hL hw hf hi hx hy g hid (jk r)).dt n m)
    ((once_hydro2 hL hw hf hi hx hy g hid (jk r)).dt_eq n m)
  halo n := bulk_total (halo2_total hw hf false (notBuf_ping n))
  scheme r d n m := iff_of_det (det_seqs (det_scheme2 _ g d (jk r) (pingPong n) (fun h => by omega)) m)
  matched := ⟨matched2.append (Matched.single trivial), fun _ _ n => by simp [mpiHydro2], fun _ => matched2⟩

theorem mpiOnce_hydro3 (hL : MaxLaws R num sg) (hw : p.WF) (hf : Faces3Ok p)
    (hi : p.implementationVersion = 0 ∨ p.implementationVersion = 1) (hx : sg p.dx) (hy : sg p.dy)
    (hz : sg p.dz) (g : GravityParams) {ident : R} (hid : num ident) (jk : T.Rank → Junk R) :
    (mpiHydro3 lay T p g ident jk).Once where
  setup := by
    refine bulk_total fun ph hph => ?_
    rcases List.mem_append.1 hph with hph | hph
    · exact halo3_total hw hf false (notBuf_ping 0) ph hph
    · rcases List.mem_singleton.1 hph with rfl
      exact fun _ m => ⟨_, rfl, fun _ h => h⟩
  pre n m := ⟨m, BulkRel.nil m⟩
  dt r n m := iff_of_unique ((once_hydro3 hL hw hf hi hx hy hz g hid (jk r)).dt n m)
    ((once_hydro3 hL hw hf hi hx hy hz g hid (jk r)).dt_eq n m)
  halo n := bulk_total (halo3_total hw hf false (notBuf_ping n))
  scheme r d n m := iff_of_det (det_seqs (det_scheme3 _ g d (jk r) (pingPong n) (fun h => by omega)) m)
  matched := ⟨matched3.append (Matched.single trivial), fun _ _ n => by simp [mpiHydro3], fun _ => matched3⟩

theorem mpiOnce_mhd2 (hL : MaxLaws R num sg) (hw : p.WF) (hf : Faces2Ok p) (hi : p.implementationVersion = 0)
    (hx : sg p.dx) (hy : sg p.dy) {ident : R} (hid : num ident) (jk : T.Rank → JunkM R) :
    (mpiMhd2 lay T p ident jk).Once := by
  have pre : ∀ (n : Nat) m, ∃ m', BulkRel (preMpiMhd2 lay T p (pingIn n) (pingOut n)) m m' := by
    refine fun n => bulk_total fun ph hph => ?_
    rcases List.mem_append.1 hph with hph | hph
    · exact halo2_total hw hf true (notBuf_ping n) ph hph
    · rcases List.mem_singleton.1 hph with rfl
      exact fun _ => det_primMhd2 hw hf (pingPong n)
  exact
  { setup := pre 0
    pre := pre
    dt := fun r n m => iff_of_unique ((once_mhd2 hL hw hf hi hx hy hid (jk r)).dt n m)
      ((once_mhd2 hL hw hf hi hx hy hid (jk r)).dt_eq n m)
    halo := fun n m => ⟨m, BulkRel.nil m⟩
    scheme := fun r d n m => iff_of_det (det_runLaunches (det_postMhd2_0 p hi d (jk r) (pingPong n)) m)
    matched := ⟨matched2.append (Matched.single trivial), fun _ _ => matched2.append (Matched.single trivial),
      fun _ n => by simp [mpiMhd2]⟩ }

theorem mpiOnce_mhd3 (hL : MaxLaws R num sg) (hw : p.WF) (hf : Faces3Ok p) (hi : p.implementationVersion = 0)
    (hx : sg p.dx) (hy : sg p.dy) (hz : sg p.dz) {ident : R} (hid : num ident) (jk : T.Rank → JunkM R) :
    (mpiMhd3 lay T p ident jk).Once := by
  have pre : ∀ (n : Nat) m, ∃ m', BulkRel (preMpiMhd3 lay T p (pingIn n) (pingOut n)) m m' := by
    refine fun n => bulk_total fun ph hph => ?_
    rcases List.mem_append.1 hph with hph | hph
    · exact halo3_total hw hf true (notBuf_ping n) ph hph
    · rcases List.mem_singleton.1 hph with rfl
      exact fun _ => det_primMhd3 hw hf (pingPong n)
  exact
  { setup := pre 0
    pre := pre
    dt := fun r n m => iff_of_unique ((once_mhd3 hL hw hf hi hx hy hz hid (jk r)).dt n m)
      ((once_mhd3 hL hw hf hi hx hy hz hid (jk r)).dt_eq n m)
    halo := fun n m => ⟨m, BulkRel.nil m⟩
    scheme := fun r d n m => iff_of_det (det_runLaunches (det_postMhd3_0 p hi d (jk r) (pingPong n)) m)
    matched := ⟨matched3.append (Matched.single trivial), fun _ _ => matched3.append (Matched.single trivial),
      fun _ n => by simp [mpiMhd3]⟩ }

end EulerKokkos
