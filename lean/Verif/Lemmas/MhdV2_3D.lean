import Verif.Lemmas.MhdAtomic3D
import Verif.Lemmas.MhdV2_2D

/-! # Version 2 of the 3D MHD step, exact arithmetic -/

set_option linter.constructorNameAsVariable false
set_option linter.unusedSectionVars false
set_option linter.unusedSimpArgs false
set_option linter.unnecessarySeqFocus false
set_option linter.unusedTactic false
set_option linter.unreachableTactic false

namespace EulerKokkos

open Prog (rd wr add upd run_bind run_rd run_wr run_pure foot_bind foot_rd foot_wr foot_add
  foot_pure foot_ite foot_pif foot_mono Foot forRange pif)
open Spec

section generic
variable {R : Type} [RealOps R]

/-! ## Locality -/

/-- two fields agree on a box around a cell -/
def BoxEq (q q' : FldM3 R) (lo hi i j k : Int) : Prop :=
  ∀ a b c, i - lo ≤ a → a ≤ i + hi → j - lo ≤ b → b ≤ j + hi → k - lo ≤ c → c ≤ k + hi →
    q a b c = q' a b c

theorem BoxEq.at {q q' : FldM3 R} {lo hi i j k : Int} (h : BoxEq q q' lo hi i j k) {a b c : Int}
    (h1 : i - lo ≤ a ∧ a ≤ i + hi ∧ j - lo ≤ b ∧ b ≤ j + hi ∧ k - lo ≤ c ∧ c ≤ k + hi) :
    q a b c = q' a b c :=
  h a b c h1.1 h1.2.1 h1.2.2.1 h1.2.2.2.1 h1.2.2.2.2.1 h1.2.2.2.2.2

theorem BoxEq.sub {q q' : FldM3 R} {lo hi i j k lo' hi' x y z : Int} (h : BoxEq q q' lo hi i j k)
    (h1 : i - lo ≤ x - lo' ∧ x + hi' ≤ i + hi ∧ j - lo ≤ y - lo' ∧ y + hi' ≤ j + hi ∧
      k - lo ≤ z - lo' ∧ z + hi' ≤ k + hi) : BoxEq q q' lo' hi' x y z :=
  fun a b c _ _ _ _ _ _ => h a b c (by omega) (by omega) (by omega) (by omega) (by omega) (by omega)

theorem slopeV2_congr {p : Params R} {q q' u u' : FldM3 R} {d : Dir} {i j k : Int}
    (hq : BoxEq q q' 1 1 i j k) (hu : BoxEq u u' 0 1 i j k) :
    slopeV2 p q u d i j k = slopeV2 p q' u' d i j k := by
  have hq' := hq
  have hu' := hu
  unfold BoxEq at hq' hu'
  cases d <;> simp only [slopeV2, Dir.delta, add_zero, sub_zero] <;> simp (disch := omega) only [hq', hu']

theorem q2V2_congr {p : Params R} {dt : R} {q q' u u' : FldM3 R} {i j k : Int}
    (hq : BoxEq q q' 1 1 i j k) (hu : BoxEq u u' 0 1 i j k) :
    q2V2 p dt q u i j k = q2V2 p dt q' u' i j k := by
  have hq' := hq
  have hu' := hu
  unfold BoxEq at hq' hu'
  simp (disch := omega) only [q2V2, slopeV2_congr hq hu, hq', hu']

theorem sFaceV2_congr {p : Params R} {dt : R} {q q' u u' : FldM3 R} {d : Dir} {i j k : Int}
    (hq : BoxEq q q' 1 1 i j k) (hu : BoxEq u u' 1 1 i j k) :
    sFaceV2 p dt q u d i j k = sFaceV2 p dt q' u' d i j k := by
  have e : ∀ d x y z, i ≤ x → x ≤ i + 1 → j ≤ y → y ≤ j + 1 → k ≤ z → z ≤ k + 1 →
      elecM3 q u d x y z = elecM3 q' u' d x y z := fun d x y z _ _ _ _ _ _ =>
    elecM3_congr (fun a b c _ _ _ _ _ _ => hq a b c (by omega) (by omega) (by omega) (by omega)
      (by omega) (by omega))
      (fun a b c _ _ _ _ _ _ => hu a b c (by omega) (by omega) (by omega) (by omega)
      (by omega) (by omega))
  cases d <;> simp (disch := omega) only [sFaceV2, e]

theorem fluxV2_congr {p : Params R} {dt : R} {q q' u u' : FldM3 R} {d : Dir} {i j k : Int}
    (hq : BoxEq q q' 2 1 i j k) (hu : BoxEq u u' 1 1 i j k) :
    fluxV2 p dt q u d i j k = fluxV2 p dt q' u' d i j k := by
  have h0 : u i j k = u' i j k := hu.at (by omega)
  have a1 := q2V2_congr (p := p) (dt := dt) (hq.sub (lo' := 1) (hi' := 1) (x := i) (y := j) (z := k) (by omega))
    (hu.sub (lo' := 0) (hi' := 1) (by omega))
  have a2 := slopeV2_congr (p := p) (d := d)
    (hq.sub (lo' := 1) (hi' := 1) (x := i) (y := j) (z := k) (by omega))
    (hu.sub (lo' := 0) (hi' := 1) (by omega))
  have a3 := sFaceV2_congr (p := p) (dt := dt) (d := d)
    (hq.sub (lo' := 1) (hi' := 1) (x := i) (y := j) (z := k) (by omega)) hu
  have b : q2V2 p dt q u (i - d.delta.1) (j - d.delta.2.1) (k - d.delta.2.2)
        = q2V2 p dt q' u' (i - d.delta.1) (j - d.delta.2.1) (k - d.delta.2.2) ∧
      slopeV2 p q u d (i - d.delta.1) (j - d.delta.2.1) (k - d.delta.2.2)
        = slopeV2 p q' u' d (i - d.delta.1) (j - d.delta.2.1) (k - d.delta.2.2) := by
    have hb : i - 1 ≤ i - d.delta.1 ∧ i - d.delta.1 ≤ i ∧ j - 1 ≤ j - d.delta.2.1 ∧ j - d.delta.2.1 ≤ j ∧
        k - 1 ≤ k - d.delta.2.2 ∧ k - d.delta.2.2 ≤ k := by
      cases d <;> simp only [Dir.delta] <;> omega
    exact ⟨q2V2_congr (hq.sub (by omega)) (hu.sub (by omega)),
      slopeV2_congr (hq.sub (by omega)) (hu.sub (by omega))⟩
  simp only [fluxV2]
  rw [h0, a1, a2, a3, b.1, b.2]

theorem limSlopeV2_congr {p : Params R} {u u' : FldM3 R} {f : MS R → R} {d : Dir} {i j k : Int}
    (hu : BoxEq u u' 1 1 i j k) :
    limSlopeV2 p (fun i j k => f (u i j k)) d i j k = limSlopeV2 p (fun i j k => f (u' i j k)) d i j k := by
  unfold BoxEq at hu
  cases d <;> simp only [limSlopeV2, Dir.delta, add_zero, sub_zero] <;> simp (disch := omega) only [hu]

/-- the cells an edge reconstruction looks at -/
theorem edge_cells (d : Dir) (b : Bool) (i j k : Int) :
    (i ≤ i + (if b then (1 : Int) else 0) * d.delta.1 ∧ i + (if b then (1 : Int) else 0) * d.delta.1 ≤ i + 1) ∧
    (j ≤ j + (if b then (1 : Int) else 0) * d.delta.2.1 ∧
      j + (if b then (1 : Int) else 0) * d.delta.2.1 ≤ j + 1) ∧
    (k ≤ k + (if b then (1 : Int) else 0) * d.delta.2.2 ∧
      k + (if b then (1 : Int) else 0) * d.delta.2.2 ≤ k + 1) := by
  cases b <;> cases d <;> simp [Dir.delta]

/-- the box around the three cells an edge reconstruction looks at -/
def EdgeBox (q q' : FldM3 R) (d0 d1 : Dir) (i j k : Int) (e : EdgeLoc) : Prop :=
  BoxEq q q' 1 1 i j k ∧
  BoxEq q q' 1 1 (i + (if e.right then (1 : Int) else 0) * d0.delta.1)
    (j + (if e.right then (1 : Int) else 0) * d0.delta.2.1)
    (k + (if e.right then (1 : Int) else 0) * d0.delta.2.2) ∧
  BoxEq q q' 1 1 (i + (if e.top then (1 : Int) else 0) * d1.delta.1)
    (j + (if e.top then (1 : Int) else 0) * d1.delta.2.1)
    (k + (if e.top then (1 : Int) else 0) * d1.delta.2.2)

theorem edgeV2_congr {p : Params R} {dt : R} {q q' u u' : FldM3 R} {d0 d1 : Dir} {i j k : Int}
    {e : EdgeLoc} (hq : EdgeBox q q' d0 d1 i j k e) (hu : EdgeBox u u' d0 d1 i j k e) :
    edgeV2 p dt q u d0 d1 i j k e = edgeV2 p dt q' u' d0 d1 i j k e := by
  obtain ⟨q1, q0, q2⟩ := hq
  obtain ⟨u1, u0, u2⟩ := hu
  have u1 : BoxEq u u' 0 1 i j k := u1.sub (by omega)
  unfold edgeV2
  simp only
  rw [slopeV2_congr q1 u1, slopeV2_congr q1 u1, q2V2_congr q1 u1, sFaceV2_congr q0 u0,
    sFaceV2_congr q2 u2, limSlopeV2_congr (f := MS.mag d0) u0, limSlopeV2_congr (f := MS.mag d1) u2,
    u0.at (by omega), u2.at (by omega)]

theorem edgeBox_of {q q' : FldM3 R} {i j k : Int} (h : BoxEq q q' 2 1 i j k) (d0 d1 : Dir)
    (hd : d0 ≠ d1) (r t : Bool) (e : EdgeLoc) (hr : e.right = r) (ht : e.top = t) :
    EdgeBox q q' d0 d1 (i - (if r then 1 else 0) * d0.delta.1 - (if t then 1 else 0) * d1.delta.1)
      (j - (if r then 1 else 0) * d0.delta.2.1 - (if t then 1 else 0) * d1.delta.2.1)
      (k - (if r then 1 else 0) * d0.delta.2.2 - (if t then 1 else 0) * d1.delta.2.2) e := by
  unfold EdgeBox
  rw [hr, ht]
  cases r <;> cases t <;> cases d0 <;> cases d1 <;> first | exact absurd rfl hd | skip
  all_goals
    simp only [Dir.delta, if_true, if_false, Bool.false_eq_true, zero_mul, one_mul, mul_zero, mul_one,
      sub_zero, add_zero]
    exact ⟨h.sub (by omega), h.sub (by omega), h.sub (by omega)⟩

theorem emfV2_congr {p : Params R} {dt : R} {q q' u u' : FldM3 R} {d : EmfDir} {i j k : Int}
    (hq : BoxEq q q' 2 1 i j k) (hu : BoxEq u u' 2 1 i j k) :
    emfV2 p dt q u d i j k = emfV2 p dt q' u' d i j k := by
  have key : ∀ (d0 d1 : Dir) (hd : d0 ≠ d1) (e : EdgeLoc),
      edgeV2 p dt q u d0 d1 (i - (if e.right then 1 else 0) * d0.delta.1 - (if e.top then 1 else 0) * d1.delta.1)
        (j - (if e.right then 1 else 0) * d0.delta.2.1 - (if e.top then 1 else 0) * d1.delta.2.1)
        (k - (if e.right then 1 else 0) * d0.delta.2.2 - (if e.top then 1 else 0) * d1.delta.2.2) e
      = edgeV2 p dt q' u' d0 d1
        (i - (if e.right then 1 else 0) * d0.delta.1 - (if e.top then 1 else 0) * d1.delta.1)
        (j - (if e.right then 1 else 0) * d0.delta.2.1 - (if e.top then 1 else 0) * d1.delta.2.1)
        (k - (if e.right then 1 else 0) * d0.delta.2.2 - (if e.top then 1 else 0) * d1.delta.2.2) e :=
    fun d0 d1 hd e => edgeV2_congr (edgeBox_of hq d0 d1 hd _ _ e rfl rfl)
      (edgeBox_of hu d0 d1 hd _ _ e rfl rfl)
  have xy := key .x .y (by decide)
  have xz := key .x .z (by decide)
  have yz := key .y .z (by decide)
  have f1 : (EdgeLoc.right .rt, EdgeLoc.top .rt) = (true, true) := rfl
  cases d <;> unfold emfV2 <;> simp only
  · have a := yz .rt; have b := yz .rb; have c := yz .lt; have d := yz .lb
    simp only [EdgeLoc.right, EdgeLoc.top, Dir.delta, if_true, if_false, Bool.false_eq_true, zero_mul,
      one_mul, mul_zero, mul_one, sub_zero, add_zero] at a b c d
    rw [a, b, c, d]
  · have a := xz .rt; have b := xz .rb; have c := xz .lt; have d := xz .lb
    simp only [EdgeLoc.right, EdgeLoc.top, Dir.delta, if_true, if_false, Bool.false_eq_true, zero_mul,
      one_mul, mul_zero, mul_one, sub_zero, add_zero] at a b c d
    rw [a, b, c, d]
  · have a := xy .rt; have b := xy .rb; have c := xy .lt; have d := xy .lb
    simp only [EdgeLoc.right, EdgeLoc.top, Dir.delta, if_true, if_false, Bool.false_eq_true, zero_mul,
      one_mul, mul_zero, mul_one, sub_zero, add_zero] at a b c d
    rw [a, b, c, d]

/-! ## Kernel results -/

/-- data stored by the first kernels of version 2 -/
structure V2Of (p : Params R) (dt : R) (m : Mem Arr R) (q u : FldM3 R) : Prop where
  slopes : ∀ (d : Dir) i j k, traceGuardM3 p (i, j, k) → ms m d.slopes i j k = slopeV2 p q u d i j k
  q2 : ∀ i j k, traceGuardM3 p (i, j, k) → ms m .Q2 i j k = q2V2 p dt q u i j k
  sface : ∀ (d : Dir) i j k, traceGuardM3 p (i, j, k) →
    m ⟨.sFaceMag, i, j, k, d.num⟩ = sFaceV2 p dt q u d i j k

theorem V2Of.mono {p : Params R} {dt : R} {m m' : Mem Arr R} {q u : FldM3 R} (h : V2Of p dt m q u)
    {outs : Arr → Prop} (hs : SameOff outs m m')
    (hn : ∀ a ∈ ([.Sx, .Sy, .Sz, .Q2, .sFaceMag] : List Arr), ¬ outs a) : V2Of p dt m' q u := by
  refine ⟨fun d i j k hg => ?_, fun i j k hg => ?_, fun d i j k hg => ?_⟩
  · rw [hs.ms (hn _ (by cases d <;> decide)), h.slopes d i j k hg]
  · rw [hs.ms (hn _ (by decide)), h.q2 i j k hg]
  · rw [hs _ (hn _ (by simp)), h.sface d i j k hg]

theorem slopesMhd3_result {p : Params R} (hv : ValidM p) {U : Arr} (hU : nvM3 U = 8)
    (h : U ∉ ([.Sx, .Sy, .Sz] : List Arr)) {jk : JunkM R}
    {m m' : Mem Arr R}
    (hm : forRange (range3 p.isize p.jsize p.ksize) (computeSlopesMhd3 p U .Q jk) m m') :
    SameOff (· ∈ [Arr.Sx, .Sy, .Sz]) m m' ∧ ∀ (d : Dir) i j k, innerGuardM3 p (i, j, k) →
      ms m' d.slopes i j k = slopeV2 p (ms m .Q) (ms m U) d i j k := by
  have ho := (foot_computeSlopesMhd3 p hU jk).own (by
    intro a ha
    simp only [List.mem_cons, List.not_mem_nil, or_false] at ha
    rcases ha with rfl | rfl
    · exact h
    · decide)
  refine ⟨sameOff_forRange3 ho hm, fun d i j k hg => ?_⟩
  have hin := innerGuardM3_in hg
  have n1 : U ≠ .Sx := fun e => h (by simp [e])
  have n2 : U ≠ .Sy := fun e => h (by simp [e])
  have n3 : U ≠ .Sz := fun e => h (by simp [e])
  have g : ∀ (a a' : Arr) (x y z x' y' z' : Int) (v : Nat) (m : Mem Arr R) (s : R), a ≠ a' →
      ms (upd m ⟨a', x', y', z', v⟩ s) a x y z = ms m a x y z := by
    intro a a' x y z x' y' z' v m s hne
    simp [ms, upd, Loc.mk.injEq, hne]
  have gl : ∀ (a a' : Arr) (x y z x' y' z' : Int) (v v' : Nat) (m : Mem Arr R) (s : R), a ≠ a' →
      upd m ⟨a', x', y', z', v⟩ s ⟨a, x, y, z, v'⟩ = m ⟨a, x, y, z, v'⟩ := by
    intro a a' x y z x' y' z' v v' m s hne
    simp [upd, Loc.mk.injEq, hne]
  have gs : ∀ (a a' : Arr) (x y z x' y' z' : Int) (v : Nat) (m : Mem Arr R) (s : MS R), a ≠ a' →
      setMemM m a' x y z s ⟨a, x', y', z', v⟩ = m ⟨a, x', y', z', v⟩ := by
    intro a a' x y z x' y' z' v m s hne
    exact setMemM_arr _ _ _ _ _ hne
  have su : ∀ (d : Dir) (a : Arr) (m : Mem Arr R) (s : R),
      ms (upd m ⟨a, i, j, k, IA + d.num⟩ s) a i j k = (ms m a i j k).setMag d s := by
    intro d a m s
    cases d <;> simp [ms, upd, Loc.mk.injEq, Dir.num, MS.setMag, ID, IP, IU, IV, IW, IA, IB, IC]
  have suA := su .x
  have suB := su .y
  have suC := su .z
  simp only [Dir.num, show IA + 0 = IA from rfl, show IA + 1 = IB from rfl, show IA + 2 = IC from rfl]
    at suA suB suC
  rw [forRange3_ms_out ho hm (by cases d <;> decide) hin]
  unfold computeSlopesMhd3 diffRd
  rw [if_pos hg]
  simp only [run_bind, run_rd, run_wr, run_getMS, run_putMS, run_pure]
  cases d <;> simp only [Dir.slopes] <;>
  simp only [suA, suB, suC, g _ _ _ _ _ _ _ _ _ _ _ n1, g _ _ _ _ _ _ _ _ _ _ _ n2, g _ _ _ _ _ _ _ _ _ _ _ n3,
    gl _ _ _ _ _ _ _ _ _ _ _ _ n1, gl _ _ _ _ _ _ _ _ _ _ _ _ n2, gl _ _ _ _ _ _ _ _ _ _ _ _ n3,
    gs _ _ _ _ _ _ _ _ _ _ _ n1, gs _ _ _ _ _ _ _ _ _ _ _ n2, gs _ _ _ _ _ _ _ _ _ _ _ n3,
    ms_setMemM_same, ms_setMemM_arr, g, ne_eq, reduceCtorEq, not_false_eq_true] <;>
  simp only [slopeV2, Dir.delta, add_zero, sub_zero, MS.mag, slopeM_valid hv _ _ _ _ MS.zero] <;> rfl

theorem updatedPrimVarMhd3_result {p : Params R} (hg3 : 3 ≤ p.ghostWidth) {U : Arr} (hU : nvM3 U = 8)
    (h : U ≠ .Q2) {dt : R} {q u : FldM3 R} {m m' : Mem Arr R} (hq : ms m .Q = q) (hu : ms m U = u)
    (hs : ∀ (d : Dir) i j k, innerGuardM3 p (i, j, k) → ms m d.slopes i j k = slopeV2 p q u d i j k)
    (hm : forRange (range3 p.isize p.jsize p.ksize)
      (updatedPrimVarMhd3 p U .Q .Q2 (dt / p.dx) (dt / p.dy) (dt / p.dz)) m m') :
    SameOff (· ∈ [Arr.Q2]) m m' ∧ ∀ i j k, traceGuardM3 p (i, j, k) →
      ms m' .Q2 i j k = q2V2 p dt q u i j k := by
  have ho := (foot_updatedPrimVarMhd3 p hU (dt / p.dx) (dt / p.dy) (dt / p.dz)).own (by
    intro a ha
    simp only [List.mem_cons, List.not_mem_nil, or_false] at ha
    rcases ha with rfl | rfl | rfl | rfl | rfl
    · simpa using h
    all_goals decide)
  refine ⟨sameOff_forRange3 ho hm, fun i j k hg => ?_⟩
  have hin := traceGuardM3_inner hg3 hg (x := i) (y := j) (z := k) (by omega) (by omega) (by omega)
  rw [forRange3_ms_out ho hm (by simp) (traceGuardM3_in hg3 hg)]
  have hx := hs .x i j k hin
  have hy := hs .y i j k hin
  have hz := hs .z i j k hin
  simp only [Dir.slopes] at hx hy hz
  subst hq hu
  unfold updatedPrimVarMhd3 diffRd
  rw [if_pos hg]
  simp only [run_bind, run_rd, run_getMS, run_putMS, run_pure, ms_setMemM_same, hx, hy, hz]
  rfl

theorem sourceFaceMagMhd3_result {p : Params R} (hg3 : 3 ≤ p.ghostWidth) {dt : R} {q u : FldM3 R}
    {m m' : Mem Arr R} (hE : ElecOf p m q u)
    (hm : forRange (range3 p.isize p.jsize p.ksize)
      (sourceFaceMagMhd3 p (dt / p.dx) (dt / p.dy) (dt / p.dz)) m m') :
    SameOff (· ∈ [Arr.sFaceMag]) m m' ∧ ∀ (d : Dir) i j k, traceGuardM3 p (i, j, k) →
      m' ⟨.sFaceMag, i, j, k, d.num⟩ = sFaceV2 p dt q u d i j k := by
  have ho := (foot_sourceFaceMagMhd3 p (dt / p.dx) (dt / p.dy) (dt / p.dz)).own (by decide)
  refine ⟨sameOff_forRange3 ho hm, fun d i j k hg => ?_⟩
  have N := fun x y z hx hy hz => traceGuardM3_inner hg3 hg (x := x) (y := y) (z := z) hx hy hz
  have E := fun d x y z hx hy hz => hE d x y z (N x y z hx hy hz)
  have ex := E .x
  have ey := E .y
  have ez := E .z
  simp only [Dir.num] at ex ey ez
  rw [forRange3_out ho hm (l := ⟨.sFaceMag, i, j, k, d.num⟩) (by simp) (traceGuardM3_in hg3 hg)]
  unfold sourceFaceMagMhd3 diffRd
  rw [if_pos (N i j k (by omega) (by omega) (by omega))]
  simp only [run_bind, run_rd, run_wr, run_pure, IX, IY, IZ]
  have g : ∀ (x y z x' y' z' : Int) (v v' : Nat) (m : Mem Arr R) (s : R),
      upd m ⟨.sFaceMag, x', y', z', v⟩ s ⟨.ElecField, x, y, z, v'⟩ = m ⟨.ElecField, x, y, z, v'⟩ := by
    intro x y z x' y' z' v v' m s
    simp [upd, Loc.mk.injEq]
  simp only [g]
  simp (disch := omega) only [ex, ey, ez]
  cases d <;> simp [upd, Loc.mk.injEq, Dir.num, sFaceV2]

theorem mag_ms (m : Mem Arr R) (a : Arr) (i j k : Int) (d : Dir) :
    (ms m a i j k).mag d = m ⟨a, i, j, k, IA + d.num⟩ := by cases d <;> rfl

end generic

/-! ## The atomic kernels -/

variable {R : Type} [RealOps R] [ExactAdd R]
attribute [local instance 10] ExactAdd.monoid

theorem flux_result_aux3 {p : Params R} (hw : p.WF) (d : Dir) {U : Arr} {ins : List Arr} {lo hi : Int}
    {body : Int × Int × Int → Prog Arr R Unit} (hf : AddFootM3 (faceGuardM3 p) ins [U] lo hi body)
    (hn : U ∉ ins) {c : R} {f : FldM3 R} {m m' : Mem Arr R}
    (hb : ∀ t, faceGuardM3 p t → ∀ l, (body t).addends m l =
      (atomicFlux3 d p U t.1 t.2.1 t.2.2 (f t.1 t.2.1 t.2.2) c).addends m l)
    (hm : forRange (range3 p.isize p.jsize p.ksize) body m m') :
    SameOff (· ∈ [U]) m m' ∧ ∀ i j k v, m' ⟨U, i, j, k, v⟩ = m ⟨U, i, j, k, v⟩ +
      (if cellGuard3 p (i, j, k) then fluxGain d f c i j k v else 0) := by
  have hd : ∀ a ∈ [U], a ∉ ins := by simpa using hn
  refine ⟨hf.sameOff hd hm, fun i j k v => ?_⟩
  rw [(hf.iff hd _ m m').1 hm]
  beta_reduce
  have hs : ∀ t ∈ range3 p.isize p.jsize p.ksize, ((body t).addends m ⟨U, i, j, k, v⟩).sum =
      (if faceGuardM3 p t then contrib p d.delta t (i, j, k) ((f t.1 t.2.1 t.2.2).get5 c v) else 0) := by
    intro t _
    by_cases hg : faceGuardM3 p t
    · rw [if_pos hg, hb t hg, addends_atomicFlux3 d U hg]
    · rw [if_neg hg, Prog.addends_nil (hf t) m _ (fun h => hg h.1)]; rfl
  rw [Finset.sum_congr rfl hs, sum_contrib hw d (i, j, k) (fun t => (f t.1 t.2.1 t.2.2).get5 c v)]
  rfl

theorem emf_result_aux3 {p : Params R} (hw : p.WF) (d : EmfDir) {U : Arr} {ins : List Arr} {lo hi : Int}
    {body : Int × Int × Int → Prog Arr R Unit} (hf : AddFootM3 (faceGuardM3 p) ins [U] lo hi body)
    (hn : U ∉ ins) {dtdx dtdy dtdz : R} {E : Int → Int → Int → R} {m m' : Mem Arr R}
    (hb : ∀ t, faceGuardM3 p t → ∀ l, (body t).addends m l =
      (atomicEmf3 d p U t.1 t.2.1 t.2.2 (E t.1 t.2.1 t.2.2) dtdx dtdy dtdz).addends m l)
    (hm : forRange (range3 p.isize p.jsize p.ksize) body m m') :
    SameOff (· ∈ [U]) m m' ∧ ∀ i j k v, m' ⟨U, i, j, k, v⟩ = m ⟨U, i, j, k, v⟩ +
      (if cellGuard3 p (i, j, k) then emfGain d E dtdx dtdy dtdz i j k v else 0) := by
  have hd : ∀ a ∈ [U], a ∉ ins := by simpa using hn
  refine ⟨hf.sameOff hd hm, fun i j k v => ?_⟩
  rw [(hf.iff hd _ m m').1 hm]
  beta_reduce
  have hs : ∀ t ∈ range3 p.isize p.jsize p.ksize, ((body t).addends m ⟨U, i, j, k, v⟩).sum =
      (if faceGuardM3 p t then contrib p (emfShift d v).delta t (i, j, k)
        (emfTerm d v (E t.1 t.2.1 t.2.2) dtdx dtdy dtdz) else 0) := by
    intro t _
    by_cases hg : faceGuardM3 p t
    · rw [if_pos hg, hb t hg, addends_atomicEmf3 d U hg]
    · rw [if_neg hg, Prog.addends_nil (hf t) m _ (fun h => hg h.1)]; rfl
  rw [Finset.sum_congr rfl hs, sum_contrib hw _ (i, j, k)
    (fun t => emfTerm d v (E t.1 t.2.1 t.2.2) dtdx dtdy dtdz)]
  rfl

theorem fluxAlongMhd3_result (d : Dir) {p : Params R} (hw : p.WF) (hv : ValidM p)
    {inA outA : Arr} (hi : nvM3 inA = 8) (ho : nvM3 outA = 8)
    (hn : outA ∉ ([inA, .Sx, .Sy, .Sz, .Q2, .sFaceMag] : List Arr)) {dt : R} {jk : JunkM R}
    {q u : FldM3 R} {m m' : Mem Arr R} (hu : ms m inA = u) (hd : V2Of p dt m q u)
    (hm : forRange (range3 p.isize p.jsize p.ksize)
      (fluxAlongMhd3 d p inA outA .Q2 (dt / p.dx) (dt / p.dy) (dt / p.dz) jk) m m') :
    SameOff (· ∈ [outA]) m m' ∧ ∀ i j k v, m' ⟨outA, i, j, k, v⟩ = m ⟨outA, i, j, k, v⟩ +
      (if cellGuard3 p (i, j, k) then
        fluxGain d (fluxV2 p dt q u d) (d.dtd (dt / p.dx) (dt / p.dy) (dt / p.dz)) i j k v else 0) := by
  refine flux_result_aux3 hw d (foot_fluxAlongMhd3 d p hi ho _ _ _ jk) hn ?_ hm
  rintro ⟨a, b, c⟩ hg l
  unfold fluxAlongMhd3
  rw [if_pos hg]
  have hb : (a - 1 ≤ a - d.delta.1 ∧ a - d.delta.1 ≤ a) ∧ (b - 1 ≤ b - d.delta.2.1 ∧ b - d.delta.2.1 ≤ b) ∧
      (c - 1 ≤ c - d.delta.2.2 ∧ c - d.delta.2.2 ≤ c) := by
    cases d <;> simp only [Dir.delta] <;> omega
  have g0 := traceGuard_near3 hg (a := a) (b := b) (c := c) (by omega) (by omega) (by omega)
  have g1 := traceGuard_near3 hg hb.1 hb.2.1 hb.2.2
  simp only [Prog.addends_bind, addends_getMS, valR_getMS, addends_rd, valR_rd, List.nil_append]
  rw [riemannMhd_valid hv _ _ (jk 4 a b c) MS.zero, hd.slopes d _ _ _ g0, hd.slopes d _ _ _ g1,
    hd.q2 _ _ _ g0, hd.q2 _ _ _ g1, hd.sface d _ _ _ g0, ← mag_ms m inA, hu]
  rfl

theorem addends_limitedSlope3 (d : Dir) (p : Params R) (U : Arr) (i j k : Int) (v : Nat) (m : Mem Arr R)
    (l : Loc Arr) : (limitedSlope3 d p U i j k v).addends m l = [] := rfl

theorem valR_bind {α β : Type} (f : Prog Arr R α) (g : α → Prog Arr R β) (m : Mem Arr R) :
    (f >>= g).valR m = (g (f.valR m)).valR m := by
  show (f.bind g).valR m = _
  induction f with
  | pure a => rfl
  | read l' k ih => simp only [Prog.bind, Prog.valR]; exact ih _
  | write l' x k ih => simp only [Prog.bind, Prog.valR]; exact ih
  | aadd l' x k ih => simp only [Prog.bind, Prog.valR, ih]

theorem valR_pure {α : Type} (a : α) (m : Mem Arr R) : (pure a : Prog Arr R α).valR m = a := rfl

theorem valR_limitedSlope3 (d d' : Dir) (p : Params R) (U : Arr) (i j k : Int) (m : Mem Arr R) :
    (limitedSlope3 d p U i j k (IA + d'.num)).valR m =
      limSlopeV2 p (fun i j k => (ms m U i j k).mag d') d i j k := by
  unfold limitedSlope3 limSlopeV2
  simp only [mag_ms]
  rfl

theorem addends_reconstructEdge3 (d0 d1 : Dir) (p : Params R) (U : Arr) (q : MS R) (i j k : Int)
    (e : EdgeLoc) (m : Mem Arr R) (l : Loc Arr) :
    (reconstructEdge3 d0 d1 p U q i j k e).addends m l = [] := by
  unfold reconstructEdge3
  simp only [Prog.addends_bind, addends_rd, addends_limitedSlope3, addends_getMS, Prog.addends_pure,
    List.nil_append]

theorem valR_reconstructEdge3 (d0 d1 : Dir) {p : Params R} {U : Arr} {dt : R} {q u : FldM3 R}
    {m : Mem Arr R} (hu : ms m U = u) (hd : V2Of p dt m q u) (i j k : Int) (e : EdgeLoc)
    (hg : traceGuardM3 p (i, j, k))
    (h0 : traceGuardM3 p (i + (if e.right then (1 : Int) else 0) * d0.delta.1,
      j + (if e.right then (1 : Int) else 0) * d0.delta.2.1,
      k + (if e.right then (1 : Int) else 0) * d0.delta.2.2))
    (h1 : traceGuardM3 p (i + (if e.top then (1 : Int) else 0) * d1.delta.1,
      j + (if e.top then (1 : Int) else 0) * d1.delta.2.1,
      k + (if e.top then (1 : Int) else 0) * d1.delta.2.2)) :
    (reconstructEdge3 d0 d1 p U (ms m .Q2 i j k) i j k e).valR m = edgeV2 p dt q u d0 d1 i j k e := by
  unfold reconstructEdge3
  simp only [valR_bind, valR_rd, valR_getMS, valR_limitedSlope3, valR_pure]
  rw [hd.sface d0 _ _ _ h0, hd.sface d1 _ _ _ h1, hd.slopes d0 _ _ _ hg, hd.slopes d1 _ _ _ hg,
    hd.q2 _ _ _ hg, ← mag_ms m U, ← mag_ms m U, hu]
  rfl

theorem getRecEdge3_val {p : Params R} {U : Arr} {dt : R} {q u : FldM3 R}
    {m : Mem Arr R} (hu : ms m U = u) (hd : V2Of p dt m q u) (d : EmfDir) {i j k : Int}
    (hg : faceGuardM3 p (i, j, k)) :
    computeEmf p.settings d ((getRecEdge3 d p U .Q2 i j k).valR m) = emfV2 p dt q u d i j k := by
  have N := fun x y z hx hy hz => traceGuard_near3 hg (a := x) (b := y) (c := z) hx hy hz
  have V := fun d0 d1 i j k e => valR_reconstructEdge3 d0 d1 hu hd i j k e
  unfold getRecEdge3 emfV2
  cases d <;> simp only [valR_bind, valR_getMS, valR_pure]
  all_goals
    rw [V _ _ _ _ _ .lb, V _ _ _ _ _ .rb, V _ _ _ _ _ .lt, V _ _ _ _ _ .rt]
  all_goals
    (try simp only [EdgeLoc.right, EdgeLoc.top, Dir.delta, if_true, if_false, Bool.false_eq_true, zero_mul,
      one_mul, mul_zero, mul_one, sub_zero, add_zero, sub_add_cancel])
    apply N <;> omega

theorem addends_getRecEdge3 (d : EmfDir) (p : Params R) (U : Arr) (i j k : Int) (m : Mem Arr R)
    (l : Loc Arr) : (getRecEdge3 d p U .Q2 i j k).addends m l = [] := by
  unfold getRecEdge3
  cases d <;> simp only [Prog.addends_bind, addends_getMS, addends_reconstructEdge3, Prog.addends_pure,
    List.nil_append]

theorem reconstructEmfMhd3_result (d : EmfDir) {p : Params R} (hw : p.WF)
    {inA outA : Arr} (hi : nvM3 inA = 8) (ho : nvM3 outA = 8)
    (hn : outA ∉ ([inA, .Sx, .Sy, .Sz, .Q2, .sFaceMag] : List Arr)) {dt : R}
    {q u : FldM3 R} {m m' : Mem Arr R} (hu : ms m inA = u) (hd : V2Of p dt m q u)
    (hm : forRange (range3 p.isize p.jsize p.ksize)
      (reconstructEmfMhd3 d p inA outA .Q2 (dt / p.dx) (dt / p.dy) (dt / p.dz)) m m') :
    SameOff (· ∈ [outA]) m m' ∧ ∀ i j k v, m' ⟨outA, i, j, k, v⟩ = m ⟨outA, i, j, k, v⟩ +
      (if cellGuard3 p (i, j, k) then
        emfGain d (emfV2 p dt q u d) (dt / p.dx) (dt / p.dy) (dt / p.dz) i j k v else 0) := by
  refine emf_result_aux3 hw d (foot_reconstructEmfMhd3 d p hi ho _ _ _) hn ?_ hm
  rintro ⟨a, b, c⟩ hg l
  unfold reconstructEmfMhd3
  rw [if_pos hg]
  simp only [Prog.addends_bind, addends_getRecEdge3, List.nil_append]
  rw [getRecEdge3_val hu hd d hg]

/-- the fluxes of version 2 on the stored primitive field -/
theorem fluxesV2_stored {p : Params R} (hg : 3 ≤ p.ghostWidth) {dt : R} {q u : FldM3 R}
    (hq : PrimOf3 p q u) {i j k : Int} (h : faceGuardM3 p (i, j, k)) :
    (FluxM3.mk (fluxV2 p dt q u .x) (fluxV2 p dt q u .y) (fluxV2 p dt q u .z) (emfV2 p dt q u)).EqAt
      (fluxesV2M3 p dt u) i j k := by
  obtain ⟨h1, h2, h3, h4, h5, h6⟩ := h
  simp only at h1 h2 h3 h4 h5 h6
  have b : BoxEq q (primM3 p u) 2 1 i j k := fun a b c _ _ _ _ _ _ =>
    hq a b c (by omega) (by omega) (by omega) (by omega) (by omega) (by omega)
  have r : ∀ lo hi, BoxEq u u lo hi i j k := fun _ _ _ _ _ _ _ _ _ _ _ => rfl
  exact ⟨fluxV2_congr (d := .x) b (r _ _), fluxV2_congr (d := .y) b (r _ _),
    fluxV2_congr (d := .z) b (r _ _), fun d => emfV2_congr b (r _ _)⟩

/-- **Version 2**, every schedule, exact arithmetic. -/
theorem postMhd3_result2 {p : Params R} (hp : Mhd3 p) (hi : p.implementationVersion = 2)
    {dt : R} {jk : JunkM R} {inA outA : Arr} (hpp : PingPong inA outA) {m m' : Mem Arr R}
    (hq : PrimOf3 p (ms m .Q) (ms m inA)) (hc : ms m outA = ms m inA)
    (hm : runLaunches (postMhd3 p dt jk inA outA) m m') :
    SameOff (MhdOuts3 outA) m m' ∧
    ∀ i j k, ms m' outA i j k = stepM3 p dt (ms m inA) i j k := by
  obtain ⟨v1, v2⟩ := nvM3_ping hpp
  have n1 : inA ∉ ([.Sx, .Sy, .Sz] : List Arr) ∧ inA ≠ .Q2 ∧ inA ≠ .ElecField ∧ inA ≠ .sFaceMag := by
    rcases hpp with ⟨rfl, rfl⟩ | ⟨rfl, rfl⟩ <;> decide
  have n2 : outA ∉ ([.Sx, .Sy, .Sz] : List Arr) ∧ outA ≠ .Q2 ∧ outA ≠ .ElecField ∧ outA ≠ .sFaceMag := by
    rcases hpp with ⟨rfl, rfl⟩ | ⟨rfl, rfl⟩ <;> decide
  have n3 : outA ∉ ([inA, .Sx, .Sy, .Sz, .Q2, .sFaceMag] : List Arr) := by
    rcases hpp with ⟨rfl, rfl⟩ | ⟨rfl, rfl⟩ <;> decide
  have n4 : inA ∉ [outA] := by rcases hpp with ⟨rfl, rfl⟩ | ⟨rfl, rfl⟩ <;> decide
  have n5 : ∀ a ∈ ([.Sx, .Sy, .Sz, .Q2, .sFaceMag] : List Arr), ¬ a ∈ [outA] := by
    rcases hpp with ⟨rfl, rfl⟩ | ⟨rfl, rfl⟩ <;> decide
  unfold runLaunches postMhd3 at hm
  simp only [hi, OfNat.ofNat_ne_zero, OfNat.ofNat_ne_one, if_false, if_true, List.map_cons,
    List.map_nil] at hm
  obtain ⟨m1, k1, m2, k2, m3, k3, m4, k4, m5, k5, m6, k6, m7, k7, m8, k8, m9, k9, m10, k10, rfl⟩ := hm
  obtain ⟨s1, f1⟩ := slopesMhd3_result hp.valid v1 n1.1 k1
  have i1 : ms m1 inA = ms m inA := s1.ms n1.1
  have j1 : ms m1 .Q = ms m .Q := s1.ms (by decide)
  obtain ⟨s2, f2⟩ := updatedPrimVarMhd3_result hp.gw v1 n1.2.1 j1 i1 f1 k2
  have i2 : ms m2 inA = ms m inA := (s2.ms (by simpa using n1.2.1)).trans i1
  have j2 : ms m2 .Q = ms m .Q := (s2.ms (by decide)).trans j1
  obtain ⟨s3, f3⟩ := elecFieldMhd3_result v1 n1.2.2.1 k3
  rw [i2, j2] at f3
  have i3 : ms m3 inA = ms m inA := (s3.ms (by simpa using n1.2.2.1)).trans i2
  obtain ⟨s4, f4⟩ := sourceFaceMagMhd3_result hp.gw f3 k4
  have i4 : ms m4 inA = ms m inA := (s4.ms (by simpa using n1.2.2.2)).trans i3
  have d4 : V2Of p dt m4 (ms m .Q) (ms m inA) := by
    refine ⟨fun d i j k hg => ?_, fun i j k hg => ?_, f4⟩
    · rw [s4.ms (by cases d <;> decide), s3.ms (by cases d <;> decide), s2.ms (by cases d <;> decide)]
      exact f1 d i j k (traceGuardM3_inner hp.gw hg (by omega) (by omega) (by omega))
    · rw [s4.ms (by decide), s3.ms (by decide)]
      exact f2 i j k hg
  obtain ⟨s5, f5⟩ := fluxAlongMhd3_result .x hp.wf hp.valid v1 v2 n3 i4 d4 k5
  have i5 := (s5.ms n4).trans i4
  have d5 := d4.mono s5 n5
  obtain ⟨s6, f6⟩ := fluxAlongMhd3_result .y hp.wf hp.valid v1 v2 n3 i5 d5 k6
  have i6 := (s6.ms n4).trans i5
  have d6 := d5.mono s6 n5
  obtain ⟨s7, f7⟩ := fluxAlongMhd3_result .z hp.wf hp.valid v1 v2 n3 i6 d6 k7
  have i7 := (s7.ms n4).trans i6
  have d7 := d6.mono s7 n5
  obtain ⟨s8, f8⟩ := reconstructEmfMhd3_result .x hp.wf v1 v2 n3 i7 d7 k8
  have i8 := (s8.ms n4).trans i7
  have d8 := d7.mono s8 n5
  obtain ⟨s9, f9⟩ := reconstructEmfMhd3_result .y hp.wf v1 v2 n3 i8 d8 k9
  have i9 := (s9.ms n4).trans i8
  have d9 := d8.mono s9 n5
  obtain ⟨s10, f10⟩ := reconstructEmfMhd3_result .z hp.wf v1 v2 n3 i9 d9 k10
  refine ⟨?_, fun i j k => ?_⟩
  · refine (s1.mono ?_).trans ((s2.mono ?_).trans ((s3.mono ?_).trans ((s4.mono ?_).trans
      ((s5.mono ?_).trans ((s6.mono ?_).trans ((s7.mono ?_).trans ((s8.mono ?_).trans
      ((s9.mono ?_).trans (s10.mono ?_)))))))))
    all_goals intro a ha
    · exact Or.inr (mhdOuts3_sub (by decide) a ha)
    · exact Or.inr (mhdOuts3_sub (by decide) a ha)
    · exact Or.inr (mhdOuts3_sub (by decide) a ha)
    · exact Or.inr (mhdOuts3_sub (by decide) a ha)
    all_goals exact Or.inl (by simpa using ha)
  have e4 : ms m4 outA = ms m inA :=
    (s4.ms (by simpa using n2.2.2.2)).trans ((s3.ms (by simpa using n2.2.2.1)).trans
      ((s2.ms (by simpa using n2.2.1)).trans ((s1.ms n2.1).trans hc)))
  unfold stepM3
  refine stepOfM3_gain hp.wf ⟨fluxV2 p dt (ms m .Q) (ms m inA) .x, fluxV2 p dt (ms m .Q) (ms m inA) .y,
    fluxV2 p dt (ms m .Q) (ms m inA) .z, emfV2 p dt (ms m .Q) (ms m inA)⟩ _
    (fun a b c h => ?_) i j k (fun v hv => ?_)
  · unfold schemeM3
    rw [if_pos hi]
    exact fluxesV2_stored hp.gw hq h
  · rw [f10, f9, f8, f7, f6, f5, mem_of_ms m4 outA i j k v hv, e4]
    simp only [Dir.dtd]
    split_ifs
    · exact_add
    · simp

end EulerKokkos
