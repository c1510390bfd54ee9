import Verif.Props.Incremental
import Verif.Props.ForceBalance

/-!
# Virtual work along a chain of beam segments

Two fields `f` and `g` on the same chain. The work of the section forces of `f`
on the displacements of `g` grows along the beam by the work of the stresses of
`f` on the strains of `g` minus the work of the loads.
-/

namespace Weac.Spec

/-- Work of the section forces of `f` on the displacements of `g`. -/
def Beam.cross (b : Beam) (f g : Vec6) : ℝ := b.N f * g 0 + b.M f * g 4 + b.V f * g 2

/-- Work of the section forces of `f` on the strains of the slab under `g`. -/
def Beam.slabWork (b : Beam) (f g : Vec6) : ℝ := b.N f * g 1 + b.M f * g 5 + b.V f * (g 3 + g 4)

/-- Work of the weak-layer tractions of `f` on the displacements of `g`. The shear
traction acts with lever arm `(h + t) / 2`. -/
noncomputable def Beam.layerWork (b : Beam) (f g : Vec6) : ℝ :=
  b.kn * f 2 * g 2 + b.tau f * (g 0 + (b.h + b.t) / 2 * g 4)

/-- Work of a distributed load. -/
def distWork (d : ℝ × ℝ × ℝ) (g : Vec6) : ℝ := d.1 * g 0 + d.2.1 * g 2 - d.2.2 * g 4

/-- Work of a point load, given as jump of the section forces. -/
def jumpWork (F : ℝ × ℝ × ℝ) (g : Vec6) : ℝ := F.1 * g 0 + F.2.1 * g 4 + F.2.2 * g 2

theorem Beam.slabWork_comm (b : Beam) (f g : Vec6) : b.slabWork f g = b.slabWork g f := by
  simp only [Beam.slabWork, Beam.N, Beam.M, Beam.V]
  ring

/-- The integrand of the principle of virtual work. -/
noncomputable def Beam.virtual (b : Beam) (bed : Bool) (d : ℝ × ℝ × ℝ) (f g : Vec6) : ℝ :=
  b.slabWork f g + (if bed then b.layerWork f g else 0) - distWork d g

theorem Driven.apply_cont {b : Beam} {bed : Bool} {d : ℝ × ℝ × ℝ} {f : ℝ → Vec6} (h : Driven b bed d f) (i : Fin 6) :
    Continuous fun x => f x i := h.comp_cont i

/-- Quantities that depend continuously on two fields. -/
theorem Driven.cont₂ {b b' : Beam} {bed bed' : Bool} {d d' : ℝ × ℝ × ℝ} {f g : ℝ → Vec6} (hf : Driven b bed d f)
    (hg : Driven b' bed' d' g) {q : Vec6 → Vec6 → ℝ} (hq : Continuous fun p : Vec6 × Vec6 => q p.1 p.2) :
    Continuous fun x => q (f x) (g x) := hq.comp (hf.continuous.prodMk hg.continuous)

theorem Beam.virtual_cont (b : Beam) (bed : Bool) (d : ℝ × ℝ × ℝ) :
    Continuous fun p : Vec6 × Vec6 => b.virtual bed d p.1 p.2 := by
  unfold Beam.virtual Beam.slabWork Beam.layerWork distWork Beam.N Beam.M Beam.V Beam.tau
  cases bed
  · simp only [Bool.false_eq_true, if_false]; fun_prop
  · simp only [if_true]; fun_prop

/-- Virtual work over one segment. -/
theorem virtual_segment {b : Beam} {bed bed' : Bool} {d d' : ℝ × ℝ × ℝ} {f g : ℝ → Vec6} (hf : Driven b bed d f)
    (hg : Driven b bed' d' g) (l : ℝ) :
    ∫ x in (0 : ℝ)..l, b.virtual bed d (f x) (g x) = b.cross (f l) (g l) - b.cross (f 0) (g 0) := by
  refine intervalIntegral.integral_eq_sub_of_hasDerivAt (f := fun x => b.cross (f x) (g x)) (fun x _ => ?_)
    ((hf.cont₂ hg (b.virtual_cont bed d)).intervalIntegrable _ _)
  obtain ⟨dz, h1, ⟨-, -, -⟩, eN, eV, eM⟩ := hf x
  obtain ⟨dg, h2, ⟨k0, k2, k4⟩, -, -, -⟩ := hg x
  have p := fun i => (hasDerivAt_pi.mp h1) i
  have q := fun i => (hasDerivAt_pi.mp h2) i
  have hN : HasDerivAt (fun y => b.N (f y)) (b.A * dz 1 + b.B * dz 5) x := ((p 1).const_mul _).add ((p 5).const_mul _)
  have hM : HasDerivAt (fun y => b.M (f y)) (b.B * dz 1 + b.D * dz 5) x := ((p 1).const_mul _).add ((p 5).const_mul _)
  have hV : HasDerivAt (fun y => b.V (f y)) (b.S * (dz 3 + dz 4)) x := ((p 3).add (p 4)).const_mul _
  refine (((hN.mul (q 0)).add (hM.mul (q 4))).add (hV.mul (q 2))).congr_deriv ?_
  rw [eN, eV, eM, k0, k2, k4]
  cases bed
  · simp only [Beam.virtual, Beam.slabWork, distWork, Bool.false_eq_true, if_false]; ring
  · simp only [Beam.virtual, Beam.slabWork, Beam.layerWork, distWork, if_true]; ring

/-- A field on a chain of `n + 1` segments: in balance with the load `d`, displacements and
rotations continuous, section forces jump by `F`. -/
structure Chain (b : Beam) (n : ℕ) (l : ℕ → ℝ) (k : ℕ → Bool) (d : ℝ × ℝ × ℝ) (F : ℕ → ℝ × ℝ × ℝ) (Z : ℕ → ℝ → Vec6) : Prop where
  driven : ∀ i, i < n + 1 → Driven b (k i) d (Z i)
  trans : ∀ i, i < n → Transmission b (F i) (Z i (l i)) (Z (i + 1) 0)

/-- Principle of virtual work for a chain. -/
theorem Chain.virtual {b : Beam} {n : ℕ} {l : ℕ → ℝ} {k k' : ℕ → Bool} {d d' : ℝ × ℝ × ℝ} {F F' : ℕ → ℝ × ℝ × ℝ}
    {f g : ℕ → ℝ → Vec6} (hf : Chain b n l k d F f) (hg : Chain b n l k' d' F' g) :
    ∑ i ∈ Finset.range (n + 1), ∫ x in (0 : ℝ)..l i, b.virtual (k i) d (f i x) (g i x)
      = b.cross (f n (l n)) (g n (l n)) - b.cross (f 0 0) (g 0 0) + ∑ i ∈ Finset.range n, jumpWork (F i) (g i (l i)) := by
  rw [← chain_telescope n (fun i => b.cross (f i 0) (g i 0)) (fun i => b.cross (f i (l i)) (g i (l i)))
    (fun i => jumpWork (F i) (g i (l i))) fun i hi => ?_]
  · refine Finset.sum_congr rfl fun i hi => ?_
    exact virtual_segment (hf.driven i (Finset.mem_range.1 hi)) (hg.driven i (Finset.mem_range.1 hi)) (l i)
  · have h := hf.trans i (by omega)
    have h' := hg.trans i (by omega)
    simp only [Beam.cross, jumpWork]
    rw [← h.N, ← h.M, ← h.V, ← h'.u, ← h'.w, ← h'.psi]
    ring

/-! ## Potential -/

/-- Energy per length stored in the slab and, if it is there, in the weak layer. -/
noncomputable def Beam.stored (b : Beam) (bed : Bool) (z : Vec6) : ℝ :=
  (b.N z * z 1 + b.M z * z 5 + b.V z * (z 3 + z 4)) / 2 + if bed then (b.kn * z 2 ^ 2 + b.tau z * b.slip z) / 2 else 0

/-- Work done at an end: by prescribed section forces, or by a prescribed normal force
less the energy stored in a rotational spring. -/
noncomputable def EndCond.work : EndCond → Vec6 → ℝ
  | .forces N M V, z => N * z 0 + M * z 4 + V * z 2
  | .contact N kR _, z => N * z 0 - kR * z 4 ^ 2 / 2
  | .state _ _ _, _ => 0

theorem EndCond.work_diff {b : Beam} {e : EndCond} {f g : Vec6} (hf : e.Holds b f) (hg : e.Holds b g) :
    b.cross f g - b.cross f f + (b.cross g g - b.cross g f) = 2 * (e.work g - e.work f) := by
  cases e with
  | forces N M V =>
    obtain ⟨f1, f2, f3⟩ := hf
    obtain ⟨g1, g2, g3⟩ := hg
    simp only [Beam.cross, EndCond.work, f1, f2, f3, g1, g2, g3]
    ring
  | contact N kR w =>
    obtain ⟨f1, f2, f3⟩ := hf
    obtain ⟨g1, g2, g3⟩ := hg
    have f2' : b.M f = -(kR * f 4) := by linarith
    have g2' : b.M g = -(kR * g 4) := by linarith
    simp only [Beam.cross, EndCond.work, f1, f2', f3, g1, g2', g3]
    ring
  | state u w psi =>
    obtain ⟨f1, f2, f3⟩ := hf
    obtain ⟨g1, g2, g3⟩ := hg
    simp only [Beam.cross, EndCond.work, f1, f2, f3, g1, g2, g3]
    ring

/-- Total potential: stored energy less the work of distributed loads, point loads and
ends. -/
noncomputable def chainPotential (b : Beam) (n : ℕ) (l : ℕ → ℝ) (k : ℕ → Bool) (d : ℝ × ℝ × ℝ) (F : ℕ → ℝ × ℝ × ℝ)
    (e0 e1 : EndCond) (Z : ℕ → ℝ → Vec6) : ℝ :=
  (∑ i ∈ Finset.range (n + 1), ∫ x in (0 : ℝ)..l i, (b.stored (k i) (Z i x) - distWork d (Z i x)))
    - (∑ i ∈ Finset.range n, jumpWork (F i) (Z i (l i))) - (e1.work (Z n (l n)) - e0.work (Z 0 0))

/-- Work per length by which the model departs from a potential when `z` replaces `y`: the
shear traction turns the slab with lever arm `(h + t) / 2` while the slip counts
`h / 2 psi - t / 2 w'`; the difference is the shear strain of the slab. -/
noncomputable def Beam.defect (b : Beam) (ky kz : Bool) (y z : Vec6) : ℝ :=
  b.t / 4 * ((if ky then b.tau y else 0) + (if kz then b.tau z else 0)) * ((z 3 + z 4) - (y 3 + y 4))

/-- Work of the weak-layer tractions before cracking on the displacements after it. -/
noncomputable def Beam.opening (b : Beam) (y z : Vec6) : ℝ := b.kn * y 2 * z 2 + b.tau y * b.slip z

theorem Beam.stored_cont (b : Beam) (bed : Bool) : Continuous fun z : Vec6 => b.stored bed z := by
  unfold Beam.stored Beam.N Beam.M Beam.V Beam.tau Beam.slip
  cases bed
  · simp only [Bool.false_eq_true, if_false]; fun_prop
  · simp only [if_true]; fun_prop

theorem distWork_cont (d : ℝ × ℝ × ℝ) : Continuous fun z : Vec6 => distWork d z := by
  unfold distWork; fun_prop

theorem integral_combine {f1 f2 f3 f4 f5 f6 : ℝ → ℝ} (h1 : Continuous f1) (h2 : Continuous f2) (h3 : Continuous f3)
    (h4 : Continuous f4) (h5 : Continuous f5) (h6 : Continuous f6) (l : ℝ) :
    (∫ x in (0 : ℝ)..l, f1 x) - (∫ x in (0 : ℝ)..l, f2 x) + ((∫ x in (0 : ℝ)..l, f3 x) - (∫ x in (0 : ℝ)..l, f4 x)
      + (∫ x in (0 : ℝ)..l, f5 x) - (∫ x in (0 : ℝ)..l, f6 x)) / 2
    = ∫ x in (0 : ℝ)..l, (f1 x - f2 x + (f3 x - f4 x + f5 x - f6 x) / 2) := by
  have i : ∀ {f : ℝ → ℝ}, Continuous f → IntervalIntegrable f MeasureTheory.volume 0 l := fun h => h.intervalIntegrable _ _
  rw [intervalIntegral.integral_add (i (by fun_prop)) (i (by fun_prop)), intervalIntegral.integral_sub (i h1) (i h2),
    intervalIntegral.integral_div, intervalIntegral.integral_sub (i (by fun_prop)) (i h6),
    intervalIntegral.integral_add (i (by fun_prop)) (i h5), intervalIntegral.integral_sub (i h3) (i h4)]

/-- What a growing crack releases. -/
theorem Chain.released {b : Beam} {n : ℕ} {l : ℕ → ℝ} {k0 k1 : ℕ → Bool} {d : ℝ × ℝ × ℝ} {F : ℕ → ℝ × ℝ × ℝ}
    {e0 e1 : EndCond} {y z : ℕ → ℝ → Vec6} (hy : Chain b n l k0 d F y) (hz : Chain b n l k1 d F z)
    (hk : ∀ i, i < n + 1 → k1 i = true → k0 i = true)
    (y0 : e0.Holds b (y 0 0)) (z0 : e0.Holds b (z 0 0)) (y1 : e1.Holds b (y n (l n))) (z1 : e1.Holds b (z n (l n))) :
    chainPotential b n l k0 d F e0 e1 y - chainPotential b n l k1 d F e0 e1 z
      = ∑ i ∈ Finset.range (n + 1), (if k0 i && !k1 i then (∫ x in (0 : ℝ)..l i, b.opening (y i x) (z i x)) / 2 else 0)
        + ∑ i ∈ Finset.range (n + 1), ∫ x in (0 : ℝ)..l i, b.defect (k0 i) (k1 i) (y i x) (z i x) := by
  have vyy := hy.virtual hy
  have vyz := hy.virtual hz
  have vzy := hz.virtual hy
  have vzz := hz.virtual hz
  have w0 := EndCond.work_diff y0 z0
  have w1 := EndCond.work_diff y1 z1
  have seg : ∀ i ∈ Finset.range (n + 1),
      (∫ x in (0 : ℝ)..l i, (b.stored (k0 i) (y i x) - distWork d (y i x)))
        - (∫ x in (0 : ℝ)..l i, (b.stored (k1 i) (z i x) - distWork d (z i x)))
        + ((∫ x in (0 : ℝ)..l i, b.virtual (k0 i) d (y i x) (z i x)) - (∫ x in (0 : ℝ)..l i, b.virtual (k0 i) d (y i x) (y i x))
        + (∫ x in (0 : ℝ)..l i, b.virtual (k1 i) d (z i x) (z i x)) - (∫ x in (0 : ℝ)..l i, b.virtual (k1 i) d (z i x) (y i x))) / 2
      = (if k0 i && !k1 i then (∫ x in (0 : ℝ)..l i, b.opening (y i x) (z i x)) / 2 else 0)
        + ∫ x in (0 : ℝ)..l i, b.defect (k0 i) (k1 i) (y i x) (z i x) := by
    intro i hi
    have hi := Finset.mem_range.1 hi
    have dy := hy.driven i hi
    have dz := hz.driven i hi
    have cy := dy.continuous
    have cz := dz.continuous
    have co : Continuous fun x => b.opening (y i x) (z i x) := by
      refine dy.cont₂ dz (q := b.opening) ?_
      unfold Beam.opening Beam.tau Beam.slip; fun_prop
    have cd : Continuous fun x => b.defect (k0 i) (k1 i) (y i x) (z i x) := by
      refine dy.cont₂ dz (q := b.defect (k0 i) (k1 i)) ?_
      unfold Beam.defect Beam.tau
      cases k0 i <;> cases k1 i <;> simp only [Bool.false_eq_true, if_false, if_true] <;> fun_prop
    have i7 := co.intervalIntegrable (μ := MeasureTheory.volume) 0 (l i)
    have i8 := cd.intervalIntegrable (μ := MeasureTheory.volume) 0 (l i)
    have e1 : (if k0 i && !k1 i then (∫ x in (0 : ℝ)..l i, b.opening (y i x) (z i x)) / 2 else 0)
        = ∫ x in (0 : ℝ)..l i, (if k0 i && !k1 i then b.opening (y i x) (z i x) / 2 else 0) := by
      split_ifs
      · rw [intervalIntegral.integral_div]
      · simp
    have i9 : IntervalIntegrable (fun x => if k0 i && !k1 i then b.opening (y i x) (z i x) / 2 else 0) MeasureTheory.volume 0 (l i) := by
      split_ifs
      · exact i7.div_const 2
      · exact intervalIntegrable_const
    rw [e1, ← intervalIntegral.integral_add i9 i8, integral_combine
      (f1 := fun x => b.stored (k0 i) (y i x) - distWork d (y i x)) (f2 := fun x => b.stored (k1 i) (z i x) - distWork d (z i x))
      (((b.stored_cont (k0 i)).comp cy).sub ((distWork_cont d).comp cy)) (((b.stored_cont (k1 i)).comp cz).sub ((distWork_cont d).comp cz))
      (dy.cont₂ dz (b.virtual_cont (k0 i) d)) (dy.cont₂ dy (b.virtual_cont (k0 i) d))
      (dz.cont₂ dz (b.virtual_cont (k1 i) d)) (dz.cont₂ dy (b.virtual_cont (k1 i) d))]
    refine intervalIntegral.integral_congr fun x _ => ?_
    have hk := hk i hi
    simp only [Beam.virtual, Beam.stored, Beam.slabWork, Beam.layerWork, Beam.opening, Beam.defect, Beam.slip, Beam.tau, Beam.N,
      Beam.M, Beam.V]
    cases h0 : k0 i <;> cases h1 : k1 i
    · simp; ring
    · rw [h0, h1] at hk; exact absurd (hk rfl) (by decide)
    · simp; ring
    · simp; ring
  rw [← Finset.sum_add_distrib, ← Finset.sum_congr rfl seg]
  simp only [Finset.sum_add_distrib, Finset.sum_sub_distrib, ← Finset.sum_div]
  rw [vyy, vyz, vzy, vzz]
  unfold chainPotential
  linear_combination (w0 - w1) / 2

/-- The work of the loads on their own field. -/
theorem Chain.clapeyron {b : Beam} {n : ℕ} {l : ℕ → ℝ} {k : ℕ → Bool} {d : ℝ × ℝ × ℝ} {F : ℕ → ℝ × ℝ × ℝ} {z : ℕ → ℝ → Vec6}
    (hz : Chain b n l k d F z) :
    (∑ i ∈ Finset.range (n + 1), ∫ x in (0 : ℝ)..l i, distWork d (z i x)) + (∑ i ∈ Finset.range n, jumpWork (F i) (z i (l i)))
        + (b.cross (z n (l n)) (z n (l n)) - b.cross (z 0 0) (z 0 0))
      = 2 * (∑ i ∈ Finset.range (n + 1), ∫ x in (0 : ℝ)..l i, b.stored (k i) (z i x))
        + ∑ i ∈ Finset.range (n + 1), ∫ x in (0 : ℝ)..l i, (if k i then b.t / 2 * b.tau (z i x) * (z i x 3 + z i x 4) else 0) := by
  have v := hz.virtual hz
  have seg : ∀ i ∈ Finset.range (n + 1), (∫ x in (0 : ℝ)..l i, b.virtual (k i) d (z i x) (z i x)) + ∫ x in (0 : ℝ)..l i, distWork d (z i x)
      = 2 * (∫ x in (0 : ℝ)..l i, b.stored (k i) (z i x))
        + ∫ x in (0 : ℝ)..l i, (if k i then b.t / 2 * b.tau (z i x) * (z i x 3 + z i x 4) else 0) := by
    intro i hi
    have dz := hz.driven i (Finset.mem_range.1 hi)
    have cz := dz.continuous
    have i1 := (dz.cont₂ dz (b.virtual_cont (k i) d)).intervalIntegrable (μ := MeasureTheory.volume) 0 (l i)
    have i2 := ((distWork_cont d).comp cz).intervalIntegrable (μ := MeasureTheory.volume) 0 (l i)
    have i3 := ((b.stored_cont (k i)).comp cz).intervalIntegrable (μ := MeasureTheory.volume) 0 (l i)
    have c4 : Continuous fun x => if k i then b.t / 2 * b.tau (z i x) * (z i x 3 + z i x 4) else 0 := by
      refine dz.cont₂ dz (q := fun p _ => if k i then b.t / 2 * b.tau p * (p 3 + p 4) else 0) ?_
      unfold Beam.tau
      cases k i <;> simp only [Bool.false_eq_true, if_false, if_true] <;> fun_prop
    have i4 := c4.intervalIntegrable (μ := MeasureTheory.volume) 0 (l i)
    simp only [Function.comp_def] at i2 i3
    rw [← intervalIntegral.integral_const_mul, ← intervalIntegral.integral_add i1 i2, ← intervalIntegral.integral_add (i3.const_mul 2) i4]
    refine intervalIntegral.integral_congr fun x _ => ?_
    simp only [Beam.virtual, Beam.stored, Beam.slabWork, Beam.layerWork, Beam.slip, Beam.tau, Beam.N, Beam.M, Beam.V]
    cases k i
    · simp; ring
    · simp; ring
  have s := Finset.sum_congr rfl seg
  simp only [Finset.sum_add_distrib, ← Finset.mul_sum] at s
  rw [v] at s
  rw [← s]
  ring

end Weac.Spec
