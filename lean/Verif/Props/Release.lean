import Verif.Props.Sag

/-!
# C83: breaking the weak layer releases energy

The work of the weak-layer tractions before a crack has grown on opening and slip
after it is at least the work on opening and slip before it, that is twice the
energy stored in the part of the weak layer that breaks, up to a factor close to
one for the shear part.
-/

namespace Weac

namespace Spec

variable {b : Beam}

/-- The strain work of the change of a field when the support is taken away from some
segments, and the work of the tractions that vanish. -/
theorem Chain.growth {n : ℕ} {l : ℕ → ℝ} {k0 k1 : ℕ → Bool} {d : ℝ × ℝ × ℝ} {F : ℕ → ℝ × ℝ × ℝ}
    {e0 e1 : EndCond} {y z : ℕ → ℝ → Vec6} (hy : Chain b n l k0 d F y) (hz : Chain b n l k1 d F z)
    (hk : ∀ i, i < n + 1 → k1 i = true → k0 i = true)
    (n0 : ∀ f g, e0.Holds b f → e0.Holds b g → b.cross (g - f) (g - f) = 0)
    (n1 : ∀ f g, e1.Holds b f → e1.Holds b g → b.cross (g - f) (g - f) = 0)
    (y0 : e0.Holds b (y 0 0)) (z0 : e0.Holds b (z 0 0)) (y1 : e1.Holds b (y n (l n))) (z1 : e1.Holds b (z n (l n))) :
    ∑ i ∈ Finset.range (n + 1), ∫ x in (0 : ℝ)..l i, b.diss (k1 i) (z i x - y i x)
      = ∑ i ∈ Finset.range (n + 1), ∫ x in (0 : ℝ)..l i,
          (if k0 i && !k1 i then b.layerWork (y i x) (z i x - y i x) else 0) := by
  have vyy := hy.virtual hy
  have vyz := hy.virtual hz
  have vzy := hz.virtual hy
  have vzz := hz.virtual hz
  have w0 := n0 _ _ y0 z0
  have w1 := n1 _ _ y1 z1
  have bil : ∀ f g : Vec6, b.cross (g - f) (g - f) = b.cross g g - b.cross g f - b.cross f g + b.cross f f := by
    intro f g
    simp only [Beam.cross, Beam.N, Beam.M, Beam.V, Pi.sub_apply]
    ring
  rw [bil] at w0 w1
  have seg : ∀ i ∈ Finset.range (n + 1), (∫ x in (0 : ℝ)..l i, b.diss (k1 i) (z i x - y i x))
      - (∫ x in (0 : ℝ)..l i, (if k0 i && !k1 i then b.layerWork (y i x) (z i x - y i x) else 0))
      = (∫ x in (0 : ℝ)..l i, b.virtual (k1 i) d (z i x) (z i x)) - (∫ x in (0 : ℝ)..l i, b.virtual (k1 i) d (z i x) (y i x))
        - (∫ x in (0 : ℝ)..l i, b.virtual (k0 i) d (y i x) (z i x)) + ∫ x in (0 : ℝ)..l i, b.virtual (k0 i) d (y i x) (y i x) := by
    intro i hi
    have hi := Finset.mem_range.1 hi
    have dy := hy.driven i hi
    have dz := hz.driven i hi
    have c1 : Continuous fun x => b.diss (k1 i) (z i x - y i x) := by
      refine dy.cont₂ dz (q := fun p q => b.diss (k1 i) (q - p)) ?_
      unfold Beam.diss Beam.tau
      cases k1 i <;> simp only [Bool.false_eq_true, if_false, if_true, Pi.sub_apply] <;> fun_prop
    have c2 : Continuous fun x => if k0 i && !k1 i then b.layerWork (y i x) (z i x - y i x) else 0 := by
      refine dy.cont₂ dz (q := fun p q => if k0 i && !k1 i then b.layerWork p (q - p) else 0) ?_
      unfold Beam.layerWork Beam.tau
      split_ifs
      · simp only [Pi.sub_apply]; fun_prop
      · fun_prop
    have c3 := dz.cont₂ dz (b.virtual_cont (k1 i) d)
    have c4 := dz.cont₂ dy (b.virtual_cont (k1 i) d)
    have c5 := dy.cont₂ dz (b.virtual_cont (k0 i) d)
    have c6 := dy.cont₂ dy (b.virtual_cont (k0 i) d)
    have ii : ∀ {f : ℝ → ℝ}, Continuous f → IntervalIntegrable f MeasureTheory.volume 0 (l i) := fun h => h.intervalIntegrable _ _
    rw [← intervalIntegral.integral_sub (ii c1) (ii c2), ← intervalIntegral.integral_sub (ii c3) (ii c4),
      ← intervalIntegral.integral_sub (ii (by fun_prop)) (ii c5), ← intervalIntegral.integral_add (ii (by fun_prop)) (ii c6)]
    refine intervalIntegral.integral_congr fun x _ => ?_
    have hk := hk i hi
    simp only [Beam.virtual, Beam.diss, Beam.slabWork, Beam.layerWork, distWork, Beam.tau, Beam.N, Beam.M, Beam.V, Pi.sub_apply]
    cases h0 : k0 i <;> cases h1 : k1 i
    · simp; ring
    · rw [h0, h1] at hk; exact absurd (hk rfl) (by decide)
    · simp; ring
    · simp; ring
  have s := Finset.sum_congr rfl seg
  simp only [Finset.sum_add_distrib, Finset.sum_sub_distrib] at s
  rw [vyy, vyz, vzy, vzz] at s
  linear_combination s + w1 - w0

/-- Twice the energy per length in the weak layer, the shear part less the share that the
shear strain of the slab may take. -/
noncomputable def Beam.layerEnergy (b : Beam) (z : Vec6) : ℝ :=
  b.kn * z 2 ^ 2 + (1 - b.kt * b.t ^ 2 / (16 * b.S)) * (b.kt * b.slip z ^ 2)

theorem Beam.Coercive.layerEnergy_nonneg (hb : b.Coercive) (z : Vec6) : 0 ≤ b.layerEnergy z := by
  have h1 : 0 < 16 * b.S := by have := hb.S; positivity
  have h2 : b.kt * b.t ^ 2 / (16 * b.S) < 1 := by rw [div_lt_one h1]; exact hb.shear
  have := mul_nonneg hb.kn.le (sq_nonneg (z 2))
  have := mul_nonneg (sub_nonneg.2 h2.le) (mul_nonneg hb.kt.le (sq_nonneg (b.slip z)))
  unfold Beam.layerEnergy
  linarith

theorem Beam.Coercive.opening_ge (hb : b.Coercive) (y z : Vec6) :
    b.layerEnergy y + b.layerWork y (z - y) - b.diss false (z - y) ≤ b.opening y z := by
  have h1 := (hb.slab ((z - y) 1) ((z - y) 5)).1
  have hS := hb.S
  have e : b.opening y z - b.layerEnergy y - b.layerWork y (z - y) + b.diss false (z - y)
      = (b.A * (z - y) 1 ^ 2 + 2 * b.B * (z - y) 1 * (z - y) 5 + b.D * (z - y) 5 ^ 2)
        + b.S * ((z - y) 3 + (z - y) 4 - b.t * b.tau y / (4 * b.S)) ^ 2 := by
    have : b.tau y = b.kt * b.slip y := rfl
    simp only [Beam.opening, Beam.layerEnergy, Beam.layerWork, Beam.diss, this, Bool.false_eq_true, if_false, Pi.sub_apply]
    field_simp
    simp only [Beam.slip]
    ring
  have h2 : 0 ≤ b.S * ((z - y) 3 + (z - y) 4 - b.t * b.tau y / (4 * b.S)) ^ 2 := by positivity
  linarith

/-- What the broken tractions do on opening and slip. -/
theorem Chain.opening_ge (hb : b.Coercive) {n : ℕ} {l : ℕ → ℝ} {k0 k1 : ℕ → Bool} {d : ℝ × ℝ × ℝ} {F : ℕ → ℝ × ℝ × ℝ}
    {e0 e1 : EndCond} {y z : ℕ → ℝ → Vec6} (hy : Chain b n l k0 d F y) (hz : Chain b n l k1 d F z)
    (hk : ∀ i, i < n + 1 → k1 i = true → k0 i = true) (hl : ∀ i, i < n + 1 → 0 ≤ l i)
    (n0 : ∀ f g, e0.Holds b f → e0.Holds b g → b.cross (g - f) (g - f) = 0)
    (n1 : ∀ f g, e1.Holds b f → e1.Holds b g → b.cross (g - f) (g - f) = 0)
    (y0 : e0.Holds b (y 0 0)) (z0 : e0.Holds b (z 0 0)) (y1 : e1.Holds b (y n (l n))) (z1 : e1.Holds b (z n (l n))) :
    ∑ i ∈ Finset.range (n + 1), (if k0 i && !k1 i then ∫ x in (0 : ℝ)..l i, b.layerEnergy (y i x) else 0)
      ≤ ∑ i ∈ Finset.range (n + 1), (if k0 i && !k1 i then ∫ x in (0 : ℝ)..l i, b.opening (y i x) (z i x) else 0) := by
  have g := Chain.growth hy hz hk n0 n1 y0 z0 y1 z1
  have seg : ∀ i ∈ Finset.range (n + 1),
      (if k0 i && !k1 i then ∫ x in (0 : ℝ)..l i, b.layerEnergy (y i x) else 0)
        + (∫ x in (0 : ℝ)..l i, (if k0 i && !k1 i then b.layerWork (y i x) (z i x - y i x) else 0))
        - (∫ x in (0 : ℝ)..l i, b.diss (k1 i) (z i x - y i x))
      ≤ if k0 i && !k1 i then ∫ x in (0 : ℝ)..l i, b.opening (y i x) (z i x) else 0 := by
    intro i hi
    have hi := Finset.mem_range.1 hi
    have dy := hy.driven i hi
    have dz := hz.driven i hi
    by_cases h : (k0 i && !k1 i) = true
    · simp only [h, if_true]
      have hk1 : k1 i = false := by
        have := (Bool.and_eq_true _ _ ▸ h).2
        simpa using this
      rw [hk1]
      have c1 : Continuous fun x => b.layerEnergy (y i x) := by
        refine dy.cont₂ dz (q := fun p _ => b.layerEnergy p) ?_
        unfold Beam.layerEnergy Beam.slip; fun_prop
      have c2 : Continuous fun x => b.layerWork (y i x) (z i x - y i x) := by
        refine dy.cont₂ dz (q := fun p q => b.layerWork p (q - p)) ?_
        unfold Beam.layerWork Beam.tau
        simp only [Pi.sub_apply]; fun_prop
      have c3 : Continuous fun x => b.diss false (z i x - y i x) := by
        refine dy.cont₂ dz (q := fun p q => b.diss false (q - p)) ?_
        unfold Beam.diss
        simp only [Bool.false_eq_true, if_false, Pi.sub_apply]; fun_prop
      have c4 : Continuous fun x => b.opening (y i x) (z i x) := by
        refine dy.cont₂ dz (q := b.opening) ?_
        unfold Beam.opening Beam.tau Beam.slip; fun_prop
      have ii : ∀ {f : ℝ → ℝ}, Continuous f → IntervalIntegrable f MeasureTheory.volume 0 (l i) := fun h => h.intervalIntegrable _ _
      rw [← intervalIntegral.integral_add (ii c1) (ii c2), ← intervalIntegral.integral_sub (ii (by fun_prop)) (ii c3)]
      exact intervalIntegral.integral_mono_on (hl i hi) (ii ((c1.add c2).sub c3)) (ii c4) fun x _ => hb.opening_ge _ _
    · have h' : (k0 i && !k1 i) = false := by simpa using h
      simp only [h', Bool.false_eq_true, if_false, intervalIntegral.integral_zero, zero_add, zero_sub, Left.neg_nonpos_iff]
      exact intervalIntegral.integral_nonneg (hl i hi) fun x _ => hb.diss_nonneg _ _
  have s := Finset.sum_le_sum seg
  simp only [Finset.sum_add_distrib, Finset.sum_sub_distrib] at s
  rw [g] at s
  linarith

/-- A stretch of weak layer without tractions: the slab above it is not loaded and keeps
its state. -/
theorem Driven.silent (hb : b.Coercive) {d : ℝ × ℝ × ℝ} {f : ℝ → Vec6} (hf : Driven b true d f) {l : ℝ}
    (h : ∀ x ∈ Set.Ioo 0 l, f x 2 = 0 ∧ b.slip (f x) = 0) (x : ℝ) (hx : x ∈ Set.Ioo 0 l) :
    d.1 = 0 ∧ d.2.1 = 0 ∧ f x 1 = 0 ∧ f x 2 = 0 ∧ f x 3 = 0 ∧ f x 5 = 0 ∧ f x 0 = -(b.h / 2 * f x 4) ∧ b.S * f x 4 + d.2.2 = 0 := by
  -- derivative of a quantity that vanishes on the stretch
  have van : ∀ (q : ℝ → ℝ) (q' x : ℝ), x ∈ Set.Ioo 0 l → HasDerivAt q q' x → (∀ y ∈ Set.Ioo 0 l, q y = 0) → q' = 0 := by
    intro q q' x hx hq h0
    have hev : q =ᶠ[nhds x] fun _ => (0 : ℝ) :=
      Filter.eventually_of_mem (Ioo_mem_nhds hx.1 hx.2) fun y hy => h0 y hy
    exact (hq.congr_of_eventuallyEq hev.symm).unique (hasDerivAt_const _ _)
  have r3 : ∀ y ∈ Set.Ioo 0 l, f y 3 = 0 := by
    intro y hy
    obtain ⟨dz, h1, ⟨-, k2, -⟩, -⟩ := hf y
    rw [← k2]
    exact van _ _ y hy (hasDerivAt_pi.mp h1 2) fun x hx => (h x hx).1
  have r0 : ∀ y ∈ Set.Ioo 0 l, f y 0 + b.h / 2 * f y 4 = 0 := by
    intro y hy
    have := (h y hy).2
    unfold Beam.slip at this
    rw [r3 y hy] at this
    linarith
  have r1 : ∀ y ∈ Set.Ioo 0 l, f y 1 + b.h / 2 * f y 5 = 0 := by
    intro y hy
    obtain ⟨dz, h1, ⟨k0, -, k4⟩, -⟩ := hf y
    rw [← k0, ← k4]
    exact van _ _ y hy ((hasDerivAt_pi.mp h1 0).add ((hasDerivAt_pi.mp h1 4).const_mul _)) fun x hx => r0 x hx
  have r5 : ∀ y ∈ Set.Ioo 0 l, b.S * f y 5 + d.2.1 = 0 := by
    intro y hy
    obtain ⟨dz, h1, ⟨-, -, k4⟩, -, eV, -⟩ := hf y
    have d3 := van _ _ y hy (hasDerivAt_pi.mp h1 3) r3
    rw [d3, k4, zero_add] at eV
    rw [eV]
    simp [(h y hy).1]
  have rest : ∀ y ∈ Set.Ioo 0 l, d.1 = 0 ∧ b.S * f y 4 + d.2.2 = 0 := by
    intro y hy
    obtain ⟨dz, h1, -, eN, -, eM⟩ := hf y
    have d5 := van _ _ y hy (((hasDerivAt_pi.mp h1 5).const_mul b.S).add_const d.2.1) r5
    have d5' : dz 5 = 0 := (mul_eq_zero.mp d5).resolve_left hb.S.ne'
    have d1 := van _ _ y hy ((hasDerivAt_pi.mp h1 1).add ((hasDerivAt_pi.mp h1 5).const_mul (b.h / 2))) r1
    rw [d5', mul_zero, add_zero] at d1
    have tz : b.tau (f y) = 0 := by
      show b.kt * b.slip (f y) = 0
      rw [(h y hy).2, mul_zero]
    rw [d1, d5', tz] at eN eM
    have h3 := r3 y hy
    simp [Beam.V, h3] at eN eM
    constructor <;> linarith
  have r4 : ∀ y ∈ Set.Ioo 0 l, f y 5 = 0 := by
    intro y hy
    obtain ⟨dz, h1, ⟨-, -, k4⟩, -⟩ := hf y
    have d4 := van _ _ y hy (((hasDerivAt_pi.mp h1 4).const_mul b.S).add_const d.2.2) fun x hx => (rest x hx).2
    rw [← k4]
    exact (mul_eq_zero.mp d4).resolve_left hb.S.ne'
  have a5 := r4 x hx
  have b5 := r5 x hx
  have b1 := r1 x hx
  have b0 := r0 x hx
  rw [a5] at b5 b1
  exact ⟨(rest x hx).1, by linarith, by linarith, (h x hx).1, r3 x hx, a5, by linarith, (rest x hx).2⟩

theorem Beam.Coercive.layerEnergy_zero (hb : b.Coercive) {z : Vec6} (h : b.layerEnergy z = 0) : z 2 = 0 ∧ b.slip z = 0 := by
  have h1 : 0 < 16 * b.S := by have := hb.S; positivity
  have h2 : b.kt * b.t ^ 2 / (16 * b.S) < 1 := by rw [div_lt_one h1]; exact hb.shear
  have p1 := mul_nonneg hb.kn.le (sq_nonneg (z 2))
  have p2 := mul_nonneg (sub_nonneg.2 h2.le) (mul_nonneg hb.kt.le (sq_nonneg (b.slip z)))
  unfold Beam.layerEnergy at h
  have q1 : b.kn * z 2 ^ 2 = 0 := by linarith
  have q2 : (1 - b.kt * b.t ^ 2 / (16 * b.S)) * (b.kt * b.slip z ^ 2) = 0 := by linarith
  have q3 := (mul_eq_zero.mp q2).resolve_left (sub_pos.2 h2).ne'
  exact ⟨pow_eq_zero_iff two_ne_zero |>.mp ((mul_eq_zero.mp q1).resolve_left hb.kn.ne'),
    pow_eq_zero_iff two_ne_zero |>.mp ((mul_eq_zero.mp q3).resolve_left hb.kt.ne')⟩

/-- A loaded slab puts energy into any stretch of the weak layer. -/
theorem Driven.layer_pos (hb : b.Coercive) {d : ℝ × ℝ × ℝ} {f : ℝ → Vec6} (hf : Driven b true d f) {l : ℝ} (hl : 0 < l)
    (hd : d.1 ≠ 0 ∨ d.2.1 ≠ 0) : 0 < ∫ x in (0 : ℝ)..l, b.layerEnergy (f x) := by
  have c : Continuous fun x => b.layerEnergy (f x) := by
    refine hf.cont₂ hf (q := fun p _ => b.layerEnergy p) ?_
    unfold Beam.layerEnergy Beam.slip; fun_prop
  by_cases hx : ∃ x ∈ Set.Ioo 0 l, b.layerEnergy (f x) ≠ 0
  · obtain ⟨x, hx, hne⟩ := hx
    exact intervalIntegral.integral_pos hl c.continuousOn (fun y _ => hb.layerEnergy_nonneg _)
      ⟨x, ⟨hx.1.le, hx.2.le⟩, lt_of_le_of_ne (hb.layerEnergy_nonneg _) hne.symm⟩
  · push Not at hx
    have hm : l / 2 ∈ Set.Ioo 0 l := ⟨by linarith, by linarith⟩
    obtain ⟨h1, h2, -⟩ := hf.silent hb (fun x hx' => hb.layerEnergy_zero (hx x hx')) _ hm
    rcases hd with hd | hd
    · exact absurd h1 hd
    · exact absurd h2 hd

end Spec

/-- Twice the energy stored in the weak layer below a segment before it breaks; of the
shear part the share `kt t^2 / (16 kA55)` is left out. -/
noncomputable def Spec.brokenEnergy (s : Self) (phi : ℝ) (g : IncSeg) : ℝ :=
  ∫ x in (0 : ℝ)..g.l, (s.kn * fw (zsol s x g.C0 g.l phi true) ^ 2
    + (1 - s.kt * s.t ^ 2 / (16 * s.kA55)) * (ftau s (zsol s x g.C0 g.l phi true) ^ 2 / s.kt))

open Spec

theorem endOf_neutral (s : Self) (phi : ℝ) (f g : Vec6) (hf : (endOf s phi).Holds s.beam f) (hg : (endOf s phi).Holds s.beam g) :
    s.beam.cross (g - f) (g - f) = 0 := by
  have hN : s.beam.N (g - f) = s.beam.N g - s.beam.N f := by simp only [Beam.N, Pi.sub_apply]; ring
  have hM : s.beam.M (g - f) = s.beam.M g - s.beam.M f := by simp only [Beam.M, Pi.sub_apply]; ring
  have hV : s.beam.V (g - f) = s.beam.V g - s.beam.V f := by simp only [Beam.V, Pi.sub_apply]; ring
  unfold Beam.cross
  rw [hN, hM, hV]
  unfold endOf faceForces at hf hg
  split_ifs at hf hg <;> obtain ⟨f1, f2, f3⟩ := hf <;> obtain ⟨g1, g2, g3⟩ := hg
  · rw [f1, f2, f3, g1, g2, g3]; ring
  · rw [f1, f2, f3, g1, g2, g3]; ring
  · simp only [Pi.sub_apply, f1, f2, f3, g1, g2, g3]; ring

theorem broken_sum (s : Self) (phi : ℝ) (hk : s.kt ≠ 0) (a : SegLists) (ki : List Bool) (C0 C1 : List Vec6) :
    ∑ i ∈ Finset.range a.li.length, (if a.ki.getD i false && !ki.getD i false then
      (∫ x in (0 : ℝ)..nth a.li i, s.beam.layerEnergy (zsol s x (C0.getD i 0) (nth a.li i) phi (a.ki.getD i false))) else 0)
    = (((advance a ki C0 C1).filter fun g => g.k0 && !g.ki).map (brokenEnergy s phi)).sum := by
  unfold advance
  generalize a.li.length = m
  induction m with
  | zero => simp
  | succ m ih =>
    rw [Finset.sum_range_succ, ih, List.range_succ, List.map_append, List.filter_append, List.map_append, List.sum_append]
    simp only [List.map_cons, List.map_nil]
    by_cases h : (a.ki.getD m false && !ki.getD m false) = true
    · rw [if_pos h, List.filter_cons_of_pos (p := fun g : IncSeg => g.k0 && !g.ki) h, List.filter_nil]
      simp only [List.map_cons, List.map_nil, List.sum_cons, List.sum_nil, add_zero, brokenEnergy]
      obtain ⟨h1, h2⟩ : a.ki.getD m false = true ∧ ki.getD m false = false := by simpa using h
      rw [h1]
      congr 1
      refine intervalIntegral.integral_congr fun x _ => ?_
      simp only [Beam.layerEnergy, ftau_slip, fw]
      have : (s.kt * s.beam.slip (zsol s x (C0.getD m 0) (nth a.li m) phi true)) ^ 2 / s.kt
          = s.kt * s.beam.slip (zsol s x (C0.getD m 0) (nth a.li m) phi true) ^ 2 := by field_simp
      rw [this]
      rfl
    · rw [if_neg h, List.filter_cons_of_neg (p := fun g : IncSeg => g.k0 && !g.ki) h, List.filter_nil]
      simp

section

variable {num : Numerics} {kind kind' : SeqKind} {phi : ℝ} {a0 a1 a0' a1' : SegLists} {s s0 s1 : Self} {C0 C1 : List Vec6}

/-- C83. Where the weak layer breaks under constant loads, its tractions before do at
least the work on opening and slip after that is stored before, up to a factor for
the shear part. -/
theorem C83_released (hb : BedOk s) (hc : ShearOk s) (hf : EigFresh num.eig s) (hd0 : DeadLoads s a0') (hd1 : DeadLoads s a1')
    (hp : s.B11 * (s.loads phi).pt = 0)
    (h0 : assembleAndSolve num kind phi a0 s = (.ok (C0, a0'), s0)) (h1 : assembleAndSolve num kind' phi a1 s = (.ok (C1, a1'), s1))
    (hl : a1'.li = a0'.li) (hmi : a1'.mi = a0'.mi) (hk : ∀ i, a1'.ki.getD i false = true → a0'.ki.getD i false = true)
    (hn0 : ∀ l ∈ a0'.li, 0 ≤ l)
    (cr : List IncSeg) (hcr : cr = (advance a0' a1'.ki C0 C1).filter fun g => g.k0 && !g.ki) :
    (cr.map (brokenEnergy s phi)).sum ≤ (cr.map (normalWork s phi)).sum + (cr.map (shearWork s phi)).sum := by
  have hv := (assembleWith_valid (sub := spring num) h0).1
  obtain ⟨-, rfl, -, m0, -⟩ := C16_solution_meets_all_conditions num kind phi a0 a0' s s0 C0 hf hd0.faces h0
  obtain ⟨-, -, -, m1, -⟩ := C16_solution_meets_all_conditions num kind' phi a1 a1' s s1 C1 hf hd1.faces h1
  have h2 := full_two hv
  generalize full a0 = a at *
  obtain ⟨l1, mi1, k1⟩ := a1'
  simp only at hl hmi hk hcr ⊢
  subst hl hmi
  obtain ⟨n, hn⟩ : ∃ n, a.li.length = n + 1 := ⟨a.li.length - 1, by omega⟩
  have hn' : (⟨a.li, a.mi, k1⟩ : SegLists).li.length = n + 1 := hn
  have c0 := meets_chain hb hp hn m0
  have c1 := meets_chain hb hp hn' m1
  obtain ⟨l0, r0, -⟩ := m0
  obtain ⟨l1, r1, -⟩ := m1
  rw [(hd0.ends phi _).1] at l0
  rw [(hd0.ends phi _).2] at r0
  rw [(hd1.ends phi _).1] at l1
  rw [(hd1.ends phi _).2] at r1
  simp only [hn, Nat.add_sub_cancel] at r0 r1
  have := Chain.opening_ge (hb.stiff.coercive hc) c0 c1 (fun i _ => hk i) (fun i hi => by
    rw [nth_eq (by omega)]; exact hn0 _ (List.getElem_mem _)) (endOf_neutral s phi) (endOf_neutral s phi) l0 l1 r0 r1
  have e1 := broken_sum s phi hb.stiff.kt.ne' a k1 C0 C1
  have e2 := advance_sum s phi a k1 C0 C1
  rw [← hcr, hn] at e1 e2
  have e3 : ∑ i ∈ Finset.range (n + 1), (if a.ki.getD i false && !k1.getD i false then
      (∫ x in (0 : ℝ)..nth a.li i, s.beam.opening (zsol s x (C0.getD i 0) (nth a.li i) phi (a.ki.getD i false))
        (zsol s x (C1.getD i 0) (nth a.li i) phi (k1.getD i false))) else 0)
      = (cr.map (normalWork s phi)).sum + (cr.map (shearWork s phi)).sum := by
    have : ∀ X Y : ℝ, X = Y / 2 → Y = 2 * X := fun X Y h => by linarith
    have e4 : (cr.map (normalWork s phi)).sum + (cr.map (shearWork s phi)).sum
      = 2 * ((cr.map (normalWork s phi)).sum / 2 + (cr.map (shearWork s phi)).sum / 2) := by ring
    rw [e4, ← e2, Finset.mul_sum]
    refine Finset.sum_congr rfl fun i _ => ?_
    split_ifs <;> ring
  rw [← e1, ← e3]
  exact this

/-- C83, strict part: the work is positive wherever a loaded slab loses support. -/
theorem C83_positive (hb : BedOk s) (hc : ShearOk s) (hf : EigFresh num.eig s) (hd0 : DeadLoads s a0') (hd1 : DeadLoads s a1')
    (hp : s.B11 * (s.loads phi).pt = 0)
    (h0 : assembleAndSolve num kind phi a0 s = (.ok (C0, a0'), s0)) (h1 : assembleAndSolve num kind' phi a1 s = (.ok (C1, a1'), s1))
    (hl : a1'.li = a0'.li) (hmi : a1'.mi = a0'.mi) (hk : ∀ i, a1'.ki.getD i false = true → a0'.ki.getD i false = true)
    (hn0 : ∀ l ∈ a0'.li, 0 ≤ l)
    (cr : List IncSeg) (hcr : cr = (advance a0' a1'.ki C0 C1).filter fun g => g.k0 && !g.ki)
    (hload : (s.loads phi).qt + (s.loads phi).pt ≠ 0 ∨ (s.loads phi).qn + (s.loads phi).pn ≠ 0)
    (g : IncSeg) (hg : g ∈ cr) (hpos : 0 < g.l) :
    0 < (cr.map (normalWork s phi)).sum + (cr.map (shearWork s phi)).sum := by
  refine lt_of_lt_of_le ?_ (C83_released hb hc hf hd0 hd1 hp h0 h1 hl hmi hk hn0 cr hcr)
  have hcc := hb.stiff.coercive hc
  have e : ∀ g : IncSeg, brokenEnergy s phi g = ∫ x in (0 : ℝ)..g.l, s.beam.layerEnergy (zsol s x g.C0 g.l phi true) := by
    intro g
    unfold brokenEnergy
    refine intervalIntegral.integral_congr fun x _ => ?_
    simp only [Beam.layerEnergy, ftau_slip, fw]
    have : (s.kt * s.beam.slip (zsol s x g.C0 g.l phi true)) ^ 2 / s.kt
        = s.kt * s.beam.slip (zsol s x g.C0 g.l phi true) ^ 2 := by have := hb.stiff.kt.ne'; field_simp
    rw [this]
    rfl
  have hnn : ∀ g ∈ cr, 0 ≤ brokenEnergy s phi g := by
    intro g hg
    rw [e]
    refine intervalIntegral.integral_nonneg ?_ fun x _ => hcc.layerEnergy_nonneg _
    rw [hcr] at hg
    obtain ⟨i, hi, rfl⟩ := List.mem_map.1 (List.mem_filter.1 hg).1
    simp only
    rw [nth_eq (List.mem_range.1 hi)]
    exact hn0 _ (List.getElem_mem _)
  have hgp : 0 < brokenEnergy s phi g := by
    rw [e]
    have dr := stateAt_driven s hb phi [g.l] [true] (fun _ => g.C0) 0
    have e1 : driveOf s phi true = s.beam.drive (s.loads phi) := by
      unfold driveOf
      simp
    have dr' : Driven s.beam true (s.beam.drive (s.loads phi)) (fun x => zsol s x g.C0 g.l phi true) := by
      rw [← e1]
      exact dr
    refine dr'.layer_pos hcc hpos ?_
    simpa [Beam.drive] using hload
  refine hgp.trans_le (List.single_le_sum (fun v hv => ?_) _ (List.mem_map_of_mem hg))
  obtain ⟨g, hg, rfl⟩ := List.mem_map.1 hv
  exact hnn g hg

/-- C83 for the reported rates: mode I minus mode II (which `ginc` reports with the wrong
sign, C31) is bounded below by the energy of the broken part. -/
theorem C83_ginc (quad : Quad) (e : ℝ) (hq : QuadOk quad e)
    (hb : BedOk s) (hc : ShearOk s) (hf : EigFresh num.eig s) (hd0 : DeadLoads s a0') (hd1 : DeadLoads s a1')
    (hp : s.B11 * (s.loads phi).pt = 0)
    (h0 : assembleAndSolve num kind phi a0 s = (.ok (C0, a0'), s0)) (h1 : assembleAndSolve num kind' phi a1 s = (.ok (C1, a1'), s1))
    (hl : a1'.li = a0'.li) (hmi : a1'.mi = a0'.mi) (hk : ∀ i, a1'.ki.getD i false = true → a0'.ki.getD i false = true)
    (hn0 : ∀ l ∈ a0'.li, 0 ≤ l)
    (cr : List IncSeg) (hcr : cr = (advance a0' a1'.ki C0 C1).filter fun g => g.k0 && !g.ki) (da : ℝ)
    (hda : da = (cr.map IncSeg.l).sum) (hpos : 0 < da) :
    ∃ I II, ginc quad s phi (advance a0' a1'.ki C0 C1) = some (I + II, I, II) ∧
      (cr.map (brokenEnergy s phi)).sum / (2 * da) - cr.length * e / da ≤ I - II := by
  obtain ⟨I, II, g, g1, g2⟩ := C31_ginc_partial quad e hq s hb.stiff.t.ne' phi (advance a0' a1'.ki C0 C1) cr hcr da hda hpos
  refine ⟨I, II, g, ?_⟩
  have := div_le_div_of_nonneg_right (C83_released hb hc hf hd0 hd1 hp h0 h1 hl hmi hk hn0 cr hcr) (by positivity : 0 ≤ 2 * da)
  have e3 : (cr.length * e / (2 * da)) + (cr.length * e / (2 * da)) = cr.length * e / da := by field_simp; norm_num
  rw [add_div] at this
  rw [abs_le] at g1 g2
  linarith [g1.1, g2.2]

end

/-- The saw test of the examples on a slope of 30°: when the cut grows from 20 to 30 cm the
tractions of the weak layer do positive work. -/
example : ∃ C0 C1, assembleAndSolve stdNum .list 30 beforeCut (pstDemo .A 200) = (.ok (C0, beforeCut), pstDemo .A 200) ∧
    assembleAndSolve stdNum .list 30 afterCut (pstDemo .A 200) = (.ok (C1, afterCut), pstDemo .A 200) ∧
    0 < normalWork (pstDemo .A 200) 30 ⟨C0.getD 1 0, C1.getD 1 0, 100, false, true⟩
        + shearWork (pstDemo .A 200) 30 ⟨C0.getD 1 0, C1.getD 1 0, 100, false, true⟩ := by
  have hf0 : full beforeCut = beforeCut := by unfold full; rw [if_neg (by simp [beforeCut])]
  have hf1 : full afterCut = afterCut := by unfold full; rw [if_neg (by simp [afterCut])]
  obtain ⟨C0, h0, -⟩ := C18_unique_solution stdNum .list 30 beforeCut (pstDemo .A 200) (pstDemo_bedOk _ _)
    (pstDemo_shear _ _) (pstDemo_fresh _ _) ⟨by simp [beforeCut], rfl, rfl, fun h => absurd (show finiteSystem "pst-" by decide) h⟩
    (.inl rfl) (.inl (pstDemo_isPst _ _)) (fun _ _ => by simp [pstDemo, Self.stage]) (fun _ _ _ => pstDemo_rest _)
    ⟨by simp [beforeCut], 0, by simp [beforeCut], by simp [beforeCut], by simp [beforeCut, nth]⟩
  obtain ⟨C1, h1, -⟩ := C18_unique_solution stdNum .list 30 afterCut (pstDemo .A 200) (pstDemo_bedOk _ _)
    (pstDemo_shear _ _) (pstDemo_fresh _ _) ⟨by simp [afterCut], rfl, rfl, fun h => absurd (show finiteSystem "pst-" by decide) h⟩
    (.inl rfl) (.inl (pstDemo_isPst _ _)) (fun _ _ => by simp [pstDemo, Self.stage]) (fun _ _ _ => pstDemo_rest _)
    ⟨by simp [afterCut], 0, by simp [afterCut], by simp [afterCut], by simp [afterCut, nth]⟩
  rw [hf0] at h0
  rw [hf1] at h1
  refine ⟨C0, C1, h0, h1, ?_⟩
  have hd : ∀ a, DeadLoads (pstDemo .A 200) a := fun a =>
    ⟨.inl (pstDemo_isPst _ _), fun h => ⟨h, fun _ => .inr rfl⟩, pstDemo_noFace _ _⟩
  obtain ⟨-, -, -, f4, -⟩ := demo_fields stdEig "pst-" true
  have := C83_positive (pstDemo_bedOk _ _) (pstDemo_shear _ _) (pstDemo_fresh _ _)
    (hd _) (hd _) (by rw [show (pstDemo .A 200).B11 = 0 from f4, zero_mul]) h0 h1 rfl rfl (fun i h => by
      match i, h with
      | 0, _ => rfl
      | i + 1, h => exfalso; revert h; cases i with
        | zero => decide
        | succ i => cases i with
          | zero => decide
          | succ i => simp [afterCut]) (by simp [beforeCut]) [⟨C0.getD 1 0, C1.getD 1 0, 100, false, true⟩] (by
      simp [advance, beforeCut, afterCut, List.range_succ, nth]) (.inl ?_) _ (List.mem_singleton_self _) (by norm_num)
  · simpa using this
  · obtain ⟨-, -, -, -, -, -, -, -, -, h10, h11, h12, -⟩ := demo_fields stdEig "pst-" true
    have h6 : Real.sin (deg2rad 30) = 1 / 2 := by
      rw [deg2rad, show (30 : ℝ) * (Real.pi / 180) = Real.pi / 6 by ring, Real.sin_pi_div_six]
    show (getWeightLoad (pstDemo .A 200) 30).2 + (getSurfaceLoad (pstDemo .A 200) 30).2 ≠ 0
    unfold getWeightLoad getSurfaceLoad
    rw [show (pstDemo .A 200).slab = [compLayer] from h10, show (pstDemo .A 200).g = 9810 from h12, show (pstDemo .A 200).p = 0 from h11]
    norm_num [h6, compLayer]

end Weac
