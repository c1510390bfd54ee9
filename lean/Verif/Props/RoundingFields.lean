import Verif.Model.RoundedFields
import Verif.Props.Rounding
import Verif.Lemmas.Modes
import Mathlib.Analysis.SpecialFunctions.Trigonometric.Bounds

/-!
# C90: rounding errors in the evaluation of a solution

How far the numbers that weac returns for given constants are from the values of
the formulas.
-/

namespace Weac

open Spec

namespace Spec

/-- Contract of the numerical library. -/
structure LibmOk (u : ℝ) (m : ℕ) (lib : Libm) : Prop where
  exp : ExpOk u m lib.exp
  cos : TrigOk u m Real.cos lib.cos
  sin : TrigOk u m Real.sin lib.sin
  dot : DotOk u lib.dot

/-- Stored attributes of an object with layers and a weak layer. They need not be
exact: nothing is said about how they are related, except that growing solutions are
referred to the right end. -/
structure Stored (s : Self) : Prop where
  valid : ∀ l ∈ s.slab, l.Valid
  g : 0 ≤ s.g
  h : 0 < s.h
  t : 0 < s.t
  kn : 0 < s.kn
  kt : 0 < s.kt
  A11 : 0 < s.A11
  kA55 : 0 < s.kA55
  re : ∀ m ∈ s.eigs.re, m.s = -1 ∧ 0 ≤ m.ew ∨ m.s = 0 ∧ m.ew ≤ 0
  cx : ∀ m ∈ s.eigs.cx, m.s = -1 ∧ 0 ≤ m.ew.re ∨ m.s = 0 ∧ m.ew.re ≤ 0

/-- Magnitudes of the entries of the complementary solution. The phase of
oscillating solutions is counted from the left end, its rounding error grows with the
distance from there. -/
noncomputable def bedScale (e : Eigs) (x : ℝ) : List Vec6 :=
  (e.re.map fun m => fun i => |m.ev i|) ++
  (e.cx.map fun m => fun i => (|(m.ev i).re| + |(m.ev i).im|) * (1 + |m.ew.im * x|)) ++
  (e.cx.map fun m => fun i => (|(m.ev i).re| + |(m.ev i).im|) * (1 + |m.ew.im * x|))

/-- Magnitude of a line load `q` on a slope. -/
noncomputable def loadScale (q phi : ℝ) : ℝ := q * (1 + |phi * (Real.pi / 180)|)

/-- Magnitudes of the terms of the particular solution for line loads `q` of the slab
and `p` of the surface. -/
noncomputable def particularScale (s : Self) (q p : ℝ) : Vec6 :=
  ![(q + p) / s.kt + s.h * q * (s.h + s.t + 2 * |s.zs|) / (4 * s.kA55) + s.h * p * (2 * s.h + s.t) / (4 * s.kA55),
    0,
    (q + p) / s.kn,
    0,
    (q * (s.h + s.t + 2 * |s.zs|) + p * (2 * s.h + s.t)) / (2 * s.kA55),
    0]

/-- Magnitudes of the entries of the complementary solution of an unsupported segment. -/
noncomputable def freeScale (s : Self) (x : ℝ) : Mat6 :=
  !![0, 0, 0,     3 * |s.B11| / s.A11 * x ^ 2,                       1, x;
     0, 0, 0,     6 * |s.B11| / s.A11 * x,                           0, 1;
     1, x, x ^ 2, x ^ 3,                                             0, 0;
     0, 1, 2 * x, 3 * x ^ 2,                                         0, 0;
     0, 1, 2 * x, 3 * x ^ 2 + 6 * |s.K0| / (s.A11 * s.kA55),         0, 0;
     0, 0, 2,     6 * x,                                             0, 0]

/-- Magnitudes of the terms of the particular solution of an unsupported segment. -/
noncomputable def freeParticularScale (s : Self) (x q p : ℝ) : Vec6 :=
  ![(3 * (q + p) / s.A11 + |s.B11| * (q + p) * x / |s.K0|) / 6 * x ^ 2,
    (2 * (q + p) / s.A11 + |s.B11| * (q + p) * x / |s.K0|) / 2 * x,
    s.A11 * (q + p) * x ^ 4 / (24 * |s.K0|),
    s.A11 * (q + p) * x ^ 3 / (6 * |s.K0|),
    s.A11 * (q + p) * x ^ 3 / (6 * |s.K0|) + ((|s.zs| + |s.B11| / s.A11) * q + s.h * p / 2 + (q + p) * x) / s.kA55,
    (q + p) * (s.A11 * x ^ 2 / (2 * |s.K0|) + 1 / s.kA55)]

/-- Magnitudes of the terms of the state. -/
noncomputable def stateScale (s : Self) (x : ℝ) (C : Vec6) (phi : ℝ) (bed : Bool) : Vec6 := fun i =>
  let q := loadScale (s.slab.map fun l => l.rho * 1e-12 * s.g * l.h).sum phi
  let p := loadScale |s.p| phi
  ∑ j : Fin 6, (if bed then (bedScale s.eigs x).getD j 0 i else freeScale s x i j) * |C j| +
    (if bed then particularScale s q p i else freeParticularScale s x q p i)

end Spec

variable {u : ℝ} {fl : ℝ → ℝ} {lib : Libm} {m k n : ℕ} {x x' y y' B B' : ℝ}

/-! ## Elementary functions -/

theorem mul_le_grow (h : RoundOk u fl) (m : ℕ) : m * u ≤ grow u m - 1 := by
  have h1 : u ≤ (1 - u)⁻¹ - 1 := by
    have : 0 < 1 - u := by have := h.lt; linarith
    rw [le_sub_iff_add_le, ← one_div, le_div_iff₀ this]
    nlinarith [h.nonneg]
  have h2 := one_add_mul_le_pow (a := (1 - u)⁻¹ - 1) (by linarith [h.nonneg]) m
  rw [add_sub_cancel] at h2
  have : (m : ℝ) * u ≤ m * ((1 - u)⁻¹ - 1) := mul_le_mul_of_nonneg_left h1 (Nat.cast_nonneg m)
  unfold grow
  linarith

theorem trig_err (h : RoundOk u fl) {f f' : ℝ → ℝ} (hf : TrigOk u m f f') (h1 : ∀ y, |f y| ≤ 1) (hl : ∀ a b, |f a - f b| ≤ |a - b|)
    (hx : Rel u k x x') : Err u (k + m) (1 + |x|) (f x) (f' x') := by
  refine ⟨(h1 x).trans (by have := abs_nonneg x; linarith), ?_⟩
  have a := hf x'
  have b := hl x' x
  have c := (h.rel_err hx).2
  have d := mul_le_grow h m
  have t : |f' x' - f x| ≤ |f' x' - f x'| + |f x' - f x| := abs_sub_le _ _ _
  have g1 := h.grow_mono (k := k) (m := k + m) (by omega)
  have g2 := h.grow_mono (k := m) (m := k + m) (by omega)
  have := mul_le_mul_of_nonneg_right g1 (abs_nonneg x)
  linarith

theorem exp_err (h : RoundOk u fl) (hy : y ≤ 0) (hr : Rel u k y y') : Err u k 1 (Real.exp y) (Real.exp y') := by
  have e1 : Real.exp y ≤ 1 := Real.exp_le_one_iff.2 hy
  refine ⟨by rw [abs_of_pos (Real.exp_pos y)]; exact e1, ?_⟩
  obtain ⟨θ, h1, h2, e⟩ := hr
  have p := h.pow_pos k
  have hθ : 0 < θ := p.trans_le h1
  have up : θ ≤ grow u k := by
    rw [grow_eq, ← one_div, le_div_iff₀ p]; exact h2
  have up' : 1 / θ ≤ grow u k := by
    rw [grow_eq, ← one_div]; exact one_div_le_one_div_of_le p h1
  -- `t exp (-t) ≤ 1`
  have small : ∀ t : ℝ, t ≤ 0 → -t * Real.exp t ≤ 1 := by
    intro t ht
    have := Real.add_one_le_exp (-t)
    have q := Real.exp_pos t
    have : Real.exp (-t) * Real.exp t = 1 := by rw [← Real.exp_add]; simp
    nlinarith
  have drop : ∀ a b : ℝ, a ≤ b → Real.exp b - Real.exp a ≤ (b - a) * Real.exp b := by
    intro a b hab
    have := Real.add_one_le_exp (a - b)
    have q := Real.exp_pos b
    have e : Real.exp a = Real.exp (a - b) * Real.exp b := by rw [← Real.exp_add]; simp
    rw [e]
    nlinarith
  rw [mul_one]
  rcases le_total 1 θ with ht | ht
  · have hle : y' ≤ y := by rw [e]; nlinarith
    have d := drop _ _ hle
    rw [abs_sub_comm, abs_of_nonneg (sub_nonneg.2 (Real.exp_le_exp.2 hle))]
    have : (y - y') * Real.exp y = (θ - 1) * (-y * Real.exp y) := by rw [e]; ring
    have := mul_le_mul_of_nonneg_left (small y hy) (sub_nonneg.2 ht)
    linarith
  · have hle : y ≤ y' := by rw [e]; nlinarith
    have d := drop _ _ hle
    have hy' : y' ≤ 0 := by rw [e]; exact mul_nonpos_of_nonpos_of_nonneg hy hθ.le
    rw [abs_of_nonneg (sub_nonneg.2 (Real.exp_le_exp.2 hle))]
    have h3 : (y' - y) * Real.exp y' = (1 / θ - 1) * (-y' * Real.exp y') := by rw [e]; field_simp; ring
    have h4 : 0 ≤ 1 / θ - 1 := by rw [sub_nonneg, le_div_iff₀ hθ]; linarith
    have := mul_le_mul_of_nonneg_left (small y' hy') h4
    linarith

theorem lib_exp_err (h : RoundOk u fl) {e : ℝ → ℝ} (he : ExpOk u m e) (hy : y ≤ 0) (hr : Rel u k y y') :
    Err u (k + m) 1 (Real.exp y) (e y') := by
  have a := exp_err h hy hr
  obtain ⟨θ, h1, h2, e1⟩ := he y'
  have b : Err u m 1 1 θ := by
    have := h.rel_err (⟨θ, h1, h2, (one_mul θ).symm⟩ : Rel u m 1 θ)
    rwa [abs_one] at this
  have c := h.err_mul a b
  rwa [mul_one, mul_one, ← e1] at c

/-! ## Loads -/

theorem angle_rounded (h : RoundOk u fl) (phi : ℝ) : Rel u 3 (deg2rad phi) (deg2radFl fl phi) := by
  have a := h.rel_fl (h.rel_div (h.rel_fl (Rel.refl u Real.pi)) (Rel.refl u 180))
  have := h.rel_fl (h.rel_mul (Rel.refl u phi) a)
  exact h.rel_mono this (by omega)

theorem err_neg (hx : Err u k B x x') : Err u k B (-x) (-x') := by
  refine ⟨by rw [abs_neg]; exact hx.1, ?_⟩
  rw [show -x' - -x = -(x' - x) by ring, abs_neg]
  exact hx.2

/-- Components of a load. -/
theorem load_rounded (h : RoundOk u fl) (hl : LibmOk u m lib) (phi : ℝ) {q q' Q : ℝ} (hq : Err u k Q q q') :
    Err u (k + m + 4) (loadScale Q phi) (q * Real.cos (deg2rad phi)) (fl (q' * lib.cos (deg2radFl fl phi))) ∧
    Err u (k + m + 4) (loadScale Q phi) (-q * Real.sin (deg2rad phi)) (fl (-q' * lib.sin (deg2radFl fl phi))) := by
  have c := trig_err h hl.cos (fun y => Real.abs_cos_le_one y) Real.abs_cos_sub_cos_le (angle_rounded h phi)
  have s := trig_err h hl.sin (fun y => Real.abs_sin_le_one y) Real.abs_sin_sub_sin_le (angle_rounded h phi)
  exact ⟨h.err_mono (h.err_fl (h.err_mul hq c)) (by omega) le_rfl, h.err_mono (h.err_fl (h.err_mul (err_neg hq) s)) (by omega) le_rfl⟩

theorem line_rounded (h : RoundOk u fl) (g : ℝ) (hg : 0 ≤ g) (slab : List Layer) (hs : ∀ l ∈ slab, l.Valid) :
    Err u (slab.length + 4) (slab.map fun l => l.rho * 1e-12 * g * l.h).sum (slab.map fun l => l.rho * 1e-12 * g * l.h).sum
      (lineLoadFl fl g slab) := by
  have hp : ∀ l ∈ slab, 0 ≤ l.rho * 1e-12 * g * l.h := fun l hl => by
    have := (hs l hl).rho
    have := (hs l hl).h
    positivity
  have := rel_sum h (k := 4) (fun l : Layer => l.rho * 1e-12 * g * l.h) (fun l => fl (fl (fl (l.rho * fl 1e-12) * g) * l.h)) slab hp
    (fun l _ => h.rel_fl (h.rel_mul (h.rel_fl (h.rel_mul (h.rel_fl (h.rel_mul (Rel.refl u _) (h.rel_fl (Rel.refl u _)))) (Rel.refl u _))) (Rel.refl u _)))
  rw [add_comm] at this
  refine h.err_of_rel (List.sum_nonneg fun x hx => ?_) this
  obtain ⟨l, hl, rfl⟩ := List.mem_map.1 hx
  exact hp l hl

/-- C90, loads: weight, surface load and skiers, in both directions. -/
theorem C90_loads (h : RoundOk u fl) (hl : LibmOk u m lib) (s : Self) (hs : Stored s) (hski : 0 < s.lski) (w phi : ℝ)
    (hu : ((s.slab.length + m + 8 : ℕ) : ℝ) * u < 1) :
    let q := loadScale (s.slab.map fun l => l.rho * 1e-12 * s.g * l.h).sum phi
    let F := loadScale (1e-3 * |w| * s.g / s.lski) phi
    let e := gamma u (s.slab.length + m + 8)
    |(weightLoadFl fl lib s phi).1 - (getWeightLoad s phi).1| ≤ e * q ∧
    |(weightLoadFl fl lib s phi).2 - (getWeightLoad s phi).2| ≤ e * q ∧
    |(surfaceLoadFl fl lib s phi).1 - (getSurfaceLoad s phi).1| ≤ e * loadScale |s.p| phi ∧
    |(surfaceLoadFl fl lib s phi).2 - (getSurfaceLoad s phi).2| ≤ e * loadScale |s.p| phi ∧
    |(skierLoadFl fl lib s w phi).1 - (getSkierLoad s w phi).1| ≤ e * F ∧
    |(skierLoadFl fl lib s w phi).2 - (getSkierLoad s w phi).2| ≤ e * F := by
  have a := load_rounded h hl phi (line_rounded h s.g hs.g s.slab hs.valid)
  have b := load_rounded h hl phi (Err.refl u s.p)
  have F : Err u 4 (1e-3 * |w| * s.g / s.lski) (1e-3 * w * s.g / s.lski) (fl (fl (fl (fl 1e-3 * w) * s.g) / s.lski)) := by
    have := h.rel_err (h.rel_fl (h.rel_div (h.rel_fl (h.rel_mul (h.rel_fl (h.rel_mul (h.rel_fl (Rel.refl u (1e-3 : ℝ))) (Rel.refl u w)))
      (Rel.refl u s.g))) (Rel.refl u s.lski)))
    refine h.err_mono this (by omega) (le_of_eq ?_)
    rw [abs_div, abs_mul, abs_mul, abs_of_nonneg hs.g, abs_of_pos hski, abs_of_nonneg (by norm_num : (0 : ℝ) ≤ 1e-3)]
  have c := load_rounded h hl phi F
  have key : ∀ {k x x' B}, Err u k B x x' → k ≤ s.slab.length + m + 8 → |x' - x| ≤ gamma u (s.slab.length + m + 8) * B :=
    fun e hk => h.err_bound (h.err_mono e hk le_rfl) hu
  exact ⟨key a.1 (by omega), key a.2 (by omega), key b.1 (by omega), key b.2 (by omega), key c.1 (by omega), key c.2 (by omega)⟩

/-! ## State of a supported segment -/

theorem particular_rounded (h : RoundOk u fl) (hl : LibmOk u m lib) (s : Self) (hs : Stored s) (x phi : ℝ) (i : Fin 6) :
    Err u (s.slab.length + m + 16)
      (particularScale s (loadScale (s.slab.map fun l => l.rho * 1e-12 * s.g * l.h).sum phi) (loadScale |s.p| phi) i)
      (zp s x phi true i) (zpBedFl fl lib s phi i) := by
  obtain ⟨a1, a2⟩ := load_rounded h hl phi (line_rounded h s.g hs.g s.slab hs.valid)
  obtain ⟨b1, b2⟩ := load_rounded h hl phi (Err.refl u s.p)
  have b1 := h.err_mono (m := s.slab.length + 4 + m + 4) b1 (by omega) le_rfl
  have b2 := h.err_mono (m := s.slab.length + 4 + m + 4) b2 (by omega) le_rfl
  set Q := loadScale (s.slab.map fun l => l.rho * 1e-12 * s.g * l.h).sum phi
  set P := loadScale |s.p| phi
  set K := s.slab.length + 4 + m + 4 with hK
  have hh : Err u 0 s.h s.h s.h := by simpa only [abs_of_pos hs.h] using Err.refl u s.h
  have ht : Err u 0 s.t s.t s.t := by simpa only [abs_of_pos hs.t] using Err.refl u s.t
  have h2 : Err u 0 2 (2 : ℝ) 2 := by simpa only [abs_two] using Err.refl u (2 : ℝ)
  -- lever arms
  have l1 : Err u 2 (s.h + s.t + 2 * |s.zs|) (s.h + s.t - 2 * s.zs) (fl (fl (s.h + s.t) - fl (2 * s.zs))) :=
    h.err_fl ((h.err_fl (hh.add ht)).sub (h.err_fl (h.err_mul h2 (Err.refl u s.zs))))
  have l2 : Err u 2 (2 * s.h + s.t) (2 * s.h + s.t) (fl (fl (2 * s.h) + s.t)) :=
    h.err_fl ((h.err_fl (h.err_mul h2 hh)).add (h.err_mono ht (by omega) le_rfl))
  have d4 : Rel u 1 (4 * s.kA55) (fl (4 * s.kA55)) := h.rel_fl (Rel.refl u _)
  have d2 : Rel u 1 (2 * s.kA55) (fl (2 * s.kA55)) := h.rel_fl (Rel.refl u _)
  have p4 : 0 < 4 * s.kA55 := by have := hs.kA55; linarith
  have p2 : 0 < 2 * s.kA55 := by have := hs.kA55; linarith
  have zero : ∀ k, Err u k 0 (0 : ℝ) 0 := fun k => err_zero u k
  fin_cases i
  · have t1 := h.err_fl (h.err_div (h.err_fl (a2.add b2)) hs.kt (Rel.refl u s.kt))
    have t2 := h.err_fl (h.err_div (h.err_fl (h.err_mul (h.err_fl (h.err_mul hh a2)) l1)) p4 d4)
    have t3 := h.err_fl (h.err_div (h.err_fl (h.err_mul (h.err_fl (h.err_mul hh b2)) l2)) p4 d4)
    have t12 := h.err_fl ((h.err_mono (m := K + 6) t1 (by omega) le_rfl).add (h.err_mono (m := K + 6) t2 (by omega) le_rfl))
    have t := h.err_fl (t12.add (h.err_mono (m := K + 7) t3 (by omega) le_rfl))
    exact h.err_mono t (by omega) le_rfl
  · exact zero _
  · exact h.err_mono (h.err_fl (h.err_div (h.err_fl (a1.add b1)) hs.kn (Rel.refl u s.kn))) (by omega) le_rfl
  · exact zero _
  · have t1 := h.err_fl (h.err_mul a2 l1)
    have t2 := h.err_fl (h.err_mul b2 l2)
    have t := h.err_fl (h.err_div (err_neg (h.err_fl (t1.add t2))) p2 d2)
    exact h.err_mono t (by omega) le_rfl
  · exact zero _

theorem shift_nonpos {w t x l : ℝ} (h : t = -1 ∧ 0 ≤ w ∨ t = 0 ∧ w ≤ 0) (h0 : 0 ≤ x) (h1 : x ≤ l) : w * (x + l * t) ≤ 0 := by
  rcases h with ⟨rfl, h⟩ | ⟨rfl, h⟩
  · exact mul_nonpos_of_nonneg_of_nonpos h (by linarith)
  · exact mul_nonpos_of_nonpos_of_nonneg h (by linarith)

/-- Entries of three lists made in the same way. -/
theorem getD_three {α : Type} (P : Vec6 → Vec6 → Vec6 → Prop) (h0 : P 0 0 0) (L : List α) (f g b : α → Vec6) (h : ∀ a ∈ L, P (b a) (f a) (g a)) (j : ℕ) :
    P ((L.map b).getD j 0) ((L.map f).getD j 0) ((L.map g).getD j 0) := by
  rcases lt_or_ge j L.length with hj | hj
  · rw [List.getD_eq_getElem _ _ (by simpa using hj), List.getD_eq_getElem _ _ (by simpa using hj), List.getD_eq_getElem _ _ (by simpa using hj)]
    simp only [List.getElem_map]
    exact h _ (List.getElem_mem hj)
  · rw [List.getD_eq_default _ _ (by simpa using hj), List.getD_eq_default _ _ (by simpa using hj), List.getD_eq_default _ _ (by simpa using hj)]
    exact h0

/-- C90, complementary solution: the entries are computed with a small absolute error
at every position of segments of any length; only the phase of the oscillating ones
makes the error grow, in proportion to the distance from the left end. -/
theorem complementary_rounded (h : RoundOk u fl) (hl : LibmOk u m lib) (s : Self) (hs : Stored s) {x l : ℝ} (h0 : 0 ≤ x) (h1 : x ≤ l) (i j : Fin 6) :
    Err u (2 * m + 6) ((bedScale s.eigs x).getD j 0 i) (zh s x l true i j) ((zhBedFl fl lib s.eigs x l).getD j 0 i) := by
  have ex : ∀ {w t : ℝ}, (t = -1 ∧ 0 ≤ w ∨ t = 0 ∧ w ≤ 0) →
      Err u (2 + m) 1 (Real.exp (w * (x + l * t))) (lib.exp (fl (w * fl (x + l * t)))) := by
    intro w t ht
    have r := h.rel_fl (h.rel_mul (Rel.refl u w) (h.rel_fl (Rel.refl u (x + l * t))))
    exact lib_exp_err h hl.exp (shift_nonpos ht h0 h1) (h.rel_mono r (by omega))
  have co : ∀ w : ℝ, Err u (1 + m) (1 + |w * x|) (Real.cos (w * x)) (lib.cos (fl (w * x))) := fun w =>
    trig_err h hl.cos Real.abs_cos_le_one Real.abs_cos_sub_cos_le (h.rel_fl (Rel.refl u _))
  have si : ∀ w : ℝ, Err u (1 + m) (1 + |w * x|) (Real.sin (w * x)) (lib.sin (fl (w * x))) := fun w =>
    trig_err h hl.sin Real.abs_sin_le_one Real.abs_sin_sub_sin_le (h.rel_fl (Rel.refl u _))
  let L : List (RealMode ⊕ CplxMode ⊕ CplxMode) :=
    s.eigs.re.map Sum.inl ++ s.eigs.cx.map (fun m => Sum.inr (Sum.inl m)) ++ s.eigs.cx.map (fun m => Sum.inr (Sum.inr m))
  let B : RealMode ⊕ CplxMode ⊕ CplxMode → Vec6 := Sum.elim (fun m i => |m.ev i|)
    (Sum.elim (fun m i => (|(m.ev i).re| + |(m.ev i).im|) * (1 + |m.ew.im * x|)) (fun m i => (|(m.ev i).re| + |(m.ev i).im|) * (1 + |m.ew.im * x|)))
  let F : RealMode ⊕ CplxMode ⊕ CplxMode → Vec6 := Sum.elim (fun m i => m.ev i * Real.exp (m.ew * (x + l * m.s)))
    (Sum.elim (fun m i => Real.exp (m.ew.re * (x + l * m.s)) *
      ((m.ev i).re * Real.cos (m.ew.im * x) - (m.ev i).im * Real.sin (m.ew.im * x)))
    (fun m i => Real.exp (m.ew.re * (x + l * m.s)) *
      ((m.ev i).im * Real.cos (m.ew.im * x) + (m.ev i).re * Real.sin (m.ew.im * x))))
  let G : RealMode ⊕ CplxMode ⊕ CplxMode → Vec6 := Sum.elim (fun m i => fl (m.ev i * lib.exp (fl (m.ew * fl (x + l * m.s)))))
    (Sum.elim (fun m i => fl (lib.exp (fl (m.ew.re * fl (x + l * m.s))) *
      fl (fl ((m.ev i).re * lib.cos (fl (m.ew.im * x))) - fl ((m.ev i).im * lib.sin (fl (m.ew.im * x))))))
    (fun m i => fl (lib.exp (fl (m.ew.re * fl (x + l * m.s))) *
      fl (fl ((m.ev i).im * lib.cos (fl (m.ew.im * x))) + fl ((m.ev i).re * lib.sin (fl (m.ew.im * x)))))))
  have eB : bedScale s.eigs x = L.map B := by
    simp only [L, bedScale, List.map_append, List.map_map]
    rfl
  have eF : zhBed s.eigs x l = L.map F := by
    simp only [L, zhBed, List.map_append, List.map_map]
    rfl
  have eG : zhBedFl fl lib s.eigs x l = L.map G := by
    simp only [L, zhBedFl, List.map_append, List.map_map]
    rfl
  show Err u (2 * m + 6) ((bedScale s.eigs x).getD j 0 i) ((zhBed s.eigs x l).getD j 0 i) ((zhBedFl fl lib s.eigs x l).getD j 0 i)
  rw [eB, eF, eG]
  refine getD_three (fun b f g => ∀ i, Err u (2 * m + 6) (b i) (f i) (g i)) (fun i => err_zero u _) L F G B (fun a ha => ?_) j i
  intro i
  rcases a with q | q | q
  · have hq : q ∈ s.eigs.re := by simpa [L] using ha
    have t := h.err_fl (h.err_mul (Err.refl u (q.ev i)) (ex (hs.re q hq)))
    exact h.err_mono t (by omega) (by simp [B])
  · have hq : q ∈ s.eigs.cx := by simpa [L] using ha
    have t1 := h.err_fl (h.err_mul (Err.refl u (q.ev i).re) (co q.ew.im))
    have t2 := h.err_fl (h.err_mul (Err.refl u (q.ev i).im) (si q.ew.im))
    have t := h.err_fl (h.err_mul (ex (hs.cx q hq)) (h.err_fl (t1.sub t2)))
    exact h.err_mono t (by omega) (le_of_eq (by simp only [B, Sum.elim_inr, Sum.elim_inl]; ring))
  · have hq : q ∈ s.eigs.cx := by simpa [L] using ha
    have t1 := h.err_fl (h.err_mul (Err.refl u (q.ev i).im) (co q.ew.im))
    have t2 := h.err_fl (h.err_mul (Err.refl u (q.ev i).re) (si q.ew.im))
    have t := h.err_fl (h.err_mul (ex (hs.cx q hq)) (h.err_fl (t1.add t2)))
    exact h.err_mono t (by omega) (le_of_eq (by simp only [B, Sum.elim_inr]; ring))

theorem dot_rounded (h : RoundOk u fl) {d : Vec6 → Vec6 → ℝ} (hd : DotOk u d) {a a' b C : Vec6} (ha : ∀ j, Err u k (b j) (a j) (a' j)) :
    Err u (k + 6) (∑ j, b j * |C j|) (∑ j, a j * C j) (d a' C) := by
  have hc : ∀ j, Err u k (b j * |C j|) (a j * C j) (a' j * C j) := fun j => by
    have := h.err_mul (ha j) (Err.refl u (C j))
    simpa using this
  have h1 : |∑ j, a j * C j| ≤ ∑ j, b j * |C j| :=
    (Finset.abs_sum_le_sum_abs _ _).trans (Finset.sum_le_sum fun j _ => (hc j).1)
  refine ⟨h1, ?_⟩
  have h2 : |∑ j, a' j * C j - ∑ j, a j * C j| ≤ (grow u k - 1) * ∑ j, b j * |C j| := by
    rw [← Finset.sum_sub_distrib, Finset.mul_sum]
    exact (Finset.abs_sum_le_sum_abs _ _).trans (Finset.sum_le_sum fun j _ => (hc j).2)
  have h3 : ∑ j, |a' j * C j| ≤ grow u k * ∑ j, b j * |C j| := by
    rw [Finset.mul_sum]
    refine Finset.sum_le_sum fun j _ => ?_
    have := abs_add_le (a' j * C j - a j * C j) (a j * C j)
    rw [sub_add_cancel] at this
    linarith [(hc j).1, (hc j).2]
  have h4 := hd a' C
  have g6 := h.grow_ge 6
  have h5 : ((1 - u)⁻¹ ^ 6 - 1) * ∑ j, |a' j * C j| ≤ (grow u 6 - 1) * (grow u k * ∑ j, b j * |C j|) :=
    mul_le_mul_of_nonneg_left h3 (sub_nonneg.2 g6)
  have t : |d a' C - ∑ j, a j * C j| ≤ |d a' C - ∑ j, a' j * C j| + |∑ j, a' j * C j - ∑ j, a j * C j| := abs_sub_le _ _ _
  rw [grow_add]
  nlinarith

theorem err_div' (h : RoundOk u fl) (hx : Err u k B x x') (hy : Rel u m y y') : Err u (k + m) (B / |y|) (x / y) (x' / y') := by
  have hi := h.rel_err (h.rel_inv hy)
  rw [abs_inv] at hi
  simpa only [div_eq_mul_inv] using h.err_mul hx hi

theorem free_rounded (h : RoundOk u fl) (s : Self) (hs : Stored s) {x : ℝ} (h0 : 0 ≤ x) (i j : Fin 6) :
    Err u 4 (freeScale s x i j) (zhFree s x i j) (zhFreeFl fl s x i j) := by
  have ex : Err u 0 x x x := h.err_of_rel h0 (Rel.refl u x)
  have ec : ∀ c : ℝ, 0 ≤ c → Err u 0 c c c := fun c hc => h.err_of_rel hc (Rel.refl u c)
  have en : ∀ c : ℝ, 0 ≤ c → Err u 0 c (-c) (-c) := fun c hc => err_neg (ec c hc)
  have x2 : Err u 1 (x ^ 2) (x ^ 2) (fl (x ^ 2)) := h.err_of_rel (by positivity) (h.rel_fl (Rel.refl u _))
  have x3 : Err u 1 (x ^ 3) (x ^ 3) (fl (x ^ 3)) := h.err_of_rel (by positivity) (h.rel_fl (Rel.refl u _))
  have H14 := h.err_fl (h.err_mul (h.err_fl (h.err_div (h.err_fl (h.err_mul (ec 3 (by norm_num)) (Err.refl u s.B11))) hs.A11 (Rel.refl u _))) x2)
  have H24 := h.err_fl (h.err_mul (h.err_fl (h.err_div (h.err_fl (h.err_mul (ec 6 (by norm_num)) (Err.refl u s.B11))) hs.A11 (Rel.refl u _))) ex)
  have p1 := h.err_fl (h.err_mul (en 3 (by norm_num)) x2)
  have p2 := h.err_fl (h.err_div (h.err_fl (h.err_mul (ec 6 (by norm_num)) (Err.refl u s.K0))) (mul_pos hs.A11 hs.kA55)
    (h.rel_fl (Rel.refl u (s.A11 * s.kA55))))
  have H54 := h.err_fl ((h.err_mono (m := 3) p1 (by omega) le_rfl).add p2)
  have up : ∀ {k B x x'}, Err u k B x x' → k ≤ 4 → Err u 4 B x x' := fun r hk => h.err_mono r hk le_rfl
  have z0 := err_zero u 4
  have o1 := up (ec 1 zero_le_one) (by omega)
  have n1 := up (en 1 zero_le_one) (by omega)
  have n2 := up (en 2 zero_le_two) (by omega)
  have xx := up ex (by omega)
  have a22 := up x2 (by omega)
  have a23 := up x3 (by omega)
  have a32 := up (h.err_fl (h.err_mul (ec 2 zero_le_two) ex)) (by omega)
  have a33 := up (h.err_fl (h.err_mul (ec 3 (by norm_num)) x2)) (by omega)
  have a42 := up (h.err_fl (h.err_mul (en 2 zero_le_two) ex)) (by omega)
  have a53 := up (h.err_fl (h.err_mul (en 6 (by norm_num)) ex)) (by omega)
  have b1 := up H14 (by omega)
  have b2 := up H24 (by omega)
  have b3 := up H54 (by omega)
  fin_cases i <;> fin_cases j <;> first | exact z0 | exact o1 | exact n1 | exact n2 | exact xx | exact a22 | exact a23 | exact a32 | exact a33 | exact a42 | exact a53 | exact b1 | exact b2 | exact b3

theorem free_particular_rounded (h : RoundOk u fl) (hl : LibmOk u m lib) (s : Self) (hs : Stored s) {x : ℝ} (h0 : 0 ≤ x) (phi : ℝ) (i : Fin 6) :
    Err u (s.slab.length + m + 16)
      (freeParticularScale s x (loadScale (s.slab.map fun l => l.rho * 1e-12 * s.g * l.h).sum phi) (loadScale |s.p| phi) i)
      (zp s x phi false i) (zpFreeFl fl lib s x phi i) := by
  obtain ⟨a1, a2⟩ := load_rounded h hl phi (line_rounded h s.g hs.g s.slab hs.valid)
  obtain ⟨b1, b2⟩ := load_rounded h hl phi (Err.refl u s.p)
  have b1 := h.err_mono (m := s.slab.length + 4 + m + 4) b1 (by omega) le_rfl
  have b2 := h.err_mono (m := s.slab.length + 4 + m + 4) b2 (by omega) le_rfl
  set Q := loadScale (s.slab.map fun l => l.rho * 1e-12 * s.g * l.h).sum phi
  set P := loadScale |s.p| phi
  set K := s.slab.length + 4 + m + 4 with hK
  have pos : ∀ c : ℝ, 0 ≤ c → Err u 0 c c c := fun c hc => h.err_of_rel hc (Rel.refl u c)
  have neg : ∀ c : ℝ, 0 ≤ c → Err u 0 c (-c) (-c) := fun c hc => err_neg (pos c hc)
  have power : ∀ j, Err u 1 (x ^ j) (x ^ j) (fl (x ^ j)) := fun j => h.err_of_rel (by positivity) (h.rel_fl (Rel.refl u _))
  have hn := h.err_fl (a1.add b1)
  have ht := h.err_fl (a2.add b2)
  have r := h.err_fl (err_div' h (h.err_fl (h.err_mul (h.err_fl (h.err_mul (Err.refl u s.B11) hn)) (pos x h0))) (Rel.refl u s.K0))
  have d : ∀ c : ℝ, 0 ≤ c → Rel u 1 (c * s.K0) (fl (c * s.K0)) := fun c _ => h.rel_fl (Rel.refl u _)
  have ea : ∀ c : ℝ, 0 ≤ c → |c * s.K0| = c * |s.K0| := fun c hc => by rw [abs_mul, abs_of_nonneg hc]
  fin_cases i
  · have t1 := h.err_fl (h.err_div (h.err_fl (h.err_mul (neg 3 (by norm_num)) ht)) hs.A11 (Rel.refl u s.A11))
    have t2 := h.err_fl ((h.err_mono (m := K + 4) t1 (by omega) le_rfl).sub (h.err_mono (m := K + 4) r (by omega) le_rfl))
    have t := h.err_fl (h.err_mul (h.err_fl (h.err_div t2 (by norm_num : (0 : ℝ) < 6) (Rel.refl u 6))) (power 2))
    exact h.err_mono t (by omega) le_rfl
  · have t1 := h.err_fl (h.err_div (h.err_fl (h.err_mul (neg 2 (by norm_num)) ht)) hs.A11 (Rel.refl u s.A11))
    have t2 := h.err_fl ((h.err_mono (m := K + 4) t1 (by omega) le_rfl).sub (h.err_mono (m := K + 4) r (by omega) le_rfl))
    have t := h.err_fl (h.err_mul (h.err_fl (h.err_div t2 (by norm_num : (0 : ℝ) < 2) (Rel.refl u 2))) (pos x h0))
    exact h.err_mono t (by omega) le_rfl
  · have t := h.err_fl (err_div' h (h.err_fl (h.err_mul (h.err_fl (h.err_mul (neg s.A11 hs.A11.le) hn)) (power 4))) (d 24 (by norm_num)))
    rw [ea 24 (by norm_num)] at t
    exact h.err_mono t (by omega) le_rfl
  · have t := h.err_fl (err_div' h (h.err_fl (h.err_mul (h.err_fl (h.err_mul (neg s.A11 hs.A11.le) hn)) (power 3))) (d 6 (by norm_num)))
    rw [ea 6 (by norm_num)] at t
    exact h.err_mono t (by omega) le_rfl
  · have t := h.err_fl (err_div' h (h.err_fl (h.err_mul (h.err_fl (h.err_mul (pos s.A11 hs.A11.le) hn)) (power 3))) (d 6 (by norm_num)))
    rw [ea 6 (by norm_num)] at t
    have c1 := h.err_fl ((h.err_mono (m := 1) (Err.refl u s.zs) (by omega) le_rfl).sub
      (h.err_fl (h.err_div (Err.refl u s.B11) hs.A11 (Rel.refl u s.A11))))
    have c2 := h.err_fl (h.err_mul c1 a2)
    have c3 := h.err_fl (h.err_div (h.err_fl (h.err_mul (pos s.h hs.h.le) b2)) two_pos (Rel.refl u 2))
    have c4 := h.err_fl ((h.err_mono (m := K + 3) c2 (by omega) le_rfl).sub (h.err_mono (m := K + 3) c3 (by omega) le_rfl))
    have c5 := h.err_fl (h.err_mul hn (pos x h0))
    have c6 := h.err_fl (c4.sub (h.err_mono (m := K + 4) c5 (by omega) le_rfl))
    have c7 := h.err_fl (h.err_div c6 hs.kA55 (Rel.refl u s.kA55))
    have c8 := h.err_fl ((h.err_mono (m := K + 7) t (by omega) le_rfl).add (h.err_mono (m := K + 7) c7 (by omega) le_rfl))
    exact h.err_mono c8 (by omega) le_rfl
  · have t1 := h.err_fl (err_div' h (h.err_fl (h.err_mul (pos s.A11 hs.A11.le) (power 2))) (d 2 (by norm_num)))
    rw [ea 2 (by norm_num)] at t1
    have t2 := h.err_fl (h.err_div (pos 1 zero_le_one) hs.kA55 (Rel.refl u s.kA55))
    have t3 := h.err_fl ((h.err_mono (m := 4) t1 (by omega) le_rfl).sub (h.err_mono (m := 4) t2 (by omega) le_rfl))
    exact h.err_mono (h.err_fl (h.err_mul hn t3)) (by omega) le_rfl

theorem state_rounded (h : RoundOk u fl) (hl : LibmOk u m lib) (s : Self) (hs : Stored s) {x l : ℝ} (h0 : 0 ≤ x) (h1 : x ≤ l) (C : Vec6) (phi : ℝ)
    (bed : Bool) (i : Fin 6) :
    Err u (s.slab.length + 2 * m + 17) (stateScale s x C phi bed i) (zsol s x C l phi bed i) (zsolFl fl lib s x C l phi bed i) := by
  cases bed with
  | true =>
    have a := dot_rounded h hl.dot (C := C) (fun j => complementary_rounded h hl s hs h0 h1 i j)
    have b := particular_rounded h hl s hs x phi i
    exact h.err_fl ((h.err_mono (m := s.slab.length + 2 * m + 16) a (by omega) le_rfl).add (h.err_mono b (by omega) le_rfl))
  | false =>
    have a := dot_rounded h hl.dot (C := C) (fun j => free_rounded h s hs h0 i j)
    have b := free_particular_rounded h hl s hs h0 phi i
    exact h.err_fl ((h.err_mono (m := s.slab.length + 2 * m + 16) a (by omega) le_rfl).add (h.err_mono b (by omega) le_rfl))

/-- C90, state: what `z` returns in a segment of any length. -/
theorem C90_state (h : RoundOk u fl) (hl : LibmOk u m lib) (s : Self) (hs : Stored s) {x l : ℝ} (h0 : 0 ≤ x) (h1 : x ≤ l) (C : Vec6) (phi : ℝ)
    (bed : Bool) (hu : ((s.slab.length + 2 * m + 17 : ℕ) : ℝ) * u < 1) (i : Fin 6) :
    |zsolFl fl lib s x C l phi bed i - zsol s x C l phi bed i| ≤ gamma u (s.slab.length + 2 * m + 17) * stateScale s x C phi bed i :=
  h.err_bound (state_rounded h hl s hs h0 h1 C phi bed i) hu

/-! ## Field quantities -/

namespace Spec

/-- Magnitude of the weak-layer shear deformation of states of magnitude `S`. -/
noncomputable def slipScale (s : Self) (S : Vec6) : ℝ := S 3 * s.t / 2 + (S 0 + s.h / 2 * S 4)

end Spec

section

variable (h : RoundOk u fl) (s : Self) {S Z Z' : Vec6} (hZ : ∀ i, Err u k (S i) (Z i) (Z' i)) (c : ℝ)
include h hZ

theorem disp_rounded : Err u (k + 1) (|c| * S 2) (c * fw Z) (fwFl fl c Z') := by
  have := h.err_fl (h.err_mul (Err.refl u c) (hZ 2))
  exact h.err_mono this (by omega) le_rfl

theorem horizontal_rounded {z0 z0' H : ℝ} {j : ℕ} (hz : Err u j H z0 z0') :
    Err u (k + j + 3) (|c| * (S 0 + H * S 4)) (c * fu Z z0) (fuFl fl c Z' z0') := by
  have a := h.err_fl (h.err_mul hz (hZ 4))
  have b := h.err_fl ((h.err_mono (m := j + k + 1) (hZ 0) (by omega) le_rfl).add a)
  have := h.err_fl (h.err_mul (Err.refl u c) b)
  exact h.err_mono this (by omega) le_rfl

theorem section_rounded :
    Err u (k + 2) (|s.A11| * S 1 + |s.B11| * S 5) (fN s Z) (fNFl fl s Z') ∧
    Err u (k + 2) (|s.B11| * S 1 + |s.D11| * S 5) (fM s Z) (fMFl fl s Z') ∧
    Err u (k + 2) (|s.kA55| * (S 3 + S 4)) (fV s Z) (fVFl fl s Z') := by
  refine ⟨?_, ?_, ?_⟩
  · have := h.err_fl ((h.err_fl (h.err_mul (Err.refl u s.A11) (hZ 1))).add (h.err_fl (h.err_mul (Err.refl u s.B11) (hZ 5))))
    exact h.err_mono this (by omega) le_rfl
  · have := h.err_fl ((h.err_fl (h.err_mul (Err.refl u s.B11) (hZ 1))).add (h.err_fl (h.err_mul (Err.refl u s.D11) (hZ 5))))
    exact h.err_mono this (by omega) le_rfl
  · have := h.err_fl (h.err_mul (Err.refl u s.kA55) (h.err_fl ((hZ 3).add (hZ 4))))
    exact h.err_mono this (by omega) le_rfl

theorem sig_rounded (hn : 0 < s.kn) : Err u (k + 3) (|c| * s.kn * S 2) (-c * s.kn * fw Z) (fsigFl fl s c Z') := by
  have a := h.err_fl (h.err_mul (Err.refl u (-c)) (h.err_of_rel hn.le (Rel.refl u s.kn)))
  have b := disp_rounded h hZ 1
  have := h.err_fl (h.err_mul a b)
  rw [abs_neg, abs_one, one_mul, one_mul] at this
  exact h.err_mono this (by omega) le_rfl

theorem tau_rounded (hh : 0 < s.h) (ht : 0 < s.t) (hk : 0 < s.kt) :
    Err u (k + 7) (|c| * s.kt * slipScale s S) (-c * s.kt * (fdw Z * s.t / 2 - fu Z (s.h / 2))) (ftauFl fl s c Z') := by
  have a := h.err_fl (h.err_mul (Err.refl u (-c)) (h.err_of_rel hk.le (Rel.refl u s.kt)))
  have z0 : Err u 1 (s.h / 2) (s.h / 2) (fl (s.h / 2)) := h.err_of_rel (by linarith) (h.rel_fl (Rel.refl u _))
  have b := horizontal_rounded h hZ 1 z0
  have d := h.err_fl (h.err_div (h.err_fl (h.err_mul (hZ 3) (h.err_of_rel ht.le (Rel.refl u s.t)))) two_pos (Rel.refl u 2))
  have e := h.err_fl ((h.err_mono (m := k + 1 + 3) d (by omega) le_rfl).sub b)
  have := h.err_fl (h.err_mul a e)
  rw [abs_neg, abs_one, one_mul, one_mul] at this
  exact h.err_mono this (by omega) le_rfl

theorem energies_rounded (hs : Stored s) :
    Err u (2 * k + 10) (|c| * (s.kn * S 2) ^ 2 / (2 * s.kn)) (c * fsig s Z ^ 2 / (2 * s.kn)) (fGiFl fl s c Z') ∧
    Err u (2 * k + 18) (|c| * (s.kt * slipScale s S) ^ 2 / (2 * s.kt)) (c * ftau s Z ^ 2 / (2 * s.kt)) (fGiiFl fl s c Z') := by
  constructor
  · have a := sig_rounded h s hZ 1 hs.kn
    rw [abs_one, one_mul] at a
    have := h.err_fl (h.err_div (h.err_fl (h.err_mul (Err.refl u c) (h.err_fl (h.err_sq a))))
      (by have := hs.kn; linarith : 0 < 2 * s.kn) (h.rel_fl (Rel.refl u _)))
    exact h.err_mono this (by omega) le_rfl
  · have a := tau_rounded h s hZ 1 hs.h hs.t hs.kt
    rw [abs_one, one_mul] at a
    have := h.err_fl (h.err_div (h.err_fl (h.err_mul (Err.refl u c) (h.err_fl (h.err_sq a))))
      (by have := hs.kt; linarith : 0 < 2 * s.kt) (h.rel_fl (Rel.refl u _)))
    exact h.err_mono this (by omega) le_rfl

end

/-- C90, section forces and displacements of a given state. -/
theorem C90_section (h : RoundOk u fl) (hu : ((3 : ℕ) : ℝ) * u < 1) (s : Self) (Z : Vec6) (c z0 : ℝ) :
    |fwFl fl c Z - c * fw Z| ≤ gamma u 3 * |c * fw Z| ∧
    |fuFl fl c Z z0 - c * fu Z z0| ≤ gamma u 3 * (|c| * (|Z 0| + |z0| * |Z 4|)) ∧
    |fNFl fl s Z - fN s Z| ≤ gamma u 3 * (|s.A11| * |Z 1| + |s.B11| * |Z 5|) ∧
    |fMFl fl s Z - fM s Z| ≤ gamma u 3 * (|s.B11| * |Z 1| + |s.D11| * |Z 5|) ∧
    |fVFl fl s Z - fV s Z| ≤ gamma u 3 * (|s.kA55| * (|Z 3| + |Z 4|)) := by
  have hZ : ∀ i, Err u 0 |Z i| (Z i) (Z i) := fun i => Err.refl u (Z i)
  obtain ⟨a, b, d⟩ := section_rounded h s hZ
  have key : ∀ {k x x' B}, Err u k B x x' → k ≤ 3 → |x' - x| ≤ gamma u 3 * B := fun e hk => h.err_bound (h.err_mono e hk le_rfl) hu
  refine ⟨?_, key (horizontal_rounded h hZ c (Err.refl u z0)) (by omega), key a (by omega), key b (by omega), key d (by omega)⟩
  rw [abs_mul]
  exact key (disp_rounded h hZ c) (by omega)

/-- C90, weak layer at a given state: the normal stress and the mode I energy release
rate have small relative errors. The errors of the shear stress and the mode II rate
are small compared with what the three terms of the shear deformation give. -/
theorem C90_weak_layer (h : RoundOk u fl) (hu : ((18 : ℕ) : ℝ) * u < 1) (s : Self) (hs : Stored s) (Z : Vec6) (c : ℝ) :
    |fsigFl fl s c Z - c * fsig s Z| ≤ gamma u 18 * |c * fsig s Z| ∧
    |ftauFl fl s c Z - c * ftau s Z| ≤ gamma u 18 * (|c| * s.kt * slipScale s fun i => |Z i|) ∧
    |fGiFl fl s c Z - c * fGi s Z| ≤ gamma u 18 * |c * fGi s Z| ∧
    |fGiiFl fl s c Z - c * fGii s Z| ≤ gamma u 18 * (|c| * (s.kt * slipScale s fun i => |Z i|) ^ 2 / (2 * s.kt)) := by
  have hZ : ∀ i, Err u 0 |Z i| (Z i) (Z i) := fun i => Err.refl u (Z i)
  have key : ∀ {k x x' B}, Err u k B x x' → k ≤ 18 → |x' - x| ≤ gamma u 18 * B := fun e hk => h.err_bound (h.err_mono e hk le_rfl) hu
  obtain ⟨g1, g2⟩ := energies_rounded h s hZ c hs
  have e1 : c * fsig s Z = -c * s.kn * fw Z := by unfold fsig; ring
  have e2 : c * ftau s Z = -c * s.kt * (fdw Z * s.t / 2 - fu Z (s.h / 2)) := by unfold ftau; ring
  have e3 : c * fGi s Z = c * fsig s Z ^ 2 / (2 * s.kn) := by unfold fGi; ring
  have e4 : c * fGii s Z = c * ftau s Z ^ 2 / (2 * s.kt) := by unfold fGii; ring
  have hn := hs.kn
  refine ⟨?_, ?_, ?_, ?_⟩
  · rw [e1]
    refine (key (sig_rounded h s hZ c hn) (by omega)).trans_eq ?_
    rw [abs_mul, abs_mul, abs_neg, abs_of_pos hn]
    rfl
  · rw [e2]
    exact key (tau_rounded h s hZ c hs.h hs.t hs.kt) (by omega)
  · rw [e3]
    refine (key g1 (by omega)).trans_eq ?_
    rw [abs_div, abs_mul, abs_of_pos (by linarith : 0 < 2 * s.kn), abs_of_nonneg (sq_nonneg (fsig s Z)), mul_pow, sq_abs]
    unfold fsig fw
    ring
  · rw [e4]
    exact key g2 (by omega)

/-- C90, from the constants to the results: stresses and energy release rates at a
position of a supported segment. -/
theorem C90_results (h : RoundOk u fl) (hl : LibmOk u m lib) (s : Self) (hs : Stored s) {x l : ℝ} (h0 : 0 ≤ x) (h1 : x ≤ l) (C : Vec6) (phi c : ℝ)
    (hu : ((2 * s.slab.length + 4 * m + 52 : ℕ) : ℝ) * u < 1) :
    let Z := zsol s x C l phi true
    let Z' := zsolFl fl lib s x C l phi true
    let S := stateScale s x C phi true
    let e := gamma u (2 * s.slab.length + 4 * m + 52)
    |fsigFl fl s c Z' - c * fsig s Z| ≤ e * (|c| * s.kn * S 2) ∧
    |ftauFl fl s c Z' - c * ftau s Z| ≤ e * (|c| * s.kt * slipScale s S) ∧
    |fGiFl fl s c Z' - c * fGi s Z| ≤ e * (|c| * (s.kn * S 2) ^ 2 / (2 * s.kn)) ∧
    |fGiiFl fl s c Z' - c * fGii s Z| ≤ e * (|c| * (s.kt * slipScale s S) ^ 2 / (2 * s.kt)) := by
  intro Z Z' S e
  have hZ : ∀ i, Err u (s.slab.length + 2 * m + 17) (S i) (Z i) (Z' i) := fun i => state_rounded h hl s hs h0 h1 C phi true i
  have key : ∀ {k x x' B}, Err u k B x x' → k ≤ 2 * s.slab.length + 4 * m + 52 → |x' - x| ≤ e * B :=
    fun r hk => h.err_bound (h.err_mono r hk le_rfl) hu
  obtain ⟨g1, g2⟩ := energies_rounded h s hZ c hs
  have e1 : c * fsig s Z = -c * s.kn * fw Z := by unfold fsig; ring
  have e2 : c * ftau s Z = -c * s.kt * (fdw Z * s.t / 2 - fu Z (s.h / 2)) := by unfold ftau; ring
  have e3 : c * fGi s Z = c * fsig s Z ^ 2 / (2 * s.kn) := by unfold fGi; ring
  have e4 : c * fGii s Z = c * ftau s Z ^ 2 / (2 * s.kt) := by unfold fGii; ring
  rw [e1, e2, e3, e4]
  exact ⟨key (sig_rounded h s hZ c hs.kn) (by omega), key (tau_rounded h s hZ c hs.h hs.t hs.kt) (by omega), key g1 (by omega), key g2 (by omega)⟩

/-- C90, from the constants to the results: section forces anywhere. -/
theorem C90_forces (h : RoundOk u fl) (hl : LibmOk u m lib) (s : Self) (hs : Stored s) {x l : ℝ} (h0 : 0 ≤ x) (h1 : x ≤ l) (C : Vec6) (phi : ℝ)
    (bed : Bool) (hu : ((s.slab.length + 2 * m + 19 : ℕ) : ℝ) * u < 1) :
    let Z := zsol s x C l phi bed
    let Z' := zsolFl fl lib s x C l phi bed
    let S := stateScale s x C phi bed
    let e := gamma u (s.slab.length + 2 * m + 19)
    |fNFl fl s Z' - fN s Z| ≤ e * (s.A11 * S 1 + |s.B11| * S 5) ∧
    |fMFl fl s Z' - fM s Z| ≤ e * (|s.B11| * S 1 + |s.D11| * S 5) ∧
    |fVFl fl s Z' - fV s Z| ≤ e * (s.kA55 * (S 3 + S 4)) := by
  intro Z Z' S e
  have hZ : ∀ i, Err u (s.slab.length + 2 * m + 17) (S i) (Z i) (Z' i) := fun i => state_rounded h hl s hs h0 h1 C phi bed i
  obtain ⟨a, b, d⟩ := section_rounded h s hZ
  rw [abs_of_pos hs.A11] at a
  rw [abs_of_pos hs.kA55] at d
  exact ⟨h.err_bound a hu, h.err_bound b hu, h.err_bound d hu⟩

/-- Objects as the constructor leaves them. -/
theorem Ready.stored {eig : EigSolver} {s : Self} (hr : Ready eig s) : Stored s := by
  have hb := hr.stiff
  refine ⟨hr.slab.valid, hr.g.le, hb.h, hb.t, hb.kn, hb.kt, hb.A11, hb.kA55, fun q hq => ?_, fun q hq => ?_⟩
  · rcases shift_real hr.fresh.eigFresh hq with ⟨a, b⟩ | ⟨a, b⟩
    · exact .inl ⟨a, b.le⟩
    · exact .inr ⟨a, b⟩
  · exact shift_cplx hr.fresh.eigFresh hq

end Weac
