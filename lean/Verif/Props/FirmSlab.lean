import Verif.Props.Standing

/-!
# C85: layered slabs

Bounds for the stiffnesses of a layered slab in terms of its softest layer. They
show that every slab with firm layers meets the hypotheses of the theory.
-/

namespace Weac
open Spec

theorem layerSum_ge {F G : Layer → ℝ → ℝ → ℝ} (ls : List Layer) (top : ℝ)
    (h : ∀ l ∈ ls, ∀ a, top ≤ a → a + l.h ≤ top + total Layer.h ls → F l a (a + l.h) ≤ G l a (a + l.h))
    (hh : ∀ l ∈ ls, 0 ≤ l.h) : layerSum Layer.h F top ls ≤ layerSum Layer.h G top ls := by
  induction ls generalizing top with
  | nil => simp [layerSum]
  | cons l ls ih =>
    have hl := hh l List.mem_cons_self
    have ht : 0 ≤ total Layer.h ls := List.sum_nonneg (by
      intro x hx
      obtain ⟨y, hy, rfl⟩ := List.mem_map.mp hx
      exact hh y (List.mem_cons_of_mem _ hy))
    simp only [layerSum]
    refine add_le_add (h l List.mem_cons_self top le_rfl (by rw [total_cons]; linarith)) ?_
    refine ih (top + l.h) (fun l' hl' a h1 h2 => ?_) (fun l' hl' => hh l' (List.mem_cons_of_mem _ hl'))
    exact h l' (List.mem_cons_of_mem _ hl') a (by linarith) (by rw [total_cons]; linarith)

theorem layerSum_lin (F G H : Layer → ℝ → ℝ → ℝ) (x y : ℝ) (ls : List Layer) (top : ℝ) :
    layerSum Layer.h (fun l a b => F l a b + x * G l a b + y * H l a b) top ls
      = layerSum Layer.h F top ls + x * layerSum Layer.h G top ls + y * layerSum Layer.h H top ls := by
  induction ls generalizing top with
  | nil => simp [layerSum]
  | cons l ls ih =>
    simp only [layerSum, ih]
    ring

theorem layerSum_telescope (g : ℝ → ℝ) (c : ℝ) (ls : List Layer) (top : ℝ) :
    layerSum Layer.h (fun _ a b => c * (g b - g a)) top ls = c * (g (top + total Layer.h ls) - g top) := by
  induction ls generalizing top with
  | nil => simp [layerSum]
  | cons l ls ih =>
    simp only [layerSum, ih, total_cons]
    ring_nf

/-- All layers have the Poisson ratio 0.25 and a modulus of at least `m`. -/
structure Spec.Firm (m : ℝ) (s : Self) : Prop where
  modulus : ∀ l ∈ s.slab, m ≤ l.E
  nu : ∀ l ∈ s.slab, l.nu = 1 / 4
  G : ∀ l ∈ s.slab, l.G = l.E / (2 * (1 + 1 / 4))

section
variable {eig : EigSolver} {s : Self} {m : ℝ}

theorem ready_sums (h : Ready eig s) (hm : Firm m s) :
    s.A11 = layerSum Layer.h (fun l a b => 16 / 15 * l.E * (b - a)) (-s.h / 2) s.slab ∧
    s.B11 = layerSum Layer.h (fun l a b => 16 / 15 * l.E * ((b ^ 2 - a ^ 2) / 2)) (-s.h / 2) s.slab ∧
    s.D11 = layerSum Layer.h (fun l a b => 16 / 15 * l.E * ((b ^ 3 - a ^ 3) / 3)) (-s.h / 2) s.slab ∧
    s.kA55 = 5 / 16 * s.A11 := by
  obtain ⟨-, -, e3, e4, e5, e6, -⟩ := fundamental_fields eig s
  have hfr : calcFundamentalSystem eig s = s := h.fresh
  rw [hfr, laminate_eq] at e3 e4 e5 e6
  have hh : ∀ l ∈ s.slab, 0 ≤ l.h := fun l hl => (h.slab.valid l hl).h.le
  have congr : ∀ F G : Layer → ℝ → ℝ → ℝ, (∀ l ∈ s.slab, ∀ a b, F l a b = G l a b) →
      layerSum Layer.h F (-s.h / 2) s.slab = layerSum Layer.h G (-s.h / 2) s.slab := fun F G hFG =>
    le_antisymm (layerSum_ge _ _ (fun l hl a _ _ => (hFG l hl _ _).le) hh)
      (layerSum_ge _ _ (fun l hl a _ _ => (hFG l hl _ _).ge) hh)
  have eA : s.A11 = layerSum Layer.h (fun l a b => 16 / 15 * l.E * (b - a)) (-s.h / 2) s.slab := by
    rw [e3]
    exact congr _ _ fun l hl a b => by rw [hm.nu l hl]; ring
  refine ⟨eA, ?_, ?_, ?_⟩
  · rw [e4]
    exact congr _ _ fun l hl a b => by rw [hm.nu l hl]; ring
  · rw [e5]
    exact congr _ _ fun l hl a b => by rw [hm.nu l hl]; ring
  · have := layerSum_lin (fun _ _ _ => 0) (fun l a b => 16 / 15 * l.E * (b - a)) (fun _ _ _ => 0) (5 / 16) 0 s.slab (-s.h / 2)
    have z : ∀ top, layerSum Layer.h (fun _ _ _ => (0 : ℝ)) top s.slab = 0 := by
      intro top
      have := layerSum_telescope (fun _ => 0) 0 s.slab top
      simpa using this
    rw [z, zero_add, mul_zero, add_zero, ← eA] at this
    rw [e6, ← this]
    exact congr _ _ fun l hl a b => by rw [hm.G l hl, h.slab.k]; ring

theorem firm_A (h : Ready eig s) (hm : Firm m s) : 16 / 15 * m * s.h ≤ s.A11 := by
  rw [(ready_sums h hm).1]
  have e := layerSum_telescope (fun x => x) (16 / 15 * m) s.slab (-s.h / 2)
  rw [← h.slab.h] at e
  have : 16 / 15 * m * s.h = 16 / 15 * m * (-s.h / 2 + s.h - -s.h / 2) := by ring
  rw [this, ← e]
  refine layerSum_ge _ _ (fun l hl a _ _ => ?_) (fun l hl => (h.slab.valid l hl).h.le)
  have := hm.modulus l hl
  have := (h.slab.valid l hl).h
  nlinarith

/-- Bending stiffness about any axis. -/
theorem firm_D (h : Ready eig s) (hm : Firm m s) (hm0 : 0 ≤ m) (c : ℝ) :
    4 / 45 * m * s.h ^ 3 ≤ s.D11 - 2 * c * s.B11 + c ^ 2 * s.A11 := by
  obtain ⟨e1, e2, e3, -⟩ := ready_sums h hm
  have e := layerSum_lin (fun l a b => 16 / 15 * l.E * ((b ^ 3 - a ^ 3) / 3))
    (fun l a b => 16 / 15 * l.E * ((b ^ 2 - a ^ 2) / 2)) (fun l a b => 16 / 15 * l.E * (b - a)) (-(2 * c)) (c ^ 2)
    s.slab (-s.h / 2)
  rw [← e1, ← e2, ← e3] at e
  have e' := layerSum_telescope (fun x => (x - c) ^ 3) (16 / 45 * m) s.slab (-s.h / 2)
  rw [← h.slab.h] at e'
  have k : layerSum Layer.h (fun _ a b => 16 / 45 * m * ((b - c) ^ 3 - (a - c) ^ 3)) (-s.h / 2) s.slab
      ≤ layerSum Layer.h (fun l a b => 16 / 15 * l.E * ((b ^ 3 - a ^ 3) / 3)
        + -(2 * c) * (16 / 15 * l.E * ((b ^ 2 - a ^ 2) / 2)) + c ^ 2 * (16 / 15 * l.E * (b - a))) (-s.h / 2) s.slab := by
    refine layerSum_ge _ _ (fun l hl a _ _ => ?_) (fun l hl => (h.slab.valid l hl).h.le)
    have h1 := hm.modulus l hl
    have h2 := (h.slab.valid l hl).h
    have h3 : 0 ≤ (a + l.h - c) ^ 3 - (a - c) ^ 3 := by
      have : (a + l.h - c) ^ 3 - (a - c) ^ 3 = l.h * (3 * (a - c + l.h / 2) ^ 2 + l.h ^ 2 / 4) := by ring
      rw [this]; positivity
    nlinarith [mul_le_mul_of_nonneg_right h1 h3]
  rw [e, e'] at k
  have hh := h.stiff.h
  have : 16 / 45 * m * ((-s.h / 2 + s.h - c) ^ 3 - (-s.h / 2 - c) ^ 3)
      = 4 / 45 * m * s.h ^ 3 + 16 / 15 * m * s.h * c ^ 2 := by ring
  rw [this] at k
  have : 0 ≤ 16 / 15 * m * s.h * c ^ 2 := by positivity
  linarith

theorem firm_D_le (h : Ready eig s) (hm : Firm m s) : s.D11 ≤ s.A11 * (s.h ^ 2 / 4) := by
  obtain ⟨e1, -, e3, -⟩ := ready_sums h hm
  have e := layerSum_lin (fun _ _ _ => 0) (fun l a b => 16 / 15 * l.E * (b - a)) (fun _ _ _ => 0) (s.h ^ 2 / 4) 0
    s.slab (-s.h / 2)
  have z : layerSum Layer.h (fun _ _ _ => (0 : ℝ)) (-s.h / 2) s.slab = 0 := by
    have := layerSum_telescope (fun _ => 0) 0 s.slab (-s.h / 2)
    simpa using this
  rw [z, ← e1] at e
  have e' : s.A11 * (s.h ^ 2 / 4) = layerSum Layer.h (fun l a b => 0 + s.h ^ 2 / 4 * (16 / 15 * l.E * (b - a)) + 0 * 0)
      (-s.h / 2) s.slab := by rw [e]; ring
  rw [e', e3]
  refine layerSum_ge _ _ (fun l hl a h1 h2 => ?_) (fun l hl => (h.slab.valid l hl).h.le)
  rw [← h.slab.h] at h2
  have hE := (h.slab.valid l hl).E
  have hl := (h.slab.valid l hl).h
  have b1 : a ^ 2 ≤ s.h ^ 2 / 4 := by nlinarith
  have b2 : (a + l.h) ^ 2 ≤ s.h ^ 2 / 4 := by nlinarith
  have b3 : a * (a + l.h) ≤ s.h ^ 2 / 4 := by nlinarith [sq_nonneg (a - (a + l.h))]
  have : ((a + l.h) ^ 3 - a ^ 3) / 3 ≤ s.h ^ 2 / 4 * l.h := by
    have e : (a + l.h) ^ 3 - a ^ 3 = l.h * (a ^ 2 + a * (a + l.h) + (a + l.h) ^ 2) := by ring
    rw [e]
    nlinarith
  have := mul_le_mul_of_nonneg_left this (show 0 ≤ 16 / 15 * l.E by positivity)
  calc _ ≤ _ := this
    _ = _ := by ring

theorem firm_B (h : Ready eig s) (hm : Firm m s) : -(s.A11 * (s.h / 2)) ≤ s.B11 := by
  obtain ⟨e1, e2, -, -⟩ := ready_sums h hm
  have e := layerSum_lin (fun _ _ _ => 0) (fun l a b => 16 / 15 * l.E * (b - a)) (fun _ _ _ => 0) (-(s.h / 2)) 0
    s.slab (-s.h / 2)
  have z : layerSum Layer.h (fun _ _ _ => (0 : ℝ)) (-s.h / 2) s.slab = 0 := by
    have := layerSum_telescope (fun _ => 0) 0 s.slab (-s.h / 2)
    simpa using this
  rw [z, ← e1] at e
  have e' : -(s.A11 * (s.h / 2)) = layerSum Layer.h (fun l a b => 0 + -(s.h / 2) * (16 / 15 * l.E * (b - a)) + 0 * 0)
      (-s.h / 2) s.slab := by rw [e]; ring
  rw [e', e2]
  refine layerSum_ge _ _ (fun l hl a h1 h2 => ?_) (fun l hl => (h.slab.valid l hl).h.le)
  have hE := (h.slab.valid l hl).E
  have hl := (h.slab.valid l hl).h
  nlinarith [mul_pos hE hl, mul_nonneg (mul_pos hE hl).le (show 0 ≤ a + s.h / 2 by linarith), mul_pos (mul_pos hE hl) hl]

set_option maxHeartbeats 1000000 in
/-- The criterion for layered slabs. -/
theorem firm_disc (h : Ready eig s) (hm : Firm m s) (hm0 : 0 < m) (h1 : s.kt = 3 / 8 * s.kn) (hthin : 3 * s.t ≤ s.h)
    (hsoft : s.kn * s.h ≤ 8 / 45 * m) : (cubicOf s).disc ≠ 0 := by
  have hs := h.stiff
  have hA := hs.A11
  have hh := hs.h
  have ht := hs.t
  have hkn := hs.kn
  have hK := hs.K0
  rw [hs.K0_eq] at hK
  have hΔ : 0 < s.A11 * s.D11 - s.B11 ^ 2 := by linarith
  have b1 := firm_A h hm
  have b2 := firm_D h hm hm0.le (s.B11 / s.A11)
  have b3 := firm_D_le h hm
  have b4 := firm_B h hm
  have b5 := moment_le eig s h
  have hk := (ready_sums h hm).2.2.2
  set d := (s.A11 * s.D11 - s.B11 ^ 2) / s.A11 with hd
  have hd0 : 0 < d := div_pos hΔ hA
  have eΔ : s.A11 * s.D11 - s.B11 ^ 2 = s.A11 * d := by rw [hd]; field_simp
  have ed : s.D11 - 2 * (s.B11 / s.A11) * s.B11 + (s.B11 / s.A11) ^ 2 * s.A11 = d := by
    rw [hd]; field_simp; ring
  rw [ed] at b2
  have d1 : d ≤ s.A11 * (s.h ^ 2 / 4) := by
    have : d = s.D11 - s.B11 ^ 2 / s.A11 := by rw [hd]; field_simp
    rw [this]
    have : 0 ≤ s.B11 ^ 2 / s.A11 := by positivity
    linarith
  set c := s.B11 / s.A11 with hcdef
  have hc : -(s.h / 2) ≤ c := by
    rw [hcdef, le_div_iff₀ hA]; linarith
  have hc' : c ≤ s.h / 2 := by
    rw [hcdef, div_le_iff₀ hA]; linarith
  apply disc_soft s hs b5
  have eS : (s.A11 * ((s.h + s.t) / 2) ^ 2 - 2 * s.B11 * ((s.h + s.t) / 2) + s.D11) / (s.A11 * s.D11 - s.B11 ^ 2)
      = (((s.h + s.t) / 2 - c) ^ 2 + d / s.A11) / d := by
    have : s.A11 * ((s.h + s.t) / 2) ^ 2 - 2 * s.B11 * ((s.h + s.t) / 2) + s.D11
        = s.A11 * (((s.h + s.t) / 2 - c) ^ 2 + d / s.A11) := by
      rw [hcdef, hd]; field_simp; ring
    rw [this, eΔ, mul_div_mul_left _ _ hA.ne']
  have eA : s.A11 / (s.A11 * s.D11 - s.B11 ^ 2) = 1 / d := by
    rw [eΔ]; field_simp
  simp only [eS, eA, hk, h1]
  have y0 : 0 ≤ ((s.h + s.t) / 2 - c) ^ 2 + d / s.A11 := by positivity
  have y1 : ((s.h + s.t) / 2 - c) ^ 2 + d / s.A11 ≤ 29 / 18 * s.h ^ 2 := by
    have x1 : d / s.A11 ≤ s.h ^ 2 / 4 := by rw [div_le_iff₀ hA]; linarith
    have x2 : ((s.h + s.t) / 2 - c) ^ 2 ≤ (7 / 6 * s.h) ^ 2 :=
      pow_le_pow_left₀ (by linarith) (by linarith) 2
    nlinarith
  set y := ((s.h + s.t) / 2 - c) ^ 2 + d / s.A11 with hy
  have u1 : (s.kn / (5 / 16 * s.A11)) ^ 2 ≤ 3 / 4 * (s.kn * (1 / d)) := by
    rw [div_pow, div_le_iff₀ (by positivity)]
    have : 3 / 4 * (s.kn * (1 / d)) * (5 / 16 * s.A11) ^ 2 = s.kn * (75 / 1024 * s.A11 ^ 2 / d) := by ring
    rw [this, sq]
    refine mul_le_mul_of_nonneg_left ?_ hkn.le
    rw [le_div_iff₀ hd0]
    have z1 : s.kn * s.h ^ 2 / 4 ≤ 75 / 1024 * s.A11 := by nlinarith
    have z2 := mul_le_mul_of_nonneg_left d1 hkn.le
    have z3 := mul_le_mul_of_nonneg_right z1 hA.le
    linarith
  have u2 : (3 / 8 * s.kn * (y / d)) ^ 2 ≤ 3 / 4 * (s.kn * (1 / d)) := by
    have e : (3 / 8 * s.kn * (y / d)) ^ 2 = s.kn / d * (9 / 64 * s.kn * y ^ 2 / d) := by ring
    have e' : 3 / 4 * (s.kn * (1 / d)) = s.kn / d * (3 / 4) := by ring
    rw [e, e']
    refine mul_le_mul_of_nonneg_left ?_ (by positivity)
    rw [div_le_iff₀ hd0]
    have z1 : y ^ 2 ≤ (29 / 18 * s.h ^ 2) ^ 2 := pow_le_pow_left₀ y0 y1 2
    have z2 : s.kn * y ^ 2 ≤ s.kn * (29 / 18 * s.h ^ 2) ^ 2 := mul_le_mul_of_nonneg_left z1 hkn.le
    have z3 : s.kn * s.h * s.h ^ 3 ≤ 8 / 45 * m * s.h ^ 3 := mul_le_mul_of_nonneg_right hsoft (by positivity)
    have z4 : s.kn * (29 / 18 * s.h ^ 2) ^ 2 = 841 / 324 * (s.kn * s.h * s.h ^ 3) := by ring
    have z5 : 8 / 45 * m * s.h ^ 3 = 2 * (4 / 45 * m * s.h ^ 3) := by ring
    have z6 : 9 / 64 * s.kn * y ^ 2 = 9 / 64 * (s.kn * y ^ 2) := by ring
    rw [z6]
    rw [z4] at z2
    rw [z5] at z3
    linarith
  have u3 := sq_nonneg (s.kn / (5 / 16 * s.A11) - 3 / 8 * s.kn * (y / d))
  generalize s.kn / (5 / 16 * s.A11) = u at *
  generalize 3 / 8 * s.kn * (y / d) = v at *
  have u4 : (u + v) ^ 2 = 2 * u ^ 2 + 2 * v ^ 2 - (u - v) ^ 2 := by ring
  rw [u4]
  linarith

end

/-- The slab of a site. -/
theorem siteObject_layers (eig : EigSolver) (site : Site) (s : Self) (h : siteObject eig site = .ok s)
    (hne : site.profile ≠ []) :
    s.slab = site.profile.map fun p =>
      ⟨p.rho, p.h, bergfeld p.rho 917 6.5 4.4, bergfeld p.rho 917 6.5 4.4 / (2 * (1 + 0.25)), 0.25⟩ := by
  obtain ⟨profile, phi, E, t, env⟩ := site
  obtain ⟨l, ls, rfl⟩ := List.exists_cons_of_ne_nil hne
  injection h with h
  rw [← h]
  have key : ∀ xs : List Ply,
      List.zipWith (fun l e => (⟨l.rho, l.h, e, e / (2 * (1 + 0.25)), 0.25⟩ : Layer)) xs
        (xs.map fun r => bergfeld r.rho 917 6.5 4.4) =
      xs.map fun p =>
        ⟨p.rho, p.h, bergfeld p.rho 917 6.5 4.4, bergfeld p.rho 917 6.5 4.4 / (2 * (1 + 0.25)), 0.25⟩ := by
    intro xs
    induction xs with
    | nil => rfl
    | cons x xs ih => rw [List.map_cons, List.zipWith_cons_cons, ih, List.map_cons]
  exact key (l :: ls)

/-- C85: every layered slab on a weak layer that is at most a third as thick,
and whose stiffness `E / t` is at most a sixth of that of the softest layer over
the thickness of the slab. The whole theory of the criterion applies. -/
theorem C85_layered (num : Numerics) (heig : ∀ K, EigOk K (num.eig K)) (site : Site) (hv : ValidPlies site.profile)
    (ht : 0 < site.t) (hE : 0 < site.E) (m : ℝ) (hm : 0 < m) (hfirm : ∀ p ∈ site.profile, m ≤ bergfeld p.rho 917 6.5 4.4)
    (hthin : 3 * site.t ≤ total Ply.h site.profile) (hsoft : site.E / site.t ≤ m / (6 * total Ply.h site.profile)) :
    SiteOk num site := by
  refine ⟨heig, hv, ht, hE, fun s hs => ?_⟩
  obtain ⟨s', k1, k2, -, -, -, -, -, -, -, k3, k4⟩ := siteObject_ready num.eig site hv ht hE
  rw [hs] at k1
  injection k1 with k1
  subst k1
  have hsl := siteObject_layers num.eig site s hs hv.1
  have hf : Firm m s := by
    constructor
    · intro l hl
      rw [hsl] at hl
      obtain ⟨p, hp, rfl⟩ := List.mem_map.mp hl
      exact hfirm p hp
    · intro l hl
      rw [hsl] at hl
      obtain ⟨p, hp, rfl⟩ := List.mem_map.mp hl
      norm_num
    · intro l hl
      rw [hsl] at hl
      obtain ⟨p, hp, rfl⟩ := List.mem_map.mp hl
      norm_num
  have hh : s.h = total Ply.h site.profile := by
    rw [k2.slab.h, hsl]
    simp [total, Function.comp_def]
  obtain ⟨e1, e2, -⟩ := fundamental_fields num.eig s
  have hfr : calcFundamentalSystem num.eig s = s := k2.fresh
  rw [hfr] at e1 e2
  simp only [calcFoundationStiffness, k3, k4] at e1 e2
  have f1 : s.kn = 16 / 15 * (site.E / site.t) := by rw [e1]; ring
  have f2 : s.kt = 2 / 5 * (site.E / site.t) := by rw [e2]; ring
  have hs0 := k2.stiff.h
  rw [← hh] at hthin hsoft
  have hs1 : site.E / site.t * s.h ≤ m / 6 := by
    calc site.E / site.t * s.h ≤ m / (6 * s.h) * s.h := mul_le_mul_of_nonneg_right hsoft hs0.le
      _ = m / 6 := by field_simp
  constructor
  · refine firm_disc k2 hf hm (by rw [f1, f2]; ring) (by rw [k3]; exact hthin) ?_
    rw [f1]
    linarith
  · unfold ShearOk
    have b1 := firm_A k2 hf
    rw [f2, (ready_sums k2 hf).2.2.2, k3]
    have x1 : site.E / site.t * site.t ^ 2 ≤ m / 6 * site.t := by
      have : site.E / site.t * site.t ^ 2 ≤ site.E / site.t * (s.h * site.t) :=
        mul_le_mul_of_nonneg_left (by nlinarith) (by positivity)
      nlinarith
    nlinarith [mul_pos hm hs0]

theorem bergfeld_hard (rho : ℝ) (h : 300 ≤ rho) : 45 ≤ bergfeld rho 917 6.5 4.4 := by
  unfold bergfeld
  have h1 : ((300 / 917 : ℝ)) ^ (4.4 : ℝ) ≤ (rho / 917) ^ (4.4 : ℝ) :=
    Real.rpow_le_rpow (by norm_num) (by linarith) (by norm_num)
  have h2 : (9 / 1300 : ℝ) ≤ (300 / 917 : ℝ) ^ (4.4 : ℝ) := by
    have e : (9 / 1300 : ℝ) = ((9 / 1300 : ℝ) ^ 5) ^ ((1 : ℝ) / 5) := by
      rw [← Real.rpow_natCast, ← Real.rpow_mul (by norm_num)]
      norm_num
    have e' : (300 / 917 : ℝ) ^ (4.4 : ℝ) = ((300 / 917 : ℝ) ^ 22) ^ ((1 : ℝ) / 5) := by
      rw [← Real.rpow_natCast, ← Real.rpow_mul (by norm_num)]
      norm_num
    rw [e, e']
    exact Real.rpow_le_rpow (by norm_num) (by norm_num) (by norm_num)
  have h3 := h2.trans h1
  norm_num at h3 ⊢
  linarith

/-- C85: slabs of any number of layers of at least 300 kg/m³, between 90 mm and
900 mm thick, on the default weak layer, at any inclination. -/
theorem C85_default_layered (num : Numerics) (heig : ∀ K, EigOk K (num.eig K)) (profile : List Ply) (phi : ℝ)
    (hv : ValidPlies profile) (hr : ∀ p ∈ profile, 300 ≤ p.rho) (h1 : 90 ≤ total Ply.h profile)
    (h2 : total Ply.h profile ≤ 900) : SiteOk num { profile := profile, phi := phi } := by
  refine C85_layered num heig _ hv (by norm_num) (by norm_num) 45 (by norm_num)
    (fun p hp => bergfeld_hard p.rho (hr p hp)) (by norm_num; linarith) ?_
  show (0.25 : ℝ) / 30 ≤ 45 / (6 * total Ply.h profile)
  rw [div_le_div_iff₀ (by norm_num) (by linarith)]
  norm_num
  linarith

/-- A slab of three layers. -/
example : SiteOk midNum { profile := [⟨320, 100⟩, ⟨450, 50⟩, ⟨380, 250⟩], phi := 35 } := by
  refine C85_default_layered midNum stdEig_ok _ _ ⟨by simp, ?_⟩ ?_ ?_ ?_
  · intro p hp
    fin_cases hp <;> norm_num
  · intro p hp
    fin_cases hp <;> norm_num
  · norm_num [total]
  · norm_num [total]

end Weac
