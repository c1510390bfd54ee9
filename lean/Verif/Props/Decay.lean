import Mathlib.Analysis.Complex.ExponentialBounds
import Verif.Lemmas.Decay
import Verif.Props.Mirror
import Verif.Props.WeightLost

/-!
# C67: disturbances die out along the slab
-/

namespace Weac

open Spec

/-- Stresses `kn w` and `tau` of a disturbance at distance `ρ` from where the
strain energy (twice) of the disturbance beyond is `E`. -/
def Spec.DiesOut (b : Beam) (β E ρ : ℝ) (z : Vec6) : Prop :=
  (b.kn * z 2) ^ 2 ≤ 11 * b.kn / (2 * β) * E * Real.exp (1 - (ρ - β) / b.reach) ∧
    b.tau z ^ 2 ≤ b.kt ^ 2 * b.slipWork β * E * Real.exp (1 - (ρ - β) / b.reach)

/-- Length over which the slab spreads loads. -/
def Spec.Beam.Spreads (b : Beam) (β : ℝ) : Prop := 0 < β ∧ b.kn * β ^ 4 ≤ 8 * (b.D - b.B ^ 2 / b.A)

variable {b : Beam}

theorem bending_le (hb : b.Coercive) (x y : ℝ) :
    (b.D - b.B ^ 2 / b.A) * y ^ 2 ≤ b.A * x ^ 2 + 2 * b.B * x * y + b.D * y ^ 2 := by
  have hA := hb.A
  have e : b.A * x ^ 2 + 2 * b.B * x * y + b.D * y ^ 2 - (b.D - b.B ^ 2 / b.A) * y ^ 2 = (b.A * x + b.B * y) ^ 2 / b.A := by
    field_simp
    ring
  have : 0 ≤ (b.A * x + b.B * y) ^ 2 / b.A := by positivity
  linarith

theorem slipWork_pos (hb : b.Coercive) {β : ℝ} (hβ : 0 < β) : 0 < b.slipWork β := by
  have h1 := slipCompliance_pos hb
  have h2 := slipRateCompliance_pos hb
  unfold Spec.Beam.slipWork
  positivity

theorem Spec.DiesOut.mono (hb : b.Coercive) {β E E' ρ : ℝ} {z : Vec6} (hβ : 0 < β) (h : DiesOut b β E ρ z) (hE : E ≤ E') :
    DiesOut b β E' ρ z := by
  have hk := hb.kn
  have hw := slipWork_pos hb hβ
  constructor
  · exact h.1.trans (by gcongr)
  · exact h.2.trans (by gcongr)

/-- A supported segment with a fixed right end. -/
theorem dies_out_right (hb : b.Coercive) {β : ℝ} (hβ : b.Spreads β) {f : ℝ → Vec6} (hf : SolvesODE b Loads.zero true f) {l : ℝ}
    (hu : f l 0 = 0) (hw : f l 2 = 0) (hp : f l 4 = 0) :
    ∀ x ∈ Set.Icc β l, DiesOut b β (-b.flux (f 0)) x (f x) := by
  obtain ⟨h0, h1⟩ := hβ
  intro x hx
  have hk := hb.kn
  have hl : 0 ≤ l := by linarith [hx.1, hx.2]
  have hd := flux_decay hb hf hl hu hw hp (x - β) ⟨by linarith [hx.1], by linarith [hx.2]⟩
  constructor
  · have := deflection_decay hb (bending_le hb) h0 (by rw [mul_comm]; exact h1) hf hu hw hp hx.2
    have h2 := mul_le_mul_of_nonneg_left hd (show 0 ≤ b.kn ^ 2 * (11 / (2 * b.kn * β)) by positivity)
    have h3 := mul_le_mul_of_nonneg_left this (sq_nonneg b.kn)
    rw [mul_pow]
    refine h3.trans ?_
    rw [← mul_assoc]
    refine h2.trans (le_of_eq ?_)
    field_simp
  · have := slip_decay hb hf h0 hu hw hp hx.2
    have hw0 := slipWork_pos hb h0
    have h2 := mul_le_mul_of_nonneg_left hd (show 0 ≤ b.kt ^ 2 * b.slipWork β by positivity)
    have h3 := mul_le_mul_of_nonneg_left this (sq_nonneg b.kt)
    have e : b.tau (f x) = b.kt * b.slip (f x) := rfl
    rw [e, mul_pow]
    refine h3.trans ?_
    rw [← mul_assoc]
    refine h2.trans (le_of_eq ?_)
    ring

theorem solves_flip {f : ℝ → Vec6} (hf : SolvesODE b Loads.zero true f) (l : ℝ) :
    SolvesODE b Loads.zero true fun x => flip (f (l - x)) := by
  rw [solvesODE_iff_driven] at hf ⊢
  have := Driven.flip hf l
  have e : (-(b.drive Loads.zero).1, (b.drive Loads.zero).2.1, -(b.drive Loads.zero).2.2) = b.drive Loads.zero := by
    simp [Beam.drive, Loads.zero]
  rwa [e] at this

theorem flux_flip (z : Vec6) : b.flux (flip z) = -b.flux z := by
  simp [Beam.flux, Beam.N, Beam.M, Beam.V, flip]
  ring

theorem Spec.DiesOut.flip {β E ρ : ℝ} {z : Vec6} (h : DiesOut b β E ρ (Weac.flip z)) : DiesOut b β E ρ z := by
  have e : b.tau (Weac.flip z) = -b.tau z := by simp [Beam.tau, Weac.flip]; ring
  obtain ⟨h1, h2⟩ := h
  rw [e, neg_sq] at h2
  exact ⟨h1, h2⟩

/-- A supported segment with a fixed left end. -/
theorem dies_out_left (hb : b.Coercive) {β : ℝ} (hβ : b.Spreads β) {f : ℝ → Vec6} (hf : SolvesODE b Loads.zero true f) {p l : ℝ}
    (hu : f p 0 = 0) (hw : f p 2 = 0) (hp : f p 4 = 0) :
    ∀ x, p ≤ x → x ≤ l - β → DiesOut b β (b.flux (f l)) (l - x) (f x) := by
  intro x h1 h2
  have := dies_out_right hb hβ (solves_flip hf l) (l := l - p) (by simp [Weac.flip, hu]) (by simp [Weac.flip, hw])
    (by simp [Weac.flip, hp]) (l - x) ⟨by linarith, by linarith⟩
  simp only [flux_flip, neg_neg, sub_zero, sub_sub_cancel] at this
  exact this.flip

/-- Strain energy (twice) as power at the ends. -/
theorem energy_flux {f : ℝ → Vec6} (hf : SolvesODE b Loads.zero true f) (x y : ℝ) :
    ∫ t in x..y, b.diss true (f t) = b.flux (f y) - b.flux (f x) := by
  have hc : Continuous f := continuous_iff_continuousAt.2 fun x => by
    obtain ⟨dz, h1, -⟩ := hf x
    exact h1.continuousAt
  have hd : Continuous fun t => b.diss true (f t) := by
    have := fun i => (continuous_apply i).comp hc
    have h0 := this 0
    have h1 := this 1
    have h2 := this 2
    have h3 := this 3
    have h4 := this 4
    have h5 := this 5
    simp only [Function.comp_def] at h0 h1 h2 h3 h4 h5
    simp only [Beam.diss, Beam.tau, if_true]
    fun_prop
  exact intervalIntegral.integral_eq_sub_of_hasDerivAt (fun t _ => bedded_flux_deriv hf t) (hd.intervalIntegrable _ _)

/-! ## End segments -/

/-- Deviation from the state of a slab of infinite length without crack and skier. -/
noncomputable def Spec.deviation (s : Self) (phi : ℝ) (a : SegLists) (C : List Vec6) (i : ℕ) (x : ℝ) : Vec6 :=
  zsol s x (C.getD i 0) (nth a.li i) phi true - zp s 0 phi true

/-- C67: at the ends of a system with skiers, the effect of all skiers and cracks
dies out exponentially. The strain energy of the deviation in the part of the
last supported segment beyond `x` is at most `exp (1 - x / reach)` times that in the
whole segment, and so is, from some distance on, the square of the change of
the stresses, up to constant factors. The same holds for the first segment. -/
theorem C67_ends (num : Numerics) (kind : SeqKind) (phi : ℝ) (a a' : SegLists) (s s' : Self) (C : List Vec6) (hb : BedOk s)
    (hc : ShearOk s) (hf : EigFresh num.eig s) (hsys : IsSkier s)
    (h : assembleAndSolve num kind phi a s = (.ok (C, a'), s')) (hnn : ∀ l ∈ a'.li, 0 ≤ l) (β : ℝ) (hβ : s.beam.Spreads β) :
    (a'.ki.getD (a'.li.length - 1) false = true →
      let i := a'.li.length - 1
      let l := nth a'.li i
      let d := deviation s phi a' C i
      (∀ x ∈ Set.Icc 0 l, ∫ t in x..l, s.beam.diss true (d t) ≤
        Real.exp (1 - x / s.beam.reach) * ∫ t in 0..l, s.beam.diss true (d t)) ∧
      ∀ x ∈ Set.Icc β l, DiesOut s.beam β (∫ t in 0..l, s.beam.diss true (d t)) x (d x)) ∧
    (a'.ki.getD 0 false = true →
      let l := nth a'.li 0
      let d := deviation s phi a' C 0
      (∀ x ∈ Set.Icc 0 l, ∫ t in 0..x, s.beam.diss true (d t) ≤
        Real.exp (1 - (l - x) / s.beam.reach) * ∫ t in 0..l, s.beam.diss true (d t)) ∧
      ∀ x ∈ Set.Icc 0 (l - β), DiesOut s.beam β (∫ t in 0..l, s.beam.diss true (d t)) (l - x) (d x)) := by
  have hv : NoFaceTouchdown s := by
    intro hv
    unfold IsVpst at hv
    rcases hsys with e | e <;> rw [e] at hv <;> simp at hv
  obtain ⟨-, rfl, -, hm, -⟩ := C16_solution_meets_all_conditions num kind phi a a' s s' C hf hv h
  have hco := hb.stiff.coercive hc
  have he : ∀ e k, endCond s phi (valOf (spring num) s) e k = .state (zp s 0 phi true 0) (zp s 0 phi true 2) (zp s 0 phi true 4) := by
    intro e k
    unfold endCond IsPst IsVpst IsSkier
    rcases hsys with hsys | hsys <;> simp [hsys]
  unfold Meets at hm
  rw [he, he] at hm
  have hd : ∀ i, deviation s phi (full a) C i = fun x => (zh s x (nth (full a).li i) true).mulVec (C.getD i 0) := by
    intro i
    funext x
    unfold deviation zsol
    exact add_sub_cancel_right _ _
  have hnn' : ∀ i, 0 ≤ nth (full a).li i := fun i => by
    rw [nth]
    by_cases hi : i < (full a).li.length
    · rw [List.getD_eq_getElem _ _ hi]
      exact hnn _ (List.getElem_mem hi)
    · rw [List.getD_eq_default _ _ (by omega)]
  have hode : ∀ i, SolvesODE s.beam Loads.zero true (deviation s phi (full a) C i) := fun i => by
    rw [hd i]
    exact zh_solves s hb true _ _
  constructor
  · intro hk
    have hr := hm.right
    simp only [stateAt, hk] at hr
    obtain ⟨e0, e2, e4⟩ := hr
    intro i l d
    have d0 : d l 0 = 0 := by show zsol _ _ _ _ _ _ 0 - _ = 0; rw [e0, sub_self]
    have d2 : d l 2 = 0 := by show zsol _ _ _ _ _ _ 2 - _ = 0; rw [e2, sub_self]
    have d4 : d l 4 = 0 := by show zsol _ _ _ _ _ _ 4 - _ = 0; rw [e4, sub_self]
    have fl : s.beam.flux (d l) = 0 := by simp [Beam.flux, d0, d2, d4]
    simp only [energy_flux (hode i), d, l, fl, zero_sub]
    exact ⟨flux_decay hco (hode i) (hnn' i) d0 d2 d4, dies_out_right hco hβ (hode i) d0 d2 d4⟩
  · intro hk
    have hr := hm.left
    simp only [stateAt, hk] at hr
    obtain ⟨e0, e2, e4⟩ := hr
    intro l d
    have d0 : d 0 0 = 0 := by show zsol _ _ _ _ _ _ 0 - _ = 0; rw [e0, sub_self]
    have d2 : d 0 2 = 0 := by show zsol _ _ _ _ _ _ 2 - _ = 0; rw [e2, sub_self]
    have d4 : d 0 4 = 0 := by show zsol _ _ _ _ _ _ 4 - _ = 0; rw [e4, sub_self]
    have fl : s.beam.flux (d 0) = 0 := by simp [Beam.flux, d0, d2, d4]
    simp only [energy_flux (hode 0), d, l, fl, sub_zero]
    refine ⟨fun x hx => ?_, fun x hx => dies_out_left hco hβ (hode 0) d0 d2 d4 x hx.1 hx.2⟩
    have := flux_decay hco (solves_flip (hode 0) l) (hnn' 0) (by show -(d (l - l) 0) = 0; rw [sub_self, d0, neg_zero])
      (by show d (l - l) 2 = 0; rw [sub_self, d2]) (by show -(d (l - l) 4) = 0; rw [sub_self, d4, neg_zero]) (l - x) ⟨by linarith [hx.2], by linarith [hx.1]⟩
    simpa only [flux_flip, neg_neg, sub_zero, sub_sub_cancel] using this

theorem spreads_exists (hb : b.Coercive) : ∃ β, b.Spreads β := by
  have hδ : 0 < b.D - b.B ^ 2 / b.A := by
    have := hb.det
    have hA := hb.A
    rw [show b.D - b.B ^ 2 / b.A = (b.A * b.D - b.B ^ 2) / b.A by field_simp]
    positivity
  have hk := hb.kn
  have hβ : 0 < min 1 (8 * (b.D - b.B ^ 2 / b.A) / b.kn) := lt_min one_pos (by positivity)
  refine ⟨_, hβ, ?_⟩
  have h1 : min 1 (8 * (b.D - b.B ^ 2 / b.A) / b.kn) ^ 4 ≤ min 1 (8 * (b.D - b.B ^ 2 / b.A) / b.kn) :=
    pow_le_of_le_one hβ.le (min_le_left _ _) (by norm_num)
  have h2 := h1.trans (min_le_right _ _)
  rw [le_div_iff₀ hk] at h2
  linarith

/-- Skier of 80 kg over a crack of 0.3 m on a slope of 38 degrees: strain energy in
the last 1.5 m. -/
example : ∃ C, assembleAndSolve stdNum .list 38 skierLists skierDemo = (.ok (C, skierLists), skierDemo) ∧
    ∫ t in (500 : ℝ)..2000, skierDemo.beam.diss true (deviation skierDemo 38 skierLists C 3 t) ≤
      Real.exp (1 - 500 / skierDemo.beam.reach) *
        ∫ t in (0 : ℝ)..2000, skierDemo.beam.diss true (deviation skierDemo 38 skierLists C 3 t) := by
  obtain ⟨C, h1, -⟩ := skierDemo_solved 38
  obtain ⟨β, hβ⟩ := spreads_exists ((demo_bedOk _ _ : BedOk skierDemo).stiff.coercive (demo_shear _ _ _))
  have := ((C67_ends stdNum .list 38 skierLists skierLists skierDemo skierDemo C (demo_bedOk _ _) (demo_shear _ _ _)
    (demo_ready _ _ _).fresh.eigFresh skierDemo_isSkier h1 (by simp [skierLists]) β hβ).1 (by simp [skierLists])).1 500
    (by simp [skierLists, nth]; norm_num)
  exact ⟨C, h1, by simpa [skierLists, nth] using this⟩

/-! ## Skier on level ground -/

theorem transmission_eq (hb : b.Coercive) {zl zr : Vec6} (h : Transmission b (0, 0, 0) zl zr) : zl = zr := by
  obtain ⟨h0, h2, h4, hN, hM, hV⟩ := h
  refine sub_eq_zero.1 (state_zero hb _ (sub_eq_zero.2 h0) (sub_eq_zero.2 h2) (sub_eq_zero.2 h4) ?_ ?_ ?_)
  · simp only [Beam.N, Pi.sub_apply] at hN ⊢; linear_combination hN
  · simp only [Beam.M, Pi.sub_apply] at hM ⊢; linear_combination hM
  · simp only [Beam.V, Pi.sub_apply] at hV ⊢; linear_combination hV

theorem solves_eq (hb : b.Coercive) {bed : Bool} {f g : ℝ → Vec6} (hf : SolvesODE b Loads.zero bed f)
    (hg : SolvesODE b Loads.zero bed g) {x : ℝ} (h : f x = g x) (y : ℝ) : f y = g y := by
  have := ((solvesODE_iff_driven _ _ _ _).1 hf).sub ((solvesODE_iff_driven _ _ _ _).1 hg)
  exact sub_eq_zero.1 (this.at_rest hb x (sub_eq_zero.2 h) y)

/-- Across a boundary without load the solution continues. -/
theorem glue_next (hb : b.Coercive) {f g : ℝ → Vec6} {l : ℝ} (hf : SolvesODE b Loads.zero true f)
    (hg : SolvesODE b Loads.zero true g) (h : Transmission b (0, 0, 0) (f l) (g 0)) (x : ℝ) : g x = f (x + l) :=
  solves_eq hb hg (hf.shift l) (x := 0) (by rw [zero_add]; exact (transmission_eq hb h).symm) x

theorem glue_right (hb : b.Coercive) {n : ℕ} {l p : ℕ → ℝ} {Z : ℕ → ℝ → Vec6} {F : ℕ → ℝ × ℝ × ℝ} {j : ℕ}
    (hZ : ∀ i < n, SolvesODE b Loads.zero true (Z i)) (hp : ∀ i < n, p (i + 1) = p i + l i)
    (ht : ∀ i, i + 1 < n → Transmission b (F i) (Z i (l i)) (Z (i + 1) 0)) (hF : ∀ i, i ≠ j → F i = (0, 0, 0)) :
    ∀ d, j + 1 + d < n → ∀ x, Z (j + 1 + d) x = Z (j + 1) (x + (p (j + 1 + d) - p (j + 1)))
  | 0, _, x => by simp
  | d + 1, hd, x => by
    have h1 := ht (j + 1 + d) (by omega)
    rw [hF _ (by omega)] at h1
    have h2 := glue_next hb (hZ _ (by omega)) (hZ _ (by omega)) h1 x
    rw [show j + 1 + (d + 1) = j + 1 + d + 1 by omega, h2, glue_right hb hZ hp ht hF d (by omega), hp (j + 1 + d) (by omega)]
    congr 1
    ring

theorem glue_left (hb : b.Coercive) {n : ℕ} {l p : ℕ → ℝ} {Z : ℕ → ℝ → Vec6} {F : ℕ → ℝ × ℝ × ℝ} {j : ℕ}
    (hZ : ∀ i < n, SolvesODE b Loads.zero true (Z i)) (hp : ∀ i < n, p (i + 1) = p i + l i)
    (ht : ∀ i, i + 1 < n → Transmission b (F i) (Z i (l i)) (Z (i + 1) 0)) (hF : ∀ i, i ≠ j → F i = (0, 0, 0)) (hj : j < n) :
    ∀ d i, i + d = j → ∀ x, Z i x = Z j (x + (p i - p j))
  | 0, i, hd, x => by obtain rfl : i = j := by omega
                      simp
  | d + 1, i, hd, x => by
    have h1 := ht i (by omega)
    rw [hF _ (by omega)] at h1
    have h2 := glue_next hb (hZ _ (by omega)) (hZ _ (by omega)) h1 (x - l i)
    rw [sub_add_cancel] at h2
    rw [← h2, glue_left hb hZ hp ht hF hj d (i + 1) (by omega), hp i (by omega)]
    congr 1
    ring

/-- C67: on level ground, at distance `ρ ≥ β` from a skier of weight `w`, the
stresses in the uncracked weak layer differ from those without skier by no more than a
multiple of `exp (- ρ / (2 reach))`. The coordinates in the result are in cm, all
others in mm. -/
theorem C67_skier (num : Numerics) (site : Site) (hs : SiteOk num site) (hphi : site.phi = 0) (li : List ℝ)
    (ki : List Bool) (h : BeamOk li ki) (w : ℝ) (hw : 0 ≤ w) (r : Skier)
    (hr : createSkierObject num site w li ki .nocrack = .ok r) (β : ℝ) (hβ : r.skier.beam.Spreads β) :
    ∃ xs, FirstBoundary li (li.sum / 2) xs ∧ ∀ (m : ℕ) (X σ τ : ℝ), r.x[m]? = some (some X) → r.sigma[m]? = some (some σ) →
      r.tau[m]? = some (some τ) → β ≤ |10 * X - xs| →
      let F := w * (9.81 / 1000)
      ((σ + cover site.profile) / 1000) ^ 2 ≤
        11 / (2 * β) * r.skier.beam.spread β * F ^ 2 * Real.exp (1 - (|10 * X - xs| - β) / r.skier.beam.reach) ∧
      (τ / 1000) ^ 2 ≤ r.skier.kt ^ 2 / r.skier.kn * r.skier.beam.slipWork β * r.skier.beam.spread β * F ^ 2 *
        Real.exp (1 - (|10 * X - xs| - β) / r.skier.beam.reach) := by
  obtain ⟨hco, Z, F, j, hj, hfb, hF, hFj, hode, hbvp, hstate⟩ := level_chain num site hs hphi li ki h w r hr
  obtain ⟨r', r1, r2⟩ := C50_solution_partial num site hs w li ki h .nocrack
  rw [hr] at r1
  injection r1 with r1
  subst r1
  set b := r.skier.beam with hb
  have hk : 0 < b.kn := hco.kn
  obtain ⟨hβ0, hβ1⟩ := id hβ
  set V := w * (9.81 / 1000) with hV
  have hV0 : 0 ≤ V := by positivity
  have hnn : ∀ i < li.length, 0 ≤ nth li i := fun i hi => by rw [nth_eq hi]; exact h.nonneg _ (List.getElem_mem hi)
  obtain ⟨⟨d0, d1⟩, d2, d3, d4⟩ := chain_deflection hco (bending_le hco) hβ0 (by rw [mul_comm]; exact hβ1) li.length (nth li) Z F V
    hnn hode hbvp j hj hF hFj hV0
  have hspread : 1 / (b.kn * β) + β / (2 * b.S) = b.spread β / b.kn := by
    have := hco.S
    unfold Beam.spread
    field_simp
  rw [hspread] at d1
  have hE : V * Z (j + 1) 0 2 ≤ b.spread β / b.kn * V ^ 2 := by
    have := mul_le_mul_of_nonneg_left d1 hV0
    linarith
  have hps : ∀ i < li.length, startOf li (i + 1) = startOf li i + nth li i := fun i hi => by rw [startOf_succ li hi, nth_eq hi]
  have key : ∀ i < li.length, ∀ x ∈ Set.Icc 0 (nth li i), β ≤ |startOf li i + x - startOf li (j + 1)| →
      DiesOut b β (b.spread β / b.kn * V ^ 2) |startOf li i + x - startOf li (j + 1)| (Z i x) := by
    intro i hi x hx hρ
    rcases le_or_gt i j with hij | hij
    · -- left of the skier
      have hle : startOf li i + x ≤ startOf li (j + 1) := by
        have h1 := startOf_mono h.nonneg (show i + 1 ≤ j + 1 by omega)
        rw [hps i hi] at h1
        linarith [hx.2]
      rw [abs_of_nonpos (by linarith)] at hρ ⊢
      have g := glue_left hco hode hps hbvp.trans hF (by omega : j < li.length) (j - i) i (by omega) x
      have g0 := glue_left hco hode hps hbvp.trans hF (by omega : j < li.length) j 0 (by omega) 0
      obtain ⟨e0, e2, e4⟩ := hbvp.left
      simp only [g0] at e0 e2 e4
      have s0 : 0 ≤ startOf li i := by
        have := startOf_mono h.nonneg (Nat.zero_le i)
        simpa [startOf] using this
      have := dies_out_left hco hβ (hode j (by omega)) (l := nth li j) e0 e2 e4 (x + (startOf li i - startOf li j))
        (by simp only [startOf, List.take_zero, List.sum_nil] at *; linarith [hx.1]) (by rw [hps j (by omega)] at hρ; linarith)
      rw [g]
      have e : -(startOf li i + x - startOf li (j + 1)) = nth li j - (x + (startOf li i - startOf li j)) := by
        rw [hps j (by omega)]; ring
      rw [e]
      exact this.mono hco hβ0 (d3.trans hE)
    · -- right of the skier
      have hle : startOf li (j + 1) ≤ startOf li i + x := by
        have h1 := startOf_mono h.nonneg (show j + 1 ≤ i by omega)
        linarith [hx.1]
      rw [abs_of_nonneg (by linarith)] at hρ ⊢
      have g := glue_right hco hode hps hbvp.trans hF (i - (j + 1)) (by omega) x
      have g0 := glue_right hco hode hps hbvp.trans hF (li.length - 1 - (j + 1)) (by omega) (nth li (li.length - 1))
      rw [show j + 1 + (i - (j + 1)) = i by omega] at g
      rw [show j + 1 + (li.length - 1 - (j + 1)) = li.length - 1 by omega] at g0
      obtain ⟨e0, e2, e4⟩ := hbvp.right
      simp only [g0] at e0 e2 e4
      have hup := startOf_mono h.nonneg (show i + 1 ≤ li.length - 1 + 1 by omega)
      rw [hps i hi, hps _ (by omega)] at hup
      have := dies_out_right hco hβ (hode (j + 1) hj) e0 e2 e4 (x + (startOf li i - startOf li (j + 1)))
        ⟨by linarith, by linarith [hx.2]⟩
      rw [g]
      have e : startOf li i + x - startOf li (j + 1) = x + (startOf li i - startOf li (j + 1)) := by ring
      rw [e]
      exact this.mono hco hβ0 (d4.trans hE)
  refine ⟨_, hfb, fun m X σ τ hX hσ hτ hρ => ?_⟩
  obtain ⟨xs, -, -, -, -, h1, h2, h3, h4, h5⟩ := r2.samples
  obtain ⟨x', hm⟩ : ∃ x', xs[m]? = some x' := by
    have : m < r.sigma.length := by
      by_contra hc
      rw [List.getElem?_eq_none (by omega)] at hσ
      cases hσ
    exact ⟨_, List.getElem?_eq_getElem (by omega)⟩
  obtain ⟨i, a1, a2, a3, a4, -, a5⟩ := h5 m x' hm
  rcases a5 with ⟨-, b1, b2, b3⟩ | ⟨-, b1, -⟩
  swap
  · rw [b1] at hX; cases hX
  rw [hX] at b1
  rw [hσ] at b2
  rw [hτ] at b3
  simp only [Option.some.injEq] at b1 b2 b3
  have eX : 10 * X = startOf li i + (x' - startOf li i) := by rw [b1]; ring
  have hx' : x' - startOf li i ∈ Set.Icc 0 (nth li i) := ⟨by linarith, by rw [hps i a1] at a4; linarith⟩
  rw [eX] at hρ ⊢
  obtain ⟨k1, k2⟩ := key i a1 _ hx' hρ
  have halone := level_ground_alone hphi r2
  rw [hstate i a1] at b2 b3
  constructor
  · have e : (σ + cover site.profile) / 1000 = -(b.kn * Z i (x' - startOf li i) 2) := by
      rw [b2, Pi.add_apply, mul_add, halone.1]
      show (1000 * -(b.kn * _ + _) + _) / _ = _
      ring
    rw [e, neg_sq]
    refine k1.trans (le_of_eq ?_)
    field_simp
  · have e : τ / 1000 = b.tau (Z i (x' - startOf li i)) := by
      have : b.tau (Z i (x' - startOf li i) + zp r.skier 0 site.phi true) = b.tau (Z i (x' - startOf li i)) +
          b.tau (zp r.skier 0 site.phi true) := by
        unfold Beam.tau; simp only [Pi.add_apply]; ring
      rw [b3, this, halone.2, add_zero]
      ring
    rw [e]
    refine k2.trans (le_of_eq ?_)
    show _ = b.kt ^ 2 / b.kn * _ * _ * _ * _
    ring

/-- Two metres of snow: 200 m away from a skier of 80 kg on a beam of 2 km, the
stresses (about 5.9 kPa) change by less than 0.003 kPa. -/
example (o : ℝ) {r : Skier}
    (hr : createSkierObject midNum (deepSite o) 80 [1000000, 0, 0, 1000000] [true, true, true, true] .nocrack = .ok r)
    (m : ℕ) (X σ τ : ℝ) (h1 : r.x[m]? = some (some X)) (h2 : r.sigma[m]? = some (some σ)) (h3 : r.tau[m]? = some (some τ))
    (hX : X ≤ 80000 ∨ 120000 ≤ X) : |σ + cover (deepSite o).profile| ≤ 0.003 ∧ |τ| ≤ 0.003 := by
  have hb := deepSite_object midNum o (deepSite_ok o) deepBeam_ok hr
  have hβ : r.skier.beam.Spreads 2300 := by rw [hb]; unfold Beam.Spreads; norm_num
  obtain ⟨xs, hxs, H⟩ := C67_skier midNum (deepSite o) (deepSite_ok o) rfl _ _ deepBeam_ok 80 (by norm_num) r hr 2300 hβ
  have exs : xs = 1000000 := by
    have := hxs.middle (i := 0) (by norm_num) (by norm_num [startOf])
    norm_num at this
    exact this
  subst exs
  have hρ : 200000 ≤ |10 * X - 1000000| := by
    rcases hX with h | h
    · rw [abs_of_nonpos (by linarith)]; linarith
    · rw [abs_of_nonneg (by linarith)]; linarith
  obtain ⟨b1, b2⟩ := H m X σ τ h1 h2 h3 (by linarith)
  have ekn : r.skier.kn = 2 / 225 := congrArg Beam.kn hb
  have ekt : r.skier.kt = 1 / 300 := congrArg Beam.kt hb
  have hspread : r.skier.beam.spread 2300 ≤ 0.00077 ∧ 0 ≤ r.skier.beam.spread 2300 := by
    rw [hb]; unfold Beam.spread; norm_num
  have hC1 : r.skier.beam.slipCompliance ≤ 400 ∧ 0 ≤ r.skier.beam.slipCompliance := by
    rw [hb]; unfold Beam.slipCompliance; norm_num
  have hC2 : r.skier.beam.slipRateCompliance ≤ 0.0001 ∧ 0 ≤ r.skier.beam.slipRateCompliance := by
    rw [hb]; unfold Beam.slipRateCompliance; norm_num
  have hwork : r.skier.beam.slipWork 2300 ≤ 0.6 ∧ 0 ≤ r.skier.beam.slipWork 2300 := by
    unfold Beam.slipWork
    have h1 : Real.sqrt (r.skier.beam.slipCompliance * r.skier.beam.slipRateCompliance) ≤ 0.2 := by
      rw [Real.sqrt_le_left (by norm_num)]
      calc _ ≤ (400 : ℝ) * 0.0001 := mul_le_mul hC1.1 hC2.1 hC2.2 (by norm_num)
        _ ≤ _ := by norm_num
    have h2 := Real.sqrt_nonneg (r.skier.beam.slipCompliance * r.skier.beam.slipRateCompliance)
    have h3 : r.skier.beam.slipCompliance / 2300 ≤ 0.18 := by
      rw [div_le_iff₀ (by norm_num)]; norm_num; linarith [hC1.1]
    have h4 : 0 ≤ r.skier.beam.slipCompliance / 2300 := div_nonneg hC1.2 (by norm_num)
    norm_num at h1 h3 ⊢
    constructor <;> linarith
  have hreach : 0 < r.skier.beam.reach ∧ r.skier.beam.reach ≤ 15000 := by
    constructor
    · refine (reach_pos (b := r.skier.beam) ?_).2.2
      rw [hb]
      constructor <;> norm_num
    · have q1 : Real.sqrt (r.skier.beam.A * r.skier.beam.slipCompliance) ≤ 6000 := by
        rw [Real.sqrt_le_left (by norm_num), hb]; unfold Beam.slipCompliance; norm_num
      have q2 : Real.sqrt (r.skier.beam.lever (r.skier.beam.h / 2) * r.skier.beam.shearCompliance) ≤ 2100 := by
        rw [Real.sqrt_le_left (by norm_num), hb]; unfold Beam.lever Beam.shearCompliance; norm_num
      have q3 : Real.sqrt (r.skier.beam.S ^ 2 * r.skier.beam.shearCompliance * (1 / r.skier.beam.kn)) ≤ 2000 := by
        rw [Real.sqrt_le_left (by norm_num), hb]; unfold Beam.shearCompliance; norm_num
      have q4 : Real.sqrt (r.skier.beam.reachQuad) ≤ 2000 := by
        rw [Real.sqrt_le_left (by norm_num)]
        unfold Beam.reachQuad
        rw [Real.sqrt_le_left (by norm_num), hb]; unfold Beam.lever; norm_num
      unfold Beam.reach Beam.reachLin
      linarith
  have hexp : Real.exp (1 - (|10 * X - 1000000| - 2300) / r.skier.beam.reach) ≤ 0.000007 := by
    have e1 : 1 - (|10 * X - 1000000| - 2300) / r.skier.beam.reach ≤ -12 := by
      have : 13 ≤ (|10 * X - 1000000| - 2300) / r.skier.beam.reach := by
        rw [le_div_iff₀ hreach.1]; linarith [hreach.2]
      linarith
    refine (Real.exp_le_exp.2 e1).trans ?_
    rw [Real.exp_neg, show (12 : ℝ) = ((12 : ℕ) : ℝ) * 1 by norm_num, Real.exp_nat_mul]
    have h0 : (2.7 : ℝ) ≤ Real.exp 1 := by have := Real.exp_one_gt_d9; linarith
    have h1 := pow_le_pow_left₀ (by norm_num) h0 12
    refine (inv_anti₀ (by norm_num) h1).trans ?_
    norm_num
  have hexp0 := (Real.exp_pos (1 - (|10 * X - 1000000| - 2300) / r.skier.beam.reach)).le
  set e := Real.exp (1 - (|10 * X - 1000000| - 2300) / r.skier.beam.reach)
  have p1 : r.skier.beam.spread 2300 * e ≤ 0.00077 * 0.000007 := mul_le_mul hspread.1 hexp hexp0 (by norm_num)
  have p0 : 0 ≤ r.skier.beam.spread 2300 * e := mul_nonneg hspread.2 hexp0
  have p2 : r.skier.beam.slipWork 2300 * (r.skier.beam.spread 2300 * e) ≤ 0.6 * (0.00077 * 0.000007) :=
    mul_le_mul hwork.1 p1 p0 (by norm_num)
  rw [ekn, ekt] at b2
  rw [div_pow] at b1 b2
  constructor
  · apply abs_le_of_sq_le_sq _ (by norm_num)
    norm_num at b1 p1 ⊢
    nlinarith
  · apply abs_le_of_sq_le_sq _ (by norm_num)
    norm_num at b2 p2 ⊢
    nlinarith

end Weac
