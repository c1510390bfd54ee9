import Verif.Lemmas.Laminate
import Verif.Spec.State
import Verif.Props.Tools

/-!
# C05–C08: ply coordinates, laminate stiffness, foundation stiffness
-/

namespace Weac
open Spec

theorem Layer.Valid.plane {l : Layer} (h : l.Valid) : 0 < 1 - l.nu ^ 2 := by
  nlinarith [h.nu_lo, h.nu_hi]

/-- Plane-strain modulus of a layer. -/
noncomputable def Layer.Ep (l : Layer) : ℝ := l.E / (1 - l.nu ^ 2)

theorem Layer.Valid.Ep_pos {l : Layer} (h : l.Valid) : 0 < l.Ep := div_pos h.E h.plane

/-! ## What `set_beam_properties` establishes -/

theorem setSlab_slabOk (eig : EigSolver) (ls : List Ply) (E : List ℝ) (nu : ℝ) (s : Self)
    (hv : ValidPlies ls) (hE : ∀ e ∈ E, 0 < e) (hlen : E.length = ls.length)
    (h1 : -1 < nu) (h2 : nu < 1) : SlabOk (setSlab eig ls E nu false s) := by
  have hz : ∀ (ls : List Ply) (E : List ℝ), E.length = ls.length →
      (List.zipWith (fun l e => (⟨l.rho, l.h, e, e / (2 * (1 + nu)), nu⟩ : Layer)) ls E).map Layer.ply = ls := by
    intro ls
    induction ls with
    | nil => simp
    | cons l ls ih =>
      intro E hE
      cases E with
      | nil => simp at hE
      | cons e E => simp [Layer.ply, ih E (by simpa using hE)]
  constructor
  · intro h0
    have := congrArg List.length h0
    simp [setSlab, hlen] at this
    exact hv.1 this
  · intro l hl
    simp only [setSlab, Bool.false_eq_true, if_false] at hl
    rw [List.mem_iff_getElem] at hl
    obtain ⟨i, hi, rfl⟩ := hl
    simp only [List.getElem_zipWith]
    have hp := hv.2 (ls[i]'(by simp at hi; omega)) (List.getElem_mem _)
    have he := hE (E[i]'(by simp at hi; omega)) (List.getElem_mem _)
    exact ⟨hp.1, hp.2, he, div_pos he (by linarith), h1, h2⟩
  · simp only [setSlab, Bool.false_eq_true, if_false, cog_fst]
    have := congrArg (total Ply.h) (hz ls E hlen)
    rw [← this]; simp [total, Layer.ply]
  · simp only [setSlab, Bool.false_eq_true, if_false, hz ls E hlen]
  · simp [setSlab]

/-- `set_beam_properties` with positive densities and thicknesses succeeds and
yields a well-formed slab. -/
theorem setBeam_slabOk (eig : EigSolver) (ls : List Ply) (C0 C1 nu : ℝ) (s : Self)
    (hv : ValidPlies ls) (hC0 : 0 < C0) (h1 : -1 < nu) (h2 : nu < 1) :
    (setBeamProperties eig (.rows ls) C0 C1 nu false s).1 = .ok () ∧
    SlabOk (setBeamProperties eig (.rows ls) C0 C1 nu false s).2 := by
  obtain ⟨hne, hpos⟩ := hv
  cases ls with
  | nil => simp at hne
  | cons l ls =>
    refine ⟨rfl, setSlab_slabOk eig _ _ nu s ⟨hne, hpos⟩ ?_ (by simp) h1 h2⟩
    intro e he
    rw [List.mem_map] at he
    obtain ⟨q, hq, rfl⟩ := he
    have := (hpos q hq).1
    unfold bergfeld
    positivity

/-! ## C05 -/

/-- Ply coordinates: `n + 1` values from `-h/2` to `h/2`, strictly increasing,
with the layer thicknesses as differences. -/
theorem C05_ply_coordinates (s : Self) (hs : SlabOk s) :
    (getPlyCoordinates s).length = s.slab.length + 1 ∧
    nth (getPlyCoordinates s) 0 = -s.h / 2 ∧
    nth (getPlyCoordinates s) s.slab.length = s.h / 2 ∧
    (∀ i (hi : i < s.slab.length),
      nth (getPlyCoordinates s) (i + 1) - nth (getPlyCoordinates s) i = s.slab[i].h) ∧
    (getPlyCoordinates s).Pairwise (· < ·) := by
  have hd : ∀ i (hi : i < s.slab.length),
      nth (getPlyCoordinates s) (i + 1) - nth (getPlyCoordinates s) i = s.slab[i].h := by
    intro i hi
    rw [ply_nth s i hi.le, ply_nth s (i + 1) hi,
      List.take_succ_eq_append_getElem (by simpa using hi)]
    simp
  refine ⟨ply_length s, ?_, ?_, hd, ?_⟩
  · rw [ply_nth s 0 (by omega)]; simp
  · rw [ply_nth s _ le_rfl, List.take_of_length_le (by simp)]
    have : (s.slab.map Layer.h).sum = s.h := hs.h.symm
    rw [this]; ring
  · rw [← List.isChain_iff_pairwise, List.isChain_iff_getElem]
    intro i hi
    have hi' : i < s.slab.length := by rw [ply_length] at hi; omega
    have h1 := hd i hi'
    have h2 := (hs.valid _ (List.getElem_mem hi')).h
    rw [nth, nth, List.getD_eq_getElem _ _ (by rw [ply_length]; omega),
      List.getD_eq_getElem _ _ (by rw [ply_length]; omega)] at h1
    linarith

/-- Concrete well-formed object: three different layers. -/
noncomputable def demoSlab : Self :=
  (setBeamProperties (fun _ => []) (.rows demoPlies) 6.5 4.4 0.25 false (Self.init)).2

theorem demoSlab_ok : SlabOk demoSlab :=
  (setBeam_slabOk _ demoPlies 6.5 4.4 0.25 _ demoPlies_valid (by norm_num) (by norm_num)
    (by norm_num)).2

example : SlabOk demoSlab ∧ demoSlab.slab.length = 3 := by
  refine ⟨demoSlab_ok, ?_⟩
  simp [demoSlab, setBeamProperties, setSlab, demoPlies]

/-! ## C06 -/

/-- The laminate stiffnesses are the through-thickness integrals of the
plane-strain modulus, its first and second moment, and `5/6` of the shear
modulus integral. -/
theorem C06_laminate_integrals (s : Self) (hs : SlabOk s) :
    (calcLaminateStiffnessMatrix s).A11
      = slabIntegral Layer.h (fun l => l.E / (1 - l.nu ^ 2)) s.slab (fun _ => 1) ∧
    (calcLaminateStiffnessMatrix s).B11
      = slabIntegral Layer.h (fun l => l.E / (1 - l.nu ^ 2)) s.slab (fun z => z) ∧
    (calcLaminateStiffnessMatrix s).D11
      = slabIntegral Layer.h (fun l => l.E / (1 - l.nu ^ 2)) s.slab (fun z => z ^ 2) ∧
    (calcLaminateStiffnessMatrix s).kA55
      = 5 / 6 * slabIntegral Layer.h Layer.G s.slab (fun _ => 1) ∧
    (calcLaminateStiffnessMatrix s).K0
      = (calcLaminateStiffnessMatrix s).B11 ^ 2
        - (calcLaminateStiffnessMatrix s).A11 * (calcLaminateStiffnessMatrix s).D11 := by
  have hth : ∀ l ∈ s.slab, 0 ≤ l.h := fun l hl => (hs.valid l hl).h.le
  have ht : -(total Layer.h s.slab) / 2 = -s.h / 2 := by rw [hs.h]
  rw [laminate_eq, slabIntegral_eq _ _ _ continuous_const _ hth,
    slabIntegral_eq _ _ (fun z => z) continuous_id _ hth,
    slabIntegral_eq _ _ (fun z => z ^ 2) (by fun_prop) _ hth,
    slabIntegral_eq _ _ _ continuous_const _ hth, ht, ← layerSum_mul]
  refine ⟨?_, ?_, ?_, ?_, rfl⟩ <;>
    (apply layerSum_congr; rintro l - a b rfl)
  · simp
  · rw [integral_id]; ring
  · rw [integral_pow]; push_cast; ring
  · simp only [hs.k, intervalIntegral.integral_const, smul_eq_mul]; ring

/-- Splitting a layer into two of the same material changes no stiffness. -/
theorem C06_split (s s' : Self) (pre post : List Layer) (l : Layer) (h1 h2 : ℝ)
    (hk : s'.k = s.k) (hh : s'.h = s.h)
    (hs : s.slab = pre ++ { l with h := h1 + h2 } :: post)
    (hs' : s'.slab = pre ++ { l with h := h1 } :: { l with h := h2 } :: post) :
    (calcLaminateStiffnessMatrix s').A11 = (calcLaminateStiffnessMatrix s).A11 ∧
    (calcLaminateStiffnessMatrix s').B11 = (calcLaminateStiffnessMatrix s).B11 ∧
    (calcLaminateStiffnessMatrix s').D11 = (calcLaminateStiffnessMatrix s).D11 ∧
    (calcLaminateStiffnessMatrix s').kA55 = (calcLaminateStiffnessMatrix s).kA55 := by
  rw [laminate_eq, laminate_eq]
  simp only [hk, hh, hs, hs', layerSum_append, layerSum, ← add_assoc]
  refine ⟨?_, ?_, ?_, ?_⟩ <;> ring

/-- Reversing the layering keeps `A11`, `D11`, `kA55` and negates `B11`. -/
theorem C06_reverse (s s' : Self) (hs : SlabOk s) (hk : s'.k = s.k) (hh : s'.h = s.h)
    (hs' : s'.slab = s.slab.reverse) :
    (calcLaminateStiffnessMatrix s').A11 = (calcLaminateStiffnessMatrix s).A11 ∧
    (calcLaminateStiffnessMatrix s').B11 = -(calcLaminateStiffnessMatrix s).B11 ∧
    (calcLaminateStiffnessMatrix s').D11 = (calcLaminateStiffnessMatrix s).D11 ∧
    (calcLaminateStiffnessMatrix s').kA55 = (calcLaminateStiffnessMatrix s).kA55 := by
  rw [laminate_eq, laminate_eq]
  have e : -(-s.h / 2 + total Layer.h s.slab) = -s.h / 2 := by rw [hs.h]; ring
  simp only [hk, hh, hs', layerSum_reverse, e]
  refine ⟨?_, ?_, ?_, ?_⟩
  · congr 1; funext l a b; ring
  · rw [neg_eq_neg_one_mul (layerSum _ _ _ s.slab), ← layerSum_mul]; congr 1; funext l a b; ring
  · congr 1; funext l a b; ring
  · congr 1; funext l a b; ring

/-! ## C07 -/

/-- The laminate stiffness is positive definite. -/
theorem C07_positive_definite (s : Self) (hs : SlabOk s) :
    0 < (calcLaminateStiffnessMatrix s).A11 ∧ 0 < (calcLaminateStiffnessMatrix s).D11 ∧
    0 < (calcLaminateStiffnessMatrix s).kA55 ∧
    (calcLaminateStiffnessMatrix s).B11 ^ 2
      < (calcLaminateStiffnessMatrix s).A11 * (calcLaminateStiffnessMatrix s).D11 ∧
    (calcLaminateStiffnessMatrix s).K0 < 0 := by
  rw [laminate_eq]
  set A := layerSum Layer.h (fun l a b => l.E / (1 - l.nu ^ 2) * (b - a)) (-s.h / 2) s.slab with hA
  set B := layerSum Layer.h (fun l a b => 1 / 2 * l.E / (1 - l.nu ^ 2) * (b ^ 2 - a ^ 2)) (-s.h / 2) s.slab with hB
  set D := layerSum Layer.h (fun l a b => 1 / 3 * l.E / (1 - l.nu ^ 2) * (b ^ 3 - a ^ 3)) (-s.h / 2) s.slab with hD
  set k := layerSum Layer.h (fun l a b => s.k * l.G * (b - a)) (-s.h / 2) s.slab with hk
  have hApos : 0 < A := by
    refine layerSum_pos _ _ _ hs.ne ?_
    rintro l hl a b rfl
    have h1 := (hs.valid l hl).Ep_pos
    have h2 := (hs.valid l hl).h
    have := mul_pos h1 h2
    simpa [Layer.Ep] using this
  have hcube : ∀ x a h : ℝ, 0 < h → 0 < (x + (a + h)) ^ 3 - (x + a) ^ 3 := by
    intro x a h hh
    have : (x + (a + h)) ^ 3 - (x + a) ^ 3 = h * (3 * (x + a + h / 2) ^ 2 + h ^ 2 / 4) := by ring
    rw [this]; positivity
  have hquad : ∀ x : ℝ, 0 < A * x ^ 2 + 2 * B * x + D := by
    intro x
    have : A * x ^ 2 + 2 * B * x + D = layerSum Layer.h (fun l a b =>
        1 / 3 * l.Ep * ((x + b) ^ 3 - (x + a) ^ 3)) (-s.h / 2) s.slab := by
      rw [hA, hB, hD, mul_comm _ (x ^ 2), mul_right_comm, ← layerSum_mul, ← layerSum_mul, ← layerSum_add, ← layerSum_add]
      congr 1; funext l a b; simp only [Layer.Ep]; ring
    rw [this]
    refine layerSum_pos _ _ _ hs.ne ?_
    rintro l hl a b rfl
    have h1 := (hs.valid l hl).Ep_pos
    have h2 := hcube x a _ (hs.valid l hl).h
    positivity
  have hlt : B ^ 2 < A * D := by
    have h := hquad (-B / A)
    have : A * (-B / A) ^ 2 + 2 * B * (-B / A) + D = (A * D - B ^ 2) / A := by
      field_simp; ring
    rw [this, div_pos_iff_of_pos_right hApos] at h
    linarith
  refine ⟨hApos, ?_, ?_, hlt, ?_⟩
  · have := hquad 0; simpa using this
  · refine layerSum_pos _ _ _ hs.ne ?_
    rintro l hl a b rfl
    have h1 := (hs.valid l hl).G
    have h2 := (hs.valid l hl).h
    rw [hs.k]
    have : 0 < 5 / 6 * l.G * l.h := by positivity
    simpa using this
  · show B ^ 2 - A * D < 0
    linarith

/-! ## C08 -/

/-- Foundation stiffness under plane strain. -/
theorem C08_foundation_stiffness (s : Self) (hw : WeakOk s) :
    0 < (calcFoundationStiffness s).kn ∧ 0 < (calcFoundationStiffness s).kt ∧
    (calcFoundationStiffness s).kn * s.t * (1 - s.weak.nu ^ 2) = s.weak.E ∧
    (calcFoundationStiffness s).kt * s.t * (2 * (1 + s.weak.nu)) = s.weak.E ∧
    (calcFoundationStiffness s).kt < (calcFoundationStiffness s).kn := by
  obtain ⟨ht, hE, h1, h2⟩ := hw
  have hp : 0 < 1 - s.weak.nu ^ 2 := by nlinarith
  have hq : 0 < 2 * (1 + s.weak.nu) := by linarith
  have := ht.ne'
  have := hp.ne'
  have : 1 + s.weak.nu ≠ 0 := by linarith
  simp only [calcFoundationStiffness]
  refine ⟨by positivity, by positivity, by field_simp, by field_simp, ?_⟩
  refine div_lt_div_of_pos_right (div_lt_div_of_pos_left hE hp ?_) ht
  nlinarith

/-- Both stiffnesses are linear in `E` and inverse in `t`. -/
theorem C08_scaling (s : Self) (c d : ℝ) :
    (calcFoundationStiffness { s with weak := ⟨s.weak.nu, c * s.weak.E⟩, t := d * s.t }).kn
      = c / d * (calcFoundationStiffness s).kn ∧
    (calcFoundationStiffness { s with weak := ⟨s.weak.nu, c * s.weak.E⟩, t := d * s.t }).kt
      = c / d * (calcFoundationStiffness s).kt := by
  simp only [calcFoundationStiffness]
  constructor <;> (rw [mul_div_assoc, mul_div_mul_comm])

/-- The default weak layer satisfies the hypotheses. -/
example : WeakOk (setFoundationProperties (fun _ => []) 30 0.25 0.25 false demoSlab) := by
  constructor <;> norm_num [setFoundationProperties]

/-! ## Consequence: well-formed objects have positive stiffnesses -/

theorem fundamental_fields (eig : EigSolver) (s : Self) :
    let r := calcFundamentalSystem eig s
    r.kn = (calcFoundationStiffness s).kn ∧ r.kt = (calcFoundationStiffness s).kt ∧
    r.A11 = (calcLaminateStiffnessMatrix s).A11 ∧ r.B11 = (calcLaminateStiffnessMatrix s).B11 ∧
    r.D11 = (calcLaminateStiffnessMatrix s).D11 ∧ r.kA55 = (calcLaminateStiffnessMatrix s).kA55 ∧
    r.K0 = (calcLaminateStiffnessMatrix s).K0 := by
  simp [calcFundamentalSystem, calcEigensystem, calcLaminateStiffnessMatrix,
    calcFoundationStiffness, getPlyCoordinates]

theorem Ready.stiff {eig : EigSolver} {s : Self} (hr : Ready eig s) : Stiff s := by
  obtain ⟨hs, hw, hf, -, -⟩ := hr
  have h := fundamental_fields eig s
  rw [hf] at h
  obtain ⟨h1, h2, h3, h4, h5, h6, h7⟩ := h
  have hp := C07_positive_definite s hs
  have hk := C08_foundation_stiffness s hw
  have hth : 0 < s.h := by rw [hs.h]; exact total_pos _ hs.ne fun l hl => (hs.valid l hl).h
  refine ⟨hth, hw.t, h1 ▸ hk.1, h2 ▸ hk.2.1, h3 ▸ hp.1, h5 ▸ hp.2.1, h6 ▸ hp.2.2.1, ?_, h7 ▸ hp.2.2.2.2⟩
  rw [h7, h4, h3, h5]
  exact (C06_laminate_integrals s hs).2.2.2.2

end Weac
