import Verif.Props.Release
import Verif.Props.Nucleation
import Verif.Props.SearchSteps
import Verif.Props.Propagation

/-!
# C84: the search for an upper weight ends

The dampened search doubles the weight in a `while` loop without a bound on the
number of rounds. The energy released by any crack grows at least with the square of
the weight, so the loop ends for every slab.
-/

namespace Weac

open Spec

/-! ## Energy of a weighted mean -/

theorem Spec.Beam.Coercive.layerEnergy_mix {b : Beam} (hb : b.Coercive) (c : ℝ) (y z : Vec6) :
    c ^ 2 / 2 * b.layerEnergy (z - y) - b.layerEnergy y ≤ b.layerEnergy (mixVec c y z) := by
  have h1 : 0 < 16 * b.S := by have := hb.S; positivity
  have h2 : b.kt * b.t ^ 2 / (16 * b.S) < 1 := by rw [div_lt_one h1]; exact hb.shear
  have q : ∀ p r : ℝ, c ^ 2 / 2 * (r - p) ^ 2 - p ^ 2 ≤ (mix c p r) ^ 2 := by
    intro p r
    unfold mix
    nlinarith [sq_nonneg (2 * p + c * (r - p))]
  have e1 : b.slip (z - y) = b.slip z - b.slip y := by simp only [Beam.slip, Pi.sub_apply]; ring
  have e2 : b.slip (mixVec c y z) = mix c (b.slip y) (b.slip z) := by simp only [Beam.slip, mixVec_apply, mix]; ring
  have p1 := mul_le_mul_of_nonneg_left (q (y 2) (z 2)) hb.kn.le
  have p2 := mul_le_mul_of_nonneg_left (mul_le_mul_of_nonneg_left (q (b.slip y) (b.slip z)) hb.kt.le) (sub_nonneg.2 h2.le)
  unfold Beam.layerEnergy
  rw [e1, e2, mixVec_apply, Pi.sub_apply]
  linarith

theorem layerEnergy_cont {b : Beam} {bed : Bool} {d : ℝ × ℝ × ℝ} {f : ℝ → Vec6} (hf : Driven b bed d f) :
    Continuous fun x => b.layerEnergy (f x) := by
  refine hf.cont₂ hf (q := fun p _ => b.layerEnergy p) ?_
  unfold Beam.layerEnergy Beam.slip; fun_prop

/-- An unloaded stretch without energy in the weak layer does not move. -/
theorem still {b : Beam} (hb : b.Coercive) {f : ℝ → Vec6} (hf : Driven b true 0 f) {l : ℝ} (hl : 0 < l)
    (h : (∫ x in (0 : ℝ)..l, b.layerEnergy (f x)) = 0) : ∀ x ∈ Set.Icc 0 l, f x = 0 := by
  have c := layerEnergy_cont hf
  have hz : ∀ x ∈ Set.Ioo 0 l, b.layerEnergy (f x) = 0 := by
    by_contra hx
    push Not at hx
    obtain ⟨x, hx, hne⟩ := hx
    have := intervalIntegral.integral_pos hl c.continuousOn (fun y _ => hb.layerEnergy_nonneg _)
      ⟨x, ⟨hx.1.le, hx.2.le⟩, lt_of_le_of_ne (hb.layerEnergy_nonneg _) hne.symm⟩
    linarith
  have ho : Set.EqOn f (fun _ => 0) (Set.Ioo 0 l) := by
    intro x hx
    obtain ⟨-, -, a1, a2, a3, a5, a0, a4⟩ := hf.silent hb (fun x hx' => hb.layerEnergy_zero (hz x hx')) x hx
    have b4 : f x 4 = 0 := by
      have : b.S * f x 4 = 0 := by simpa using a4
      exact (mul_eq_zero.mp this).resolve_left hb.S.ne'
    ext i
    fin_cases i
    · show f x 0 = 0; rw [a0, b4]; ring
    · exact a1
    · exact a2
    · exact a3
    · exact b4
    · exact a5
  have cf : Continuous f := continuous_iff_continuousAt.2 fun x => (hf x).choose_spec.1.continuousAt
  have := ho.closure cf continuous_const
  rw [closure_Ioo hl.ne] at this
  exact this

/-! ## Energy released by a crack -/

theorem getSkierLoad_ne {s : Self} (hg : s.g ≠ 0) (hl : s.lski ≠ 0) (phi : ℝ) :
    (getSkierLoad s 1 phi).1 ≠ 0 ∨ (getSkierLoad s 1 phi).2 ≠ 0 := by
  by_contra h
  push Not at h
  obtain ⟨h1, h2⟩ := h
  have hF : (1e-3 * 1 * s.g / s.lski) ≠ 0 := div_ne_zero (mul_ne_zero (by norm_num) hg) hl
  unfold getSkierLoad at h1 h2
  simp only [mul_eq_zero, neg_eq_zero] at h1 h2
  have c := h1.resolve_left hF
  have d := h2.resolve_left hF
  have := Real.sin_sq_add_cos_sq (deg2rad phi)
  rw [c, d] at this
  norm_num at this

/-- A point load moves every part of a beam whose ends are held. -/
theorem loaded_moves {b : Beam} (hb : b.Coercive) {n : ℕ} {l : ℕ → ℝ} (hl : ∀ i < n, 0 ≤ l i) {Z : ℕ → ℝ → Vec6}
    (hZ : ∀ i < n, SolvesODE b Loads.zero true (Z i)) {j : ℕ} (hj : j + 1 < n) {F : ℝ × ℝ × ℝ} (hF : F.1 ≠ 0 ∨ F.2.2 ≠ 0)
    (left : (EndCond.state 0 0 0).Holds b (Z 0 0)) (right : (EndCond.state 0 0 0).Holds b (Z (n - 1) (l (n - 1))))
    (trans : ∀ i, i + 1 < n → Transmission b (if i = j then F else (0, 0, 0)) (Z i (l i)) (Z (i + 1) 0))
    (hp : ∃ i ≤ j, 0 < l i) (hq : ∃ i, j < i ∧ i < n ∧ 0 < l i) : ∀ i < n, ∀ x, Z i x ≠ 0 := by
  intro i hi x hx
  have rest : ∀ i < n, ∀ x, Z i x = 0 → ∀ y, Z i y = 0 := fun i hi x h => (hZ i hi).at_rest hb x h
  have tj := trans j hj
  rw [if_pos rfl] at tj
  -- a part on one side of the load at rest means that the other side is at rest too
  suffices h : Z j (l j) = 0 ∧ Z (j + 1) 0 = 0 by
    obtain ⟨h1, h2⟩ := h
    have hN := tj.N
    have hV := tj.V
    rw [h1, h2] at hN hV
    rcases hF with h | h
    · exact h (by rw [← hN]; ring)
    · exact h (by rw [← hV]; ring)
  by_cases hij : i ≤ j
  · have fwd : ∀ d, i + d ≤ j → ∀ y, Z (i + d) y = 0 := by
      intro d
      induction d with
      | zero => intro _; exact rest i hi x hx
      | succ d ih =>
        intro hd
        have tr := trans (i + d) (by omega)
        rw [if_neg (by omega)] at tr
        exact rest (i + d + 1) (by omega) 0 (transmission_zero_right hb tr (ih (by omega) _))
    have zj : Z j (l j) = 0 := by
      have := fwd (j - i) (by omega) (l j)
      rwa [show i + (j - i) = j by omega] at this
    refine ⟨zj, ?_⟩
    obtain ⟨q, q1, q2, q3⟩ := hq
    have := unloaded_at_rest hb (n - (j + 1)) (fun i => l (j + 1 + i)) (fun _ => true) (fun i => Z (j + 1 + i))
      (fun i hi => hl _ (by omega)) (fun i hi => hZ _ (by omega)) (fun i hi => rest _ (by omega)) (.state 0 0 0) (.state 0 0 0)
      trivial trivial
      ⟨⟨by show Z (j + 1) 0 0 = 0; rw [← tj.u, zj]; rfl, by show Z (j + 1) 0 2 = 0; rw [← tj.w, zj]; rfl,
        by show Z (j + 1) 0 4 = 0; rw [← tj.psi, zj]; rfl⟩, by
          show (EndCond.state 0 0 0).Holds b (Z (j + 1 + (n - (j + 1) - 1)) (l (j + 1 + (n - (j + 1) - 1))))
          rw [show j + 1 + (n - (j + 1) - 1) = n - 1 by omega]
          exact right, fun i hi => by
          have := trans (j + 1 + i) (by omega)
          rw [if_neg (by omega)] at this
          exact this⟩ (q - (j + 1)) (by omega) (by rw [show j + 1 + (q - (j + 1)) = q by omega]; exact q3) (.inl rfl)
    exact this 0 (by omega) 0
  · have bwd : ∀ d, j + 1 + d ≤ i → ∀ y, Z (i - d) y = 0 := by
      intro d
      induction d with
      | zero => intro _; exact rest i hi x hx
      | succ d ih =>
        intro hd
        have tr := trans (i - (d + 1)) (by omega)
        rw [if_neg (by omega), show i - (d + 1) + 1 = i - d by omega] at tr
        exact rest (i - (d + 1)) (by omega) _ (transmission_zero_left hb tr (ih (by omega) _))
    have zj : Z (j + 1) 0 = 0 := by
      have := bwd (i - (j + 1)) (by omega) 0
      rwa [show i - (i - (j + 1)) = j + 1 by omega] at this
    refine ⟨?_, zj⟩
    obtain ⟨q, q1, q3⟩ := hp
    have := unloaded_at_rest hb (j + 1) l (fun _ => true) Z
      (fun i hi => hl _ (by omega)) (fun i hi => hZ _ (by omega)) (fun i hi => rest _ (by omega)) (.state 0 0 0) (.state 0 0 0)
      trivial trivial
      ⟨left, ⟨by show Z j (l j) 0 = 0; rw [tj.u, zj]; rfl, by show Z j (l j) 2 = 0; rw [tj.w, zj]; rfl,
        by show Z j (l j) 4 = 0; rw [tj.psi, zj]; rfl⟩, fun i hi => by
          have := trans i (by omega)
          rw [if_neg (by omega)] at this
          exact this⟩ q (by omega) q3 (.inl rfl)
    exact this j (by omega) _

theorem incSegs_advance {C0 C1 : List Vec6} {li : List ℝ} {ki : List Bool} (h0 : C0.length = li.length) (h1 : C1.length = li.length)
    (hk : ki.length = li.length) (mi : List ℝ) :
    incSegs C0 C1 li ki (List.replicate ki.length true) = advance ⟨li, mi, List.replicate ki.length true⟩ ki C0 C1 := by
  apply List.ext_getElem
  · simp [incSegs, advance]; omega
  · intro i a b
    have hi : i < li.length := by simpa [advance] using b
    simp only [incSegs, advance, List.getElem_map, List.getElem_zip, List.getElem_range]
    rw [nth_eq hi]
    simp [List.getD_eq_getElem?_getD, h0, h1, hk, hi]

set_option maxHeartbeats 1000000 in
/-- C84: what a crack releases grows at least with the square of the weight, wherever the crack is. -/
theorem C84_energy_grows (num : Numerics) (quad : Quad) (e : ℝ) (hq : QuadOk quad e) (he : 0 ≤ e) (site : Site)
    (hs : SiteOk num site) (li : List ℝ) (ki : List Bool) (hB : BeamOk li ki) (hcrack : 0 < unsupported li ki) :
    ∃ α β : ℝ, 0 < α ∧ ∀ w, ∃ r c I II,
      energyCheck num quad site w li ki = .ok (r, c, some (fractureToughnessCriterion (1000 * I) (1000 * II))) ∧
      α * w ^ 2 - β ≤ I - II := by
  have hB0 : BeamOk li (List.replicate ki.length true) := CrackCase.support_ok .nocrack hB
  obtain ⟨s0, k1, k2, k3, k4, k5, k6, k7, k8, -⟩ := siteObject_ready num.eig site hs.plies hs.t hs.E
  obtain ⟨hd, hsh0⟩ := hs.generic s0 k1
  have hf0 : EigFresh num.eig s0 := k2.fresh.eigFresh
  have hb : BedOk s0.afterSegments := (C13_discriminant num.eig s0 k2.stiff hf0 (hs.eig _) hd).stage _ _ _ _ _ _ _ _
  have hsh : ShearOk s0.afterSegments := hsh0.stage _ _ _ _ _ _ _ _
  have hf : EigFresh num.eig s0.afterSegments := hf0.stage _ _ _ _ _ _ _ _
  have hsys : s0.afterSegments.system = "skiers" := k3
  have hg : s0.afterSegments.g ≠ 0 := by show s0.g ≠ 0; rw [k7]; norm_num
  have hl : s0.afterSegments.lski ≠ 0 := by show s0.lski ≠ 0; rw [k8]; norm_num
  have hp : s0.afterSegments.B11 * (s0.afterSegments.loads site.phi).pt = 0 := by
    have : (s0.afterSegments.loads site.phi).pt = 0 := by
      show -s0.p * Real.sin (deg2rad site.phi) = 0
      rw [k6]; ring
    rw [this, mul_zero]
  have hsk : IsSkier s0.afterSegments := .inr hsys
  have hnp : ¬ IsPst s0.afterSegments := by
    rintro (h | h) <;> exact absurd (h.symm.trans hsys) (by decide)
  have hnv : ¬ IsVpst s0.afterSegments := by
    rintro (h | h) <;> exact absurd (h.symm.trans hsys) (by decide)
  have hdead : ∀ a, DeadLoads s0.afterSegments a := fun a => ⟨.inr (.inr hsk), fun h => absurd h hnp, fun h => absurd h hnv⟩
  have hkl := hB.len
  obtain ⟨j, j1, j2, j3⟩ := skierWeights_run li ki hkl hB.nonneg hB.middle hB.last
  have j2' : ∀ w, skierWeights w li (List.replicate ki.length true) = .ok ((List.replicate (ki.length - 1) 0).set j w) := by
    intro w
    rw [← j2 w]
    have hne : ki ≠ [] := by
      rintro rfl
      have := hB.two
      simp at hkl
      omega
    have hne' : List.replicate ki.length true ≠ [] := by simpa using hne
    unfold skierWeights
    rw [if_neg hne, if_neg hne', List.length_replicate]
  have runs0 := fun w => create_solve num site hs k1 w _ _ _ hB0 (j2' w) .nocrack
  have runs1 := fun w => create_solve num site hs k1 w _ _ _ hB (j2 w) .crack
  rw [show CrackCase.nocrack.support (List.replicate ki.length true) = List.replicate ki.length true by
    simp [CrackCase.support]] at runs0
  rw [show CrackCase.crack.support ki = ki from rfl] at runs1
  generalize s0.afterSegments = s at *
  have hcc := hb.stiff.coercive hsh
  obtain ⟨C0, X0, σ0, τ0, b0, n0, a0⟩ := runs0 0
  obtain ⟨C1, X1, σ1, τ1, b1, n1, a1⟩ := runs0 1
  obtain ⟨-, -, -, m0, -⟩ := C16_solution_meets_all_conditions num _ _ _ _ _ _ C0 hf (hdead ⟨[], [], []⟩).faces a0
  obtain ⟨-, -, -, m1, -⟩ := C16_solution_meets_all_conditions num _ _ _ _ _ _ C1 hf (hdead ⟨[], [], []⟩).faces a1
  have hrep : ∀ i < li.length, (List.replicate ki.length true).getD i false = true := by
    intro i hi
    rw [List.getD_eq_getElem?_getD, List.getElem?_replicate, if_pos (by omega)]
    rfl
  set Y : ℕ → ℝ → Vec6 := fun i x => zsol s x (C0.getD i 0) (nth li i) site.phi true with hY
  set Z : ℕ → ℝ → Vec6 := fun i x => zsol s x (C1.getD i 0) (nth li i) site.phi true with hZ
  have hdr : driveOf s site.phi true = s.beam.drive (s.loads site.phi) := by unfold driveOf; simp
  have dY : ∀ i, Driven s.beam true (s.beam.drive (s.loads site.phi)) (Y i) := fun i => by
    rw [← hdr]
    exact stateAt_driven s hb site.phi [nth li i] [true] (fun _ => C0.getD i 0) 0
  have dZ : ∀ i, Driven s.beam true (s.beam.drive (s.loads site.phi)) (Z i) := fun i => by
    rw [← hdr]
    exact stateAt_driven s hb site.phi [nth li i] [true] (fun _ => C1.getD i 0) 0
  have sU : ∀ i, SolvesODE s.beam Loads.zero true (fun x => Z i x - Y i x) := fun i => (dZ i).sub (dY i)
  have dU : ∀ i, Driven s.beam true 0 (fun x => Z i x - Y i x) := fun i => by
    have := (solvesODE_iff_driven _ _ _ _).mp (sU i)
    have e : s.beam.drive Loads.zero = 0 := by simp [Beam.drive, Loads.zero]
    rwa [e] at this
  have hli : ∀ i < li.length, 0 ≤ nth li i := fun i hi => by rw [nth_eq hi]; exact hB.nonneg _ (List.getElem_mem _)
  -- the part due to the weight
  have stY : ∀ i < li.length, ∀ x, stateAt s site.phi li (List.replicate ki.length true) (fun i => C0.getD i 0) i x = Y i x :=
    fun i hi x => by unfold stateAt; rw [hrep i hi]
  have stZ : ∀ i < li.length, ∀ x, stateAt s site.phi li (List.replicate ki.length true) (fun i => C1.getD i 0) i x = Z i x :=
    fun i hi x => by unfold stateAt; rw [hrep i hi]
  have h2 := hB.two
  have hn0 : ∀ i, nth ((List.replicate (ki.length - 1) (0 : ℝ)).set j 0) i = 0 := by
    intro i
    unfold nth
    simp only [List.getD_eq_getElem?_getD, List.getElem?_set, List.getElem?_replicate, List.length_replicate]
    split_ifs <;> rfl
  have hn1 : ∀ i, i ≠ j → nth ((List.replicate (ki.length - 1) (0 : ℝ)).set j 1) i = 0 := by
    intro i hij
    unfold nth
    simp only [List.getD_eq_getElem?_getD, List.getElem?_set, List.getElem?_replicate, List.length_replicate]
    rw [if_neg hij.symm]
    split_ifs <;> rfl
  have hnj : nth ((List.replicate (ki.length - 1) (0 : ℝ)).set j 1) j = 1 := by
    unfold nth
    simp only [List.getD_eq_getElem?_getD, List.getElem?_set, List.length_replicate]
    rw [if_pos trivial, if_pos (by omega)]
    rfl
  have hmove : ∀ i < li.length, ∀ x, Z i x - Y i x ≠ 0 := by
    refine loaded_moves hcc hli (fun i _ => sU i) j1
      (F := jump s site.phi ((List.replicate (ki.length - 1) (0 : ℝ)).set j 1) j) ?_ ?_ ?_ ?_ ?_ ?_
    · unfold jump
      rw [if_neg (hdead ⟨[], [], []⟩).not_aux, hnj]
      exact (getSkierLoad_ne hg hl site.phi).symm
    · have l0 := m0.left
      have l1 := m1.left
      rw [((hdead _).ends site.phi _).1] at l0 l1
      rw [stY 0 (by omega)] at l0
      rw [stZ 0 (by omega)] at l1
      unfold endOf at l0 l1
      rw [if_neg hnp, if_neg hnv] at l0 l1
      obtain ⟨p1, p2, p3⟩ := l0
      obtain ⟨q1, q2, q3⟩ := l1
      exact ⟨by rw [Pi.sub_apply, p1, q1, sub_self], by rw [Pi.sub_apply, p2, q2, sub_self],
        by rw [Pi.sub_apply, p3, q3, sub_self]⟩
    · have l0 := m0.right
      have l1 := m1.right
      rw [((hdead _).ends site.phi _).2] at l0 l1
      simp only at l0 l1
      rw [stY _ (by omega)] at l0
      rw [stZ _ (by omega)] at l1
      unfold endOf at l0 l1
      rw [if_neg hnp, if_neg hnv] at l0 l1
      obtain ⟨p1, p2, p3⟩ := l0
      obtain ⟨q1, q2, q3⟩ := l1
      exact ⟨by rw [Pi.sub_apply, p1, q1, sub_self], by rw [Pi.sub_apply, p2, q2, sub_self],
        by rw [Pi.sub_apply, p3, q3, sub_self]⟩
    · intro i hi
      have t0 := m0.trans i hi
      have t1 := m1.trans i hi
      simp only at t0 t1
      rw [stY i (by omega), stY (i + 1) hi, jump_zero _ _ _ _ (hn0 i)] at t0
      rw [stZ i (by omega), stZ (i + 1) hi] at t1
      have hF : (if i = j then jump s site.phi ((List.replicate (ki.length - 1) (0 : ℝ)).set j 1) j else (0, 0, 0))
          = jump s site.phi ((List.replicate (ki.length - 1) (0 : ℝ)).set j 1) i := by
        split_ifs with h
        · rw [h]
        · rw [jump_zero _ _ _ _ (hn1 i h)]
      rw [hF]
      have sN : ∀ f g : Vec6, s.beam.N (f - g) = s.beam.N f - s.beam.N g := fun f g => by simp only [Beam.N, Pi.sub_apply]; ring
      have sM : ∀ f g : Vec6, s.beam.M (f - g) = s.beam.M f - s.beam.M g := fun f g => by simp only [Beam.M, Pi.sub_apply]; ring
      have sV : ∀ f g : Vec6, s.beam.V (f - g) = s.beam.V f - s.beam.V g := fun f g => by simp only [Beam.V, Pi.sub_apply]; ring
      have N0 : _ = (0 : ℝ) := t0.N
      have M0 : _ = (0 : ℝ) := t0.M
      have V0 : _ = (0 : ℝ) := t0.V
      exact ⟨by rw [Pi.sub_apply, Pi.sub_apply, t0.u, t1.u], by rw [Pi.sub_apply, Pi.sub_apply, t0.w, t1.w],
        by rw [Pi.sub_apply, Pi.sub_apply, t0.psi, t1.psi], by rw [sN, sN, ← t1.N]; linarith, by rw [sM, sM, ← t1.M]; linarith,
        by rw [sV, sV, ← t1.V]; linarith⟩
    · by_contra hno
      push Not at hno
      have z : ∀ m ≤ j + 1, startOf li m ≤ 0 := by
        intro m
        induction m with
        | zero => intro _; simp [startOf]
        | succ m ih =>
          intro hm
          rw [startOf_succ li (by omega), ← nth_eq (by omega)]
          linarith [ih (by omega), hno m (by omega)]
      have z1 := z (j + 1) le_rfl
      have z2 := j3.2.1
      have z3 : 0 < li.sum := by
        have h1 := List.single_le_sum hB.nonneg (nth li (li.length - 1)) (by rw [nth_eq (by omega)]; exact List.getElem_mem _)
        linarith [hB.last]
      linarith
    · exact ⟨li.length - 1, by omega, by omega, hB.last⟩
  set E : ℕ → ℝ := fun i => ∫ x in (0 : ℝ)..nth li i, s.beam.layerEnergy (Z i x - Y i x) with hE
  have hEn : ∀ i < li.length, 0 ≤ E i := fun i hi => intervalIntegral.integral_nonneg (hli i hi) fun x _ => hcc.layerEnergy_nonneg _
  have hEp : ∀ i < li.length, 0 < nth li i → 0 < E i := by
    intro i hi hl
    refine lt_of_le_of_ne (hEn i hi) fun h0 => ?_
    exact hmove i hi 0 (still hcc (dU i) hl h0.symm 0 ⟨le_rfl, hl.le⟩)
  set P : ℕ → ℝ := fun i => ∫ x in (0 : ℝ)..nth li i, s.beam.layerEnergy (Y i x) with hP
  set SE : ℝ := ∑ i ∈ Finset.range li.length, (if ki.getD i false then 0 else E i) with hSE
  set SP : ℝ := ∑ i ∈ Finset.range li.length, (if ki.getD i false then 0 else P i) with hSP
  set da : ℝ := unsupported li ki with hda
  have hSEp : 0 < SE := by
    obtain ⟨i, hi, hk, hl⟩ : ∃ i < li.length, ki.getD i false = false ∧ 0 < nth li i := by
      by_contra hno
      push Not at hno
      have : unsupported li ki ≤ 0 := by
        rw [← overCrack_length li ki hkl C0 C0]
        unfold overCrack
        refine (List.sum_le_card_nsmul _ 0 fun v hv => ?_).trans (by simp)
        obtain ⟨i, hi, rfl⟩ := List.mem_map.1 hv
        have hi := List.mem_range.1 hi
        have e1 : ki.getD i true = ki.getD i false := by
          simp [List.getD_eq_getElem?_getD, List.getElem?_eq_getElem (show i < ki.length by omega)]
        rw [e1]
        split_ifs with h
        · exact le_rfl
        · exact hno i hi (by simpa using h)
      linarith
    refine Finset.sum_pos' (fun i hi => ?_) ⟨i, Finset.mem_range.2 hi, ?_⟩
    · split_ifs
      · exact le_rfl
      · exact hEn i (Finset.mem_range.1 hi)
    · rw [hk]
      exact hEp i hi hl
  refine ⟨SE / (4 * da), SP / (2 * da) + li.length * e / da, by positivity, fun w => ?_⟩
  obtain ⟨Cw, Xw, σw, τw, bw, nw, aw⟩ := runs0 w
  obtain ⟨Dw, Xd, σd, τd, bd, nd, ad⟩ := runs1 w
  -- constants for this weight
  have hmix : Cw = List.zipWith (mixVec w) C0 C1 := by
    obtain ⟨p, q, r, p1, q1, r1, -, -, -, -, -, -, -, -, hC, -⟩ := C51_superposition num site hs _ _ hB0 .nocrack 0 1 w
    rw [show mix w 0 1 = w by unfold mix; ring] at r1
    rw [b0] at p1; rw [b1] at q1; rw [bw] at r1
    injection p1 with p1; injection q1 with q1; injection r1 with r1
    rw [← p1, ← q1, ← r1] at hC
    exact hC
  set a : SegLists := ⟨li, (List.replicate (ki.length - 1) 0).set j w, List.replicate ki.length true⟩ with ha
  have hinc := incSegs_advance nw nd hkl ((List.replicate (ki.length - 1) 0).set j w)
  set cr := (advance a ki Cw Dw).filter fun g => g.k0 && !g.ki with hcr
  have hfil := incSegs_filter li.length Cw Dw li ki nw nd rfl hkl
  have hlen : cr.length ≤ li.length ∧ (cr.map IncSeg.l).sum = da := by
    have h := hfil IncSeg.l
    have h' : incSegs Cw Dw li ki (List.replicate li.length true) = advance a ki Cw Dw := by
      rw [ha, ← hinc, hkl]
    rw [overCrack_length _ _ hkl, h'] at h
    exact ⟨h.2, h.1⟩
  obtain ⟨I, II, g1, g2⟩ := C83_ginc quad e hq hb hsh hf (hdead _) (hdead _) hp aw ad rfl rfl
    (fun i hi => by
      have : i < li.length := by
        by_contra h
        rw [List.getD_eq_default _ _ (by simp only; omega)] at hi
        cases hi
      exact hrep i this) hB.nonneg cr hcr da hlen.2.symm hcrack
  refine ⟨⟨s, Cw, a, Xw, σw, τw⟩, ⟨s, Dw, ⟨li, (List.replicate (ki.length - 1) 0).set j w, ki⟩, Xd, σd, τd⟩, I, II, ?_, ?_⟩
  · unfold energyCheck
    simp only [bind, Except.bind, bw, bd, pure, Except.pure]
    rw [hinc, g1]
    rfl
  · refine le_trans ?_ g2
    have hbs := broken_sum s site.phi hb.stiff.kt.ne' a ki Cw Dw
    rw [← hcr] at hbs
    rw [← hbs]
    have hbr : ∀ i < li.length, w ^ 2 / 2 * E i - P i
        ≤ ∫ x in (0 : ℝ)..nth li i, s.beam.layerEnergy (zsol s x (Cw.getD i 0) (nth li i) site.phi true) := by
      intro i hi
      have hCi : Cw.getD i 0 = mixVec w (C0.getD i 0) (C1.getD i 0) := by
        rw [hmix]
        simp only [List.getD_eq_getElem?_getD]
        rw [List.getElem?_eq_getElem (by simp; rw [n0, n1]; exact ⟨hi, hi⟩), List.getElem?_eq_getElem (by rw [n0]; exact hi),
          List.getElem?_eq_getElem (by rw [n1]; exact hi)]
        simp
      simp only [hCi, zsol_mix]
      have ii : ∀ {f : ℝ → ℝ}, Continuous f → IntervalIntegrable f MeasureTheory.volume 0 (nth li i) := fun h => h.intervalIntegrable _ _
      have cU := layerEnergy_cont (dU i)
      have cY := layerEnergy_cont (dY i)
      have cM : Continuous fun x => s.beam.layerEnergy (mixVec w (Y i x) (Z i x)) := by
        refine (dY i).cont₂ (dZ i) (q := fun p q => s.beam.layerEnergy (mixVec w p q)) ?_
        unfold Beam.layerEnergy Beam.slip mixVec
        fun_prop
      rw [hE, hP]
      simp only
      rw [← intervalIntegral.integral_const_mul, ← intervalIntegral.integral_sub (ii (by fun_prop)) (ii cY)]
      exact intervalIntegral.integral_mono_on (hli i hi) (ii (by fun_prop)) (ii cM) fun x _ => hcc.layerEnergy_mix _ _ _
    have hsum : w ^ 2 / 2 * SE - SP ≤ ∑ i ∈ Finset.range a.li.length, (if a.ki.getD i false && !ki.getD i false then
        (∫ x in (0 : ℝ)..nth a.li i, s.beam.layerEnergy (zsol s x (Cw.getD i 0) (nth a.li i) site.phi (a.ki.getD i false))) else 0) := by
      rw [hSE, hSP, Finset.mul_sum, ← Finset.sum_sub_distrib]
      refine Finset.sum_le_sum fun i hi => ?_
      have hi' : i < li.length := Finset.mem_range.1 hi
      simp only [ha]
      rw [hrep i hi']
      cases ki.getD i false
      · simpa using hbr i hi'
      · simp
    have hlen' : (cr.length : ℝ) ≤ li.length := by exact_mod_cast hlen.1
    have q1 : (cr.length : ℝ) * e / da ≤ li.length * e / da :=
      div_le_div_of_nonneg_right (mul_le_mul_of_nonneg_right hlen' he) hcrack.le
    have q2 := div_le_div_of_nonneg_right hsum (by positivity : 0 ≤ 2 * da)
    have q3 : (w ^ 2 / 2 * SE - SP) / (2 * da) = SE / (4 * da) * w ^ 2 - SP / (2 * da) := by
      field_simp
      ring
    linarith

/-! ## The loop -/

/-- The loop ends if the energy suffices from some weight on. -/
theorem doubleWeight_ends {check : ℝ → Res (Option ℝ)} (hc : ∀ w, ∃ g, check w = .ok g) {W : ℝ}
    (hW : ∀ w, W ≤ w → ∃ g, check w = .ok g ∧ below g 1 = false) {w : ℝ} (hw : 0 < w) :
    ∃ n, ∀ m, n ≤ m → ∃ V, doubleWeight check m w = .ok (some V) := by
  have main : ∀ k : ℕ, ∀ w : ℝ, W ≤ 2 ^ (k + 1) * w → ∀ m, k + 1 ≤ m → ∃ V, doubleWeight check m w = .ok (some V) := by
    intro k
    induction k with
    | zero =>
      intro w hw m hm
      obtain ⟨m, rfl⟩ : ∃ j, m = j + 1 := ⟨m - 1, by omega⟩
      obtain ⟨g, g1, g2⟩ := hW (w * 2) (by rw [zero_add, pow_one] at hw; linarith)
      refine ⟨w * 2, ?_⟩
      rw [doubleWeight]
      simp only [bind, Except.bind, g1, g2, Bool.false_eq_true, if_false]
      rfl
    | succ k ih =>
      intro w hw m hm
      obtain ⟨m, rfl⟩ : ∃ j, m = j + 1 := ⟨m - 1, by omega⟩
      obtain ⟨g, g1⟩ := hc (w * 2)
      rw [doubleWeight]
      simp only [bind, Except.bind, g1]
      split
      · exact ih (w * 2) (by rw [pow_succ] at hw; linarith) m (by omega)
      · exact ⟨_, rfl⟩
  obtain ⟨k, hk⟩ := pow_unbounded_of_one_lt (W / w) (one_lt_two (α := ℝ))
  rw [div_lt_iff₀ hw] at hk
  refine ⟨k + 1, main k w ?_⟩
  have : (0 : ℝ) < 2 ^ k * w := by positivity
  rw [pow_succ]
  linarith

theorem criterion_large {I II : ℝ} (h : 1 ≤ I - II) : 1 ≤ fractureToughnessCriterion (1000 * I) (1000 * II) := by
  unfold fractureToughnessCriterion
  rcases le_or_gt (1 / 2) I with hI | hI
  · refine le_add_of_le_of_nonneg (Real.one_le_rpow ?_ (by norm_num)) (by positivity)
    rw [abs_of_pos (by linarith), le_div_iff₀ (by norm_num)]
    norm_num
    linarith
  · refine le_add_of_nonneg_of_le (by positivity) (Real.one_le_rpow ?_ (by norm_num))
    rw [abs_of_neg (by linarith), le_div_iff₀ (by norm_num)]
    norm_num
    linarith

/-- C84: for every crack some weight suffices, and so do all larger ones. -/
theorem C84_sufficient (num : Numerics) (quad : Quad) (e : ℝ) (hq : QuadOk quad e) (he : 0 ≤ e) (site : Site)
    (hs : SiteOk num site) (li : List ℝ) (ki : List Bool) (hB : BeamOk li ki) (hcrack : 0 < unsupported li ki) :
    (∀ w, ∃ r c v, energyCheck num quad site w li ki = .ok (r, c, some v)) ∧
    ∃ W, ∀ w, W ≤ w → ∃ r c v, energyCheck num quad site w li ki = .ok (r, c, some v) ∧ 1 ≤ v := by
  obtain ⟨α, β, hα, H⟩ := C84_energy_grows num quad e hq he site hs li ki hB hcrack
  constructor
  · intro w
    obtain ⟨r, c, I, II, h1, -⟩ := H w
    exact ⟨r, c, _, h1⟩
  · refine ⟨1 + (1 + |β|) / α, fun w hw => ?_⟩
    obtain ⟨r, c, I, II, h1, h2⟩ := H w
    refine ⟨r, c, _, h1, criterion_large (le_trans ?_ h2)⟩
    have h3 : 0 ≤ (1 + |β|) / α := by positivity
    have h4 : (1 + |β|) / α ≤ w ^ 2 := by nlinarith
    rw [div_le_iff₀ hα] at h4
    linarith [le_abs_self β]

/-- C84: doubling the weight ends, from any positive weight. -/
theorem C84_doubling_ends (num : Numerics) (quad : Quad) (e : ℝ) (hq : QuadOk quad e) (he : 0 ≤ e) (site : Site) (hs : SiteOk num site)
    {L : ℝ} (hL : 1 < L) {w : ℝ} (hw : 0 < w) :
    ∃ n, ∀ m, n ≤ m → ∃ W, doubleWeight
      (fun w => do let (_, _, g) ← energyCheck num quad site w (crackStart L) [true, false, false, true]; return g) m w
        = .ok (some W) := by
  obtain ⟨h1, W, h2⟩ := C84_sufficient num quad e hq he site hs _ _ (crackStart_ok hL)
    (by rw [← (crackStart_segs hL.le).crack]; exact one_pos)
  refine doubleWeight_ends (W := W) (fun w => ?_) (fun w hw => ?_) hw
  · obtain ⟨r, c, v, h⟩ := h1 w
    exact ⟨_, by simp only [bind, Except.bind, h]; rfl⟩
  · obtain ⟨r, c, v, h, hv⟩ := h2 w hw
    refine ⟨some v, by simp only [bind, Except.bind, h]; rfl, ?_⟩
    simpa only [below, Option.any_some, decide_eq_false_iff_not, not_lt] using hv

/-- C84: the dampened search answers for every site of known soundness and slabs of more than a
hundredth of a millimetre. -/
theorem C84_dampened_ends (num : Numerics) (quad : Quad) (e : ℝ) (hq : QuadOk quad e) (he : 0 ≤ e) (site : Site) (hs : SiteOk num site)
    (hH : 1 < 100 * profileHeight site.profile) (damp : ℝ) :
    ∃ n, ∀ fuel, n ≤ fuel → coupledDampened num quad fuel site damp ≠ .ok none := by
  unfold coupledDampened
  simp only [bind, Except.bind]
  generalize minForce (trial num site [100 * profileHeight site.profile / 2, 0, 0, 100 * profileHeight site.profile / 2]
    [true, true, true, true]) = P
  cases P with
  | error e => exact ⟨0, fun fuel _ h => by cases h⟩
  | ok p =>
    simp only
    split_ifs with h1 h2
    · refine ⟨0, fun fuel _ h => ?_⟩
      split at h <;> cases h
    · obtain ⟨n, hn⟩ := C84_doubling_ends num quad e hq he site hs hH (w := 3 * p.weight) (by linarith)
      refine ⟨n, fun fuel hf h => ?_⟩
      obtain ⟨W, hW⟩ := hn fuel hf
      simp only [bind, Except.bind] at hW
      rw [hW] at h
      simp only at h
      split at h
      · cases h
      · split at h
        · cases h
        · split at h <;> cases h
    · exact ⟨0, fun fuel _ h => by cases h⟩

/-- C84: so does the search itself, which falls back on the dampened one with a weak layer of
30 mm; there the site has to be sound too. -/
theorem C84_ends (num : Numerics) (quad : Quad) (e : ℝ) (hq : QuadOk quad e) (he : 0 ≤ e) (site : Site) (hs : SiteOk num site)
    (hs' : SiteOk num { site with t := 30 }) (hH : 1 < 100 * profileHeight site.profile) :
    ∃ n, ∀ fuel, n ≤ fuel → coupledCriterion num quad fuel site ≠ .ok none := by
  obtain ⟨n1, d1⟩ := C84_dampened_ends num quad e hq he { site with env := { site.env with density := 250 } }
    ⟨hs.eig, hs.plies, hs.t, hs.E, hs.generic⟩ hH 1
  obtain ⟨n2, d2⟩ := C84_dampened_ends num quad e hq he { site with t := 30 } hs' hH 1
  refine ⟨max n1 n2, fun fuel hf h => ?_⟩
  have e1 := d1 fuel (le_trans (le_max_left _ _) hf)
  have e2 := d2 fuel (le_trans (le_max_right _ _) hf)
  unfold coupledCriterion at h
  simp only [bind, Except.bind] at h
  repeat' split at h
  all_goals first | exact e1 h | exact e2 h | cases h

/-- The slab of the examples. -/
example (quad : Quad) (e : ℝ) (hq : QuadOk quad e) (he : 0 ≤ e) : ∃ n, ∀ fuel, n ≤ fuel → coupledCriterion midNum quad fuel demoSite ≠ .ok none :=
  C84_ends midNum quad e hq he demoSite demoSite_ok demoSite_ok (by
    have : profileHeight demoSite.profile = 200 := by simp [profileHeight, demoSite]
    rw [this]; norm_num)

/-- The skier of the examples above a crack of 30 cm, with an exact quadrature. -/
example : ∃ W, ∀ w, W ≤ w → ∃ r c v, energyCheck midNum (offQuad 0) demoSite w [2000, 150, 150, 2000] [true, false, false, true]
    = .ok (r, c, some v) ∧ 1 ≤ v :=
  (C84_sufficient midNum (offQuad 0) 0 (by simpa using offQuad_ok 0) le_rfl demoSite demoSite_ok _ _ demoBeam_ok
    (by simp [unsupported])).2

end Weac
