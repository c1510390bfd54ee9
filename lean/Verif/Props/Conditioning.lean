import Verif.Lemmas.Modes
import Verif.Lemmas.Column
import Verif.Props.Residual

/-!
# C79: long supported segments do not spoil the computation

The growing parts of the complementary solution are referred to the far end of a
segment (`sR`, `sC`). Entries of the linear system and of its inverse are bounded
for all lengths of the supported segments.
-/

namespace Weac
open Spec

/-! ## Bounds of the rows -/

/-- Factor by which the conditions of `eqs` enlarge states. -/
noncomputable def rowNorm (s : Self) (kR : ℝ) : ℝ := 1 + s.beam.fluxNorm + |kR|

theorem rowNorm_pos (s : Self) (kR : ℝ) : 0 < rowNorm s kR := by
  have := fluxNorm_nonneg (b := s.beam)
  unfold rowNorm
  positivity

section
variable (s : Self) (kR : ℝ) {z : Vec6} {B : ℝ} (h : ‖z‖ ≤ B)
include h

theorem disp_le (q : Fin 6) : |z q| ≤ rowNorm s kR * B := by
  have h0 := (norm_nonneg z).trans h
  have h1 := (norm_le_pi_norm z q).trans h
  rw [Real.norm_eq_abs] at h1
  have h2 := fluxNorm_nonneg (b := s.beam)
  unfold rowNorm
  nlinarith [mul_nonneg h2 h0, mul_nonneg (abs_nonneg kR) h0]

theorem row_force_le : |fN s z| ≤ rowNorm s kR * B ∧ |fM s z| ≤ rowNorm s kR * B ∧ |fV s z| ≤ rowNorm s kR * B ∧
    |fM s z + kR * z 4| ≤ rowNorm s kR * B ∧ |fM s z - kR * z 4| ≤ rowNorm s kR * B := by
  have h0 := (norm_nonneg z).trans h
  have h2 := fluxNorm_nonneg (b := s.beam)
  have h3 := mul_le_mul_of_nonneg_left h h2
  obtain ⟨f1, f2, f3⟩ := Beam.force_le (b := s.beam) z
  have e1 : fN s z = s.beam.N z := by simp [fN, Self.beam, Beam.N]
  have e2 : fM s z = s.beam.M z := by simp [fM, Self.beam, Beam.M]
  have e3 : fV s z = s.beam.V z := by simp [fV, Self.beam, Beam.V]
  have h4 := mul_nonneg (abs_nonneg kR) h0
  have h5 : |kR * z 4| ≤ |kR| * B := by
    rw [abs_mul]
    exact mul_le_mul_of_nonneg_left ((norm_le_pi_norm z 4).trans h) (abs_nonneg _)
  have r : rowNorm s kR * B = B + s.beam.fluxNorm * B + |kR| * B := by unfold rowNorm; ring
  rw [e1, e2, e3, r]
  refine ⟨by linarith, by linarith, by linarith, ?_, ?_⟩
  · exact (abs_add_le _ _).trans (by linarith)
  · exact (abs_sub _ _).trans (by linarith)

theorem bcFun_le (k : Bool) (pos : Pos) (t : Fin 3) : |bcFun s kR k pos z t| ≤ rowNorm s kR * B := by
  obtain ⟨f1, f2, f3, f4, f5⟩ := row_force_le s kR h
  have d := disp_le s kR h
  unfold bcFun
  by_cases h1 : IsPst s
  · rw [if_pos h1]
    cases k with
    | true => fin_cases t <;> simp [f1, f2, f3]
    | false =>
      rcases hm : s.mode with _ | _ | _ | _ <;> cases pos <;> fin_cases t <;> simp [f1, f2, f3, fw, fpsi, f4, f5, d 2]
  · rw [if_neg h1]
    by_cases h2 : IsSkier s
    · rw [if_pos h2]
      fin_cases t <;> simp [fu, fw, fpsi, d 0, d 2, d 4]
    · rw [if_neg h2]
      fin_cases t <;> simp [f1, f2, f3]

end

theorem rowOf_le (s : Self) (kR : ℝ) (nS : ℕ) (ki : List Bool) (i r : ℕ) {zl zr : Vec6} {B : ℝ} (hl : ‖zl‖ ≤ B) (hr : ‖zr‖ ≤ B) :
    |rowOf s kR nS ki i r zl zr| ≤ rowNorm s kR * B := by
  have h0 : 0 ≤ rowNorm s kR * B := mul_nonneg (rowNorm_pos s kR).le ((norm_nonneg zl).trans hl)
  have all : ∀ y ∈ eqsFun s kR (ki.getD i false) (posOf nS i) zl zr, |y| ≤ rowNorm s kR * B := by
    intro y hy
    obtain ⟨f1, f2, f3, -, -⟩ := row_force_le s kR hl
    obtain ⟨g1, g2, g3, -, -⟩ := row_force_le s kR hr
    have dl := disp_le s kR hl
    have dr := disp_le s kR hr
    unfold eqsFun at hy
    generalize posOf nS i = pos at hy
    cases pos with
    | l =>
      simp only [List.mem_cons, List.not_mem_nil, or_false] at hy
      rcases hy with rfl | rfl | rfl | rfl | rfl | rfl | rfl | rfl | rfl <;>
        first | exact bcFun_le s kR hl _ _ _ | simp only [fu, fw, fpsi, zero_mul, add_zero, dr, g1, g2, g3]
    | m =>
      simp only [List.mem_cons, List.not_mem_nil, or_false] at hy
      rcases hy with rfl | rfl | rfl | rfl | rfl | rfl | rfl | rfl | rfl | rfl | rfl | rfl <;>
        simp only [abs_neg, fu, fw, fpsi, zero_mul, add_zero, dr, g1, g2, g3, dl, f1, f2, f3]
    | r =>
      simp only [List.mem_cons, List.not_mem_nil, or_false] at hy
      rcases hy with rfl | rfl | rfl | rfl | rfl | rfl | rfl | rfl | rfl <;>
        first | exact bcFun_le s kR hr _ _ _ | simp only [abs_neg, fu, fw, fpsi, zero_mul, add_zero, dl, f1, f2, f3]
  unfold rowOf
  split_ifs
  · rcases lt_or_ge (r - rowStart i) (eqsFun s kR (ki.getD i false) (posOf nS i) zl zr).length with hlt | hge
    · rw [List.getD_eq_getElem _ _ hlt]
      exact all _ (List.getElem_mem hlt)
    · rw [List.getD_eq_default _ _ hge, abs_zero]
      exact h0
  · rw [abs_zero]; exact h0

/-! ## Bounds of the complementary solution -/

/-- C79, range. The entries of the complementary solution of a supported segment
are bounded for all lengths and all positions in the segment. -/
theorem C79_range (eig : EigSolver) (s : Self) (hb : BedOk s) (hf : EigFresh eig s) {x l : ℝ} (h0 : 0 ≤ x) (h1 : x ≤ l) (i j : Fin 6) :
    |zh s x l true i j| ≤ modeNorm s.eigs := zh_le hb hf h0 h1 i j

/-- C79, shift. Without the reference to the far end (`l = 0`) the entries exceed
every bound along the segment. -/
theorem C79_shift_needed (s : Self) (hb : BedOk s) (hc : ShearOk s) (B : ℝ) : ∃ x, 0 ≤ x ∧ ∃ i j, B < |zh s x 0 true i j| := by
  by_contra hn
  push Not at hn
  have hco := hb.stiff.coercive hc
  have hF := fluxNorm_nonneg (b := s.beam)
  obtain ⟨C, hC⟩ := (Matrix.mulVec_surjective_iff_isUnit).mpr (zh_true_isUnit s hb 0 0) ![1, 1, 0, 0, 0, 0]
  have hs := zh_solves s hb true 0 C
  set f : ℝ → Vec6 := fun x => (zh s x 0 true).mulVec C with hf
  obtain ⟨c, hc0, hloc⟩ := local_bound hco one_pos
  have f0 : 0 < s.beam.flux (f 0) := by
    have : s.beam.flux (f 0) = s.A11 := by
      rw [show f 0 = ![1, 1, 0, 0, 0, 0] from hC]
      simp [Beam.flux, Beam.N, Beam.M, Beam.V, Self.beam]
    rw [this]
    exact hb.stiff.A11
  have mono := flux_mono hco hs
  have pos : ∀ x, 0 ≤ x → s.beam.flux (f 0) ≤ s.beam.flux (f x) := fun x hx => mono hx
  have grow : ∀ m : ℕ, s.beam.flux (f 0) * m ≤ c * s.beam.fluxNorm * (s.beam.flux (f m) - s.beam.flux (f 0)) := by
    intro m
    induction m with
    | zero => simp
    | succ m ih =>
      have h1 := hloc f hs m m ⟨le_rfl, by linarith⟩
      have h2 := (abs_le.1 (abs_flux_le (b := s.beam) (f m))).2
      have h3 := pos m (Nat.cast_nonneg m)
      have h4 := mul_le_mul_of_nonneg_left h1 hF
      push_cast
      linarith
  have bd : ∀ x, 0 ≤ x → ‖f x‖ ≤ ∑ j, |B| * |C j| := by
    intro x hx
    rw [pi_norm_le_iff_of_nonneg (by positivity)]
    intro q
    rw [Real.norm_eq_abs]
    simp only [hf, Matrix.mulVec, dotProduct]
    refine (Finset.abs_sum_le_sum_abs _ _).trans (Finset.sum_le_sum fun j _ => ?_)
    rw [abs_mul]
    exact mul_le_mul_of_nonneg_right ((hn x hx q j).trans (le_abs_self B)) (abs_nonneg _)
  set D := ∑ j, |B| * |C j| with hD
  have D0 : 0 ≤ D := by positivity
  obtain ⟨m, hm⟩ := exists_nat_gt (c * s.beam.fluxNorm * (s.beam.fluxNorm * D ^ 2) / s.beam.flux (f 0))
  rw [div_lt_iff₀ f0] at hm
  have h1 := grow m
  have h2 := (abs_le.1 (abs_flux_le (b := s.beam) (f m))).2
  have h3 := mul_le_mul_of_nonneg_left (pow_le_pow_left₀ (norm_nonneg _) (bd m (Nat.cast_nonneg m)) 2) hF
  have h4 : c * s.beam.fluxNorm * (s.beam.flux (f m) - s.beam.flux (f 0)) ≤ c * s.beam.fluxNorm * (s.beam.fluxNorm * D ^ 2) :=
    mul_le_mul_of_nonneg_left (by linarith) (by positivity)
  linarith

theorem free_le (s : Self) (R : ℝ) : ∃ K, 0 < K ∧ ∀ x l, 0 ≤ x → x ≤ R → ∀ i j, |zh s x l false i j| ≤ K := by
  have hc : ∀ i j, Continuous fun x => zhFree s x i j := by
    intro i j
    fin_cases i <;> fin_cases j <;> simp [zhFree] <;> fun_prop
  have hb : ∀ i j, ∃ K, ∀ x ∈ Set.Icc 0 R, ‖zhFree s x i j‖ ≤ K := fun i j => isCompact_Icc.exists_bound_of_continuousOn (hc i j).continuousOn
  choose K hK using hb
  refine ⟨∑ i, ∑ j, |K i j| + 1, by positivity, fun x l h0 h1 i j => ?_⟩
  have a1 := (hK i j x ⟨h0, h1⟩).trans (le_abs_self _)
  have a2 := Finset.single_le_sum (f := fun j => |K i j|) (fun j _ => abs_nonneg _) (Finset.mem_univ j)
  have a3 := Finset.single_le_sum (f := fun i => ∑ j, |K i j|) (fun i _ => Finset.sum_nonneg fun j _ => abs_nonneg _) (Finset.mem_univ i)
  rw [Real.norm_eq_abs] at a1
  simp only [zh, Bool.false_eq_true, if_false]
  linarith

theorem free_constants (s : Self) (hs : Regular s) : ∃ K, 0 < K ∧ ∀ (l : ℝ) (C : Vec6) (B : ℝ),
    ‖(zh s 0 l false).mulVec C‖ ≤ B → ∀ q, |C q| ≤ K * B := by
  have hinj : Function.Injective (zhFree s 0).mulVec := by
    intro C C' h
    have : (zhFree s 0).mulVec (C - C') = 0 := by rw [Matrix.mulVec_sub, h, sub_self]
    exact sub_eq_zero.mp (zhFree_injective s hs 0 _ this)
  have hu := (Matrix.isUnit_iff_isUnit_det _).1 ((Matrix.mulVec_injective_iff_isUnit).mp hinj)
  obtain ⟨K, hK, hP⟩ := mulVec_bound (zhFree s 0)⁻¹
  refine ⟨K, hK, fun l C B h q => ?_⟩
  have e : C = ((zhFree s 0)⁻¹).mulVec ((zh s 0 l false).mulVec C) := by
    simp only [zh, Bool.false_eq_true, if_false]
    rw [Matrix.mulVec_mulVec, Matrix.nonsing_inv_mul _ hu, Matrix.one_mulVec]
  rw [e]
  exact (hP _ q).trans (mul_le_mul_of_nonneg_left h hK.le)

/-- C79, constants. The constants of a segment are bounded by the complementary
solution at its ends, and errors of the constants are not amplified along the
segment, with one factor for all lengths of supported segments. -/
theorem C79_constants (eig : EigSolver) (s : Self) (hb : BedOk s) (hf : EigFresh eig s) (R : ℝ) :
    ∃ K, 0 < K ∧ ∀ (k : Bool) (l : ℝ) (C : Vec6) (B : ℝ), 0 ≤ l → (k = true ∨ l ≤ R) →
      (‖(zh s 0 l k).mulVec C‖ ≤ B → ‖(zh s l l k).mulVec C‖ ≤ B → ∀ q, |C q| ≤ K * B) ∧
      ((∀ q, |C q| ≤ B) → ∀ x ∈ Set.Icc 0 l, ∀ q, |(zh s x l k).mulVec C q| ≤ K * B) := by
  obtain ⟨K1, p1, h1⟩ := constants_bound hb hf
  obtain ⟨K2, p2, h2⟩ := free_constants s hb.stiff.regular
  obtain ⟨K3, p3, h3⟩ := free_le s R
  have p4 : 0 ≤ modeNorm s.eigs := (abs_nonneg _).trans (zh_le hb hf le_rfl le_rfl 0 0 (x := 0) (l := 0))
  refine ⟨K1 + K2 + 6 * K3 + 6 * modeNorm s.eigs, by positivity, fun k l C B hl hk => ⟨fun b0 bl q => ?_, fun hC x hx q => ?_⟩⟩
  · have hB := (norm_nonneg _).trans b0
    have : ∀ K', K' ≤ K1 + K2 + 6 * K3 + 6 * modeNorm s.eigs → |C q| ≤ K' * B → |C q| ≤ (K1 + K2 + 6 * K3 + 6 * modeNorm s.eigs) * B :=
      fun K' h h' => h'.trans (mul_le_mul_of_nonneg_right h hB)
    cases k with
    | true => exact this K1 (by linarith) (h1 l C B b0 bl q)
    | false => exact this K2 (by linarith) (h2 l C B b0 q)
  · have hB := (abs_nonneg _).trans (hC 0)
    have gen : ∀ K', 0 ≤ K' → (∀ i j, |zh s x l k i j| ≤ K') → |(zh s x l k).mulVec C q| ≤ 6 * K' * B := by
      intro K' hK' h
      simp only [Matrix.mulVec, dotProduct]
      refine (Finset.abs_sum_le_sum_abs _ _).trans ((Finset.sum_le_sum fun j _ => ?_).trans (b := ∑ _j : Fin 6, K' * B) ?_)
      · rw [abs_mul]
        exact mul_le_mul (h q j) (hC j) (abs_nonneg _) hK'
      · simp; linarith
    cases k with
    | true =>
      refine (gen _ p4 fun i j => zh_le hb hf hx.1 hx.2 i j).trans (mul_le_mul_of_nonneg_right (by linarith) hB)
    | false =>
      have hR : l ≤ R := by simpa using hk
      exact (gen _ p3.le fun i j => h3 x l hx.1 (hx.2.trans hR) i j).trans (mul_le_mul_of_nonneg_right (by linarith) hB)

/-! ## The linear system -/

/-- C79. The linear system that `assemble_and_solve` sets up and passes to the
solver is well conditioned uniformly in inclination, weights and lengths of the
supported segments: its entries are bounded by `K`, and solutions are bounded by
`K` times the right-hand side. -/
theorem C79_well_conditioned (num : Numerics) (s : Self) (hb : BedOk s) (hc : ShearOk s) (hf : EigFresh num.eig s) (hv : NoFaceTouchdown s)
    (n : ℕ) {d : ℝ} (R : ℝ) (hd : 0 < d) :
    ∃ K, 0 < K ∧ ∀ (kind : SeqKind) (phi : ℝ) (a a' : SegLists) (s' : Self) (C : List Vec6),
      assembleAndSolve num kind phi a s = (.ok (C, a'), s') → a'.li.length = n →
      Anchored d R n (fun i => a'.ki.getD i false) (nth a'.li) →
      ∃ (M : ℕ → ℕ → ℝ) (r : ℕ → ℝ),
        (∀ solve, assembleAndSolveBy solve num kind phi a s =
          ((solve (6 * n) M r).map fun x => ((List.range n).map fun i (j : Fin 6) => x (6 * i + j), a'), s)) ∧
        (∀ i j, |M i j| ≤ K) ∧
        ∀ (x : ℕ → ℝ) (ε : ℝ), (∀ i < 6 * n, |∑ j ∈ Finset.range (6 * n), M i j * x j| ≤ ε) → ∀ j < 6 * n, |x j| ≤ K * ε := by
  obtain ⟨K1, p1, h1⟩ := C71_nearly s hb hc n R hd
  obtain ⟨K2, p2, h2⟩ := C79_constants num.eig s hb hf R
  obtain ⟨K3, p3, h3⟩ := free_le s R
  have p4 : 0 ≤ modeNorm s.eigs := (abs_nonneg _).trans (zh_le hb hf le_rfl le_rfl 0 0 (x := 0) (l := 0))
  have p5 := rowNorm_pos s (valOf (spring num) s)
  have p6 : 0 ≤ rowNorm s (valOf (spring num) s) * (K3 + modeNorm s.eigs) := by positivity
  refine ⟨K2 * K1 + rowNorm s (valOf (spring num) s) * (K3 + modeNorm s.eigs), by positivity, fun kind phi a a' s' C hC hn ha => ?_⟩
  obtain ⟨rfl, hl, hsys, hm, hsol⟩ := system_of_run hf hv hC
  subst hn
  set n := (full a).li.length with hn
  refine ⟨_, _, hsol, fun i j => ?_, fun x ε hx j hj => ?_⟩
  · unfold matAt
    split_ifs with hj
    · have hj6 : j / 6 < n := by omega
      have hl0 := ha.nonneg (j / 6) hj6
      have col : ∀ y, 0 ≤ y → y ≤ nth (full a).li (j / 6) → ‖colOf s (full a).li (full a).ki (j / 6) y (j % 6)‖ ≤ K3 + modeNorm s.eigs := by
        intro y y0 y1
        rw [pi_norm_le_iff_of_nonneg (by positivity)]
        intro q
        rw [Real.norm_eq_abs]
        unfold colOf
        cases hk : (full a).ki.getD (j / 6) false with
        | true => exact (zh_le hb hf y0 y1 _ _).trans (by linarith)
        | false =>
          have : nth (full a).li (j / 6) ≤ R := by
            rcases ha.all (j / 6) hj6 with ⟨h, -⟩ | h
            · simp only [hk] at h; cases h
            · exact h
          exact (h3 y _ y0 (y1.trans this) _ _).trans (by linarith)
      refine (rowOf_le s _ n _ _ i (col 0 le_rfl hl0) (col _ hl0 le_rfl)).trans ?_
      have : 0 ≤ K2 * K1 := by positivity
      linarith
    · rw [abs_zero]; positivity
  · have hε : 0 ≤ ε := (abs_nonneg _).trans (hx 0 (by omega))
    set x0 : ℕ → ℝ := fun c => (C.getD (c / 6) 0) (Fin.ofNat 6 (c % 6)) with hx0
    have ex0 : constsOf x0 = fun i => C.getD i 0 := by
      funext i q
      have e1 : (6 * i + (q : ℕ)) / 6 = i := by omega
      have e2 : (6 * i + (q : ℕ)) % 6 = q := by omega
      simp only [constsOf, hx0, e1, e2]
      exact congrArg _ (Fin.ext (Nat.mod_eq_of_lt q.2))
    have hm0 := (rows_iff_meets s phi _ (full a) hl hsys hv x0).2 (by rw [ex0]; exact hm)
    have near : NearlyMeets ε s phi (valOf (spring num) s) (full a) (constsOf (x + x0)) := by
      refine rows_nearly s phi _ (full a) hl hsys hv _ fun r hr => ?_
      rw [← hm0 r hr]
      simp only [Pi.add_apply, mul_add, Finset.sum_add_distrib, add_sub_cancel_right]
      exact hx r hr
    have st := h1 s phi (valOf (spring num) s) ε (full a) _ _ rfl hb (spring_nonneg num s) rfl ha hm near
    have hj6 : j / 6 < n := by omega
    have hl0 := ha.nonneg (j / 6) hj6
    have diff : ∀ y ∈ Set.Icc 0 (nth (full a).li (j / 6)), ‖(zh s y (nth (full a).li (j / 6)) ((full a).ki.getD (j / 6) false)).mulVec
        (constsOf x (j / 6))‖ ≤ K1 * ε := by
      intro y hy
      rw [pi_norm_le_iff_of_nonneg (by positivity)]
      intro q
      have := st (j / 6) hj6 y hy q
      rw [Real.norm_eq_abs]
      refine le_of_eq_of_le (congrArg _ ?_) this
      have e : constsOf (x + x0) (j / 6) = constsOf x (j / 6) + C.getD (j / 6) 0 := by
        rw [← congrFun ex0 (j / 6)]
        rfl
      simp only [stateAt, zsol, e, Matrix.mulVec_add, Pi.add_apply]
      ring
    have := (h2 ((full a).ki.getD (j / 6) false) (nth (full a).li (j / 6)) (constsOf x (j / 6)) (K1 * ε) hl0 (by
      rcases ha.all (j / 6) hj6 with ⟨h, -⟩ | h
      · exact .inl h
      · exact .inr h)).1 (diff 0 ⟨le_rfl, hl0⟩) (diff _ ⟨hl0, le_rfl⟩) (Fin.ofNat 6 (j % 6))
    have ej : constsOf x (j / 6) (Fin.ofNat 6 (j % 6)) = x j := by
      simp only [constsOf, Fin.val_ofNat, Nat.mod_mod]
      congr 1
      omega
    rw [ej] at this
    have : 0 ≤ rowNorm s (valOf (spring num) s) * (K3 + modeNorm s.eigs) * ε := by positivity
    linarith

/-- A skier on a slab with cracked middle: the linear system of 24 equations is
equally well conditioned for all lengths of the boundary segments from 1 m on. -/
example : ∃ K, 0 < K ∧ ∀ l, 1000 ≤ l → ∃ C M r,
    assembleAndSolve stdNum .list 38 ⟨[l, 150, 150, l], [0, 80, 0], [true, false, false, true]⟩ skierDemo =
      (.ok (C, ⟨[l, 150, 150, l], [0, 80, 0], [true, false, false, true]⟩), skierDemo) ∧
    (∀ solve, assembleAndSolveBy solve stdNum .list 38 ⟨[l, 150, 150, l], [0, 80, 0], [true, false, false, true]⟩ skierDemo =
      ((solve 24 M r).map fun x => ((List.range 4).map fun i (j : Fin 6) => x (6 * i + j),
        ⟨[l, 150, 150, l], [0, 80, 0], [true, false, false, true]⟩), skierDemo)) ∧
    (∀ i j, |M i j| ≤ K) ∧
    ∀ (x : ℕ → ℝ) (ε : ℝ), (∀ i < 24, |∑ j ∈ Finset.range 24, M i j * x j| ≤ ε) → ∀ j < 24, |x j| ≤ K * ε := by
  obtain ⟨K, hK, h⟩ := C79_well_conditioned stdNum skierDemo (demo_bedOk _ _) (demo_shear _ _ _) (demo_ready _ _ _).fresh.eigFresh
    skierDemo_noFace 4 150 (by norm_num : (0 : ℝ) < 1000)
  refine ⟨K, hK, fun l hl => ?_⟩
  have hsk := skierDemo_isSkier
  have hval : Valid skierDemo ⟨[l, 150, 150, l], [0, 80, 0], [true, false, false, true]⟩ :=
    ⟨by simp, by simp, by simp, by simp⟩
  have hfull : full ⟨[l, 150, 150, l], [0, 80, 0], [true, false, false, true]⟩ =
      ⟨[l, 150, 150, l], [0, 80, 0], [true, false, false, true]⟩ := by simp [full]
  obtain ⟨C, hC, -⟩ := C18_held stdNum .list 38 _ skierDemo (demo_bedOk _ _) (demo_shear _ _ _) (demo_ready _ _ _).fresh.eigFresh
    hval (.inl rfl) (.inr (.inr (.inl hsk))) (fun h => absurd h skierDemo_not_pst) (fun h => absurd h skierDemo_not_pst)
    ⟨by simp; linarith, 0, by simp, .inl (by simp), by simp [nth]; linarith⟩
  rw [hfull] at hC
  obtain ⟨M, r, h1, h2, h3⟩ := h .list 38 _ _ _ C hC rfl ⟨by
      intro i hi; interval_cases i <;> simp [nth] <;> linarith, ⟨0, by simp, rfl, hl⟩, by
      intro i hi; interval_cases i <;> simp [nth] <;> exact .inl hl⟩
  exact ⟨C, M, r, hC, h1, h2, h3⟩

/-- The slab of the demonstration: bounded over a segment of 1 km, and without the
shift beyond the range of double precision somewhere. -/
example : (∀ x ∈ Set.Icc (0 : ℝ) 1000000, ∀ i j, |zh skierDemo x 1000000 true i j| ≤ modeNorm skierDemo.eigs) ∧
    ∃ x, 0 ≤ x ∧ ∃ i j, 10 ^ 309 < |zh skierDemo x 0 true i j| :=
  ⟨fun _ hx i j => C79_range stdEig _ (demo_bedOk _ _) (demo_ready _ _ _).fresh.eigFresh hx.1 hx.2 i j,
    C79_shift_needed _ (demo_bedOk _ _) (demo_shear _ _ _) _⟩

end Weac
