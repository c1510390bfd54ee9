import Mathlib.LinearAlgebra.Eigenspace.Basic
import Verif.Spec.Eig
import Verif.Props.Equilibrium

/-!
# C13, C14: bedded solutions
-/

namespace Weac
open Spec ComplexConjugate

/-! ## The system matrix without loads -/

theorem getWeightLoad_unloaded (s : Self) (phi : ℝ) : getWeightLoad { s with g := 0, p := 0 } phi = (0, 0) := by
  simp [getWeightLoad]

theorem getSurfaceLoad_unloaded (s : Self) (phi : ℝ) : getSurfaceLoad { s with g := 0, p := 0 } phi = (0, 0) := by
  simp [getSurfaceLoad]

/-- `dz = K z` is unloaded equilibrium. -/
theorem K_iff_equilibrium (s : Self) (hs : Regular s) (z dz : Vec6) :
    dz = (calcSystemMatrix s).mulVec z ↔ EquilBedded s.beam Loads.zero z dz := by
  have h := C09_dzdx_iff_equilibrium { s with g := 0, p := 0 }
    ⟨hs.A11, hs.kA55, hs.kn, hs.kt, hs.K0, hs.K0_eq⟩ z dz 0
  have e1 : dzdx { s with g := 0, p := 0 } z 0 = (calcSystemMatrix s).mulVec z := by
    have : getLoadVector { s with g := 0, p := 0 } 0 = 0 := by
      funext i
      simp only [getLoadVector, getWeightLoad_unloaded, getSurfaceLoad_unloaded]
      fin_cases i <;> simp
    simp only [dzdx, this, add_zero]
    rfl
  have e2 : Self.loads { s with g := 0, p := 0 } 0 = Loads.zero := by
    simp only [Self.loads, getWeightLoad_unloaded, getSurfaceLoad_unloaded, Loads.zero]
  rw [e1, e2] at h
  exact h

theorem K_injective (s : Self) (hs : Regular s) (v : Vec6) (h : (calcSystemMatrix s).mulVec v = 0) :
    v = 0 := by
  have hk := hs.kA55
  have hn := hs.kn
  have ht := hs.kt
  obtain ⟨⟨k0, k2, k4⟩, hN, hV, hM⟩ := (K_iff_equilibrium s hs v 0).mp h.symm
  simp only [Pi.zero_apply, Loads.zero, mul_zero, add_zero, sub_zero] at k0 k2 k4 hN hV hM
  have v2 : v 2 = 0 := by
    rcases mul_eq_zero.mp hV.symm with h | h
    · exact absurd h hn
    · exact h
  have v4 : v 4 = 0 := by
    rw [← hN] at hM
    simp only [Beam.V, Self.beam, ← k2, zero_add, mul_zero, add_zero] at hM
    rcases mul_eq_zero.mp hM.symm with h | h
    · exact absurd h hk
    · exact h
  have v0 : v 0 = 0 := by
    simp only [Beam.tau, Self.beam, v4, ← k2, mul_zero, add_zero, sub_zero] at hN
    rcases mul_eq_zero.mp hN.symm with h | h
    · exact absurd h ht
    · exact h
  funext i
  fin_cases i
  · exact v0
  · exact k0.symm
  · exact v2
  · exact k2.symm
  · exact v4
  · exact k4.symm

theorem K_det_ne_zero (s : Self) (hs : Regular s) : (calcSystemMatrix s).det ≠ 0 := by
  intro h
  obtain ⟨v, hv, h0⟩ := Matrix.exists_mulVec_eq_zero_iff.mpr h
  exact hv (K_injective s hs v h0)

/-! ## Number of columns -/

theorem toC_charpoly (K : Mat6) : (toC K).charpoly = K.charpoly.map (algebraMap ℝ ℂ) :=
  Matrix.charpoly_map K _

/-- The spectrum of a real matrix is symmetric to the real axis. -/
theorem roots_conj (K : Mat6) : (toC K).charpoly.roots.map (starRingEnd ℂ) = (toC K).charpoly.roots := by
  have hs : ((toC K).charpoly).Splits := IsAlgClosed.splits _
  rw [← hs.roots_map (starRingEnd ℂ), toC_charpoly, Polynomial.map_map]
  congr 2
  ext x
  simp

theorem card_spectrum (K : Mat6) : (toC K).charpoly.roots.card = 6 := by
  rw [IsAlgClosed.card_roots_eq_natDegree, Matrix.charpoly_natDegree_eq_dim]
  simp

theorem zero_notMem_spectrum (K : Mat6) (h : K.det ≠ 0) : (0 : ℂ) ∉ (toC K).charpoly.roots := by
  intro h0
  have h1 := (Polynomial.mem_roots'.mp h0).2
  have h2 : (toC K).det = 0 := by
    rw [Matrix.det_eq_sign_charpoly_coeff, Polynomial.coeff_zero_eq_eval_zero, h1.eq_zero, mul_zero]
  rw [toC, ← RingHom.mapMatrix_apply, ← RingHom.map_det] at h2
  exact h ((map_eq_zero _).mp h2)

theorem list_filter_length {α : Type*} (p : α → Prop) [DecidablePred p] (l : List α) :
    (l.filter fun a => decide (p a)).length = Multiset.countP p (Multiset.ofList l) := by
  rw [Multiset.coe_countP, List.countP_eq_length_filter]

/-- The object keeps six real solutions. -/
theorem kept_modes (eig : EigSolver) (s : Self) (hK : (calcSystemMatrix s).det ≠ 0)
    (he : EigOk (calcSystemMatrix s) (eig (calcSystemMatrix s))) :
    (calcEigensystem eig s).eigs.re.length + 2 * (calcEigensystem eig s).eigs.cx.length = 6 := by
  classical
  set K := calcSystemMatrix s
  set R := (toC K).charpoly.roots with hR
  have hsp := he.spectrum
  have hmap : ∀ p : ℂ → Prop, ∀ [DecidablePred p],
      Multiset.countP (fun q : ℂ × (Fin 6 → ℂ) => p q.1) (Multiset.ofList (eig K)) = R.countP p := by
    intro p _
    rw [hR, ← hsp, ← Multiset.map_coe, Multiset.countP_map, Multiset.countP_eq_card_filter]
  have h1 : (calcEigensystem eig s).eigs.re.length = R.countP fun z => z.im = 0 ∧ z.re ≠ 0 := by
    rw [← hmap (fun z => z.im = 0 ∧ z.re ≠ 0)]
    simp only [calcEigensystem, List.length_map]
    rw [← list_filter_length]
  have h2 : (calcEigensystem eig s).eigs.cx.length = R.countP fun z => 0 < z.im := by
    rw [← hmap (fun z => 0 < z.im)]
    simp only [calcEigensystem, List.length_map]
    rw [← list_filter_length]
  have h3 : (R.countP fun z : ℂ => 0 < z.im) = R.countP fun z => z.im < 0 := by
    conv_lhs => rw [hR, ← roots_conj, Multiset.countP_map, ← Multiset.countP_eq_card_filter]
    simp only [Complex.conj_im, neg_pos, hR]
  have h4 : R.card = (R.countP fun z : ℂ => z.im = 0 ∧ z.re ≠ 0) + (R.countP fun z => 0 < z.im)
      + (R.countP fun z => z.im < 0) := by
    have hz := zero_notMem_spectrum K hK
    rw [← hR] at hz
    clear_value R
    clear h1 h2 h3 hmap hsp hR
    induction R using Multiset.induction_on with
    | empty => simp
    | cons z R ih =>
      have hz1 : z ≠ 0 := fun h => hz (by simp [h])
      have hz2 : (0 : ℂ) ∉ R := fun h => hz (by simp [h])
      rw [Multiset.card_cons, Multiset.countP_cons, Multiset.countP_cons, Multiset.countP_cons, ih hz2]
      have : z.re ≠ 0 ∨ z.im ≠ 0 := by
        by_contra hcon
        push Not at hcon
        exact hz1 (Complex.ext hcon.1 hcon.2)
      rcases lt_trichotomy z.im 0 with h | h | h
      · simp [h, h.ne, not_lt.mpr h.le]; omega
      · have : z.re ≠ 0 := by simpa [h] using this
        simp [h, this]; omega
      · simp [h, h.ne', not_lt.mpr h.le]; omega
  have h5 : R.card = 6 := card_spectrum K
  rw [h1, h2]
  omega

/-! ## Differential equation of the columns -/

/-- What the stored modes satisfy. -/
structure ModesOk (K : Mat6) (e : Eigs) : Prop where
  re : ∀ m ∈ e.re, K.mulVec m.ev = m.ew • m.ev
  cx : ∀ m ∈ e.cx, (toC K).mulVec m.ev = m.ew • m.ev

theorem toC_mulVec_ofReal (K : Mat6) (v : Vec6) (i : Fin 6) :
    (toC K).mulVec (fun j => ((v j : ℝ) : ℂ)) i = ((K.mulVec v i : ℝ) : ℂ) := by
  simp [toC, Matrix.mulVec, dotProduct]

theorem toC_mulVec_re (K : Mat6) (v : Fin 6 → ℂ) (i : Fin 6) :
    ((toC K).mulVec v i).re = K.mulVec (fun j => (v j).re) i := by
  simp [toC, Matrix.mulVec, dotProduct, Complex.re_sum]

theorem toC_mulVec_im (K : Mat6) (v : Fin 6 → ℂ) (i : Fin 6) :
    ((toC K).mulVec v i).im = K.mulVec (fun j => (v j).im) i := by
  simp [toC, Matrix.mulVec, dotProduct, Complex.im_sum]

theorem modesOk (eig : EigSolver) (s : Self)
    (he : EigOk (calcSystemMatrix s) (eig (calcSystemMatrix s))) :
    ModesOk (calcSystemMatrix s) (calcEigensystem eig s).eigs := by
  classical
  constructor
  · intro m hm
    simp only [calcEigensystem, List.mem_map, List.mem_filter, decide_eq_true_eq] at hm
    obtain ⟨q, ⟨hq, hi, -⟩, rfl⟩ := hm
    funext i
    have h := congrArg Complex.re (congrFun (he.pairs q hq).2 i)
    rw [toC_mulVec_re] at h
    simpa [hi] using h
  · intro m hm
    simp only [calcEigensystem, List.mem_map, List.mem_filter, decide_eq_true_eq] at hm
    obtain ⟨q, ⟨hq, -⟩, rfl⟩ := hm
    exact (he.pairs q hq).2

/-- The columns of the bedded complementary matrix as functions of position. -/
noncomputable def bedGens (e : Eigs) (l : ℝ) : List (ℝ → Vec6) :=
  (e.re.map fun m => fun x i => m.ev i * Real.exp (m.ew * (x + l * m.s))) ++
  (e.cx.map fun m => fun x i => Real.exp (m.ew.re * (x + l * m.s)) *
      ((m.ev i).re * Real.cos (m.ew.im * x) - (m.ev i).im * Real.sin (m.ew.im * x))) ++
  (e.cx.map fun m => fun x i => Real.exp (m.ew.re * (x + l * m.s)) *
      ((m.ev i).im * Real.cos (m.ew.im * x) + (m.ev i).re * Real.sin (m.ew.im * x)))

theorem zhBed_eq (e : Eigs) (x l : ℝ) : zhBed e x l = (bedGens e l).map fun f => f x := by
  simp [zhBed, bedGens, Function.comp_def]

theorem hasDerivAt_expShift (a c x : ℝ) :
    HasDerivAt (fun y => Real.exp (a * (y + c))) (a * Real.exp (a * (x + c))) x := by
  have h := (((hasDerivAt_id' x).add_const c).const_mul a).exp
  refine h.congr_deriv ?_
  ring

theorem hasDerivAt_cosMul (a x : ℝ) : HasDerivAt (fun y => Real.cos (a * y)) (-(a * Real.sin (a * x))) x := by
  refine ((hasDerivAt_id' x).const_mul a).cos.congr_deriv ?_
  ring

theorem hasDerivAt_sinMul (a x : ℝ) : HasDerivAt (fun y => Real.sin (a * y)) (a * Real.cos (a * x)) x := by
  refine ((hasDerivAt_id' x).const_mul a).sin.congr_deriv ?_
  ring

theorem gen_deriv (K : Mat6) (e : Eigs) (he : ModesOk K e) (l : ℝ) (f : ℝ → Vec6)
    (hf : f ∈ bedGens e l) (x : ℝ) : HasDerivAt f (K.mulVec (f x)) x := by
  simp only [bedGens, List.mem_append, List.mem_map] at hf
  have cplx : ∀ m ∈ e.cx, (∀ i, K.mulVec (fun j => (m.ev j).re) i
        = m.ew.re * (m.ev i).re - m.ew.im * (m.ev i).im) ∧
      (∀ i, K.mulVec (fun j => (m.ev j).im) i = m.ew.re * (m.ev i).im + m.ew.im * (m.ev i).re) := by
    intro m hm
    constructor
    · intro i
      have h := congrArg Complex.re (congrFun (he.cx m hm) i)
      rw [toC_mulVec_re] at h
      simpa using h
    · intro i
      have h := congrArg Complex.im (congrFun (he.cx m hm) i)
      rw [toC_mulVec_im] at h
      simpa using h
  rcases hf with (⟨m, hm, rfl⟩ | ⟨m, hm, rfl⟩) | ⟨m, hm, rfl⟩
  · rw [hasDerivAt_pi]
    intro i
    refine ((hasDerivAt_expShift m.ew (l * m.s) x).const_mul (m.ev i)).congr_deriv ?_
    have e1 : (fun i => m.ev i * Real.exp (m.ew * (x + l * m.s)))
        = Real.exp (m.ew * (x + l * m.s)) • m.ev := by funext j; simp [mul_comm]
    beta_reduce
    rw [e1, Matrix.mulVec_smul, he.re m hm]
    simp only [Pi.smul_apply, smul_eq_mul]; ring
  · obtain ⟨c1, c2⟩ := cplx m hm
    rw [hasDerivAt_pi]
    intro i
    refine ((hasDerivAt_expShift m.ew.re (l * m.s) x).mul
      (((hasDerivAt_cosMul m.ew.im x).const_mul (m.ev i).re).sub
        ((hasDerivAt_sinMul m.ew.im x).const_mul (m.ev i).im))).congr_deriv ?_
    have e1 : (fun i => Real.exp (m.ew.re * (x + l * m.s)) *
          ((m.ev i).re * Real.cos (m.ew.im * x) - (m.ev i).im * Real.sin (m.ew.im * x)))
        = (Real.exp (m.ew.re * (x + l * m.s)) * Real.cos (m.ew.im * x)) • (fun j => (m.ev j).re)
          - (Real.exp (m.ew.re * (x + l * m.s)) * Real.sin (m.ew.im * x)) • (fun j => (m.ev j).im) := by
      funext j; simp; ring
    beta_reduce
    rw [e1, Matrix.mulVec_sub, Matrix.mulVec_smul, Matrix.mulVec_smul]
    simp only [Pi.smul_apply, Pi.sub_apply, smul_eq_mul, c1, c2]; ring
  · obtain ⟨c1, c2⟩ := cplx m hm
    rw [hasDerivAt_pi]
    intro i
    refine ((hasDerivAt_expShift m.ew.re (l * m.s) x).mul
      (((hasDerivAt_cosMul m.ew.im x).const_mul (m.ev i).im).add
        ((hasDerivAt_sinMul m.ew.im x).const_mul (m.ev i).re))).congr_deriv ?_
    have e1 : (fun i => Real.exp (m.ew.re * (x + l * m.s)) *
          ((m.ev i).im * Real.cos (m.ew.im * x) + (m.ev i).re * Real.sin (m.ew.im * x)))
        = (Real.exp (m.ew.re * (x + l * m.s)) * Real.cos (m.ew.im * x)) • (fun j => (m.ev j).im)
          + (Real.exp (m.ew.re * (x + l * m.s)) * Real.sin (m.ew.im * x)) • (fun j => (m.ev j).re) := by
      funext j; simp; ring
    beta_reduce
    rw [e1, Matrix.mulVec_add, Matrix.mulVec_smul, Matrix.mulVec_smul]
    simp only [Pi.smul_apply, Pi.add_apply, smul_eq_mul, c1, c2]; ring

theorem zhBed_getD (e : Eigs) (x l : ℝ) (j : ℕ) :
    (zhBed e x l).getD j 0 = ((bedGens e l).getD j (fun _ => 0)) x := by
  rw [zhBed_eq]
  exact List.getD_map (bedGens e l) (fun _ => (0 : Vec6)) (fun f : ℝ → Vec6 => f x)

theorem col_deriv (K : Mat6) (e : Eigs) (he : ModesOk K e) (l : ℝ) (j : ℕ) (x : ℝ) :
    HasDerivAt (fun y => (zhBed e y l).getD j 0) (K.mulVec ((zhBed e x l).getD j 0)) x := by
  simp only [zhBed_getD]
  by_cases hj : j < (bedGens e l).length
  · exact gen_deriv K e he l _ (by rw [List.getD_eq_getElem _ _ hj]; exact List.getElem_mem hj) x
  · rw [List.getD_eq_default _ _ (by omega)]
    simpa using hasDerivAt_const x (0 : Vec6)

theorem zh_true_mulVec (s : Self) (x l : ℝ) (C : Vec6) :
    (zh s x l true).mulVec C = ∑ j : Fin 6, C j • (zhBed s.eigs x l).getD j 0 := by
  funext i
  simp [zh, Matrix.mulVec, dotProduct, Finset.sum_apply, mul_comm]

theorem zh_true_deriv (s : Self) (he : ModesOk (calcSystemMatrix s) s.eigs) (l : ℝ) (C : Vec6) (x : ℝ) :
    HasDerivAt (fun y => (zh s y l true).mulVec C)
      ((calcSystemMatrix s).mulVec ((zh s x l true).mulVec C)) x := by
  simp only [zh_true_mulVec]
  rw [Matrix.mulVec_sum]
  simp only [Matrix.mulVec_smul]
  exact HasDerivAt.fun_sum fun j _ => (col_deriv _ _ he l j x).const_smul (C j)

/-! ## Completeness -/

/-- Complex amplitude of a complex pair at `x`. -/
theorem cplx_pair (v : ℂ) (E th a b : ℝ) :
    ((a * (E * (v.re * Real.cos th - v.im * Real.sin th))
      + b * (E * (v.im * Real.cos th + v.re * Real.sin th)) : ℝ) : ℂ)
    = (((E : ℂ) * Complex.exp (th * Complex.I) * (a - b * Complex.I)) / 2) * v
      + (conj (((E : ℂ) * Complex.exp (th * Complex.I) * (a - b * Complex.I)) / 2)) * conj v := by
  set w := ((E : ℂ) * Complex.exp (th * Complex.I) * (a - b * Complex.I)) / 2 with hw
  rw [← map_mul, Complex.add_conj]
  congr 1
  have h1 : w.re = E * (Real.cos th * a + Real.sin th * b) / 2 := by
    rw [hw, Complex.exp_mul_I]
    simp [← Complex.ofReal_cos, ← Complex.ofReal_sin]; ring
  have h2 : w.im = E * (Real.sin th * a - Real.cos th * b) / 2 := by
    rw [hw, Complex.exp_mul_I]
    simp [← Complex.ofReal_cos, ← Complex.ofReal_sin]; ring
  rw [Complex.mul_re, h1, h2]
  ring

theorem gens_independent (e : Eigs) (hi : Indep e) (l x : ℝ) :
    LinearIndependent ℝ (Sum.elim
      (fun j : Fin e.re.length => fun i => e.re[j].ev i * Real.exp (e.re[j].ew * (x + l * e.re[j].s)))
      (Sum.elim
        (fun k : Fin e.cx.length => fun i => Real.exp (e.cx[k].ew.re * (x + l * e.cx[k].s)) *
          ((e.cx[k].ev i).re * Real.cos (e.cx[k].ew.im * x) - (e.cx[k].ev i).im * Real.sin (e.cx[k].ew.im * x)))
        (fun k : Fin e.cx.length => fun i => Real.exp (e.cx[k].ew.re * (x + l * e.cx[k].s)) *
          ((e.cx[k].ev i).im * Real.cos (e.cx[k].ew.im * x) + (e.cx[k].ev i).re * Real.sin (e.cx[k].ew.im * x)))) :
      Fin e.re.length ⊕ (Fin e.cx.length ⊕ Fin e.cx.length) → Vec6) := by
  rw [Fintype.linearIndependent_iff]
  intro g hg
  have hI := Fintype.linearIndependent_iff.mp hi
  let z : Fin e.cx.length → ℂ := fun k =>
    ((Real.exp (e.cx[k].ew.re * (x + l * e.cx[k].s)) : ℝ) : ℂ) * Complex.exp (((e.cx[k].ew.im * x : ℝ) : ℂ) * Complex.I)
      * ((g (.inr (.inl k)) : ℂ) - (g (.inr (.inr k)) : ℂ) * Complex.I) / 2
  have key := hI (Sum.elim (fun j => ((g (.inl j) * Real.exp (e.re[j].ew * (x + l * e.re[j].s)) : ℝ) : ℂ))
    (Sum.elim z (fun k => conj (z k)))) ?_
  · have zk : ∀ k, z k = 0 → g (.inr (.inl k)) = 0 ∧ g (.inr (.inr k)) = 0 := by
      intro k hk
      have hE : ((Real.exp (e.cx[k].ew.re * (x + l * e.cx[k].s)) : ℝ) : ℂ) ≠ 0 := by
        exact_mod_cast (Real.exp_pos _).ne'
      have h1 : ((g (.inr (.inl k)) : ℂ) - (g (.inr (.inr k)) : ℂ) * Complex.I) = 0 := by
        have := hk
        simp only [z, div_eq_zero_iff, mul_eq_zero, hE, Complex.exp_ne_zero, false_or] at this
        simpa using this
      have hr := congrArg Complex.re h1
      have hi := congrArg Complex.im h1
      simp at hr hi
      exact ⟨hr, hi⟩
    rintro (j | k | k)
    · have := key (.inl j)
      simp only [Sum.elim_inl] at this
      have h2 : g (.inl j) * Real.exp (e.re[j].ew * (x + l * e.re[j].s)) = 0 := by exact_mod_cast this
      rcases mul_eq_zero.mp h2 with h | h
      · exact h
      · exact absurd h (Real.exp_pos _).ne'
    · exact (zk k (by simpa using key (.inr (.inl k)))).1
    · exact (zk k (by simpa using key (.inr (.inl k)))).2
  · funext i
    have hgi := congrFun hg i
    simp only [Fintype.sum_sum_type, Sum.elim_inl, Sum.elim_inr, Finset.sum_apply,
      Pi.smul_apply, smul_eq_mul, Pi.zero_apply] at hgi ⊢
    have hc := congrArg (fun r : ℝ => (r : ℂ)) hgi
    rw [← Finset.sum_add_distrib] at hc ⊢
    simp only [Complex.ofReal_add, Complex.ofReal_sum, Complex.ofReal_zero] at hc
    rw [← hc]
    congr 1
    · apply Finset.sum_congr rfl
      intro j _
      push_cast; ring
    · apply Finset.sum_congr rfl
      intro k _
      rw [← Complex.ofReal_add]
      exact (cplx_pair (e.cx[k].ev i) (Real.exp (e.cx[k].ew.re * (x + l * e.cx[k].s))) (e.cx[k].ew.im * x)
        (g (.inr (.inl k))) (g (.inr (.inr k)))).symm

/-! ## C13 -/

/-- The stored eigensystem belongs to the current system matrix. -/
def EigFresh (eig : EigSolver) (s : Self) : Prop := calcEigensystem eig s = s

theorem Fresh.eigFresh {eig : EigSolver} {s : Self} (h : Fresh eig s) : EigFresh eig s := by
  have hf := fundamental_fields eig s
  rw [h] at hf
  obtain ⟨h1, h2, h3, h4, h5, h6, h7⟩ := hf
  have h0 := h
  unfold Fresh at h0
  unfold EigFresh
  have e : calcLaminateStiffnessMatrix (calcFoundationStiffness s) = s := by
    have key : calcLaminateStiffnessMatrix (calcFoundationStiffness s) = { s with
        kn := (calcFoundationStiffness s).kn, kt := (calcFoundationStiffness s).kt
        A11 := (calcLaminateStiffnessMatrix s).A11, B11 := (calcLaminateStiffnessMatrix s).B11
        D11 := (calcLaminateStiffnessMatrix s).D11, kA55 := (calcLaminateStiffnessMatrix s).kA55
        K0 := (calcLaminateStiffnessMatrix s).K0 } := rfl
    rw [key, ← h1, ← h2, ← h3, ← h4, ← h5, ← h6, ← h7]
  rw [calcFundamentalSystem, e] at h0
  exact h0

/-- What the solution procedure needs from the eigensystem. -/
structure BedOk (s : Self) : Prop where
  stiff : Stiff s
  modes : ModesOk (calcSystemMatrix s) s.eigs
  six : s.eigs.re.length + 2 * s.eigs.cx.length = 6
  indep : Indep s.eigs

theorem zhBed_length (e : Eigs) (x l : ℝ) : (zhBed e x l).length = e.re.length + 2 * e.cx.length := by
  simp [zhBed]; omega

/-- With an eigensolver that meets its contract, no solution is lost: the
bedded complementary matrix has six columns and each column solves the
foundation equation, for every shift length. -/
theorem C13_columns (eig : EigSolver) (s : Self) (hs : Stiff s) (hf : EigFresh eig s)
    (he : EigOk (calcSystemMatrix s) (eig (calcSystemMatrix s))) (l : ℝ) :
    (∀ x, (zhBed s.eigs x l).length = 6) ∧
    ∀ j : Fin 6, ∀ x, HasDerivAt (fun y => (fun i => zh s y l true i j))
        ((calcSystemMatrix s).mulVec (fun i => zh s x l true i j)) x ∧
      EquilBedded s.beam Loads.zero (fun i => zh s x l true i j)
        ((calcSystemMatrix s).mulVec (fun i => zh s x l true i j)) := by
  have hm := modesOk eig s he
  have hk := kept_modes eig s (K_det_ne_zero s hs.regular) he
  rw [hf] at hm hk
  refine ⟨fun x => by rw [zhBed_length]; exact hk, fun j x => ⟨?_, ?_⟩⟩
  · have := col_deriv _ _ hm l j x
    simpa [zh] using this
  · exact (K_iff_equilibrium s hs.regular _ _).mp rfl

theorem bedOk (eig : EigSolver) (s : Self) (hs : Stiff s) (hf : EigFresh eig s)
    (he : EigOk (calcSystemMatrix s) (eig (calcSystemMatrix s))) (hi : Indep s.eigs) : BedOk s := by
  have hm := modesOk eig s he
  have hk := kept_modes eig s (K_det_ne_zero s hs.regular) he
  rw [hf] at hm hk
  exact ⟨hs, hm, hk, hi⟩

theorem zh_true_isUnit (s : Self) (hb : BedOk s) (l x : ℝ) : IsUnit (zh s x l true) := by
  rw [← Matrix.linearIndependent_cols_iff_isUnit]
  have h6 := hb.six
  have hcard : s.eigs.re.length + (s.eigs.cx.length + s.eigs.cx.length) = 6 := by omega
  let eqv : Fin s.eigs.re.length ⊕ (Fin s.eigs.cx.length ⊕ Fin s.eigs.cx.length) ≃ Fin 6 :=
    ((Equiv.sumCongr (Equiv.refl _) finSumFinEquiv).trans finSumFinEquiv).trans (finCongr hcard)
  rw [← linearIndependent_equiv eqv]
  suffices h : (zh s x l true).col ∘ eqv = _ by
    rw [h]; exact gens_independent s.eigs hb.indep l x
  funext i
  rcases i with j | k | k
  · funext i
    have hj : ((eqv (.inl j)) : ℕ) = j := by simp [eqv]
    simp only [Function.comp_apply, Matrix.col_apply, zh, if_true, Matrix.of_apply, hj, Sum.elim_inl]
    unfold zhBed
    rw [List.getD_eq_getElem _ _ (by simp; omega)]
    rw [List.getElem_append_left (by simp; omega), List.getElem_append_left (by simp)]
    simp
  · funext i
    have hj : ((eqv (.inr (.inl k))) : ℕ) = s.eigs.re.length + k := by simp [eqv]
    simp only [Function.comp_apply, Matrix.col_apply, zh, if_true, Matrix.of_apply, hj, Sum.elim_inl,
      Sum.elim_inr]
    unfold zhBed
    rw [List.getD_eq_getElem _ _ (by simp; omega)]
    rw [List.getElem_append_left (by simp), List.getElem_append_right (by simp)]
    simp
  · funext i
    have hj : ((eqv (.inr (.inr k))) : ℕ) = s.eigs.re.length + s.eigs.cx.length + k := by
      simp [eqv, add_assoc, add_comm]
    simp only [Function.comp_apply, Matrix.col_apply, zh, if_true, Matrix.of_apply, hj, Sum.elim_inr]
    unfold zhBed
    rw [List.getD_eq_getElem _ _ (by simp; omega)]
    rw [List.getElem_append_right (by simp)]
    simp

/-- With independent eigenvectors every state at every position is attained by
exactly one choice of constants. -/
theorem C13_complete (eig : EigSolver) (s : Self) (hs : Stiff s) (hf : EigFresh eig s)
    (he : EigOk (calcSystemMatrix s) (eig (calcSystemMatrix s))) (hi : Indep s.eigs) (l x : ℝ) (Z : Vec6) :
    ∃! C : Vec6, (zh s x l true).mulVec C = Z := by
  have hu := zh_true_isUnit s (bedOk eig s hs hf he hi) l x
  obtain ⟨C, hC⟩ := (Matrix.mulVec_surjective_iff_isUnit).mpr hu Z
  exact ⟨C, hC, fun C' hC' => (Matrix.mulVec_injective_iff_isUnit).mpr hu (hC'.trans hC.symm)⟩

/-- Pairwise different eigenvalues are enough for independence. -/
theorem C13_distinct_eigenvalues (eig : EigSolver) (s : Self) (hf : EigFresh eig s)
    (he : EigOk (calcSystemMatrix s) (eig (calcSystemMatrix s)))
    (hd : ((eig (calcSystemMatrix s)).map Prod.fst).Nodup) : Indep s.eigs := by
  classical
  set K := calcSystemMatrix s
  set out := eig K with hout
  have hre : s.eigs.re = (out.filter fun q => decide (q.1.im = 0 ∧ q.1.re ≠ 0)).map
      fun q => ⟨q.1.re, fun i => (q.2 i).re, if 0 < q.1.re then -1 else 0⟩ := by
    rw [← hf]; simp only [calcEigensystem]; congr!
  have hcx : s.eigs.cx = (out.filter fun q => decide (0 < q.1.im)).map
      fun q => ⟨q.1, q.2, if 0 < q.1.re ∨ (q.1.re = 0 ∧ 0 < q.1.im) then -1 else 0⟩ := by
    rw [← hf]; simp only [calcEigensystem]; congr!
  have hinj : ∀ p : ℂ × (Fin 6 → ℂ) → Bool, ((out.filter p).map Prod.fst).Nodup := fun p =>
    hd.sublist (List.filter_sublist.map _)
  -- nodup of the kept eigenvalues
  have nre : (s.eigs.re.map fun m => ((m.ew : ℝ) : ℂ)).Nodup := by
    rw [hre, List.map_map]
    have : (out.filter fun q => decide (q.1.im = 0 ∧ q.1.re ≠ 0)).map
        ((fun m : RealMode => ((m.ew : ℝ) : ℂ)) ∘ fun q => ⟨q.1.re, fun i => (q.2 i).re, if 0 < q.1.re then -1 else 0⟩)
        = (out.filter fun q => decide (q.1.im = 0 ∧ q.1.re ≠ 0)).map Prod.fst := by
      apply List.map_congr_left
      intro q hq
      simp only [List.mem_filter, decide_eq_true_eq] at hq
      apply Complex.ext <;> simp [hq.2.1]
    rw [this]
    exact hinj _
  have ncx : (s.eigs.cx.map fun m => m.ew).Nodup := by
    rw [hcx, List.map_map]
    exact hinj _
  have pcx : ∀ m ∈ s.eigs.cx, 0 < m.ew.im := by
    intro m hm
    rw [hcx] at hm
    simp only [List.mem_map, List.mem_filter, decide_eq_true_eq] at hm
    obtain ⟨q, hq, rfl⟩ := hm
    exact hq.2
  have hm := modesOk eig s he
  rw [hf] at hm
  have vre : ∀ m ∈ s.eigs.re, m.ev ≠ 0 := by
    intro m hm h0
    rw [hre] at hm
    simp only [List.mem_map, List.mem_filter, decide_eq_true_eq] at hm
    obtain ⟨q, hq, rfl⟩ := hm
    refine (he.pairs q hq.1).1 (funext fun i => Complex.ext ?_ ?_)
    · exact congrFun h0 i
    · exact he.real q hq.1 hq.2.1 i
  have vcx : ∀ m ∈ s.eigs.cx, m.ev ≠ 0 := by
    intro m hm
    rw [hcx] at hm
    simp only [List.mem_map, List.mem_filter, decide_eq_true_eq] at hm
    obtain ⟨q, hq, rfl⟩ := hm
    exact (he.pairs q hq.1).1
  refine Module.End.eigenvectors_linearIndependent' (Matrix.toLin' (toC K))
    (Sum.elim (fun j : Fin s.eigs.re.length => ((s.eigs.re[j].ew : ℝ) : ℂ))
      (Sum.elim (fun k : Fin s.eigs.cx.length => s.eigs.cx[k].ew)
        (fun k : Fin s.eigs.cx.length => conj s.eigs.cx[k].ew))) ?_ _ ?_
  · have c1 : ∀ j j' : Fin s.eigs.re.length, ((s.eigs.re[j].ew : ℝ) : ℂ) = ((s.eigs.re[j'].ew : ℝ) : ℂ) → j = j' := by
      intro j j' h
      have := List.Nodup.getElem_inj_iff nre (i := j) (j := j') (hi := by simp) (hj := by simp)
      exact Fin.ext (this.mp (by simpa using h))
    have c2 : ∀ k k' : Fin s.eigs.cx.length, s.eigs.cx[k].ew = s.eigs.cx[k'].ew → k = k' := by
      intro j j' h
      have := List.Nodup.getElem_inj_iff ncx (i := j) (j := j') (hi := by simp) (hj := by simp)
      exact Fin.ext (this.mp (by simpa using h))
    have c3 : ∀ k : Fin s.eigs.cx.length, 0 < (s.eigs.cx[k].ew).im := fun k =>
      pcx _ (List.getElem_mem _)
    rintro (j | k | k) (j' | k' | k') h <;> simp only [Sum.elim_inl, Sum.elim_inr] at h
    · rw [c1 j j' h]
    · have := congrArg Complex.im h
      have := c3 k'
      simp at *; linarith
    · have := congrArg Complex.im h
      have := c3 k'
      simp at *; linarith
    · have := congrArg Complex.im h
      have := c3 k
      simp at *; linarith
    · rw [c2 k k' h]
    · have := congrArg Complex.im h
      have := c3 k
      have := c3 k'
      simp at *; linarith
    · have := congrArg Complex.im h
      have := c3 k
      simp at *; linarith
    · have := congrArg Complex.im h
      have := c3 k
      have := c3 k'
      simp at *; linarith
    · rw [c2 k k' ((starRingEnd ℂ).injective h)]
  · rintro (j | k | k)
    · rw [Module.End.hasEigenvector_iff, Module.End.mem_eigenspace_iff]
      refine ⟨?_, ?_⟩
      · funext i
        have h := congrFun (hm.re _ (List.getElem_mem j.2)) i
        simp only [Sum.elim_inl, Matrix.toLin'_apply, toC_mulVec_ofReal, Fin.getElem_fin, K] at h ⊢
        rw [h]
        simp
      · intro h0
        apply vre _ (List.getElem_mem j.2)
        funext i
        have := congrFun h0 i
        simpa using this
    · rw [Module.End.hasEigenvector_iff, Module.End.mem_eigenspace_iff]
      exact ⟨hm.cx _ (List.getElem_mem _), vcx _ (List.getElem_mem k.2)⟩
    · rw [Module.End.hasEigenvector_iff, Module.End.mem_eigenspace_iff]
      refine ⟨?_, ?_⟩
      · funext i
        have h := congrArg conj (congrFun (hm.cx _ (List.getElem_mem k.2)) i)
        simp only [Matrix.mulVec, dotProduct, map_sum, map_mul, toC, Matrix.map_apply, Pi.smul_apply,
          smul_eq_mul, Complex.coe_algebraMap, Complex.conj_ofReal] at h
        simpa [Matrix.toLin'_apply, Matrix.mulVec, dotProduct, toC] using h
      · intro h0
        apply vcx _ (List.getElem_mem k.2)
        funext i
        have := congrFun h0 i
        simpa using this

/-! ## C14 -/

/-- Every bedded solution curve has the derivatives that `dz_dx`, `dz_dxdx` and
the scalar derivative methods report, and obeys equilibrium. -/
theorem C14_bedded_curve (eig : EigSolver) (s : Self) (hs : Stiff s) (hf : EigFresh eig s)
    (he : EigOk (calcSystemMatrix s) (eig (calcSystemMatrix s))) (C : Vec6) (l phi : ℝ) :
    let z := fun x => zsol s x C l phi true
    SolvesODE s.beam (s.loads phi) true z ∧
    (∀ x, HasDerivAt z (dzdx s (z x) phi) x) ∧
    (∀ x, HasDerivAt (fun y => dzdx s (z y) phi) (dzdxdx s (z x) phi) x) ∧
    (∀ x, HasDerivAt (fun y => fu (z y) 0) (fdu (z x) 0) x ∧
          HasDerivAt (fun y => fdu (z y) 0) (du0dxdx s (z x) phi) x ∧
          HasDerivAt (fun y => du0dxdx s (z y) phi) (du0dxdxdx s (z x) phi) x) ∧
    (∀ x, HasDerivAt (fun y => fpsi (z y)) (fdpsi (z x)) x ∧
          HasDerivAt (fun y => fdpsi (z y)) (dpsidxdx s (z x) phi) x ∧
          HasDerivAt (fun y => dpsidxdx s (z y) phi) (dpsidxdxdx s (z x) phi) x) ∧
    (∀ x, HasDerivAt (fun y => fw (z y)) (fdw (z x)) x) := by
  intro z
  have hm := modesOk eig s he
  rw [hf] at hm
  have hz : ∀ x, HasDerivAt z (dzdx s (z x) phi) x := by
    intro x
    have hc : HasDerivAt (fun _ : ℝ => zp s 0 phi true) 0 x := hasDerivAt_const x _
    have e : z = fun y => (zh s y l true).mulVec C + zp s 0 phi true := by
      funext y
      simp only [z, zsol]
      rw [(C10_bedded_particular s hs.regular y 0 phi).1]
    rw [e]
    refine ((zh_true_deriv s hm l C x).add hc).congr_deriv ?_
    have h0 := (C10_bedded_particular s hs.regular 0 0 phi).2.1
    simp only [dzdx] at h0 ⊢
    rw [Matrix.mulVec_add, add_assoc, h0]
  have hz2 : ∀ x, HasDerivAt (fun y => dzdx s (z y) phi) (dzdxdx s (z x) phi) x := by
    intro x
    have h1 : HasDerivAt (fun y => (calcSystemMatrix s).mulVec (z y))
        ((calcSystemMatrix s).mulVec (dzdx s (z x) phi)) x :=
      ((Matrix.mulVecLin (calcSystemMatrix s)).toContinuousLinearMap.hasFDerivAt.comp_hasDerivAt x (hz x))
    have h2 := h1.add_const (getLoadVector s phi)
    simpa [dzdx, dzdxdx] using h2
  have comp : ∀ x i, HasDerivAt (fun y => z y i) (dzdx s (z x) phi i) x := fun x i =>
    hasDerivAt_pi.mp (hz x) i
  have comp2 : ∀ x i, HasDerivAt (fun y => dzdx s (z y) phi i) (dzdxdx s (z x) phi i) x := fun x i =>
    hasDerivAt_pi.mp (hz2 x) i
  refine ⟨fun x => ⟨_, hz x, ?_⟩, hz, hz2, fun x => ⟨?_, ?_, comp2 x 1⟩, fun x => ⟨?_, ?_, comp2 x 5⟩, fun x => ?_⟩
  · simp only [Equil, if_true]
    exact (C09_dzdx_iff_equilibrium s hs.regular _ _ phi).mp rfl
  · have := comp x 0
    rw [dzdx_0] at this
    simpa [fu, fdu] using this
  · simpa [fdu, du0dxdx] using comp x 1
  · have := comp x 4
    rw [dzdx_4] at this
    exact this
  · exact comp x 5
  · have := comp x 2
    rw [dzdx_2] at this
    exact this

end Weac
