import Verif.Props.MirrorOutput
import Mathlib.Algebra.BigOperators.Fin
import Mathlib.Analysis.Convex.Jensen
import Mathlib.Analysis.Convex.Mul

/-!
# C73: loads superpose

The solution for a weighted sum of load cases (surface load, depth of the
collapsed layer, weights of the skiers) is the weighted sum of the solutions,
in every system and at every stage of touchdown, as long as the weights sum
to one. Contributions of several skiers add.
-/

namespace Weac

open Spec Finset

/-- The same object with another surface load and another depth of the
collapsed layer. -/
def Spec.loaded (s : Self) (p tc : ℝ) : Self := { s with p := p, tc := tc }

section

variable {s : Self} {p tc : ℝ}

theorem Stiff.loaded (h : Stiff s) : Stiff (loaded s p tc) :=
  ⟨h.h, h.t, h.kn, h.kt, h.A11, h.D11, h.kA55, h.K0_eq, h.K0⟩

theorem BedOk.loaded (h : BedOk s) : BedOk (loaded s p tc) := ⟨h.stiff.loaded, h.modes, h.six, h.indep⟩

theorem ShearOk.loaded (h : ShearOk s) : ShearOk (loaded s p tc) := h

theorem EigFresh.loaded {eig : EigSolver} (h : EigFresh eig s) : EigFresh eig (loaded s p tc) :=
  congrArg (fun s : Self => Spec.loaded s p tc) h

theorem NoFaceTouchdown.loaded (h : NoFaceTouchdown s) : NoFaceTouchdown (loaded s p tc) := h

theorem RestOk.loaded {num : Numerics} (h : RestOk num s) : RestOk num (loaded s p tc) :=
  ⟨h.td, (h.bed.loaded : BedOk (Spec.loaded (prep num.eig true .rot s) p tc)), h.shear⟩

/-- The spring of the rested slab does not depend on the loads. -/
theorem spring_loaded (num : Numerics) (hf : EigFresh num.eig s) (h : RestOk num s) :
    valOf (spring num) (loaded s p tc) = valOf (spring num) s := by
  have key := C26_rotational_spring_load_independent num.eig (s.a - s.td) (sub_pos.mpr h.td) true s (loaded s p tc) hf
    hf.loaded h.bed h.loaded.bed h.shear h.loaded.shear ⟨s.zs, rfl⟩
  obtain ⟨k, hk⟩ := spring_ok num s hf h
  obtain ⟨k', hk'⟩ := spring_ok num (loaded s p tc) hf.loaded h.loaded
  rw [valOf_ok hk, valOf_ok hk']
  have e1 : substituteStiffness num.eig (s.a - s.td) true .rot s = (.ok k, s) := by
    have := hk; unfold spring at this; rwa [Py.get_bind] at this
  have e2 : substituteStiffness num.eig (s.a - s.td) true .rot (loaded s p tc) = (.ok k', loaded s p tc) := by
    have := hk'; unfold spring at this; rwa [Py.get_bind] at this
  rw [e1, e2] at key
  exact Except.ok.inj key

end

section

variable {ι : Type} [Fintype ι]

/-- Weighted sum of vectors. -/
def Spec.comb (c : ι → ℝ) (z : ι → Vec6) : Vec6 := fun q => ∑ j, c j * z j q

theorem comb_apply (c : ι → ℝ) (z : ι → Vec6) (q : Fin 6) : comb c z q = ∑ j, c j * z j q := rfl

theorem comb_const {c : ι → ℝ} (hc : ∑ j, c j = 1) (a : ℝ) : ∑ j, c j * a = a := by rw [← sum_mul, hc, one_mul]

theorem comb_affine {c : ι → ℝ} (hc : ∑ j, c j = 1) (α β : ℝ) (p : ι → ℝ) :
    α + (∑ j, c j * p j) * β = ∑ j, c j * (α + p j * β) := by
  simp only [mul_add, sum_add_distrib, comb_const hc, sum_mul, mul_assoc]

theorem Beam.N_comb (b : Beam) (c : ι → ℝ) (z : ι → Vec6) : b.N (comb c z) = ∑ j, c j * b.N (z j) := by
  simp only [Beam.N, comb_apply, mul_sum, ← sum_add_distrib]
  exact sum_congr rfl fun j _ => by ring

theorem Beam.M_comb (b : Beam) (c : ι → ℝ) (z : ι → Vec6) : b.M (comb c z) = ∑ j, c j * b.M (z j) := by
  simp only [Beam.M, comb_apply, mul_sum, ← sum_add_distrib]
  exact sum_congr rfl fun j _ => by ring

theorem Beam.V_comb (b : Beam) (c : ι → ℝ) (z : ι → Vec6) : b.V (comb c z) = ∑ j, c j * b.V (z j) := by
  simp only [Beam.V, comb_apply, ← sum_add_distrib, mul_sum]
  exact sum_congr rfl fun j _ => by ring

theorem Beam.tau_comb (b : Beam) (c : ι → ℝ) (z : ι → Vec6) : b.tau (comb c z) = ∑ j, c j * b.tau (z j) := by
  simp only [Beam.tau, comb_apply, mul_sum, ← sum_add_distrib, ← sum_sub_distrib]
  exact sum_congr rfl fun j _ => by ring

variable {c : ι → ℝ} (hc : ∑ j, c j = 1)

include hc

theorem zp_comb (s : Self) (p tc : ι → ℝ) (tc0 x phi : ℝ) (bed : Bool) :
    zp (loaded s (∑ j, c j * p j) tc0) x phi bed = comb c (fun j => zp (loaded s (p j) (tc j)) x phi bed) := by
  have e : ∀ p tc q, zp (loaded s p tc) x phi bed q
      = zp (loaded s 0 0) x phi bed q + p * (zp (loaded s 1 0) x phi bed q - zp (loaded s 0 0) x phi bed q) := by
    intro p tc q
    cases bed <;> fin_cases q <;>
      simp [zp, loaded, getWeightLoad, getSurfaceLoad] <;> ring
  ext q
  rw [comb_apply, e, comb_affine hc]
  exact sum_congr rfl fun j _ => by rw [← e]

theorem zsol_comb (s : Self) (p tc : ι → ℝ) (tc0 x l phi : ℝ) (bed : Bool) (C : ι → Vec6) :
    zsol (loaded s (∑ j, c j * p j) tc0) x (comb c C) l phi bed
      = comb c (fun j => zsol (loaded s (p j) (tc j)) x (C j) l phi bed) := by
  have e : ∀ p tc, zh (loaded s p tc) x l bed = zh s x l bed := fun _ _ => by cases bed <;> rfl
  ext q
  simp only [zsol, e, Pi.add_apply, zp_comb hc s p tc, comb_apply, mul_add, sum_add_distrib]
  congr 1
  simp only [Matrix.mulVec, dotProduct, comb_apply, mul_sum]
  rw [sum_comm]
  exact sum_congr rfl fun j _ => sum_congr rfl fun k _ => by ring

theorem tangential_comb (s : Self) (p tc : ι → ℝ) (tc0 : ℝ) :
    (loaded s (∑ j, c j * p j) tc0).tangential = ∑ j, c j * (loaded s (p j) (tc j)).tangential := by
  have e : ∀ p tc, (loaded s p tc).tangential = (s.loads s.phi).qt + p * (-Real.sin (deg2rad s.phi)) := by
    intro p tc
    show (s.loads s.phi).qt + (getSurfaceLoad (loaded s p tc) s.phi).2 = _
    simp only [getSurfaceLoad, loaded]
    ring
  simp only [e]
  exact comb_affine hc _ _ _

theorem holds_forces {b : Beam} {N M V : ℝ} {z : ι → Vec6} (h : ∀ j, (EndCond.forces N M V).Holds b (z j)) :
    (EndCond.forces N M V).Holds b (comb c z) := by
  refine ⟨?_, ?_, ?_⟩
  · rw [Beam.N_comb, ← comb_const hc N]; exact sum_congr rfl fun j _ => by rw [(h j).1]
  · rw [Beam.M_comb, ← comb_const hc M]; exact sum_congr rfl fun j _ => by rw [(h j).2.1]
  · rw [Beam.V_comb, ← comb_const hc V]; exact sum_congr rfl fun j _ => by rw [(h j).2.2]

omit hc in
theorem holds_contact {b : Beam} {kR : ℝ} {N w : ι → ℝ} {z : ι → Vec6} (h : ∀ j, (EndCond.contact (N j) kR (w j)).Holds b (z j)) :
    (EndCond.contact (∑ j, c j * N j) kR (∑ j, c j * w j)).Holds b (comb c z) := by
  refine ⟨?_, ?_, ?_⟩
  · rw [Beam.N_comb]; exact sum_congr rfl fun j _ => by rw [(h j).1]
  · rw [Beam.M_comb, comb_apply, mul_sum, ← sum_add_distrib]
    refine sum_eq_zero fun j _ => ?_
    linear_combination c j * (h j).2.1
  · exact sum_congr rfl fun j _ => by rw [(h j).2.2]

theorem holds_comb (s : Self) (p tc : ι → ℝ) (phi kR : ℝ) (e : Side) (k : Bool) (z : ι → Vec6)
    (h : ∀ j, (endCond (loaded s (p j) (tc j)) phi kR e k).Holds s.beam (z j)) :
    (endCond (loaded s (∑ j, c j * p j) (∑ j, c j * tc j)) phi kR e k).Holds s.beam (comb c z) := by
  have i1 : ∀ p tc, IsPst (loaded s p tc) ↔ IsPst s := fun _ _ => Iff.rfl
  have i2 : ∀ p tc, IsVpst (loaded s p tc) ↔ IsVpst s := fun _ _ => Iff.rfl
  have i3 : ∀ p tc, IsSkier (loaded s p tc) ↔ IsSkier s := fun _ _ => Iff.rfl
  unfold endCond at h ⊢
  simp only [i1, i2, i3] at h ⊢
  by_cases c1 : IsPst s
  · simp only [if_pos c1] at h ⊢
    cases k with
    | true => exact holds_forces hc h
    | false =>
      have m1 : ∀ p tc, (loaded s p tc).mode = s.mode := fun _ _ => rfl
      simp only [m1, Bool.false_eq_true, if_false] at h ⊢
      rcases hm : s.mode with _ | _ | _ | _ <;> simp only [hm] at h ⊢
      · exact holds_forces hc h
      · exact holds_forces hc h
      · have := holds_contact (c := c) (N := fun _ => 0) (w := tc) h
        simp only [mul_zero, sum_const_zero] at this
        exact this
      · have := holds_contact (c := c) (N := fun j => e.sgn * ((loaded s (p j) (tc j)).tangential * (s.a - s.td))) (w := tc) h
        rw [tangential_comb hc s p tc]
        show (EndCond.contact (e.sgn * ((∑ j, c j * (loaded s (p j) (tc j)).tangential) * (s.a - s.td))) (e.sgn * kR)
          (∑ j, c j * tc j)).Holds s.beam (comb c z)
        rw [show e.sgn * ((∑ j, c j * (loaded s (p j) (tc j)).tangential) * (s.a - s.td))
          = ∑ j, c j * (e.sgn * ((loaded s (p j) (tc j)).tangential * (s.a - s.td))) by
            rw [sum_mul, mul_sum]
            exact sum_congr rfl fun j _ => by ring]
        exact this
  · simp only [if_neg c1] at h ⊢
    by_cases c2 : IsVpst s
    · simp only [if_pos c2] at h ⊢
      exact holds_forces hc h
    · simp only [if_neg c2] at h ⊢
      by_cases c3 : IsSkier s
      · simp only [if_pos c3] at h ⊢
        rw [zp_comb hc s p tc]
        refine ⟨?_, ?_, ?_⟩ <;> refine sum_congr rfl fun j _ => ?_
        · rw [(h j).1]
        · rw [(h j).2.1]
        · rw [(h j).2.2]
      · simp only [if_neg c3] at h ⊢
        by_cases c4 : s.system = "rot"
        · have m1 : ∀ p tc, (loaded s p tc).system = "rot" := fun _ _ => c4
          simp only [m1, if_true] at h ⊢
          cases e <;> exact holds_forces hc h
        · have m1 : ∀ p tc, ((loaded s p tc).system = "rot") = False := fun _ _ => eq_false c4
          simp only [m1, if_false] at h ⊢
          cases e <;> exact holds_forces hc h

omit hc in
theorem jump_comb (s : Self) (p tc : ι → ℝ) (p0 tc0 phi : ℝ) (mi : ι → List ℝ) (mi0 : List ℝ) (i : ℕ)
    (h : nth mi0 i = ∑ j, c j * nth (mi j) i) :
    jump (loaded s p0 tc0) phi mi0 i = (∑ j, c j * (jump (loaded s (p j) (tc j)) phi (mi j) i).1,
      ∑ j, c j * (jump (loaded s (p j) (tc j)) phi (mi j) i).2.1, ∑ j, c j * (jump (loaded s (p j) (tc j)) phi (mi j) i).2.2) := by
  have i1 : ∀ p tc, IsAux (loaded s p tc) ↔ IsAux s := fun _ _ => Iff.rfl
  unfold jump
  simp only [i1]
  by_cases c1 : IsAux s
  · simp [c1]
  · simp only [c1, if_false, getSkierLoad, h, loaded, Prod.mk.injEq]
    refine ⟨?_, ?_, ?_⟩ <;> simp only [mul_sum, sum_mul, sum_div, ← sum_neg_distrib] <;>
      exact sum_congr rfl fun j _ => by ring

theorem meets_comb (s : Self) (p tc : ι → ℝ) (phi kR : ℝ) (li mi0 : List ℝ) (mi : ι → List ℝ) (ki : List Bool)
    (hm : ∀ i, nth mi0 i = ∑ j, c j * nth (mi j) i) (C : ι → ℕ → Vec6)
    (h : ∀ j, Meets (loaded s (p j) (tc j)) phi kR ⟨li, mi j, ki⟩ (C j)) :
    Meets (loaded s (∑ j, c j * p j) (∑ j, c j * tc j)) phi kR ⟨li, mi0, ki⟩ (fun i => comb c (fun j => C j i)) := by
  have e : ∀ i x, stateAt (loaded s (∑ j, c j * p j) (∑ j, c j * tc j)) phi li ki (fun i => comb c (fun j => C j i)) i x
      = comb c (fun j => stateAt (loaded s (p j) (tc j)) phi li ki (C j) i x) := fun i x => zsol_comb hc _ _ _ _ _ _ _ _ _
  refine ⟨?_, ?_, fun i hi => ?_⟩
  · simp only [e]
    exact holds_comb hc s p tc phi kR _ _ _ fun j => (h j).left
  · simp only [e]
    exact holds_comb hc s p tc phi kR _ _ _ fun j => (h j).right
  · simp only [e]
    rw [jump_comb s p tc _ _ phi mi mi0 i (hm i)]
    have t := fun j => (h j).trans i hi
    refine ⟨?_, ?_, ?_, ?_, ?_, ?_⟩
    · exact sum_congr rfl fun j _ => congrArg (c j * ·) (t j).u
    · exact sum_congr rfl fun j _ => congrArg (c j * ·) (t j).w
    · exact sum_congr rfl fun j _ => congrArg (c j * ·) (t j).psi
    · rw [Beam.N_comb, Beam.N_comb, ← sum_sub_distrib]
      exact sum_congr rfl fun j _ => by rw [← (t j).N]; exact (mul_sub _ _ _).symm
    · rw [Beam.M_comb, Beam.M_comb, ← sum_sub_distrib]
      exact sum_congr rfl fun j _ => by rw [← (t j).M]; exact (mul_sub _ _ _).symm
    · rw [Beam.V_comb, Beam.V_comb, ← sum_sub_distrib]
      exact sum_congr rfl fun j _ => by rw [← (t j).V]; exact (mul_sub _ _ _).symm

omit hc in
/-- Meeting the conditions does not depend on the spring when there is none. -/
theorem meets_spring {s : Self} {phi kR kR' : ℝ} {a : SegLists} {C : ℕ → Vec6}
    (h : IsPst s → OpenEnd a → s.mode = .C → kR = kR') (hm : Meets s phi kR a C) : Meets s phi kR' a C := by
  refine ⟨?_, ?_, hm.trans⟩
  · rw [← endCond_spring s phi kR kR' .left _ fun h1 h2 h3 => h h1 (.inl h2) h3]; exact hm.left
  · rw [← endCond_spring s phi kR kR' .right _ fun h1 h2 h3 => h h1 (.inr h2) h3]; exact hm.right

end

/-- An object with up-to-date eigensystem and no touchdown of a vertical face;
with touchdown stage C, the spring of the rested slab can be computed. -/
structure Spec.Sound (num : Numerics) (s : Self) (li : List ℝ) (ki : List Bool) : Prop where
  fresh : EigFresh num.eig s
  face : NoFaceTouchdown s
  rest : IsPst s → OpenEnd ⟨li, [], ki⟩ → s.mode = .C → RestOk num s

/-- Load cases with the same geometry (surface load `p j`, depth `tc j`, point
weights `mi j`), each solved with constants `C j`, and their combination with
coefficients `c`, solved with constants `C0`. -/
structure Spec.Combined {ι : Type} [Fintype ι] (num : Numerics) (s : Self) (phi : ℝ) (li : List ℝ) (ki : List Bool)
    (c p tc : ι → ℝ) (mi : ι → List ℝ) (mi0 : List ℝ) (C : ι → List Vec6) (C0 : List Vec6) : Prop where
  one : ∑ j, c j = 1
  weights : ∀ i, nth mi0 i = ∑ j, c j * nth (mi j) i
  each : ∀ j, ∃ kind s', assembleAndSolve num kind phi ⟨li, mi j, ki⟩ (loaded s (p j) (tc j)) = (.ok (C j, ⟨li, mi j, ki⟩), s')
  all : ∃ kind s', assembleAndSolve num kind phi ⟨li, mi0, ki⟩ (loaded s (∑ j, c j * p j) (∑ j, c j * tc j))
      = (.ok (C0, ⟨li, mi0, ki⟩), s')

section

variable {ι : Type} [Fintype ι] {num : Numerics} {s : Self} {phi : ℝ} {li : List ℝ} {ki : List Bool}
  {c p tc : ι → ℝ} {mi : ι → List ℝ} {mi0 : List ℝ} {C : ι → List Vec6} {C0 : List Vec6}

/-- C73. For coefficients that sum to one, the constants and the state at every
position for the combined loads are the combination of those of the load cases,
in every system and stage. -/
theorem C73_superposition (hs : Sound num s li ki) (h : Combined num s phi li ki c p tc mi mi0 C C0) :
    ∀ i < li.length, C0.getD i 0 = comb c (fun j => (C j).getD i 0) ∧
      ∀ x, zsol (loaded s (∑ j, c j * p j) (∑ j, c j * tc j)) x (C0.getD i 0) (nth li i) phi (ki.getD i false)
        = comb c (fun j => zsol (loaded s (p j) (tc j)) x ((C j).getD i 0) (nth li i) phi (ki.getD i false)) := by
  intro i hi
  have hk : ∀ p tc mi, IsPst (loaded s p tc) → OpenEnd ⟨li, mi, ki⟩ → (loaded s p tc).mode = .C →
      valOf (spring num) (loaded s p tc) = valOf (spring num) s :=
    fun p tc mi h1 h2 h3 => spring_loaded num hs.fresh (hs.rest h1 h2 h3)
  have hj : ∀ j, Meets (loaded s (p j) (tc j)) phi (valOf (spring num) s) ⟨li, mi j, ki⟩ (fun i => (C j).getD i 0) := by
    intro j
    obtain ⟨kind, s', hr⟩ := h.each j
    obtain ⟨-, -, -, k, -⟩ := C16_solution_meets_all_conditions num kind phi _ _ _ s' (C j) hs.fresh.loaded hs.face.loaded hr
    exact meets_spring (hk _ _ _) k
  obtain ⟨kind, s', hr⟩ := h.all
  obtain ⟨-, -, -, -, k⟩ := C16_solution_meets_all_conditions num kind phi _ _ _ s' C0 hs.fresh.loaded hs.face.loaded hr
  have e := (k _ (meets_spring (fun h1 h2 h3 => (hk _ _ _ h1 h2 h3).symm)
    (meets_comb h.one s p tc phi _ li mi0 mi ki h.weights _ hj)) i hi).symm
  exact ⟨e, fun x => by rw [e]; exact zsol_comb h.one _ _ _ _ _ _ _ _ _⟩

/-- The lists of all load cases have matching lengths. -/
theorem Spec.Combined.segs (hs : Sound num s li ki) (h : Combined num s phi li ki c p tc mi mi0 C C0) (hl : ∀ l ∈ li, 0 ≤ l) :
    (∀ j, SegsOk (C j) ⟨li, mi j, ki⟩) ∧ SegsOk C0 ⟨li, mi0, ki⟩ := by
  have key : ∀ p tc mi (D : List Vec6) kind s', assembleAndSolve num kind phi ⟨li, mi, ki⟩ (loaded s p tc)
      = (.ok (D, ⟨li, mi, ki⟩), s') → SegsOk D ⟨li, mi, ki⟩ := by
    intro p tc mi D kind s' hr
    obtain ⟨-, -, k, -, -⟩ := C16_solution_meets_all_conditions num kind phi _ _ _ s' D hs.fresh.loaded hs.face.loaded hr
    obtain ⟨hv, -⟩ := solved_meets hs.fresh.loaded hs.face.loaded hr
    exact ⟨hv.ki, k.ge, hl⟩
  refine ⟨fun j => ?_, ?_⟩
  · obtain ⟨kind, s', hr⟩ := h.each j
    exact key _ _ _ _ _ _ hr
  · obtain ⟨kind, s', hr⟩ := h.all
    exact key _ _ _ _ _ _ hr

/-- C73, stresses and section forces: they combine as the states do. -/
theorem C73_stresses (hs : Sound num s li ki) (h : Combined num s phi li ki c p tc mi mi0 C C0) (i : ℕ) (hi : i < li.length)
    (x : ℝ) :
    let s0 := loaded s (∑ j, c j * p j) (∑ j, c j * tc j)
    let z0 := zsol s0 x (C0.getD i 0) (nth li i) phi (ki.getD i false)
    let z := fun j => zsol (loaded s (p j) (tc j)) x ((C j).getD i 0) (nth li i) phi (ki.getD i false)
    fw z0 = ∑ j, c j * fw (z j) ∧ fpsi z0 = ∑ j, c j * fpsi (z j) ∧ (∀ d, fu z0 d = ∑ j, c j * fu (z j) d) ∧
    fsig s0 z0 = ∑ j, c j * fsig (loaded s (p j) (tc j)) (z j) ∧ ftau s0 z0 = ∑ j, c j * ftau (loaded s (p j) (tc j)) (z j) ∧
    fN s0 z0 = ∑ j, c j * fN (loaded s (p j) (tc j)) (z j) ∧ fM s0 z0 = ∑ j, c j * fM (loaded s (p j) (tc j)) (z j) ∧
    fV s0 z0 = ∑ j, c j * fV (loaded s (p j) (tc j)) (z j) := by
  intro s0 z0 z
  have e : z0 = comb c z := (C73_superposition hs h i hi).2 x
  have q := fun (p tc : ℝ) z => C09_field_quantities (loaded s p tc) z
  rw [e]
  refine ⟨rfl, rfl, fun d => ?_, ?_, ?_, ?_, ?_, ?_⟩
  · simp only [fu, fpsi, comb_apply, mul_sum, ← sum_add_distrib]
    exact sum_congr rfl fun j _ => by ring
  · simp only [fsig, fw, comb_apply, mul_sum]
    exact sum_congr rfl fun j _ => by show -1 * s.kn * _ = c j * (-1 * s.kn * _); ring
  all_goals simp only [q, s0]
  · exact Beam.tau_comb s.beam c z
  · exact Beam.N_comb s.beam c z
  · exact Beam.M_comb s.beam c z
  · exact Beam.V_comb s.beam c z

omit [Fintype ι] in
theorem tipSum_mono {ki : List Bool} {f g : ℕ → ℝ} (h : ∀ j < ki.length, f j ≤ g j) : tipSum ki f ≤ tipSum ki g := by
  unfold tipSum
  refine sum_le_sum fun j hj => ?_
  split_ifs
  · exact mul_le_mul_of_nonneg_left (h j (mem_range.1 hj)) (by unfold tipWeight; split_ifs <;> norm_num)
  · exact le_rfl

theorem tipSum_comb (ki : List Bool) (c : ι → ℝ) (f : ι → ℕ → ℝ) :
    tipSum ki (fun i => ∑ j, c j * f j i) = ∑ j, c j * tipSum ki (f j) := by
  unfold tipSum
  simp only [mul_sum]
  rw [sum_comm]
  refine sum_congr rfl fun i _ => ?_
  split_ifs
  · exact sum_congr rfl fun j _ => by ring
  · simp

theorem square_comb (hc : ∑ j, c j = 1) (h0 : ∀ j, 0 ≤ c j) (x : ι → ℝ) : (∑ j, c j * x j) ^ 2 ≤ ∑ j, c j * x j ^ 2 := by
  simpa using (even_two.convexOn_pow (𝕜 := ℝ)).map_sum_le (t := univ) (w := c) (p := x) (fun j _ => h0 j) hc fun _ _ => trivial

/-- C73, energy release rates: a mean of load cases releases at most the mean of
the rates, in both modes and in total. -/
theorem C73_rates (hs : Sound num s li ki) (h : Combined num s phi li ki c p tc mi mi0 C C0) (hl : ∀ l ∈ li, 0 ≤ l)
    (hn : 0 < s.kn) (ht : 0 < s.kt) (h0 : ∀ j, 0 ≤ c j) (unit : String) (hu : unit ∈ ["J/m^2", "kJ/m^2", "N/mm"]) :
    ∃ (G : ι → ℝ × ℝ × ℝ) (G0 : ℝ × ℝ × ℝ), (∀ j, gdif (loaded s (p j) (tc j)) phi (segsOf (C j) ⟨li, mi j, ki⟩) unit true = .ok (G j)) ∧
      gdif (loaded s (∑ j, c j * p j) (∑ j, c j * tc j)) phi (segsOf C0 ⟨li, mi0, ki⟩) unit true = .ok G0 ∧
      G0.1 ≤ ∑ j, c j * (G j).1 ∧ G0.2.1 ≤ ∑ j, c j * (G j).2.1 ∧ G0.2.2 ≤ ∑ j, c j * (G j).2.2 := by
  obtain ⟨u, hu⟩ : ∃ u, convertEnergy unit = .ok u := by
    simp only [List.mem_cons, List.not_mem_nil, or_false] at hu
    unfold convertEnergy
    rcases hu with rfl | rfl | rfl <;> simp
  have hup := convertEnergy_pos hu
  obtain ⟨hS, hS0⟩ := h.segs hs hl
  refine ⟨_, _, fun j => C30_gdif _ _ _ unit u hu, C30_gdif _ _ _ unit u hu, ?_⟩
  simp only [hS0.support, fun j => (hS j).support]
  have hk : ki.length = li.length := hS0.ki
  have e : ∀ i < ki.length, endState (loaded s (∑ j, c j * p j) (∑ j, c j * tc j)) phi (segsOf C0 ⟨li, mi0, ki⟩) i
      = comb c (fun j => endState (loaded s (p j) (tc j)) phi (segsOf (C j) ⟨li, mi j, ki⟩) i) := by
    intro i hi
    rw [hS0.endState _ phi i (hk ▸ hi)]
    simp only [fun j => (hS j).endState (loaded s (p j) (tc j)) phi i (hk ▸ hi)]
    exact (C73_superposition hs h i (hk ▸ hi)).2 _
  have g1 : tipSum ki (fun i => (s.kn * endState (loaded s (∑ j, c j * p j) (∑ j, c j * tc j)) phi (segsOf C0 ⟨li, mi0, ki⟩) i 2) ^ 2
        / (2 * s.kn))
      ≤ ∑ j, c j * tipSum ki (fun i => (s.kn * endState (loaded s (p j) (tc j)) phi (segsOf (C j) ⟨li, mi j, ki⟩) i 2) ^ 2
        / (2 * s.kn)) := by
    rw [← tipSum_comb]
    refine tipSum_mono fun i hi => ?_
    rw [e i hi, comb_apply, mul_sum]
    have := square_comb h.one h0 fun j => s.kn * endState (loaded s (p j) (tc j)) phi (segsOf (C j) ⟨li, mi j, ki⟩) i 2
    rw [div_le_iff₀ (by positivity), sum_mul]
    refine (le_of_eq ?_).trans (this.trans (le_of_eq ?_))
    · congr 1; exact sum_congr rfl fun j _ => by ring
    · exact sum_congr rfl fun j _ => by field_simp
  have g2 : tipSum ki (fun i => s.beam.tau (endState (loaded s (∑ j, c j * p j) (∑ j, c j * tc j)) phi (segsOf C0 ⟨li, mi0, ki⟩) i) ^ 2
        / (2 * s.kt))
      ≤ ∑ j, c j * tipSum ki (fun i => s.beam.tau (endState (loaded s (p j) (tc j)) phi (segsOf (C j) ⟨li, mi j, ki⟩) i) ^ 2
        / (2 * s.kt)) := by
    rw [← tipSum_comb]
    refine tipSum_mono fun i hi => ?_
    rw [e i hi, Beam.tau_comb]
    have := square_comb h.one h0 fun j => s.beam.tau (endState (loaded s (p j) (tc j)) phi (segsOf (C j) ⟨li, mi j, ki⟩) i)
    rw [div_le_iff₀ (by positivity), sum_mul]
    refine this.trans (le_of_eq ?_)
    exact sum_congr rfl fun j _ => by field_simp
  have a1 : ∀ f : ι → ℝ, ∑ j, c j * (u * f j) = u * ∑ j, c j * f j := fun f => by
    rw [mul_sum]; exact sum_congr rfl fun j _ => by ring
  refine ⟨?_, ?_, ?_⟩
  · rw [a1]
    refine mul_le_mul_of_nonneg_left ?_ hup.le
    simp only [mul_add, sum_add_distrib]
    exact add_le_add g1 g2
  · rw [a1]
    exact mul_le_mul_of_nonneg_left g1 hup.le
  · rw [a1]
    exact mul_le_mul_of_nonneg_left g2 hup.le

/-! ## Sampling -/

/-- Segment of load case `j`. -/
def caseSeg (j : ι) (d : (ι → Vec6) × Bool × ℝ) : Seg := ⟨d.1 j, d.2.1, d.2.2⟩

/-- Segment of the combination. -/
def allSeg (c : ι → ℝ) (d : (ι → Vec6) × Bool × ℝ) : Seg := ⟨comb c d.1, d.2.1, d.2.2⟩

/-- Grid point of load case `j`. -/
def casePt (j : ι) (d : ℝ × Bool × (ι → Vec6)) : GridPt := ⟨d.1, d.2.2 j, d.2.1⟩

/-- Grid point of the combination. -/
def allPt (c : ι → ℝ) (d : ℝ × Bool × (ι → Vec6)) : GridPt := ⟨d.1, comb c d.2.2, d.2.1⟩

theorem segPts_comb (hc : ∑ j, c j = 1) (s : Self) (phi : ℝ) (num : ℕ) (tot x0 : ℝ) (prev : Option Bool)
    (d : (ι → Vec6) × Bool × ℝ) (last : Bool) :
    ∃ G : List (ℝ × Bool × (ι → Vec6)),
      segPts (loaded s (∑ j, c j * p j) (∑ j, c j * tc j)) phi num tot x0 prev (allSeg c d) last = G.map (allPt c) ∧
      ∀ j, segPts (loaded s (p j) (tc j)) phi num tot x0 prev (caseSeg j d) last = G.map (casePt j) := by
  refine ⟨(linspace d.2.2 (nqOf num tot d.2.2 last) last).mapIdx fun n xi => (x0 + xi,
    (if n = 0 then (match prev with | some k' => k' || d.2.1 | none => d.2.1) else d.2.1),
    fun j => zsol (loaded s (p j) (tc j)) xi (d.1 j) d.2.2 phi d.2.1), ?_, fun j => ?_⟩
  · apply List.ext_getElem
    · simp [segPts, allSeg]
    · intro n h1 h2
      simp only [segPts, allSeg, List.getElem_mapIdx, List.getElem_map, allPt, zsol_comb hc s p tc]
      cases prev <;> rfl
  · apply List.ext_getElem
    · simp [segPts, caseSeg]
    · intro n h1 h2
      simp only [segPts, caseSeg, List.getElem_mapIdx, List.getElem_map, casePt]
      cases prev <;> rfl

theorem rasterLoop_comb (hc : ∑ j, c j = 1) (s : Self) (phi : ℝ) (num : ℕ) (tot : ℝ) (ds : List ((ι → Vec6) × Bool × ℝ)) :
    ∀ (x0 : ℝ) (prev : Option Bool), ∃ G : List (ℝ × Bool × (ι → Vec6)),
      rasterLoop (loaded s (∑ j, c j * p j) (∑ j, c j * tc j)) phi num tot x0 prev (ds.map (allSeg c)) = G.map (allPt c) ∧
      ∀ j, rasterLoop (loaded s (p j) (tc j)) phi num tot x0 prev (ds.map (caseSeg j)) = G.map (casePt j) := by
  induction ds with
  | nil => exact fun x0 prev => ⟨[], rfl, fun j => rfl⟩
  | cons d ds ih =>
    intro x0 prev
    obtain ⟨G, g1, g2⟩ := ih (x0 + d.2.2) (some d.2.1)
    obtain ⟨H, k1, k2⟩ := segPts_comb (p := p) (tc := tc) hc s phi num tot x0 prev d ds.isEmpty
    have he : ∀ f : (ι → Vec6) × Bool × ℝ → Seg, (ds.map f).isEmpty = ds.isEmpty := fun f => by cases ds <;> rfl
    refine ⟨H ++ G, ?_, fun j => ?_⟩
    · simp only [List.map_cons, rasterLoop, he, List.map_append]
      rw [k1]
      exact congrArg _ g1
    · simp only [List.map_cons, rasterLoop, he, List.map_append]
      rw [k2 j]
      exact congrArg _ (g2 j)

theorem dropZero_map (f : (ι → Vec6) × Bool × ℝ → Seg) (hf : f = allSeg c ∨ ∃ j, f = caseSeg j)
    (ds : List ((ι → Vec6) × Bool × ℝ)) : dropZero (ds.map f)
      = ((ds.map fun d => (d.1, d.2.1, |d.2.2|)).filter fun d => decide (0 < d.2.2)).map f := by
  unfold dropZero
  rw [List.map_map]
  induction ds with
  | nil => rfl
  | cons d ds ih =>
    have e : (fun g : Seg => { g with l := |g.l| }) (f d) = f (d.1, d.2.1, |d.2.2|) ∧
        (f (d.1, d.2.1, |d.2.2|)).l = |d.2.2| := by
      rcases hf with rfl | ⟨j, rfl⟩ <;> exact ⟨rfl, rfl⟩
    simp only [List.map_cons, List.filter_cons, Function.comp_apply, e.1, e.2]
    split
    · rw [List.map_cons]; exact congrArg _ ih
    · exact ih

theorem rasterize_comb (hc : ∑ j, c j = 1) (s : Self) (phi : ℝ) (num : ℕ) (ds : List ((ι → Vec6) × Bool × ℝ))
    (pts0 : List GridPt)
    (h0 : rasterize (loaded s (∑ j, c j * p j) (∑ j, c j * tc j)) phi num (ds.map (allSeg c)) = .ok pts0) :
    ∃ G : List (ℝ × Bool × (ι → Vec6)), pts0 = G.map (allPt c) ∧
      ∀ j, rasterize (loaded s (p j) (tc j)) phi num (ds.map (caseSeg j)) = .ok (G.map (casePt j)) := by
  unfold rasterize at h0 ⊢
  rw [dropZero_map _ (.inl rfl)] at h0
  simp only [fun j => dropZero_map (c := c) (caseSeg j) (.inr ⟨j, rfl⟩)]
  generalize (ds.map fun d => (d.1, d.2.1, |d.2.2|)).filter (fun d => decide (0 < d.2.2)) = es at *
  cases es with
  | nil => cases h0
  | cons d es =>
    simp only [List.map_cons, Except.ok.injEq] at h0 ⊢
    have e : ∀ f : (ι → Vec6) × Bool × ℝ → Seg, (f = allSeg c ∨ ∃ j, f = caseSeg j) → (f d :: es.map f).map Seg.l
        = (d :: es).map fun d => d.2.2 := by
      intro f hf
      rw [← List.map_cons, List.map_map]
      refine List.map_congr_left fun d _ => ?_
      rcases hf with rfl | ⟨j, rfl⟩ <;> rfl
    have e1 := e _ (.inl rfl)
    have e2 := fun j => e _ (.inr ⟨j, rfl⟩)
    simp only [List.map_cons] at e1 e2
    rw [e1] at h0
    simp only [e2]
    obtain ⟨G, g1, g2⟩ := rasterLoop_comb (p := p) (tc := tc) hc s phi num _ (d :: es) 0 none
    exact ⟨G, h0.symm.trans g1, fun j => g2 j⟩

/-- C73, sampled arrays: all load cases and their combination are sampled at the
same positions, with the same positions marked as supported, and the sampled
states combine. -/
theorem C73_arrays (hs : Sound num s li ki) (h : Combined num s phi li ki c p tc mi mi0 C C0) (hl : ∀ l ∈ li, 0 ≤ l) (n : ℕ)
    (pts0 : List GridPt) (h0 : rasterize (loaded s (∑ j, c j * p j) (∑ j, c j * tc j)) phi n (segsOf C0 ⟨li, mi0, ki⟩) = .ok pts0) :
    ∃ pts : ι → List GridPt, (∀ j, rasterize (loaded s (p j) (tc j)) phi n (segsOf (C j) ⟨li, mi j, ki⟩) = .ok (pts j)) ∧
      (∀ j, (pts j).map GridPt.x = pts0.map GridPt.x ∧ (pts j).map GridPt.xb = pts0.map GridPt.xb) ∧
      ∀ m < pts0.length, ∀ q, (pts0.map fun g => g.z q).getD m 0 = ∑ j, c j * ((pts j).map fun g => g.z q).getD m 0 := by
  obtain ⟨hS, hS0⟩ := h.segs hs hl
  set ds : List ((ι → Vec6) × Bool × ℝ) := (List.range li.length).map fun i =>
    (fun j => (C j).getD i 0, ki.getD i false, nth li i) with hds
  have e0 : segsOf C0 ⟨li, mi0, ki⟩ = ds.map (allSeg c) := by
    apply List.ext_getElem
    · simp [hS0.length, hds]
    · intro i h1 h2
      have hi : i < li.length := by rw [hS0.length] at h1; exact h1
      rw [hS0.get i hi]
      simp only [hds, List.getElem_map, List.getElem_range, allSeg, (C73_superposition hs h i hi).1]
  have e1 : ∀ j, segsOf (C j) ⟨li, mi j, ki⟩ = ds.map (caseSeg j) := by
    intro j
    apply List.ext_getElem
    · simp [(hS j).length, hds]
    · intro i h1 h2
      have hi : i < li.length := by rw [(hS j).length] at h1; exact h1
      rw [(hS j).get i hi]
      simp only [hds, List.getElem_map, List.getElem_range, caseSeg]
  rw [e0] at h0
  obtain ⟨G, rfl, g2⟩ := rasterize_comb h.one s phi n ds pts0 h0
  refine ⟨fun j => G.map (casePt j), fun j => by rw [e1]; exact g2 j, fun j => ⟨?_, ?_⟩, fun m hm q => ?_⟩
  · simp only [List.map_map]; rfl
  · simp only [List.map_map]; rfl
  · have hm' : m < G.length := by simpa using hm
    simp only [List.map_map, List.getD_eq_getElem?_getD, List.getElem?_map, List.getElem?_eq_getElem hm', Option.map_some,
      Option.getD_some, Function.comp_apply, allPt, casePt, comb_apply]

end

/-! ## Consequences -/

section

variable {num : Numerics} {s : Self} {phi : ℝ} {li : List ℝ} {ki : List Bool}

/-- C73. Contributions of skiers add: the change of the state caused by two
groups of skiers together is the sum of the changes caused by each group. -/
theorem C73_skiers (hs : Sound num s li ki) (m m' m'' m0 : List ℝ) (hm : ∀ i, nth m'' i = nth m i + nth m' i)
    (h0 : ∀ i, nth m0 i = 0) (kind kind' kind'' kind0 : SeqKind) (s1 s1' s1'' s10 : Self) (C C' C'' C0 : List Vec6)
    (r : assembleAndSolve num kind phi ⟨li, m, ki⟩ s = (.ok (C, ⟨li, m, ki⟩), s1))
    (r' : assembleAndSolve num kind' phi ⟨li, m', ki⟩ s = (.ok (C', ⟨li, m', ki⟩), s1'))
    (r'' : assembleAndSolve num kind'' phi ⟨li, m'', ki⟩ s = (.ok (C'', ⟨li, m'', ki⟩), s1''))
    (r0 : assembleAndSolve num kind0 phi ⟨li, m0, ki⟩ s = (.ok (C0, ⟨li, m0, ki⟩), s10)) :
    ∀ i < li.length, ∀ x,
      let Z := fun C : List Vec6 => zsol s x (C.getD i 0) (nth li i) phi (ki.getD i false)
      Z C'' - Z C0 = (Z C - Z C0) + (Z C' - Z C0) := by
  intro i hi x Z
  have e : loaded s s.p s.tc = s := rfl
  have ep : ∀ a : ℝ, ∑ j : Fin 3, (![1, 1, -1] : Fin 3 → ℝ) j * a = a := fun a => by simp [Fin.sum_univ_three]
  have H : Combined num s phi li ki (![1, 1, -1] : Fin 3 → ℝ) (fun _ => s.p) (fun _ => s.tc) ![m, m', m0] m'' ![C, C', C0] C'' := by
    refine ⟨by simp [Fin.sum_univ_three], fun k => by simp [Fin.sum_univ_three, hm, h0], fun j => ?_, ?_⟩
    · fin_cases j
      · exact ⟨_, _, r⟩
      · exact ⟨_, _, r'⟩
      · exact ⟨_, _, r0⟩
    · rw [ep, ep]
      exact ⟨_, _, r''⟩
  have key := (C73_superposition hs H i hi).2 x
  rw [ep, ep, e] at key
  show Z C'' - Z C0 = _
  rw [show Z C'' = _ from key]
  ext q
  simp only [Pi.sub_apply, Pi.add_apply, comb_apply, Fin.sum_univ_three, Matrix.cons_val, Z]
  ring

/-- C73. The change of the state caused by the surface load is proportional to
the load, and so is the change caused by the skiers to their weight. -/
theorem C73_proportional (hs : Sound num s li ki) (a p : ℝ) (m m' m0 : List ℝ) (hm : ∀ i, nth m' i = a * nth m i)
    (h0 : ∀ i, nth m0 i = 0) (kind kind' kind0 : SeqKind) (s1 s1' s10 : Self) (C C' C0 : List Vec6)
    (r : assembleAndSolve num kind phi ⟨li, m, ki⟩ (loaded s p s.tc) = (.ok (C, ⟨li, m, ki⟩), s1))
    (r' : assembleAndSolve num kind' phi ⟨li, m', ki⟩ (loaded s (a * p) s.tc) = (.ok (C', ⟨li, m', ki⟩), s1'))
    (r0 : assembleAndSolve num kind0 phi ⟨li, m0, ki⟩ (loaded s 0 s.tc) = (.ok (C0, ⟨li, m0, ki⟩), s10)) :
    ∀ i < li.length, ∀ x,
      let Z := fun (p : ℝ) (C : List Vec6) => zsol (loaded s p s.tc) x (C.getD i 0) (nth li i) phi (ki.getD i false)
      Z (a * p) C' - Z 0 C0 = a • (Z p C - Z 0 C0) := by
  intro i hi x Z
  have ep : ∑ j : Fin 2, (![a, 1 - a] : Fin 2 → ℝ) j * (![p, 0] : Fin 2 → ℝ) j = a * p := by simp [Fin.sum_univ_two]
  have et : ∑ j : Fin 2, (![a, 1 - a] : Fin 2 → ℝ) j * s.tc = s.tc := by simp [Fin.sum_univ_two]; ring
  have H : Combined num s phi li ki (![a, 1 - a] : Fin 2 → ℝ) ![p, 0] (fun _ => s.tc) ![m, m0] m' ![C, C0] C' := by
    refine ⟨by simp [Fin.sum_univ_two], fun k => by simp [Fin.sum_univ_two, hm, h0], fun j => ?_, ?_⟩
    · fin_cases j
      · exact ⟨_, _, r⟩
      · exact ⟨_, _, r0⟩
    · rw [ep, et]
      exact ⟨_, _, r'⟩
  have key := (C73_superposition hs H i hi).2 x
  rw [ep, et] at key
  show Z (a * p) C' - Z 0 C0 = _
  rw [show Z (a * p) C' = _ from key]
  ext q
  simp only [Pi.sub_apply, Pi.smul_apply, smul_eq_mul, comb_apply, Fin.sum_univ_two, Matrix.cons_val, Z]
  ring

/-- Every choice of loads is solved if the geometry is well-formed. -/
theorem loads_solved (hb : BedOk s) (hc : ShearOk s) (hs : Sound num s li ki) (hsys : IsPst s ∨ IsVpst s ∨ IsSkier s ∨ IsAux s)
    (hst : IsPst s → OpenEnd ⟨li, [], ki⟩ → s.mode ≠ .unset) (hk : ki.length = li.length) (h2 : li.length ≠ 1)
    (he : ¬ finiteSystem s.system → ki.head? = some true ∧ ki.getLast? = some true) (hsup : Supported ⟨li, [], ki⟩)
    (kind : SeqKind) (phi p tc : ℝ) (mi : List ℝ) (hm : mi.length + 1 = li.length) :
    ∃ C, assembleAndSolve num kind phi ⟨li, mi, ki⟩ (loaded s p tc) = (.ok (C, ⟨li, mi, ki⟩), loaded s p tc) := by
  have hfull : full ⟨li, mi, ki⟩ = ⟨li, mi, ki⟩ := by unfold full; rw [if_neg h2]
  obtain ⟨i, i1, i2, i3⟩ := hsup.bed
  have hv : Valid (loaded s p tc) ⟨li, mi, ki⟩ := by
    refine ⟨?_, hk, hm, he⟩
    have hi : i < ki.length := hk ▸ i1
    have : ki[i] = true := by
      rw [List.getD_eq_getElem?_getD, List.getElem?_eq_getElem hi, Option.getD_some] at i2
      exact i2
    exact this ▸ List.getElem_mem hi
  obtain ⟨C, h1, -⟩ := C18_unique_solution num kind phi ⟨li, mi, ki⟩ (loaded s p tc) hb.loaded hc.loaded hs.fresh.loaded hv
    (.inr h2) hsys (by rw [hfull]; exact hst) (by rw [hfull]; exact fun a b d => (hs.rest a b d).loaded)
    ⟨hsup.nonneg, i, i1, i2, i3⟩
  rw [hfull] at h1
  exact ⟨C, h1⟩

end

/-! ## Concrete cases -/

theorem skierDemo_sound : Sound stdNum skierDemo skierLists.li skierLists.ki :=
  ⟨(demo_ready _ _ _).fresh.eigFresh, skierDemo_noFace, fun h => absurd h skierDemo_not_pst⟩

theorem pstDemo_sound (mode : Mode) (li : List ℝ) (ki : List Bool) : Sound stdNum (pstDemo mode 200) li ki :=
  ⟨pstDemo_fresh _ _, pstDemo_noFace _ _, fun _ _ _ => pstDemo_rest _⟩

/-- Two skiers of 80 kg and 60 kg at different places on a slab over a crack: the
deflection under both is the sum of the deflections under each. -/
example : ∃ C C' C'' C0 : List Vec6,
    assembleAndSolve stdNum .list 38 ⟨[2000, 150, 150, 2000], [0, 80, 0], [true, false, false, true]⟩ skierDemo
      = (.ok (C, ⟨[2000, 150, 150, 2000], [0, 80, 0], [true, false, false, true]⟩), skierDemo) ∧
    assembleAndSolve stdNum .list 38 ⟨[2000, 150, 150, 2000], [60, 0, 0], [true, false, false, true]⟩ skierDemo
      = (.ok (C', ⟨[2000, 150, 150, 2000], [60, 0, 0], [true, false, false, true]⟩), skierDemo) ∧
    assembleAndSolve stdNum .list 38 ⟨[2000, 150, 150, 2000], [60, 80, 0], [true, false, false, true]⟩ skierDemo
      = (.ok (C'', ⟨[2000, 150, 150, 2000], [60, 80, 0], [true, false, false, true]⟩), skierDemo) ∧
    assembleAndSolve stdNum .list 38 ⟨[2000, 150, 150, 2000], [0, 0, 0], [true, false, false, true]⟩ skierDemo
      = (.ok (C0, ⟨[2000, 150, 150, 2000], [0, 0, 0], [true, false, false, true]⟩), skierDemo) ∧
    ∀ x, let w := fun C : List Vec6 => fw (zsol skierDemo x (C.getD 1 0) 150 38 false)
      w C'' - w C0 = (w C - w C0) + (w C' - w C0) := by
  have run := fun mi hm => loads_solved (demo_bedOk _ _) (demo_shear _ _ _) skierDemo_sound
    (.inr (.inr (.inl skierDemo_isSkier))) (fun h => absurd h skierDemo_not_pst) rfl (by simp [skierLists])
    (fun _ => by simp [skierLists])
    ⟨by simp [skierLists], 0, by simp [skierLists], by simp [skierLists], by simp [skierLists, nth]⟩ .list 38 skierDemo.p
    skierDemo.tc mi hm
  obtain ⟨C, r⟩ := run [0, 80, 0] rfl
  obtain ⟨C', r'⟩ := run [60, 0, 0] rfl
  obtain ⟨C'', r''⟩ := run [60, 80, 0] rfl
  obtain ⟨C0, r0⟩ := run [0, 0, 0] rfl
  refine ⟨C, C', C'', C0, r, r', r'', r0, fun x => ?_⟩
  have key := C73_skiers skierDemo_sound [0, 80, 0] [60, 0, 0] [60, 80, 0] [0, 0, 0]
    (fun i => by rcases i with _ | _ | _ | i <;> simp [nth]) (fun i => by rcases i with _ | _ | _ | i <;> simp [nth])
    _ _ _ _ _ _ _ _ _ _ _ _ r r' r'' r0 1 (by simp [skierLists]) x
  exact congrFun key 2

/-- A PST with touchdown, without and with a surface load of 2 kPa: with half
the load the state is halfway, and the energy release rate at most halfway. -/
example : ∃ C C' C0 : List Vec6, ∃ G G' G0 : ℝ × ℝ × ℝ,
    let s := pstDemo .C 200
    assembleAndSolve stdNum .list 38 (pstLists 200) (loaded s 0 6) = (.ok (C, pstLists 200), loaded s 0 6) ∧
    assembleAndSolve stdNum .list 38 (pstLists 200) (loaded s 0.002 6) = (.ok (C', pstLists 200), loaded s 0.002 6) ∧
    assembleAndSolve stdNum .list 38 (pstLists 200) (loaded s 0.001 6) = (.ok (C0, pstLists 200), loaded s 0.001 6) ∧
    (∀ x q, zsol (loaded s 0.001 6) x (C0.getD 0 0) 1000 38 true q
      = 1 / 2 * zsol (loaded s 0 6) x (C.getD 0 0) 1000 38 true q
        + 1 / 2 * zsol (loaded s 0.002 6) x (C'.getD 0 0) 1000 38 true q) ∧
    gdif (loaded s 0 6) 38 (segsOf C (pstLists 200)) "J/m^2" true = .ok G ∧
    gdif (loaded s 0.002 6) 38 (segsOf C' (pstLists 200)) "J/m^2" true = .ok G' ∧
    gdif (loaded s 0.001 6) 38 (segsOf C0 (pstLists 200)) "J/m^2" true = .ok G0 ∧ G0.1 ≤ 1 / 2 * G.1 + 1 / 2 * G'.1 := by
  have hS := pstDemo_sound .C (pstLists 200).li (pstLists 200).ki
  have run := fun p => loads_solved (pstDemo_bedOk .C 200) (pstDemo_shear _ _) hS (.inl (pstDemo_isPst _ _))
    (fun _ _ => by show Mode.C ≠ Mode.unset; decide) rfl (by simp [pstLists])
    (fun h => absurd (show finiteSystem "pst-" by decide) h)
    ⟨by simp [pstLists], 0, by simp [pstLists], by simp [pstLists], by simp [pstLists, nth]⟩ .list 38 p 6 [0] rfl
  obtain ⟨C, r⟩ := run 0
  obtain ⟨C', r'⟩ := run 0.002
  obtain ⟨C0, r0⟩ := run 0.001
  have ep : ∑ j : Fin 2, (![1 / 2, 1 / 2] : Fin 2 → ℝ) j * (![0, 0.002] : Fin 2 → ℝ) j = 0.001 := by
    simp [Fin.sum_univ_two]; norm_num
  have et : ∑ j : Fin 2, (![1 / 2, 1 / 2] : Fin 2 → ℝ) j * 6 = 6 := by simp [Fin.sum_univ_two]; norm_num
  have H : Combined stdNum (pstDemo .C 200) 38 (pstLists 200).li (pstLists 200).ki (![1 / 2, 1 / 2] : Fin 2 → ℝ) ![0, 0.002]
      (fun _ => 6) (fun _ => [0]) [0] ![C, C'] C0 := by
    refine ⟨by simp [Fin.sum_univ_two]; norm_num, fun i => by rcases i with _ | i <;> simp [nth], fun j => ?_, ?_⟩
    · fin_cases j
      · exact ⟨_, _, r⟩
      · exact ⟨_, _, r'⟩
    · rw [ep, et]
      exact ⟨_, _, r0⟩
  obtain ⟨G, G0, g1, g2, g3, -, -⟩ := C73_rates hS H (by simp [pstLists]) (pstDemo_bedOk .C 200).stiff.kn
    (pstDemo_bedOk .C 200).stiff.kt (fun j => by fin_cases j <;> simp) "J/m^2" (by simp)
  rw [ep, et] at g2
  refine ⟨C, C', C0, G 0, G 1, G0, r, r', r0, fun x q => ?_, g1 0, g1 1, g2, ?_⟩
  · have key := (C73_superposition hS H 0 (by simp [pstLists])).2 x
    rw [ep, et] at key
    have := congrFun key q
    simpa [comb_apply, Fin.sum_univ_two, pstLists, nth] using this
  · simpa [Fin.sum_univ_two] using g3

end Weac
