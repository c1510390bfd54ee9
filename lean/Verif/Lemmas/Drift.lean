import Mathlib.Analysis.Normed.Ring.Units
import Verif.Lemmas.LocalBound

/-!
# Chains of segments whose stiffnesses vary continuously

The states of a chain are determined by one linear system for the deviations
from given particular states at the beginnings of the segments. Its coefficients
are entries of the transfer matrices, hence depend continuously on stiffnesses
and lengths, whatever basis of solutions is used to compute the states.
-/

namespace Weac.Spec

variable {T : Type*} [TopologicalSpace T]

/-- The solution of a linear system with a unique solution depends continuously
on coefficients and right-hand side. -/
theorem continuous_of_injective {E : Type*} [NormedAddCommGroup E] [NormedSpace ℝ E] [FiniteDimensional ℝ E]
    (L : T → E →ₗ[ℝ] E) (hL : ∀ c, Continuous fun t => L t c) (hi : ∀ t, Function.Injective (L t)) {c : T → E}
    (hc : Continuous fun t => L t (c t)) : Continuous c := by
  have : CompleteSpace E := FiniteDimensional.complete ℝ E
  set M : T → E →L[ℝ] E := fun t => LinearMap.toContinuousLinearMap (L t) with hM
  have hMc : Continuous M := continuous_clm_apply.2 hL
  have hu : ∀ t, IsUnit (M t) := by
    intro t
    set e := (LinearEquiv.ofInjectiveEndo (L t) (hi t)).toContinuousLinearEquiv with he
    refine ⟨⟨M t, e.symm, ?_, ?_⟩, rfl⟩
    · ext x
      exact e.apply_symm_apply x
    · ext x
      exact e.symm_apply_apply x
  have hinv : Continuous fun t => Ring.inverse (M t) := by
    refine continuous_iff_continuousAt.2 fun t => ?_
    obtain ⟨u, hu⟩ := hu t
    have := NormedRing.inverse_continuousAt u
    rw [hu] at this
    exact this.comp hMc.continuousAt
  have e : c = fun t => Ring.inverse (M t) (L t (c t)) := by
    funext t
    have := Ring.inverse_mul_cancel _ (hu t)
    exact (DFunLike.congr_fun this (c t)).symm
  rw [e]
  exact hinv.clm_apply hc

/-- Stiffnesses and geometry that vary continuously. -/
structure Beam.Drifts (b : T → Beam) : Prop where
  A : Continuous fun t => (b t).A
  B : Continuous fun t => (b t).B
  D : Continuous fun t => (b t).D
  S : Continuous fun t => (b t).S
  kn : Continuous fun t => (b t).kn
  kt : Continuous fun t => (b t).kt
  h : Continuous fun t => (b t).h
  t : Continuous fun t => (b t).t

variable {b : T → Beam}

theorem Beam.Drifts.transfer (hd : Beam.Drifts b) (hb : ∀ t, (b t).Coercive) (bed : Bool) {x : T → ℝ} (hx : Continuous x) :
    Continuous fun t => (b t).transfer bed (x t) := by
  have hop : Continuous fun t => (b t).op bed := by
    refine continuous_clm_apply.2 fun z => continuous_pi fun q => ?_
    obtain ⟨h1, h2, h3, h4, h5, h6, h7, h8⟩ := hd
    have hdet : ∀ t, (b t).A * (b t).D - (b t).B ^ 2 ≠ 0 := fun t => (hb t).det.ne'
    have hS : ∀ t, (b t).S ≠ 0 := fun t => (hb t).S.ne'
    cases bed <;> fin_cases q <;> simp [Beam.op, Beam.sys, Beam.tau, Beam.V] <;> fun_prop (disch := assumption)
  unfold Beam.transfer
  let _ : NormedAlgebra ℚ (Vec6 →L[ℝ] Vec6) := NormedAlgebra.restrictScalars ℚ ℝ _
  exact NormedSpace.exp_continuous.comp (hx.smul hop)

/-- Displacements, rotation and section forces. -/
def Beam.obs (b : Beam) (z : Vec6) : Vec6 := ![z 0, z 2, z 4, b.N z, b.M z, b.V z]

/-- What an end condition prescribes. -/
def EndCond.lhs (b : Beam) : EndCond → Vec6 → Fin 3 → ℝ
  | .forces _ _ _, z => ![b.N z, b.M z, b.V z]
  | .contact _ kR _, z => ![b.N z, b.M z + kR * z 4, z 2]
  | .state _ _ _, z => ![z 0, z 2, z 4]

/-- The prescribed values. -/
def EndCond.data : EndCond → Fin 3 → ℝ
  | .forces N M V => ![N, M, V]
  | .contact N _ w => ![N, 0, w]
  | .state u w psi => ![u, w, psi]

theorem EndCond.holds_iff (b : Beam) (e : EndCond) (z : Vec6) : e.Holds b z ↔ e.lhs b z = e.data := by
  cases e <;> simp [EndCond.Holds, EndCond.lhs, EndCond.data, funext_iff, Fin.forall_fin_succ]

theorem EndCond.hom_iff (b : Beam) (e : EndCond) (z : Vec6) : e.hom.Holds b z ↔ e.lhs b z = 0 := by
  cases e <;> simp [EndCond.Holds, EndCond.lhs, EndCond.hom, funext_iff, Fin.forall_fin_succ]

theorem transmission_iff (b : Beam) (F : ℝ × ℝ × ℝ) (zl zr : Vec6) :
    Transmission b F zl zr ↔ b.obs zl - b.obs zr = ![0, 0, 0, F.1, F.2.1, F.2.2] := by
  constructor
  · rintro ⟨h1, h2, h3, h4, h5, h6⟩
    funext q
    fin_cases q <;> simp [Beam.obs, h1, h2, h3, h4, h5, h6]
  · intro h
    have k := congrFun h
    have k0 := k 0; have k1 := k 1; have k2 := k 2; have k3 := k 3; have k4 := k 4; have k5 := k 5
    simp [Beam.obs] at k0 k1 k2 k3 k4 k5
    exact ⟨by linarith, by linarith, by linarith, k3, k4, k5⟩

theorem Beam.obs_add (b : Beam) (z z' : Vec6) : b.obs (z + z') = b.obs z + b.obs z' := by
  funext q
  fin_cases q <;> simp [Beam.obs, Beam.N, Beam.M, Beam.V] <;> ring

theorem Beam.obs_smul (b : Beam) (c : ℝ) (z : Vec6) : b.obs (c • z) = c • b.obs z := by
  funext q
  fin_cases q <;> simp [Beam.obs, Beam.N, Beam.M, Beam.V] <;> ring

theorem EndCond.lhs_add (b : Beam) (e : EndCond) (z z' : Vec6) : e.lhs b (z + z') = e.lhs b z + e.lhs b z' := by
  cases e <;> funext q <;> fin_cases q <;> simp [EndCond.lhs, Beam.N, Beam.M, Beam.V] <;> ring

theorem EndCond.lhs_smul (b : Beam) (e : EndCond) (c : ℝ) (z : Vec6) : e.lhs b (c • z) = c • e.lhs b z := by
  cases e <;> funext q <;> fin_cases q <;> simp [EndCond.lhs, Beam.N, Beam.M, Beam.V] <;> ring

/-- End conditions of one kind whose values vary continuously. -/
inductive EndCond.Drifts : (T → EndCond) → Prop
  | forces {N M V : T → ℝ} (hN : Continuous N) (hM : Continuous M) (hV : Continuous V) :
      EndCond.Drifts fun t => .forces (N t) (M t) (V t)
  | contact {N kR w : T → ℝ} (hN : Continuous N) (hk : Continuous kR) (hw : Continuous w) :
      EndCond.Drifts fun t => .contact (N t) (kR t) (w t)
  | state {u w psi : T → ℝ} (hu : Continuous u) (hw : Continuous w) (hp : Continuous psi) :
      EndCond.Drifts fun t => .state (u t) (w t) (psi t)

theorem Beam.Drifts.obs (hd : Beam.Drifts b) {z : T → Vec6} (hz : Continuous z) : Continuous fun t => (b t).obs (z t) := by
  obtain ⟨h1, h2, h3, h4, -⟩ := hd
  have hz := continuous_pi_iff.1 hz
  refine continuous_pi fun q => ?_
  have := hz 0; have := hz 1; have := hz 2; have := hz 3; have := hz 4; have := hz 5
  fin_cases q <;> simp [Beam.obs, Beam.N, Beam.M, Beam.V] <;> fun_prop

theorem EndCond.Drifts.lhs {e : T → EndCond} (he : EndCond.Drifts e) (hd : Beam.Drifts b) {z : T → Vec6} (hz : Continuous z) :
    Continuous fun t => (e t).lhs (b t) (z t) := by
  obtain ⟨h1, h2, h3, h4, -⟩ := hd
  have hz := continuous_pi_iff.1 hz
  refine continuous_pi fun q => ?_
  have := hz 0; have := hz 1; have := hz 2; have := hz 3; have := hz 4; have := hz 5
  cases he <;> fin_cases q <;> simp [EndCond.lhs, Beam.N, Beam.M, Beam.V] <;> fun_prop

theorem EndCond.Drifts.data {e : T → EndCond} (he : EndCond.Drifts e) : Continuous fun t => (e t).data := by
  refine continuous_pi fun q => ?_
  cases he <;> fin_cases q <;> simp [EndCond.data] <;> fun_prop

/-- A vector per segment, continued by zero. -/
noncomputable def padded {n : ℕ} (c : Fin n → Vec6) (i : ℕ) : Vec6 := if h : i < n then c ⟨i, h⟩ else 0

theorem padded_add {n : ℕ} (c c' : Fin n → Vec6) (i : ℕ) : padded (c + c') i = padded c i + padded c' i := by
  unfold padded; split_ifs <;> simp

theorem padded_smul {n : ℕ} (r : ℝ) (c : Fin n → Vec6) (i : ℕ) : padded (r • c) i = r • padded c i := by
  unfold padded; split_ifs <;> simp

theorem continuous_padded {n : ℕ} {c : T → Fin n → Vec6} (h : Continuous c) (i : ℕ) : Continuous fun t => padded (c t) i := by
  unfold padded
  split_ifs
  · exact (continuous_apply _).comp h
  · exact continuous_const

/-- Both ends in one vector. -/
def both (l r : Fin 3 → ℝ) : Vec6 := ![l 0, l 1, l 2, r 0, r 1, r 2]

theorem continuous_both {l r : T → Fin 3 → ℝ} (hl : Continuous l) (hr : Continuous r) : Continuous fun t => both (l t) (r t) := by
  have hl := continuous_pi_iff.1 hl
  have hr := continuous_pi_iff.1 hr
  refine continuous_pi fun q => ?_
  fin_cases q
  exacts [hl 0, hl 1, hl 2, hr 0, hr 1, hr 2]

/-- Left-hand sides of all conditions of a chain, as a function of the states
at the beginnings of the segments. The last row holds the end conditions. -/
noncomputable def chainMap (b : Beam) (n : ℕ) (l : ℕ → ℝ) (k : ℕ → Bool) (e0 e1 : EndCond) :
    (Fin n → Vec6) →ₗ[ℝ] (Fin n → Vec6) where
  toFun c i :=
    if (i : ℕ) + 1 < n then b.obs (b.transfer (k i) (l i) (padded c i)) - b.obs (padded c (i + 1))
    else both (e0.lhs b (padded c 0)) (e1.lhs b (b.transfer (k (n - 1)) (l (n - 1)) (padded c (n - 1))))
  map_add' c c' := by
    funext i
    simp only [Pi.add_apply, padded_add, map_add, Beam.obs_add, EndCond.lhs_add]
    split_ifs
    · abel
    · funext q
      fin_cases q <;> simp [both]
  map_smul' r c := by
    funext i
    simp only [Pi.smul_apply, padded_smul, map_smul, Beam.obs_smul, EndCond.lhs_smul, RingHom.id_apply]
    split_ifs
    · rw [smul_sub]
    · funext q
      fin_cases q <;> simp [both]

theorem chainMap_injective {b : Beam} (hb : b.Coercive) (n : ℕ) (l : ℕ → ℝ) (k : ℕ → Bool) (hl : ∀ i < n, 0 ≤ l i)
    (e0 e1 : EndCond) (he0 : e0.PassiveLeft) (he1 : e1.PassiveRight) (j : ℕ) (hj : j < n) (hlj : 0 < l j)
    (hkj : k j = true ∨ (∃ u w psi, e0 = .state u w psi) ∧ ∀ i < j, l i = 0) :
    Function.Injective (chainMap b n l k e0 e1) := by
  refine (injective_iff_map_eq_zero _).2 fun c hc => ?_
  have hrow : ∀ i (hi : i < n), chainMap b n l k e0 e1 c ⟨i, hi⟩ = 0 := fun i hi => congrFun hc _
  have h0 : ∀ i, b.transfer (k i) 0 (padded c i) = padded c i := fun i => by simp [Beam.transfer]
  have hlast := hrow (n - 1) (by omega)
  simp only [chainMap, LinearMap.coe_mk, AddHom.coe_mk] at hlast
  rw [if_neg (by omega)] at hlast
  have hz := unloaded_at_rest hb n l k (fun i x => b.transfer (k i) x (padded c i)) hl (fun i _ => transfer_solves hb _ _)
    (fun i _ x hx => (transfer_solves hb _ _).at_rest hb x hx) e0 e1 he0 he1 ⟨?_, ?_, ?_⟩ j hj hlj hkj
  · funext i
    have := hz i i.2 0
    rw [h0] at this
    simpa [padded] using this
  · rw [h0, EndCond.hom_iff]
    funext q
    fin_cases q
    · exact congrFun hlast 0
    · exact congrFun hlast 1
    · exact congrFun hlast 2
  · rw [EndCond.hom_iff]
    funext q
    fin_cases q
    · exact congrFun hlast 3
    · exact congrFun hlast 4
    · exact congrFun hlast 5
  · intro i hi
    have h := hrow i (by omega)
    simp only [chainMap, LinearMap.coe_mk, AddHom.coe_mk] at h
    rw [if_pos hi] at h
    rw [transmission_iff, h0, h]
    funext q
    fin_cases q <;> rfl

/-- The states of a chain depend continuously on stiffnesses, lengths, end
conditions, jumps and particular states. -/
theorem chain_drift (hd : Beam.Drifts b) (hb : ∀ t, (b t).Coercive) (n : ℕ) (l : ℕ → T → ℝ) (hlc : ∀ i, Continuous (l i))
    (k : ℕ → Bool) (hl : ∀ t, ∀ i < n, 0 ≤ l i t) (F : ℕ → T → ℝ × ℝ × ℝ) (hF : ∀ i, Continuous (F i)) {e0 e1 : T → EndCond}
    (hd0 : EndCond.Drifts e0) (hd1 : EndCond.Drifts e1) (he0 : ∀ t, (e0 t).PassiveLeft) (he1 : ∀ t, (e1 t).PassiveRight)
    (held : ∀ t, ∃ j, j < n ∧ 0 < l j t ∧ (k j = true ∨ (∃ u w psi, e0 t = .state u w psi) ∧ ∀ i < j, l i t = 0))
    (P H : T → ℕ → ℝ → Vec6) (hP : ∀ i (x : T → ℝ), Continuous x → Continuous fun t => P t i (x t))
    (hH : ∀ t, ∀ i < n, SolvesODE (b t) Loads.zero (k i) (H t i))
    (hbvp : ∀ t, Bvp (b t) n (fun i => F i t) (e0 t) (e1 t) (fun i => H t i 0 + P t i 0) (fun i => H t i (l i t) + P t i (l i t)))
    (i : ℕ) (hi : i < n) (x : T → ℝ) (hx : Continuous x) : Continuous fun t => H t i (x t) + P t i (x t) := by
  have htr : ∀ t, ∀ i < n, ∀ y, H t i y = (b t).transfer (k i) y (H t i 0) := fun t i hi y => by
    have := solves_transfer (hb t) (hH t i hi) 0 y
    rwa [add_zero] at this
  have hP0 : ∀ i, Continuous fun t => P t i 0 := fun i => hP i _ continuous_const
  have hPl : ∀ i, Continuous fun t => P t i (l i t) := fun i => hP i _ (hlc i)
  set c : T → Fin n → Vec6 := fun t i => H t i 0 with hc
  have hpad : ∀ t, ∀ i < n, padded (c t) i = H t i 0 := fun t i hi => by simp [padded, hi, hc]
  have hcc : Continuous c := by
    refine continuous_of_injective (fun t => chainMap (b t) n (fun i => l i t) k (e0 t) (e1 t)) (fun v => ?_) (fun t => ?_) ?_
    · refine continuous_pi fun i => ?_
      simp only [chainMap, LinearMap.coe_mk, AddHom.coe_mk]
      have hv : ∀ i, Continuous fun t => (b t).transfer (k i) (l i t) (padded v i) := fun i =>
        (hd.transfer hb (k i) (hlc i)).clm_apply continuous_const
      split_ifs
      · exact (hd.obs (hv i)).sub (hd.obs continuous_const)
      · exact continuous_both (hd0.lhs hd continuous_const) (hd1.lhs hd (hv _))
    · obtain ⟨j, h1, h2, h3⟩ := held t
      exact chainMap_injective (hb t) n _ k (hl t) _ _ (he0 t) (he1 t) j h1 h2 h3
    · refine continuous_pi fun i => ?_
      by_cases hi : (i : ℕ) + 1 < n
      · have e : (fun t => chainMap (b t) n (fun i => l i t) k (e0 t) (e1 t) (c t) i) = fun t =>
            ![0, 0, 0, (F i t).1, (F i t).2.1, (F i t).2.2] - (b t).obs (P t i (l i t)) + (b t).obs (P t (i + 1) 0) := by
          funext t
          simp only [chainMap, LinearMap.coe_mk, AddHom.coe_mk]
          rw [if_pos hi, hpad t i i.2, hpad t _ hi, ← htr t i i.2]
          have := (transmission_iff _ _ _ _).1 ((hbvp t).trans i hi)
          rw [Beam.obs_add, Beam.obs_add] at this
          rw [← this]
          abel
        rw [e]
        refine (Continuous.sub ?_ (hd.obs (hPl i))).add (hd.obs (hP0 _))
        have := hF i
        refine continuous_pi fun q => ?_
        fin_cases q <;> simp <;> fun_prop
      · have e : (fun t => chainMap (b t) n (fun i => l i t) k (e0 t) (e1 t) (c t) i) = fun t =>
            both ((e0 t).data - (e0 t).lhs (b t) (P t 0 0)) ((e1 t).data - (e1 t).lhs (b t) (P t (n - 1) (l (n - 1) t))) := by
          funext t
          simp only [chainMap, LinearMap.coe_mk, AddHom.coe_mk]
          rw [if_neg hi, hpad t 0 (by omega), hpad t (n - 1) (by omega), ← htr t _ (by omega)]
          have h1 := (EndCond.holds_iff _ _ _).1 (hbvp t).left
          have h2 := (EndCond.holds_iff _ _ _).1 (hbvp t).right
          rw [EndCond.lhs_add] at h1 h2
          rw [← h1, ← h2, add_sub_cancel_right, add_sub_cancel_right]
        rw [e]
        exact continuous_both (hd0.data.sub (hd0.lhs hd (hP0 0))) (hd1.data.sub (hd1.lhs hd (hPl _)))
  refine Continuous.add ?_ (hP i x hx)
  have e : (fun t => H t i (x t)) = fun t => (b t).transfer (k i) (x t) (c t ⟨i, hi⟩) := by
    funext t
    exact htr t i hi _
  rw [e]
  exact (hd.transfer hb (k i) hx).clm_apply ((continuous_apply (⟨i, hi⟩ : Fin n)).comp hcc)

end Weac.Spec
