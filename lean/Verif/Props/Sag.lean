import Verif.Props.EnergyBalance
import Verif.Props.Loads
import Verif.Props.TouchdownRuns

/-!
# C81: on level terrain the slab sags over cracks

The settlement of an intact slab on level terrain is its weight (with surface
load) per length over the normal stiffness of the weak layer. Where the slab is
undermined it sinks further, in the mean over the unsupported stretches. If
weights stand on the slab, the mean includes their points, weighted by the loads.
-/

namespace Weac

/-- Load per length normal to level ground. -/
noncomputable def Spec.levelLoad (s : Self) : ℝ := (s.loads 0).qn + (s.loads 0).pn

/-- Settlement of an intact slab on level ground. -/
noncomputable def Spec.settlement (s : Self) : ℝ := levelLoad s / s.kn

/-- Deflection beyond the settlement, integrated over the unsupported stretches. -/
noncomputable def Spec.sagOverCracks (s : Self) (a : SegLists) (C : List Vec6) : ℝ :=
  overBeam s 0 a C fun k z => if k then 0 else fw z - settlement s

/-- Deflection beyond the settlement below the weights, times their loads. -/
noncomputable def Spec.sagBelowWeights (s : Self) (a : SegLists) (C : List Vec6) : ℝ :=
  ∑ i ∈ Finset.range (a.li.length - 1), (getSkierLoad s (nth a.mi i) 0).1 * (fw (atBoundary s 0 a C i) - settlement s)

open Spec

/-- The settled state. -/
noncomputable def settled (s : Self) : Vec6 := ![0, 0, settlement s, 0, 0, 0]

theorem level_tangential (s : Self) : (s.loads 0).qt = 0 ∧ (s.loads 0).pt = 0 := by
  simp [Self.loads, getWeightLoad, getSurfaceLoad, deg2rad]

theorem settled_driven (s : Self) (hk : s.kn ≠ 0) (bed : Bool) :
    Driven s.beam bed (if bed then (0, levelLoad s, 0) else (0, 0, 0)) (fun _ => settled s) := by
  intro x
  refine ⟨0, hasDerivAt_const x _, ?_⟩
  cases bed
  · refine ⟨⟨?_, ?_, ?_⟩, ?_, ?_, ?_⟩ <;> simp [settled, Beam.V]
  · refine ⟨⟨?_, ?_, ?_⟩, ?_, ?_, ?_⟩ <;> simp [settled, Beam.V, Beam.tau, Self.beam, settlement]
    field_simp
    ring

/-- The state relative to the settled one. -/
noncomputable def relState (s : Self) (a : SegLists) (C : ℕ → Vec6) (i : ℕ) (x : ℝ) : Vec6 :=
  stateAt s 0 a.li a.ki C i x - settled s

theorem relState_driven {s : Self} (hb : BedOk s) (a : SegLists) (C : ℕ → Vec6) (i : ℕ) :
    Driven s.beam (a.ki.getD i false) (if a.ki.getD i false then (0, 0, 0) else (0, levelLoad s, 0)) (relState s a C i) := by
  have h1 := stateAt_driven s hb 0 a.li a.ki C i
  have h2 := h1.add ((settled_driven s hb.stiff.kn.ne' (a.ki.getD i false)).smul (-1))
  have e : driveOf s 0 (a.ki.getD i false) + (-1 : ℝ) • (if a.ki.getD i false then (0, levelLoad s, 0) else (0, 0, 0) : ℝ × ℝ × ℝ)
      = if a.ki.getD i false then (0, 0, 0) else (0, levelLoad s, 0) := by
    obtain ⟨t1, t2⟩ := level_tangential s
    cases a.ki.getD i false <;> simp [driveOf, Beam.drive, t1, t2, levelLoad]
  rw [e] at h2
  have e' : (fun x => stateAt s 0 a.li a.ki C i x + (-1 : ℝ) • settled s) = relState s a C i := by
    funext x
    simp [relState, sub_eq_add_neg]
  rwa [e'] at h2

theorem virtual_self (b : Beam) (bed : Bool) (d : ℝ × ℝ × ℝ) (z : Vec6) : b.virtual bed d z z = b.diss bed z - distWork d z := by
  simp only [Beam.virtual, Beam.slabWork, Beam.layerWork, Beam.diss, Beam.N, Beam.M, Beam.V]
  cases bed <;> simp <;> ring

theorem relState_end {s : Self} {z : Vec6} (h : (endOf s 0).Holds s.beam z) :
    s.beam.cross (z - settled s) (z - settled s) = 0 := by
  have hN : s.beam.N (z - settled s) = s.beam.N z := by simp [Beam.N, settled]
  have hM : s.beam.M (z - settled s) = s.beam.M z := by simp [Beam.M, settled]
  have hV : s.beam.V (z - settled s) = s.beam.V z := by simp [Beam.V, settled]
  unfold Beam.cross
  rw [hN, hM, hV]
  unfold endOf at h
  by_cases hp : IsPst s
  · rw [if_pos hp] at h
    obtain ⟨h1, h2, h3⟩ := h
    rw [h1, h2, h3]; ring
  · rw [if_neg hp] at h
    by_cases hv : IsVpst s
    · rw [if_pos hv] at h
      have e : faceForces s 0 = .forces 0 0 0 := by simp [faceForces, calcVerticalBcCenterOfGravity, deg2rad]
      rw [e] at h
      obtain ⟨h1, h2, h3⟩ := h
      rw [h1, h2, h3]; ring
    · rw [if_neg hv] at h
      obtain ⟨h1, h2, h3⟩ := h
      obtain ⟨t1, t2⟩ := level_tangential s
      have t1' : (getWeightLoad s 0).2 = 0 := t1
      have t2' : (getSurfaceLoad s 0).2 = 0 := t2
      have e0 : zp s 0 0 true 0 = 0 := by simp [zp, t1', t2']
      have e2 : zp s 0 0 true 2 = settlement s := by simp [zp, settlement, levelLoad, Self.loads]
      have e4 : zp s 0 0 true 4 = 0 := by simp [zp, t1', t2']
      rw [e0] at h1
      rw [e2] at h2
      rw [e4] at h3
      simp [settled, h1, h2, h3]

/-- Balance of work relative to the settled state. -/
theorem sag_balance {s : Self} (hb : BedOk s) {kR : ℝ} {a : SegLists} (hd : DeadLoads s a) {C : List Vec6} (h2 : 2 ≤ a.li.length)
    (hm : Meets s 0 kR a fun i => C.getD i 0) :
    levelLoad s * sagOverCracks s a C + sagBelowWeights s a C
      = ∑ i ∈ Finset.range a.li.length, ∫ x in (0 : ℝ)..nth a.li i,
          s.beam.diss (a.ki.getD i false) (relState s a (fun i => C.getD i 0) i x) := by
  obtain ⟨n, hn⟩ : ∃ n, a.li.length = n + 1 := ⟨a.li.length - 1, by omega⟩
  set Y := relState s a (fun i => C.getD i 0) with hY
  have seg : ∀ i, s.beam.cross (Y i (nth a.li i)) (Y i (nth a.li i)) - s.beam.cross (Y i 0) (Y i 0)
      = (∫ x in (0 : ℝ)..nth a.li i, s.beam.diss (a.ki.getD i false) (Y i x))
        - levelLoad s * ∫ x in (0 : ℝ)..nth a.li i, (if a.ki.getD i false then 0 else Y i x 2) := by
    intro i
    have dr := relState_driven hb a (fun i => C.getD i 0) i
    rw [← hY] at dr
    have c : Continuous (Y i) := dr.continuous
    rw [← virtual_segment dr dr, ← intervalIntegral.integral_const_mul, ← intervalIntegral.integral_sub]
    · refine intervalIntegral.integral_congr fun x _ => ?_
      simp only [virtual_self]
      cases a.ki.getD i false <;> simp [distWork]
    · refine Continuous.intervalIntegrable ?_ _ _
      unfold Beam.diss Beam.tau
      cases a.ki.getD i false <;> simp only [Bool.false_eq_true, if_false, if_true] <;> fun_prop
    · refine Continuous.intervalIntegrable ?_ _ _
      cases a.ki.getD i false <;> simp only [Bool.false_eq_true, if_false, if_true] <;> fun_prop
  have tele := chain_telescope n (fun i => s.beam.cross (Y i 0) (Y i 0)) (fun i => s.beam.cross (Y i (nth a.li i)) (Y i (nth a.li i)))
    (fun i => (getSkierLoad s (nth a.mi i) 0).1 * (Y i (nth a.li i) 2)) (fun i hi => by
      have t := hm.trans i (by omega)
      have t2 : (getSkierLoad s (nth a.mi i) 0).2 = 0 := by simp [getSkierLoad, deg2rad]
      have e1 := t.N
      have e2 := t.M
      have e3 := t.V
      simp only [jump, if_neg hd.not_aux, t2, zero_mul, neg_zero] at e1 e2 e3
      have f0 : Y i (nth a.li i) 0 = Y (i + 1) 0 0 := by simp only [hY, relState, Pi.sub_apply]; rw [show stateAt _ _ _ _ _ i _ 0 = _ from t.u]
      have f2 : Y i (nth a.li i) 2 = Y (i + 1) 0 2 := by simp only [hY, relState, Pi.sub_apply]; rw [show stateAt _ _ _ _ _ i _ 2 = _ from t.w]
      have f4 : Y i (nth a.li i) 4 = Y (i + 1) 0 4 := by simp only [hY, relState, Pi.sub_apply]; rw [show stateAt _ _ _ _ _ i _ 4 = _ from t.psi]
      have N : ∀ z, s.beam.N (z - settled s) = s.beam.N z := fun z => by simp [Beam.N, settled]
      have M : ∀ z, s.beam.M (z - settled s) = s.beam.M z := fun z => by simp [Beam.M, settled]
      have V : ∀ z, s.beam.V (z - settled s) = s.beam.V z := fun z => by simp [Beam.V, settled]
      simp only [Beam.cross]
      rw [← f0, ← f2, ← f4]
      simp only [hY, relState, N, M, V]
      linear_combination (stateAt s 0 a.li a.ki (fun i => C.getD i 0) i (nth a.li i) - settled s) 0 * e1
        + (stateAt s 0 a.li a.ki (fun i => C.getD i 0) i (nth a.li i) - settled s) 4 * e2
        + (stateAt s 0 a.li a.ki (fun i => C.getD i 0) i (nth a.li i) - settled s) 2 * e3)
  have l0 := hm.left
  have r0 := hm.right
  rw [(hd.ends 0 _).1] at l0
  rw [(hd.ends 0 _).2, hn, Nat.add_sub_cancel] at r0
  have c0 : s.beam.cross (Y 0 0) (Y 0 0) = 0 := relState_end l0
  have c1 : s.beam.cross (Y n (nth a.li n)) (Y n (nth a.li n)) = 0 := relState_end r0
  rw [Finset.sum_congr rfl fun i _ => seg i, Finset.sum_sub_distrib, ← Finset.mul_sum, c0, c1] at tele
  unfold sagOverCracks sagBelowWeights overBeam
  rw [hn, Nat.add_sub_cancel]
  have e1 : ∀ i, (∫ x in (0 : ℝ)..nth a.li i, (if a.ki.getD i false then 0 else Y i x 2))
      = ∫ x in (0 : ℝ)..nth a.li i, (if a.ki.getD i false then 0
          else fw (zsol s x (C.getD i 0) (nth a.li i) 0 (a.ki.getD i false)) - settlement s) := fun i => rfl
  simp only [e1] at tele
  have e2 : ∀ i, Y i (nth a.li i) 2 = fw (atBoundary s 0 a C i) - settlement s := fun i => rfl
  simp only [e2] at tele
  linarith

section

variable {num : Numerics} {kind : SeqKind} {a a' : SegLists} {s s' : Self} {C : List Vec6}

/-- C81. On level terrain the deflection beyond the settlement of an intact slab,
weighted by the loads on unsupported stretches and by the weights, is not negative. -/
theorem C81_sag (hb : BedOk s) (hc : ShearOk s) (hf : EigFresh num.eig s) (hd : DeadLoads s a')
    (h : assembleAndSolve num kind 0 a s = (.ok (C, a'), s')) (hl : ∀ l ∈ a'.li, 0 ≤ l) :
    0 ≤ levelLoad s * sagOverCracks s a' C + sagBelowWeights s a' C := by
  have h2 := full_two (assembleWith_valid (sub := spring num) h).1
  obtain ⟨-, hfull, -, hm, -⟩ := C16_solution_meets_all_conditions num kind 0 a a' s s' C hf hd.faces h
  rw [← hfull] at h2
  rw [sag_balance hb hd h2 hm]
  refine Finset.sum_nonneg fun i hi => intervalIntegral.integral_nonneg ?_ fun x _ => (hb.stiff.coercive hc).diss_nonneg _ _
  rw [nth_eq (Finset.mem_range.1 hi)]
  exact hl _ (List.getElem_mem _)

/-- C81, strict part: it is positive if a loaded stretch is unsupported. -/
theorem C81_sag_strict (hb : BedOk s) (hc : ShearOk s) (hf : EigFresh num.eig s) (hd : DeadLoads s a')
    (h : assembleAndSolve num kind 0 a s = (.ok (C, a'), s')) (hl : ∀ l ∈ a'.li, 0 ≤ l) (hq : levelLoad s ≠ 0)
    (j : ℕ) (hj : j < a'.li.length) (hpos : 0 < nth a'.li j) (hk : a'.ki.getD j false = false) :
    0 < levelLoad s * sagOverCracks s a' C + sagBelowWeights s a' C := by
  have h2 := full_two (assembleWith_valid (sub := spring num) h).1
  obtain ⟨-, hfull, -, hm, -⟩ := C16_solution_meets_all_conditions num kind 0 a a' s s' C hf hd.faces h
  rw [← hfull] at h2
  rw [sag_balance hb hd h2 hm]
  have hcc := hb.stiff.coercive hc
  refine Finset.sum_pos' (fun i hi => intervalIntegral.integral_nonneg ?_ fun x _ => hcc.diss_nonneg _ _)
    ⟨j, Finset.mem_range.2 hj, ?_⟩
  · rw [nth_eq (Finset.mem_range.1 hi)]
    exact hl _ (List.getElem_mem _)
  rw [hk]
  have dr := relState_driven hb a' (fun i => C.getD i 0) j
  rw [hk] at dr
  simp only [Bool.false_eq_true, if_false] at dr
  set Y := relState s a' (fun i => C.getD i 0) j
  have c : Continuous Y := dr.continuous
  have cd : Continuous fun x => s.beam.diss false (Y x) := by
    unfold Beam.diss
    simp only [Bool.false_eq_true, if_false]
    fun_prop
  -- the shear force changes, so it does not vanish everywhere
  have hx : ∃ x ∈ Set.Ioo 0 (nth a'.li j), s.beam.diss false (Y x) ≠ 0 := by
    by_contra hcon
    push Not at hcon
    have hm : nth a'.li j / 2 ∈ Set.Ioo 0 (nth a'.li j) := ⟨by linarith, by linarith⟩
    obtain ⟨dz, d1, -, -, d3, -⟩ := dr (nth a'.li j / 2)
    have d := hasDerivAt_pi.mp d1
    have hev : (fun y => s.beam.S * (Y y 3 + Y y 4)) =ᶠ[nhds (nth a'.li j / 2)] fun _ => (0 : ℝ) :=
      Filter.eventually_of_mem (Ioo_mem_nhds hm.1 hm.2) fun x hx => by
        show s.beam.S * (Y x 3 + Y x 4) = 0
        rw [(hcc.diss_zero_free _ (hcon x hx)).2.2, mul_zero]
    have h0 := ((((d 3).add (d 4)).const_mul s.beam.S).congr_of_eventuallyEq hev.symm).unique (hasDerivAt_const _ _)
    rw [d3] at h0
    simp at h0
    exact hq h0
  obtain ⟨x, hx, hne⟩ := hx
  refine intervalIntegral.integral_pos hpos cd.continuousOn (fun y _ => hcc.diss_nonneg _ _)
    ⟨x, ⟨hx.1.le, hx.2.le⟩, lt_of_le_of_ne (hcc.diss_nonneg _ _) hne.symm⟩

/-- C81, no weights: over its unsupported stretches the slab sinks on average more than
an intact slab. -/
theorem C81_mean_sag (hb : BedOk s) (hc : ShearOk s) (hf : EigFresh num.eig s) (hd : DeadLoads s a')
    (h : assembleAndSolve num kind 0 a s = (.ok (C, a'), s')) (hl : ∀ l ∈ a'.li, 0 ≤ l) (hq : 0 < levelLoad s)
    (hw : ∀ i, nth a'.mi i = 0)
    (j : ℕ) (hj : j < a'.li.length) (hpos : 0 < nth a'.li j) (hk : a'.ki.getD j false = false) :
    0 < sagOverCracks s a' C := by
  have := C81_sag_strict hb hc hf hd h hl hq.ne' j hj hpos hk
  have e : sagBelowWeights s a' C = 0 := Finset.sum_eq_zero fun i _ => by simp [hw, getSkierLoad]
  rw [e, add_zero] at this
  exact (mul_pos_iff_of_pos_left hq).mp this

end

/-- A level slab without weights over a crack of 300 mm, in the system of a skier. -/
example : ∃ C : List Vec6,
    assembleAndSolve stdNum .list 0 ⟨skierLists.li, [0, 0, 0], skierLists.ki⟩ skierDemo
      = (.ok (C, ⟨skierLists.li, [0, 0, 0], skierLists.ki⟩), skierDemo) ∧
    0 < sagOverCracks skierDemo ⟨skierLists.li, [0, 0, 0], skierLists.ki⟩ C := by
  have run := fun mi hm => loads_solved (demo_bedOk _ _) (demo_shear _ _ _) skierDemo_sound
    (.inr (.inr (.inl skierDemo_isSkier))) (fun h => absurd h skierDemo_not_pst) rfl (by simp [skierLists])
    (fun _ => by simp [skierLists])
    ⟨by simp [skierLists], 0, by simp [skierLists], by simp [skierLists], by simp [skierLists, nth]⟩ .list 0 skierDemo.p
    skierDemo.tc mi hm
  obtain ⟨C, r⟩ := run [0, 0, 0] rfl
  refine ⟨C, r, C81_mean_sag (demo_bedOk _ _) (demo_shear _ _ _) skierDemo_sound.fresh
    ⟨.inr (.inr skierDemo_isSkier), fun h => absurd h skierDemo_not_pst, skierDemo_sound.face⟩ r (by simp [skierLists]) ?_
    (fun j => by rcases j with _ | _ | _ | j <;> simp [nth]) 1 (by simp [skierLists]) (by norm_num [skierLists, nth])
    (by simp [skierLists])⟩
  have := demo_load "skiers" false 0
  show 0 < (skierDemo.loads 0).qn + (skierDemo.loads 0).pn
  exact lt_of_lt_of_eq (by norm_num [deg2rad]) this.symm

end Weac
