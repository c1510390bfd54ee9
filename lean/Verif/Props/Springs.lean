import Verif.Spec.Response
import Verif.Props.SolveDemo

/-!
# C25 (touchdown computation), C26: substitute springs
-/

namespace Weac
open Spec

/-! ## Frames of the touchdown computation -/

theorem brentLoop_frame (next : List (ℝ × ℝ) → ℝ ⊕ ℝ) (f : ℝ → Py ℝ) (s : Self) (hf : ∀ x, Frame (f x) s) :
    ∀ n hist, Frame (brentLoop next f n hist) s := by
  intro n
  induction n with
  | zero => intro hist; exact Frame.raise _ _
  | succ n ih =>
    intro hist
    unfold brentLoop
    rcases next hist with x | r
    · exact (hf x).bind fun y _ => ih _
    · exact Frame.pure _ _

theorem brentq_frame (num : Numerics) (f : ℝ → Py ℝ) (a b : ℝ) (s : Self) (hf : ∀ x, Frame (f x) s) :
    Frame (brentq num f a b) s := by
  unfold brentq
  refine (hf a).bind fun fa _ => (hf b).bind fun fb _ => ?_
  split_ifs
  · exact Frame.pure _ _
  · exact Frame.pure _ _
  · exact Frame.raise _ _
  · exact brentLoop_frame _ _ _ hf _ _

theorem subst_frame (eig : EigSolver) (s : Self) (hf : EigFresh eig s) (L : ℝ) (rested : Bool) (dof : Dof) :
    Frame (substituteStiffness eig L rested dof) s := fun k s' h =>
  C25_substitute_stiffness_frame eig L rested dof s s' k hf h

theorem calcA1_frame (num : Numerics) (s : Self) (hf : EigFresh num.eig s) : Frame (calcA1 num) s := by
  unfold calcA1
  refine (Frame.get s).bind fun s1 _ => brentq_frame num _ _ _ s fun x => ?_
  unfold polyA1
  exact (subst_frame _ s hf _ _ _).bind fun _ _ => (subst_frame _ s hf _ _ _).bind fun _ _ => Frame.pure _ _

theorem calcA2_frame (num : Numerics) (s : Self) (hf : EigFresh num.eig s) : Frame (calcA2 num) s := by
  unfold calcA2
  refine (Frame.get s).bind fun s1 _ => brentq_frame num _ _ _ s fun x => ?_
  unfold polyA2
  exact (subst_frame _ s hf _ _ _).bind fun _ _ => (subst_frame _ s hf _ _ _).bind fun _ _ => Frame.pure _ _

theorem calcLC_frame (num : Numerics) (s : Self) (hf : EigFresh num.eig s) : Frame (calcLC num) s := by
  unfold calcLC
  refine (Frame.get s).bind fun s1 _ => brentq_frame num _ _ _ s fun x => ?_
  unfold polyLC
  exact (subst_frame _ s hf _ _ _).bind fun _ _ => (subst_frame _ s hf _ _ _).bind fun _ _ =>
    (subst_frame _ s hf _ _ _).bind fun _ _ => Frame.pure _ _

/-- What `calc_touchdown_mode` does when it returns. -/
theorem touchdownMode_ok {num : Numerics} {s s' : Self} (hf : EigFresh num.eig s)
    (h : calcTouchdownMode num s = (.ok (), s')) :
    (s.touchdown = false ∧ s' = { s with mode := .A }) ∨
    (s.touchdown = true ∧ ∃ a1 a2, calcA1 num s = (.ok a1, s) ∧ calcA2 num s = (.ok a2, s) ∧
      ((s.a ≤ a1 ∧ s' = { s with mode := .A }) ∨ (a1 < s.a ∧ s.a ≤ a2 ∧ s' = { s with mode := .B }) ∨
        (a1 < s.a ∧ a2 < s.a ∧ s' = { s with mode := .C }))) := by
  unfold calcTouchdownMode at h
  rw [Py.get_bind] at h
  by_cases ht : s.touchdown = true
  swap
  · left
    rw [if_neg ht] at h
    refine ⟨by simpa using ht, ?_⟩
    have := congrArg Prod.snd h
    exact this.symm
  · right
    rw [if_pos ht] at h
    obtain ⟨a1, s1, h1, h⟩ := Py.bind_ok.mp h
    have e1 := calcA1_frame num s hf _ _ h1
    rw [e1] at h1 h
    obtain ⟨a2, s2, h2, h⟩ := Py.bind_ok.mp h
    have e2 := calcA2_frame num s hf _ _ h2
    rw [e2] at h2 h
    rw [Py.get_bind] at h
    refine ⟨ht, a1, a2, h1, h2, ?_⟩
    by_cases c1 : s.a ≤ a1
    · rw [if_pos c1] at h
      exact .inl ⟨c1, (congrArg Prod.snd h).symm⟩
    rw [if_neg c1] at h
    by_cases c2 : a1 < s.a ∧ s.a ≤ a2
    · rw [if_pos c2] at h
      exact .inr (.inl ⟨c2.1, c2.2, (congrArg Prod.snd h).symm⟩)
    rw [if_neg c2] at h
    have c1' := not_le.mp c1
    have c3 : a2 < s.a := by
      by_contra hc
      exact c2 ⟨c1', not_lt.mp hc⟩
    rw [if_pos c3] at h
    exact .inr (.inr ⟨c1', c3, (congrArg Prod.snd h).symm⟩)

/-- C25: determining the touchdown stage changes nothing but the stage. -/
theorem C25_touchdown_mode_frame (num : Numerics) (s s' : Self) (hf : EigFresh num.eig s)
    (h : calcTouchdownMode num s = (.ok (), s')) : s' = { s with mode := s'.mode } := by
  rcases touchdownMode_ok hf h with ⟨-, rfl⟩ | ⟨-, a1, a2, -, -, ⟨-, rfl⟩ | ⟨-, -, rfl⟩ | ⟨-, -, rfl⟩⟩ <;> rfl

/-- What `calc_touchdown_length` does when it returns. -/
theorem touchdownLength_ok {num : Numerics} {s s' : Self} (hf : EigFresh num.eig s)
    (h : calcTouchdownLength num s = (.ok (), s')) :
    (s.mode = .unset ∧ s' = s) ∨ ((s.mode = .A ∨ s.mode = .B) ∧ s' = { s with td := s.a }) ∨
    (s.mode = .C ∧ ∃ l, calcLC num s = (.ok l, s) ∧ s' = { s with td := l }) := by
  unfold calcTouchdownLength at h
  rw [Py.get_bind] at h
  have hm : s.mode = .unset ∨ s.mode = .A ∨ s.mode = .B ∨ s.mode = .C := by
    cases s.mode <;> simp
  rcases hm with hm | hm | hm | hm <;> rw [hm] at h <;> simp only at h
  · exact .inl ⟨hm, (congrArg Prod.snd h).symm⟩
  · exact .inr (.inl ⟨.inl hm, (congrArg Prod.snd h).symm⟩)
  · exact .inr (.inl ⟨.inr hm, (congrArg Prod.snd h).symm⟩)
  · obtain ⟨l, s1, h1, h⟩ := Py.bind_ok.mp h
    have e1 := calcLC_frame num s hf _ _ h1
    rw [e1] at h1 h
    exact .inr (.inr ⟨hm, l, h1, (congrArg Prod.snd h).symm⟩)

/-- C25: the touchdown length changes nothing else. -/
theorem C25_touchdown_length_frame (num : Numerics) (s s' : Self) (hf : EigFresh num.eig s)
    (h : calcTouchdownLength num s = (.ok (), s')) : s' = { s with td := s'.td } := by
  rcases touchdownLength_ok hf h with ⟨-, rfl⟩ | ⟨-, rfl⟩ | ⟨-, l, -, rfl⟩ <;> rfl

theorem setTouchdownAttributes_fresh {eig : EigSolver} {s : Self} (hf : EigFresh eig s) (L a cf phi ratio : ℝ) :
    EigFresh eig (setTouchdownAttributes L a cf phi ratio s) :=
  hf.stage s.system s.mode L a (setTouchdownAttributes L a cf phi ratio s).tc s.td phi ratio

/-- C25: the whole touchdown computation assigns the touchdown attributes and
leaves the structure alone. -/
theorem C25_touchdown_system_frame (num : Numerics) (L a cf phi ratio : ℝ) (s s' : Self)
    (hf : EigFresh num.eig s) (h : calcTouchdownSystem num L a cf phi ratio s = (.ok (), s')) :
    s' = s.stage s.system s'.mode L a s'.tc s'.td phi ratio ∧
    s'.tc = (setTouchdownAttributes L a cf phi ratio s).tc := by
  unfold calcTouchdownSystem at h
  rw [Py.modify_bind] at h
  have hf1 := setTouchdownAttributes_fresh hf L a cf phi ratio
  have e0 : setTouchdownAttributes L a cf phi ratio s
      = s.stage s.system s.mode L a (setTouchdownAttributes L a cf phi ratio s).tc s.td phi ratio := rfl
  generalize setTouchdownAttributes L a cf phi ratio s = s0 at *
  obtain ⟨u, s1, h1, h2⟩ := Py.bind_ok.mp h
  have e1 := C25_touchdown_mode_frame num s0 s1 hf1 h1
  have hf2 : EigFresh num.eig s1 := by
    rw [e1]
    exact hf1.stage s0.system s1.mode s0.L s0.a s0.tc s0.td s0.phi s0.ratio
  have e2 := C25_touchdown_length_frame num s1 s' hf2 h2
  rw [e1] at e2
  rw [e0] at e2
  refine ⟨?_, by rw [e2]; rfl⟩
  have e3 := congrArg Self.mode e2
  have e4 := congrArg Self.tc e2
  rw [e2]
  rfl

/-! ## C26 -/

/-- Slab and foundation of the auxiliary problem. -/
noncomputable def Self.auxBeam (s : Self) (rested : Bool) : Beam :=
  if rested then { s.beam with kn := s.ratio * s.kn, kt := s.ratio * s.kt } else s.beam

theorem prep_beam (eig : EigSolver) (rested : Bool) (dof : Dof) (s : Self) :
    (prep eig rested dof s).beam = s.auxBeam rested := by
  cases rested <;> cases dof <;> rfl

theorem Spec.TipLoaded.unique {b : Beam} (hb : b.Coercive) {L N M V : ℝ} (hL : 0 < L) {Y Z : ℝ → Vec6}
    (hY : TipLoaded b L N M V Y) (hZ : TipLoaded b L N M V Z) (x : ℝ) : Y x = Z x := by
  refine chain_unique hb 1 (fun _ => L) (fun _ => true) (fun _ => b.drive Loads.zero) (fun _ => Y) (fun _ => Z)
    (fun _ _ => hL.le) (fun _ _ => (solvesODE_iff_driven _ _ _ _).mp hY.ode)
    (fun _ _ => (solvesODE_iff_driven _ _ _ _).mp hZ.ode) (fun _ => (0, 0, 0)) (.forces N M V) (.forces 0 0 0)
    trivial trivial ⟨hY.loaded, hY.free, fun i hi => absurd hi (by omega)⟩
    ⟨hZ.loaded, hZ.free, fun i hi => absurd hi (by omega)⟩ ⟨0, by omega, hL, .inl rfl⟩ 0 (by omega) x

/-- The end yields in the direction of the load: work is positive. -/
theorem Spec.TipLoaded.work_neg {b : Beam} (hb : b.Coercive) {L N M V : ℝ} (hL : 0 < L) {Z : ℝ → Vec6}
    (hZ : TipLoaded b L N M V Z) (hne : N ≠ 0 ∨ M ≠ 0 ∨ V ≠ 0) : N * Z 0 0 + M * Z 0 4 + V * Z 0 2 < 0 := by
  obtain ⟨h1, h2, h3⟩ := hZ.loaded
  obtain ⟨k1, k2, k3⟩ := hZ.free
  have f0 : b.flux (Z 0) = N * Z 0 0 + M * Z 0 4 + V * Z 0 2 := by rw [Beam.flux, h1, h2, h3]
  have fL : b.flux (Z L) = 0 := by rw [Beam.flux, k1, k2, k3]; ring
  rw [← f0]
  by_contra hc
  push Not at hc
  have hr := bedded_rest hb hZ.ode hL (by rw [fL]; exact hc)
  have h0 := hZ.ode.at_rest hb (L / 2) hr 0
  rw [h0] at h1 h2 h3
  simp only [Beam.N, Beam.M, Beam.V, Pi.zero_apply, mul_zero, add_zero] at h1 h2 h3
  rcases hne with h | h | h
  · exact h h1.symm
  · exact h h2.symm
  · exact h h3.symm

/-- Uniform settlement under the load of the auxiliary problem, which is
horizontal. -/
theorem zp_level (s : Self) (x : ℝ) :
    zp s x 0 true = ![0, 0, ((s.loads 0).qn + (s.loads 0).pn) / s.kn, 0, 0, 0] := by
  have h0 : deg2rad 0 = 0 := by simp [deg2rad]
  funext i
  fin_cases i <;> simp [zp, Self.loads, getWeightLoad, getSurfaceLoad, h0]

/-- The complementary part of the solution of the auxiliary problem is the
response of the weightless slab. -/
theorem aux_tipLoaded {s : Self} (hb : BedOk s) (haux : IsAux s) (L kR : ℝ) (C : ℕ → Vec6)
    (hm : Meets s 0 kR (auxLists L) C) :
    TipLoaded s.beam L 0 (if s.system = "rot" then 1 else 0) (if s.system = "rot" then 0 else 1)
      (fun x => (zh s x L true).mulVec (C 0)) := by
  obtain ⟨h1, h2, h3⟩ := hm
  have hj : jump s 0 (auxLists L).mi 0 = (0, 0, 0) := by unfold jump; rw [if_pos haux]
  have t0 := h3 0 (by simp [auxLists])
  rw [hj] at t0
  have np := aux_not_pst haux
  have nv := aux_not_vpst haux
  have ns : ¬ IsSkier s := by
    unfold IsSkier
    rcases haux with h | h <;> rw [h] <;> decide
  have hst : ∀ x, stateAt s 0 (auxLists L).li (auxLists L).ki C 0 x
      = (zh s x L true).mulVec (C 0) + ![0, 0, ((s.loads 0).qn + (s.loads 0).pn) / s.kn, 0, 0, 0] := by
    intro x
    rw [← zp_level s x]
    simp [stateAt, zsol, auxLists, nth]
  have hend : ∀ sd k, endCond s 0 kR sd k = if s.system = "rot" then
      (match sd with | .left => .forces 0 1 0 | .right => .forces 0 0 0) else
      (match sd with | .left => .forces 0 0 1 | .right => .forces 0 0 0) := by
    intro sd k
    unfold endCond
    rw [if_neg np, if_neg nv, if_neg ns]
    cases sd <;> rfl
  have hr : endCond s 0 kR .right ((auxLists L).ki.getD ((auxLists L).li.length - 1) false) = .forces 0 0 0 := by
    rw [hend]; split_ifs <;> rfl
  have hl : endCond s 0 kR .left ((auxLists L).ki.getD 0 false)
      = .forces 0 (if s.system = "rot" then 1 else 0) (if s.system = "rot" then 0 else 1) := by
    rw [hend]; split_ifs <;> rfl
  rw [hl] at h1
  rw [hr] at h2
  have e1 : (auxLists L).li.length - 1 = 1 := rfl
  have e2 : nth (auxLists L).li 1 = 0 := by simp [auxLists, nth]
  have e3 : nth (auxLists L).li 0 = L := by simp [auxLists, nth]
  rw [e1] at h2
  simp only [e2, e3, hst] at h1 h2 t0
  obtain ⟨a1, a2, a3⟩ := h1
  obtain ⟨b1, b2, b3⟩ := h2
  obtain ⟨-, -, -, c1, c2, c3⟩ := t0
  rw [b1, sub_zero] at c1
  rw [b2, sub_zero] at c2
  rw [b3, sub_zero] at c3
  refine ⟨zh_solves s hb true L (C 0), ⟨?_, ?_, ?_⟩, ?_, ?_, ?_⟩
  · simpa [Beam.N] using a1
  · simpa [Beam.M] using a2
  · simpa [Beam.V] using a3
  · simpa [Beam.N] using c1
  · simpa [Beam.M] using c2
  · simpa [Beam.V] using c3

/-- What a substitute spring is, in terms of the response of the weightless
slab. -/
theorem substitute_response (eig : EigSolver) (L : ℝ) (hL : 0 < L) (rested : Bool) (dof : Dof) (hd : dof ≠ .other)
    (s : Self) (hf : EigFresh eig s) (hb : BedOk (prep eig rested dof s)) (hc : ShearOk (prep eig rested dof s)) :
    ∃ k Z, substituteStiffness eig L rested dof s = (.ok k, s) ∧
      TipLoaded (s.auxBeam rested) L 0 (if dof = .rot then 1 else 0) (if dof = .rot then 0 else 1) Z ∧
      k = if dof = .rot then |1 / Z 0 4|
        else |1 / (Z 0 2 + ((s.loads 0).qn + (s.loads 0).pn) / (s.auxBeam rested).kn)| := by
  obtain ⟨k, C, -, hC, hk, hrun⟩ := substitute_run eig L hL rested dof hd s hf hb hc
  have haux : IsAux (prep eig rested dof s) := by
    cases dof with
    | rot => left; unfold prep; split_ifs <;> rfl
    | trans => right; unfold prep; split_ifs <;> rfl
    | other => exact absurd rfl hd
  obtain ⟨hV, -, h2⟩ := assembleWith_valid hC
  rw [aux_full] at h2
  have hlo := hV.listsOk
  rw [aux_full] at hlo
  obtain ⟨-, -, hm, -⟩ := asmSolve_meets (noSub_frame _) hlo
    (fun hv => absurd hv (aux_not_vpst haux)) h2
  have ht := aux_tipLoaded hb haux L _ _ hm
  rw [prep_beam] at ht
  have hsys : (prep eig rested dof s).system = "rot" ↔ dof = .rot := by
    cases dof with
    | rot => unfold prep; split_ifs <;> simp [calcEigensystem]
    | trans => unfold prep; split_ifs <;> simp [calcEigensystem]
    | other => exact absurd rfl hd
  simp only [hsys] at ht
  refine ⟨k, _, hrun, ht, ?_⟩
  have hz : zsol (prep eig rested dof s) 0 (C.getD 0 0) L 0 true
      = (zh (prep eig rested dof s) 0 L true).mulVec (C.getD 0 0)
        + ![0, 0, ((s.loads 0).qn + (s.loads 0).pn) / (s.auxBeam rested).kn, 0, 0, 0] := by
    have e1 : (prep eig rested dof s).loads 0 = s.loads 0 := by cases rested <;> cases dof <;> rfl
    have e2 : (prep eig rested dof s).kn = (s.auxBeam rested).kn := by cases rested <;> cases dof <;> rfl
    rw [← e1, ← e2, ← zp_level _ 0]
    simp [zsol]
  rw [hz] at hk
  rcases hk with ⟨hk, hd1⟩ | ⟨hk, hd1⟩
  · rw [if_pos hd1, hk]
    simp [fpsi]
  · rw [if_neg (by rw [hd1]; simp), hk]
    simp [fw]

/-- C26, rotational springs. The spring is the reciprocal of the rotation of
the weightless slab under a unit moment at its end; weight and surface load do
not enter. -/
theorem C26_rotational_spring (eig : EigSolver) (L : ℝ) (hL : 0 < L) (rested : Bool) (s : Self)
    (hf : EigFresh eig s) (hb : BedOk (prep eig rested .rot s)) (hc : ShearOk (prep eig rested .rot s)) :
    ∃ k, substituteStiffness eig L rested .rot s = (.ok k, s) ∧ 0 < k ∧
      (∃ Z, TipLoaded (s.auxBeam rested) L 0 1 0 Z) ∧
      ∀ Z, TipLoaded (s.auxBeam rested) L 0 1 0 Z → Z 0 4 = -1 / k := by
  obtain ⟨k, Z, h1, h2, h3⟩ := substitute_response eig L hL rested .rot (by simp) s hf hb hc
  simp only [if_true] at h2 h3
  have hco := hb.stiff.coercive hc
  rw [prep_beam] at hco
  have hneg := h2.work_neg hco hL (.inr (.inl one_ne_zero))
  have hψ : Z 0 4 < 0 := by simpa using hneg
  have hk : k = -(1 / Z 0 4) := by
    rw [h3, abs_of_neg (one_div_neg.mpr hψ)]
  refine ⟨k, h1, ?_, ⟨Z, h2⟩, fun Y hY => ?_⟩
  · rw [hk]
    have := one_div_neg.mpr hψ
    linarith
  · rw [hY.unique hco hL h2 0, hk]
    field_simp

/-- C26, consequence: objects with the same slab and foundation stiffness have
the same rotational springs, whatever their weight and surface load. -/
theorem C26_rotational_spring_load_independent (eig : EigSolver) (L : ℝ) (hL : 0 < L) (rested : Bool) (s s' : Self)
    (hf : EigFresh eig s) (hf' : EigFresh eig s') (hb : BedOk (prep eig rested .rot s))
    (hb' : BedOk (prep eig rested .rot s')) (hc : ShearOk (prep eig rested .rot s))
    (hc' : ShearOk (prep eig rested .rot s'))
    (h : ∃ zs, s'.auxBeam rested = { s.auxBeam rested with zs := zs }) :
    (substituteStiffness eig L rested .rot s').1 = (substituteStiffness eig L rested .rot s).1 := by
  obtain ⟨k, h1, h2, ⟨Z, hZ⟩, h3⟩ := C26_rotational_spring eig L hL rested s hf hb hc
  obtain ⟨k', h1', h2', -, h3'⟩ := C26_rotational_spring eig L hL rested s' hf' hb' hc'
  obtain ⟨zs, hzs⟩ := h
  have hZ' : TipLoaded (s'.auxBeam rested) L 0 1 0 Z := by
    rw [hzs]
    refine ⟨fun x => ?_, hZ.loaded, hZ.free⟩
    obtain ⟨dz, d1, d2⟩ := hZ.ode x
    refine ⟨dz, d1, ?_⟩
    unfold Equil at d2 ⊢
    rw [if_pos rfl] at d2 ⊢
    obtain ⟨e1, e2, e3, e4⟩ := d2
    exact ⟨e1, e2, e3, by simpa [Loads.zero, Beam.V, Beam.tau] using e4⟩
  have e := h3 Z hZ
  have e' := h3' Z hZ'
  rw [h1, h1']
  have : -1 / k = -1 / k' := e.symm.trans e'
  have hk : k = k' := by
    field_simp at this
    linarith
  rw [hk]

/-- C26, translational springs, as far as it is true: for a slab without weight
and surface load the spring is the reciprocal of the deflection under a unit
force. Missing: with load, see `C26_trans_depends_on_load`. -/
theorem C26_translational_spring_partial (eig : EigSolver) (L : ℝ) (hL : 0 < L) (rested : Bool) (s : Self)
    (hf : EigFresh eig s) (hb : BedOk (prep eig rested .trans s)) (hc : ShearOk (prep eig rested .trans s))
    (hw : (s.loads 0).qn + (s.loads 0).pn = 0) :
    ∃ k, substituteStiffness eig L rested .trans s = (.ok k, s) ∧ 0 < k ∧
      (∃ Z, TipLoaded (s.auxBeam rested) L 0 0 1 Z) ∧
      ∀ Z, TipLoaded (s.auxBeam rested) L 0 0 1 Z → Z 0 2 = -1 / k := by
  obtain ⟨k, Z, h1, h2, h3⟩ := substitute_response eig L hL rested .trans (by simp) s hf hb hc
  simp only [reduceCtorEq, if_false, hw, zero_div, add_zero] at h2 h3
  have hco := hb.stiff.coercive hc
  rw [prep_beam] at hco
  have hneg := h2.work_neg hco hL (.inr (.inr one_ne_zero))
  have hψ : Z 0 2 < 0 := by simpa using hneg
  have hk : k = -(1 / Z 0 2) := by
    rw [h3, abs_of_neg (one_div_neg.mpr hψ)]
  refine ⟨k, h1, ?_, ⟨Z, h2⟩, fun Y hY => ?_⟩
  · rw [hk]
    have := one_div_neg.mpr hψ
    linarith
  · rw [hY.unique hco hL h2 0, hk]
    field_simp

theorem loads_p (s : Self) (p : ℝ) : (Self.loads { s with p := p } 0).qn + (Self.loads { s with p := p } 0).pn
    = (s.loads 0).qn + p := by
  have h0 : deg2rad 0 = 0 := by simp [deg2rad]
  simp [Self.loads, getWeightLoad, getSurfaceLoad, h0]

/-- C26 is false for translational springs: for every slab there are two
surface loads for which `substitute_stiffness` reports different springs. -/
theorem C26_trans_depends_on_load (eig : EigSolver) (L : ℝ) (hL : 0 < L) (rested : Bool) (s : Self)
    (hf : EigFresh eig s) (hb : BedOk (prep eig rested .trans s)) (hc : ShearOk (prep eig rested .trans s)) :
    ∃ p p' : ℝ, 0 ≤ p ∧ 0 ≤ p' ∧
      (substituteStiffness eig L rested .trans { s with p := p }).1
        ≠ (substituteStiffness eig L rested .trans { s with p := p' }).1 := by
  have hval : ∀ p : ℝ, ∃ Z, TipLoaded (s.auxBeam rested) L 0 0 1 Z ∧
      (substituteStiffness eig L rested .trans { s with p := p }).1
        = .ok |1 / (Z 0 2 + ((s.loads 0).qn + p) / (s.auxBeam rested).kn)| := by
    intro p
    have hf' : EigFresh eig { s with p := p } := by
      have h0 : ({ calcEigensystem eig s with p := p } : Self) = { s with p := p } := by
        rw [show calcEigensystem eig s = s from hf]
      exact h0
    have hb' : BedOk (prep eig rested .trans { s with p := p }) := by
      cases rested <;> exact ⟨⟨hb.stiff.h, hb.stiff.t, hb.stiff.kn, hb.stiff.kt, hb.stiff.A11, hb.stiff.D11,
        hb.stiff.kA55, hb.stiff.K0_eq, hb.stiff.K0⟩, hb.modes, hb.six, hb.indep⟩
    have hc' : ShearOk (prep eig rested .trans { s with p := p }) := by cases rested <;> exact hc
    obtain ⟨k, Z, h1, h2, h3⟩ := substitute_response eig L hL rested .trans (by simp) _ hf' hb' hc'
    simp only [reduceCtorEq, if_false, loads_p] at h2 h3
    refine ⟨Z, h2, ?_⟩
    rw [h1, h3]
    rfl
  have hco := hb.stiff.coercive hc
  rw [prep_beam] at hco
  have hkn := hco.kn
  obtain ⟨Z0, hZ0, -⟩ := hval 0
  set kn := (s.auxBeam rested).kn with hkndef
  set q := (s.loads 0).qn with hq
  set w := Z0 0 2 with hw
  let p : ℝ := kn * (|w| + 1) + |q|
  have hp : 0 ≤ p := by
    have := abs_nonneg w
    have := abs_nonneg q
    positivity
  refine ⟨p, p + kn, hp, by linarith, ?_⟩
  obtain ⟨Z1, hZ1, h1⟩ := hval p
  obtain ⟨Z2, hZ2, h2⟩ := hval (p + kn)
  have e1 : Z1 0 2 = w := by rw [hZ1.unique hco hL hZ0 0]
  have e2 : Z2 0 2 = w := by rw [hZ2.unique hco hL hZ0 0]
  rw [h1, h2, e1, e2]
  set c := w + (q + p) / kn with hcdef
  have hcpos : 0 < c := by
    have : (q + p) / kn = (q + |q|) / kn + (|w| + 1) := by
      simp only [p]; field_simp; ring
    have h3 : 0 ≤ (q + |q|) / kn := div_nonneg (by linarith [neg_abs_le q]) hkn.le
    have h4 := neg_abs_le w
    rw [hcdef, this]
    linarith
  have hc2 : w + (q + (p + kn)) / kn = c + 1 := by
    rw [hcdef]; field_simp; ring
  rw [hc2]
  intro h
  have h := Except.ok.inj h
  rw [abs_of_pos (one_div_pos.mpr hcpos), abs_of_pos (one_div_pos.mpr (by linarith))] at h
  have : c + 1 ≠ 0 := by linarith
  field_simp at h
  linarith

/-- The hypotheses of C26 hold for a concrete slab, on the weak layer and on
the collapsed layer. -/
example : EigFresh stdEig (pstDemo .A 500) ∧ BedOk (prep stdEig false .trans (pstDemo .A 500)) ∧
    ShearOk (prep stdEig false .trans (pstDemo .A 500)) ∧ BedOk (prep stdEig true .rot (pstDemo .C 200)) ∧
    ShearOk (prep stdEig true .rot (pstDemo .C 200)) :=
  ⟨pstDemo_fresh _ _, prep_false_bedOk _ _ (pstDemo_bedOk _ _), prep_false_shear _ _ (pstDemo_shear _ _),
    (pstDemo_rest .C).bed, (pstDemo_rest .C).shear⟩

end Weac
