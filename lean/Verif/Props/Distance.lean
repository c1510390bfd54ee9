import Verif.Model.Distance
import Verif.Props.TouchdownEq
import Verif.Props.Workflow

/-!
# C44: `touchdown_distance`
-/

namespace Weac
open Spec

/-- The column of 100 m with a cut of length `a` on a slope `phi`, whose
collapsed weak layer leaves the height `tc`. -/
noncomputable def Spec.longColumn (s : Self) (tc a phi : ℝ) : Self := s.stage s.system .A 1e5 a tc 0 phi 1000

theorem Same.ok {α : Type} {m : Py α} {s s' : Self} (h : Same m s s') {a : α} (hm : m s = (.ok a, s)) : m s' = (.ok a, s') := by
  have hv := h.val
  rw [hm] at hv
  have e : m s' = (.ok a, (m s').2) := Prod.ext hv rfl
  rw [e, h.frame' a _ e]

/-- C44, what is computed. The first two results are the stage limits of the
100 m column with the collapse height of *level* ground, the third is the
touchdown length for a cut of five times the first limit with the collapse
height of the slope. -/
theorem C44_calls (num : Numerics) (phi : ℝ) (s s' : Self) (a1 a2 l : ℝ) (hf : EigFresh num.eig s) (h0 : s.phi = 0)
    (h : touchdownCalls num phi s = (.ok (a1, a2, l), s')) :
    (calcA1 num (longColumn s (collapseHeight s 0.5 0) 0 phi)).1 = .ok a1 ∧
    (calcA2 num (longColumn s (collapseHeight s 0.5 0) 0 phi)).1 = .ok a2 ∧
    (calcLC num (longColumn s (collapseHeight s 0.5 phi) (5 * a1) phi)).1 = .ok l := by
  unfold touchdownCalls at h
  obtain ⟨g, s1, h1, h⟩ := Py.bind_ok.mp h
  obtain ⟨b1, s2, h2, h⟩ := Py.bind_ok.mp h
  obtain ⟨b2, s3, h3, h⟩ := Py.bind_ok.mp h
  obtain ⟨g', s4, h4, h⟩ := Py.bind_ok.mp h
  obtain ⟨b3, s5, h5, h⟩ := Py.bind_ok.mp h
  simp only [Py.pure_apply, Prod.mk.injEq, Except.ok.injEq] at h
  obtain ⟨⟨rfl, rfl, rfl⟩, rfl⟩ := h
  obtain ⟨-, t1, -⟩ := calcSegments_ok h1
  have f1 := (C25_touchdown_system_frame num 1e5 0 0.5 phi 1000 s s1 hf t1).1
  obtain ⟨c1, p1⟩ := C23_tc_of_previous_inclination num 1e5 0 0.5 phi 1000 s s1 hf t1
  rw [h0] at c1
  rw [c1] at f1
  have hf1 : EigFresh num.eig s1 := by rw [f1]; exact hf.stage _ s1.mode _ _ _ _ _ _
  have e2 := calcA1_frame num s1 hf1 _ _ h2
  rw [e2] at h2 h3
  have e3 := calcA2_frame num s1 hf1 _ _ h3
  rw [e3] at h3 h4
  obtain ⟨-, t4, -⟩ := calcSegments_ok h4
  have f4 := (C25_touchdown_system_frame num 1e5 (5 * b1) 0.5 phi 1000 s1 s4 hf1 t4).1
  obtain ⟨c4, -⟩ := C23_tc_of_previous_inclination num 1e5 (5 * b1) 0.5 phi 1000 s1 s4 hf1 t4
  have hc : collapseHeight s1 0.5 s1.phi = collapseHeight s 0.5 phi := by
    rw [p1, f1]; rfl
  rw [hc] at c4
  rw [c4] at f4
  have hf4 : EigFresh num.eig s4 := by rw [f4]; exact hf1.stage _ s4.mode _ _ _ _ _ _
  have e5 := calcLC_frame num s4 hf4 _ _ h5
  rw [e5] at h5
  obtain ⟨l1, l2⟩ := limits_same num s1 hf1 .A 0 0
  have l3 := lC_same num s4 hf4 .A 0
  have k1 := l1.ok h2
  have k2 := l2.ok h3
  have k3 := l3.ok h5
  have E1 : s1.stage s1.system .A s1.L 0 s1.tc 0 s1.phi s1.ratio = longColumn s (collapseHeight s 0.5 0) 0 phi := by
    rw [f1]; rfl
  have E4 : s4.stage s4.system .A s4.L s4.a s4.tc 0 s4.phi s4.ratio
      = longColumn s (collapseHeight s 0.5 phi) (5 * b1) phi := by
    rw [f4]
    have hs : s1.system = s.system := by rw [f1]; rfl
    have : ∀ u : Self, s1 = s.stage s.system u.mode 1e5 0 (collapseHeight s 0.5 0) u.td phi 1000 →
        s1.stage s1.system .A 1e5 (5 * b1) (collapseHeight s 0.5 phi) 0 phi 1000
          = longColumn s (collapseHeight s 0.5 phi) (5 * b1) phi := by
      intro u hu
      rw [hu]; rfl
    exact this s1 f1
  rw [E1] at k1 k2
  rw [E4] at k3
  exact ⟨by rw [k1], by rw [k2], by rw [k3]⟩

/-- The object on which the calls are made. -/
theorem distance_object (num : Numerics) (layers : CtorLayers) (C0 C1 Ewl t phi : ℝ) (r : ℝ × ℝ × ℝ)
    (h : touchdownDistance num layers C0 C1 Ewl t phi = .ok r) :
    ∃ arg s, layers.orDefault = .ok arg ∧ (touchdownCalls num phi s).1 = .ok r ∧
      (∀ s0 : Self, setBeamProperties num.eig arg C0 C1 0.25 false s0
        = (.ok (), { s0 with k := s.k, h := s.h, zs := s.zs, slab := s.slab })) ∧
      Fresh num.eig s ∧ s.t = t ∧ s.weak = ⟨0.25, Ewl⟩ ∧ s.phi = 0 ∧ s.p = 0 ∧ s.g = 9810 ∧
      s.system = "pst-" ∧ s.touchdown = true ∧ s.hasContact = true := by
  unfold touchdownDistance at h
  rcases ha : layers.orDefault with e | arg
  · rw [ha] at h; cases h
  rw [ha] at h
  obtain ⟨s0, h1, -, h3, h4, h5, h6, h7, h8, -⟩ := layeredInit_ready num.eig "pst-" [⟨240, 200⟩] true ⟨by simp, by simp⟩
  have hi : layeredInit num.eig "pst-" .none true = .ok s0 := h1
  have hphi : s0.phi = 0 := by
    have : ∀ s, layeredInit num.eig "pst-" (.rows [⟨240, 200⟩]) true = .ok s → s.phi = 0 := by
      intro s hs
      simp only [layeredInit, CtorLayers.truthy] at hs
      injection hs with hs
      rw [← hs]; rfl
    exact this s0 h1
  have h' : (do
      (setBeamProperties num.eig arg C0 C1 0.25 true (setFoundationProperties num.eig t Ewl 0.25 true s0)).1
      (touchdownCalls num phi (setBeamProperties num.eig arg C0 C1 0.25 true
        (setFoundationProperties num.eig t Ewl 0.25 true s0)).2).1 : Res (ℝ × ℝ × ℝ)) = .ok r := by
    have : (.ok s0 >>= fun s0 => (do
      (setBeamProperties num.eig arg C0 C1 0.25 true (setFoundationProperties num.eig t Ewl 0.25 true s0)).1
      (touchdownCalls num phi (setBeamProperties num.eig arg C0 C1 0.25 true
        (setFoundationProperties num.eig t Ewl 0.25 true s0)).2).1 : Res (ℝ × ℝ × ℝ))) = .ok r := by
      rw [← hi]; exact h
    exact this
  have F : ∀ q : Self, (setFoundationProperties num.eig t Ewl 0.25 true q).t = t ∧
      (setFoundationProperties num.eig t Ewl 0.25 true q).weak = ⟨0.25, Ewl⟩ ∧
      (setFoundationProperties num.eig t Ewl 0.25 true q).phi = q.phi ∧
      (setFoundationProperties num.eig t Ewl 0.25 true q).p = q.p ∧
      (setFoundationProperties num.eig t Ewl 0.25 true q).g = q.g ∧
      (setFoundationProperties num.eig t Ewl 0.25 true q).system = q.system ∧
      (setFoundationProperties num.eig t Ewl 0.25 true q).touchdown = q.touchdown ∧
      (setFoundationProperties num.eig t Ewl 0.25 true q).hasContact = q.hasContact :=
    fun q => ⟨rfl, rfl, rfl, rfl, rfl, rfl, rfl, rfl⟩
  obtain ⟨F1, F2, F3, F4, F5, F6, F7, F8⟩ := F s0
  rw [hphi] at F3
  rw [h6] at F4
  rw [h7] at F5
  rw [h3] at F6
  rw [h4] at F7
  rw [h5] at F8
  generalize setFoundationProperties num.eig t Ewl 0.25 true s0 = s1 at *
  clear hi h1 hphi h ha h3 h4 h5 h6 h7 h8
  have key : ∀ (ls : List Ply) (E : List ℝ), setBeamProperties num.eig arg C0 C1 0.25 true s1
        = (.ok (), setSlab num.eig ls E 0.25 true s1) →
      (∀ q : Self, setBeamProperties num.eig arg C0 C1 0.25 false q = (.ok (), setSlab num.eig ls E 0.25 false q)) →
      ∃ s, (touchdownCalls num phi s).1 = .ok r ∧
        (∀ s0 : Self, setBeamProperties num.eig arg C0 C1 0.25 false s0
        = (.ok (), { s0 with k := s.k, h := s.h, zs := s.zs, slab := s.slab })) ∧
      Fresh num.eig s ∧ s.t = t ∧ s.weak = ⟨0.25, Ewl⟩ ∧ s.phi = 0 ∧ s.p = 0 ∧ s.g = 9810 ∧
      s.system = "pst-" ∧ s.touchdown = true ∧ s.hasContact = true := by
    intro ls E e1 e2
    rw [e1] at h'
    exact ⟨setSlab num.eig ls E 0.25 true s1, h', fun q => (e2 q).trans rfl, C27_idempotent num.eig _,
      F1, F2, F3, F4, F5, F6, F7, F8⟩
  cases arg with
  | str str =>
    rcases hw : lastWord str with _ | w
    · simp only [setBeamProperties, hw] at h'; cases h'
    rcases hl : loadDummyProfile w with e | ⟨ls, E⟩
    · simp only [setBeamProperties, hw, hl] at h'; cases h'
    obtain ⟨s, hs⟩ := key ls E (by simp only [setBeamProperties, hw, hl]) (fun q => by simp only [setBeamProperties, hw, hl])
    exact ⟨_, s, rfl, hs⟩
  | rows ls =>
    cases ls with
    | nil => simp only [setBeamProperties] at h'; cases h'
    | cons l ls =>
      obtain ⟨s, hs⟩ := key (l :: ls) ((l :: ls).map fun r => bergfeld r.rho 917 C0 C1)
        (by simp only [setBeamProperties]) (fun q => by simp only [setBeamProperties])
      exact ⟨_, s, rfl, hs⟩

/-- C44, level ground. All three results belong to one and the same column: the
two stage limits and the touchdown length for a cut of five times the first. -/
theorem C44_level_partial (num : Numerics) (hB : BrentOk num) (layers : CtorLayers) (C0 C1 Ewl t : ℝ) (a1 a2 l : ℝ)
    (h : touchdownDistance num layers C0 C1 Ewl t 0 = .ok (a1, a2, l)) :
    ∃ s, Fresh num.eig s ∧ s.t = t ∧ s.weak = ⟨0.25, Ewl⟩ ∧ s.p = 0 ∧ s.system = "pst-" ∧
      (calcA1 num (longColumn s (collapseHeight s 0.5 0) 0 0)).1 = .ok a1 ∧
      (calcA2 num (longColumn s (collapseHeight s 0.5 0) 0 0)).1 = .ok a2 ∧
      (calcLC num (longColumn s (collapseHeight s 0.5 0) (5 * a1) 0)).1 = .ok l ∧
      0 < a1 ∧ a1 < 1e5 ∧ 0 < a2 ∧ a2 < 1e5 ∧ 0 < l ∧ l < 5 * a1 := by
  obtain ⟨arg, s, -, h1, -, hf, h2, h3, h4, h5, -, h7, -⟩ := distance_object num layers C0 C1 Ewl t 0 _ h
  have hc : touchdownCalls num 0 s = (.ok (a1, a2, l), (touchdownCalls num 0 s).2) := Prod.ext h1 rfl
  obtain ⟨k1, k2, k3⟩ := C44_calls num 0 s _ a1 a2 l hf.eigFresh h4 hc
  refine ⟨s, hf, h2, h3, h5, h7, k1, k2, k3, ?_⟩
  have e5 : (1e5 : ℝ) = 100000 := by norm_num
  have b1 : (1e5 : ℝ) / 1000 ≤ a1 ∧ a1 ≤ 999 / 1000 * 1e5 := by
    have e : calcA1 num (longColumn s (collapseHeight s 0.5 0) 0 0) = (.ok a1, _) := Prod.ext k1 rfl
    unfold calcA1 at e
    rw [Py.get_bind] at e
    exact brentq_bracket (a := (1e5 : ℝ) / 1000) (b := 999 / 1000 * 1e5) hB (by norm_num) e
  have b2 : (1e5 : ℝ) / 1000 ≤ a2 ∧ a2 ≤ 999 / 1000 * 1e5 := by
    have e : calcA2 num (longColumn s (collapseHeight s 0.5 0) 0 0) = (.ok a2, _) := Prod.ext k2 rfl
    unfold calcA2 at e
    rw [Py.get_bind] at e
    exact brentq_bracket (a := (1e5 : ℝ) / 1000) (b := 999 / 1000 * 1e5) hB (by norm_num) e
  rw [e5] at *
  have p1 : 0 < a1 := by linarith
  have b3 : 5 * a1 / 1000 ≤ l ∧ l ≤ 999 / 1000 * (5 * a1) := by
    have e : calcLC num (longColumn s (collapseHeight s 0.5 0) (5 * a1) 0) = (.ok l, _) := Prod.ext k3 rfl
    unfold calcLC at e
    rw [Py.get_bind] at e
    exact brentq_bracket (a := 5 * a1 / 1000) (b := 999 / 1000 * (5 * a1)) hB (by linarith) e
  refine ⟨p1, by linarith, by linarith, by linarith, by linarith, by linarith⟩

/-- On a slope the weak layer is compressed less, so that the height over which
the slab can sink is larger. -/
theorem collapse_slope (s : Self) (cf phi : ℝ) (hk : 0 < s.kn) (hq : 0 < (s.loads 0).qn + (s.loads 0).pn)
    (hc : Real.cos (deg2rad phi) < 1) : collapseHeight s cf 0 < collapseHeight s cf phi := by
  have e : ∀ x, (s.loads x).qn + (s.loads x).pn = ((s.loads 0).qn + (s.loads 0).pn) * Real.cos (deg2rad x) := by
    intro x
    simp only [Self.loads, getWeightLoad, getSurfaceLoad]
    simp [deg2rad]
    ring
  unfold collapseHeight
  rw [e phi]
  have : ((s.loads 0).qn + (s.loads 0).pn) * Real.cos (deg2rad phi) / s.kn < ((s.loads 0).qn + (s.loads 0).pn) / s.kn := by
    rw [div_lt_div_iff_of_pos_right hk]
    nlinarith
  linarith

/-- Violation. On a slope the first contact that is reported misses the contact
of the column on that slope. Cut at the reported length, the free end of the
slab sinks, up to the residual `y` that the root finder has left, by the
collapse height of level ground; this is less than the height over which it can
sink on the slope, so that at an exact root it hangs in the air. -/
theorem C44_slope_violated (num : Numerics) (s : Self) (phi a1 y : ℝ) (hc : Real.cos (deg2rad phi) < 1)
    (hq : 0 < (s.loads 0).qn + (s.loads 0).pn) (h : SpringsOk num (longColumn s (collapseHeight s 0.5 0) 0 phi) (1e5 - a1))
    (hres : (polyA1 num.eig (bsOf s) s.kA55 1e5 (collapseHeight s 0.5 0) (calcQn (longColumn s (collapseHeight s 0.5 0) 0 phi)) a1
      (longColumn s (collapseHeight s 0.5 0) 0 phi)).1 = .ok y) :
    let s0 := longColumn s (collapseHeight s 0.5 0) 0 phi
    ∃ kR kN, substituteStiffness num.eig (1e5 - a1) false .rot s0 = (.ok kR, s0) ∧
      substituteStiffness num.eig (1e5 - a1) false .trans s0 = (.ok kN, s0) ∧
      (∃ Z, Overhang s.beam (calcQn s0) kN kR a1 Z ∧ HangsFree s.beam a1 Z) ∧
      (∀ Z, Overhang s.beam (calcQn s0) kN kR a1 Z → HangsFree s.beam a1 Z →
        Z a1 2 = collapseHeight s 0.5 0 + calcQn s0 * y ∧ (y = 0 → Z a1 2 < collapseHeight s 0.5 phi)) := by
  intro s0
  have hlt := collapse_slope s 0.5 phi h.bed.stiff.kn hq hc
  obtain ⟨kR, kN, y', e1, e2, e3, e0, e4⟩ := C43_first_contact num s0 a1 h
  refine ⟨kR, kN, e1, e2, e0, fun Z hZ hF => ?_⟩
  have h6 : Z a1 2 - collapseHeight s 0.5 0 = calcQn s0 * y' := e4 Z hZ hF
  have e3' : polyA1 num.eig (bsOf s) s.kA55 1e5 (collapseHeight s 0.5 0) (calcQn s0) a1 s0 = (.ok y', s0) := e3
  have e5 : y' = y := by
    change (polyA1 num.eig (bsOf s) s.kA55 1e5 (collapseHeight s 0.5 0) (calcQn s0) a1 s0).1 = .ok y at hres
    rw [e3'] at hres
    injection hres
  rw [e5] at h6
  refine ⟨by linarith, ?_⟩
  rintro rfl
  linarith

/-- Violation: although `layers` is documented as a numpy array, none is accepted. -/
theorem C44_array_violated (num : Numerics) (l : List Ply) (C0 C1 Ewl t phi : ℝ) (hd : Documented (.ndarray l)) :
    touchdownDistance num (.ndarray l) C0 C1 Ewl t phi = .error .valueError := by
  obtain ⟨a, l', rfl⟩ := List.exists_cons_of_ne_nil hd.1
  rfl

/-! ## Concrete runs -/

/-- Root finder that returns six times the lower end of the bracket. -/
noncomputable def sixNum : Numerics := ⟨stdEig, fun a b _ => .inr (max a (min (6 * a) b))⟩

theorem sixNum_runs : BrentRuns sixNum := by
  refine ⟨fun a b hist r hab h => ?_, fun a b hist x hab h => ?_, fun a b hist _ => ⟨_, rfl⟩⟩
  · simp only [sixNum, Sum.inr.injEq] at h
    rw [← h]
    exact ⟨le_max_left _ _, max_le hab (min_le_right _ _)⟩
  · simp [sixNum] at h

theorem brentq_six {f : ℝ → Py ℝ} {a b : ℝ} {s : Self} {fa fb : ℝ} (ha : f a s = (.ok fa, s)) (hb : f b s = (.ok fb, s))
    (h1 : fa < 0) (h2 : 0 < fb) : brentq sixNum f a b s = (.ok (max a (min (6 * a) b)), s) := by
  unfold brentq
  rw [Py.bind_of_ok ha, Py.bind_of_ok hb, if_neg h1.ne, if_neg h2.ne', if_neg (by nlinarith)]
  rfl

theorem six_limits {s : Self} {d : ℝ} (h : Bracketed sixNum s d) (hL : s.L = 1e5) :
    calcA1 sixNum s = (.ok 600, s) ∧ calcA2 sixNum s = (.ok 600, s) := by
  obtain ⟨hxL, hb⟩ := calcA_brackets h
  obtain ⟨p1, fa, fb, p2, p3, p4, p5⟩ := hb _ (List.mem_cons_self ..)
  obtain ⟨q1, ga, gb, q2, q3, q4, q5⟩ := hb _ (List.mem_cons_of_mem _ (List.mem_cons_self ..))
  have e : max (s.L / 1000) (min (6 * (s.L / 1000)) (999 / 1000 * s.L)) = 600 := by
    rw [hL, min_eq_left (by norm_num), max_eq_right (by norm_num)]
    norm_num
  constructor
  · unfold calcA1
    rw [Py.get_bind, brentq_six p2 p3 p4 p5, e]
  · unfold calcA2
    rw [Py.get_bind, brentq_six q2 q3 q4 q5, e]

theorem calls_run (phi : ℝ) (hphi : 4 / 5 ≤ Real.cos (deg2rad phi)) :
    ∃ l, (touchdownCalls sixNum phi (demo stdEig "pst-" true)).1 = .ok (600, 600, l) := by
  have h0 : 4 / 5 ≤ Real.cos (deg2rad 0) := by norm_num [deg2rad]
  obtain ⟨v1, -, -, v4, v5, -, -, v8, -, -, -, -, -, hsys, ht, hcn⟩ := demo_fields stdEig "pst-" true
  have hf : EigFresh sixNum.eig (demo stdEig "pst-" true) := (demo_ready stdEig "pst-" true).fresh.eigFresh
  have hbr := fun (mode : Mode) (psi a td : ℝ) (hpsi : 4 / 5 ≤ Real.cos (deg2rad psi)) (ha : 0 ≤ a) (haL : a + 200 ≤ 1e5) =>
    demo_bracketed' sixNum_runs rfl (L := 1e5) (.inr (by norm_num)) phi psi hphi hpsi mode a td ha haL
  have hload := demo_load "pst-" true phi
  have hcol := demo_collapse phi hphi
  have p0 : (demo stdEig "pst-" true).phi = 0 := rfl
  have ebs : bsOf (demo stdEig "pst-" true) = 33472000 / 9 := by
    unfold bsOf
    rw [v4, v5]; norm_num
  have e05 : (0.5 : ℝ) = 1 / 2 := by norm_num
  generalize demo stdEig "pst-" true = s at *
  -- first call
  set s0 := s.stage s.system s.mode 1e5 0 (collapseHeight s (1 / 2) 0) s.td phi 1000 with hs0
  have B0 : Bracketed sixNum s0 200 := hbr s.mode 0 0 s.td h0 le_rfl (by norm_num)
  have E0 : setTouchdownAttributes 1e5 0 (1 / 2) phi 1000 s = s0 := by
    rw [hs0, ← p0]; rfl
  obtain ⟨a1, a2, r1, r2, r3⟩ := C24_computation_succeeds sixNum 1e5 0 (1 / 2) phi 1000 200 s (by rw [E0]; exact B0) ht
  rw [E0] at r1 r2 r3
  obtain ⟨m1, m2⟩ := six_limits B0 rfl
  have l1 : a1 = 600 := by
    rw [m1] at r1
    simp only [Prod.mk.injEq, Except.ok.injEq, and_true] at r1
    exact r1.symm
  have l2 : a2 = 600 := by
    rw [m2] at r2
    simp only [Prod.mk.injEq, Except.ok.injEq, and_true] at r2
    exact r2.symm
  subst l1 l2
  obtain ⟨s1, k1, k2⟩ := r3 (fun c => absurd c (by norm_num))
  have f1 := (C25_touchdown_system_frame sixNum 1e5 0 (1 / 2) phi 1000 s s1 hf k1).1
  obtain ⟨c1, q1⟩ := C23_tc_of_previous_inclination sixNum 1e5 0 (1 / 2) phi 1000 s s1 hf k1
  rw [p0] at c1
  rw [c1] at f1
  have hf1 : EigFresh sixNum.eig s1 := by rw [f1]; exact hf.stage _ s1.mode _ _ _ _ _ _
  have seg : ∀ (u u' : Self) (a : ℝ), u.hasContact = true → u'.system = "pst-" →
      calcTouchdownSystem sixNum 1e5 a (1 / 2) phi 1000 u = (.ok (), u') →
      ∃ g, calcSegments sixNum [] [] [] [] 1e5 a 0 phi (1 / 2) 1000 u = (.ok g, u') := by
    intro u u' a hu hu' h
    refine ⟨⟨[1e5 - u'.a, u'.td], [0], [true, false], [true, true]⟩, ?_⟩
    unfold calcSegments
    rw [Py.get_bind, if_pos hu, Py.bind_of_ok h, Py.get_bind, hu', if_neg (by decide), if_pos rfl]
    rfl
  have hsys1 : s1.system = "pst-" := by rw [f1]; exact hsys
  obtain ⟨g1, G1⟩ := seg s s1 0 hcn hsys1 k1
  have B1 : Bracketed sixNum s1 200 := by
    rw [f1]; exact hbr s1.mode 0 0 s1.td h0 le_rfl (by norm_num)
  obtain ⟨n1, n2⟩ := six_limits B1 (by rw [f1]; rfl)
  -- second call
  set s2 := s.stage s.system s1.mode 1e5 (5 * 600) (collapseHeight s (1 / 2) phi) s1.td phi 1000 with hs2
  have B2 : Bracketed sixNum s2 200 := hbr s1.mode phi (5 * 600) s1.td hphi (by norm_num) (by norm_num)
  have E2 : setTouchdownAttributes 1e5 (5 * 600) (1 / 2) phi 1000 s1 = s2 := by
    have : ∀ (md : Mode) (x y : ℝ), setTouchdownAttributes 1e5 (5 * 600) (1 / 2) phi 1000
        (s.stage s.system md 1e5 0 x y phi 1000)
        = s.stage s.system md 1e5 (5 * 600) (collapseHeight s (1 / 2) phi) y phi 1000 := fun _ _ _ => rfl
    rw [hs2, ← this s1.mode (collapseHeight s (1 / 2) 0) s1.td, ← f1]
  have hq2 : calcQn s2 = 240 * 200 * 9810 / 10 ^ 12 * Real.cos (deg2rad phi) := hload
  have hb1 : bsOf s1 = 33472000 / 9 := by rw [f1]; exact ebs
  have high : 72 * (33472000 / 9) * s2.tc ≤ calcQn s2 * (999 / 1000 * (5 * 600)) ^ 4 := by
    have t2 : s2.tc ≤ 15 := hcol.2
    rw [hq2]
    have := (cos_le_load (q := 240 * 200 * 9810 / 10 ^ 12) (by norm_num) hphi (Real.cos_le_one _)).1
    generalize 240 * 200 * 9810 / 10 ^ 12 * Real.cos (deg2rad phi) = q at *
    norm_num at this ⊢
    linarith
  have ht1 : s1.touchdown = true := by rw [f1]; exact ht
  have hc1 : s1.hasContact = true := by rw [f1]; exact hcn
  obtain ⟨b1, b2, -, -, w3⟩ := C24_computation_succeeds sixNum 1e5 (5 * 600) (1 / 2) phi 1000 200 s1 (by rw [E2]; exact B2) ht1
  rw [E2, hb1] at w3
  obtain ⟨s3, k3, -⟩ := w3 (fun _ _ => high)
  have f3 := (C25_touchdown_system_frame sixNum 1e5 (5 * 600) (1 / 2) phi 1000 s1 s3 hf1 k3).1
  obtain ⟨c3, -⟩ := C23_tc_of_previous_inclination sixNum 1e5 (5 * 600) (1 / 2) phi 1000 s1 s3 hf1 k3
  have f3' : s3 = s.stage s.system s3.mode 1e5 (5 * 600) (collapseHeight s (1 / 2) phi) s3.td phi 1000 := by
    have : ∀ (md md' : Mode) (x y z : ℝ), (s.stage s.system md 1e5 0 x y phi 1000).stage s.system md' 1e5 (5 * 600)
        (collapseHeight s (1 / 2) phi) z phi 1000
        = s.stage s.system md' 1e5 (5 * 600) (collapseHeight s (1 / 2) phi) z phi 1000 := fun _ _ _ _ _ => rfl
    have hcc : collapseHeight s1 (1 / 2) s1.phi = collapseHeight s (1 / 2) phi := by rw [q1, f1]; rfl
    rw [c3, hcc, hsys1, ← hsys] at f3
    rw [f1, this] at f3
    exact f3
  have hsys3 : s3.system = "pst-" := by rw [f3']; exact hsys
  obtain ⟨g3, G3⟩ := seg s1 s3 (5 * 600) hc1 hsys3 k3
  have B3 : Bracketed sixNum s3 200 := by
    rw [f3']; exact hbr s3.mode phi (5 * 600) s3.td hphi (by norm_num) (by norm_num)
  obtain ⟨l, hl⟩ := calcLC_runs B3 (by rw [f3']; show (0 : ℝ) < 5 * 600; norm_num) (by
    have e1 : bsOf s3 = 33472000 / 9 := by rw [f3']; exact ebs
    have e2 : s3.tc = s2.tc := by rw [f3']; rfl
    have e3 : calcQn s3 = calcQn s2 := by rw [f3']; rfl
    have e4 : s3.a = 5 * 600 := by rw [f3']; rfl
    rw [e1, e2, e3, e4]; exact high)
  refine ⟨l, ?_⟩
  unfold touchdownCalls
  rw [e05, Py.bind_of_ok G1, Py.bind_of_ok n1, Py.bind_of_ok n2, Py.bind_of_ok G3, Py.bind_of_ok hl]
  rfl

theorem distance_runs (phi : ℝ) (hphi : 4 / 5 ≤ Real.cos (deg2rad phi)) :
    ∃ l, touchdownDistance sixNum (.str "comp") 6.5 4.4 0.25 30 phi = .ok (600, 600, l) := by
  obtain ⟨l, hl⟩ := calls_run phi hphi
  refine ⟨l, ?_⟩
  have e : ∃ s0, layeredInit sixNum.eig "pst-" .none true = .ok s0 ∧
      setBeamProperties sixNum.eig (.str "comp") 6.5 4.4 0.25 true (setFoundationProperties sixNum.eig 30 0.25 0.25 true s0)
        = (.ok (), demo stdEig "pst-" true) := by
    refine ⟨_, rfl, ?_⟩
    rw [set_comp]
    rfl
  obtain ⟨s0, h1, h2⟩ := e
  unfold touchdownDistance
  rw [h1]
  show (do
    (setBeamProperties sixNum.eig (.str "comp") 6.5 4.4 0.25 true (setFoundationProperties sixNum.eig 30 0.25 0.25 true s0)).1
    (touchdownCalls sixNum phi (setBeamProperties sixNum.eig (.str "comp") 6.5 4.4 0.25 true
      (setFoundationProperties sixNum.eig 30 0.25 0.25 true s0)).2).1 : Res (ℝ × ℝ × ℝ)) = _
  rw [h2]
  generalize (touchdownCalls sixNum phi (demo stdEig "pst-" true)).1 = x at *
  exact hl

/-- The profile `comp` on level ground and on a slope of 30°. -/
example : ∃ l, touchdownDistance sixNum (.str "comp") 6.5 4.4 0.25 30 0 = .ok (600, 600, l) ∧ 0 < l ∧ l < 3000 := by
  obtain ⟨l, h⟩ := distance_runs 0 (by norm_num [deg2rad])
  obtain ⟨s, -, -, -, -, -, -, -, -, -, -, -, -, h1, h2⟩ := C44_level_partial sixNum sixNum_runs.inside _ _ _ _ _ _ _ _ h
  exact ⟨l, h, h1, by linarith⟩

theorem cos_thirty : Real.cos (deg2rad 30) = √3 / 2 := by
  rw [← Real.cos_pi_div_six]
  congr 1
  unfold deg2rad
  ring

example : ∃ l, touchdownDistance sixNum (.str "comp") 6.5 4.4 0.25 30 30 = .ok (600, 600, l) := by
  refine distance_runs 30 ?_
  rw [cos_thirty]
  have : (8 / 5 : ℝ) ≤ √3 := Real.le_sqrt_of_sq_le (by norm_num)
  linarith

/-- On that slope the two heights differ, and the statement on the reported
length applies. -/
example : collapseHeight (demo stdEig "pst-" true) 0.5 0 < collapseHeight (demo stdEig "pst-" true) 0.5 30 ∧
    ∃ s, ∃ y, SpringsOk sixNum (longColumn s (collapseHeight s 0.5 0) 0 30) (1e5 - 600) ∧
      0 < (s.loads 0).qn + (s.loads 0).pn ∧ Real.cos (deg2rad 30) < 1 ∧
      (polyA1 sixNum.eig (bsOf s) s.kA55 1e5 (collapseHeight s 0.5 0) (calcQn (longColumn s (collapseHeight s 0.5 0) 0 30)) 600
        (longColumn s (collapseHeight s 0.5 0) 0 30)).1 = .ok y := by
  have h1 := (demo_fields stdEig "pst-" true).1
  have hq : 0 < ((demo stdEig "pst-" true).loads 0).qn + ((demo stdEig "pst-" true).loads 0).pn := by
    rw [demo_load]; norm_num [deg2rad]
  have hc : Real.cos (deg2rad 30) < 1 := by
    rw [cos_thirty]
    have : √3 < 2 := by rw [Real.sqrt_lt' (by norm_num)]; norm_num
    linarith
  have hc' : 4 / 5 ≤ Real.cos (deg2rad 30) := by
    rw [cos_thirty]
    have : (8 / 5 : ℝ) ≤ √3 := Real.le_sqrt_of_sq_le (by norm_num)
    linarith
  have e05 : (0.5 : ℝ) = 1 / 2 := by norm_num
  have hb := demo_bracketed' sixNum_runs rfl (L := 1e5) (.inr (by norm_num)) 30 0 hc' (by norm_num [deg2rad]) .A 0 0 le_rfl
    (by norm_num)
  refine ⟨collapse_slope _ _ _ (by rw [h1]; norm_num) hq hc, demo stdEig "pst-" true, ?_⟩
  generalize demo stdEig "pst-" true = s at *
  have hb' : Bracketed sixNum (longColumn s (collapseHeight s 0.5 0) 0 30) 200 := by rw [e05]; exact hb
  obtain ⟨a1, -, k1, -, -, -, k2, -⟩ := C43_reported_limits _ _ _ hb'
  have l1 : a1 = 600 := by
    rw [(six_limits hb' rfl).1] at k1
    simp only [Prod.mk.injEq, Except.ok.injEq, and_true] at k1
    exact k1.symm
  rw [l1] at k2
  obtain ⟨-, -, y, -, -, k3, -⟩ := C43_first_contact sixNum _ 600 k2
  refine ⟨y, k2, hq, hc, ?_⟩
  have k3' : polyA1 sixNum.eig (bsOf s) s.kA55 1e5 (collapseHeight s 0.5 0) (calcQn (longColumn s (collapseHeight s 0.5 0) 0 30)) 600
        (longColumn s (collapseHeight s 0.5 0) 0 30) = (.ok y, _) := k3
  rw [k3']

/-- C44, default layers: without layers, with an empty list or with an empty name
the function answers for one layer of 240 kg/m³ and 200 mm. -/
theorem C44_default_layers (num : Numerics) (C0 C1 Ewl t phi : ℝ) (layers : CtorLayers)
    (h : layers = .none ∨ layers = .rows [] ∨ layers = .str "") :
    touchdownDistance num layers C0 C1 Ewl t phi = touchdownDistance num (.rows [⟨240, 200⟩]) C0 C1 Ewl t phi := by
  have e : layers.orDefault = (CtorLayers.rows [⟨240, 200⟩]).orDefault := by
    rcases h with h | h | h <;> rw [h] <;> rfl
  unfold touchdownDistance
  rw [e]

/-- A call without arguments. -/
example : touchdownDistance sixNum .none 6.5 4.4 0.25 10 0 = touchdownDistance sixNum (.rows [⟨240, 200⟩]) 6.5 4.4 0.25 10 0 :=
  C44_default_layers _ _ _ _ _ _ _ (.inl rfl)

end Weac
