import Verif.Props.ForceBalance
import Verif.Props.Springs

/-!
# C40: touchdown of a PST with vertical faces
-/

namespace Weac
open Spec

/-- What the assembled equations prescribe at an end with a vertical face. In
stages B and C the data of the contact condition (normal force, no moment,
touchdown distance) end up in the rows of normal force, moment and shear force. -/
noncomputable def faceEnd (s : Self) (phi : ℝ) (e : Side) (k : Bool) : EndCond :=
  match tdData s e.sgn k with
  | some d => .forces d.1 d.2.1 d.2.2
  | none => faceForces s phi

/-- The assembled equations of a vertical-face PST in every stage. -/
def FaceMeets (s : Self) (phi : ℝ) (a : SegLists) (C : ℕ → Vec6) : Prop :=
  Bvp s.beam a.li.length (jump s phi a.mi) (faceEnd s phi .left (a.ki.getD 0 false))
    (faceEnd s phi .right (a.ki.getD (a.li.length - 1) false))
    (fun i => stateAt s phi a.li a.ki C i 0) (fun i => stateAt s phi a.li a.ki C i (nth a.li i))

theorem face_kinds {s : Self} (h : IsVpst s) : ¬ IsPst s ∧ ¬ IsSkier s ∧ ¬ IsAux s := by
  unfold IsPst IsSkier IsAux
  rcases h with h | h <;> rw [h] <;> decide

theorem rhsFinal_face (s : Self) (phi : ℝ) (a : SegLists) (hl : ListsOk s a) (hv : IsVpst s) (t : Fin 3) :
    rhsFinal s phi a t = (match tdData s (-1) (a.ki.getD 0 false) with
      | some d => ![d.1, d.2.1, d.2.2] t
      | none => ![(verticalForces s phi).1, (verticalForces s phi).2.1, (verticalForces s phi).2.2] t) ∧
    rhsFinal s phi a (6 * a.li.length - 3 + t) = (match tdData s 1 (a.ki.getD (a.li.length - 1) false) with
      | some d => ![d.1, d.2.1, d.2.2] t
      | none => ![(verticalForces s phi).1, (verticalForces s phi).2.1, (verticalForces s phi).2.2] t) := by
  obtain ⟨-, -, h4⟩ := face_kinds hv
  have h2 := hl.two
  have ht : (t : ℕ) < 3 := t.2
  have at0 : ∀ v a b c, write3 v 0 a b c t = (![a, b, c] : Fin 3 → ℝ) t := fun v a b c => by
    simpa using write3_at v 0 a b c t
  have at1 : ∀ v x y z, write3 v (6 * a.li.length - 3) x y z (6 * a.li.length - 3 + t)
      = (![x, y, z] : Fin 3 → ℝ) t := fun v x y z => write3_at v _ x y z t
  have off : ∀ v x y z, write3 v (6 * a.li.length - 3) x y z t = v t := fun v x y z =>
    write3_off _ _ _ _ _ _ (.inl (by omega))
  have off? : ∀ v d, write3? v (6 * a.li.length - 3) d t = v t := fun v d =>
    write3?_off _ _ _ _ (.inl (by omega))
  have off0? : ∀ v d, write3? v 0 d (6 * a.li.length - 3 + t) = v (6 * a.li.length - 3 + t) := fun v d =>
    write3?_off _ _ _ _ (.inr (by omega))
  have n2 : (s.system = "vpst-" ∨ s.system = "-vpst") := hv.symm
  have n3 : s.system ≠ "rot" := fun h => h4 (.inl h)
  have n4 : s.system ≠ "trans" := fun h => h4 (.inr h)
  unfold rhsFinal
  simp only [tdFold s _ h2, if_pos n2, if_neg n3, if_neg n4]
  constructor
  · rw [off?]
    rcases tdData s (-1) (a.ki.getD 0 false) with _ | d
    · simp only [write3?, off, at0]
    · simp only [write3?, at0]
  · rw [write3?_at]
    rcases tdData s 1 (a.ki.getD (a.li.length - 1) false) with _ | d
    · simp only [off0?, at1]
    · rfl

theorem bcFun_face {s : Self} (hv : IsVpst s) (kR : ℝ) (k : Bool) (pos : Pos) (z : Vec6) :
    bcFun s kR k pos z = ![fN s z, fM s z, fV s z] := by
  obtain ⟨h1, h3, -⟩ := face_kinds hv
  unfold bcFun
  rw [if_neg h1, if_neg h3]

theorem face_end_iff {s : Self} (hv : IsVpst s) (phi kR : ℝ) (k k' : Bool) (pos : Pos) (e : Side) (z : Vec6) :
    (∀ t : Fin 3, bcFun s kR k pos z t = (match tdData s e.sgn k' with
      | some d => ![d.1, d.2.1, d.2.2] t
      | none => ![(verticalForces s phi).1, (verticalForces s phi).2.1, (verticalForces s phi).2.2] t)) ↔
    (faceEnd s phi e k').Holds s.beam z := by
  rw [bcFun_face hv, Fin.forall_fin_succ, Fin.forall_fin_succ, Fin.forall_fin_one]
  unfold faceEnd faceForces verticalForces
  rcases tdData s e.sgn k' with _ | d
  · simp [EndCond.Holds, fN, fM, fV, Self.beam, Beam.N, Beam.M, Beam.V]
  · simp [EndCond.Holds, fN, fM, fV, Self.beam, Beam.N, Beam.M, Beam.V]

theorem face_rows (s : Self) (phi kR : ℝ) (a : SegLists) (hl : ListsOk s a) (hv : IsVpst s) (x : ℕ → ℝ)
    (h : ∀ r < 6 * a.li.length, ∑ c ∈ Finset.range (6 * a.li.length), matAt s kR a.li.length a.li a.ki a.li.length r c * x c
        = rhsFinal s phi a r - vecAt s kR phi a.li.length a.li a.ki a.li.length r) :
    FaceMeets s phi a (constsOf x) := by
  have e : ∀ r, (∑ c ∈ Finset.range (6 * a.li.length), matAt s kR a.li.length a.li a.ki a.li.length r c * x c
        = rhsFinal s phi a r - vecAt s kR phi a.li.length a.li a.ki a.li.length r)
      ↔ ∑ i ∈ Finset.range a.li.length, rowOf s kR a.li.length a.ki i r (stateAt s phi a.li a.ki (constsOf x) i 0)
        (stateAt s phi a.li a.ki (constsOf x) i (nth a.li i)) = rhsFinal s phi a r := by
    intro r
    rw [← row_sum s kR phi, eq_sub_iff_add_eq]
  simp only [e] at h
  rw [forall_rows _ _ hl.two] at h
  simp only [row_left s kR _ hl.two, row_right s kR _ hl.two] at h
  obtain ⟨h1, h2, h3⟩ := h
  refine ⟨?_, ?_, fun i hi => (six_iff _ _ _ _).mp fun t => ?_⟩
  · exact (face_end_iff hv phi kR _ _ .l .left _).mp fun t => (h1 t).trans (rhsFinal_face s phi a hl hv t).1
  · exact (face_end_iff hv phi kR _ _ .r .right _).mp fun t => (h2 t).trans (rhsFinal_face s phi a hl hv t).2
  · have := h3 i hi t
    rwa [row_mid s kR _ _ _ _ i hi, rhsFinal_mid s phi a hl i hi] at this

theorem FaceMeets.congr {s : Self} {phi : ℝ} {a : SegLists} {C C' : ℕ → Vec6} (h0 : 0 < a.li.length)
    (h : ∀ i < a.li.length, C i = C' i) (hm : FaceMeets s phi a C) : FaceMeets s phi a C' := by
  have e : ∀ i < a.li.length, ∀ x, stateAt s phi a.li a.ki C i x = stateAt s phi a.li a.ki C' i x := by
    intro i hi x
    rw [stateAt, stateAt, h i hi]
  obtain ⟨h1, h2, h3⟩ := hm
  refine ⟨?_, ?_, fun i hi => ?_⟩
  · have := e 0 h0 0
    simp only [this] at h1
    exact h1
  · have := e (a.li.length - 1) (by omega) (nth a.li (a.li.length - 1))
    simp only [this] at h2
    exact h2
  · have := h3 i hi
    simp only [e i (by omega), e (i + 1) hi] at this
    exact this

/-- C40, what the code guarantees: every solved vertical-face PST carries the
weight of the wedge at its ends, except that an unsupported end in stages B and
C has no moment and a *shear force* whose numerical value is the touchdown
distance. Missing from the full property: the deflection is not prescribed
(`C40_deflection_not_prescribed`). -/
theorem C40_vertical_face_partial (num : Numerics) (kind : SeqKind) (phi : ℝ) (a a' : SegLists)
    (s s' : Self) (C : List Vec6) (hf : EigFresh num.eig s) (hv : IsVpst s)
    (h : assembleAndSolve num kind phi a s = (.ok (C, a'), s')) :
    s' = s ∧ a' = full a ∧ FaceMeets s phi a' (fun i => C.getD i 0) := by
  have hfr := spring_frame num s hf
  obtain ⟨hV, h1, h2⟩ := assembleWith_valid (sub := spring num) h
  simp only [] at h1 h2
  subst h1
  have hd := asmSolve_defined hfr h2
  have hl := hV.listsOk
  rw [asmSolve_run hl.two hd, Prod.mk.injEq] at h2
  obtain ⟨h2, rfl⟩ := h2
  rcases hx : npSolve (6 * (full a).li.length) (matAt s (valOf (spring num) s) (full a).li.length (full a).li (full a).ki (full a).li.length)
    (fun r => rhsFinal s phi (full a) r - vecAt s (valOf (spring num) s) phi (full a).li.length (full a).li (full a).ki (full a).li.length r) with e | x
  · rw [hx] at h2
    simp [Except.map] at h2
  rw [hx] at h2
  simp only [Except.map, Except.ok.injEq] at h2
  subst h2
  exact ⟨rfl, rfl, FaceMeets.congr (by have := hl.two; omega) (fun i hi => (constsOf_getD x _ i hi).symm)
    (face_rows s phi _ _ hl hv x (npSolve_ok hx).1)⟩

/-- Work done at the end of an unsupported segment. -/
theorem free_work {b : Beam} (hb : b.Coercive) {f : ℝ → Vec6} (hf : SolvesODE b Loads.zero false f) (l : ℝ) (hl : 0 ≤ l) :
    b.flux (f 0) + l * (b.V (f l) ^ 2 / b.S) ≤ b.flux (f l) := by
  have hV : ∀ x, b.V (f x) = b.V (f l) := by
    have hd : ∀ x, HasDerivAt (fun y => b.V (f y)) 0 x := fun x => by
      obtain ⟨dz, h1, h2⟩ := ((solvesODE_iff_driven _ _ _ _).mp hf) x
      have h3 := ((hasDerivAt_pi.mp h1 3).add (hasDerivAt_pi.mp h1 4)).const_mul b.S
      exact h3.congr_deriv (by rw [h2.V]; simp [Beam.drive, Loads.zero])
    intro x
    exact is_const_of_deriv_eq_zero (fun x => (hd x).differentiableAt) (fun x => (hd x).deriv) x l
  have hd : ∀ x, HasDerivAt (fun y => b.flux (f y) - y * (b.V (f l) ^ 2 / b.S))
      (b.diss false (f x) - b.V (f l) ^ 2 / b.S) x := fun x => by
    obtain ⟨dz, h1, h2⟩ := hf x
    exact (b.flux_deriv false f x dz h1 h2).sub (((hasDerivAt_id' x).mul_const _).congr_deriv (by simp))
  have hmono : Monotone fun y => b.flux (f y) - y * (b.V (f l) ^ 2 / b.S) := by
    refine monotone_of_deriv_nonneg (fun x => (hd x).differentiableAt) fun x => ?_
    rw [(hd x).deriv]
    have hs := (hb.slab (f x 1) (f x 5)).1
    have hS := hb.S
    have e : b.V (f l) ^ 2 / b.S = b.S * (f x 3 + f x 4) ^ 2 := by
      rw [← hV x, Beam.V]; field_simp
    rw [e]
    simp only [Beam.diss, Bool.false_eq_true, if_false, add_zero]
    linarith
  have := hmono hl
  simp only [zero_mul, sub_zero] at this
  linarith

/-- C40 is violated. Take any solved PST `vpst-` in stage B whose crack is longer
than `kA55` (in mm and N/mm) and change only the touchdown distance: at most
one of the two computed deflections of the tip is the touchdown distance. -/
theorem C40_deflection_not_prescribed (num : Numerics) (kind : SeqKind) (phi tc' l0 l1 : ℝ) (a1 a2 : SegLists)
    (s s1 s2 : Self) (C C' : List Vec6) (hb : BedOk s) (hc : ShearOk s) (hf : EigFresh num.eig s)
    (hsys : s.system = "vpst-") (hm : s.mode = .B) (h0 : 0 ≤ l0) (h1 : s.kA55 < l1) (htc : tc' ≠ s.tc)
    (h : assembleAndSolve num kind phi ⟨[l0, l1], [0], [true, false]⟩ s = (.ok (C, a1), s1))
    (h' : assembleAndSolve num kind phi ⟨[l0, l1], [0], [true, false]⟩ { s with tc := tc' } = (.ok (C', a2), s2)) :
    ¬ (fw (zsol s l1 (C.getD 1 0) l1 phi false) = s.tc ∧ fw (zsol s l1 (C'.getD 1 0) l1 phi false) = tc') := by
  rintro ⟨w1, w2⟩
  have hS : 0 < s.kA55 := hb.stiff.kA55
  have hfull : full ⟨[l0, l1], [0], [true, false]⟩ = ⟨[l0, l1], [0], [true, false]⟩ := by
    unfold full; rw [if_neg (by simp)]
  obtain ⟨-, rfl, b1⟩ := C40_vertical_face_partial num kind phi _ _ s _ C hf (.inr hsys) h
  obtain ⟨-, rfl, b2⟩ := C40_vertical_face_partial num kind phi _ _ { s with tc := tc' } _ C'
    (hf.stage s.system s.mode s.L s.a tc' s.td s.phi s.ratio) (.inr hsys) h'
  rw [hfull] at b1 b2
  have hco := hb.stiff.coercive hc
  have e1 : faceEnd s phi .right false = .forces 0 0 s.tc := by simp [faceEnd, tdData, hm]
  have e2 : faceEnd { s with tc := tc' } phi .right false = .forces 0 0 tc' := by simp [faceEnd, tdData, hm]
  have f1 : faceEnd s phi .left true = faceForces s phi := rfl
  have f2 : faceEnd { s with tc := tc' } phi .left true = faceForces s phi := rfl
  obtain ⟨p1, p2, p3⟩ := b1
  obtain ⟨q1, q2, q3⟩ := b2
  have p2' : (EndCond.forces 0 0 s.tc).Holds s.beam (zsol s l1 (C.getD 1 0) l1 phi false) := by
    have := p2; simp only [List.length_cons, List.length_nil] at this; rw [← e1]; exact this
  have q2' : (EndCond.forces 0 0 tc').Holds s.beam (zsol s l1 (C'.getD 1 0) l1 phi false) := by
    have := q2; simp only [List.length_cons, List.length_nil] at this; rw [← e2]; exact this
  have p1' : (faceForces s phi).Holds s.beam (zsol s 0 (C.getD 0 0) l0 phi true) := p1
  have q1' : (faceForces s phi).Holds s.beam (zsol s 0 (C'.getD 0 0) l0 phi true) := q1
  have p3' : Transmission s.beam (jump s phi [0] 0) (zsol s l0 (C.getD 0 0) l0 phi true)
      (zsol s 0 (C.getD 1 0) l1 phi false) := p3 0 (by simp)
  have q3' : Transmission s.beam (jump s phi [0] 0) (zsol s l0 (C'.getD 0 0) l0 phi true)
      (zsol s 0 (C'.getD 1 0) l1 phi false) := q3 0 (by simp)
  have d := fun (C : List Vec6) i => stateAt_driven s hb phi [l0, l1] [true, false] (fun i => C.getD i 0) i
  have D0 : SolvesODE s.beam Loads.zero true
      (fun x => zsol s x (C.getD 0 0) l0 phi true - zsol s x (C'.getD 0 0) l0 phi true) := (d C 0).sub (d C' 0)
  have D1 : SolvesODE s.beam Loads.zero false
      (fun x => zsol s x (C.getD 1 0) l1 phi false - zsol s x (C'.getD 1 0) l1 phi false) := (d C 1).sub (d C' 1)
  have fl0 := EndCond.flux_left (b := s.beam) (e := faceForces s phi) trivial (p1'.sub q1')
  have fl1 := flux_mono hco D0 h0
  have fl2 := transmission_flux (p3'.sub q3')
  have fl3 := free_work hco D1 l1 (by linarith)
  simp only at fl1 fl3
  obtain ⟨n1, n2, n3⟩ := p2'
  obtain ⟨o1, o2, o3⟩ := q2'
  set z := zsol s l1 (C.getD 1 0) l1 phi false
  set z' := zsol s l1 (C'.getD 1 0) l1 phi false
  have gN : s.beam.N (z - z') = 0 := by
    simp only [Beam.N, Pi.sub_apply] at *; linarith
  have gM : s.beam.M (z - z') = 0 := by
    simp only [Beam.M, Pi.sub_apply] at *; linarith
  have gV : s.beam.V (z - z') = s.tc - tc' := by
    simp only [Beam.V, Pi.sub_apply] at *; linarith
  have gw : (z - z') 2 = s.tc - tc' := by
    simp only [fw] at w1 w2; simp only [Pi.sub_apply, w1, w2]
  have hfl : s.beam.flux (z - z') = (s.tc - tc') ^ 2 := by
    simp only [Beam.flux, gN, gM, gV, gw]; ring
  have hpos : 0 < (s.tc - tc') ^ 2 := by
    have : s.tc - tc' ≠ 0 := sub_ne_zero.mpr (Ne.symm htc)
    positivity
  rw [gV, hfl] at fl3
  have hb55 : s.beam.S = s.kA55 := rfl
  rw [hb55] at fl3
  have hlt : (s.tc - tc') ^ 2 < l1 * ((s.tc - tc') ^ 2 / s.kA55) := by
    rw [mul_div_assoc', lt_div_iff₀ hS]
    nlinarith
  linarith

/-- The slab of `comp` as a vertical-face PST in stage B. -/
noncomputable def vpstDemo (tc : ℝ) : Self := (demo stdEig "vpst-" true).stage "vpst-" .B 1500 500 tc 500 0 1000

theorem vpstDemo_solved (tc : ℝ) : ∃ C a' s', assembleAndSolve stdNum .list 30 (pstLists 500) (vpstDemo tc)
    = (.ok (C, a'), s') := by
  obtain ⟨C, h1, -⟩ := C18_unique_solution stdNum .list 30 (pstLists 500) (vpstDemo tc)
    ((demo_bedOk "vpst-" true).stage _ _ _ _ _ _ _ _) ((demo_shear stdEig "vpst-" true).stage _ _ _ _ _ _ _ _)
    ((demo_ready stdEig "vpst-" true).fresh.eigFresh.stage _ _ _ _ _ _ _ _)
    ⟨by simp [pstLists], rfl, rfl, fun h => absurd (show finiteSystem "vpst-" by decide) h⟩ (.inl rfl)
    (.inr (.inl (.inr rfl))) (fun h => absurd h (face_kinds (.inr rfl)).1)
    (fun h => absurd h (face_kinds (.inr rfl)).1) (pstLists_supported _ (by norm_num))
  exact ⟨C, _, _, h1⟩

/-- C40, concrete violation: with a touchdown distance of 6 or of 7 mm the
computed deflection of the tip is another one. -/
theorem C40_violated : ∃ tc C a' s', assembleAndSolve stdNum .list 30 (pstLists 500) (vpstDemo tc)
    = (.ok (C, a'), s') ∧ fw (zsol (vpstDemo tc) 500 (C.getD 1 0) 500 30 false) ≠ (vpstDemo tc).tc := by
  obtain ⟨C, a1, s1, h⟩ := vpstDemo_solved 6
  obtain ⟨C', a2, s2, h'⟩ := vpstDemo_solved 7
  have key := C40_deflection_not_prescribed stdNum .list 30 7 1000 500 a1 a2 (vpstDemo 6) s1 s2 C C'
    ((demo_bedOk "vpst-" true).stage _ _ _ _ _ _ _ _) ((demo_shear stdEig "vpst-" true).stage _ _ _ _ _ _ _ _)
    ((demo_ready stdEig "vpst-" true).fresh.eigFresh.stage _ _ _ _ _ _ _ _) rfl rfl (by norm_num)
    (by
      have := (demo_fields stdEig "vpst-" true).2.2.2.2.2.1
      show (demo stdEig "vpst-" true).kA55 < 500
      rw [this]; norm_num)
    (by show (7 : ℝ) ≠ 6; norm_num) h h'
  by_cases hw : fw (zsol (vpstDemo 6) 500 (C.getD 1 0) 500 30 false) = (vpstDemo 6).tc
  · exact ⟨7, C', a2, s2, h', fun h7 => key ⟨hw, h7⟩⟩
  · exact ⟨6, C, a1, s1, h, hw⟩

end Weac
