import Verif.Lemmas.Work

/-!
# C64: energy balance of loading and crack growth
-/

namespace Weac

/-! ## Specification -/

/-- Integral of a quantity of the state over all segments; the quantity may depend on
whether the segment is supported. -/
noncomputable def Spec.overBeam (s : Self) (phi : ℝ) (a : SegLists) (C : List Vec6) (q : Bool → Vec6 → ℝ) : ℝ :=
  ∑ i ∈ Finset.range a.li.length, ∫ x in (0 : ℝ)..nth a.li i,
    q (a.ki.getD i false) (zsol s x (C.getD i 0) (nth a.li i) phi (a.ki.getD i false))

/-- State at the end of segment `i`. -/
noncomputable def Spec.atBoundary (s : Self) (phi : ℝ) (a : SegLists) (C : List Vec6) (i : ℕ) : Vec6 :=
  zsol s (nth a.li i) (C.getD i 0) (nth a.li i) phi (a.ki.getD i false)

/-- Energy stored in the slab and in the weak layer below supported segments. -/
noncomputable def Spec.elasticEnergy (s : Self) (phi : ℝ) (a : SegLists) (C : List Vec6) : ℝ :=
  overBeam s phi a C s.beam.stored

/-- Work of the weight of the slab at its centre of gravity, of the surface load on the
surface, and of skiers on the surface. -/
noncomputable def Spec.workOfLoads (s : Self) (phi : ℝ) (a : SegLists) (C : List Vec6) : ℝ :=
  overBeam s phi a C (fun _ z => (s.loads phi).qn * fw z + (s.loads phi).qt * fu z s.zs + (s.loads phi).pn * fw z
    + (s.loads phi).pt * fu z (-(s.h / 2)))
  + ∑ i ∈ Finset.range (a.li.length - 1), ((getSkierLoad s (nth a.mi i) phi).1 * fw (atBoundary s phi a C i)
    + (getSkierLoad s (nth a.mi i) phi).2 * fu (atBoundary s phi a C i) (-(s.h / 2)))

/-- Work of the wedges at vertical faces. -/
noncomputable def Spec.workOfFaces (s : Self) (phi : ℝ) (a : SegLists) (C : List Vec6) : ℝ :=
  if IsVpst s then (faceForces s phi).work (rightEnd s phi a C) - (faceForces s phi).work (leftEnd s phi a C) else 0

/-- Total potential. -/
noncomputable def Spec.potential (s : Self) (phi : ℝ) (a : SegLists) (C : List Vec6) : ℝ :=
  elasticEnergy s phi a C - workOfLoads s phi a C - workOfFaces s phi a C

/-- The segments of a beam before (`a`, `C0`) and after (`ki`, `C1`) a crack has grown. -/
def Spec.advance (a : SegLists) (ki : List Bool) (C0 C1 : List Vec6) : List IncSeg :=
  (List.range a.li.length).map fun i => ⟨C0.getD i 0, C1.getD i 0, nth a.li i, ki.getD i false, a.ki.getD i false⟩

/-- A system with a potential: skiers, vertical faces, or free ends of a saw test. -/
structure Spec.DeadLoads (s : Self) (a : SegLists) : Prop where
  known : IsPst s ∨ IsVpst s ∨ IsSkier s
  free : IsPst s → FreeEnds s a
  faces : NoFaceTouchdown s

open Spec

/-! ## From the solver to chains -/

theorem Spec.DeadLoads.not_aux {s : Self} {a : SegLists} (h : DeadLoads s a) : ¬ IsAux s := by
  unfold IsAux
  rcases h.known with h | h | h <;> rcases h with h | h <;> rw [h] <;> decide

/-- The condition at an end, whatever is supported. -/
noncomputable def endOf (s : Self) (phi : ℝ) : EndCond :=
  if IsPst s then .forces 0 0 0 else if IsVpst s then faceForces s phi
  else .state (zp s 0 phi true 0) (zp s 0 phi true 2) (zp s 0 phi true 4)

theorem Spec.DeadLoads.ends {s : Self} {a : SegLists} (h : DeadLoads s a) (phi kR : ℝ) :
    endCond s phi kR .left (a.ki.getD 0 false) = endOf s phi ∧
    endCond s phi kR .right (a.ki.getD (a.li.length - 1) false) = endOf s phi := by
  by_cases hp : IsPst s
  · unfold endOf
    rw [if_pos hp]
    exact endCond_free phi kR a (h.free hp)
  · unfold endCond endOf
    rw [if_neg hp, if_neg hp, if_neg hp]
    by_cases hv : IsVpst s
    · rw [if_pos hv, if_pos hv, if_pos hv]; exact ⟨rfl, rfl⟩
    · have hs : IsSkier s := by rcases h.known with h | h | h <;> tauto
      rw [if_neg hv, if_neg hv, if_neg hv, if_pos hs, if_pos hs]; exact ⟨rfl, rfl⟩

theorem meets_chain {s : Self} (hb : BedOk s) {phi kR : ℝ} (hp : s.B11 * (s.loads phi).pt = 0) {a : SegLists} {C : ℕ → Vec6}
    {n : ℕ} (hn : a.li.length = n + 1) (hm : Meets s phi kR a C) :
    Chain s.beam n (nth a.li) (fun i => a.ki.getD i false) (s.beam.drive (s.loads phi)) (jump s phi a.mi)
      (stateAt s phi a.li a.ki C) := by
  have hA := hb.stiff.regular.A11
  have hd : ∀ bed, driveOf s phi bed = s.beam.drive (s.loads phi) := by
    intro bed
    have : s.B11 / s.A11 * (s.loads phi).pt = 0 := by rw [div_mul_eq_mul_div, hp, zero_div]
    unfold driveOf
    rw [this]
    simp
  refine ⟨fun i _ => ?_, fun i hi => hm.trans i (by omega)⟩
  have := stateAt_driven s hb phi a.li a.ki C i
  rwa [hd] at this

theorem distWork_eq (s : Self) (phi : ℝ) (z : Vec6) : distWork (s.beam.drive (s.loads phi)) z
    = (s.loads phi).qn * fw z + (s.loads phi).qt * fu z s.zs + (s.loads phi).pn * fw z + (s.loads phi).pt * fu z (-(s.h / 2)) := by
  simp only [distWork, Beam.drive, Self.beam, fw, fu, fpsi]
  ring

theorem jumpWork_eq {s : Self} (hs : ¬ IsAux s) (phi : ℝ) (mi : List ℝ) (i : ℕ) (z : Vec6) : jumpWork (jump s phi mi i) z
    = (getSkierLoad s (nth mi i) phi).1 * fw z + (getSkierLoad s (nth mi i) phi).2 * fu z (-(s.h / 2)) := by
  unfold jump
  rw [if_neg hs]
  simp only [jumpWork, fw, fu, fpsi]
  ring

theorem overBeam_sub (s : Self) (phi : ℝ) (a : SegLists) (C : List Vec6) {p q : Bool → Vec6 → ℝ} (hp : ∀ k, Continuous (p k))
    (hq : ∀ k, Continuous (q k)) :
    overBeam s phi a C (fun k z => p k z - q k z) = overBeam s phi a C p - overBeam s phi a C q := by
  unfold overBeam
  rw [← Finset.sum_sub_distrib]
  refine Finset.sum_congr rfl fun i _ => ?_
  have c := continuous_zsol s (C.getD i 0) (nth a.li i) phi (a.ki.getD i false)
  exact intervalIntegral.integral_sub (((hp _).comp c).intervalIntegrable _ _) (((hq _).comp c).intervalIntegrable _ _)

theorem potential_eq {s : Self} {phi : ℝ} {a : SegLists} (hd : DeadLoads s a) {C : List Vec6} {n : ℕ} (hn : a.li.length = n + 1) :
    chainPotential s.beam n (nth a.li) (fun i => a.ki.getD i false) (s.beam.drive (s.loads phi)) (jump s phi a.mi)
      (endOf s phi) (endOf s phi) (stateAt s phi a.li a.ki fun i => C.getD i 0) = potential s phi a C := by
  unfold potential elasticEnergy workOfLoads
  have e1 := overBeam_sub s phi a C (p := s.beam.stored) (q := fun _ z => distWork (s.beam.drive (s.loads phi)) z)
    (fun k => s.beam.stored_cont k) (fun _ => distWork_cont _)
  have e2 : overBeam s phi a C (fun _ z => distWork (s.beam.drive (s.loads phi)) z)
      = overBeam s phi a C (fun _ z => (s.loads phi).qn * fw z + (s.loads phi).qt * fu z s.zs + (s.loads phi).pn * fw z
    + (s.loads phi).pt * fu z (-(s.h / 2))) := by
    simp only [distWork_eq]
  rw [e2] at e1
  have e3 : (endOf s phi).work (stateAt s phi a.li a.ki (fun i => C.getD i 0) n (nth a.li n))
      - (endOf s phi).work (stateAt s phi a.li a.ki (fun i => C.getD i 0) 0 0) = workOfFaces s phi a C := by
    unfold workOfFaces endOf
    by_cases hp : IsPst s
    · have hv : ¬ IsVpst s := by
        unfold IsPst at hp
        unfold IsVpst
        rcases hp with hp | hp <;> rw [hp] <;> decide
      rw [if_pos hp, if_neg hv]
      simp [EndCond.work]
    · rw [if_neg hp]
      by_cases hv : IsVpst s
      · rw [if_pos hv, if_pos hv]
        have : rightEnd s phi a C = stateAt s phi a.li a.ki (fun i => C.getD i 0) n (nth a.li n) := by
          simp only [rightEnd, hn, Nat.add_sub_cancel]; rfl
        rw [this]
        rfl
      · rw [if_neg hv, if_neg hv]
        simp [EndCond.work]
  unfold chainPotential
  rw [e3, hn, Nat.add_sub_cancel, ← sub_sub, ← e1]
  congr 2
  · unfold overBeam
    rw [hn]
    rfl
  · refine Finset.sum_congr rfl fun i _ => ?_
    rw [jumpWork_eq hd.not_aux]
    rfl

/-- Work by which the model departs from a potential when the field `C1` replaces `C0`. -/
noncomputable def Spec.departure (s : Self) (phi : ℝ) (a : SegLists) (ki : List Bool) (C0 C1 : List Vec6) : ℝ :=
  ∑ i ∈ Finset.range a.li.length, ∫ x in (0 : ℝ)..nth a.li i, s.beam.defect (a.ki.getD i false) (ki.getD i false)
    (zsol s x (C0.getD i 0) (nth a.li i) phi (a.ki.getD i false)) (zsol s x (C1.getD i 0) (nth a.li i) phi (ki.getD i false))

theorem opening_split (s : Self) {f g : ℝ → Vec6} (hf : Continuous f) (hg : Continuous g) (l : ℝ) :
    ∫ x in (0 : ℝ)..l, s.beam.opening (f x) (g x)
      = (∫ x in (0 : ℝ)..l, s.kn * f x 2 * g x 2) + ∫ x in (0 : ℝ)..l, s.beam.tau (f x) * s.beam.slip (g x) := by
  have d0 := fun i : Fin 6 => (continuous_apply i).comp hf
  have d1 := fun i : Fin 6 => (continuous_apply i).comp hg
  simp only [Function.comp_def] at d0 d1
  rw [← intervalIntegral.integral_add (Continuous.intervalIntegrable (by fun_prop) _ _)
    (Continuous.intervalIntegrable (by unfold Beam.tau Beam.slip; fun_prop) _ _)]
  rfl

theorem advance_sum (s : Self) (phi : ℝ) (a : SegLists) (ki : List Bool) (C0 C1 : List Vec6) :
    ∑ i ∈ Finset.range a.li.length, (if a.ki.getD i false && !ki.getD i false then
      (∫ x in (0 : ℝ)..nth a.li i, s.beam.opening (zsol s x (C0.getD i 0) (nth a.li i) phi (a.ki.getD i false))
        (zsol s x (C1.getD i 0) (nth a.li i) phi (ki.getD i false))) / 2 else 0)
    = (((advance a ki C0 C1).filter fun g => g.k0 && !g.ki).map (normalWork s phi)).sum / 2
      + (((advance a ki C0 C1).filter fun g => g.k0 && !g.ki).map (shearWork s phi)).sum / 2 := by
  unfold advance
  generalize a.li.length = m
  induction m with
  | zero => simp
  | succ m ih =>
    rw [Finset.sum_range_succ, ih, List.range_succ, List.map_append, List.filter_append, List.map_append, List.map_append,
      List.sum_append, List.sum_append]
    simp only [List.map_cons, List.map_nil]
    by_cases h : (a.ki.getD m false && !ki.getD m false) = true
    · rw [if_pos h, List.filter_cons_of_pos (p := fun g : IncSeg => g.k0 && !g.ki) h, List.filter_nil]
      simp only [List.map_cons, List.map_nil, List.sum_cons, List.sum_nil, add_zero, normalWork, shearWork]
      obtain ⟨h1, h2⟩ : a.ki.getD m false = true ∧ ki.getD m false = false := by simpa using h
      rw [h1, h2]
      rw [opening_split s (continuous_zsol s _ _ _ _) (continuous_zsol s _ _ _ _)]
      ring
    · rw [if_neg h, List.filter_cons_of_neg (p := fun g : IncSeg => g.k0 && !g.ki) h, List.filter_nil]
      simp

/-- C64. When a crack grows under dead loads, the potential drops by half the work of the
weak-layer tractions before on the opening and slip after. The missing part is the term
`departure`. -/
theorem C64_released_partial (num : Numerics) (kind kind' : SeqKind) (phi : ℝ) (a0 a1 a0' a1' : SegLists) (s s0 s1 : Self)
    (C0 C1 : List Vec6) (hb : BedOk s) (hf : EigFresh num.eig s) (hd0 : DeadLoads s a0') (hd1 : DeadLoads s a1')
    (hp : s.B11 * (s.loads phi).pt = 0)
    (h0 : assembleAndSolve num kind phi a0 s = (.ok (C0, a0'), s0)) (h1 : assembleAndSolve num kind' phi a1 s = (.ok (C1, a1'), s1))
    (hl : a1'.li = a0'.li) (hmi : a1'.mi = a0'.mi) (hk : ∀ i, a1'.ki.getD i false = true → a0'.ki.getD i false = true)
    (cr : List IncSeg) (hcr : cr = (advance a0' a1'.ki C0 C1).filter fun g => g.k0 && !g.ki) :
    potential s phi a0' C0 - potential s phi a1' C1
      = (cr.map (normalWork s phi)).sum / 2 + (cr.map (shearWork s phi)).sum / 2 + departure s phi a0' a1'.ki C0 C1 := by
  have hv := (assembleWith_valid (sub := spring num) h0).1
  obtain ⟨-, rfl, -, m0, -⟩ := C16_solution_meets_all_conditions num kind phi a0 a0' s s0 C0 hf hd0.faces h0
  obtain ⟨-, -, -, m1, -⟩ := C16_solution_meets_all_conditions num kind' phi a1 a1' s s1 C1 hf hd1.faces h1
  have h2 := full_two hv
  generalize full a0 = a at *
  obtain ⟨l1, mi1, k1⟩ := a1'
  simp only at hl hmi hk hcr ⊢
  subst hl hmi
  obtain ⟨n, hn⟩ : ∃ n, a.li.length = n + 1 := ⟨a.li.length - 1, by omega⟩
  have hn' : (⟨a.li, a.mi, k1⟩ : SegLists).li.length = n + 1 := hn
  have c0 := meets_chain hb hp hn m0
  have c1 := meets_chain hb hp hn' m1
  obtain ⟨l0, r0, -⟩ := m0
  obtain ⟨l1, r1, -⟩ := m1
  rw [(hd0.ends phi _).1] at l0
  rw [(hd0.ends phi _).2] at r0
  rw [(hd1.ends phi _).1] at l1
  rw [(hd1.ends phi _).2] at r1
  simp only [hn, Nat.add_sub_cancel] at r0 r1
  have := Chain.released c0 c1 (fun i _ => hk i) l0 l1 r0 r1
  rw [potential_eq hd0 hn] at this
  have p1 := potential_eq (phi := phi) hd1 (C := C1) hn'
  simp only at p1
  rw [p1] at this
  rw [this, hcr, ← advance_sum, departure, hn]
  rfl

/-- C64. The energy released is `da (I - II)` of what `ginc` returns: mode II enters with
the wrong sign (C31). -/
theorem C64_ginc_partial (num : Numerics) (quad : Quad) (e : ℝ) (hq : QuadOk quad e) (kind kind' : SeqKind) (phi : ℝ)
    (a0 a1 a0' a1' : SegLists) (s s0 s1 : Self)
    (C0 C1 : List Vec6) (hb : BedOk s) (hf : EigFresh num.eig s) (hd0 : DeadLoads s a0') (hd1 : DeadLoads s a1')
    (hp : s.B11 * (s.loads phi).pt = 0)
    (h0 : assembleAndSolve num kind phi a0 s = (.ok (C0, a0'), s0)) (h1 : assembleAndSolve num kind' phi a1 s = (.ok (C1, a1'), s1))
    (hl : a1'.li = a0'.li) (hmi : a1'.mi = a0'.mi) (hk : ∀ i, a1'.ki.getD i false = true → a0'.ki.getD i false = true)
    (cr : List IncSeg) (hcr : cr = (advance a0' a1'.ki C0 C1).filter fun g => g.k0 && !g.ki) (da : ℝ) (hda : da = (cr.map IncSeg.l).sum)
    (hpos : 0 < da) :
    ∃ I II, ginc quad s phi (advance a0' a1'.ki C0 C1) = some (I + II, I, II) ∧
      |potential s phi a0' C0 - potential s phi a1' C1 - departure s phi a0' a1'.ki C0 C1 - da * (I - II)| ≤ cr.length * e := by
  obtain ⟨I, II, g, g1, g2⟩ := C31_ginc_partial quad e hq s hb.stiff.t.ne' phi (advance a0' a1'.ki C0 C1) cr hcr da hda hpos
  refine ⟨I, II, g, ?_⟩
  rw [C64_released_partial num kind kind' phi a0 a1 a0' a1' s s0 s1 C0 C1 hb hf hd0 hd1 hp h0 h1 hl hmi hk cr hcr]
  generalize (cr.map (normalWork s phi)).sum = P at *
  generalize (cr.map (shearWork s phi)).sum = Q at *
  have e1 : P / (2 * da) * da = P / 2 := by field_simp
  have e2 : Q / (2 * da) * da = Q / 2 := by field_simp
  have e3 : (cr.length * e / (2 * da)) * da = cr.length * e / 2 := by field_simp
  rw [abs_le] at g1 g2 ⊢
  constructor <;> nlinarith [g1.1, g1.2, g2.1, g2.2]

/-! ## How large the departure can be -/

theorem shear_bound {kt S t c : ℝ} (hkt : 0 ≤ kt) (hS : 0 ≤ S) (hc : 0 ≤ c) (h : t ^ 2 * kt ≤ 16 * c ^ 2 * S) (p y : ℝ) :
    |t / 4 * (kt * p) * y| ≤ c / 2 * (kt * p ^ 2 + S * y ^ 2) := by
  have hB : 0 ≤ c / 2 * (kt * p ^ 2 + S * y ^ 2) := by positivity
  refine abs_le_of_sq_le_sq ?_ hB
  have h2 : t ^ 2 * kt * (kt * (p * y) ^ 2) ≤ 16 * c ^ 2 * S * (kt * (p * y) ^ 2) :=
    mul_le_mul_of_nonneg_right h (by positivity)
  have h3 : 0 ≤ c ^ 2 * (kt * p ^ 2 - S * y ^ 2) ^ 2 := by positivity
  nlinarith

theorem stored_ge {s : Self} (hs : Stiff s) (k : Bool) (z : Vec6) :
    s.kA55 * (z 3 + z 4) ^ 2 + (if k then s.kt * s.beam.slip z ^ 2 else 0) ≤ 2 * s.beam.stored k z ∧ 0 ≤ s.beam.stored k z := by
  have hA := hs.A11
  have hK : 0 < s.A11 * s.D11 - s.B11 ^ 2 := by
    have h1 := hs.K0
    have h2 := hs.K0_eq
    linarith
  have slab : 0 ≤ s.A11 * z 1 ^ 2 + 2 * s.B11 * z 1 * z 5 + s.D11 * z 5 ^ 2 := by
    have e : s.A11 * (s.A11 * z 1 ^ 2 + 2 * s.B11 * z 1 * z 5 + s.D11 * z 5 ^ 2)
      = (s.A11 * z 1 + s.B11 * z 5) ^ 2 + (s.A11 * s.D11 - s.B11 ^ 2) * z 5 ^ 2 := by ring
    by_contra hc
    push Not at hc
    have := mul_neg_of_pos_of_neg hA hc
    have p1 := sq_nonneg (s.A11 * z 1 + s.B11 * z 5)
    have p2 := mul_nonneg hK.le (sq_nonneg (z 5))
    linarith
  have hn : 0 ≤ s.kn * z 2 ^ 2 := mul_nonneg hs.kn.le (sq_nonneg _)
  have ht : 0 ≤ s.kt * s.beam.slip z ^ 2 := mul_nonneg hs.kt.le (sq_nonneg _)
  have hS : 0 ≤ s.kA55 * (z 3 + z 4) ^ 2 := mul_nonneg hs.kA55.le (sq_nonneg _)
  have e : 2 * s.beam.stored k z = (s.A11 * z 1 ^ 2 + 2 * s.B11 * z 1 * z 5 + s.D11 * z 5 ^ 2) + s.kA55 * (z 3 + z 4) ^ 2
      + if k then s.kn * z 2 ^ 2 + s.kt * s.beam.slip z ^ 2 else 0 := by
    simp only [Beam.stored, Beam.N, Beam.M, Beam.V, Self.beam, Beam.tau, Beam.slip]
    cases k
    · simp; ring
    · simp; ring
  cases k
  · simp only [Bool.false_eq_true, if_false] at *
    constructor <;> linarith
  · simp only [if_true] at *
    constructor <;> linarith

theorem defect_bound {s : Self} (hs : Stiff s) {c : ℝ} (hc : 0 ≤ c) (h : s.t ^ 2 * s.kt ≤ 16 * c ^ 2 * s.kA55) (k0 k1 : Bool) (y z : Vec6) :
    |s.beam.defect k0 k1 y z| ≤ 2 * c * (s.beam.stored k0 y + s.beam.stored k1 z) := by
  have g0 := (stored_ge hs k0 y).1
  have g1 := (stored_ge hs k1 z).1
  have key := fun p q => shear_bound hs.kt.le hs.kA55.le hc h p q
  have a1 := key (if k0 then s.beam.slip y else 0) (z 3 + z 4)
  have a2 := key (if k0 then s.beam.slip y else 0) (y 3 + y 4)
  have a3 := key (if k1 then s.beam.slip z else 0) (z 3 + z 4)
  have a4 := key (if k1 then s.beam.slip z else 0) (y 3 + y 4)
  have e : s.beam.defect k0 k1 y z = s.t / 4 * (s.kt * (if k0 then s.beam.slip y else 0)) * (z 3 + z 4)
      - s.t / 4 * (s.kt * (if k0 then s.beam.slip y else 0)) * (y 3 + y 4)
      + (s.t / 4 * (s.kt * (if k1 then s.beam.slip z else 0)) * (z 3 + z 4)
      - s.t / 4 * (s.kt * (if k1 then s.beam.slip z else 0)) * (y 3 + y 4)) := by
    simp only [Beam.defect, Beam.tau, Beam.slip, Self.beam]
    cases k0 <;> cases k1 <;> simp <;> ring
  have i0 : s.kt * (if k0 then s.beam.slip y else 0) ^ 2 = if k0 then s.kt * s.beam.slip y ^ 2 else 0 := by
    cases k0 <;> simp
  have i1 : s.kt * (if k1 then s.beam.slip z else 0) ^ 2 = if k1 then s.kt * s.beam.slip z ^ 2 else 0 := by
    cases k1 <;> simp
  rw [i0] at a1 a2
  rw [i1] at a3 a4
  rw [e]
  have m := mul_le_mul_of_nonneg_left (add_le_add g0 g1) hc
  refine (abs_add_le _ _).trans ?_
  refine (add_le_add (abs_sub _ _) (abs_sub _ _)).trans ?_
  linarith

theorem overBeam_mono (s : Self) (phi : ℝ) (a : SegLists) (hl : ∀ i, 0 ≤ nth a.li i) (ki : List Bool) (C0 C1 : List Vec6)
    {p : Bool → Bool → Vec6 → Vec6 → ℝ} {q r : Bool → Vec6 → ℝ} (hp : ∀ k k', Continuous fun x : Vec6 × Vec6 => p k k' x.1 x.2)
    (hq : ∀ k, Continuous (q k)) (hr : ∀ k, Continuous (r k)) (h : ∀ k k' y z, |p k k' y z| ≤ q k y + r k' z) :
    |∑ i ∈ Finset.range a.li.length, ∫ x in (0 : ℝ)..nth a.li i, p (a.ki.getD i false) (ki.getD i false)
      (zsol s x (C0.getD i 0) (nth a.li i) phi (a.ki.getD i false)) (zsol s x (C1.getD i 0) (nth a.li i) phi (ki.getD i false))|
    ≤ overBeam s phi a C0 q + overBeam s phi ⟨a.li, a.mi, ki⟩ C1 r := by
  refine (Finset.abs_sum_le_sum_abs _ _).trans ?_
  unfold overBeam
  rw [← Finset.sum_add_distrib]
  refine Finset.sum_le_sum fun i _ => ?_
  have c0 := continuous_zsol s (C0.getD i 0) (nth a.li i) phi (a.ki.getD i false)
  have c1 := continuous_zsol s (C1.getD i 0) (nth a.li i) phi (ki.getD i false)
  have i0 := ((hq (a.ki.getD i false)).comp c0).intervalIntegrable (μ := MeasureTheory.volume) 0 (nth a.li i)
  have i1 := ((hr (ki.getD i false)).comp c1).intervalIntegrable (μ := MeasureTheory.volume) 0 (nth a.li i)
  have e := intervalIntegral.integral_add i0 i1
  simp only [Function.comp_def] at e
  rw [← e]
  refine (intervalIntegral.abs_integral_le_integral_abs (hl i)).trans ?_
  exact intervalIntegral.integral_mono_on (hl i)
    ((((hp (a.ki.getD i false) (ki.getD i false)).comp (c0.prodMk c1)).abs).intervalIntegrable _ _)
    (i0.add i1) fun x _ => h _ _ _ _

/-- C64. The departure is small compared with the energies if the weak layer is soft
compared with the slab in shear. -/
theorem C64_departure (s : Self) (hs : Stiff s) (phi c : ℝ) (hc : 0 ≤ c) (h : s.t ^ 2 * s.kt ≤ 16 * c ^ 2 * s.kA55) (a : SegLists)
    (hl : ∀ i, 0 ≤ nth a.li i) (ki : List Bool) (C0 C1 : List Vec6) :
    |departure s phi a ki C0 C1| ≤ 2 * c * (elasticEnergy s phi a C0 + elasticEnergy s phi ⟨a.li, a.mi, ki⟩ C1) := by
  have hq : ∀ k : Bool, Continuous fun z => 2 * c * s.beam.stored k z := fun k => continuous_const.mul (s.beam.stored_cont k)
  have := overBeam_mono s phi a hl ki C0 C1 (p := s.beam.defect) (fun k k' => by
      unfold Beam.defect Beam.tau
      cases k <;> cases k' <;> simp only [Bool.false_eq_true, if_false, if_true] <;> fun_prop) hq hq
    (fun k k' y z => by rw [← mul_add]; exact defect_bound hs hc h k k' y z)
  refine this.trans (le_of_eq ?_)
  unfold elasticEnergy overBeam
  simp only [intervalIntegral.integral_const_mul, ← Finset.mul_sum]
  ring

/-! ## Work and stored energy -/

/-- Work of the section forces at the ends of the beam. -/
noncomputable def Spec.workOfEnds (s : Self) (phi : ℝ) (a : SegLists) (C : List Vec6) : ℝ :=
  s.beam.cross (rightEnd s phi a C) (rightEnd s phi a C) - s.beam.cross (leftEnd s phi a C) (leftEnd s phi a C)

/-- Excess of the work of the loads over twice the stored energy. -/
noncomputable def Spec.excess (s : Self) (phi : ℝ) (a : SegLists) (C : List Vec6) : ℝ :=
  overBeam s phi a C fun k z => if k then s.t / 2 * ftau s z * (z 3 + z 4) else 0

theorem ftau_slip (s : Self) (z : Vec6) : ftau s z = s.kt * s.beam.slip z := by
  simp only [ftau, Beam.slip, Self.beam, fdw, fu, fpsi]
  ring

theorem clapeyron {s : Self} (hb : BedOk s) {phi kR : ℝ} (hp : s.B11 * (s.loads phi).pt = 0) (hx : ¬ IsAux s) {a : SegLists}
    {C : List Vec6} (h2 : 2 ≤ a.li.length) (hm : Meets s phi kR a fun i => C.getD i 0) :
    workOfLoads s phi a C + workOfEnds s phi a C = 2 * elasticEnergy s phi a C + excess s phi a C := by
  obtain ⟨n, hn⟩ : ∃ n, a.li.length = n + 1 := ⟨a.li.length - 1, by omega⟩
  have := (meets_chain hb hp hn hm).clapeyron
  unfold workOfLoads elasticEnergy excess overBeam workOfEnds
  rw [hn, Nat.add_sub_cancel]
  simp only [distWork_eq, jumpWork_eq hx] at this
  have e1 : rightEnd s phi a C = stateAt s phi a.li a.ki (fun i => C.getD i 0) n (nth a.li n) := by
    simp only [rightEnd, hn, Nat.add_sub_cancel]; rfl
  have e2 : leftEnd s phi a C = stateAt s phi a.li a.ki (fun i => C.getD i 0) 0 0 := rfl
  rw [e1, e2]
  have e3 : ∀ z, s.beam.tau z = ftau s z := fun z => by rw [ftau_slip]; rfl
  simp only [e3] at this
  exact this

/-- C64. In a solved saw test with free ends or vertical faces the loads have done twice
the stored energy of work, up to a relative error of `c`. The missing part is the
exact equality. -/
theorem C64_clapeyron_partial (num : Numerics) (kind : SeqKind) (phi : ℝ) (a a' : SegLists) (s s' : Self) (C : List Vec6)
    (hb : BedOk s) (hf : EigFresh num.eig s) (hd : DeadLoads s a') (hns : ¬ IsSkier s) (hp : s.B11 * (s.loads phi).pt = 0)
    (h : assembleAndSolve num kind phi a s = (.ok (C, a'), s')) (hl : ∀ i, 0 ≤ nth a'.li i)
    (c : ℝ) (hc : 0 ≤ c) (hcs : s.t ^ 2 * s.kt ≤ 16 * c ^ 2 * s.kA55) :
    |workOfLoads s phi a' C + workOfFaces s phi a' C - 2 * elasticEnergy s phi a' C| ≤ c * (2 * elasticEnergy s phi a' C) := by
  have hv := (assembleWith_valid (sub := spring num) h).1
  obtain ⟨-, rfl, -, hm, -⟩ := C16_solution_meets_all_conditions num kind phi a a' s s' C hf hd.faces h
  have h2 := full_two hv
  generalize full a = a at *
  have e := clapeyron hb hp hd.not_aux h2 hm
  have ends : workOfEnds s phi a C = workOfFaces s phi a C := by
    obtain ⟨l0, r0, -⟩ := hm
    rw [(hd.ends phi _).1] at l0
    rw [(hd.ends phi _).2] at r0
    have l0 : (endOf s phi).Holds s.beam (leftEnd s phi a C) := l0
    have r0 : (endOf s phi).Holds s.beam (rightEnd s phi a C) := r0
    unfold workOfEnds workOfFaces Beam.cross
    by_cases hp : IsPst s
    · have hv : ¬ IsVpst s := by
        unfold IsPst at hp
        unfold IsVpst
        rcases hp with hp | hp <;> rw [hp] <;> decide
      rw [if_neg hv]
      unfold endOf at l0 r0
      rw [if_pos hp] at l0 r0
      obtain ⟨l1, l2, l3⟩ := l0
      obtain ⟨r1, r2, r3⟩ := r0
      rw [l1, l2, l3, r1, r2, r3]
      ring
    · have hv : IsVpst s := by rcases hd.known with h | h | h <;> tauto
      rw [if_pos hv]
      unfold endOf at l0 r0
      rw [if_neg hp, if_pos hv] at l0 r0
      unfold faceForces at l0 r0 ⊢
      obtain ⟨l1, l2, l3⟩ := l0
      obtain ⟨r1, r2, r3⟩ := r0
      rw [l1, l2, l3, r1, r2, r3]
      rfl
  rw [← ends, e, add_sub_cancel_left]
  have hq : ∀ k : Bool, Continuous fun z => c * (2 * s.beam.stored k z) := fun k =>
    continuous_const.mul (continuous_const.mul (s.beam.stored_cont k))
  have := overBeam_mono s phi a hl a.ki C C (p := fun k _ y _ => if k then s.t / 2 * ftau s y * (y 3 + y 4) else 0)
    (q := fun k z => c * (2 * s.beam.stored k z)) (r := fun _ _ => 0) (fun k k' => by
      unfold ftau
      cases k <;> simp only [Bool.false_eq_true, if_false, if_true, fdw, fu, fpsi] <;> fun_prop) hq (fun _ => continuous_const)
    (fun k k' y z => by
      have g := (stored_ge hb.stiff k y).1
      have m := mul_le_mul_of_nonneg_left g hc
      have b := shear_bound hb.stiff.kt.le hb.stiff.kA55.le hc hcs (s.beam.slip y) (y 3 + y 4)
      cases k
      · simp only [Bool.false_eq_true, if_false, abs_zero, add_zero] at *
        have := (stored_ge hb.stiff false y).2
        positivity
      · simp only [if_true] at *
        rw [ftau_slip]
        have e2 : s.t / 2 * (s.kt * s.beam.slip y) * (y 3 + y 4) = 2 * (s.t / 4 * (s.kt * s.beam.slip y) * (y 3 + y 4)) := by ring
        rw [e2, abs_mul, abs_of_pos (by norm_num : (0 : ℝ) < 2)]
        linarith)
  refine this.trans (le_of_eq ?_)
  unfold elasticEnergy overBeam
  simp only [intervalIntegral.integral_const_mul, ← Finset.mul_sum, intervalIntegral.integral_zero, Finset.sum_const_zero, add_zero]

/-! ## The undisturbed slope -/

theorem zsol_undisturbed (s : Self) (x l phi : ℝ) : zsol s x 0 l phi true = zp s 0 phi true := by
  unfold zsol
  rw [Matrix.mulVec_zero, zero_add]
  simp [zp]

/-- C10. On a slope without cracks and skiers the field is the particular integral
everywhere. -/
theorem C10_undisturbed (num : Numerics) (kind : SeqKind) (phi : ℝ) (a a' : SegLists) (s s' : Self) (C : List Vec6)
    (hf : EigFresh num.eig s) (hs : IsSkier s) (hk : ∀ i < a'.li.length, a'.ki.getD i false = true) (hm : ∀ i, nth a'.mi i = 0)
    (h : assembleAndSolve num kind phi a s = (.ok (C, a'), s')) (i : ℕ) (hi : i < a'.li.length) (x : ℝ) :
    zsol s x (C.getD i 0) (nth a'.li i) phi (a'.ki.getD i false) = zp s 0 phi true := by
  have hp : ¬ IsPst s := by
    unfold IsPst
    rcases hs with h | h <;> rw [h] <;> decide
  have hv : ¬ IsVpst s := by
    unfold IsVpst
    rcases hs with h | h <;> rw [h] <;> decide
  have hx : ¬ IsAux s := by
    unfold IsAux
    rcases hs with h | h <;> rw [h] <;> decide
  obtain ⟨-, -, -, -, u⟩ := C16_solution_meets_all_conditions num kind phi a a' s s' C hf (fun h => absurd h hv) h
  have st : ∀ j < a'.li.length, ∀ x, stateAt s phi a'.li a'.ki (fun _ => 0) j x = zp s 0 phi true := by
    intro j hj x
    unfold stateAt
    rw [hk j hj]
    exact zsol_undisturbed _ _ _ _
  have e : ∀ e b, endCond s phi (valOf (spring num) s) e b = .state (zp s 0 phi true 0) (zp s 0 phi true 2) (zp s 0 phi true 4) := by
    intro e b
    unfold endCond
    rw [if_neg hp, if_neg hv, if_pos hs]
  have j0 : ∀ i, jump s phi a'.mi i = (0, 0, 0) := by
    intro i
    unfold jump
    rw [if_neg hx, hm]
    simp [getSkierLoad]
  rw [← u (fun _ => 0) ?_ i hi, hk i hi]
  · exact zsol_undisturbed _ _ _ _
  · have h0 : 0 < a'.li.length := by omega
    refine ⟨?_, ?_, fun j hj => ?_⟩
    · rw [e, st 0 h0]; exact ⟨rfl, rfl, rfl⟩
    · rw [e, st _ (by omega)]; exact ⟨rfl, rfl, rfl⟩
    · rw [j0, st j (by omega), st (j + 1) hj]
      exact ⟨rfl, rfl, rfl, sub_self _, sub_self _, sub_self _⟩

/-- Violation of C64: on every undisturbed slope the weight of the slab has done less
work than twice the stored energy, although nothing else does work. -/
theorem C64_clapeyron_violated (num : Numerics) (kind : SeqKind) (phi : ℝ) (a a' : SegLists) (s s' : Self) (C : List Vec6)
    (hb : BedOk s) (hf : EigFresh num.eig s) (hs : IsSkier s) (hp : s.p = 0) (hz : s.zs < s.h / 2) (hq : (s.loads phi).qt ≠ 0)
    (hk : ∀ i < a'.li.length, a'.ki.getD i false = true) (hm : ∀ i, nth a'.mi i = 0)
    (hl : 0 < ∑ i ∈ Finset.range a'.li.length, nth a'.li i)
    (h : assembleAndSolve num kind phi a s = (.ok (C, a'), s')) :
    workOfEnds s phi a' C = 0 ∧ workOfLoads s phi a' C < 2 * elasticEnergy s phi a' C := by
  have hv : ¬ IsVpst s := by
    unfold IsVpst
    rcases hs with h | h <;> rw [h] <;> decide
  have hx : ¬ IsAux s := by
    unfold IsAux
    rcases hs with h | h <;> rw [h] <;> decide
  have un := C10_undisturbed num kind phi a a' s s' C hf hs hk hm h
  have hva := (assembleWith_valid (sub := spring num) h).1
  obtain ⟨-, rfl, -, mt, -⟩ := C16_solution_meets_all_conditions num kind phi a a' s s' C hf (fun h => absurd h hv) h
  have h2 := full_two hva
  generalize full a = a at *
  have hpt : (s.loads phi).pt = 0 := by simp [Self.loads, getSurfaceLoad, hp]
  have cl := clapeyron hb (by rw [hpt, mul_zero]) hx h2 mt
  have ends : workOfEnds s phi a C = 0 := by
    unfold workOfEnds rightEnd leftEnd
    rw [un 0 (by omega), un (a.li.length - 1) (by omega), sub_self]
  obtain ⟨-, -, -, -, -, ht⟩ := C10_bedded_particular s hb.stiff.regular 0 0 phi
  rw [hpt, add_zero] at ht
  have hg : s.kA55 * (zp s 0 phi true 3 + zp s 0 phi true 4) = -((s.loads phi).qt * ((s.h + s.t) / 2 - s.zs)) := by
    have hS := hb.stiff.kA55.ne'
    have hpt' : (getSurfaceLoad s phi).2 = 0 := hpt
    simp [zp, Self.loads, hpt']
    field_simp
  have ex : excess s phi a C = (∑ i ∈ Finset.range a.li.length, nth a.li i)
      * (s.t / 2 * (s.loads phi).qt * (zp s 0 phi true 3 + zp s 0 phi true 4)) := by
    unfold excess overBeam
    rw [Finset.sum_mul]
    refine Finset.sum_congr rfl fun i hi => ?_
    have hi := Finset.mem_range.1 hi
    have u := un i hi
    simp only [u, ht]
    rw [hk i hi, if_pos rfl]
    simp
    ring
  refine ⟨ends, ?_⟩
  rw [ends, add_zero] at cl
  rw [cl, ex]
  have hS := hb.stiff.kA55
  have key : s.t / 2 * (s.loads phi).qt * (zp s 0 phi true 3 + zp s 0 phi true 4) < 0 := by
    have e : zp s 0 phi true 3 + zp s 0 phi true 4 = -((s.loads phi).qt * ((s.h + s.t) / 2 - s.zs)) / s.kA55 := by
      rw [← hg]; field_simp
    rw [e]
    have : 0 < s.t / 2 * (s.loads phi).qt ^ 2 * ((s.h + s.t) / 2 - s.zs) / s.kA55 := by
      have := hb.stiff.t
      have : 0 < (s.h + s.t) / 2 - s.zs := by linarith
      positivity
    calc _ = -(s.t / 2 * (s.loads phi).qt ^ 2 * ((s.h + s.t) / 2 - s.zs) / s.kA55) := by ring
      _ < 0 := by linarith
  have := mul_neg_of_pos_of_neg hl key
  linarith

/-! ## Concrete cases -/

def undisturbed : SegLists := ⟨[2000, 2000], [0], [true, true]⟩

/-- A slab of 4 m on a slope of 30°. -/
example : ∃ C, assembleAndSolve stdNum .list 30 undisturbed skierDemo = (.ok (C, undisturbed), skierDemo) ∧
    workOfLoads skierDemo 30 undisturbed C < 2 * elasticEnergy skierDemo 30 undisturbed C := by
  have hfull : full undisturbed = undisturbed := by unfold full; rw [if_neg (by simp [undisturbed])]
  obtain ⟨C, h1, -⟩ := C18_unique_solution stdNum .list 30 undisturbed skierDemo (demo_bedOk _ _)
    (demo_shear _ _ _) (demo_ready _ _ _).fresh.eigFresh ⟨by simp [undisturbed], rfl, rfl, fun _ => by simp [undisturbed]⟩ (.inl rfl)
    (.inr (.inr (.inl skierDemo_isSkier))) (fun h => absurd h skierDemo_not_pst)
    (fun h => absurd h skierDemo_not_pst)
    ⟨by simp [undisturbed], 0, by simp [undisturbed], by simp [undisturbed], by simp [undisturbed, nth]⟩
  rw [hfull] at h1
  obtain ⟨-, -, -, -, -, -, h7, -, h9, h10, h11, h12, -⟩ := demo_fields stdEig "skiers" false
  refine ⟨C, h1, (C64_clapeyron_violated stdNum .list 30 _ _ skierDemo _ C (demo_bedOk _ _) (demo_ready _ _ _).fresh.eigFresh
    skierDemo_isSkier h11 (by rw [show skierDemo.zs = 0 from h9, show skierDemo.h = 200 from h7]; norm_num) ?_ ?_ ?_ ?_ h1).2⟩
  · have h6 : Real.sin (deg2rad 30) = 1 / 2 := by
      rw [deg2rad, show (30 : ℝ) * (Real.pi / 180) = Real.pi / 6 by ring, Real.sin_pi_div_six]
    show (getWeightLoad skierDemo 30).2 ≠ 0
    unfold getWeightLoad
    rw [show skierDemo.slab = [compLayer] from h10, show skierDemo.g = 9810 from h12]
    norm_num [h6, compLayer]
  · intro i hi
    match i, hi with
    | 0, _ => rfl
    | 1, _ => rfl
  · intro i
    match i with
    | 0 => rfl
    | i + 1 => rfl
  · simp [undisturbed, Finset.sum_range_succ, nth]

/-- A saw cut of 20 cm before and after it grows by 10 cm. -/
def beforeCut : SegLists := ⟨[900, 100, 200], [0, 0], [true, true, false]⟩
def afterCut : SegLists := ⟨[900, 100, 200], [0, 0], [true, false, false]⟩

/-- In the saw test of the examples the drop of potential is half the work of the weak-layer
tractions, within 7 % of the sum of the stored energies. -/
example : ∃ C0 C1, assembleAndSolve stdNum .list 30 beforeCut (pstDemo .A 200) = (.ok (C0, beforeCut), pstDemo .A 200) ∧
    assembleAndSolve stdNum .list 30 afterCut (pstDemo .A 200) = (.ok (C1, afterCut), pstDemo .A 200) ∧
    |potential (pstDemo .A 200) 30 beforeCut C0 - potential (pstDemo .A 200) 30 afterCut C1
      - (normalWork (pstDemo .A 200) 30 ⟨C0.getD 1 0, C1.getD 1 0, 100, false, true⟩ / 2
        + shearWork (pstDemo .A 200) 30 ⟨C0.getD 1 0, C1.getD 1 0, 100, false, true⟩ / 2)|
      ≤ 7 / 100 * (elasticEnergy (pstDemo .A 200) 30 beforeCut C0 + elasticEnergy (pstDemo .A 200) 30 afterCut C1) := by
  have hf0 : full beforeCut = beforeCut := by unfold full; rw [if_neg (by simp [beforeCut])]
  have hf1 : full afterCut = afterCut := by unfold full; rw [if_neg (by simp [afterCut])]
  obtain ⟨C0, h0, -⟩ := C18_unique_solution stdNum .list 30 beforeCut (pstDemo .A 200) (pstDemo_bedOk _ _)
    (pstDemo_shear _ _) (pstDemo_fresh _ _) ⟨by simp [beforeCut], rfl, rfl, fun h => absurd (show finiteSystem "pst-" by decide) h⟩
    (.inl rfl) (.inl (pstDemo_isPst _ _)) (fun _ _ => by simp [pstDemo, Self.stage]) (fun _ _ _ => pstDemo_rest _)
    ⟨by simp [beforeCut], 0, by simp [beforeCut], by simp [beforeCut], by simp [beforeCut, nth]⟩
  obtain ⟨C1, h1, -⟩ := C18_unique_solution stdNum .list 30 afterCut (pstDemo .A 200) (pstDemo_bedOk _ _)
    (pstDemo_shear _ _) (pstDemo_fresh _ _) ⟨by simp [afterCut], rfl, rfl, fun h => absurd (show finiteSystem "pst-" by decide) h⟩
    (.inl rfl) (.inl (pstDemo_isPst _ _)) (fun _ _ => by simp [pstDemo, Self.stage]) (fun _ _ _ => pstDemo_rest _)
    ⟨by simp [afterCut], 0, by simp [afterCut], by simp [afterCut], by simp [afterCut, nth]⟩
  rw [hf0] at h0
  rw [hf1] at h1
  refine ⟨C0, C1, h0, h1, ?_⟩
  have hd : ∀ a, DeadLoads (pstDemo .A 200) a := fun a =>
    ⟨.inl (pstDemo_isPst _ _), fun h => ⟨h, fun _ => .inr rfl⟩, pstDemo_noFace _ _⟩
  obtain ⟨-, f2, -, f4, -, f6, -, f8, -⟩ := demo_fields stdEig "pst-" true
  have rel := C64_released_partial stdNum .list .list 30 _ _ _ _ (pstDemo .A 200) _ _ C0 C1 (pstDemo_bedOk _ _) (pstDemo_fresh _ _)
    (hd _) (hd _) (by rw [show (pstDemo .A 200).B11 = 0 from f4, zero_mul]) h0 h1 rfl rfl (fun i h => by
      match i, h with
      | 0, _ => rfl
      | i + 1, h => exfalso; revert h; cases i with
        | zero => decide
        | succ i => cases i with
          | zero => decide
          | succ i => simp [afterCut]) [⟨C0.getD 1 0, C1.getD 1 0, 100, false, true⟩] (by
      simp [advance, beforeCut, afterCut, List.range_succ, nth])
  have dep := C64_departure (pstDemo .A 200) (pstDemo_bedOk _ _).stiff 30 (7 / 200) (by norm_num) (by
      rw [show (pstDemo .A 200).t = 30 from f8, show (pstDemo .A 200).kt = 1 / 300 from f2,
        show (pstDemo .A 200).kA55 = 1046 / 3 from f6]
      norm_num) beforeCut (fun i => by
      match i with
      | 0 => simp [beforeCut, nth]
      | 1 => simp [beforeCut, nth]
      | 2 => simp [beforeCut, nth]
      | i + 3 => simp [beforeCut, nth]) afterCut.ki C0 C1
  simp only [List.map_cons, List.map_nil, List.sum_cons, List.sum_nil, add_zero] at rel
  rw [rel, add_sub_cancel_left]
  refine dep.trans (le_of_eq ?_)
  norm_num
  rfl

end Weac
