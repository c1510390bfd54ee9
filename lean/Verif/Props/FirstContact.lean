import Verif.Props.ColumnLimits

/-!
# C77: the computed slab at the crack length of first contact
-/

namespace Weac

open Spec

/-- Deflection of the free end of a supported piece of length `l` with an overhang
of length `a`, in terms of the responses `Zm`, `Zv` of the supported piece to a
unit moment and a unit force at its end. -/
theorem column_tip {b : Beam} (hb : b.Coercive) {q l a : ℝ} (hl : 0 < l) {Y0 Y1 : ℝ → Vec6}
    (h0 : Driven b true (0, q, 0) Y0) (h1 : Driven b false (0, q, 0) Y1)
    (left : (EndCond.forces 0 0 0).Holds b (Y0 0)) (tr : Transmission b (0, 0, 0) (Y0 l) (Y1 0))
    (right : (EndCond.forces 0 0 0).Holds b (Y1 a)) {Zm Zv : ℝ → Vec6} (hm : TipLoaded b l 0 1 0 Zm)
    (hv : TipLoaded b l 0 0 1 Zv) :
    Y1 a 2 = q * (1 / (8 * b.Dred) * a ^ 4 + -Zm 0 4 / 2 * a ^ 3 + 1 / (2 * b.S) * a ^ 2 + -Zv 0 2 * a) + q / b.kn
      - q * a ^ 2 * (Zm 0 2 / 2 + Zv 0 4) := by
  have hA := hb.A
  have hD := hb.Dred_pos
  have hS := hb.S
  have hk := hb.kn
  -- the overhang
  have o1 : SolvesODE b ⟨q, 0, 0, 0⟩ false Y1 := by
    rw [solvesODE_iff_driven]
    simpa [Beam.drive] using h1
  obtain ⟨r1, r2, r3⟩ := right
  have sh := free_shape hA.ne' hD.ne' hS.ne' o1 r1
  have eV := sh.V a
  have eM := sh.M a
  rw [r3] at eV
  rw [r2] at eM
  have V0 : b.V (Y1 0) = q * a := by linarith
  have M0 : b.M (Y1 0) = -(q * a ^ 2 / 2) := by rw [V0] at eM; linarith
  have N0 := sh.N 0
  have hw := sh.w a
  rw [V0, M0] at hw
  -- the supported piece, seen from the crack tip
  have c1 : Driven b true (0, q, 0) fun _ => (![0, 0, q / b.kn, 0, 0, 0] : Vec6) := by
    intro x
    refine ⟨0, hasDerivAt_const _ _, ⟨⟨rfl, rfl, rfl⟩, ?_, ?_, ?_⟩⟩
    · simp [Beam.tau]
    · simp
      field_simp
      ring
    · simp [Beam.tau, Beam.V]
  have c2 : SolvesODE b Loads.zero true fun x => Y0 x - ![0, 0, q / b.kn, 0, 0, 0] := h0.sub c1
  have c3 := solves_flip c2 l
  have hT : TipLoaded b l 0 (-(q * a ^ 2 / 2)) (-(q * a)) fun x => flip (Y0 (l - x) - ![0, 0, q / b.kn, 0, 0, 0]) := by
    have eN := tr.N
    have eM' := tr.M
    have eV' := tr.V
    obtain ⟨l1, l2, l3⟩ := left
    refine ⟨c3, ⟨?_, ?_, ?_⟩, ⟨?_, ?_, ?_⟩⟩
    · simp only [Beam.N, sub_zero, flip] at *
      simp
      linarith
    · simp only [Beam.M, sub_zero, flip] at *
      simp
      linarith
    · simp only [Beam.V, sub_zero, flip] at *
      simp
      linarith
    · simp only [Beam.N, sub_self, flip] at *
      simp
      linarith
    · simp only [Beam.M, sub_self, flip] at *
      simp
      linarith
    · simp only [Beam.V, sub_self, flip] at *
      simp [-mul_eq_zero]
      linarith
  have hL : TipLoaded b l 0 (-(q * a ^ 2 / 2)) (-(q * a)) fun x => (-(q * a ^ 2 / 2)) • Zm x + (-(q * a)) • Zv x := by
    obtain ⟨m1, m2, m3⟩ := hm.loaded
    obtain ⟨m4, m5, m6⟩ := hm.free
    obtain ⟨v1, v2, v3⟩ := hv.loaded
    obtain ⟨v4, v5, v6⟩ := hv.free
    refine ⟨?_, ⟨?_, ?_, ?_⟩, ⟨?_, ?_, ?_⟩⟩
    · rw [solvesODE_iff_driven]
      have := (((solvesODE_iff_driven _ _ _ _).1 hm.ode).smul (-(q * a ^ 2 / 2))).add
        (((solvesODE_iff_driven _ _ _ _).1 hv.ode).smul (-(q * a)))
      simpa [Beam.drive, Loads.zero] using this
    all_goals
      simp only [Beam.N, Beam.M, Beam.V, Pi.add_apply, Pi.smul_apply, smul_eq_mul] at *
    · linear_combination (-(q * a ^ 2 / 2)) * m1 + (-(q * a)) * v1
    · linear_combination (-(q * a ^ 2 / 2)) * m2 + (-(q * a)) * v2
    · linear_combination (-(q * a ^ 2 / 2)) * m3 + (-(q * a)) * v3
    · linear_combination (-(q * a ^ 2 / 2)) * m4 + (-(q * a)) * v4
    · linear_combination (-(q * a ^ 2 / 2)) * m5 + (-(q * a)) * v5
    · linear_combination (-(q * a ^ 2 / 2)) * m6 + (-(q * a)) * v6
  have u := hT.unique hb hl hL 0
  have u2 := congrFun u 2
  have u4 := congrFun u 4
  simp only [flip, sub_zero, Pi.sub_apply, Pi.add_apply, Pi.smul_apply, smul_eq_mul] at u2 u4
  simp at u2 u4
  have t2 := tr.w
  have t4 := tr.psi
  rw [hw, ← t2, ← t4]
  have e2 : Y0 l 2 = q / b.kn + -(q * a ^ 2 / 2 * Zm 0 2) + -(q * a * Zv 0 2) := by linarith
  have e4 : Y0 l 4 = q * a ^ 2 / 2 * Zm 0 4 + q * a * Zv 0 4 := by linarith
  rw [e2, e4]
  field_simp
  ring

/-- A saw test on level ground, stage A: parameters in range. -/
structure Spec.LevelTest (num : Numerics) (s : Self) (l : ℝ) : Prop where
  system : s.system = "pst-"
  stage : s.mode = .A
  level : s.phi = 0
  springs : SpringsOk num s l

theorem level_loads (s : Self) : (s.loads 0).qt = 0 ∧ (s.loads 0).pt = 0 := by
  constructor <;> simp [Self.loads, getWeightLoad, getSurfaceLoad, deg2rad]

theorem level_drive (s : Self) (bed : Bool) : driveOf s 0 bed = (0, (s.loads 0).qn + (s.loads 0).pn, 0) := by
  obtain ⟨h1, h2⟩ := level_loads s
  unfold driveOf Beam.drive
  rw [h1, h2]
  simp

/-- C77. The free end of a saw test on level ground, in stage A, as
`assemble_and_solve` computes it: how far it has come below the collapse height.
The first term is the gap that `calc_a1` sets to zero. The others are not
considered there: the settlement of the supported part under its own weight, and
that its end settles under a moment and rotates under a force (`Zm`, `Zv` are its
responses to unit moment and unit force). -/
theorem C77_gap_partial (num : Numerics) (kind : SeqKind) (s : Self) (l a : ℝ) (ha : 0 < a) (h : LevelTest num s l) :
    ∃ C y Zm Zv, assembleAndSolve num kind 0 ⟨[l, a], [0], [true, false]⟩ s = (.ok (C, ⟨[l, a], [0], [true, false]⟩), s) ∧
      polyA1 num.eig (bsOf s) s.kA55 (l + a) s.tc (calcQn s) a s = (.ok y, s) ∧
      TipLoaded s.beam l 0 1 0 Zm ∧ TipLoaded s.beam l 0 0 1 Zv ∧
      zsol s a (C.getD 1 0) a 0 false 2 - s.tc = calcQn s * y + calcQn s / s.kn * (1 + calcQn s * a)
        - calcQn s * a ^ 2 * (Zm 0 2 / 2 + Zv 0 4) := by
  have hs := h.springs
  have hco := hs.bed.stiff.coercive hs.shear
  have hp : IsPst s := .inl h.system
  have hcut : CutOut num s [a] [0] [false] := ⟨.inl hp, fun hv => by
      rcases hv with e | e <;> rw [h.system] at e <;> exact absurd e (by decide), by simp, rfl, rfl, by simpa using ha.le,
    fun _ _ => by rw [h.stage]; decide, fun _ _ e => by rw [h.stage] at e; cases e⟩
  obtain ⟨C, h1, -, hY⟩ := column_solved hcut kind 0 hs.bed hs.shear hs.fresh hs.len
  have hb1 : BedOk (prep num.eig false .rot s) := hs.bed.stage "rot" s.mode s.L s.a s.tc s.td s.phi s.ratio
  have hc1 : ShearOk (prep num.eig false .rot s) := hs.shear.stage "rot" s.mode s.L s.a s.tc s.td s.phi s.ratio
  have hb2 : BedOk (prep num.eig false .trans s) := hs.bed.stage "trans" s.mode s.L s.a s.tc s.td s.phi s.ratio
  have hc2 : ShearOk (prep num.eig false .trans s) := hs.shear.stage "trans" s.mode s.L s.a s.tc s.td s.phi s.ratio
  obtain ⟨kR, Zm, m1, m2, m3⟩ := substitute_response num.eig l hs.len false .rot (by simp) s hs.fresh hb1 hc1
  obtain ⟨kN, Zv, v1, v2, v3⟩ := substitute_response num.eig l hs.len false .trans (by simp) s hs.fresh hb2 hc2
  simp only [reduceCtorEq, if_false, if_true] at m2 m3 v2 v3
  have eb : s.auxBeam false = s.beam := rfl
  rw [eb] at m2 v2 v3
  set q := (s.loads 0).qn + (s.loads 0).pn with hqd
  have eq : calcQn s = q := by
    have : calcQn s = (s.loads s.phi).qn + (s.loads s.phi).pn := rfl
    rw [this, h.level]
  have hm0 : Zm 0 4 < 0 := by
    have := m2.work_neg hco hs.len (.inr (.inl one_ne_zero))
    linarith
  have e1 : 1 / kR = -Zm 0 4 := by
    rw [m3, abs_of_neg (one_div_neg.2 hm0), ← one_div_neg_eq_neg_one_div, one_div_one_div]
  have e2 : 1 / kN = -Zv 0 2 - q / s.beam.kn := by
    obtain ⟨k, k1, k2, -⟩ := trans_spring num.eig s hs.fresh hs.bed hs.shear l hs.len hs.q0 hs.load
    have hlt : q / s.beam.kn < -Zv 0 2 := by
      rcases hs.load with hql | ⟨r, hr, hql⟩
      · refine lt_of_lt_of_le ?_ (v2.deflection_ge hco hs.len)
        have := hs.len
        have := hco.kn
        rw [div_lt_div_iff₀ hco.kn (by positivity)]
        nlinarith
      · refine lt_of_lt_of_le ?_ (v2.deflection_ge_decay hco hs.len hr)
        have hS := hco.Sred_pos
        have hd : 0 < s.beam.decay r := by
          have := hco.kn
          have := hco.S
          unfold Spec.Beam.decay
          positivity
        rw [div_lt_div_iff₀ hco.kn hd]
        linarith
    have hneg : Zv 0 2 + q / s.beam.kn < 0 := by linarith
    rw [v3, abs_of_neg (one_div_neg.2 hneg), ← one_div_neg_eq_neg_one_div, one_div_one_div]
    ring
  have ep : polyA1 num.eig (bsOf s) s.kA55 (l + a) s.tc (calcQn s) a s
      = (.ok (tipDeflection (bsOf s) s.kA55 kR kN a + -s.tc / calcQn s), s) := by
    unfold polyA1
    rw [add_sub_cancel_right, Py.bind_of_ok m1, Py.bind_of_ok v1]
    rfl
  refine ⟨C, _, Zm, Zv, h1, ep, m2, v2, ?_⟩
  have d0 := hY.driven 0 (by simp)
  have d1 := hY.driven 1 (by simp)
  simp only [level_drive] at d0 d1
  have hl' := hY.bvp.left
  have hr' := hY.bvp.right
  have ht := hY.bvp.trans 0 (by simp)
  have ee : endCond s 0 (valOf (spring num) s) .left true = .forces 0 0 0 := by
    unfold endCond; rw [if_pos hp, if_pos rfl]
  have ee' : endCond s 0 (valOf (spring num) s) .right ([false].getLastD true) = .forces 0 0 0 := by
    unfold endCond
    rw [if_pos hp, if_neg (by simp), h.stage]
  have ej : jump s 0 [0] 0 = (0, 0, 0) := by
    unfold jump
    split_ifs
    · rfl
    · simp [getSkierLoad, nth]
  rw [ee] at hl'
  rw [ee'] at hr'
  rw [ej] at ht
  have key := column_tip (a := a) hco hs.len d0 d1 hl' ht hr' m2 v2
  have hz : zsol s a (C.getD 1 0) a 0 false 2 = stateAt s 0 (l :: [a]) (true :: [false]) (fun i => C.getD i 0) 1 a 2 := rfl
  rw [hz, key, eq]
  unfold tipDeflection
  have e1' : 1 / (2 * kR) = -Zm 0 4 / 2 := by rw [← e1]; ring
  rw [e1', e2, s.beam_Dred]
  have hq0 : q ≠ 0 := by rw [← eq]; exact hs.qn.ne'
  show q * (1 / (8 * bsOf s) * a ^ 4 + -Zm 0 4 / 2 * a ^ 3 + 1 / (2 * s.kA55) * a ^ 2 + -Zv 0 2 * a) + q / s.kn
      - q * a ^ 2 * (Zm 0 2 / 2 + Zv 0 4) - s.tc = q * (1 / (8 * bsOf s) * a ^ 4 + -Zm 0 4 / 2 * a ^ 3 + 1 / (2 * s.kA55) * a ^ 2
      + (-Zv 0 2 - q / s.kn) * a + -s.tc / q) + q / s.kn * (1 + q * a) - q * a ^ 2 * (Zm 0 2 / 2 + Zv 0 4)
  have : q * (-s.tc / q) = -s.tc := by field_simp
  linear_combination -this

/-- The object at crack length `a` before a supported part of length `l`, depth
`tc` of the collapsed layer, stage `mode`. -/
noncomputable def Self.atCrack (s : Self) (mode : Mode) (l a tc : ℝ) : Self := s.stage s.system mode (l + a) a tc s.td s.phi s.ratio

theorem Spec.LevelTest.atCrack {num : Numerics} {s : Self} {l : ℝ} (h : LevelTest num s l) (a tc : ℝ) :
    LevelTest num (s.atCrack .A l a tc) l := by
  have hs := h.springs
  exact ⟨h.system, rfl, h.level, ⟨hs.fresh.stage _ _ _ _ _ _ _ _, hs.bed.stage _ _ _ _ _ _ _ _, hs.shear.stage _ _ _ _ _ _ _ _,
    hs.qn, hs.q0, hs.len, hs.load⟩⟩

/-- C77, violated. For every slab, weak layer and length of the supported part
there is at most one crack length `a₀` at which the free end of the computed slab
lies at the collapse height when the crack has the length of first contact. -/
theorem C77_first_contact_violated (num : Numerics) (s : Self) (l : ℝ) (h : LevelTest num s l) :
    ∃ a₀, ∀ (kind : SeqKind) (a tc : ℝ) (C : List Vec6), 0 < a → a ≠ a₀ →
      polyA1 num.eig (bsOf s) s.kA55 (l + a) tc (calcQn s) a (s.atCrack .A l a tc) = (.ok 0, s.atCrack .A l a tc) →
      assembleAndSolve num kind 0 ⟨[l, a], [0], [true, false]⟩ (s.atCrack .A l a tc)
        = (.ok (C, ⟨[l, a], [0], [true, false]⟩), s.atCrack .A l a tc) →
      zsol (s.atCrack .A l a tc) a (C.getD 1 0) a 0 false 2 ≠ tc := by
  have hs := h.springs
  have hco := hs.bed.stiff.coercive hs.shear
  have hk : 0 < s.kn := hco.kn
  have hq := hs.qn
  obtain ⟨-, -, Zm, Zv, -, -, hm, hv, -⟩ := C77_gap_partial num .list s l 1 one_pos h
  set c := Zm 0 2 / 2 + Zv 0 4 with hc
  set q := calcQn s with hqd
  have key : ∀ (kind : SeqKind) (a tc : ℝ) (C : List Vec6), 0 < a →
      polyA1 num.eig (bsOf s) s.kA55 (l + a) tc q a (s.atCrack .A l a tc) = (.ok 0, s.atCrack .A l a tc) →
      assembleAndSolve num kind 0 ⟨[l, a], [0], [true, false]⟩ (s.atCrack .A l a tc)
        = (.ok (C, ⟨[l, a], [0], [true, false]⟩), s.atCrack .A l a tc) →
      zsol (s.atCrack .A l a tc) a (C.getD 1 0) a 0 false 2 - tc = q / s.kn * (1 + q * a) - q * a ^ 2 * c := by
    intro kind a tc C ha hp hC
    obtain ⟨D, y, Ym, Yv, d1, d2, d3, d4, d5⟩ := C77_gap_partial num kind (s.atCrack .A l a tc) l a ha (h.atCrack a tc)
    obtain rfl : D = C := by have := d1.symm.trans hC; simpa using this
    obtain rfl : y = 0 := by have := d2.symm.trans hp; simpa using this
    have e1 : Ym 0 = Zm 0 := d3.unique hco hs.len hm 0
    have e2 : Yv 0 = Zv 0 := d4.unique hco hs.len hv 0
    rw [e1, e2] at d5
    refine d5.trans ?_
    show q * 0 + q / s.kn * (1 + q * a) - q * a ^ 2 * (Zm 0 2 / 2 + Zv 0 4) = _
    rw [hc]; ring
  have one : ∀ a a', 0 < a → 0 < a' → q / s.kn * (1 + q * a) - q * a ^ 2 * c = 0 → q / s.kn * (1 + q * a') - q * a' ^ 2 * c = 0 →
      a = a' := by
    intro a a' ha ha' h1 h2
    have e1 : 1 + q * a = a ^ 2 * (c * s.kn) := by
      have : q / s.kn * (1 + q * a) * s.kn = q * (1 + q * a) := by field_simp
      have h3 : q * (1 + q * a - a ^ 2 * (c * s.kn)) = 0 := by linear_combination s.kn * h1 - this
      have := (mul_eq_zero.1 h3).resolve_left hq.ne'
      linarith
    have e2 : 1 + q * a' = a' ^ 2 * (c * s.kn) := by
      have : q / s.kn * (1 + q * a') * s.kn = q * (1 + q * a') := by field_simp
      have h3 : q * (1 + q * a' - a' ^ 2 * (c * s.kn)) = 0 := by linear_combination s.kn * h2 - this
      have := (mul_eq_zero.1 h3).resolve_left hq.ne'
      linarith
    have e3 : (a' - a) * (a' + a + q * a * a') = 0 := by linear_combination a' ^ 2 * e1 - a ^ 2 * e2
    have := (mul_eq_zero.1 e3).resolve_right (by positivity)
    linarith
  by_cases hex : ∃ a, 0 < a ∧ q / s.kn * (1 + q * a) - q * a ^ 2 * c = 0
  · obtain ⟨a₀, p1, p2⟩ := hex
    refine ⟨a₀, fun kind a tc C ha hne hp hC e => hne ?_⟩
    have := key kind a tc C ha hp hC
    rw [e, sub_self] at this
    exact one a a₀ ha p1 this.symm p2
  · refine ⟨0, fun kind a tc C ha _ hp hC e => hex ⟨a, ha, ?_⟩⟩
    have := key kind a tc C ha hp hC
    rw [e, sub_self] at this
    exact this.symm

/-- C77, what is missing. The free end just touches the collapsed layer at the
length of first contact if and only if the settlement of the supported part under
its own weight is made up for by its cross compliances. If its end does not rise
under the forces at the crack tip, the free end of the computed slab is below the
collapsed layer by then. -/
theorem C77_touches_iff (num : Numerics) (kind : SeqKind) (s : Self) (l a : ℝ) (ha : 0 < a) (h : LevelTest num s l)
    (hp : polyA1 num.eig (bsOf s) s.kA55 (l + a) s.tc (calcQn s) a s = (.ok 0, s)) {Zm Zv : ℝ → Vec6}
    (hm : TipLoaded s.beam l 0 1 0 Zm) (hv : TipLoaded s.beam l 0 0 1 Zv) :
    ∃ C, assembleAndSolve num kind 0 ⟨[l, a], [0], [true, false]⟩ s = (.ok (C, ⟨[l, a], [0], [true, false]⟩), s) ∧
      (zsol s a (C.getD 1 0) a 0 false 2 = s.tc ↔ (1 + calcQn s * a) / s.kn = a ^ 2 * (Zm 0 2 / 2 + Zv 0 4)) ∧
      (Zm 0 2 / 2 + Zv 0 4 ≤ 0 → s.tc + calcQn s / s.kn ≤ zsol s a (C.getD 1 0) a 0 false 2) := by
  have hs := h.springs
  have hco := hs.bed.stiff.coercive hs.shear
  have hk : 0 < s.kn := hco.kn
  have hq := hs.qn
  obtain ⟨C, y, Ym, Yv, d1, d2, d3, d4, d5⟩ := C77_gap_partial num kind s l a ha h
  obtain rfl : y = 0 := by have := d2.symm.trans hp; simpa using this
  have e1 : Ym 0 = Zm 0 := d3.unique hco hs.len hm 0
  have e2 : Yv 0 = Zv 0 := d4.unique hco hs.len hv 0
  rw [e1, e2] at d5
  set q := calcQn s with hqd
  set c := Zm 0 2 / 2 + Zv 0 4 with hc
  set w := zsol s a (C.getD 1 0) a 0 false 2 with hw
  have e : w - s.tc = q * ((1 + q * a) / s.kn - a ^ 2 * c) := by rw [d5]; ring
  refine ⟨C, d1, ⟨fun h1 => ?_, fun h1 => ?_⟩, fun h1 => ?_⟩
  · have h1' : w = s.tc := h1
    rw [h1', sub_self] at e
    have := (mul_eq_zero.1 e.symm).resolve_left hq.ne'
    linarith
  · rw [h1, sub_self, mul_zero] at e
    linarith
  · have h2 : 0 ≤ q * (a ^ 2 * -c) := by
      have : 0 ≤ -c := by linarith
      positivity
    have h3 : 0 ≤ q * (q * a / s.kn) := by positivity
    have h4 : q * ((1 + q * a) / s.kn - a ^ 2 * c) = q / s.kn + q * (q * a / s.kn) + q * (a ^ 2 * -c) := by ring
    linarith

/-- Every crack length is the length of first contact for some depth of the
collapsed layer. -/
theorem contact_depth {num : Numerics} {s : Self} {l : ℝ} (h : LevelTest num s l) {a : ℝ} (ha : 0 < a) :
    ∃ tc, 0 < tc ∧
      polyA1 num.eig (bsOf s) s.kA55 (l + a) tc (calcQn s) a (s.atCrack .A l a tc) = (.ok 0, s.atCrack .A l a tc) := by
  have hs := h.springs
  obtain ⟨kR, kN, r1, n1, kRp, kNp⟩ := hs.springs
  have hbs := bsOf_pos hs.bed hs.shear
  have hss : 0 < s.kA55 := hs.bed.stiff.kA55
  have hq := hs.qn
  have hT : 0 < tipDeflection (bsOf s) s.kA55 kR kN a := by unfold tipDeflection; positivity
  refine ⟨calcQn s * tipDeflection (bsOf s) s.kA55 kR kN a, by positivity, ?_⟩
  set tc := calcQn s * tipDeflection (bsOf s) s.kA55 kR kN a with htc
  have t1 : substituteStiffness num.eig l false .rot (s.atCrack .A l a tc) = (.ok kR, s.atCrack .A l a tc) :=
    (sub_same num.eig s hs.fresh l false .rot (by simp) s.system .A (l + a) a tc s.td s.phi).run r1
  have t2 : substituteStiffness num.eig l false .trans (s.atCrack .A l a tc) = (.ok kN, s.atCrack .A l a tc) :=
    (sub_same num.eig s hs.fresh l false .trans (by simp) s.system .A (l + a) a tc s.td s.phi).run n1
  unfold polyA1
  rw [add_sub_cancel_right, Py.bind_of_ok t1, Py.bind_of_ok t2]
  have e : tipDeflection (bsOf s) s.kA55 kR kN a + -tc / calcQn s = 0 := by
    rw [htc]; field_simp; ring
  unfold tipDeflection at e
  simp only [Py.pure_apply, Prod.mk.injEq, Except.ok.injEq, and_true]
  exact e

/-- C77, violated: for every slab, weak layer and supported part, and all crack
lengths up to some `A`, the computed free end is below the collapsed layer, by
more than half the settlement of the slab, when the crack length is that of first
contact; the run is still one of stage A, without contact. -/
theorem C77_sinks_violated (num : Numerics) (s : Self) (l : ℝ) (h : LevelTest num s l) :
    ∃ A, 0 < A ∧ ∀ (kind : SeqKind) (a : ℝ), 0 < a → a < A → ∃ tc C, 0 < tc ∧
      polyA1 num.eig (bsOf s) s.kA55 (l + a) tc (calcQn s) a (s.atCrack .A l a tc) = (.ok 0, s.atCrack .A l a tc) ∧
      assembleAndSolve num kind 0 ⟨[l, a], [0], [true, false]⟩ (s.atCrack .A l a tc)
        = (.ok (C, ⟨[l, a], [0], [true, false]⟩), s.atCrack .A l a tc) ∧
      tc + calcQn s / (2 * s.kn) < zsol (s.atCrack .A l a tc) a (C.getD 1 0) a 0 false 2 := by
  have hs := h.springs
  have hco := hs.bed.stiff.coercive hs.shear
  have hk : 0 < s.kn := hco.kn
  have hq := hs.qn
  obtain ⟨-, -, Zm, Zv, -, -, hm, hv, -⟩ := C77_gap_partial num .list s l 1 one_pos h
  set c := Zm 0 2 / 2 + Zv 0 4 with hc
  have hc1 : 0 < |c| + 1 := by positivity
  refine ⟨min 1 (1 / (2 * s.kn * (|c| + 1))), lt_min one_pos (by positivity), fun kind a ha hA => ?_⟩
  have a1 : a < 1 := hA.trans_le (min_le_left _ _)
  have a2 : a < 1 / (2 * s.kn * (|c| + 1)) := hA.trans_le (min_le_right _ _)
  obtain ⟨tc, t1, t2⟩ := contact_depth h ha
  obtain ⟨C, y, Ym, Yv, d1, d2, d3, d4, d5⟩ := C77_gap_partial num kind (s.atCrack .A l a tc) l a ha (h.atCrack a tc)
  obtain rfl : y = 0 := by have := d2.symm.trans t2; simpa using this
  have e1 : Ym 0 = Zm 0 := d3.unique hco hs.len hm 0
  have e2 : Yv 0 = Zv 0 := d4.unique hco hs.len hv 0
  rw [e1, e2] at d5
  refine ⟨tc, C, t1, t2, d1, ?_⟩
  change zsol (s.atCrack .A l a tc) a (C.getD 1 0) a 0 false 2 - tc
    = calcQn s * 0 + calcQn s / s.kn * (1 + calcQn s * a) - calcQn s * a ^ 2 * c at d5
  set w := zsol (s.atCrack .A l a tc) a (C.getD 1 0) a 0 false 2
  set q := calcQn s
  rw [lt_div_iff₀ (by positivity)] at a2
  have b1 : a ^ 2 * c ≤ a * |c| := by
    have h1 : a ^ 2 * c ≤ a ^ 2 * |c| := mul_le_mul_of_nonneg_left (le_abs_self c) (by positivity)
    have h2 : a ^ 2 * |c| ≤ a * |c| := mul_le_mul_of_nonneg_right (by nlinarith) (abs_nonneg c)
    linarith
  have b2 : a * |c| < 1 / (2 * s.kn) := by
    rw [lt_div_iff₀ (by positivity)]
    have : 0 < a * (2 * s.kn) := by positivity
    linarith
  have b3 : q * (a ^ 2 * c) < q * (1 / (2 * s.kn)) := mul_lt_mul_of_pos_left (by linarith) hq
  have b4 : q / s.kn * (1 + q * a) = q / s.kn + q * q * a / s.kn := by ring
  have b5 : 0 < q * q * a / s.kn := by positivity
  have b6 : q / s.kn = q * (1 / (2 * s.kn)) + q / (2 * s.kn) := by field_simp; ring
  linarith

/-- C77 for the whole computation: what `calc_segments` and `assemble_and_solve`
give in stage A. -/
theorem C77_computed_partial (num : Numerics) (kind : SeqKind) (s t : Self) (li mi : List ℝ) (ki k0 : List Bool)
    (L a m cf ratio : ℝ) (g : Segments) (hf : EigFresh num.eig s) (hsys : s.system = "pst-") (ha : 0 < a) (haL : a < L)
    (h : LongColumn num.eig (setTouchdownAttributes L a cf 0 ratio s))
    (hg : calcSegments num li mi ki k0 L a m 0 cf ratio s = (.ok g, t)) (hA : t.mode = .A) :
    ∃ C y Zm Zv, assembleAndSolve num kind 0 ⟨g.li, g.mi, g.ki⟩ t = (.ok (C, ⟨g.li, g.mi, g.ki⟩), t) ∧
      polyA1 num.eig (bsOf t) t.kA55 L t.tc (calcQn t) a t = (.ok y, t) ∧
      TipLoaded t.beam (L - a) 0 1 0 Zm ∧ TipLoaded t.beam (L - a) 0 0 1 Zv ∧
      zsol t a (C.getD 1 0) a 0 false 2 - t.tc = calcQn t * y + calcQn t / t.kn * (1 + calcQn t * a)
        - calcQn t * a ^ 2 * (Zm 0 2 / 2 + Zv 0 4) := by
  obtain ⟨-, ht, hseg⟩ := calcSegments_ok hg
  obtain ⟨-, -, -, -, -, -, -, htd⟩ := C22_segments num li mi ki k0 L a m 0 cf ratio s t g hf (by rw [hsys]; decide) hg
  have etd := htd (by rw [hA]; decide)
  obtain ⟨fr, -⟩ := C25_touchdown_system_frame num L a cf 0 ratio s t hf ht
  have h1 : t.system = "pst-" := by rw [fr]; exact hsys
  have h2 : t.a = a := by rw [fr]; rfl
  have h3 : t.phi = 0 := by rw [fr]; rfl
  have eg : g = ⟨[L - a, a], [0], [true, false], [true, true]⟩ := by
    rw [h1, h2, etd] at hseg
    rcases hseg with ⟨c, -⟩ | ⟨-, e⟩ | ⟨c, -⟩ | ⟨c, -⟩ | ⟨c, -⟩ | ⟨c, -⟩
    · exact absurd c (by decide)
    · exact e
    all_goals exact absurd c (by decide)
  have hq : ∀ u : Self, t = s.stage s.system u.mode L a u.tc u.td 0 ratio → SpringsOk num t (L - a) := by
    intro u hu
    rw [hu]
    exact ⟨hf.stage _ _ _ _ _ _ _ _, h.bed.stage _ _ _ _ _ _ _ _, h.shear.stage _ _ _ _ _ _ _ _, h.qn, h.q0, by linarith, .inr h.light⟩
  have key := C77_gap_partial num kind t (L - a) a ha ⟨h1, hA, h3, hq t fr⟩
  rw [sub_add_cancel] at key
  rw [eg]
  exact key

/-- The demonstration in stage A. -/
theorem demo_level {num : Numerics} (he : num.eig = stdEig) {l : ℝ} (hl : 0 < l) :
    LevelTest num ((setTouchdownAttributes 0 400 (1 / 2) 0 1000 (demo stdEig "pst-" true)).atCrack .A l 400 1) l := by
  have h := demo_long 400
  exact ⟨(demo_fields stdEig "pst-" true).2.2.2.2.2.2.2.2.2.2.2.2.2.1, rfl, rfl,
    ⟨by rw [he]; exact h.fresh.stage _ _ _ _ _ _ _ _, h.bed.stage _ _ _ _ _ _ _ _, h.shear.stage _ _ _ _ _ _ _ _, h.qn, h.q0, hl,
      .inr h.light⟩⟩

/-- The demonstration, supported over 1 m: of the crack lengths 400 mm and 800 mm,
at least one is such that the computed free end is not at the collapse height when
the crack length is that of first contact. -/
example : ∃ (a tc : ℝ) (s : Self) (C : List Vec6), (a = 400 ∨ a = 800) ∧ 0 < tc ∧ s.tc = tc ∧ s.mode = .A ∧
    polyA1 stdNum.eig (bsOf s) s.kA55 (1000 + a) tc (calcQn s) a s = (.ok 0, s) ∧
    assembleAndSolve stdNum .list 0 ⟨[1000, a], [0], [true, false]⟩ s = (.ok (C, ⟨[1000, a], [0], [true, false]⟩), s) ∧
    zsol s a (C.getD 1 0) a 0 false 2 ≠ tc := by
  have h := demo_level (num := stdNum) rfl (l := 1000) (by norm_num)
  obtain ⟨a₀, H⟩ := C77_first_contact_violated stdNum _ 1000 h
  obtain ⟨a, hor, hne⟩ : ∃ a : ℝ, (a = 400 ∨ a = 800) ∧ a ≠ a₀ := by
    by_cases h0 : a₀ = 400
    · exact ⟨800, .inr rfl, by rw [h0]; norm_num⟩
    · exact ⟨400, .inl rfl, Ne.symm h0⟩
  have ha : 0 < a := by rcases hor with e | e <;> rw [e] <;> norm_num
  obtain ⟨tc, t1, t2⟩ := contact_depth h ha
  obtain ⟨C, -, -, -, c1, -⟩ := C77_gap_partial stdNum .list _ 1000 a ha (h.atCrack a tc)
  exact ⟨a, tc, _, C, hor, t1, rfl, rfl, t2, c1, H .list a tc C ha hne t2 c1⟩

end Weac
