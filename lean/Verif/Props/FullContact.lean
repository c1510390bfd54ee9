import Mathlib.Topology.Order.IntermediateValue
import Verif.Lemmas.TipContinuous
import Verif.Props.ColumnLimits

/-!
# C78: crack lengths just beyond full contact

The touchdown length of stage C is searched up to 999 thousandths of the crack
length. Just beyond the limit of stage B it is longer than that, and the run is
refused.
-/

namespace Weac
open Spec

/-! ## Polynomials -/

section
variable {bs ss kR kN kr κ tc q R W x y : ℝ}

/-- The part of the load polynomial that the rotational spring of the part at rest contributes. -/
noncomputable def numR (bs ss R W x : ℝ) : ℝ :=
  6 * ss * x ^ 5 + 30 * bs * ss * R * x ^ 4 + 72 * bs * x ^ 3 + 72 * bs * (bs * R + 2 * ss * W) * x ^ 2
    + 144 * bs ^ 2 * ss * R * W * x

theorem contact_split (hR : 0 < kR) (hN : 0 < kN) :
    contactPoly bs ss kR kN kr tc q x = kR * kN * (q * (numC bs ss (1 / kR) (1 / kN) x + kr * numR bs ss (1 / kR) (1 / kN) x)
      - tc * (denC bs ss (1 / kR) x + kr * (144 * bs * ss * x + 144 * bs ^ 2 * ss * (1 / kR)))) := by
  unfold contactPoly numC numR denC
  field_simp
  ring

theorem numR_le (hbs : 0 < bs) (hss : 0 < ss) (hR : 0 ≤ R) (hW : 0 ≤ W) (hx : 0 ≤ x) :
    numR bs ss R W x * (ss * x) ≤ 10 * numC bs ss R W x := by
  have e : 0 ≤ 10 * numC bs ss R W x - numR bs ss R W x * (ss * x) := by
    unfold numC numR
    ring_nf
    positivity
  linarith

theorem ratio_step (hbs : 0 < bs) (hss : 0 < ss) (hR : 0 ≤ R) (hW : 0 ≤ W) (hy : 0 ≤ y) :
    2001 / 2000 * numC bs ss R W (999 / 1000 * y) * denC bs ss R y
      ≤ numC bs ss R W y * denC bs ss R (999 / 1000 * y) := by
  have e : 0 ≤ numC bs ss R W y * denC bs ss R (999 / 1000 * y)
      - 2001 / 2000 * numC bs ss R W (999 / 1000 * y) * denC bs ss R y := by
    unfold numC denC
    ring_nf
    positivity
  linarith

/-- Where the slab has just come to rest flat, it has not over 999 thousandths of
the length, even if the rest holds it by a weak spring. -/
theorem short_of_contact (hbs : 0 < bs) (hss : 0 < ss) (hR : 0 ≤ R) (hW : 0 ≤ W) (hq : 0 < q) (hy : 0 < y)
    (hκ : 20000 * κ < ss * (999 / 1000 * y)) (h : q * numC bs ss R W y = tc * denC bs ss R y) :
    q * (numC bs ss R W (999 / 1000 * y) + κ * numR bs ss R W (999 / 1000 * y)) - tc * denC bs ss R (999 / 1000 * y) < 0 := by
  set x := 999 / 1000 * y with hx
  have hx0 : 0 < x := by positivity
  have n1 := numR_le hbs hss hR hW hx0.le
  have r1 := ratio_step hbs hss hR hW hy.le
  rw [← hx] at r1
  have p1 : 0 < numR bs ss R W x := by unfold numR; positivity
  have p2 : 0 < denC bs ss R y := by unfold denC; positivity
  have k1 : κ * numR bs ss R W x < 1 / 2000 * numC bs ss R W x := by
    have := mul_lt_mul_of_pos_right hκ p1
    have e : ss * x * numR bs ss R W x = numR bs ss R W x * (ss * x) := by ring
    rw [e] at this
    linarith
  have k2 : q * (numC bs ss R W x + κ * numR bs ss R W x) * denC bs ss R y < tc * denC bs ss R x * denC bs ss R y := by
    have a1 : (numC bs ss R W x + κ * numR bs ss R W x) * denC bs ss R y
        < 2001 / 2000 * numC bs ss R W x * denC bs ss R y := mul_lt_mul_of_pos_right (by linarith) p2
    have a2 : q * ((numC bs ss R W x + κ * numR bs ss R W x) * denC bs ss R y)
        < q * (numC bs ss R W y * denC bs ss R x) := mul_lt_mul_of_pos_left (a1.trans_le r1) hq
    have a3 : q * (numC bs ss R W y * denC bs ss R x) = tc * denC bs ss R x * denC bs ss R y := by
      rw [← mul_assoc, h]; ring
    linarith
  have := lt_of_mul_lt_mul_right k2 p2.le
  linarith

end

/-! ## Springs -/

section
variable {eig : EigSolver} {s : Self} {r K B : ℝ} {kR kN : ℝ → ℝ}

/-- The compliances at the crack tip are continuous functions of the length of the
supported part. -/
theorem compliance_continuous (h : LongColumn eig s) (ht : TipSprings eig s r K B kR kN) :
    ContinuousOn (fun l => 1 / kR l) (Set.Ioi 0) ∧ ContinuousOn (fun l => 1 / kN l) (Set.Ioi 0) := by
  have hb1 : BedOk (prep eig false .rot s) := h.bed.stage "rot" s.mode s.L s.a s.tc s.td s.phi s.ratio
  have hc1 : ShearOk (prep eig false .rot s) := h.shear.stage "rot" s.mode s.L s.a s.tc s.td s.phi s.ratio
  have hb2 : BedOk (prep eig false .trans s) := h.bed.stage "trans" s.mode s.L s.a s.tc s.td s.phi s.ratio
  have hc2 : ShearOk (prep eig false .trans s) := h.shear.stage "trans" s.mode s.L s.a s.tc s.td s.phi s.ratio
  have hco := h.bed.stiff.coercive h.shear
  have e1 : ∀ l, 0 < l → ∃ Z, TipLoaded s.beam l 0 1 0 Z ∧ 1 / kR l = |Z 0 4| := by
    intro l hl
    obtain ⟨k, Z, r1, t1, e1⟩ := substitute_response eig l hl false .rot (by simp) s h.fresh hb1 hc1
    simp only [if_true] at t1 e1
    rw [ht.rot l hl] at r1
    simp only [Prod.mk.injEq, Except.ok.injEq, and_true] at r1
    exact ⟨Z, t1, by rw [r1, e1, abs_div, abs_one, one_div_one_div]⟩
  have e2 : ∀ l, 0 < l → ∃ Z, TipLoaded s.beam l 0 0 1 Z ∧
      1 / kN l = |Z 0 2 + ((s.loads 0).qn + (s.loads 0).pn) / s.beam.kn| := by
    intro l hl
    obtain ⟨k, Z, r1, t1, e1⟩ := substitute_response eig l hl false .trans (by simp) s h.fresh hb2 hc2
    simp only [reduceCtorEq, if_false] at t1 e1
    rw [ht.trans l hl] at r1
    simp only [Prod.mk.injEq, Except.ok.injEq, and_true] at r1
    exact ⟨Z, t1, by rw [r1, e1, abs_div, abs_one, one_div_one_div]; rfl⟩
  constructor
  · rw [Metric.continuousOn_iff]
    intro l hl ε hε
    obtain ⟨Z, z1, z2⟩ := e1 l hl
    obtain ⟨δ, hδ, H⟩ := z1.near hco hl hε
    refine ⟨δ, hδ, fun l' hl' hd => ?_⟩
    obtain ⟨Z', y1, y2⟩ := e1 l' hl'
    have hn := H l' Z' (by rwa [Real.dist_eq] at hd) y1
    rw [Real.dist_eq, z2, y2]
    exact (abs_abs_sub_abs_le _ _).trans_lt ((norm_le_pi_norm (Z' 0 - Z 0) 4).trans_lt hn)
  · rw [Metric.continuousOn_iff]
    intro l hl ε hε
    obtain ⟨Z, z1, z2⟩ := e2 l hl
    obtain ⟨δ, hδ, H⟩ := z1.near hco hl hε
    refine ⟨δ, hδ, fun l' hl' hd => ?_⟩
    obtain ⟨Z', y1, y2⟩ := e2 l' hl'
    have hn := H l' Z' (by rwa [Real.dist_eq] at hd) y1
    rw [Real.dist_eq, z2, y2]
    refine (abs_abs_sub_abs_le _ _).trans_lt ?_
    rw [add_sub_add_right_eq_sub]
    exact (norm_le_pi_norm (Z' 0 - Z 0) 2).trans_lt hn

/-- A short piece at rest on the collapsed layer is a weak rotational spring. -/
theorem rest_le (hf : EigFresh eig s) (hb : BedOk (prep eig true .rot s)) (hc : ShearOk (prep eig true .rot s)) {l : ℝ}
    (hl : 0 < l) : ∃ k, substituteStiffness eig l true .rot s = (.ok k, s) ∧ 0 < k ∧ k ≤ s.ratio * s.kn * l ^ 3 / 3 := by
  have hco : (s.auxBeam true).Coercive := by
    have := hb.stiff.coercive hc
    rwa [prep_beam] at this
  obtain ⟨k, Z, r1, t1, e1⟩ := substitute_response eig l hl true .rot (by simp) s hf hb hc
  simp only [if_true] at t1 e1
  have g := t1.rotation_ge hco hl
  have hk : 0 < (s.auxBeam true).kn := hco.kn
  have p : 0 < 3 / ((s.auxBeam true).kn * l ^ 3) := by positivity
  have q1 : k = 1 / -Z 0 4 := by
    rw [e1, abs_of_neg (one_div_neg.mpr (by linarith)), one_div_neg_eq_neg_one_div]
  refine ⟨k, r1, by rw [q1]; exact one_div_pos.2 (by linarith), ?_⟩
  rw [q1]
  refine (one_div_le_one_div_of_le p g).trans (le_of_eq ?_)
  rw [one_div_div]
  rfl

end

/-! ## Refused crack lengths -/

/-- Saw test with touchdown for which the limits exist: they are less than `A`, at
which a clamped slab would sag nine times as deep as the layer collapses, and the
collapse is deeper than a thousandth of the column sags. The layer at rest is not
so stiff that a thousandth of the column could clamp the slab. -/
structure Spec.ContactTest (eig : EigSolver) (s : Self) (A d : ℝ) : Prop where
  column : LongColumn eig s
  restBed : BedOk (prep eig true .rot s)
  restShear : ShearOk (prep eig true .rot s)
  d0 : 0 < d
  A0 : 0 < A
  AL : A + d < s.L
  A999 : A ≤ 999 / 1000 * s.L
  low : calcQn s * tipBound s d (s.L / 1000) < s.tc
  high : 72 * bsOf s * s.tc ≤ calcQn s * A ^ 4
  soft : s.ratio * s.kn * s.L ^ 2 ≤ 140000 * s.kA55

/-- The function whose root is the limit of stage B, and the bound of the function
whose root is the touchdown length at the upper end of its bracket. -/
noncomputable def contactFn (s : Self) (kR kN : ℝ → ℝ) (a : ℝ) : ℝ :=
  calcQn s * numC (bsOf s) s.kA55 (1 / kR (s.L - a)) (1 / kN (s.L - a)) a - s.tc * denC (bsOf s) s.kA55 (1 / kR (s.L - a)) a

noncomputable def bracketFn (s : Self) (kR kN : ℝ → ℝ) (a : ℝ) : ℝ :=
  calcQn s * (numC (bsOf s) s.kA55 (1 / kR (s.L - a)) (1 / kN (s.L - a)) (999 / 1000 * a)
      + s.ratio * s.kn * (a / 1000) ^ 3 / 3 * numR (bsOf s) s.kA55 (1 / kR (s.L - a)) (1 / kN (s.L - a)) (999 / 1000 * a))
    - s.tc * denC (bsOf s) s.kA55 (1 / kR (s.L - a)) (999 / 1000 * a)

section
variable {eig : EigSolver} {s : Self} {r K B A d : ℝ} {kR kN : ℝ → ℝ}

theorem contactFn_continuous (h : LongColumn eig s) (ht : TipSprings eig s r K B kR kN) :
    ContinuousOn (contactFn s kR kN) (Set.Iio s.L) ∧ ContinuousOn (bracketFn s kR kN) (Set.Iio s.L) := by
  obtain ⟨c1, c2⟩ := compliance_continuous h ht
  have m : Set.MapsTo (fun a => s.L - a) (Set.Iio s.L) (Set.Ioi 0) := fun a ha => by
    simp only [Set.mem_Iio, Set.mem_Ioi] at *; linarith
  have hc : ContinuousOn (fun a : ℝ => s.L - a) (Set.Iio s.L) := by fun_prop
  have d1 : ContinuousOn (fun a => 1 / kR (s.L - a)) (Set.Iio s.L) := c1.comp hc m
  have d2 : ContinuousOn (fun a => 1 / kN (s.L - a)) (Set.Iio s.L) := c2.comp hc m
  constructor
  · unfold contactFn numC denC
    fun_prop
  · unfold bracketFn numC numR denC
    fun_prop

/-- Crack lengths at which the function of the touchdown length has the same sign
at both ends of its bracket. -/
theorem calcLC_refused (num : Numerics) (he : num.eig = eig) (h : ContactTest eig s A d) (ht : TipSprings eig s r K B kR kN)
    {a : ℝ} (ha : 0 < a) (had : a + d ≤ s.L) (hg : bracketFn s kR kN a < 0) :
    calcLC num ({ s with mode := .C, a := a } : Self) = (.error .valueError, ({ s with mode := .C, a := a } : Self)) := by
  subst he
  have hc := h.column
  have hbs := bsOf_pos hc.bed hc.shear
  have hss := hc.bed.stiff.kA55
  have hq := hc.qn
  have hd := h.d0
  have hl : 0 < s.L - a := by linarith
  set s1 : Self := { s with mode := .C, a := a } with hs1
  have run : ∀ {l k : ℝ} {rested : Bool} {dof : Dof}, dof ≠ .other → substituteStiffness num.eig l rested dof s = (.ok k, s) →
      substituteStiffness num.eig l rested dof s1 = (.ok k, s1) := fun hdof hr =>
    (sub_same num.eig s hc.fresh _ _ _ hdof s.system .C s.L a s.tc s.td s.phi).run hr
  have kRp := ht.rotPos _ hl
  have kNp := ht.transPos _ hl
  have f1 := run (by simp) (ht.rot _ hl)
  have f2 := run (by simp) (ht.trans _ hl)
  obtain ⟨b1, b2, b3⟩ : ∃ kR' : ℝ, substituteStiffness num.eig (s.L - a) false .rot s = (.ok kR', s) ∧ 1 / kR' ≤ rotBound s.beam d := by
    obtain ⟨k, e1, -, e3⟩ := rot_spring num.eig s hc.fresh hc.bed hc.shear (s.L - a) hl
    exact ⟨k, e1, e3 d hd (by linarith)⟩
  obtain ⟨b4, b5, b6⟩ : ∃ kN' : ℝ, substituteStiffness num.eig (s.L - a) false .trans s = (.ok kN', s) ∧ 1 / kN' ≤ deflBound s.beam d := by
    obtain ⟨k, e1, -, e3⟩ := trans_spring num.eig s hc.fresh hc.bed hc.shear (s.L - a) hl hc.q0 (.inr hc.light)
    exact ⟨k, e1, e3 d hd (by linarith)⟩
  rw [ht.rot _ hl] at b2
  rw [ht.trans _ hl] at b5
  simp only [Prod.mk.injEq, Except.ok.injEq, and_true] at b2 b5
  rw [← b2] at b3
  rw [← b5] at b6
  have hx : 0 < a / 1000 := by positivity
  have htip : calcQn s * tipDeflection (bsOf s) s.kA55 (kR (s.L - a)) (kN (s.L - a)) (a / 1000) ≤ s.tc :=
    (mul_le_mul_of_nonneg_left (tip_le b3 b6 hx) hq.le).trans ((mul_le_mul_of_nonneg_left
      (tipBound_mono hc.bed hc.shear hd hx.le (by linarith)) hq.le).trans h.low.le)
  obtain ⟨k1, g1, g2, -⟩ := rest_le hc.fresh h.restBed h.restShear (l := a - a / 1000) (by linarith)
  obtain ⟨k2, g3, g4, g5⟩ := rest_le hc.fresh h.restBed h.restShear (l := a - 999 / 1000 * a) (by linarith)
  have g1' := run (by simp) g1
  have g3' := run (by simp) g3
  have lo : contactPoly (bsOf s) s.kA55 (kR (s.L - a)) (kN (s.L - a)) k1 s.tc (calcQn s) (a / 1000) < 0 :=
    polyLC_neg hbs hss kRp kNp g2 hq hx htip
  have hi : contactPoly (bsOf s) s.kA55 (kR (s.L - a)) (kN (s.L - a)) k2 s.tc (calcQn s) (999 / 1000 * a) < 0 := by
    rw [contact_split kRp kNp]
    refine mul_neg_of_pos_of_neg (by positivity) (lt_of_le_of_lt ?_ hg)
    have e : a - 999 / 1000 * a = a / 1000 := by ring
    rw [e] at g5
    unfold bracketFn
    have p1 : 0 ≤ numR (bsOf s) s.kA55 (1 / kR (s.L - a)) (1 / kN (s.L - a)) (999 / 1000 * a) := by unfold numR; positivity
    have p2 : 0 ≤ s.tc * (k2 * (144 * bsOf s * s.kA55 * (999 / 1000 * a) + 144 * bsOf s ^ 2 * s.kA55 * (1 / kR (s.L - a)))) := by
      have := hc.tc
      positivity
    have p3 := mul_le_mul_of_nonneg_left (mul_le_mul_of_nonneg_right g5 p1) hq.le
    linarith
  have e1 : polyLC num.eig (bsOf s1) s1.kA55 s1.L s1.a s1.tc (calcQn s1) (s1.a / 1000) s1
      = (.ok (contactPoly (bsOf s) s.kA55 (kR (s.L - a)) (kN (s.L - a)) k1 s.tc (calcQn s) (a / 1000)), s1) := by
    unfold polyLC
    erw [Py.bind_of_ok f1, Py.bind_of_ok f2, Py.bind_of_ok g1']
    rfl
  have e2 : polyLC num.eig (bsOf s1) s1.kA55 s1.L s1.a s1.tc (calcQn s1) (999 / 1000 * s1.a) s1
      = (.ok (contactPoly (bsOf s) s.kA55 (kR (s.L - a)) (kN (s.L - a)) k2 s.tc (calcQn s) (999 / 1000 * a)), s1) := by
    unfold polyLC
    erw [Py.bind_of_ok f1, Py.bind_of_ok f2, Py.bind_of_ok g3']
    rfl
  unfold calcLC
  rw [Py.get_bind]
  unfold brentq
  rw [Py.bind_of_ok e1, Py.bind_of_ok e2, if_neg lo.ne, if_neg hi.ne, if_pos (mul_pos_of_neg_of_neg lo hi)]
  rfl

/-- The crack lengths around those of full contact: near a root of the function of
`calc_a2` the touchdown length is refused. -/
theorem contact_root (h : ContactTest eig s A d) (ht : TipSprings eig s r K B kR kN) {y : ℝ} (y0 : 0 < y) (yA : y ≤ A)
    (hy : contactFn s kR kN y = 0) :
    IsOpen (Set.Ioo 0 (s.L - d) ∩ bracketFn s kR kN ⁻¹' Set.Iio 0) ∧
    y ∈ Set.Ioo 0 (s.L - d) ∩ bracketFn s kR kN ⁻¹' Set.Iio 0 := by
  obtain ⟨-, c2⟩ := contactFn_continuous h.column ht
  have hc := h.column
  have hbs := bsOf_pos hc.bed hc.shear
  have hss := hc.bed.stiff.kA55
  have hd := h.d0
  have hl : 0 < s.L - y := by linarith [h.AL]
  have kRp := ht.rotPos _ hl
  have kNp := ht.transPos _ hl
  refine ⟨(c2.mono fun x hx => ?_).isOpen_inter_preimage isOpen_Ioo isOpen_Iio, ⟨y0, by linarith [h.AL]⟩, ?_⟩
  · simp only [Set.mem_Ioo, Set.mem_Iio] at *; linarith [hx.2]
  refine short_of_contact hbs hss (by positivity) (by positivity) hc.qn y0 ?_ (sub_eq_zero.1 hy)
  have u1 : s.ratio * s.kn * y ^ 2 ≤ 140000 * s.kA55 := by
    refine le_trans ?_ h.soft
    have hk : 0 ≤ s.ratio * s.kn := by
      have := h.restBed.stiff.coercive h.restShear
      rw [prep_beam] at this
      exact this.kn.le
    exact mul_le_mul_of_nonneg_left (pow_le_pow_left₀ y0.le (by linarith) 2) hk
  have u2 : s.ratio * s.kn * y ^ 2 * y ≤ 140000 * s.kA55 * y := mul_le_mul_of_nonneg_right u1 y0.le
  have u3 : 20000 * (s.ratio * s.kn * (y / 1000) ^ 3 / 3) = s.ratio * s.kn * y ^ 2 * y * (20000 / (3 * 10 ^ 9)) := by ring
  rw [u3]
  have u4 : 0 < s.kA55 * y := by positivity
  linarith

/-- The function of `calc_a2`, at every crack length. -/
theorem polyA2_contactFn (hc : LongColumn eig s) (ht : TipSprings eig s r K B kR kN) {x : ℝ} (hx : x < s.L) :
    polyA2 eig (bsOf s) s.kA55 s.L s.tc (calcQn s) x s = (.ok (kR (s.L - x) * kN (s.L - x) * contactFn s kR kN x), s) ∧
    0 < kR (s.L - x) * kN (s.L - x) :=
  ⟨polyA2_column hc ht hx, mul_pos (ht.rotPos _ (by linarith)) (ht.transPos _ (by linarith))⟩

theorem contactFn_pos (h : ContactTest eig s A d) (ht : TipSprings eig s r K B kR kN) {x : ℝ} (hA : A ≤ x) (hx : x < s.L) :
    0 < contactFn s kR kN x := by
  have hc := h.column
  have hl : 0 < s.L - x := by linarith
  have hR := ht.rotPos _ hl
  have hN := ht.transPos _ hl
  have hpos := polyA2_pos (bsOf_pos hc.bed hc.shear) hc.bed.stiff.kA55 hR hN hc.qn (h.A0.trans_le hA)
    (h.high.trans (mul_le_mul_of_nonneg_left (pow_le_pow_left₀ h.A0.le hA 4) hc.qn.le))
  have e := contact_numC (bs := bsOf s) (ss := s.kA55) (tc := s.tc) (q := calcQn s) (x := x) hR hN
  refine pos_of_mul_pos_right (a := kR (s.L - x) * kN (s.L - x)) ?_ (by positivity)
  refine lt_of_lt_of_eq hpos (Eq.trans ?_ e)
  unfold contactPoly
  ring

/-- Up to the length of first contact the slab does not lie flat. -/
theorem contactFn_neg (h : ContactTest eig s A d) (ht : TipSprings eig s r K B kR kN) {x : ℝ} (x0 : 0 < x) (hx : x < s.L)
    (hf : calcQn s * tipC (bsOf s) s.kA55 (1 / kR (s.L - x)) (1 / kN (s.L - x)) x ≤ s.tc) : contactFn s kR kN x < 0 := by
  have hc := h.column
  have hl : 0 < s.L - x := by linarith
  have hR := ht.rotPos _ hl
  have hN := ht.transPos _ hl
  rw [← tip_tipC] at hf
  have hneg := polyA2_neg (bsOf_pos hc.bed hc.shear) hc.bed.stiff.kA55 hR hN hc.qn x0 hf
  have e := contact_numC (bs := bsOf s) (ss := s.kA55) (tc := s.tc) (q := calcQn s) (x := x) hR hN
  refine neg_of_mul_neg_right (a := kR (s.L - x) * kN (s.L - x)) ?_ (by positivity)
  refine lt_of_eq_of_lt (Eq.trans e.symm ?_) hneg
  unfold contactPoly
  ring

/-- Crack lengths the root finder may return for the limit of stage B. -/
theorem near_root (num : Numerics) (he : num.eig = eig) (h : ContactTest eig s A d) (ht : TipSprings eig s r K B kR kN)
    {δ a2 : ℝ} (hδ : 0 ≤ δ) (hfind : BrentFinds num s.L δ) (h2 : calcA2 num s = (.ok a2, s)) :
    ∃ y ∈ Set.Icc (s.L / 1000) A ∩ contactFn s kR kN ⁻¹' {0}, |y - a2| ≤ δ := by
  subst he
  obtain ⟨c1, -⟩ := contactFn_continuous h.column ht
  have hc := h.column
  have hbs := bsOf_pos hc.bed hc.shear
  have hss := hc.bed.stiff.kA55
  have hL : 0 < s.L := by linarith [h.A0, h.AL, h.d0]
  have ev : ∀ x, x < s.L → polyA2 num.eig (bsOf s) s.kA55 s.L s.tc (calcQn s) x s
      = (.ok (kR (s.L - x) * kN (s.L - x) * contactFn s kR kN x), s) := fun x hx => polyA2_column hc ht hx
  unfold calcA2 at h2
  rw [Py.get_bind] at h2
  obtain ⟨p, q, yp, yq, p1, p2, q1, q2, e1, e2, s1, s2, d1, d2⟩ := brent_sides hfind hδ (by linarith) (by linarith)
    (fun x _ hx => ⟨_, ev x (by linarith)⟩) h2
  rw [ev p (by linarith)] at e1
  rw [ev q (by linarith)] at e2
  simp only [Prod.mk.injEq, Except.ok.injEq, and_true] at e1 e2
  have kp : ∀ x, x < s.L → 0 < kR (s.L - x) * kN (s.L - x) := fun x hx =>
    mul_pos (ht.rotPos _ (by linarith)) (ht.transPos _ (by linarith))
  have v1 : contactFn s kR kN p ≤ 0 := by
    rw [← e1] at s1
    exact nonpos_of_mul_nonpos_right s1 (kp p (by linarith))
  have v2 : 0 ≤ contactFn s kR kN q := by
    rw [← e2] at s2
    exact nonneg_of_mul_nonneg_right s2 (kp q (by linarith))
  have cont : ContinuousOn (contactFn s kR kN) (Set.uIcc p q) := c1.mono fun x hx => by
    have : x ≤ max p q := hx.2
    simp only [Set.mem_Iio]
    have : max p q ≤ 999 / 1000 * s.L := max_le p2 q2
    linarith
  obtain ⟨y, hy, hy0⟩ := intermediate_value_uIcc cont
    (show (0 : ℝ) ∈ Set.uIcc (contactFn s kR kN p) (contactFn s kR kN q) from
      Set.mem_uIcc.2 (.inl ⟨v1, v2⟩))
  rw [Set.mem_uIcc] at hy
  have b1 : s.L / 1000 ≤ y ∧ y ≤ 999 / 1000 * s.L := by rcases hy with h | h <;> constructor <;> linarith [h.1, h.2]
  have y0 : 0 < y := lt_of_lt_of_le (by positivity) b1.1
  have b2 : y ≤ A := by
    by_contra hA
    have := contactFn_pos h ht (not_le.1 hA).le (by linarith)
    exact absurd hy0 this.ne'
  refine ⟨y, ⟨⟨b1.1, b2⟩, hy0⟩, ?_⟩
  rw [abs_le] at d1 d2 ⊢
  rcases hy with h | h <;> constructor <;> linarith [h.1, h.2, d1.1, d1.2, d2.1, d2.2]

end

/-- C78, limits. Both limits exist as exact roots, first contact before full
contact. -/
theorem C78_limits_exist {eig : EigSolver} {s : Self} {A d : ℝ} (h : ContactTest eig s A d) :
    ∃ y1 y2, s.L / 1000 < y1 ∧ y1 < y2 ∧ y2 < A ∧ polyA1 eig (bsOf s) s.kA55 s.L s.tc (calcQn s) y1 s = (.ok 0, s) ∧
      polyA2 eig (bsOf s) s.kA55 s.L s.tc (calcQn s) y2 s = (.ok 0, s) := by
  obtain ⟨r, K, B, kR, kN, -, -, -, ht⟩ := tip_springs h.column
  have hc := h.column
  have hL : 0 < s.L := by linarith [h.A0, h.AL, h.d0]
  have hbs := bsOf_pos hc.bed hc.shear
  have hss := hc.bed.stiff.kA55
  have hq := hc.qn
  have hd := h.d0
  obtain ⟨c1, -⟩ := contactFn_continuous hc ht
  set g : ℝ → ℝ := fun x => calcQn s * tipC (bsOf s) s.kA55 (1 / kR (s.L - x)) (1 / kN (s.L - x)) x - s.tc with hg
  have cg : ContinuousOn g (Set.Iio s.L) := by
    obtain ⟨c1, c2⟩ := compliance_continuous hc ht
    have m : Set.MapsTo (fun a => s.L - a) (Set.Iio s.L) (Set.Ioi 0) := fun a ha => by
      simp only [Set.mem_Iio, Set.mem_Ioi] at *; linarith
    have hcc : ContinuousOn (fun a : ℝ => s.L - a) (Set.Iio s.L) := by fun_prop
    have d1 : ContinuousOn (fun a => 1 / kR (s.L - a)) (Set.Iio s.L) := c1.comp hcc m
    have d2 : ContinuousOn (fun a => 1 / kN (s.L - a)) (Set.Iio s.L) := c2.comp hcc m
    simp only [hg]
    unfold tipC
    fun_prop
  -- a thousandth of the column does not touch the ground
  have lo : ∀ x, 0 < x → x ≤ s.L / 1000 → x + d ≤ s.L → g x < 0 := by
    intro x x0 hx hxd
    have hl : 0 < s.L - x := by linarith
    obtain ⟨k, e1, -, e3⟩ := rot_spring eig s hc.fresh hc.bed hc.shear (s.L - x) hl
    obtain ⟨k', e1', -, e3'⟩ := trans_spring eig s hc.fresh hc.bed hc.shear (s.L - x) hl hc.q0 (.inr hc.light)
    rw [ht.rot _ hl] at e1
    rw [ht.trans _ hl] at e1'
    simp only [Prod.mk.injEq, Except.ok.injEq, and_true] at e1 e1'
    have t1 := tip_le (bs := bsOf s) (ss := s.kA55) (e1 ▸ e3 d hd (by linarith)) (e1' ▸ e3' d hd (by linarith)) x0
    rw [tip_tipC] at t1
    have t2 := tipBound_mono hc.bed hc.shear hd x0.le hx
    have t3 := mul_le_mul_of_nonneg_left (t1.trans t2) hq.le
    have := h.low
    simp only [hg]
    linarith
  have hA : 0 < g A := by
    by_contra hn
    push Not at hn
    have n := contactFn_neg h ht h.A0 (by linarith [h.AL]) (by simp only [hg] at hn; linarith)
    exact absurd (contactFn_pos h ht le_rfl (by linarith [h.AL])) n.le.not_gt
  have hLA : s.L / 1000 < A := by
    by_contra hn
    push Not at hn
    exact absurd hA (lo A h.A0 hn h.AL.le).le.not_gt
  have g0 := lo (s.L / 1000) (by positivity) le_rfl (by linarith [h.AL])
  obtain ⟨y1, ⟨a1, a2⟩, a3⟩ := intermediate_value_Ioo hLA.le (cg.mono fun x hx => by
    simp only [Set.mem_Icc, Set.mem_Iio] at *; linarith [hx.2, h.AL]) (show (0 : ℝ) ∈ Set.Ioo _ _ from ⟨g0, hA⟩)
  have y0 : 0 < y1 := lt_trans (by positivity) a1
  have n1 := contactFn_neg h ht y0 (by linarith [h.AL]) (by simp only [hg] at a3; linarith)
  obtain ⟨y2, ⟨b1, b2⟩, b3⟩ := intermediate_value_Ioo a2.le (c1.mono fun x hx => by
    simp only [Set.mem_Icc, Set.mem_Iio] at *; linarith [hx.2, h.AL])
    (show (0 : ℝ) ∈ Set.Ioo _ _ from ⟨n1, contactFn_pos h ht le_rfl (by linarith [h.AL])⟩)
  refine ⟨y1, y2, a1, b1, b2, ?_, ?_⟩
  · have e := polyA1_column hc ht (L := s.L) (x := y1) (by linarith [h.AL])
    refine e.trans ?_
    have : tipC (bsOf s) s.kA55 (1 / kR (s.L - y1)) (1 / kN (s.L - y1)) y1 + -s.tc / calcQn s = 0 := by
      simp only [hg] at a3
      field_simp
      linarith
    rw [this]
    rfl
  · rw [(polyA2_contactFn hc ht (by linarith [h.AL])).1, b3, mul_zero]

/-- C78, accuracy. What a root finder of accuracy `δ` reports as the limit of stage
B is within `δ` of an exact root. -/
theorem C78_reported_limit {eig : EigSolver} {s : Self} {A d : ℝ} (h : ContactTest eig s A d) (num : Numerics)
    (he : num.eig = eig) {δ a2 : ℝ} (hδ : 0 ≤ δ) (hfind : BrentFinds num s.L δ) (h2 : calcA2 num s = (.ok a2, s)) :
    ∃ y, 0 < y ∧ y ≤ A ∧ polyA2 eig (bsOf s) s.kA55 s.L s.tc (calcQn s) y s = (.ok 0, s) ∧ |y - a2| ≤ δ := by
  obtain ⟨r, K, B, kR, kN, -, -, -, ht⟩ := tip_springs h.column
  obtain ⟨y, ⟨⟨y1, y2⟩, y3⟩, y4⟩ := near_root num he h ht hδ hfind h2
  have hL : 0 < s.L := by linarith [h.A0, h.AL, h.d0]
  refine ⟨y, lt_of_lt_of_le (by positivity) y1, y2, ?_, y4⟩
  rw [(polyA2_contactFn h.column ht (by linarith [h.AL, h.d0])).1, show contactFn s kR kN y = 0 from y3, mul_zero]

/-- C78, violated. Around every crack length `y` of full contact there is an interval
on which the touchdown length cannot be computed: if the limit found is in it, all
crack lengths between the limit and the end of the interval are refused by
`calc_segments` with `ValueError`. -/
theorem C78_past_contact_violated {eig : EigSolver} (s : Self) (L cf phi ratio A d y : ℝ) (htd : s.touchdown = true)
    (hcn : s.hasContact = true) (h : ContactTest eig (setTouchdownAttributes L 0 cf phi ratio s) A d) (y0 : 0 < y) (yA : y ≤ A)
    (hy : polyA2 eig (bsOf s) s.kA55 L (setTouchdownAttributes L 0 cf phi ratio s).tc
      (calcQn (setTouchdownAttributes L 0 cf phi ratio s)) y (setTouchdownAttributes L 0 cf phi ratio s)
      = (.ok 0, setTouchdownAttributes L 0 cf phi ratio s)) :
    ∃ ε, 0 < ε ∧ ∀ (num : Numerics) (a1 a2 : ℝ), num.eig = eig →
      calcA1 num (setTouchdownAttributes L 0 cf phi ratio s) = (.ok a1, setTouchdownAttributes L 0 cf phi ratio s) →
      calcA2 num (setTouchdownAttributes L 0 cf phi ratio s) = (.ok a2, setTouchdownAttributes L 0 cf phi ratio s) →
      |a2 - y| < ε → ∀ a, a1 < a → a2 < a → a < y + ε → ∀ li mi ki k0 m,
        ∃ t, calcSegments num li mi ki k0 L a m phi cf ratio s = (.error .valueError, t) := by
  obtain ⟨r, K, B, kR, kN, -, -, -, ht⟩ := tip_springs h.column
  set s0 := setTouchdownAttributes L 0 cf phi ratio s with hs0
  have hyL : y < s0.L := by linarith [h.AL, h.d0]
  obtain ⟨e1, e2⟩ := polyA2_contactFn h.column ht hyL
  have hy0 : contactFn s0 kR kN y = 0 := by
    have := e1.symm.trans hy
    simp only [Prod.mk.injEq, Except.ok.injEq, and_true] at this
    rcases mul_eq_zero.1 this with h | h
    · exact absurd h e2.ne'
    · exact h
  obtain ⟨o1, o2⟩ := contact_root h ht y0 yA hy0
  obtain ⟨ε, hε, hball⟩ := Metric.isOpen_iff.1 o1 y o2
  refine ⟨ε, hε, fun num a1 a2 he r1 r2 hd a g1 g2 g3 li mi ki k0 m => ?_⟩
  rw [abs_lt] at hd
  obtain ⟨⟨ha0, had⟩, hg⟩ := hball (show a ∈ Metric.ball y ε by
    rw [Metric.mem_ball, Real.dist_eq, abs_lt]; constructor <;> linarith [hd.1])
  have hlc := calcLC_refused num he h ht ha0 (by linarith) hg
  have hf : EigFresh num.eig s0 := he ▸ h.column.fresh
  obtain ⟨l1, l2⟩ := limits_same num s0 hf s0.mode a s0.td
  have q1 := l1.run r1
  have q2 := l2.run r2
  have e : calcTouchdownMode num (setTouchdownAttributes L a cf phi ratio s)
      = (.ok (), ({ s0 with mode := .C, a := a } : Self)) := by
    have := (C24_stage_total num (setTouchdownAttributes L a cf phi ratio s)).2 a1 a2 htd q1 q2
    rw [this, if_neg (show ¬(setTouchdownAttributes L a cf phi ratio s).a ≤ a1 from not_le.2 g1),
      if_neg (show ¬(setTouchdownAttributes L a cf phi ratio s).a ≤ a2 from not_le.2 g2)]
    rfl
  have sys : calcTouchdownSystem num L a cf phi ratio s = (.error .valueError, ({ s0 with mode := .C, a := a } : Self)) := by
    unfold calcTouchdownSystem
    rw [Py.modify_bind, Py.bind_of_ok e]
    unfold calcTouchdownLength
    rw [Py.get_bind]
    change (calcLC num >>= fun l => Py.modify fun s => { s with td := l }) ({ s0 with mode := .C, a := a } : Self) = _
    exact Py.bind_of_error hlc
  refine ⟨({ s0 with mode := .C, a := a } : Self), ?_⟩
  unfold calcSegments
  rw [Py.get_bind, if_pos hcn]
  exact Py.bind_of_error sys

/-- C78, where it holds. For a saw test with bracketed limits the computation
succeeds up to the second limit, and beyond it once a clamped slab of 999
thousandths of the crack length would bend nine times as far as it may. -/
theorem C78_succeeds_partial (num : Numerics) (L a cf phi ratio d : ℝ) (s : Self)
    (h : Bracketed num (setTouchdownAttributes L a cf phi ratio s) d) (ht : s.touchdown = true) (hcn : s.hasContact = true)
    (hsys : s.system = "pst-" ∨ s.system = "-pst") :
    ∃ a2, calcA2 num (setTouchdownAttributes L a cf phi ratio s) = (.ok a2, setTouchdownAttributes L a cf phi ratio s) ∧
      (a ≤ a2 ∨ 72 * bsOf s * (setTouchdownAttributes L a cf phi ratio s).tc
        ≤ calcQn (setTouchdownAttributes L a cf phi ratio s) * (999 / 1000 * a) ^ 4 →
      ∀ li mi ki k0 m, ∃ g s', calcSegments num li mi ki k0 L a m phi cf ratio s = (.ok g, s')) := by
  obtain ⟨a1, a2, -, h2, h3⟩ := C24_computation_succeeds num L a cf phi ratio d s h ht
  refine ⟨a2, h2, fun hh li mi ki k0 m => ?_⟩
  obtain ⟨s', r1, -⟩ := h3 fun _ g => hh.resolve_left (not_le.2 g)
  have hs' : s'.system = s.system := by
    have hf : EigFresh num.eig s := h.fresh.stage s.system s.mode s.L s.a s.tc s.td s.phi s.ratio
    have := (C25_touchdown_system_frame num L a cf phi ratio s s' hf r1).1
    rw [this]
    rfl
  unfold calcSegments
  rw [Py.get_bind, if_pos hcn, Py.bind_of_ok r1, Py.get_bind, hs']
  rcases hsys with e | e
  · rw [e, if_neg (by decide), if_pos rfl]
    exact ⟨_, _, rfl⟩
  · rw [e, if_neg (by decide), if_neg (by decide), if_pos rfl]
    exact ⟨_, _, rfl⟩

/-! ## The demonstration -/

/-- A root finder that knows two numbers: it returns the first if the function
vanishes there, and the second otherwise. -/
noncomputable def knowNum (y1 y2 : ℝ) : Numerics := ⟨stdEig, fun _ _ hist =>
  if hist.length = 2 then .inl y1 else if (hist.getLast?.map Prod.snd) = some 0 then .inr y1 else .inr y2⟩

theorem knowNum_run {y1 y2 : ℝ} {f : ℝ → Py ℝ} {a b : ℝ} {s : Self} {fa fb v : ℝ} (ha : f a s = (.ok fa, s))
    (hb : f b s = (.ok fb, s)) (h1 : fa < 0) (h2 : 0 < fb) (hv : f y1 s = (.ok v, s)) :
    brentq (knowNum y1 y2) f a b s = (.ok (if v = 0 then y1 else y2), s) := by
  unfold brentq
  rw [Py.bind_of_ok ha, Py.bind_of_ok hb, if_neg h1.ne, if_neg h2.ne', if_neg (by nlinarith)]
  unfold brentLoop
  simp only [knowNum, List.length_cons, List.length_nil, Nat.reduceAdd, if_true]
  rw [Py.bind_of_ok hv]
  unfold brentLoop
  by_cases h : v = 0 <;> simp [h, Py.pure_apply]

theorem demo_contact : ContactTest stdEig (setTouchdownAttributes 2000 0 (1 / 2) 0 1000 (demo stdEig "pst-" true)) 1750 200 := by
  have hb : Bracketed midNum (setTouchdownAttributes 2000 0 (1 / 2) 0 1000 (demo stdEig "pst-" true)) 200 :=
    demo_bracketed' midNum_runs rfl (.inl rfl) 0 0 (by norm_num [deg2rad]) (by norm_num [deg2rad]) _ 0 _ le_rfl (by norm_num)
  have hl := demo_long 0
  obtain ⟨h1, -, -, -, -, h6, -⟩ := demo_fields stdEig "pst-" true
  refine ⟨⟨hl.fresh.stage _ _ 2000 _ _ _ _ _, hb.bed, hb.shear, hb.qn, hb.q0, hl.light, hl.tc⟩, hb.restBed, hb.restShear, by norm_num,
    by norm_num, ?_, ?_, hb.low, demo_reach 0, ?_⟩
  · show (1750 : ℝ) + 200 < 2000; norm_num
  · show (1750 : ℝ) ≤ 999 / 1000 * 2000; norm_num
  · show 1000 * (demo stdEig "pst-" true).kn * 2000 ^ 2 ≤ 140000 * (demo stdEig "pst-" true).kA55
    rw [h1, h6]; norm_num

/-- The computation succeeds for a crack of 1.8 m. -/
example : ∃ g s', calcSegments midNum [] [] [] [] 2000 1800 0 0 (1 / 2) 1000 (demo stdEig "pst-" true) = (.ok g, s') := by
  have hd := demo_fields stdEig "pst-" true
  have hb := demo_bracketed 1800 (by norm_num) (by norm_num)
  obtain ⟨a2, -, H⟩ := C78_succeeds_partial midNum 2000 1800 (1 / 2) 0 1000 200 _ hb
    hd.2.2.2.2.2.2.2.2.2.2.2.2.2.2.1 hd.2.2.2.2.2.2.2.2.2.2.2.2.2.2.2 (.inl hd.2.2.2.2.2.2.2.2.2.2.2.2.2.1)
  refine H (.inr ?_) _ _ _ _ _
  refine (demo_reach 1800).trans (mul_le_mul_of_nonneg_left ?_ hb.qn.le)
  norm_num

/-- The saw test of the demonstration, column of 2 m, with exact limits `y1`, `y2`:
crack lengths just beyond `y2` are refused. -/
example : ∃ y1 y2 ε, y1 < y2 ∧ 0 < ε ∧
    calcA1 (knowNum y1 y2) (setTouchdownAttributes 2000 0 (1 / 2) 0 1000 (demo stdEig "pst-" true))
      = (.ok y1, setTouchdownAttributes 2000 0 (1 / 2) 0 1000 (demo stdEig "pst-" true)) ∧
    calcA2 (knowNum y1 y2) (setTouchdownAttributes 2000 0 (1 / 2) 0 1000 (demo stdEig "pst-" true))
      = (.ok y2, setTouchdownAttributes 2000 0 (1 / 2) 0 1000 (demo stdEig "pst-" true)) ∧
    ∀ a, y2 < a → a < y2 + ε → ∃ t, calcSegments (knowNum y1 y2) [] [] [] [] 2000 a 0 0 (1 / 2) 1000 (demo stdEig "pst-" true)
      = (.error .valueError, t) := by
  have hc := demo_contact
  obtain ⟨y1, y2, a1, a2, a3, a4, a5⟩ := C78_limits_exist hc
  set s0 := setTouchdownAttributes 2000 0 (1 / 2) 0 1000 (demo stdEig "pst-" true) with hs0
  have hy0 : 0 < y1 := lt_trans (by show (0 : ℝ) < 2000 / 1000; norm_num) a1
  obtain ⟨ε, hε, H⟩ := C78_past_contact_violated (demo stdEig "pst-" true) 2000 (1 / 2) 0 1000 1750 200 y2
    (demo_fields stdEig "pst-" true).2.2.2.2.2.2.2.2.2.2.2.2.2.2.1 (demo_fields stdEig "pst-" true).2.2.2.2.2.2.2.2.2.2.2.2.2.2.2
    hc (hy0.trans a2) a3.le a5
  have hb : Bracketed midNum s0 200 :=
    demo_bracketed' midNum_runs rfl (.inl rfl) 0 0 (by norm_num [deg2rad]) (by norm_num [deg2rad]) _ 0 _ le_rfl (by norm_num)
  obtain ⟨-, hbr⟩ := calcA_brackets hb
  obtain ⟨-, fa, fb, p2, p3, p4, p5⟩ := hbr _ (List.mem_cons_self ..)
  obtain ⟨g1, ga, gb, q2, q3, q4, q5⟩ := hbr _ (List.mem_cons_of_mem _ (List.mem_cons_self ..))
  have r1 : calcA1 (knowNum y1 y2) s0 = (.ok y1, s0) := by
    unfold calcA1
    rw [Py.get_bind]
    exact (knowNum_run p2 p3 p4 p5 a4).trans (by rw [if_pos rfl])
  have r2 : calcA2 (knowNum y1 y2) s0 = (.ok y2, s0) := by
    obtain ⟨v, hv⟩ := g1 y1 a1.le (by show y1 ≤ 999 / 1000 * 2000; linarith)
    obtain ⟨kR, kN, n1, n2, n3, n4⟩ : ∃ kR kN, substituteStiffness stdEig (s0.L - y1) false .rot s0 = (.ok kR, s0) ∧
        substituteStiffness stdEig (s0.L - y1) false .trans s0 = (.ok kN, s0) ∧ 0 < kR ∧ 0 < kN := by
      have hl : 0 < s0.L - y1 := by show (0 : ℝ) < 2000 - y1; linarith
      obtain ⟨k, e1, e2, -⟩ := rot_spring stdEig s0 hc.column.fresh hc.column.bed hc.column.shear _ hl
      obtain ⟨k', e1', e2', -⟩ := trans_spring stdEig s0 hc.column.fresh hc.column.bed hc.column.shear _ hl hc.column.q0
        (.inr hc.column.light)
      exact ⟨k, k', e1, e1', e2, e2'⟩
    have hneg := C24_limits_ordered stdEig _ _ _ _ _ y1 kR kN s0 s0 s0 v hy0 (bsOf_pos hc.column.bed hc.column.shear)
      hc.column.bed.stiff.kA55 hc.column.qn n3 n4 n1 n2 a4 hv
    unfold calcA2
    rw [Py.get_bind]
    exact (knowNum_run q2 q3 q4 q5 hv).trans (by rw [if_neg hneg.ne])
  exact ⟨y1, y2, ε, a2, hε, r1, r2, fun a b1 b2 => H (knowNum y1 y2) y1 y2 rfl r1 r2 (by simpa using hε) a (a2.trans b1) b1 b2 _ _ _ _ _⟩

end Weac
