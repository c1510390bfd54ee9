import Verif.Lemmas.Compliance
import Verif.Props.Touchdown
import Verif.Props.SolveDemo

/-!
# C24: the touchdown computation succeeds

The root finder is called with a bracket on which the polynomials change sign,
so that neither it nor the assignment of the stage raises an exception.
-/

namespace Weac
open Spec

/-- Contract of `scipy.optimize.brentq`: function evaluations and result lie in
the bracket, and it converges within its limit of 100 iterations. -/
structure BrentRuns (num : Numerics) : Prop where
  inside : BrentOk num
  query : ∀ a b hist x, a ≤ b → num.brent a b hist = .inl x → a ≤ x ∧ x ≤ b
  stops : ∀ a b hist, 101 ≤ hist.length → ∃ r, num.brent a b hist = .inr r

theorem brentLoop_runs {num : Numerics} (hn : BrentRuns num) {f : ℝ → Py ℝ} {a b : ℝ} (hab : a ≤ b) {s : Self}
    (hf : ∀ x, a ≤ x → x ≤ b → ∃ y, f x s = (.ok y, s)) :
    ∀ n hist, hist.length + n = 101 → ∃ r, brentLoop (num.brent a b) f (n + 1) hist s = (.ok r, s) := by
  intro n
  induction n with
  | zero =>
    intro hist hl
    obtain ⟨r, hr⟩ := hn.stops a b hist (by omega)
    exact ⟨r, by unfold brentLoop; rw [hr]; rfl⟩
  | succ n ih =>
    intro hist hl
    rcases hx : num.brent a b hist with x | r
    · obtain ⟨h1, h2⟩ := hn.query a b hist x hab hx
      obtain ⟨y, hy⟩ := hf x h1 h2
      obtain ⟨r, hr⟩ := ih (hist ++ [(x, y)]) (by simp; omega)
      refine ⟨r, ?_⟩
      rw [brentLoop, hx]
      show (f x >>= _) s = _
      rw [Py.bind_of_ok hy]
      exact hr
    · exact ⟨r, by rw [brentLoop, hx]; rfl⟩

theorem brentq_runs {num : Numerics} (hn : BrentRuns num) {f : ℝ → Py ℝ} {a b : ℝ} (hab : a ≤ b) {s : Self}
    (hf : ∀ x, a ≤ x → x ≤ b → ∃ y, f x s = (.ok y, s)) {fa fb : ℝ} (ha : f a s = (.ok fa, s)) (hb : f b s = (.ok fb, s))
    (hs : fa * fb ≤ 0) : ∃ r, brentq num f a b s = (.ok r, s) := by
  unfold brentq
  rw [Py.bind_of_ok ha, Py.bind_of_ok hb]
  by_cases h1 : fa = 0
  · exact ⟨a, by rw [if_pos h1]; rfl⟩
  by_cases h2 : fb = 0
  · exact ⟨b, by rw [if_neg h1, if_pos h2]; rfl⟩
  rw [if_neg h1, if_neg h2, if_neg (not_lt.mpr hs)]
  exact brentLoop_runs hn hab hf 99 _ (by simp)

/-! ## Springs -/

/-- Bound of the rotation under a unit moment. -/
noncomputable def rotBound (b : Beam) (d : ℝ) : ℝ := d / b.Dred + 9 / (4 * d * b.Sred) + 36 / (d ^ 3 * b.kn)
/-- Bound of the deflection under a unit force. -/
noncomputable def deflBound (b : Beam) (d : ℝ) : ℝ := d ^ 3 / b.Dred + d / b.Sred + 16 / (d * b.kn)

theorem rot_spring (eig : EigSolver) (s : Self) (hf : EigFresh eig s) (hb : BedOk s) (hc : ShearOk s) (l : ℝ) (hl : 0 < l) :
    ∃ k, substituteStiffness eig l false .rot s = (.ok k, s) ∧ 0 < k ∧
      ∀ d, 0 < d → d ≤ l → 1 / k ≤ rotBound s.beam d := by
  have hb' : BedOk (prep eig false .rot s) := hb.stage "rot" s.mode s.L s.a s.tc s.td s.phi s.ratio
  have hc' : ShearOk (prep eig false .rot s) := hc.stage "rot" s.mode s.L s.a s.tc s.td s.phi s.ratio
  obtain ⟨k, h1, h2, ⟨Z, hZ⟩, h3⟩ := C26_rotational_spring eig l hl false s hf hb' hc'
  refine ⟨k, h1, h2, fun d hd hdl => ?_⟩
  have h := h3 Z hZ
  have := hZ.rotation_le (hb.stiff.coercive hc) hd hdl
  rw [h] at this
  unfold rotBound
  have e : -(-1 / k) = 1 / k := by ring
  rw [e] at this
  exact this

theorem rest_spring (eig : EigSolver) (s : Self) (hf : EigFresh eig s) (hb : BedOk (prep eig true .rot s))
    (hc : ShearOk (prep eig true .rot s)) (l : ℝ) (hl : 0 < l) :
    ∃ k, substituteStiffness eig l true .rot s = (.ok k, s) ∧ 0 < k := by
  obtain ⟨k, h1, h2, -, -⟩ := C26_rotational_spring eig l hl true s hf hb hc
  exact ⟨k, h1, h2⟩

/-- The load does not press a piece of length `l` down further than a unit force
presses its end: the piece is short, or the settlement under the force is
confined to a distance `r` from the end. -/
def Light (b : Beam) (q l : ℝ) : Prop := q * l < 1 ∨ ∃ r, 0 < r ∧ q * b.decay r < b.kn

theorem Light.mono {b : Beam} {q l l' : ℝ} (h : Light b q l) (hq : 0 ≤ q) (hl : l' ≤ l) : Light b q l' :=
  h.imp (fun h => lt_of_le_of_lt (mul_le_mul_of_nonneg_left hl hq) h) id

theorem trans_spring (eig : EigSolver) (s : Self) (hf : EigFresh eig s) (hb : BedOk s) (hc : ShearOk s) (l : ℝ) (hl : 0 < l)
    (hq : 0 ≤ (s.loads 0).qn + (s.loads 0).pn) (hql : Light s.beam ((s.loads 0).qn + (s.loads 0).pn) l) :
    ∃ k, substituteStiffness eig l false .trans s = (.ok k, s) ∧ 0 < k ∧
      ∀ d, 0 < d → d ≤ l → 1 / k ≤ deflBound s.beam d := by
  have hb' : BedOk (prep eig false .trans s) := hb.stage "trans" s.mode s.L s.a s.tc s.td s.phi s.ratio
  have hc' : ShearOk (prep eig false .trans s) := hc.stage "trans" s.mode s.L s.a s.tc s.td s.phi s.ratio
  obtain ⟨k, Z, h1, h2, h3⟩ := substitute_response eig l hl false .trans (by simp) s hf hb' hc'
  simp only [reduceCtorEq, if_false] at h2 h3
  have eb : s.auxBeam false = s.beam := rfl
  rw [eb] at h2 h3
  set q := (s.loads 0).qn + (s.loads 0).pn with hqd
  have hco := hb.stiff.coercive hc
  have hkn : 0 < s.beam.kn := hco.kn
  have hlt : q / s.beam.kn < -Z 0 2 := by
    rcases hql with hql | ⟨r, hr, hql⟩
    · refine lt_of_lt_of_le ?_ (h2.deflection_ge hco hl)
      rw [div_lt_div_iff₀ hkn (by positivity)]
      nlinarith
    · refine lt_of_lt_of_le ?_ (h2.deflection_ge_decay hco hl hr)
      have hS := hco.Sred_pos
      have : 0 < s.beam.decay r := by
        unfold Spec.Beam.decay
        positivity
      rw [div_lt_div_iff₀ hkn this]
      linarith
  have hneg : Z 0 2 + q / s.beam.kn < 0 := by linarith
  have hk : k = 1 / -(Z 0 2 + q / s.beam.kn) := by
    rw [h3, abs_of_neg (one_div_neg.mpr hneg), one_div_neg_eq_neg_one_div]
  refine ⟨k, h1, ?_, fun d hd hdl => ?_⟩
  · rw [hk]
    have : 0 < -(Z 0 2 + q / s.beam.kn) := by linarith
    positivity
  · rw [hk, one_div_one_div]
    have h4 := h2.deflection_le hco hd hdl
    have : 0 ≤ q / s.beam.kn := by positivity
    unfold deflBound
    linarith

/-! ## The polynomials -/

/-- Deflection of the free end of an unsupported length `x` under unit line load. -/
noncomputable def tipDeflection (bs ss kR kN x : ℝ) : ℝ :=
  1 / (8 * bs) * x ^ 4 + 1 / (2 * kR) * x ^ 3 + 1 / (2 * ss) * x ^ 2 + 1 / kN * x

section
variable {bs ss kR kN kr tc qn x : ℝ}

theorem polyA2_neg (hbs : 0 < bs) (hss : 0 < ss) (hR : 0 < kR) (hN : 0 < kN) (hq : 0 < qn) (hx : 0 < x)
    (ht : qn * tipDeflection bs ss kR kN x ≤ tc) :
    ss ^ 2 * kR * kN * qn * x ^ 6 + 6 * ss ^ 2 * bs * kN * qn * x ^ 5 + 30 * bs * ss * kR * kN * qn * x ^ 4
      + 24 * bs * qn * (2 * ss ^ 2 * kR + 3 * bs * ss * kN) * x ^ 3
      + 72 * bs * (bs * qn * (ss ^ 2 + kR * kN) - ss ^ 2 * kR * kN * tc) * x ^ 2
      + 144 * bs * ss * (bs * kR * qn - bs * ss * kN * tc) * x + -144 * bs ^ 2 * ss * kR * kN * tc < 0 := by
  have hy : ∀ T, ss ^ 2 * kR * kN * qn * x ^ 6 + 6 * ss ^ 2 * bs * kN * qn * x ^ 5 + 30 * bs * ss * kR * kN * qn * x ^ 4
      + 24 * bs * qn * (2 * ss ^ 2 * kR + 3 * bs * ss * kN) * x ^ 3
      + 72 * bs * (bs * qn * (ss ^ 2 + kR * kN) - ss ^ 2 * kR * kN * T) * x ^ 2
      + 144 * bs * ss * (bs * kR * qn - bs * ss * kN * T) * x + -144 * bs ^ 2 * ss * kR * kN * T
      = -(qn * (8 * ss ^ 2 * kR * kN * x ^ 6 + 48 * bs * ss ^ 2 * kN * x ^ 5 + 24 * bs * ss * kR * kN * x ^ 4
      + 72 * bs ^ 2 * ss ^ 2 * kN / kR * x ^ 4 + 24 * bs * ss ^ 2 * kR * x ^ 3 + 72 * bs ^ 2 * ss * kN * x ^ 3
      + 72 * bs ^ 2 * ss ^ 2 * x ^ 2)) - (72 * bs * ss ^ 2 * kR * kN * x ^ 2 + 144 * bs ^ 2 * ss ^ 2 * kN * x
      + 144 * bs ^ 2 * ss * kR * kN) * (T - qn * tipDeflection bs ss kR kN x) := by
    intro T
    unfold tipDeflection
    field_simp
    ring
  rw [hy]
  have p1 : 0 < qn * (8 * ss ^ 2 * kR * kN * x ^ 6 + 48 * bs * ss ^ 2 * kN * x ^ 5 + 24 * bs * ss * kR * kN * x ^ 4
      + 72 * bs ^ 2 * ss ^ 2 * kN / kR * x ^ 4 + 24 * bs * ss ^ 2 * kR * x ^ 3 + 72 * bs ^ 2 * ss * kN * x ^ 3
      + 72 * bs ^ 2 * ss ^ 2 * x ^ 2) := by positivity
  have p2 : 0 ≤ (72 * bs * ss ^ 2 * kR * kN * x ^ 2 + 144 * bs ^ 2 * ss ^ 2 * kN * x + 144 * bs ^ 2 * ss * kR * kN)
      * (tc - qn * tipDeflection bs ss kR kN x) := mul_nonneg (by positivity) (by linarith)
  linarith

theorem polyA2_pos (hbs : 0 < bs) (hss : 0 < ss) (hR : 0 < kR) (hN : 0 < kN) (hq : 0 < qn) (hx : 0 < x)
    (ht : 72 * bs * tc ≤ qn * x ^ 4) :
    0 < ss ^ 2 * kR * kN * qn * x ^ 6 + 6 * ss ^ 2 * bs * kN * qn * x ^ 5 + 30 * bs * ss * kR * kN * qn * x ^ 4
      + 24 * bs * qn * (2 * ss ^ 2 * kR + 3 * bs * ss * kN) * x ^ 3
      + 72 * bs * (bs * qn * (ss ^ 2 + kR * kN) - ss ^ 2 * kR * kN * tc) * x ^ 2
      + 144 * bs * ss * (bs * kR * qn - bs * ss * kN * tc) * x + -144 * bs ^ 2 * ss * kR * kN * tc := by
  have e : ss ^ 2 * kR * kN * qn * x ^ 6 + 6 * ss ^ 2 * bs * kN * qn * x ^ 5 + 30 * bs * ss * kR * kN * qn * x ^ 4
      + 24 * bs * qn * (2 * ss ^ 2 * kR + 3 * bs * ss * kN) * x ^ 3
      + 72 * bs * (bs * qn * (ss ^ 2 + kR * kN) - ss ^ 2 * kR * kN * tc) * x ^ 2
      + 144 * bs * ss * (bs * kR * qn - bs * ss * kN * tc) * x + -144 * bs ^ 2 * ss * kR * kN * tc
      = (ss ^ 2 * kR * kN * x ^ 2 + 2 * bs * ss ^ 2 * kN * x + 2 * bs * ss * kR * kN) * (qn * x ^ 4 - 72 * bs * tc)
        + qn * (4 * ss ^ 2 * bs * kN * x ^ 5 + 28 * bs * ss * kR * kN * x ^ 4
          + 24 * bs * (2 * ss ^ 2 * kR + 3 * bs * ss * kN) * x ^ 3 + 72 * bs ^ 2 * (ss ^ 2 + kR * kN) * x ^ 2
          + 144 * bs ^ 2 * ss * kR * x) := by ring
  rw [e]
  have p1 : 0 ≤ (ss ^ 2 * kR * kN * x ^ 2 + 2 * bs * ss ^ 2 * kN * x + 2 * bs * ss * kR * kN)
      * (qn * x ^ 4 - 72 * bs * tc) := mul_nonneg (by positivity) (by linarith)
  have p2 : 0 < qn * (4 * ss ^ 2 * bs * kN * x ^ 5 + 28 * bs * ss * kR * kN * x ^ 4
          + 24 * bs * (2 * ss ^ 2 * kR + 3 * bs * ss * kN) * x ^ 3 + 72 * bs ^ 2 * (ss ^ 2 + kR * kN) * x ^ 2
          + 144 * bs ^ 2 * ss * kR * x) := by positivity
  linarith

theorem polyLC_neg (hbs : 0 < bs) (hss : 0 < ss) (hR : 0 < kR) (hN : 0 < kN) (hr : 0 < kr) (hq : 0 < qn) (hx : 0 < x)
    (ht : qn * tipDeflection bs ss kR kN x ≤ tc) :
    ss ^ 2 * kR * kN * qn * x ^ 6 + 6 * ss * kN * qn * (bs * ss + kR * kr) * x ^ 5
      + 30 * bs * ss * kN * qn * (kR + kr) * x ^ 4
      + 24 * bs * qn * (2 * ss ^ 2 * kR + 3 * bs * ss * kN + 3 * kR * kr * kN) * x ^ 3
      + 72 * bs * (bs * qn * (ss ^ 2 + kN * (kR + kr)) + ss * kR * (2 * kr * qn - ss * kN * tc)) * x ^ 2
      + 144 * bs * ss * (bs * qn * (kR + kr) - kN * tc * (bs * ss + kR * kr)) * x
      + -144 * bs ^ 2 * ss * kN * tc * (kR + kr) < 0 := by
  have hy : ss ^ 2 * kR * kN * qn * x ^ 6 + 6 * ss * kN * qn * (bs * ss + kR * kr) * x ^ 5
      + 30 * bs * ss * kN * qn * (kR + kr) * x ^ 4
      + 24 * bs * qn * (2 * ss ^ 2 * kR + 3 * bs * ss * kN + 3 * kR * kr * kN) * x ^ 3
      + 72 * bs * (bs * qn * (ss ^ 2 + kN * (kR + kr)) + ss * kR * (2 * kr * qn - ss * kN * tc)) * x ^ 2
      + 144 * bs * ss * (bs * qn * (kR + kr) - kN * tc * (bs * ss + kR * kr)) * x
      + -144 * bs ^ 2 * ss * kN * tc * (kR + kr)
      = -(qn * (8 * ss ^ 2 * kR * kN * x ^ 6 + 48 * bs * ss ^ 2 * kN * x ^ 5 + 24 * bs * ss * kR * kN * x ^ 4
        + 24 * bs * ss ^ 2 * kR * x ^ 3 + 72 * bs ^ 2 * ss * kN * x ^ 3
        + 72 * bs ^ 2 * ss ^ 2 * x ^ 2 + 12 * ss * kN * kR * kr * x ^ 5 + 60 * bs * ss * kN * kr * x ^ 4
        + 72 * bs ^ 2 * ss ^ 2 * kN / kR * x ^ 4 + 72 * bs ^ 2 * ss * kN * kr / kR * x ^ 3))
        - (72 * bs * ss ^ 2 * kR * kN * x ^ 2 + 144 * bs * ss * kN * (bs * ss + kR * kr) * x
        + 144 * bs ^ 2 * ss * kN * (kR + kr)) * (tc - qn * tipDeflection bs ss kR kN x) := by
    unfold tipDeflection
    field_simp
    ring
  rw [hy]
  have p1 : 0 < qn * (8 * ss ^ 2 * kR * kN * x ^ 6 + 48 * bs * ss ^ 2 * kN * x ^ 5 + 24 * bs * ss * kR * kN * x ^ 4
        + 24 * bs * ss ^ 2 * kR * x ^ 3 + 72 * bs ^ 2 * ss * kN * x ^ 3
        + 72 * bs ^ 2 * ss ^ 2 * x ^ 2 + 12 * ss * kN * kR * kr * x ^ 5 + 60 * bs * ss * kN * kr * x ^ 4
        + 72 * bs ^ 2 * ss ^ 2 * kN / kR * x ^ 4 + 72 * bs ^ 2 * ss * kN * kr / kR * x ^ 3) := by positivity
  have p2 : 0 ≤ (72 * bs * ss ^ 2 * kR * kN * x ^ 2 + 144 * bs * ss * kN * (bs * ss + kR * kr) * x
        + 144 * bs ^ 2 * ss * kN * (kR + kr)) * (tc - qn * tipDeflection bs ss kR kN x) :=
    mul_nonneg (by positivity) (by linarith)
  linarith

theorem polyLC_pos (hbs : 0 < bs) (hss : 0 < ss) (hR : 0 < kR) (hN : 0 < kN) (hr : 0 < kr) (hq : 0 < qn) (hx : 0 < x)
    (ht : 72 * bs * tc ≤ qn * x ^ 4) :
    0 < ss ^ 2 * kR * kN * qn * x ^ 6 + 6 * ss * kN * qn * (bs * ss + kR * kr) * x ^ 5
      + 30 * bs * ss * kN * qn * (kR + kr) * x ^ 4
      + 24 * bs * qn * (2 * ss ^ 2 * kR + 3 * bs * ss * kN + 3 * kR * kr * kN) * x ^ 3
      + 72 * bs * (bs * qn * (ss ^ 2 + kN * (kR + kr)) + ss * kR * (2 * kr * qn - ss * kN * tc)) * x ^ 2
      + 144 * bs * ss * (bs * qn * (kR + kr) - kN * tc * (bs * ss + kR * kr)) * x
      + -144 * bs ^ 2 * ss * kN * tc * (kR + kr) := by
  have e : ss ^ 2 * kR * kN * qn * x ^ 6 + 6 * ss * kN * qn * (bs * ss + kR * kr) * x ^ 5
      + 30 * bs * ss * kN * qn * (kR + kr) * x ^ 4
      + 24 * bs * qn * (2 * ss ^ 2 * kR + 3 * bs * ss * kN + 3 * kR * kr * kN) * x ^ 3
      + 72 * bs * (bs * qn * (ss ^ 2 + kN * (kR + kr)) + ss * kR * (2 * kr * qn - ss * kN * tc)) * x ^ 2
      + 144 * bs * ss * (bs * qn * (kR + kr) - kN * tc * (bs * ss + kR * kr)) * x
      + -144 * bs ^ 2 * ss * kN * tc * (kR + kr)
      = (ss ^ 2 * kR * kN * x ^ 2 + 2 * ss * kN * (bs * ss + kR * kr) * x + 2 * bs * ss * kN * (kR + kr))
          * (qn * x ^ 4 - 72 * bs * tc)
        + qn * (4 * ss * kN * (bs * ss + kR * kr) * x ^ 5 + 28 * bs * ss * kN * (kR + kr) * x ^ 4
          + 24 * bs * (2 * ss ^ 2 * kR + 3 * bs * ss * kN + 3 * kR * kr * kN) * x ^ 3
          + 72 * bs * (bs * (ss ^ 2 + kN * (kR + kr)) + ss * kR * (2 * kr)) * x ^ 2
          + 144 * bs ^ 2 * ss * (kR + kr) * x) := by ring
  rw [e]
  have p1 : 0 ≤ (ss ^ 2 * kR * kN * x ^ 2 + 2 * ss * kN * (bs * ss + kR * kr) * x + 2 * bs * ss * kN * (kR + kr))
      * (qn * x ^ 4 - 72 * bs * tc) := mul_nonneg (by positivity) (by linarith)
  have p2 : 0 < qn * (4 * ss * kN * (bs * ss + kR * kr) * x ^ 5 + 28 * bs * ss * kN * (kR + kr) * x ^ 4
          + 24 * bs * (2 * ss ^ 2 * kR + 3 * bs * ss * kN + 3 * kR * kr * kN) * x ^ 3
          + 72 * bs * (bs * (ss ^ 2 + kN * (kR + kr)) + ss * kR * (2 * kr)) * x ^ 2
          + 144 * bs ^ 2 * ss * (kR + kr) * x) := by positivity
  linarith

theorem tip_le {R W : ℝ} (hR : 1 / kR ≤ R) (hW : 1 / kN ≤ W) (hx : 0 < x) :
    tipDeflection bs ss kR kN x ≤ 1 / (8 * bs) * x ^ 4 + R / 2 * x ^ 3 + 1 / (2 * ss) * x ^ 2 + W * x := by
  unfold tipDeflection
  have h1 : 1 / (2 * kR) = 1 / kR / 2 := by rw [div_div, mul_comm]
  have h2 : 1 / (2 * kR) * x ^ 3 ≤ R / 2 * x ^ 3 := by
    rw [h1]; exact mul_le_mul_of_nonneg_right (by linarith) (by positivity)
  have h3 : 1 / kN * x ≤ W * x := mul_le_mul_of_nonneg_right hW hx.le
  linarith

end

/-! ## Success -/

/-- What the object and the geometry have to satisfy. `tipBound` bounds the
deflection of an unsupported length of `L / 1000`. -/
noncomputable def tipBound (s : Self) (d x : ℝ) : ℝ :=
  1 / (8 * bsOf s) * x ^ 4 + rotBound s.beam d / 2 * x ^ 3 + 1 / (2 * s.kA55) * x ^ 2 + deflBound s.beam d * x

/-- Object with touchdown for which the stage limits are bracketed: the collapse
height `tc` is more than a thousandth of the length bends down, and less than a
ninth of what a clamped slab of nearly the full length would bend. -/
structure Bracketed (num : Numerics) (s : Self) (d : ℝ) : Prop where
  runs : BrentRuns num
  fresh : EigFresh num.eig s
  bed : BedOk s
  shear : ShearOk s
  restBed : BedOk (prep num.eig true .rot s)
  restShear : ShearOk (prep num.eig true .rot s)
  qn : 0 < calcQn s
  q0 : 0 ≤ (s.loads 0).qn + (s.loads 0).pn
  load : Light s.beam ((s.loads 0).qn + (s.loads 0).pn) s.L
  dpos : 0 < d
  a : 0 ≤ s.a
  aL : s.a + d ≤ s.L
  low : calcQn s * tipBound s d (s.L / 1000) < s.tc
  high : 72 * bsOf s * s.tc ≤ calcQn s * (999 / 1000 * s.L) ^ 4
  dL : d ≤ 999 / 1000 * s.L

theorem bsOf_pos {s : Self} (h : BedOk s) (hc : ShearOk s) : 0 < bsOf s := by
  have := (h.stiff.coercive hc).Dred_pos
  have e : bsOf s = s.beam.Dred := by
    unfold bsOf Spec.Beam.Dred
    show _ = s.D11 - s.B11 ^ 2 / s.A11
    ring
  rw [e]; exact this

/-- Both polynomials can be evaluated on the bracket and change their sign. -/
theorem calcA_brackets {num : Numerics} {s : Self} {d : ℝ} (h : Bracketed num s d) :
    s.L / 1000 ≤ 999 / 1000 * s.L ∧
    ∀ f ∈ [polyA1 num.eig (bsOf s) s.kA55 s.L s.tc (calcQn s), polyA2 num.eig (bsOf s) s.kA55 s.L s.tc (calcQn s)],
      (∀ x, s.L / 1000 ≤ x → x ≤ 999 / 1000 * s.L → ∃ y, f x s = (.ok y, s)) ∧
      ∃ fa fb, f (s.L / 1000) s = (.ok fa, s) ∧ f (999 / 1000 * s.L) s = (.ok fb, s) ∧ fa < 0 ∧ 0 < fb := by
  have hbs := bsOf_pos h.bed h.shear
  have hss := h.bed.stiff.kA55
  have hL : 0 < s.L := by have := h.a; have := h.aL; have := h.dpos; linarith
  have hx : 0 < s.L / 1000 := by positivity
  have hxL : s.L / 1000 ≤ 999 / 1000 * s.L := by linarith
  refine ⟨hxL, ?_⟩
  have spr : ∀ x, s.L / 1000 ≤ x → x ≤ 999 / 1000 * s.L → ∃ kR kN,
      substituteStiffness num.eig (s.L - x) false .rot s = (.ok kR, s) ∧
      substituteStiffness num.eig (s.L - x) false .trans s = (.ok kN, s) ∧ 0 < kR ∧ 0 < kN ∧
      (d ≤ s.L - x → 1 / kR ≤ rotBound s.beam d ∧ 1 / kN ≤ deflBound s.beam d) := by
    intro x h1 h2
    have hl : 0 < s.L - x := by linarith
    obtain ⟨kR, a1, a2, a3⟩ := rot_spring num.eig s h.fresh h.bed h.shear (s.L - x) hl
    obtain ⟨kN, b1, b2, b3⟩ := trans_spring num.eig s h.fresh h.bed h.shear (s.L - x) hl h.q0 (h.load.mono h.q0 (by linarith))
    exact ⟨kR, kN, a1, b1, a2, b2, fun hd => ⟨a3 d h.dpos hd, b3 d h.dpos hd⟩⟩
  have hhi := h.high
  obtain ⟨kR, kN, r1, n1, kRp, kNp, hbd⟩ := spr (s.L / 1000) le_rfl hxL
  obtain ⟨kR', kN', r1', n1', kRp', kNp', -⟩ := spr (999 / 1000 * s.L) hxL le_rfl
  obtain ⟨bR, bN⟩ := hbd (by have := h.dL; linarith)
  have hq := h.qn
  have htip : calcQn s * tipDeflection (bsOf s) s.kA55 kR kN (s.L / 1000) < s.tc :=
    lt_of_le_of_lt (mul_le_mul_of_nonneg_left (tip_le bR bN hx) h.qn.le) h.low
  have htc : 0 < s.tc := by
    refine lt_of_le_of_lt ?_ htip
    unfold tipDeflection
    positivity
  intro f hf
  simp only [List.mem_cons, List.not_mem_nil, or_false] at hf
  rcases hf with rfl | rfl
  · refine ⟨fun x h1 h2 => ?_, tipDeflection (bsOf s) s.kA55 kR kN (s.L / 1000) + -s.tc / calcQn s,
      tipDeflection (bsOf s) s.kA55 kR' kN' (999 / 1000 * s.L) + -s.tc / calcQn s, ?_, ?_, ?_, ?_⟩
    · obtain ⟨k1, k2, e1, e2, -⟩ := spr x h1 h2
      unfold polyA1
      rw [Py.bind_of_ok e1, Py.bind_of_ok e2]
      exact ⟨_, rfl⟩
    · unfold polyA1
      rw [Py.bind_of_ok r1, Py.bind_of_ok n1]
      rfl
    · unfold polyA1
      rw [Py.bind_of_ok r1', Py.bind_of_ok n1']
      rfl
    · rw [neg_div]
      have : tipDeflection (bsOf s) s.kA55 kR kN (s.L / 1000) < s.tc / calcQn s := by
        rw [lt_div_iff₀ hq]; linarith
      linarith
    · rw [neg_div]
      have h72 : s.tc / calcQn s < 1 / (8 * bsOf s) * (999 / 1000 * s.L) ^ 4 := by
        rw [div_lt_iff₀ hq, one_div_mul_eq_div, div_mul_eq_mul_div, lt_div_iff₀ (by positivity)]
        have : 0 < bsOf s * s.tc := by positivity
        nlinarith
      have : 1 / (8 * bsOf s) * (999 / 1000 * s.L) ^ 4 ≤ tipDeflection (bsOf s) s.kA55 kR' kN' (999 / 1000 * s.L) := by
        unfold tipDeflection
        have p1 : 0 ≤ 1 / (2 * kR') * (999 / 1000 * s.L) ^ 3 := by positivity
        have p2 : 0 ≤ 1 / (2 * s.kA55) * (999 / 1000 * s.L) ^ 2 := by positivity
        have p3 : 0 ≤ 1 / kN' * (999 / 1000 * s.L) := by positivity
        linarith
      linarith
  · refine ⟨fun x h1 h2 => ?_, _, _, ?_, ?_, polyA2_neg hbs hss kRp kNp hq hx htip.le,
      polyA2_pos hbs hss kRp' kNp' hq (by positivity) hhi⟩
    · obtain ⟨k1, k2, e1, e2, -⟩ := spr x h1 h2
      unfold polyA2
      rw [Py.bind_of_ok e1, Py.bind_of_ok e2]
      exact ⟨_, rfl⟩
    · unfold polyA2
      rw [Py.bind_of_ok r1, Py.bind_of_ok n1]
      rfl
    · unfold polyA2
      rw [Py.bind_of_ok r1', Py.bind_of_ok n1']
      rfl

theorem calcA_runs {num : Numerics} {s : Self} {d : ℝ} (h : Bracketed num s d) :
    (∃ a1, calcA1 num s = (.ok a1, s)) ∧ ∃ a2, calcA2 num s = (.ok a2, s) := by
  obtain ⟨hxL, hb⟩ := calcA_brackets h
  obtain ⟨p1, fa, fb, p2, p3, p4, p5⟩ := hb _ (List.mem_cons_self ..)
  obtain ⟨q1, ga, gb, q2, q3, q4, q5⟩ := hb _ (List.mem_cons_of_mem _ (List.mem_cons_self ..))
  constructor
  · unfold calcA1
    rw [Py.get_bind]
    exact brentq_runs h.runs hxL p1 p2 p3 (mul_nonpos_of_nonpos_of_nonneg p4.le p5.le)
  · unfold calcA2
    rw [Py.get_bind]
    exact brentq_runs h.runs hxL q1 q2 q3 (mul_nonpos_of_nonpos_of_nonneg q4.le q5.le)

theorem tipBound_mono {s : Self} {d x y : ℝ} (hb : BedOk s) (hc : ShearOk s) (hd : 0 < d) (hx : 0 ≤ x) (hxy : x ≤ y) :
    tipBound s d x ≤ tipBound s d y := by
  have hbs := bsOf_pos hb hc
  have hss := hb.stiff.kA55
  have hco := hb.stiff.coercive hc
  have h1 := hco.Dred_pos
  have h2 := hco.Sred_pos
  have h3 := hco.kn
  have r : 0 ≤ rotBound s.beam d := by unfold rotBound; positivity
  have w : 0 ≤ deflBound s.beam d := by unfold deflBound; positivity
  unfold tipBound
  gcongr

theorem calcLC_runs {num : Numerics} {s : Self} {d : ℝ} (h : Bracketed num s d) (ha : 0 < s.a)
    (high : 72 * bsOf s * s.tc ≤ calcQn s * (999 / 1000 * s.a) ^ 4) : ∃ l, calcLC num s = (.ok l, s) := by
  have hbs := bsOf_pos h.bed h.shear
  have hss := h.bed.stiff.kA55
  have hd := h.dpos
  have haL := h.aL
  have hq := h.qn
  have hx : 0 < s.a / 1000 := by positivity
  have hxL : s.a / 1000 ≤ 999 / 1000 * s.a := by linarith
  have hl : 0 < s.L - s.a := by linarith
  obtain ⟨kR, a1, kRp, a3⟩ := rot_spring num.eig s h.fresh h.bed h.shear (s.L - s.a) hl
  obtain ⟨kN, b1, kNp, b3⟩ := trans_spring num.eig s h.fresh h.bed h.shear (s.L - s.a) hl h.q0 (h.load.mono h.q0 (by linarith))
  have htip : calcQn s * tipDeflection (bsOf s) s.kA55 kR kN (s.a / 1000) ≤ s.tc :=
    (mul_le_mul_of_nonneg_left (tip_le (a3 d hd (by linarith)) (b3 d hd (by linarith)) hx) hq.le).trans ((mul_le_mul_of_nonneg_left
      (tipBound_mono h.bed h.shear hd hx.le (by linarith)) hq.le).trans h.low.le)
  have spr : ∀ x, s.a / 1000 ≤ x → x ≤ 999 / 1000 * s.a → ∃ kr,
      substituteStiffness num.eig (s.a - x) true .rot s = (.ok kr, s) ∧ 0 < kr := fun x h1 h2 =>
    rest_spring num.eig s h.fresh h.restBed h.restShear (s.a - x) (by linarith)
  obtain ⟨kr, e1, krp⟩ := spr (s.a / 1000) le_rfl hxL
  obtain ⟨kr', e1', krp'⟩ := spr (999 / 1000 * s.a) hxL le_rfl
  unfold calcLC
  rw [Py.get_bind]
  refine brentq_runs h.runs hxL (fun x h1 h2 => ?_) (f := polyLC num.eig (bsOf s) s.kA55 s.L s.a s.tc (calcQn s)) ?_ ?_
      (mul_nonpos_of_nonpos_of_nonneg (polyLC_neg hbs hss kRp kNp krp hq hx htip).le
      (polyLC_pos hbs hss kRp kNp krp' hq (by positivity) high).le)
  · obtain ⟨k, e, -⟩ := spr x h1 h2
    unfold polyLC
    rw [Py.bind_of_ok a1, Py.bind_of_ok b1, Py.bind_of_ok e]
    exact ⟨_, rfl⟩
  · unfold polyLC
    rw [Py.bind_of_ok a1, Py.bind_of_ok b1, Py.bind_of_ok e1]
    rfl
  · unfold polyLC
    rw [Py.bind_of_ok a1, Py.bind_of_ok b1, Py.bind_of_ok e1']
    rfl

/-- C24, success. When the stage limits are bracketed, and the crack is long
enough for stage C whenever it is beyond the second limit, the touchdown
computation raises no exception and assigns the stage by the limits. -/
theorem C24_computation_succeeds (num : Numerics) (L a cf phi ratio d : ℝ) (s : Self)
    (h : Bracketed num (setTouchdownAttributes L a cf phi ratio s) d) (ht : s.touchdown = true) :
    let s0 := setTouchdownAttributes L a cf phi ratio s
    ∃ a1 a2, calcA1 num s0 = (.ok a1, s0) ∧ calcA2 num s0 = (.ok a2, s0) ∧
      ((a1 < a → a2 < a → 72 * bsOf s * s0.tc ≤ calcQn s0 * (999 / 1000 * a) ^ 4) →
        ∃ s', calcTouchdownSystem num L a cf phi ratio s = (.ok (), s') ∧
          s'.mode = if a ≤ a1 then .A else if a ≤ a2 then .B else .C) := by
  intro s0
  obtain ⟨⟨a1, h1⟩, a2, h2⟩ := calcA_runs h
  refine ⟨a1, a2, h1, h2, fun high => ?_⟩
  unfold calcTouchdownSystem
  rw [Py.modify_bind]
  have t0 : s0.touchdown = true := ht
  have a0 : s0.a = a := rfl
  have b0 : bsOf s0 = bsOf s := rfl
  have stg : ∀ md : Mode, Bracketed num ({ s0 with mode := md } : Self) d := fun md =>
    ⟨h.runs, h.fresh.stage s0.system md s0.L s0.a s0.tc s0.td s0.phi s0.ratio,
      h.bed.stage s0.system md s0.L s0.a s0.tc s0.td s0.phi s0.ratio,
      h.shear.stage s0.system md s0.L s0.a s0.tc s0.td s0.phi s0.ratio,
      h.restBed.stage "rot" md s0.L s0.a s0.tc s0.td s0.phi s0.ratio,
      h.restShear.stage "rot" md s0.L s0.a s0.tc s0.td s0.phi s0.ratio,
      h.qn, h.q0, h.load, h.dpos, h.a, h.aL, h.low, h.high, h.dL⟩
  have e : calcTouchdownMode num s0 = (.ok (), ({ s0 with mode := if a ≤ a1 then .A else if a ≤ a2 then .B else .C } : Self)) :=
    (C24_stage_total num s0).2 a1 a2 t0 h1 h2
  rw [Py.bind_of_ok e]
  have len : ∀ md : Mode, md ≠ .C → ∃ s', calcTouchdownLength num ({ s0 with mode := md } : Self) = (.ok (), s')
      ∧ s'.mode = md := by
    intro md hm
    unfold calcTouchdownLength
    rw [Py.get_bind]
    cases md with
    | unset => exact ⟨_, rfl, rfl⟩
    | A => exact ⟨_, rfl, rfl⟩
    | B => exact ⟨_, rfl, rfl⟩
    | C => exact absurd rfl hm
  by_cases c1 : a ≤ a1
  · rw [if_pos c1]; exact len .A (by simp)
  by_cases c2 : a ≤ a2
  · rw [if_neg c1, if_pos c2]; exact len .B (by simp)
  rw [if_neg c1, if_neg c2]
  have ha : 0 < a := by
    have hL : 0 < s0.L := by have := h.a; have := h.aL; have := h.dpos; linarith
    have := h1
    unfold calcA1 at this
    rw [Py.get_bind] at this
    have := (brentq_bracket h.runs.inside (by linarith) this).1
    have p : 0 < s0.L / 1000 := by positivity
    linarith [not_le.mp c1]
  obtain ⟨l, hl⟩ := calcLC_runs (stg .C) ha (high (not_le.mp c1) (not_le.mp c2))
  unfold calcTouchdownLength
  rw [Py.get_bind]
  show ∃ s', (calcLC num >>= fun l => Py.modify fun s => { s with td := l }) _ = _ ∧ _
  rw [Py.bind_of_ok hl]
  exact ⟨_, rfl, rfl⟩

/-! ## A concrete case -/

/-- Eigensolver of the demonstration, root finder that returns the middle of the
bracket after both ends. -/
noncomputable def midNum : Numerics := ⟨stdEig, fun a b _ => .inr ((a + b) / 2)⟩

theorem midNum_runs : BrentRuns midNum := by
  refine ⟨fun a b hist r hab h => ?_, fun a b hist x hab h => ?_, fun a b hist _ => ⟨_, rfl⟩⟩
  · simp only [midNum, Sum.inr.injEq] at h
    constructor <;> linarith
  · simp [midNum] at h

/-- Load of the slab of `comp`. -/
theorem demo_load (system : String) (td : Bool) (phi : ℝ) :
    ((demo stdEig system td).loads phi).qn + ((demo stdEig system td).loads phi).pn
      = 240 * 200 * 9810 / 10 ^ 12 * Real.cos (deg2rad phi) := by
  obtain ⟨h1, h2, h3, h4, h5, h6, h7, h8, h9, h10, h11, h12, -⟩ := demo_fields stdEig system td
  simp only [Self.loads, getWeightLoad, getSurfaceLoad, h10, h11, h12, compLayer]
  norm_num

theorem bracketed_of {num : Numerics} (hr : BrentRuns num) {s : Self} (hL : s.L = 2000 ∨ s.L = 100000)
    (h1 : s.kn = 2 / 225) (h2 : s.kt = 1 / 300) (h4 : s.B11 = 0) (h5 : s.D11 = 33472000 / 9)
    (h6 : s.kA55 = 1046 / 3) (h8 : s.t = 30)
    (hq : (s.loads 0).qn + (s.loads 0).pn = 240 * 200 * 9810 / 10 ^ 12)
    (q1 : 4 / 5 * (240 * 200 * 9810 / 10 ^ 12) ≤ calcQn s) (q2 : calcQn s ≤ 240 * 200 * 9810 / 10 ^ 12)
    (t1 : 14 ≤ s.tc) (t2 : s.tc ≤ 15) (hbed : BedOk s) (hsh : ShearOk s) (hf : EigFresh num.eig s)
    (r1 : BedOk (prep num.eig true .rot s)) (r2 : ShearOk (prep num.eig true .rot s))
    (ha : 0 ≤ s.a) (haL : s.a + 200 ≤ s.L) : Bracketed num s 200 := by
  have ebs : bsOf s = 33472000 / 9 := by
    unfold bsOf
    rw [h4, h5]; norm_num
  have eD : s.beam.Dred = 33472000 / 9 := by
    have : s.beam.Dred = s.D11 - s.B11 ^ 2 / s.A11 := rfl
    rw [this, h4, h5]; norm_num
  have eS : s.beam.Sred = 1046 / 3 - 3 / 16 := by
    have : s.beam.Sred = s.kA55 - s.kt * s.t ^ 2 / 16 := rfl
    rw [this, h6, h2, h8]; norm_num
  have ek : s.beam.kn = 2 / 225 := h1
  have q0 : 0 < calcQn s := lt_of_lt_of_le (by norm_num) q1
  refine ⟨hr, hf, hbed, hsh, r1, r2, q0, ?_, ?_, by norm_num, ha, haL, ?_, ?_, ?_⟩
  · rw [hq]; norm_num
  · refine .inr ⟨200, by norm_num, ?_⟩
    have e : s.beam.S = 1046 / 3 := h6
    unfold Spec.Beam.decay
    rw [hq, ek, eS, e]
    norm_num
  · refine lt_of_le_of_lt (mul_le_mul_of_nonneg_right q2 ?_) (lt_of_lt_of_le ?_ t1)
    all_goals
      unfold tipBound rotBound deflBound
      rw [ebs, h6, eD, eS, ek]
      rcases hL with e | e <;> rw [e] <;> norm_num
  · refine (mul_le_mul_of_nonneg_left t2 (by rw [ebs]; norm_num)).trans (le_trans ?_ (mul_le_mul_of_nonneg_right q1 ?_))
    all_goals
      try rw [ebs]
      rcases hL with e | e <;> rw [e] <;> norm_num
  · rcases hL with e | e <;> rw [e] <;> norm_num

theorem prep_restage {eig : EigSolver} {s : Self} {sys sys' : String} {mode mode' : Mode} {L a tc td phi L' a' tc' td' phi' ratio : ℝ}
    (h : BedOk (prep eig true .rot (s.stage sys mode L a tc td phi ratio)) ∧
      ShearOk (prep eig true .rot (s.stage sys mode L a tc td phi ratio))) :
    BedOk (prep eig true .rot (s.stage sys' mode' L' a' tc' td' phi' ratio)) ∧
      ShearOk (prep eig true .rot (s.stage sys' mode' L' a' tc' td' phi' ratio)) :=
  ⟨h.1.stage "rot" mode' L' a' tc' td' phi' ratio, h.2.stage "rot" mode' L' a' tc' td' phi' ratio⟩

theorem cos_le_load {q c : ℝ} (hq : 0 ≤ q) (h1 : 4 / 5 ≤ c) (h2 : c ≤ 1) : 4 / 5 * q ≤ q * c ∧ q * c ≤ q := by
  constructor <;> nlinarith

/-- Height left by the collapsed layer of the demonstration. -/
theorem demo_collapse (phi : ℝ) (h : 4 / 5 ≤ Real.cos (deg2rad phi)) :
    14 ≤ Spec.collapseHeight (demo stdEig "pst-" true) (1 / 2) phi ∧
      Spec.collapseHeight (demo stdEig "pst-" true) (1 / 2) phi ≤ 15 := by
  obtain ⟨h1, -, -, -, -, -, -, h8, -⟩ := demo_fields stdEig "pst-" true
  unfold Spec.collapseHeight
  rw [demo_load, h1, h8]
  obtain ⟨b1, b2⟩ := cos_le_load (q := 240 * 200 * 9810 / 10 ^ 12) (by norm_num) h (Real.cos_le_one _)
  generalize 240 * 200 * 9810 / 10 ^ 12 * Real.cos (deg2rad phi) = q at *
  constructor
  · have : q / (2 / 225) ≤ 1 := by rw [div_le_one (by norm_num)]; refine b2.trans (by norm_num)
    linarith
  · have : 0 ≤ q / (2 / 225) := div_nonneg (le_trans (by norm_num) b1) (by norm_num)
    linarith

/-- The touchdown PST of the profile `comp`, column of 2 m or 100 m, moderate
inclination `phi`, previous inclination `psi`. -/
theorem demo_bracketed' {num : Numerics} (hn : BrentRuns num) (he : num.eig = stdEig) {L : ℝ} (hL : L = 2000 ∨ L = 100000)
    (phi psi : ℝ) (hphi : 4 / 5 ≤ Real.cos (deg2rad phi)) (hpsi : 4 / 5 ≤ Real.cos (deg2rad psi))
    (mode : Mode) (a td : ℝ) (ha : 0 ≤ a) (haL : a + 200 ≤ L) :
    Bracketed num ((demo stdEig "pst-" true).stage (demo stdEig "pst-" true).system mode L a
      (Spec.collapseHeight (demo stdEig "pst-" true) (1 / 2) psi) td phi 1000) 200 := by
  obtain ⟨h1, h2, h3, h4, h5, h6, h7, h8, h9, h10, h11, h12, -⟩ := demo_fields stdEig "pst-" true
  have hq := demo_load "pst-" true 0
  have hqp := demo_load "pst-" true phi
  obtain ⟨t1, t2⟩ := demo_collapse psi hpsi
  have hrest := pstDemo_rest .A
  have hr := prep_restage (sys' := (demo stdEig "pst-" true).system) (mode' := mode)
    (L' := L) (a' := a) (tc' := Spec.collapseHeight (demo stdEig "pst-" true) (1 / 2) psi) (td' := td) (phi' := phi)
    (s := demo stdEig "pst-" true) (eig := stdEig) ⟨hrest.bed, hrest.shear⟩
  obtain ⟨b1, b2⟩ := cos_le_load (q := 240 * 200 * 9810 / 10 ^ 12) (by norm_num) hphi (Real.cos_le_one _)
  have hqn : calcQn ((demo stdEig "pst-" true).stage (demo stdEig "pst-" true).system mode L a
      (Spec.collapseHeight (demo stdEig "pst-" true) (1 / 2) psi) td phi 1000)
      = ((demo stdEig "pst-" true).loads phi).qn + ((demo stdEig "pst-" true).loads phi).pn := rfl
  refine bracketed_of hn hL h1 h2 h4 h5 h6 h8 ?_ (by rw [hqn, hqp]; exact b1) (by rw [hqn, hqp]; exact b2) t1 t2
    ((demo_bedOk "pst-" true).stage _ _ _ _ _ _ _ _) ((demo_shear stdEig "pst-" true).stage _ _ _ _ _ _ _ _)
    (by rw [he]; exact (demo_ready _ _ _).fresh.eigFresh.stage _ _ _ _ _ _ _ _)
    (by rw [he]; exact hr.1) (by rw [he]; exact hr.2) ha haL
  refine hq.trans ?_
  simp [deg2rad]

theorem demo_bracketed (a : ℝ) (ha : 0 < a) (haL : a ≤ 1800) :
    Bracketed midNum (setTouchdownAttributes 2000 a (1 / 2) 0 1000 (demo stdEig "pst-" true)) 200 :=
  demo_bracketed' midNum_runs rfl (.inl rfl) 0 0 (by norm_num [deg2rad]) (by norm_num [deg2rad]) _ a _ ha.le (by linarith)

theorem brentq_mid {f : ℝ → Py ℝ} {a b : ℝ} {s : Self} {fa fb : ℝ} (ha : f a s = (.ok fa, s)) (hb : f b s = (.ok fb, s))
    (h1 : fa < 0) (h2 : 0 < fb) : brentq midNum f a b s = (.ok ((a + b) / 2), s) := by
  unfold brentq
  rw [Py.bind_of_ok ha, Py.bind_of_ok hb, if_neg h1.ne, if_neg h2.ne', if_neg (by nlinarith)]
  rfl

theorem mid_limits {s : Self} {d : ℝ} (h : Bracketed midNum s d) :
    calcA1 midNum s = (.ok (s.L / 2), s) ∧ calcA2 midNum s = (.ok (s.L / 2), s) := by
  obtain ⟨hxL, hb⟩ := calcA_brackets h
  obtain ⟨p1, fa, fb, p2, p3, p4, p5⟩ := hb _ (List.mem_cons_self ..)
  obtain ⟨q1, ga, gb, q2, q3, q4, q5⟩ := hb _ (List.mem_cons_of_mem _ (List.mem_cons_self ..))
  have e : (s.L / 1000 + 999 / 1000 * s.L) / 2 = s.L / 2 := by ring
  constructor
  · unfold calcA1
    rw [Py.get_bind, brentq_mid p2 p3 p4 p5, e]
  · unfold calcA2
    rw [Py.get_bind, brentq_mid q2 q3 q4 q5, e]

/-- Touchdown PST of the profile `comp`, column of 2 m, crack length `a`: the
segments are computed, with a root finder that locates both limits at 1 m. -/
theorem demo_segments (a : ℝ) (ha : 0 < a) (haL : a ≤ 1800) (hC : 1000 < a → 1750 ≤ a) :
    ∃ g s', calcSegments midNum [] [] [] [] 2000 a 0 0 (1 / 2) 1000 (demo stdEig "pst-" true) = (.ok g, s') ∧
      s'.mode = if a ≤ 1000 then .A else .C := by
  have hbr := demo_bracketed a ha haL
  have ht : (demo stdEig "pst-" true).touchdown = true := (demo_fields stdEig "pst-" true).2.2.2.2.2.2.2.2.2.2.2.2.2.2.1
  have hcn : (demo stdEig "pst-" true).hasContact = true := (demo_fields stdEig "pst-" true).2.2.2.2.2.2.2.2.2.2.2.2.2.2.2
  have hsys : (demo stdEig "pst-" true).system = "pst-" := (demo_fields stdEig "pst-" true).2.2.2.2.2.2.2.2.2.2.2.2.2.1
  obtain ⟨a1, a2, h1, h2, h3⟩ := C24_computation_succeeds midNum 2000 a (1 / 2) 0 1000 200 _ hbr ht
  obtain ⟨m1, m2⟩ := mid_limits hbr
  have l1 : a1 = 2000 / 2 := by
    rw [m1] at h1
    simp only [Prod.mk.injEq, Except.ok.injEq, and_true] at h1
    exact h1.symm
  have l2 : a2 = 2000 / 2 := by
    rw [m2] at h2
    simp only [Prod.mk.injEq, Except.ok.injEq, and_true] at h2
    exact h2.symm
  rw [l1, l2] at h3
  have hh := hbr.high
  obtain ⟨s', k1, k2⟩ := h3 (fun c _ => by
    have hc := hC (by linarith)
    obtain ⟨v1, -, -, v4, v5, -, -, v8, -⟩ := demo_fields stdEig "pst-" true
    have hq := demo_load "pst-" true 0
    have hq' : calcQn (demo stdEig "pst-" true) = 240 * 200 * 9810 / 10 ^ 12 := by
      have : calcQn (demo stdEig "pst-" true)
        = ((demo stdEig "pst-" true).loads 0).qn + ((demo stdEig "pst-" true).loads 0).pn := rfl
      rw [this, hq]
      simp [deg2rad]
    have hq2 : calcQn (setTouchdownAttributes 2000 a (1 / 2) 0 1000 (demo stdEig "pst-" true))
        = 240 * 200 * 9810 / 10 ^ 12 := hq'
    have hbs : bsOf (demo stdEig "pst-" true) = 33472000 / 9 := by
      unfold bsOf
      rw [v4, v5]; norm_num
    have htc : (setTouchdownAttributes 2000 a (1 / 2) 0 1000 (demo stdEig "pst-" true)).tc
        = 1 / 2 * 30 - 240 * 200 * 9810 / 10 ^ 12 / (2 / 225) := by
      have : (setTouchdownAttributes 2000 a (1 / 2) 0 1000 (demo stdEig "pst-" true)).tc
        = 1 / 2 * (demo stdEig "pst-" true).t - calcQn (demo stdEig "pst-" true) / (demo stdEig "pst-" true).kn := rfl
      rw [this, hq', v8, v1]
    rw [hq2, hbs, htc]
    have hp : (999 / 1000 * (1750 : ℝ)) ^ 4 ≤ (999 / 1000 * a) ^ 4 := pow_le_pow_left₀ (by norm_num) (by linarith) 4
    norm_num at hp ⊢
    linarith)
  have hfr := (C25_touchdown_system_frame midNum 2000 a (1 / 2) 0 1000 _ s' (demo_ready stdEig "pst-" true).fresh.eigFresh k1).1
  have hs' : s'.system = "pst-" := by rw [hfr]; exact hsys
  refine ⟨⟨[2000 - s'.a, s'.td], [0], [true, false], [true, true]⟩, s', ?_, ?_⟩
  · unfold calcSegments
    rw [Py.get_bind, if_pos hcn, Py.bind_of_ok k1, Py.get_bind, hs', if_neg (by decide), if_pos rfl]
    rfl
  · rw [k2]
    by_cases c : a ≤ 1000
    · rw [if_pos (by linarith), if_pos c]
    · rw [if_neg (by intro h; apply c; linarith), if_neg (by intro h; apply c; linarith), if_neg c]

/-- Stage A and stage C both occur. -/
example : ∃ g s', calcSegments midNum [] [] [] [] 2000 500 0 0 (1 / 2) 1000 (demo stdEig "pst-" true) = (.ok g, s') ∧
    s'.mode = .A := by
  obtain ⟨g, s', h1, h2⟩ := demo_segments 500 (by norm_num) (by norm_num) (fun h => absurd h (by norm_num))
  exact ⟨g, s', h1, by rw [h2, if_pos (by norm_num)]⟩

example : ∃ g s', calcSegments midNum [] [] [] [] 2000 1800 0 0 (1 / 2) 1000 (demo stdEig "pst-" true) = (.ok g, s') ∧
    s'.mode = .C ∧ 0 < s'.td ∧ s'.td < 1800 ∧ g.li.sum = 200 + s'.td := by
  obtain ⟨g, s', h1, h2⟩ := demo_segments 1800 (by norm_num) (by norm_num) (fun _ => by norm_num)
  have hm : s'.mode = .C := by rw [h2, if_neg (by norm_num)]
  have hf : EigFresh midNum.eig (demo stdEig "pst-" true) := (demo_ready stdEig "pst-" true).fresh.eigFresh
  have hsys : (demo stdEig "pst-" true).system = "pst-" := (demo_fields stdEig "pst-" true).2.2.2.2.2.2.2.2.2.2.2.2.2.1
  have h3 := C22_segments midNum [] [] [] [] 2000 1800 0 0 (1 / 2) 1000 _ s' g hf (by rw [hsys]; decide) h1
  obtain ⟨-, -, -, -, -, h4, -⟩ := h3
  rw [if_pos (.inl hsys)] at h4
  rcases C24_touchdown_length midNum midNum_runs.inside 2000 1800 (1 / 2) 0 1000 (by norm_num) _ s' hf
    (calcSegments_ok h1).2.1 with ⟨-, e, -⟩ | ⟨-, ⟨e | e, -⟩ | ⟨-, e1, e2⟩⟩
  · rw [hm] at e; cases e
  · rw [hm] at e; cases e
  · rw [hm] at e; cases e
  · exact ⟨g, s', h1, hm, e1, e2, by rw [h4]; ring⟩

/-- C23 is false in general: two histories of the same object, differing in the
inclination of an earlier call, after which the same call stores different
collapse heights. -/
theorem C23_violated : ∃ (num : Numerics) (s s1 s2 s3 : Self) (g1 g2 g3 : Segments),
    layeredInit num.eig "pst-" (.str "comp") false = .ok s ∧
    calcSegments num [] [] [] [] 1500 500 0 0 (1 / 2) 1000 s = (.ok g1, s1) ∧
    calcSegments num [] [] [] [] 1500 500 0 60 (1 / 2) 1000 s = (.ok g2, s2) ∧
    calcSegments num [] [] [] [] 1500 500 0 0 (1 / 2) 1000 s2 = (.ok g3, s3) ∧ s1.tc ≠ s3.tc := by
  have run : ∀ (phi : ℝ) (s : Self), s.hasContact = true → s.touchdown = false → s.system = "pst-" →
      ∃ g, calcSegments stdNum [] [] [] [] 1500 500 0 phi (1 / 2) 1000 s
        = (.ok g, s.stage s.system .A 1500 500 (Spec.collapseHeight s (1 / 2) s.phi) 500 phi 1000) := by
    intro phi s hc ht hs
    unfold calcSegments
    rw [Py.get_bind, if_pos hc, Py.bind_of_ok (touchdownSystem_off stdNum 1500 500 (1 / 2) phi 1000 s ht), Py.get_bind]
    have : (s.stage s.system .A 1500 500 (Spec.collapseHeight s (1 / 2) s.phi) 500 phi 1000).system = "pst-" := hs
    rw [this, if_neg (by decide), if_pos rfl]
    exact ⟨_, rfl⟩
  obtain ⟨v1, -, -, -, -, -, -, v8, -, -, -, -, -, v14, v15, v16⟩ := demo_fields stdEig "pst-" false
  obtain ⟨g1, h1⟩ := run 0 (demo stdEig "pst-" false) v16 v15 v14
  obtain ⟨g2, h2⟩ := run 60 (demo stdEig "pst-" false) v16 v15 v14
  obtain ⟨g3, h3⟩ := run 0 ((demo stdEig "pst-" false).stage (demo stdEig "pst-" false).system .A 1500 500
    (Spec.collapseHeight (demo stdEig "pst-" false) (1 / 2) (demo stdEig "pst-" false).phi) 500 60 1000) v16 v15 v14
  refine ⟨stdNum, _, _, _, _, g1, g2, g3, demo_init _ _ _, h1, h2, h3, ?_⟩
  show Spec.collapseHeight (demo stdEig "pst-" false) (1 / 2) 0 ≠ Spec.collapseHeight (demo stdEig "pst-" false) (1 / 2) 60
  unfold Spec.collapseHeight
  rw [demo_load, demo_load, v1]
  have e0 : deg2rad 0 = 0 := by simp [deg2rad]
  have e60 : deg2rad 60 = Real.pi / 3 := by unfold deg2rad; ring
  rw [e0, e60, Real.cos_zero, Real.cos_pi_div_three]
  intro h
  norm_num at h

end Weac
