import Verif.Props.ColumnLimits
import Verif.Props.EitherSide

/-!
# C76: saw tests in long columns, cut from the other side
-/

namespace Weac

open Spec

/-- C76, saw test cut from the other side: `C76_saw_test` holds for the mirrored test, a column with a cut from
the left at the opposite inclination. -/
theorem C76_saw_test_mirror (num : Numerics) (s : Self) (a cf phi ratio : ℝ) (hf : EigFresh num.eig s) (htd : s.touchdown = true)
    (hsys : s.system = "pst-") (ha : 0 ≤ a) (hb : BedOk s) (hc : ShearOk s) (hbr : BrentOk num)
    (h : LongColumn num.eig (setTouchdownAttributes 0 a cf phi ratio s)) {A : ℝ} (hA1 : 1 ≤ A)
    (hA : 72 * bsOf s * (setTouchdownAttributes 0 a cf phi ratio s).tc ≤ calcQn (setTouchdownAttributes 0 a cf phi ratio s) * A ^ 4)
    (unit : String) (c : ℝ) (hu : convertEnergy unit = .ok c) :
    ∃ r K, 0 < r ∧ 0 < K ∧ ∀ (δ L L' : ℝ), 0 ≤ δ → A + 1 ≤ L → a + 1 ≤ L → L ≤ L' → BrentFinds num L' δ →
      ∀ (kind : SeqKind) (li mi : List ℝ) (ki k0 : List Bool) (m : ℝ) (t t' : Self) (g g' : Segments) (a1 a2 : ℝ),
      calcA1 num ((setTouchdownAttributes 0 a cf phi ratio s).column L)
        = (.ok a1, (setTouchdownAttributes 0 a cf phi ratio s).column L) →
      calcA2 num ((setTouchdownAttributes 0 a cf phi ratio s).column L)
        = (.ok a2, (setTouchdownAttributes 0 a cf phi ratio s).column L) →
      2 * δ + K * Real.exp (-(L / r)) < |a - a1| → 2 * δ + K * Real.exp (-(L / r)) < |a - a2| →
      calcSegments num li mi ki k0 L a m (-phi) cf ratio s.mirror = (.ok g, t) →
      calcSegments num li mi ki k0 L' a m (-phi) cf ratio s.mirror = (.ok g', t') → t.mode ≠ .C →
      ∃ C C' G G', assembleAndSolve num kind (-phi) g.lists t = (.ok (C, g.lists), t) ∧
        assembleAndSolve num kind (-phi) g'.lists t' = (.ok (C', g'.lists), t') ∧
        gdif t (-phi) (segsOf C g.lists) unit true = .ok G ∧ gdif t' (-phi) (segsOf C' g'.lists) unit true = .ok G' ∧
        |G.1 - G'.1| ≤ K * Real.exp (-(L / r)) ∧ |G.2.1 - G'.2.1| ≤ K * Real.exp (-(L / r)) ∧
        |G.2.2 - G'.2.2| ≤ K * Real.exp (-(L / r)) := by
  obtain ⟨r, K, hr, hK, H⟩ := C76_saw_test num s a cf phi ratio hf htd hsys ha h hA1 hA unit c hu
  obtain ⟨r1, K1, hr1, hK1, H1⟩ := C76_stage s a cf phi ratio hf htd h hA1 hA
  refine ⟨max r r1, K + K1, lt_max_of_lt_left hr, by positivity, fun δ L L' hδ hL haL hLL hfind kind li mi ki k0 m t t' g g' a1 a2 h1 h2 d1 d2 s1 s2 hm => ?_⟩
  have dec : ∀ {k q : ℝ}, 0 < q → q ≤ max r r1 → k ≤ K + K1 → k * Real.exp (-(L / q)) ≤ (K + K1) * Real.exp (-(L / max r r1)) := by
    intro k q hq hqr hk
    refine mul_le_mul hk (Real.exp_le_exp.2 (neg_le_neg ?_)) (Real.exp_pos _).le (by positivity)
    exact div_le_div_of_nonneg_left (by linarith) hq hqr
  have z : K * Real.exp (-(L / r)) ≤ (K + K1) * Real.exp (-(L / max r r1)) := dec hr (le_max_left _ _) (by linarith)
  have z1 : K1 * Real.exp (-(L / r1)) ≤ (K + K1) * Real.exp (-(L / max r r1)) := dec hr1 (le_max_right _ _) (by linarith)
  have back : ∀ {L : ℝ} {g : Segments} {t : Self}, calcSegments num li mi ki k0 L a m (-phi) cf ratio s.mirror = (.ok g, t) →
      calcSegments num li.reverse mi.reverse ki.reverse k0.reverse L a m phi cf ratio s = (.ok g.mirror, t.mirror) := by
    intro L g t hr
    have := C82_segments hf.mirror hr
    simpa only [neg_neg, Self.mirror_mirror] using this
  obtain ⟨C, C', G, G', q1, q2, q3, q4, q5, q6, q7⟩ := H δ L L' hδ hL haL hLL hfind kind _ _ _ _ m _ _ _ _ a1 a2 h1 h2 (by linarith) (by linarith)
    (back s1) (back s2) hm
  have hm' : t'.mode ≠ .C := by
    have := (H1 num δ L L' rfl hδ hL hLL hfind _ _ a1 a2 h1 h2 (by linarith) (by linarith) (calcSegments_ok (back s1)).2.1
      (calcSegments_ok (back s2)).2.1).1
    rw [show t'.mode = t.mode from this]
    exact hm
  have side : ∀ {L : ℝ} {g : Segments} {t : Self} {C : List Vec6} {G : ℝ × ℝ × ℝ}, a < L → t.mode ≠ .C →
      calcSegments num li mi ki k0 L a m (-phi) cf ratio s.mirror = (.ok g, t) →
      assembleAndSolve num kind phi g.mirror.lists t.mirror = (.ok (C, g.mirror.lists), t.mirror) →
      gdif t.mirror phi (segsOf C g.mirror.lists) unit true = .ok G →
      ∃ D, assembleAndSolve num kind (-phi) g.lists t = (.ok (D, g.lists), t) ∧ gdif t (-phi) (segsOf D g.lists) unit true = .ok G := by
    intro L g t C G haL hm hr hC hG
    obtain ⟨C1, D, g1, e1, e2, e3, -, -, e4⟩ := C82_either_side hf hb hc (.inl hsys) hbr ha haL (back hr) (fun e => absurd e hm) kind kind
    simp only [List.reverse_reverse, Self.mirror_mirror] at e1 e3 e4
    rw [hr] at e1
    have eg : g1 = g := by simpa using e1.symm
    subst eg
    rw [hC] at e2
    have ec : C1 = C := by simpa using e2.symm
    subst ec
    exact ⟨D, e3, (e4 unit).trans hG⟩
  obtain ⟨D, p1, p2⟩ := side (by linarith) hm s1 q1 q3
  obtain ⟨D', p3, p4⟩ := side (by linarith) hm' s2 q2 q4
  exact ⟨D, D', G, G', p1, p3, p2, p4, q5.trans z, q6.trans z, q7.trans z⟩

theorem bisectNum_brent (δ : ℝ) : BrentOk (bisectNum δ) := by
  intro a b hist r _ h
  rcases bisect_cases δ a b hist with ⟨-, e⟩ | ⟨p, q, hp, -, ⟨-, e⟩ | ⟨-, e⟩⟩
  · rw [show (bisectNum δ).brent a b hist = _ from e] at h
    cases h
  · rw [show (bisectNum δ).brent a b hist = _ from e] at h
    cases h
    exact ⟨hp.2.2.2.1, hp.2.2.2.2.1⟩
  · rw [show (bisectNum δ).brent a b hist = _ from e] at h
    cases h

/-- The saw test of the demonstration cut from the left, columns of 2 m and more. -/
example : ∃ r K, 0 < r ∧ 0 < K ∧ (demo stdEig "pst-" true).mirror.system = "-pst" ∧
    ∀ (L : ℝ), 2000 ≤ L → L ≤ 100000 → ∀ (t t' : Self) (g g' : Segments) (a1 a2 : ℝ),
    calcA1 (bisectNum 0.001) ((setTouchdownAttributes 0 400 (1 / 2) 0 1000 (demo stdEig "pst-" true)).column L)
      = (.ok a1, (setTouchdownAttributes 0 400 (1 / 2) 0 1000 (demo stdEig "pst-" true)).column L) →
    calcA2 (bisectNum 0.001) ((setTouchdownAttributes 0 400 (1 / 2) 0 1000 (demo stdEig "pst-" true)).column L)
      = (.ok a2, (setTouchdownAttributes 0 400 (1 / 2) 0 1000 (demo stdEig "pst-" true)).column L) →
    2 * 0.001 + K * Real.exp (-(L / r)) < |400 - a1| → 2 * 0.001 + K * Real.exp (-(L / r)) < |400 - a2| →
    calcSegments (bisectNum 0.001) [] [] [] [] L 400 0 (-0) (1 / 2) 1000 (demo stdEig "pst-" true).mirror = (.ok g, t) →
    calcSegments (bisectNum 0.001) [] [] [] [] 100000 400 0 (-0) (1 / 2) 1000 (demo stdEig "pst-" true).mirror = (.ok g', t') →
    t.mode ≠ .C →
    ∃ C C' G G', assembleAndSolve (bisectNum 0.001) .list (-0) g.lists t = (.ok (C, g.lists), t) ∧
      assembleAndSolve (bisectNum 0.001) .list (-0) g'.lists t' = (.ok (C', g'.lists), t') ∧
      gdif t (-0) (segsOf C g.lists) "J/m^2" true = .ok G ∧ gdif t' (-0) (segsOf C' g'.lists) "J/m^2" true = .ok G' ∧
      |G.1 - G'.1| ≤ K * Real.exp (-(L / r)) := by
  have hsys := (demo_fields stdEig "pst-" true).2.2.2.2.2.2.2.2.2.2.2.2.2.1
  obtain ⟨r, K, hr, hK, H⟩ := C76_saw_test_mirror (bisectNum 0.001) (demo stdEig "pst-" true) 400 (1 / 2) 0 1000
    (demo_ready _ _ _).fresh.eigFresh (demo_fields stdEig "pst-" true).2.2.2.2.2.2.2.2.2.2.2.2.2.2.1
    hsys (by norm_num) (demo_bedOk _ _) (demo_shear _ _ _) (bisectNum_brent _) (demo_long 400) (A := 1750) (by norm_num)
    (demo_reach 400) "J/m^2" 1e3 (by simp [convertEnergy])
  refine ⟨r, K, hr, hK, ?_, fun L hL hL' t t' g g' a1 a2 h1 h2 d1 d2 h3 h4 h5 => ?_⟩
  · rw [show (demo stdEig "pst-" true).mirror.system = mirrorName (demo stdEig "pst-" true).system from rfl, hsys]
    rfl
  · obtain ⟨C, C', G, G', q1, q2, q3, q4, q5, -⟩ := H 0.001 L 100000 (by norm_num) (by linarith) (by linarith) hL'
      (bisectNum_finds (by norm_num) (by norm_num)) .list [] [] [] [] 0 t t' g g' a1 a2 h1 h2 d1 d2 h3 h4 h5
    exact ⟨C, C', G, G', q1, q2, q3, q4, q5⟩

end Weac
