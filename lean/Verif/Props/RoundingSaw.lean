import Verif.Props.RoundingSystem

/-!
# C91 for saw tests
-/

namespace Weac

open Spec

namespace Spec

/-- Magnitude of the right-hand side of the linear system of a saw test. -/
noncomputable def sawScale (s : Self) (kR : ℝ) (n : ℕ) (Q F : ℝ) : ℝ :=
  (1 + s.h / 2) * F + |s.tc| +
    (loadScale (s.slab.map fun l => l.rho * 1e-12 * s.g * l.h).sum s.phi + loadScale |s.p| s.phi) * |s.a - s.td| +
    n * (rowNorm s kR * Q)

end Spec

variable {u : ℝ} {fl : ℝ → ℝ} {lib : Libm} {m k n : ℕ} {B phi Q F : ℝ} {a : SegLists} {s : Self}

/-! ## Influence of the spring -/

theorem bc_spring_change (s : Self) (kR kR' : ℝ) (b : Bool) (pos : Pos) (z : Vec6) (t : Fin 3) :
    |bcFun s kR' b pos z t - bcFun s kR b pos z t| ≤ |kR' - kR| * |z 4| := by
  have h0 := mul_nonneg (abs_nonneg (kR' - kR)) (abs_nonneg (z 4))
  unfold bcFun
  by_cases c1 : IsPst s
  · rw [if_pos c1, if_pos c1]
    cases b with
    | true => simpa using h0
    | false =>
      have e1 : |(fM s z - kR' * fpsi z) - (fM s z - kR * fpsi z)| ≤ |kR' - kR| * |z 4| := by
        rw [show (fM s z - kR' * fpsi z) - (fM s z - kR * fpsi z) = -((kR' - kR) * z 4) by unfold fpsi; ring, abs_neg, abs_mul]
      have e2 : |(fM s z + kR' * fpsi z) - (fM s z + kR * fpsi z)| ≤ |kR' - kR| * |z 4| := by
        rw [show (fM s z + kR' * fpsi z) - (fM s z + kR * fpsi z) = (kR' - kR) * z 4 by unfold fpsi; ring, abs_mul]
      have e0 : ∀ x : ℝ, |x - x| ≤ |kR' - kR| * |z 4| := fun x => by rw [sub_self, abs_zero]; exact h0
      rcases hm : s.mode with _ | _ | _ | _ <;> cases pos <;> fin_cases t <;> first | exact e0 _ | exact e1 | exact e2
  · rw [if_neg c1, if_neg c1, sub_self, abs_zero]
    exact h0

theorem row_spring_change (s : Self) (kR kR' : ℝ) (nS : ℕ) (ki : List Bool) (i r : ℕ) {zl zr : Vec6} (hl : |zl 4| ≤ B) (hr : |zr 4| ≤ B) :
    |rowOf s kR' nS ki i r zl zr - rowOf s kR nS ki i r zl zr| ≤ |kR' - kR| * B := by
  have h0 : 0 ≤ |kR' - kR| * B := mul_nonneg (abs_nonneg _) ((abs_nonneg _).trans hl)
  have bl := fun b pos t => (bc_spring_change s kR kR' b pos zl t).trans (mul_le_mul_of_nonneg_left hl (abs_nonneg _))
  have br := fun b pos t => (bc_spring_change s kR kR' b pos zr t).trans (mul_le_mul_of_nonneg_left hr (abs_nonneg _))
  have e0 : ∀ x : ℝ, |x - x| ≤ |kR' - kR| * B := fun x => by rw [sub_self, abs_zero]; exact h0
  unfold rowOf
  split_ifs with hc
  · refine getD_forall₂ (R := fun x y => |x - y| ≤ |kR' - kR| * B) (e0 0) ?_ _
    cases posOf nS i with
    | l => exact .cons (bl _ _ 0) (.cons (bl _ _ 1) (.cons (bl _ _ 2) (.cons (e0 _) (.cons (e0 _) (.cons (e0 _) (.cons (e0 _)
        (.cons (e0 _) (.cons (e0 _) .nil))))))))
    | m => exact .cons (e0 _) (.cons (e0 _) (.cons (e0 _) (.cons (e0 _) (.cons (e0 _) (.cons (e0 _) (.cons (e0 _) (.cons (e0 _)
        (.cons (e0 _) (.cons (e0 _) (.cons (e0 _) (.cons (e0 _) .nil)))))))))))
    | r => exact .cons (e0 _) (.cons (e0 _) (.cons (e0 _) (.cons (e0 _) (.cons (e0 _) (.cons (e0 _)
        (.cons (br _ _ 0) (.cons (br _ _ 1) (.cons (br _ _ 2) .nil))))))))
  · exact e0 0

/-- Matrix and particular part change little when the spring changes little. -/
theorem spring_change (h : RoundOk u fl) (hl : LibmOk u m lib) (hs : Stored s) (hsc : SystemScale s phi a B Q F)
    (hp : ∀ i < a.li.length, 0 ≤ nth a.li i) (hB : 0 ≤ B) (kR kR' : ℝ) :
    (∀ r c, |matAt s kR' a.li.length a.li a.ki a.li.length r c - matAt s kR a.li.length a.li a.ki a.li.length r c| ≤ |kR' - kR| * B) ∧
    ∀ r, |vecAt s kR' phi a.li.length a.li a.ki a.li.length r - vecAt s kR phi a.li.length a.li a.ki a.li.length r| ≤
      a.li.length * (|kR' - kR| * Q) := by
  refine ⟨fun r c => ?_, fun r => ?_⟩
  · unfold matAt
    split_ifs with hc
    · have hi : c / 6 < a.li.length := by omega
      have h6 : c % 6 < 6 := Nat.mod_lt _ (by norm_num)
      exact row_spring_change s kR kR' _ _ _ _ (column_rounded h hl hs hsc hp hi (.inl rfl) h6 4).1
        (column_rounded h hl hs hsc hp hi (.inr rfl) h6 4).1
    · rw [sub_self, abs_zero]
      exact mul_nonneg (abs_nonneg _) hB
  · unfold vecAt
    rw [← Finset.sum_sub_distrib]
    refine (Finset.abs_sum_le_sum_abs _ _).trans ((Finset.sum_le_sum (g := fun _ => |kR' - kR| * Q) fun i hi => ?_).trans (le_of_eq ?_))
    · have hi : i < a.li.length := Finset.mem_range.1 hi
      exact row_spring_change s kR kR' _ _ _ _ (zp_rounded h hl hs hsc hp hi (.inl rfl) 4).1 (zp_rounded h hl hs hsc hp hi (.inr rfl) 4).1
    · simp

/-! ## Right-hand side -/

/-- The normal force where the slab rests on the ground. -/
theorem rest_force_rounded (h : RoundOk u fl) (hl : LibmOk u m lib) (hs : Stored s) :
    Err u (s.slab.length + m + 11)
      ((loadScale (s.slab.map fun l => l.rho * 1e-12 * s.g * l.h).sum s.phi + loadScale |s.p| s.phi) * |s.a - s.td|)
      (calcQt s * (s.a - s.td)) (fl (calcQtFl fl lib s * fl (s.a - s.td))) := by
  obtain ⟨-, a2⟩ := load_rounded h hl s.phi (line_rounded h s.g hs.g s.slab hs.valid)
  obtain ⟨-, b2⟩ := load_rounded h hl s.phi (Err.refl u s.p)
  have q := h.err_fl (a2.add (h.err_mono (m := s.slab.length + 4 + m + 4) b2 (by omega) le_rfl))
  have d := h.err_fl (Err.refl u (s.a - s.td))
  exact h.err_mono (h.err_fl (h.err_mul q d)) (by omega) le_rfl

theorem touchdown_step_rounded {D : ℝ} {v v' : ℕ → ℝ} (hv : ∀ r, Err u k D (v r) (v' r)) (h0 : Err u k D 0 0)
    (ht : Err u k D s.tc s.tc) (hN : Err u k D (calcQt s * (s.a - s.td)) (fl (calcQtFl fl lib s * fl (s.a - s.td))))
    (nS : ℕ) (ki : List Bool) (i r : ℕ) :
    Err u k D (rhsTouchdownStep s nS ki v i r) (rhsTouchdownStepFl fl lib s nS ki v' i r) := by
  unfold rhsTouchdownStep rhsTouchdownStepFl
  have w : ∀ {v v' : ℕ → ℝ} (c : Prop) [Decidable c] {r0 : ℕ} {x x' : ℝ}, (∀ r, Err u k D (v r) (v' r)) → Err u k D x x' → ∀ r,
      Err u k D ((if c then write3 v r0 x 0 s.tc else v) r) ((if c then write3 v' r0 x' 0 s.tc else v') r) := by
    intro v v' c _ r0 x x' hv hx r
    split_ifs
    · exact write3_rounded hv hx h0 ht r
    · exact hv r
  have hB : ∀ r, Err u k D
      ((if !(ki.getD i false) && decide (s.mode = .B) then
        (if i + 1 = nS then write3 (if i = 0 then write3 v 0 0 0 s.tc else v) (6 * nS - 3) 0 0 s.tc
          else if i = 0 then write3 v 0 0 0 s.tc else v) else v) r)
      ((if !(ki.getD i false) && decide (s.mode = .B) then
        (if i + 1 = nS then write3 (if i = 0 then write3 v' 0 0 0 s.tc else v') (6 * nS - 3) 0 0 s.tc
          else if i = 0 then write3 v' 0 0 0 s.tc else v') else v') r) := by
    intro r
    by_cases c : (!(ki.getD i false) && decide (s.mode = .B)) = true
    · rw [if_pos c, if_pos c]
      exact w _ (w _ hv h0) h0 r
    · rw [if_neg c, if_neg c]
      exact hv r
  by_cases c : (!(ki.getD i false) && decide (s.mode = .C)) = true
  · simp only [if_pos c]
    exact w _ (w _ hB (err_neg hN)) hN r
  · simp only [if_neg c]
    exact hB r

theorem rhsFinal_saw {s : Self} (hp : IsPst s) (phi : ℝ) (a : SegLists) :
    rhsFinal s phi a = (List.range a.li.length).foldl (rhsTouchdownStep s a.li.length a.ki) (rhsSkiers s phi a.mi) := by
  unfold rhsFinal
  rcases hp with e | e <;> simp [e]

theorem saw_rhs_rounded (h : RoundOk u fl) (hl : LibmOk u m lib) (hs : Stored s) (hski : 0 < s.lski) (hsc : SystemScale s phi a B Q F)
    (hp : IsPst s) (r : ℕ) :
    Err u (s.slab.length + m + 20) ((1 + s.h / 2) * F + |s.tc| +
      (loadScale (s.slab.map fun l => l.rho * 1e-12 * s.g * l.h).sum s.phi + loadScale |s.p| s.phi) * |s.a - s.td|)
      (rhsFinal s phi a r) (rhsSawFl fl lib s phi a r) := by
  have N := rest_force_rounded h hl hs
  have hF := hsc.nonneg
  have hh := hs.h
  have h1 : 0 ≤ (1 + s.h / 2) * F := by positivity
  have h2 := abs_nonneg s.tc
  have h3 := (abs_nonneg _).trans N.1
  set X := (loadScale (s.slab.map fun l => l.rho * 1e-12 * s.g * l.h).sum s.phi + loadScale |s.p| s.phi) * |s.a - s.td|
  have z : Err u (s.slab.length + m + 20) ((1 + s.h / 2) * F + |s.tc| + X) 0 0 := by
    have := Err.refl u 0
    rw [abs_zero] at this
    exact h.err_mono this (by omega) (by linarith)
  rw [rhsFinal_saw hp]
  unfold rhsSawFl
  have key : ∀ (l : List ℕ) (v v' : ℕ → ℝ), (∀ r, Err u (s.slab.length + m + 20) ((1 + s.h / 2) * F + |s.tc| + X) (v r) (v' r)) → ∀ r,
      Err u (s.slab.length + m + 20) ((1 + s.h / 2) * F + |s.tc| + X) (l.foldl (rhsTouchdownStep s a.li.length a.ki) v r)
        (l.foldl (rhsTouchdownStepFl fl lib s a.li.length a.ki) v' r) := by
    intro l
    induction l with
    | nil => exact fun v v' hv r => hv r
    | cons i l ih =>
      intro v v' hv r
      exact ih _ _ (fun r => touchdown_step_rounded hv z (h.err_mono (Err.refl u s.tc) (by omega) (by linarith))
        (h.err_mono N (by omega) (by linarith)) _ _ i r) r
  exact key _ _ _ (fun r => h.err_mono (skiers_rounded h hl hs hski hsc r) le_rfl (by linarith)) r

/-! ## Linear system and solution -/

/-- C91, linear system of a saw test: coefficients and right-hand side are computed with an error of a few
roundings of the largest terms, and of the error of the spring (`kR'` in place of `kR`) at the end in stage C. -/
theorem C91_saw_system (h : RoundOk u fl) (hl : LibmOk u m lib) (num : Numerics) (s : Self) (hs : Stored s) (hski : 0 < s.lski)
    (hf : EigFresh num.eig s) (hpst : IsPst s) (kR kR' : ℝ)
    (hk : s.mode = .C → substituteStiffness num.eig (s.a - s.td) true .rot s = (.ok kR, s))
    {kind : SeqKind} {phi : ℝ} {a a' : SegLists} {s' : Self} {C : List Vec6}
    (hC : assembleAndSolve num kind phi a s = (.ok (C, a'), s')) (hp : ∀ i < a'.li.length, 0 ≤ nth a'.li i) {B Q F : ℝ}
    (hsc : SystemScale s phi a' B Q F) (hu : ((2 * m + 10 : ℕ) : ℝ) * u < 1)
    (hu' : ((s.slab.length + m + 21 + a'.li.length : ℕ) : ℝ) * u < 1) :
    ∃ (M : ℕ → ℕ → ℝ) (r : ℕ → ℝ),
      (∀ solve, assembleAndSolveBy solve num kind phi a s =
        ((solve (6 * a'.li.length) M r).map fun x => ((List.range a'.li.length).map fun i (j : Fin 6) => x (6 * i + j), a'), s)) ∧
      (∀ i j, |(asmFl fl lib s kR' phi a' a'.li.length).1 i j - M i j| ≤
        gamma u (2 * m + 10) * (rowNorm s kR' * B) + |kR' - kR| * B) ∧
      (∀ i, |r i| ≤ sawScale s kR a'.li.length Q F) ∧
      ∀ i, |fl (rhsSawFl fl lib s phi a' i - (asmFl fl lib s kR' phi a' a'.li.length).2 i) - r i| ≤
        gamma u (s.slab.length + m + 21 + a'.li.length) * sawScale s kR' a'.li.length Q F + a'.li.length * (|kR' - kR| * Q) := by
  have hv : NoFaceTouchdown s := fun hv => by
    rcases hpst with e | e <;> rcases hv with e' | e' <;> rw [e] at e' <;> exact absurd e' (by decide)
  obtain ⟨rfl, hlo, hsys, hm, hsol⟩ := system_of_run hf hv hC
  have h2 := hlo.two
  have hB : 0 ≤ B := (abs_nonneg _).trans (column_rounded h hl hs hsc hp (i := 0) (by omega) (.inl rfl) (c := 0) (by omega) 0).1
  have hk' : IsPst s → s.mode = .C → spring num s = (.ok kR, s) := fun _ q => by
    unfold spring
    rw [Py.get_bind]
    exact hk q
  obtain ⟨c1, c2⟩ := spring_change h hl hs hsc hp hB kR kR'
  have as := assembly_rounded h hl hs hsc hp hB kR' _ le_rfl
  have er : ∀ k i, Err u (s.slab.length + m + 20 + (full a).li.length) (sawScale s k (full a).li.length Q F)
      (rhsFinal s phi (full a) i - vecAt s k phi (full a).li.length (full a).li (full a).ki (full a).li.length i)
      (rhsSawFl fl lib s phi (full a) i - (asmFl fl lib s k phi (full a) (full a).li.length).2 i) := fun k i =>
    (h.err_mono (m := s.slab.length + m + 20 + (full a).li.length) (saw_rhs_rounded h hl hs hski hsc hpst i) (by omega) le_rfl).sub
      ((assembly_rounded h hl hs hsc hp hB k _ le_rfl).2 i)
  refine ⟨_, _, hsol, fun i j => ?_, fun i => ?_, fun i => ?_⟩
  · rw [(matAt_spring hk' _ _ _ _).1]
    exact (abs_sub_le _ _ _).trans (add_le_add (h.err_bound (as.1 i j) hu) (c1 i j))
  · rw [(matAt_spring hk' _ _ _ _).2]
    exact (er kR i).1
  · rw [(matAt_spring hk' _ _ _ _).2]
    refine (abs_sub_le _ _ _).trans (add_le_add (h.err_bound (h.err_mono (h.err_fl (er kR' i)) (by omega) le_rfl) hu') ?_)
    rw [sub_sub_sub_cancel_left, abs_sub_comm]
    exact c2 i

/-- C91, solution of a saw test: the fields that follow from the linear system set up in floating-point arithmetic
with a spring `kR'` and solved by a backward stable method differ from the exact ones by a multiple of
`u`, `δ`, `δ'` and the error of the spring. The constant `K` is the same for all inclinations, weights and lengths of
the supported segments. -/
theorem C91_saw_solution (num : Numerics) (s : Self) (hb : BedOk s) (hc : ShearOk s) (hs : Stored s) (hski : 0 < s.lski)
    (hf : EigFresh num.eig s) (hpst : IsPst s) (kR : ℝ)
    (hk : s.mode = .C → substituteStiffness num.eig (s.a - s.td) true .rot s = (.ok kR, s)) (n : ℕ) {d : ℝ} (R : ℝ) (hd : 0 < d) :
    ∃ K, 0 < K ∧ ∀ (u : ℝ) (fl : ℝ → ℝ) (lib : Libm) (m : ℕ) (kR' : ℝ) (kind : SeqKind) (phi : ℝ) (a a' : SegLists) (s' : Self) (C : List Vec6)
      (B Q F δ δ' : ℝ), RoundOk u fl → LibmOk u m lib → assembleAndSolve num kind phi a s = (.ok (C, a'), s') → a'.li.length = n →
      Anchored d R n (fun i => a'.ki.getD i false) (nth a'.li) → SystemScale s phi a' B Q F → ((2 * m + 10 : ℕ) : ℝ) * u < 1 →
      ((s.slab.length + m + 21 + n : ℕ) : ℝ) * u < 1 →
      K * (δ + (gamma u (2 * m + 10) * (rowNorm s kR' * B) + |kR' - kR| * B)) ≤ 1 →
      ∀ (M' : ℕ → ℕ → ℝ) (r' : ℕ → ℝ),
        (∀ i < 6 * n, ∀ j < 6 * n, |M' i j - (asmFl fl lib s kR' phi a' n).1 i j| ≤ δ) →
        (∀ i < 6 * n, |r' i - fl (rhsSawFl fl lib s phi a' i - (asmFl fl lib s kR' phi a' n).2 i)| ≤ δ') →
        (∃ x, npSolve (6 * n) M' r' = .ok x) ∧
        ∀ x : ℕ → ℝ, (∀ i < 6 * n, ∑ j ∈ Finset.range (6 * n), M' i j * x j = r' i) →
          ∀ i < n, ∀ y ∈ Set.Icc 0 (nth a'.li i), ∀ q,
            |zsol s y (fun j => x (6 * i + j)) (nth a'.li i) phi (a'.ki.getD i false) q -
              zsol s y (C.getD i 0) (nth a'.li i) phi (a'.ki.getD i false) q| ≤
            K * (δ' + (gamma u (s.slab.length + m + 21 + n) * sawScale s kR' n Q F + n * (|kR' - kR| * Q)) +
              (δ + (gamma u (2 * m + 10) * (rowNorm s kR' * B) + |kR' - kR| * B)) * sawScale s kR n Q F) := by
  have hv : NoFaceTouchdown s := fun hv => by
    rcases hpst with e | e <;> rcases hv with e' | e' <;> rw [e] at e' <;> exact absurd e' (by decide)
  obtain ⟨K, hK, h1⟩ := C71_backward num s hb hc hf hv n R hd
  refine ⟨K, hK, fun u fl lib m kR' kind phi a a' s' C B Q F δ δ' h hl hC hn ha hsc hu hu' hsm M' r' hM hr => ?_⟩
  obtain ⟨M, r, e1, f1⟩ := h1 kind phi a a' s' C hC hn ha
  subst hn
  obtain ⟨M2, r2, e2, f2, f3, f4⟩ := C91_saw_system h hl num s hs hski hf hpst kR kR' hk hC ha.nonneg hsc hu hu'
  obtain ⟨rfl, rfl⟩ := system_unique e1 e2
  refine f1 M' r' _ _ _ hsm (fun i hi j hj => ?_) (fun i hi => ?_) fun i _ => f3 i
  · exact (abs_sub_le _ _ _).trans (add_le_add (hM i hi j hj) (f2 i j))
  · exact (abs_sub_le _ _ _).trans (add_le_add (hr i hi) (f4 i))

end Weac
