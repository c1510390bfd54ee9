import Verif.Props.Continuity
import Verif.Props.EnergyBalance
import Verif.Props.Symmetry

/-!
# C65: a small crack advance and the differential energy release rate
-/

namespace Weac

open Filter Topology

/-! ## Specification -/

/-- A beam with a crack whose left tip lies `l` into the segment behind `lp`, seen as cut at
the distance `d` ahead of the tip; no weight acts at the tip. -/
def Spec.aheadLeft (lp ls mp ms : List ℝ) (kp ks : List Bool) (l c d : ℝ) : SegLists :=
  ⟨lp ++ (l - d) :: d :: c :: ls, mp ++ 0 :: 0 :: ms, kp ++ true :: true :: false :: ks⟩

/-- The same beam when the crack has grown by `d`. -/
def Spec.grownLeft (lp ls mp ms : List ℝ) (kp ks : List Bool) (l c d : ℝ) : SegLists :=
  ⟨lp ++ (l - d) :: d :: c :: ls, mp ++ 0 :: 0 :: ms, kp ++ true :: false :: false :: ks⟩

/-- The beam itself. -/
def Spec.crackLeft (lp ls mp ms : List ℝ) (kp ks : List Bool) (l c : ℝ) : SegLists :=
  ⟨lp ++ l :: c :: ls, mp ++ 0 :: ms, kp ++ true :: false :: ks⟩

/-- The same for a right tip. -/
def Spec.aheadRight (lp ls mp ms : List ℝ) (kp ks : List Bool) (c l d : ℝ) : SegLists :=
  ⟨lp ++ c :: d :: (l - d) :: ls, mp ++ 0 :: 0 :: ms, kp ++ false :: true :: true :: ks⟩
def Spec.grownRight (lp ls mp ms : List ℝ) (kp ks : List Bool) (c l d : ℝ) : SegLists :=
  ⟨lp ++ c :: d :: (l - d) :: ls, mp ++ 0 :: 0 :: ms, kp ++ false :: false :: true :: ks⟩
def Spec.crackRight (lp ls mp ms : List ℝ) (kp ks : List Bool) (c l : ℝ) : SegLists :=
  ⟨lp ++ c :: l :: ls, mp ++ 0 :: ms, kp ++ false :: true :: ks⟩

open Spec

/-! ## Means over small intervals -/

theorem mean_limit {L : ℝ} (hL : 0 < L) {G : Set.Icc (0 : ℝ) L × ℝ → ℝ} (hG : Continuous G) {F : ℝ → ℝ → ℝ}
    (hF : ∀ (d : Set.Icc (0 : ℝ) L) (x : ℝ), F d x = G (d, x)) :
    Tendsto (fun d => (∫ x in (0 : ℝ)..d, F d x) / d) (𝓝[>] 0) (𝓝 (F 0 0)) := by
  have h0 : (0 : ℝ) ∈ Set.Icc (0 : ℝ) L := ⟨le_refl _, hL.le⟩
  have c := hG.continuousAt (x := (⟨0, h0⟩, 0))
  rw [Metric.tendsto_nhds]
  intro e he
  rw [Metric.continuousAt_iff] at c
  obtain ⟨r, hr, hc⟩ := c (e / 2) (half_pos he)
  have hm : Set.Ioo (0 : ℝ) (min r L) ∈ 𝓝[>] (0 : ℝ) := Ioo_mem_nhdsGT (lt_min hr hL)
  filter_upwards [hm] with d hd
  have hdL : d ∈ Set.Icc (0 : ℝ) L := ⟨hd.1.le, (hd.2.trans_le (min_le_right _ _)).le⟩
  have hdr : d < r := hd.2.trans_le (min_le_left _ _)
  have bound : ∀ x ∈ Set.uIoc (0 : ℝ) d, ‖F d x - F 0 0‖ ≤ e / 2 := by
    intro x hx
    rw [Set.uIoc_of_le hd.1.le] at hx
    have e1 := hF ⟨d, hdL⟩ x
    have e2 := hF ⟨0, h0⟩ 0
    simp only at e1 e2
    rw [e1, e2, ← dist_eq_norm]
    refine (hc ?_).le
    rw [Prod.dist_eq]
    refine max_lt ?_ ?_
    · rw [Subtype.dist_eq, Real.dist_eq, sub_zero, abs_of_pos hd.1]; exact hdr
    · rw [Real.dist_eq, sub_zero, abs_of_pos hx.1]; exact hx.2.trans_lt hdr
  have hcont : Continuous (F d) := by
    have : F d = fun x => G (⟨d, hdL⟩, x) := by funext x; exact hF ⟨d, hdL⟩ x
    rw [this]
    exact hG.comp (continuous_const.prodMk continuous_id)
  have hi := intervalIntegral.norm_integral_le_of_norm_le_const bound
  rw [intervalIntegral.integral_sub (hcont.intervalIntegrable _ _) (continuous_const.intervalIntegrable _ _),
    intervalIntegral.integral_const, sub_zero, smul_eq_mul, abs_of_pos hd.1] at hi
  rw [Real.dist_eq]
  have e3 : (∫ x in (0 : ℝ)..d, F d x) / d - F 0 0 = ((∫ x in (0 : ℝ)..d, F d x) - d * F 0 0) / d := by
    have := hd.1.ne'
    field_simp
  rw [e3, abs_div, abs_of_pos hd.1, div_lt_iff₀ hd.1]
  rw [Real.norm_eq_abs] at hi
  have := mul_lt_mul_of_pos_right (half_lt_self he) hd.1
  linarith

/-- Work on a strip of vanishing width of two families of solved fields. -/
theorem strip_limit (num : Numerics) (kind kind' : SeqKind) (s : Self) (hf : EigFresh num.eig s) (hv : NoFaceTouchdown s) (phi : ℝ)
    {L : ℝ} (hL : 0 < L) {a0 a1 : ℝ → SegLists} {n : ℕ} {k0 k1 : List Bool} (hn : n ≠ 1)
    (v0 : Varies s (fun _ : Set.Icc (0 : ℝ) L => phi) (fun d => a0 d) n k0)
    (v1 : Varies s (fun _ : Set.Icc (0 : ℝ) L => phi) (fun d => a1 d) n k1) {C0 C1 : ℝ → List Vec6}
    (h0 : ∀ d ∈ Set.Icc 0 L, assembleAndSolve num kind phi (a0 d) s = (.ok (C0 d, a0 d), s))
    (h1 : ∀ d ∈ Set.Icc 0 L, assembleAndSolve num kind' phi (a1 d) s = (.ok (C1 d, a1 d), s))
    (j : ℕ) (b0 b1 : Bool) (e0 : k0.getD j false = b0) (e1 : k1.getD j false = b1)
    (l0 : ∀ d, nth (a0 d).li j = d) (l1 : ∀ d, nth (a1 d).li j = d) (q : Vec6 → Vec6 → ℝ) (hq : Continuous fun p : Vec6 × Vec6 => q p.1 p.2) :
    Tendsto (fun d => (∫ x in (0 : ℝ)..d, q (zsol s x ((C0 d).getD j 0) d phi b0) (zsol s x ((C1 d).getD j 0) d phi b1)) / d)
      (𝓝[>] 0) (𝓝 (q (zsol s 0 ((C0 0).getD j 0) 0 phi b0) (zsol s 0 ((C1 0).getD j 0) 0 phi b1))) := by
  have fam : ∀ {a : ℝ → SegLists} {k : List Bool} {kind : SeqKind} {C : ℝ → List Vec6} {b : Bool},
      Varies s (fun _ : Set.Icc (0 : ℝ) L => phi) (fun d => a d) n k →
      (∀ d ∈ Set.Icc 0 L, assembleAndSolve num kind phi (a d) s = (.ok (C d, a d), s)) → k.getD j false = b →
      (∀ d, nth (a d).li j = d) →
      Continuous fun p : Set.Icc (0 : ℝ) L × ℝ => zsol s p.2 ((C p.1).getD j 0) p.1 phi b := by
    intro a k kind C b v h e l
    have hfull : ∀ d : Set.Icc (0 : ℝ) L, full (a d) = a d := fun d => by
      unfold full; rw [if_neg (by rw [v.len]; exact hn)]
    have c := (C55_continuous num kind s hf hv (phi := fun _ : Set.Icc (0 : ℝ) L × ℝ => phi)
      (a := fun p => a p.1) (n := n) (ki := k)
      ⟨fun _ _ _ => rfl, fun p => v.len p.1, fun p => v.support p.1, continuous_const,
        fun i => (v.lengths i).comp continuous_fst, fun i => (v.weights i).comp continuous_fst⟩
      (C := fun p => C p.1) (fun p => by rw [h p.1 p.1.2, hfull])).2 j Prod.snd continuous_snd
    refine c.congr fun p => ?_
    unfold stateAt
    rw [hfull, l, v.support, e]
  have c0 := fam v0 h0 e0 l0
  have c1 := fam v1 h1 e1 l1
  exact mean_limit hL (hq.comp (c0.prodMk c1)) fun d x => rfl

/-! ## Lists -/

theorem nth_append (p q : List ℝ) (i : ℕ) : nth (p ++ q) i = if i < p.length then nth p i else nth q (i - p.length) := by
  unfold nth
  split_ifs with h
  · exact List.getD_append _ _ _ _ h
  · exact List.getD_append_right _ _ _ _ (by omega)

theorem continuous_nth_append {T : Type*} [TopologicalSpace T] (p : List ℝ) {q : T → List ℝ}
    (hq : ∀ i, Continuous fun t => nth (q t) i) (i : ℕ) : Continuous fun t => nth (p ++ q t) i := by
  simp only [nth_append]
  split_ifs
  · exact continuous_const
  · exact hq _

theorem continuous_nth_cons {T : Type*} [TopologicalSpace T] {f : T → ℝ} (hf : Continuous f) {q : T → List ℝ}
    (hq : ∀ i, Continuous fun t => nth (q t) i) (i : ℕ) : Continuous fun t => nth (f t :: q t) i := by
  cases i with
  | zero => exact hf
  | succ i => exact hq i

theorem filter_one {n j : ℕ} (hj : j < n) {P : ℕ → Bool} (h : ∀ i, P i = true ↔ i = j) : (List.range n).filter P = [j] := by
  have e : ∀ m, (List.range m).filter P = if j < m then [j] else [] := by
    intro m
    induction m with
    | zero => simp
    | succ m ih =>
      rw [List.range_succ, List.filter_append, ih]
      by_cases hm : m = j
      · rw [List.filter_cons_of_pos ((h m).mpr hm), if_neg (by omega), if_pos (by omega), hm]; rfl
      · rw [List.filter_cons_of_neg (by rw [h]; exact hm)]
        simp only [List.filter_nil, List.append_nil]
        by_cases hlt : j < m
        · rw [if_pos hlt, if_pos (by omega)]
        · rw [if_neg hlt, if_neg (by omega)]
  rw [e n, if_pos hj]

theorem advance_one {a : SegLists} {ki : List Bool} {C0 C1 : List Vec6} {j : ℕ} (hj : j < a.li.length)
    (h : ∀ i, (a.ki.getD i false && !ki.getD i false) = true ↔ i = j) :
    ((advance a ki C0 C1).filter fun g => g.k0 && !g.ki) = [⟨C0.getD j 0, C1.getD j 0, nth a.li j, false, true⟩] := by
  unfold advance
  rw [List.filter_map, filter_one hj (P := (fun g : IncSeg => g.k0 && !g.ki) ∘ fun i =>
    (⟨C0.getD i 0, C1.getD i 0, nth a.li i, ki.getD i false, a.ki.getD i false⟩ : IncSeg)) h]
  have := (h j).mpr rfl
  obtain ⟨h1, h2⟩ : a.ki.getD j false = true ∧ ki.getD j false = false := by simpa using this
  simp only [List.map_cons, List.map_nil, h1, h2]

theorem support_differs (kp ks : List Bool) (n : ℕ) (hn : kp.length = n) {x z x' z' : Bool} (hx : (x && !x') = false)
    (hz : (z && !z') = false) (i : ℕ) :
    ((kp ++ x :: true :: z :: ks).getD i false && !(kp ++ x' :: false :: z' :: ks).getD i false) = true ↔ i = n + 1 := by
  subst hn
  by_cases h : i < kp.length
  · rw [List.getD_append _ _ _ _ h, List.getD_append _ _ _ _ h]
    constructor
    · intro h; simp at h
    · intro h; omega
  · rw [List.getD_append_right _ _ _ _ (by omega), List.getD_append_right _ _ _ _ (by omega)]
    obtain ⟨m, hm⟩ : ∃ m, i - kp.length = m := ⟨_, rfl⟩
    rw [hm]
    match m, hm with
    | 0, hm => simp only [List.getD_cons_zero, hx]; constructor
               · intro h; cases h
               · intro h; omega
    | 1, hm => simp; omega
    | 2, hm => simp only [List.getD_cons_succ, List.getD_cons_zero, hz]; constructor
               · intro h; cases h
               · intro h; omega
    | m + 3, hm =>
      simp only [List.getD_cons_succ]
      constructor
      · intro h; simp at h
      · intro h; omega

theorem nth_mid (p q : List ℝ) (x y : ℝ) (n : ℕ) (hn : p.length = n) : nth (p ++ x :: y :: q) (n + 1) = y := by
  subst hn
  rw [nth_append, if_neg (by omega), Nat.add_sub_cancel_left]
  rfl

theorem getD_mid (p q : List Bool) (x y : Bool) (n : ℕ) (hn : p.length = n) : (p ++ x :: y :: q).getD (n + 1) false = y := by
  subst hn
  exact getD_at_succ p q x y false

/-! ## One tip -/

/-- What remains to be known: the fields ahead of the tip and behind the grown tip, for an
advance of zero, have the stresses of the tip. -/
theorem tip_limit (num : Numerics) (quad : Quad) (hq : QuadOk quad 0) (kind kind' : SeqKind) (s : Self) (hs : Stiff s)
    (hf : EigFresh num.eig s) (hv : NoFaceTouchdown s) (phi : ℝ)
    {L : ℝ} (hL : 0 < L) {a0 a1 : ℝ → SegLists} {n : ℕ} {k0 k1 : List Bool} (hn : n ≠ 1)
    (v0 : Varies s (fun _ : Set.Icc (0 : ℝ) L => phi) (fun d => a0 d) n k0)
    (v1 : Varies s (fun _ : Set.Icc (0 : ℝ) L => phi) (fun d => a1 d) n k1) {C0 C1 : ℝ → List Vec6}
    (h0 : ∀ d ∈ Set.Icc 0 L, assembleAndSolve num kind phi (a0 d) s = (.ok (C0 d, a0 d), s))
    (h1 : ∀ d ∈ Set.Icc 0 L, assembleAndSolve num kind' phi (a1 d) s = (.ok (C1 d, a1 d), s))
    (j : ℕ) (hj : j < n) (hk : ∀ i, (k0.getD i false && !k1.getD i false) = true ↔ i = j)
    (l0 : ∀ d, nth (a0 d).li j = d) (l1 : ∀ d, nth (a1 d).li j = d) (z : Vec6)
    (g0 : zsol s 0 ((C0 0).getD j 0) 0 phi true 2 = z 2 ∧ s.beam.slip (zsol s 0 ((C0 0).getD j 0) 0 phi true) = s.beam.slip z)
    (g1 : zsol s 0 ((C1 0).getD j 0) 0 phi false 2 = z 2 ∧ s.beam.slip (zsol s 0 ((C1 0).getD j 0) 0 phi false) = s.beam.slip z) :
    ∃ I II : ℝ → ℝ, (∀ d ∈ Set.Ioc 0 L, ginc quad s phi (advance (a0 d) (a1 d).ki (C0 d) (C1 d)) = some (I d + II d, I d, II d)) ∧
      Tendsto I (𝓝[>] 0) (𝓝 (fGi s z)) ∧ Tendsto II (𝓝[>] 0) (𝓝 (-fGii s z)) := by
  obtain ⟨b0, b1⟩ : k0.getD j false = true ∧ k1.getD j false = false := by simpa using (hk j).mpr rfl
  have val : ∀ d ∈ Set.Ioc 0 L, ginc quad s phi (advance (a0 d) (a1 d).ki (C0 d) (C1 d))
      = some ((normalWork s phi ⟨(C0 d).getD j 0, (C1 d).getD j 0, d, false, true⟩ / d) / 2
        + -((shearWork s phi ⟨(C0 d).getD j 0, (C1 d).getD j 0, d, false, true⟩ / d) / 2),
        (normalWork s phi ⟨(C0 d).getD j 0, (C1 d).getD j 0, d, false, true⟩ / d) / 2,
        -((shearWork s phi ⟨(C0 d).getD j 0, (C1 d).getD j 0, d, false, true⟩ / d) / 2)) := by
    intro d hd
    have hd' : d ∈ Set.Icc 0 L := ⟨hd.1.le, hd.2⟩
    have s0 := v0.support ⟨d, hd'⟩
    have s1 := v1.support ⟨d, hd'⟩
    have ln := v0.len ⟨d, hd'⟩
    simp only at s0 s1 ln
    have hadv := advance_one (a := a0 d) (ki := (a1 d).ki) (C0 := C0 d) (C1 := C1 d) (j := j) (by rw [ln]; exact hj)
      (by rw [s0, s1]; exact hk)
    rw [l0] at hadv
    obtain ⟨I, II, g, e1, e2⟩ := C31_ginc_partial quad 0 hq s hs.t.ne' phi _ _ hadv.symm d (by simp) hd.1
    simp only [mul_zero, zero_div, List.map_cons, List.map_nil, List.sum_cons, List.sum_nil, add_zero] at e1 e2
    have e1 := abs_nonpos_iff.mp e1
    have e2 := abs_nonpos_iff.mp e2
    have i1 : I = (normalWork s phi ⟨(C0 d).getD j 0, (C1 d).getD j 0, d, false, true⟩ / d) / 2 := by
      rw [sub_eq_zero.mp e1, div_div, mul_comm]
    have i2 : II = -((shearWork s phi ⟨(C0 d).getD j 0, (C1 d).getD j 0, d, false, true⟩ / d) / 2) := by
      rw [eq_neg_of_add_eq_zero_left e2, div_div, mul_comm]
    rw [g, i1, i2]
  have t1 := strip_limit num kind kind' s hf hv phi hL hn v0 v1 h0 h1 j true false b0 b1 l0 l1
    (fun y z => s.kn * y 2 * z 2) (by fun_prop)
  have t2 := strip_limit num kind kind' s hf hv phi hL hn v0 v1 h0 h1 j true false b0 b1 l0 l1
    (fun y z => s.beam.tau y * s.beam.slip z) (by unfold Beam.tau Beam.slip; fun_prop)
  refine ⟨_, _, val, ?_, ?_⟩
  · have e : fGi s z = s.kn * zsol s 0 ((C0 0).getD j 0) 0 phi true 2 * zsol s 0 ((C1 0).getD j 0) 0 phi false 2 / 2 := by
      rw [g0.1, g1.1]
      have := hs.kn.ne'
      simp only [fGi, fsig, fw]
      field_simp
    rw [e]
    exact t1.div_const 2
  · have e : -fGii s z = -(s.beam.tau (zsol s 0 ((C0 0).getD j 0) 0 phi true) * s.beam.slip (zsol s 0 ((C1 0).getD j 0) 0 phi false) / 2) := by
      have h1 : s.beam.tau (zsol s 0 ((C0 0).getD j 0) 0 phi true) = s.kt * s.beam.slip (zsol s 0 ((C0 0).getD j 0) 0 phi true) := rfl
      rw [h1, g0.2, g1.2, fGii, ftau_slip]
      have := hs.kt.ne'
      field_simp
    rw [e]
    exact (t2.div_const 2).neg

theorem slip_across {s : Self} (hk : s.kA55 ≠ 0) {F : ℝ × ℝ × ℝ} (hF : F.2.2 = 0) {zl zr : Vec6}
    (h : Transmission s.beam F zl zr) : zr 2 = zl 2 ∧ s.beam.slip zr = s.beam.slip zl := by
  have hV := h.V
  rw [hF] at hV
  simp only [Beam.V, Self.beam] at hV
  have h3 : zl 3 = zr 3 := by
    have : s.kA55 * (zl 3 - zr 3) = 0 := by rw [h.psi] at hV; linarith
    rcases mul_eq_zero.mp this with h0 | h0
    · exact absurd h0 hk
    · linarith
  exact ⟨h.w.symm, by simp only [Beam.slip, h.u, h.psi, h3]⟩

/-- C65, left tip: as the advance tends to zero, mode I of `ginc` tends to mode I of the
differential energy release rate at the tip, and mode II to minus mode II. -/
theorem C65_left_partial (num : Numerics) (quad : Quad) (hq : QuadOk quad 0) (kind kind' kind'' : SeqKind) (s s' : Self)
    (hb : BedOk s) (hc : ShearOk s) (hf : EigFresh num.eig s) (hv : NoFaceTouchdown s) (phi : ℝ) (lp ls mp ms : List ℝ) (kp ks : List Bool)
    (hkp : kp.length = lp.length) (hmp : mp.length = lp.length) (l c L : ℝ) (hc0 : 0 ≤ c) (hL : 0 < L) (hLl : L ≤ l)
    (hsup : Supported (crackLeft lp ls mp ms kp ks l c)) (C : List Vec6) (a : SegLists)
    (h : assembleAndSolve num kind'' phi (crackLeft lp ls mp ms kp ks l c) s = (.ok (C, a), s'))
    (C0 C1 : ℝ → List Vec6)
    (h0 : ∀ d ∈ Set.Icc 0 L, assembleAndSolve num kind phi (aheadLeft lp ls mp ms kp ks l c d) s
      = (.ok (C0 d, aheadLeft lp ls mp ms kp ks l c d), s))
    (h1 : ∀ d ∈ Set.Icc 0 L, assembleAndSolve num kind' phi (grownLeft lp ls mp ms kp ks l c d) s
      = (.ok (C1 d, grownLeft lp ls mp ms kp ks l c d), s)) :
    ∃ I II : ℝ → ℝ, (∀ d ∈ Set.Ioc 0 L, ginc quad s phi (advance (aheadLeft lp ls mp ms kp ks l c d)
        (grownLeft lp ls mp ms kp ks l c d).ki (C0 d) (C1 d)) = some (I d + II d, I d, II d)) ∧
      Tendsto I (𝓝[>] 0) (𝓝 (fGi s (zsol s l (C.getD lp.length 0) l phi true))) ∧
      Tendsto II (𝓝[>] 0) (𝓝 (-fGii s (zsol s l (C.getD lp.length 0) l phi true))) := by
  have h00 : (0 : ℝ) ∈ Set.Icc (0 : ℝ) L := ⟨le_refl _, hL.le⟩
  have cs : Continuous fun d : Set.Icc (0 : ℝ) L => (d : ℝ) := continuous_subtype_val
  have lens : ∀ i, Continuous fun d : Set.Icc (0 : ℝ) L => nth (lp ++ (l - (d : ℝ)) :: (d : ℝ) :: c :: ls) i :=
    continuous_nth_append _ (continuous_nth_cons (continuous_const.sub cs) (continuous_nth_cons cs fun _ => continuous_const))
  have hl : 0 ≤ l := hL.le.trans hLl
  have hmt := (solved_meets hf hv h).2
  have tr := hmt.trans lp.length (by simp [crackLeft])
  have across := slip_across hb.stiff.kA55.ne' (congrArg (fun F : ℝ × ℝ × ℝ => F.2.2) (jump_zero s phi _ _ <| by
    show nth (mp ++ 0 :: ms) lp.length = 0
    rw [← hmp, nth_append, if_neg (lt_irrefl _), Nat.sub_self]; rfl)) tr
  have l0' : nth (crackLeft lp ls mp ms kp ks l c).li lp.length = l := by
    show nth (lp ++ l :: c :: ls) lp.length = l
    rw [nth_append, if_neg (lt_irrefl _), Nat.sub_self]; rfl
  have l1' : nth (crackLeft lp ls mp ms kp ks l c).li (lp.length + 1) = c := nth_mid _ _ _ _ _ rfl
  have k0' : (crackLeft lp ls mp ms kp ks l c).ki.getD lp.length false = true := by
    rw [← hkp]; exact getD_at kp (false :: ks) true false
  have k1' : (crackLeft lp ls mp ms kp ks l c).ki.getD (lp.length + 1) false = false := getD_mid _ _ _ _ _ hkp
  simp only [stateAt, l0', l1', k0', k1'] at across
  refine tip_limit num quad hq kind kind' s hb.stiff hf hv phi hL (a0 := aheadLeft lp ls mp ms kp ks l c)
    (a1 := grownLeft lp ls mp ms kp ks l c) (n := lp.length + (ls.length + 3)) (k0 := kp ++ true :: true :: false :: ks)
    (k1 := kp ++ true :: false :: false :: ks) (by omega)
    ⟨fun _ _ _ => rfl, fun d => by simp [aheadLeft], fun d => rfl, continuous_const, lens, fun i => show Continuous fun _ : Set.Icc (0 : ℝ) L => nth (mp ++ 0 :: 0 :: ms) i from continuous_const⟩
    ⟨fun _ _ _ => rfl, fun d => by simp [grownLeft], fun d => rfl, continuous_const, lens, fun i => show Continuous fun _ : Set.Icc (0 : ℝ) L => nth (mp ++ 0 :: 0 :: ms) i from continuous_const⟩
    h0 h1 (lp.length + 1) (by omega) (support_differs kp ks _ hkp rfl rfl) (fun d => nth_mid _ _ _ _ _ rfl)
    (fun d => nth_mid _ _ _ _ _ rfl) _ ?_ ?_
  · have e1 : aheadLeft lp ls mp ms kp ks l c 0 = after lp (c :: ls) mp (0 :: ms) kp (false :: ks) l 0 true := by
      simp [aheadLeft, after]
    have e2 : crackLeft lp ls mp ms kp ks l c = before lp (c :: ls) mp (0 :: ms) kp (false :: ks) (l + 0) true := by
      simp [crackLeft, before]
    have g := h0 0 h00
    rw [e1] at g
    rw [e2] at h hsup
    have := C21_splitting num kind'' kind phi lp (c :: ls) mp (0 :: ms) kp (false :: ks) l 0 true s _ _ C (C0 0) _ _ hb hc hf hv hkp hmp
      hl le_rfl hsup h g (lp.length + 1) (by simp [after]) 0
    rw [← e1, ← e2] at this
    have o1 : origin lp.length (lp.length + 1) = lp.length := by simp [origin]
    have o2 : offset lp.length l (lp.length + 1) = l := by simp [offset]
    rw [o1, o2, l0', k0', zero_add] at this
    have n1 : nth (aheadLeft lp ls mp ms kp ks l c 0).li (lp.length + 1) = 0 := nth_mid _ _ _ _ _ rfl
    have n2 : (aheadLeft lp ls mp ms kp ks l c 0).ki.getD (lp.length + 1) false = true := getD_mid _ _ _ _ _ hkp
    rw [n1, n2] at this
    rw [this]
    exact ⟨rfl, rfl⟩
  · have e1 : grownLeft lp ls mp ms kp ks l c 0 = after (lp ++ [l]) ls (mp ++ [0]) ms (kp ++ [true]) ks 0 c false := by
      simp [grownLeft, after]
    have e2 : crackLeft lp ls mp ms kp ks l c = before (lp ++ [l]) ls (mp ++ [0]) ms (kp ++ [true]) ks (0 + c) false := by
      simp [crackLeft, before]
    have g := h1 0 h00
    rw [e1] at g
    rw [e2] at h hsup
    have := C21_splitting num kind'' kind' phi (lp ++ [l]) ls (mp ++ [0]) ms (kp ++ [true]) ks 0 c false s _ _ C (C1 0) _ _ hb hc hf hv
      (by simp [hkp]) (by simp [hmp]) le_rfl hc0 hsup h g (lp.length + 1) (by simp [after]) 0
    rw [← e1, ← e2] at this
    have o1 : origin (lp ++ [l]).length (lp.length + 1) = lp.length + 1 := by simp [origin]
    have o2 : offset (lp ++ [l]).length 0 (lp.length + 1) = 0 := by simp [offset]
    rw [o1, o2, l1', k1', zero_add] at this
    have n1 : nth (grownLeft lp ls mp ms kp ks l c 0).li (lp.length + 1) = 0 := nth_mid _ _ _ _ _ rfl
    have n2 : (grownLeft lp ls mp ms kp ks l c 0).ki.getD (lp.length + 1) false = false := getD_mid _ _ _ _ _ hkp
    rw [n1, n2] at this
    rw [this]
    exact across

/-- C65, right tip. -/
theorem C65_right_partial (num : Numerics) (quad : Quad) (hq : QuadOk quad 0) (kind kind' kind'' : SeqKind) (s s' : Self)
    (hb : BedOk s) (hc : ShearOk s) (hf : EigFresh num.eig s) (hv : NoFaceTouchdown s) (phi : ℝ) (lp ls mp ms : List ℝ) (kp ks : List Bool)
    (hkp : kp.length = lp.length) (hmp : mp.length = lp.length) (l c L : ℝ) (hc0 : 0 ≤ c) (hL : 0 < L) (hLl : L ≤ l)
    (hsup : Supported (crackRight lp ls mp ms kp ks c l)) (C : List Vec6) (a : SegLists)
    (h : assembleAndSolve num kind'' phi (crackRight lp ls mp ms kp ks c l) s = (.ok (C, a), s'))
    (C0 C1 : ℝ → List Vec6)
    (h0 : ∀ d ∈ Set.Icc 0 L, assembleAndSolve num kind phi (aheadRight lp ls mp ms kp ks c l d) s
      = (.ok (C0 d, aheadRight lp ls mp ms kp ks c l d), s))
    (h1 : ∀ d ∈ Set.Icc 0 L, assembleAndSolve num kind' phi (grownRight lp ls mp ms kp ks c l d) s
      = (.ok (C1 d, grownRight lp ls mp ms kp ks c l d), s)) :
    ∃ I II : ℝ → ℝ, (∀ d ∈ Set.Ioc 0 L, ginc quad s phi (advance (aheadRight lp ls mp ms kp ks c l d)
        (grownRight lp ls mp ms kp ks c l d).ki (C0 d) (C1 d)) = some (I d + II d, I d, II d)) ∧
      Tendsto I (𝓝[>] 0) (𝓝 (fGi s (zsol s c (C.getD lp.length 0) c phi false))) ∧
      Tendsto II (𝓝[>] 0) (𝓝 (-fGii s (zsol s c (C.getD lp.length 0) c phi false))) := by
  have h00 : (0 : ℝ) ∈ Set.Icc (0 : ℝ) L := ⟨le_refl _, hL.le⟩
  have cs : Continuous fun d : Set.Icc (0 : ℝ) L => (d : ℝ) := continuous_subtype_val
  have lens : ∀ i, Continuous fun d : Set.Icc (0 : ℝ) L => nth (lp ++ c :: (d : ℝ) :: (l - (d : ℝ)) :: ls) i :=
    continuous_nth_append _ (continuous_nth_cons continuous_const (continuous_nth_cons cs
      (continuous_nth_cons (continuous_const.sub cs) fun _ => continuous_const)))
  have hl : 0 ≤ l := hL.le.trans hLl
  have hmt := (solved_meets hf hv h).2
  have tr := hmt.trans lp.length (by simp [crackRight])
  have across := slip_across hb.stiff.kA55.ne' (congrArg (fun F : ℝ × ℝ × ℝ => F.2.2) (jump_zero s phi _ _ <| by
    show nth (mp ++ 0 :: ms) lp.length = 0
    rw [← hmp, nth_append, if_neg (lt_irrefl _), Nat.sub_self]; rfl)) tr
  have l0' : nth (crackRight lp ls mp ms kp ks c l).li lp.length = c := by
    show nth (lp ++ c :: l :: ls) lp.length = c
    rw [nth_append, if_neg (lt_irrefl _), Nat.sub_self]; rfl
  have l1' : nth (crackRight lp ls mp ms kp ks c l).li (lp.length + 1) = l := nth_mid _ _ _ _ _ rfl
  have k0' : (crackRight lp ls mp ms kp ks c l).ki.getD lp.length false = false := by
    rw [← hkp]; exact getD_at kp (true :: ks) false false
  have k1' : (crackRight lp ls mp ms kp ks c l).ki.getD (lp.length + 1) false = true := getD_mid _ _ _ _ _ hkp
  simp only [stateAt, l0', l1', k0', k1'] at across
  refine tip_limit num quad hq kind kind' s hb.stiff hf hv phi hL (a0 := aheadRight lp ls mp ms kp ks c l)
    (a1 := grownRight lp ls mp ms kp ks c l) (n := lp.length + (ls.length + 3)) (k0 := kp ++ false :: true :: true :: ks)
    (k1 := kp ++ false :: false :: true :: ks) (by omega)
    ⟨fun _ _ _ => rfl, fun d => by simp [aheadRight], fun d => rfl, continuous_const, lens, fun i => show Continuous fun _ : Set.Icc (0 : ℝ) L => nth (mp ++ 0 :: 0 :: ms) i from continuous_const⟩
    ⟨fun _ _ _ => rfl, fun d => by simp [grownRight], fun d => rfl, continuous_const, lens, fun i => show Continuous fun _ : Set.Icc (0 : ℝ) L => nth (mp ++ 0 :: 0 :: ms) i from continuous_const⟩
    h0 h1 (lp.length + 1) (by omega) (support_differs kp ks _ hkp rfl rfl) (fun d => nth_mid _ _ _ _ _ rfl)
    (fun d => nth_mid _ _ _ _ _ rfl) _ ?_ ?_
  · have e1 : aheadRight lp ls mp ms kp ks c l 0 = after (lp ++ [c]) ls (mp ++ [0]) ms (kp ++ [false]) ks 0 l true := by
      simp [aheadRight, after]
    have e2 : crackRight lp ls mp ms kp ks c l = before (lp ++ [c]) ls (mp ++ [0]) ms (kp ++ [false]) ks (0 + l) true := by
      simp [crackRight, before]
    have g := h0 0 h00
    rw [e1] at g
    rw [e2] at h hsup
    have := C21_splitting num kind'' kind phi (lp ++ [c]) ls (mp ++ [0]) ms (kp ++ [false]) ks 0 l true s _ _ C (C0 0) _ _ hb hc hf hv
      (by simp [hkp]) (by simp [hmp]) le_rfl hl hsup h g (lp.length + 1) (by simp [after]) 0
    rw [← e1, ← e2] at this
    have o1 : origin (lp ++ [c]).length (lp.length + 1) = lp.length + 1 := by simp [origin]
    have o2 : offset (lp ++ [c]).length 0 (lp.length + 1) = 0 := by simp [offset]
    rw [o1, o2, l1', k1', zero_add] at this
    have n1 : nth (aheadRight lp ls mp ms kp ks c l 0).li (lp.length + 1) = 0 := nth_mid _ _ _ _ _ rfl
    have n2 : (aheadRight lp ls mp ms kp ks c l 0).ki.getD (lp.length + 1) false = true := getD_mid _ _ _ _ _ hkp
    rw [n1, n2] at this
    rw [this]
    exact across
  · have e1 : grownRight lp ls mp ms kp ks c l 0 = after lp (l :: ls) mp (0 :: ms) kp (true :: ks) c 0 false := by
      simp [grownRight, after]
    have e2 : crackRight lp ls mp ms kp ks c l = before lp (l :: ls) mp (0 :: ms) kp (true :: ks) (c + 0) false := by
      simp [crackRight, before]
    have g := h1 0 h00
    rw [e1] at g
    rw [e2] at h hsup
    have := C21_splitting num kind'' kind' phi lp (l :: ls) mp (0 :: ms) kp (true :: ks) c 0 false s _ _ C (C1 0) _ _ hb hc hf hv hkp hmp
      hc0 le_rfl hsup h g (lp.length + 1) (by simp [after]) 0
    rw [← e1, ← e2] at this
    have o1 : origin lp.length (lp.length + 1) = lp.length := by simp [origin]
    have o2 : offset lp.length c (lp.length + 1) = c := by simp [offset]
    rw [o1, o2, l0', k0', zero_add] at this
    have n1 : nth (grownRight lp ls mp ms kp ks c l 0).li (lp.length + 1) = 0 := nth_mid _ _ _ _ _ rfl
    have n2 : (grownRight lp ls mp ms kp ks c l 0).ki.getD (lp.length + 1) false = false := getD_mid _ _ _ _ _ hkp
    rw [n1, n2] at this
    rw [this]
    exact ⟨rfl, rfl⟩

/-! ## Both tips -/

/-- A crack between two supported segments, with a weight `m` on it. -/
def Spec.crackBoth (lp ls mp ms : List ℝ) (kp ks : List Bool) (l1 c1 c2 l2 m : ℝ) : SegLists :=
  ⟨lp ++ l1 :: c1 :: c2 :: l2 :: ls, mp ++ 0 :: m :: 0 :: ms, kp ++ true :: false :: false :: true :: ks⟩

/-- The same beam cut at the distance `d` ahead of both tips. -/
def Spec.aheadBoth (lp ls mp ms : List ℝ) (kp ks : List Bool) (l1 c1 c2 l2 m d : ℝ) : SegLists :=
  ⟨lp ++ (l1 - d) :: d :: c1 :: c2 :: d :: (l2 - d) :: ls, mp ++ 0 :: 0 :: m :: 0 :: 0 :: ms,
    kp ++ true :: true :: false :: false :: true :: true :: ks⟩

/-- The same beam when the crack has grown by `d` at both tips. -/
def Spec.grownBoth (lp ls mp ms : List ℝ) (kp ks : List Bool) (l1 c1 c2 l2 m d : ℝ) : SegLists :=
  ⟨lp ++ (l1 - d) :: d :: c1 :: c2 :: d :: (l2 - d) :: ls, mp ++ 0 :: 0 :: m :: 0 :: 0 :: ms,
    kp ++ true :: false :: false :: false :: false :: true :: ks⟩

theorem filter_two {n i j : ℕ} (hij : i < j) (hj : j < n) {P : ℕ → Bool} (h : ∀ m, P m = true ↔ m = i ∨ m = j) :
    (List.range n).filter P = [i, j] := by
  have e : ∀ m, (List.range m).filter P = (if i < m then [i] else []) ++ if j < m then [j] else [] := by
    intro m
    induction m with
    | zero => simp
    | succ m ih =>
      rw [List.range_succ, List.filter_append, ih]
      by_cases hm : m = i
      · rw [List.filter_cons_of_pos ((h m).mpr (.inl hm)), if_neg (by omega), if_neg (by omega), if_pos (by omega), if_neg (by omega), hm]
        rfl
      · by_cases hm' : m = j
        · rw [List.filter_cons_of_pos ((h m).mpr (.inr hm')), if_pos (by omega), if_neg (by omega), if_pos (by omega), if_pos (by omega), hm']
          rfl
        · rw [List.filter_cons_of_neg (by rw [h]; omega)]
          simp only [List.filter_nil, List.append_nil]
          have e1 : (i < m + 1) = (i < m) := propext ⟨fun _ => by omega, fun _ => by omega⟩
          have e2 : (j < m + 1) = (j < m) := propext ⟨fun _ => by omega, fun _ => by omega⟩
          simp only [e1, e2]
  rw [e n, if_pos (by omega), if_pos hj]
  rfl

theorem advance_two {a : SegLists} {ki : List Bool} {C0 C1 : List Vec6} {i j : ℕ} (hij : i < j) (hj : j < a.li.length)
    (h : ∀ m, (a.ki.getD m false && !ki.getD m false) = true ↔ m = i ∨ m = j) :
    ((advance a ki C0 C1).filter fun g => g.k0 && !g.ki) = [⟨C0.getD i 0, C1.getD i 0, nth a.li i, false, true⟩,
      ⟨C0.getD j 0, C1.getD j 0, nth a.li j, false, true⟩] := by
  unfold advance
  rw [List.filter_map, filter_two hij hj (P := (fun g : IncSeg => g.k0 && !g.ki) ∘ fun i =>
    (⟨C0.getD i 0, C1.getD i 0, nth a.li i, ki.getD i false, a.ki.getD i false⟩ : IncSeg)) h]
  obtain ⟨h1, h2⟩ : a.ki.getD i false = true ∧ ki.getD i false = false := by simpa using (h i).mpr (.inl rfl)
  obtain ⟨h3, h4⟩ : a.ki.getD j false = true ∧ ki.getD j false = false := by simpa using (h j).mpr (.inr rfl)
  simp only [List.map_cons, List.map_nil, h1, h2, h3, h4]

theorem two_tip_limit (num : Numerics) (quad : Quad) (hq : QuadOk quad 0) (kind kind' : SeqKind) (s : Self) (hs : Stiff s)
    (hf : EigFresh num.eig s) (hv : NoFaceTouchdown s) (phi : ℝ)
    {L : ℝ} (hL : 0 < L) {a0 a1 : ℝ → SegLists} {n : ℕ} {k0 k1 : List Bool} (hn : n ≠ 1)
    (v0 : Varies s (fun _ : Set.Icc (0 : ℝ) L => phi) (fun d => a0 d) n k0)
    (v1 : Varies s (fun _ : Set.Icc (0 : ℝ) L => phi) (fun d => a1 d) n k1) {C0 C1 : ℝ → List Vec6}
    (h0 : ∀ d ∈ Set.Icc 0 L, assembleAndSolve num kind phi (a0 d) s = (.ok (C0 d, a0 d), s))
    (h1 : ∀ d ∈ Set.Icc 0 L, assembleAndSolve num kind' phi (a1 d) s = (.ok (C1 d, a1 d), s))
    (i j : ℕ) (hij : i < j) (hj : j < n) (hk : ∀ m, (k0.getD m false && !k1.getD m false) = true ↔ m = i ∨ m = j)
    (l0 : ∀ m, m = i ∨ m = j → ∀ d, nth (a0 d).li m = d) (l1 : ∀ m, m = i ∨ m = j → ∀ d, nth (a1 d).li m = d) (y z : Vec6)
    (g0 : zsol s 0 ((C0 0).getD i 0) 0 phi true 2 = y 2 ∧ s.beam.slip (zsol s 0 ((C0 0).getD i 0) 0 phi true) = s.beam.slip y)
    (g1 : zsol s 0 ((C1 0).getD i 0) 0 phi false 2 = y 2 ∧ s.beam.slip (zsol s 0 ((C1 0).getD i 0) 0 phi false) = s.beam.slip y)
    (g2 : zsol s 0 ((C0 0).getD j 0) 0 phi true 2 = z 2 ∧ s.beam.slip (zsol s 0 ((C0 0).getD j 0) 0 phi true) = s.beam.slip z)
    (g3 : zsol s 0 ((C1 0).getD j 0) 0 phi false 2 = z 2 ∧ s.beam.slip (zsol s 0 ((C1 0).getD j 0) 0 phi false) = s.beam.slip z) :
    ∃ I II : ℝ → ℝ, (∀ d ∈ Set.Ioc 0 L, ginc quad s phi (advance (a0 d) (a1 d).ki (C0 d) (C1 d)) = some (I d + II d, I d, II d)) ∧
      Tendsto I (𝓝[>] 0) (𝓝 ((fGi s y + fGi s z) / 2)) ∧ Tendsto II (𝓝[>] 0) (𝓝 (-((fGii s y + fGii s z) / 2))) := by
  obtain ⟨b0, b1⟩ : k0.getD i false = true ∧ k1.getD i false = false := by simpa using (hk i).mpr (.inl rfl)
  obtain ⟨b2, b3⟩ : k0.getD j false = true ∧ k1.getD j false = false := by simpa using (hk j).mpr (.inr rfl)
  have val : ∀ d ∈ Set.Ioc 0 L, ginc quad s phi (advance (a0 d) (a1 d).ki (C0 d) (C1 d))
      = some ((normalWork s phi ⟨(C0 d).getD i 0, (C1 d).getD i 0, d, false, true⟩ / d
          + normalWork s phi ⟨(C0 d).getD j 0, (C1 d).getD j 0, d, false, true⟩ / d) / 4
        + -((shearWork s phi ⟨(C0 d).getD i 0, (C1 d).getD i 0, d, false, true⟩ / d
          + shearWork s phi ⟨(C0 d).getD j 0, (C1 d).getD j 0, d, false, true⟩ / d) / 4),
        (normalWork s phi ⟨(C0 d).getD i 0, (C1 d).getD i 0, d, false, true⟩ / d
          + normalWork s phi ⟨(C0 d).getD j 0, (C1 d).getD j 0, d, false, true⟩ / d) / 4,
        -((shearWork s phi ⟨(C0 d).getD i 0, (C1 d).getD i 0, d, false, true⟩ / d
          + shearWork s phi ⟨(C0 d).getD j 0, (C1 d).getD j 0, d, false, true⟩ / d) / 4)) := by
    intro d hd
    have hd' : d ∈ Set.Icc 0 L := ⟨hd.1.le, hd.2⟩
    have s0 := v0.support ⟨d, hd'⟩
    have s1 := v1.support ⟨d, hd'⟩
    have ln := v0.len ⟨d, hd'⟩
    simp only at s0 s1 ln
    have hadv := advance_two (a := a0 d) (ki := (a1 d).ki) (C0 := C0 d) (C1 := C1 d) hij (by rw [ln]; exact hj)
      (by rw [s0, s1]; exact hk)
    rw [l0 i (.inl rfl), l0 j (.inr rfl)] at hadv
    have hd0 := hd.1
    obtain ⟨I, II, g, e1, e2⟩ := C31_ginc_partial quad 0 hq s hs.t.ne' phi _ _ hadv.symm (d + d) (by simp) (by linarith)
    simp only [mul_zero, zero_div, List.map_cons, List.map_nil, List.sum_cons, List.sum_nil, add_zero] at e1 e2
    have e1 := sub_eq_zero.mp (abs_nonpos_iff.mp e1)
    have e2 := eq_neg_of_add_eq_zero_left (abs_nonpos_iff.mp e2)
    rw [g, e1, e2]
    generalize normalWork s phi _ = n1
    generalize normalWork s phi _ = n2
    generalize shearWork s phi _ = t1
    generalize shearWork s phi _ = t2
    have q1 : ∀ p q : ℝ, (p + q) / (2 * (d + d)) = (p / d + q / d) / 4 := by
      intro p q; field_simp; ring
    rw [q1, q1]
  have t1 := fun m (hm : m = i ∨ m = j) e0 e1 => strip_limit num kind kind' s hf hv phi hL hn v0 v1 h0 h1 m true false e0 e1
    (l0 m hm) (l1 m hm) (fun y z => s.kn * y 2 * z 2) (by fun_prop)
  have t2 := fun m (hm : m = i ∨ m = j) e0 e1 => strip_limit num kind kind' s hf hv phi hL hn v0 v1 h0 h1 m true false e0 e1
    (l0 m hm) (l1 m hm) (fun y z => s.beam.tau y * s.beam.slip z) (by unfold Beam.tau Beam.slip; fun_prop)
  have hkn := hs.kn.ne'
  have hkt := hs.kt.ne'
  refine ⟨_, _, val, ?_, ?_⟩
  · have e : (fGi s y + fGi s z) / 2
        = (s.kn * zsol s 0 ((C0 0).getD i 0) 0 phi true 2 * zsol s 0 ((C1 0).getD i 0) 0 phi false 2
        + s.kn * zsol s 0 ((C0 0).getD j 0) 0 phi true 2 * zsol s 0 ((C1 0).getD j 0) 0 phi false 2) / 4 := by
      rw [g0.1, g1.1, g2.1, g3.1]
      simp only [fGi, fsig, fw]
      field_simp
      ring
    rw [e]
    exact ((t1 i (.inl rfl) b0 b1).add (t1 j (.inr rfl) b2 b3)).div_const 4
  · have h1 : ∀ x, s.beam.tau x = s.kt * s.beam.slip x := fun _ => rfl
    have e : -((fGii s y + fGii s z) / 2)
        = -((s.beam.tau (zsol s 0 ((C0 0).getD i 0) 0 phi true) * s.beam.slip (zsol s 0 ((C1 0).getD i 0) 0 phi false)
        + s.beam.tau (zsol s 0 ((C0 0).getD j 0) 0 phi true) * s.beam.slip (zsol s 0 ((C1 0).getD j 0) 0 phi false)) / 4) := by
      rw [h1, h1, g0.2, g1.2, g2.2, g3.2, fGii, fGii, ftau_slip, ftau_slip]
      field_simp
      ring
    rw [e]
    exact (((t2 i (.inl rfl) b0 b1).add (t2 j (.inr rfl) b2 b3)).div_const 4).neg

theorem valid_after {s : Self} {lp ls mp ms : List ℝ} {kp ks : List Bool} {l l1 l2 : ℝ} {k : Bool}
    (h : Valid s (before lp ls mp ms kp ks l k)) : Valid s (after lp ls mp ms kp ks l1 l2 k) := by
  obtain ⟨h1, h2, h3, h4⟩ := h
  refine ⟨?_, ?_, ?_, fun hf => ?_⟩
  · simp only [before, after, List.mem_append, List.mem_cons] at h1 ⊢; tauto
  · simp only [before, after, List.length_append, List.length_cons] at h2 ⊢; omega
  · simp only [before, after, List.length_append, List.length_cons] at h3 ⊢; omega
  · obtain ⟨e1, e2⟩ := h4 hf
    simp only [before, after] at e1 e2 ⊢
    constructor
    · cases kp <;> simpa using e1
    · rw [List.getLast?_append] at e2 ⊢
      simpa [List.getLast?_cons_cons] using e2

set_option maxHeartbeats 1000000 in
/-- C65, crack that grows by the same length at both tips: the limits are the means of the
two tips, as in the differential energy release rate of a centre crack (C30). -/
theorem C65_both_partial (num : Numerics) (quad : Quad) (hq : QuadOk quad 0) (kind kind' kind'' : SeqKind) (s s' : Self)
    (hb : BedOk s) (hc : ShearOk s) (hf : EigFresh num.eig s) (hv : NoFaceTouchdown s)
    (hsys : IsPst s ∨ IsVpst s ∨ IsSkier s ∨ IsAux s) (hst : IsPst s → s.mode ≠ .unset) (hsp : IsPst s → s.mode = .C → RestOk num s)
    (phi : ℝ) (lp ls mp ms : List ℝ) (kp ks : List Bool) (hkp : kp.length = lp.length) (hmp : mp.length = lp.length)
    (l1 c1 c2 l2 m L : ℝ) (hL : 0 < L) (hL1 : L ≤ l1)
    (hsup : Supported (crackBoth lp ls mp ms kp ks l1 c1 c2 l2 m)) (C : List Vec6) (a : SegLists)
    (h : assembleAndSolve num kind'' phi (crackBoth lp ls mp ms kp ks l1 c1 c2 l2 m) s = (.ok (C, a), s'))
    (C0 C1 : ℝ → List Vec6)
    (h0 : ∀ d ∈ Set.Icc 0 L, assembleAndSolve num kind phi (aheadBoth lp ls mp ms kp ks l1 c1 c2 l2 m d) s
      = (.ok (C0 d, aheadBoth lp ls mp ms kp ks l1 c1 c2 l2 m d), s))
    (h1 : ∀ d ∈ Set.Icc 0 L, assembleAndSolve num kind' phi (grownBoth lp ls mp ms kp ks l1 c1 c2 l2 m d) s
      = (.ok (C1 d, grownBoth lp ls mp ms kp ks l1 c1 c2 l2 m d), s)) :
    ∃ I II : ℝ → ℝ, (∀ d ∈ Set.Ioc 0 L, ginc quad s phi (advance (aheadBoth lp ls mp ms kp ks l1 c1 c2 l2 m d)
        (grownBoth lp ls mp ms kp ks l1 c1 c2 l2 m d).ki (C0 d) (C1 d)) = some (I d + II d, I d, II d)) ∧
      Tendsto I (𝓝[>] 0) (𝓝 ((fGi s (zsol s l1 (C.getD lp.length 0) l1 phi true)
        + fGi s (zsol s c2 (C.getD (lp.length + 2) 0) c2 phi false)) / 2)) ∧
      Tendsto II (𝓝[>] 0) (𝓝 (-((fGii s (zsol s l1 (C.getD lp.length 0) l1 phi true)
        + fGii s (zsol s c2 (C.getD (lp.length + 2) 0) c2 phi false)) / 2))) := by
  have h00 : (0 : ℝ) ∈ Set.Icc (0 : ℝ) L := ⟨le_refl _, hL.le⟩
  have cs : Continuous fun d : Set.Icc (0 : ℝ) L => (d : ℝ) := continuous_subtype_val
  have lens : ∀ i, Continuous fun d : Set.Icc (0 : ℝ) L => nth (lp ++ (l1 - (d : ℝ)) :: (d : ℝ) :: c1 :: c2 :: (d : ℝ) :: (l2 - (d : ℝ)) :: ls) i :=
    continuous_nth_append _ (continuous_nth_cons (continuous_const.sub cs) (continuous_nth_cons cs
      (continuous_nth_cons continuous_const (continuous_nth_cons continuous_const (continuous_nth_cons cs
      (continuous_nth_cons (continuous_const.sub cs) fun _ => continuous_const))))))
  have wts : ∀ i, Continuous fun _ : Set.Icc (0 : ℝ) L => nth (mp ++ 0 :: 0 :: m :: 0 :: 0 :: ms) i := fun _ => continuous_const
  have hl1 : 0 < l1 := hL.trans_le hL1
  have nn := hsup.nonneg
  have hc1 : 0 ≤ c1 := nn c1 (by simp [crackBoth])
  have hc2 : 0 ≤ c2 := nn c2 (by simp [crackBoth])
  have hl2 : 0 ≤ l2 := nn l2 (by simp [crackBoth])
  obtain ⟨hval, hmt⟩ := solved_meets hf hv h
  have at_ : ∀ (p q : List ℝ) (i : ℕ), nth (p ++ q) (p.length + i) = nth q i := fun p q i => by
    rw [nth_append, if_neg (by omega), Nat.add_sub_cancel_left]
  have atl : ∀ (q : List ℝ) (i : ℕ), nth (lp ++ q) (lp.length + i) = nth q i := fun q i => at_ lp q i
  have atm : ∀ (q : List ℝ) (i : ℕ), nth (mp ++ q) (lp.length + i) = nth q i := fun q i => hmp ▸ at_ mp q i
  have atk : ∀ (q : List Bool) (i : ℕ), (kp ++ q).getD (lp.length + i) false = q.getD i false := fun q i => by
    rw [← hkp, List.getD_append_right _ _ _ _ (by omega), Nat.add_sub_cancel_left]
  -- the beam as it is
  have A1 := slip_across hb.stiff.kA55.ne' (congrArg (fun F : ℝ × ℝ × ℝ => F.2.2) (jump_zero s phi _ _ <| by
    show nth (mp ++ 0 :: m :: 0 :: ms) (lp.length + 0) = 0
    rw [atm]; rfl)) (hmt.trans (lp.length + 0) (by simp [crackBoth]))
  have A2 := slip_across hb.stiff.kA55.ne' (congrArg (fun F : ℝ × ℝ × ℝ => F.2.2) (jump_zero s phi _ _ <| by
    show nth (mp ++ 0 :: m :: 0 :: ms) (lp.length + 2) = 0
    rw [atm]; rfl)) (hmt.trans (lp.length + 2) (by simp [crackBoth]; omega))
  have L0 : nth (crackBoth lp ls mp ms kp ks l1 c1 c2 l2 m).li (lp.length + 0) = l1 := atl _ 0
  have L1 : nth (crackBoth lp ls mp ms kp ks l1 c1 c2 l2 m).li (lp.length + 0 + 1) = c1 := atl _ 1
  have L2 : nth (crackBoth lp ls mp ms kp ks l1 c1 c2 l2 m).li (lp.length + 2) = c2 := atl _ 2
  have L3 : nth (crackBoth lp ls mp ms kp ks l1 c1 c2 l2 m).li (lp.length + 2 + 1) = l2 := atl _ 3
  have K0 : (crackBoth lp ls mp ms kp ks l1 c1 c2 l2 m).ki.getD (lp.length + 0) false = true := atk _ 0
  have K1 : (crackBoth lp ls mp ms kp ks l1 c1 c2 l2 m).ki.getD (lp.length + 0 + 1) false = false := atk _ 1
  have K2 : (crackBoth lp ls mp ms kp ks l1 c1 c2 l2 m).ki.getD (lp.length + 2) false = false := atk _ 2
  have K3 : (crackBoth lp ls mp ms kp ks l1 c1 c2 l2 m).ki.getD (lp.length + 2 + 1) false = true := atk _ 3
  simp only [stateAt, L0, L1, L2, L3, K0, K1, K2, K3] at A1 A2
  -- cut ahead of the left tip, inside or outside the crack
  have solveMid : ∀ a : SegLists, Valid s a → Supported a → a.li.length ≠ 1 →
      ∃ C, assembleAndSolve num .list phi a s = (.ok (C, full a), s) := fun a v sp hn =>
    (C18_held num .list phi a s hb hc hf v (.inl rfl) hsys (fun h _ => hst h) (fun h _ => hsp h) (sp.held s)).imp fun _ h => h.1
  have lenA : (aheadBoth lp ls mp ms kp ks l1 c1 c2 l2 m 0).li.length = lp.length + (ls.length + 6) := by simp [aheadBoth]
  have hk : ∀ i, ((kp ++ true :: true :: false :: false :: true :: true :: ks).getD i false
      && !(kp ++ true :: false :: false :: false :: false :: true :: ks).getD i false) = true ↔ i = lp.length + 1 ∨ i = lp.length + 4 := by
    intro i
    by_cases hi : i < kp.length
    · rw [List.getD_append _ _ _ _ hi, List.getD_append _ _ _ _ hi]
      constructor
      · intro h; simp at h
      · intro h; omega
    · obtain ⟨r, rfl⟩ : ∃ r, i = lp.length + r := ⟨i - lp.length, by omega⟩
      rw [atk, atk]
      match r with
      | 0 => simp
      | 1 => simp
      | 2 => simp
      | 3 => simp
      | 4 => simp
      | 5 => simp
      | r + 6 => simp
  have ahead : zsol s 0 ((C0 0).getD (lp.length + 1) 0) 0 phi true = zsol s l1 (C.getD lp.length 0) l1 phi true ∧
      zsol s 0 ((C0 0).getD (lp.length + 4) 0) 0 phi true = zsol s 0 (C.getD (lp.length + 3) 0) l2 phi true := by
    have E1 : crackBoth lp ls mp ms kp ks l1 c1 c2 l2 m
        = before lp (c1 :: c2 :: l2 :: ls) mp (0 :: m :: 0 :: ms) kp (false :: false :: true :: ks) (l1 + 0) true := by
      simp [crackBoth, before]
    have E2 : after lp (c1 :: c2 :: l2 :: ls) mp (0 :: m :: 0 :: ms) kp (false :: false :: true :: ks) l1 0 true
        = before (lp ++ [l1, 0, c1, c2]) ls (mp ++ [0, 0, m, 0]) ms (kp ++ [true, true, false, false]) ks (0 + l2) true := by
      simp [after, before]
    have E3 : aheadBoth lp ls mp ms kp ks l1 c1 c2 l2 m 0
        = after (lp ++ [l1, 0, c1, c2]) ls (mp ++ [0, 0, m, 0]) ms (kp ++ [true, true, false, false]) ks 0 l2 true := by
      simp [aheadBoth, after]
    have sup2 : Supported (after lp (c1 :: c2 :: l2 :: ls) mp (0 :: m :: 0 :: ms) kp (false :: false :: true :: ks) l1 0 true) := by
      refine ⟨fun x hx => ?_, lp.length + 0, by simp [after], atk _ 0, ?_⟩
      · simp only [after, List.mem_append, List.mem_cons] at hx
        rcases hx with hx | rfl | rfl | hx
        · exact nn x (by simp [crackBoth, hx])
        · exact hl1.le
        · exact le_rfl
        · exact nn x (by simp only [crackBoth, List.mem_append, List.mem_cons]; tauto)
      · have : nth (after lp (c1 :: c2 :: l2 :: ls) mp (0 :: m :: 0 :: ms) kp (false :: false :: true :: ks) l1 0 true).li (lp.length + 0) = l1 :=
          atl _ 0
        rw [this]; exact hl1
    obtain ⟨D, hD⟩ := solveMid _ (valid_after (E1 ▸ hval)) sup2 (by simp only [after, List.length_append, List.length_cons]; omega)
    have f1 := C21_splitting num kind'' .list phi lp (c1 :: c2 :: l2 :: ls) mp (0 :: m :: 0 :: ms) kp (false :: false :: true :: ks) l1 0 true
      s _ _ C D _ _ hb hc hf hv hkp hmp hl1.le le_rfl (E1 ▸ hsup) (E1 ▸ h) hD
    have f2 := C21_splitting num .list kind phi (lp ++ [l1, 0, c1, c2]) ls (mp ++ [0, 0, m, 0]) ms (kp ++ [true, true, false, false]) ks 0 l2 true
      s _ _ D (C0 0) _ _ hb hc hf hv (by simp [hkp]) (by simp [hmp]) le_rfl hl2 (E2 ▸ sup2) (E2 ▸ hD) (E3 ▸ h0 0 h00)
    rw [← E1] at f1
    rw [← E2, ← E3] at f2
    have n1 : nth (aheadBoth lp ls mp ms kp ks l1 c1 c2 l2 m 0).li (lp.length + 1) = 0 := atl _ 1
    have n4 : nth (aheadBoth lp ls mp ms kp ks l1 c1 c2 l2 m 0).li (lp.length + 4) = 0 := atl _ 4
    have b1 : (aheadBoth lp ls mp ms kp ks l1 c1 c2 l2 m 0).ki.getD (lp.length + 1) false = true := atk _ 1
    have b4 : (aheadBoth lp ls mp ms kp ks l1 c1 c2 l2 m 0).ki.getD (lp.length + 4) false = true := atk _ 4
    have pl : (lp ++ [l1, 0, c1, c2]).length = lp.length + 4 := by simp
    constructor
    · have g2 := f2 (lp.length + 1) (by rw [lenA]; omega) 0
      have g1 := f1 (lp.length + 1) (by simp [after]) 0
      have o1 : origin (lp.length + 4) (lp.length + 1) = lp.length + 1 := by simp [origin]
      have o2 : offset (lp.length + 4) 0 (lp.length + 1) = 0 := by simp [offset]
      have o3 : origin lp.length (lp.length + 1) = lp.length + 0 := by simp [origin]
      have o4 : offset lp.length l1 (lp.length + 1) = l1 := by simp [offset]
      rw [pl, o1, o2, n1, b1, add_zero, g1, o3, o4, L0, K0, zero_add] at g2
      exact g2
    · have g2 := f2 (lp.length + 4) (by rw [lenA]; omega) 0
      have g1 := f1 (lp.length + 4) (by simp [after]) 0
      have o1 : origin (lp.length + 4) (lp.length + 4) = lp.length + 4 := by simp [origin]
      have o2 : offset (lp.length + 4) 0 (lp.length + 4) = 0 := by simp [offset]
      have o3 : origin lp.length (lp.length + 4) = lp.length + 2 + 1 := by simp [origin]
      have o4 : offset lp.length l1 (lp.length + 4) = 0 := by simp [offset]
      rw [pl, o1, o2, n4, b4, add_zero, g1, o3, o4, L3, K3, zero_add] at g2
      exact g2
  have grown : zsol s 0 ((C1 0).getD (lp.length + 1) 0) 0 phi false = zsol s 0 (C.getD (lp.length + 1) 0) c1 phi false ∧
      zsol s 0 ((C1 0).getD (lp.length + 4) 0) 0 phi false = zsol s c2 (C.getD (lp.length + 2) 0) c2 phi false := by
    have E1 : crackBoth lp ls mp ms kp ks l1 c1 c2 l2 m
        = before (lp ++ [l1]) (c2 :: l2 :: ls) (mp ++ [0]) (m :: 0 :: ms) (kp ++ [true]) (false :: true :: ks) (0 + c1) false := by
      simp [crackBoth, before]
    have E2 : after (lp ++ [l1]) (c2 :: l2 :: ls) (mp ++ [0]) (m :: 0 :: ms) (kp ++ [true]) (false :: true :: ks) 0 c1 false
        = before (lp ++ [l1, 0, c1]) (l2 :: ls) (mp ++ [0, 0, m]) (0 :: ms) (kp ++ [true, false, false]) (true :: ks) (c2 + 0) false := by
      simp [after, before]
    have E3 : grownBoth lp ls mp ms kp ks l1 c1 c2 l2 m 0
        = after (lp ++ [l1, 0, c1]) (l2 :: ls) (mp ++ [0, 0, m]) (0 :: ms) (kp ++ [true, false, false]) (true :: ks) c2 0 false := by
      simp [grownBoth, after]
    have E4 : after (lp ++ [l1]) (c2 :: l2 :: ls) (mp ++ [0]) (m :: 0 :: ms) (kp ++ [true]) (false :: true :: ks) 0 c1 false
        = ⟨lp ++ l1 :: 0 :: c1 :: c2 :: l2 :: ls, mp ++ 0 :: 0 :: m :: 0 :: ms, kp ++ true :: false :: false :: false :: true :: ks⟩ := by
      simp [after]
    have sup2 : Supported (after (lp ++ [l1]) (c2 :: l2 :: ls) (mp ++ [0]) (m :: 0 :: ms) (kp ++ [true]) (false :: true :: ks) 0 c1 false) := by
      rw [E4]
      refine ⟨fun x hx => ?_, lp.length + 0, by simp, atk _ 0, ?_⟩
      · simp only [List.mem_append, List.mem_cons] at hx
        rcases hx with hx | rfl | rfl | hx
        · exact nn x (by simp [crackBoth, hx])
        · exact hl1.le
        · exact le_rfl
        · exact nn x (by simp only [crackBoth, List.mem_append, List.mem_cons]; tauto)
      · rw [atl]; exact hl1
    obtain ⟨D, hD⟩ := solveMid _ (valid_after (E1 ▸ hval)) sup2 (by simp only [after, List.length_append, List.length_cons]; omega)
    have f1 := C21_splitting num kind'' .list phi (lp ++ [l1]) (c2 :: l2 :: ls) (mp ++ [0]) (m :: 0 :: ms) (kp ++ [true]) (false :: true :: ks)
      0 c1 false s _ _ C D _ _ hb hc hf hv (by simp [hkp]) (by simp [hmp]) le_rfl hc1 (E1 ▸ hsup) (E1 ▸ h) hD
    have f2 := C21_splitting num .list kind' phi (lp ++ [l1, 0, c1]) (l2 :: ls) (mp ++ [0, 0, m]) (0 :: ms) (kp ++ [true, false, false]) (true :: ks)
      c2 0 false s _ _ D (C1 0) _ _ hb hc hf hv (by simp [hkp]) (by simp [hmp]) hc2 le_rfl (E2 ▸ sup2) (E2 ▸ hD) (E3 ▸ h1 0 h00)
    rw [← E1] at f1
    rw [← E2, ← E3] at f2
    have lenG : (grownBoth lp ls mp ms kp ks l1 c1 c2 l2 m 0).li.length = lp.length + (ls.length + 6) := by simp [grownBoth]
    have n1 : nth (grownBoth lp ls mp ms kp ks l1 c1 c2 l2 m 0).li (lp.length + 1) = 0 := atl _ 1
    have n4 : nth (grownBoth lp ls mp ms kp ks l1 c1 c2 l2 m 0).li (lp.length + 4) = 0 := atl _ 4
    have b1 : (grownBoth lp ls mp ms kp ks l1 c1 c2 l2 m 0).ki.getD (lp.length + 1) false = false := atk _ 1
    have b4 : (grownBoth lp ls mp ms kp ks l1 c1 c2 l2 m 0).ki.getD (lp.length + 4) false = false := atk _ 4
    have pl : (lp ++ [l1, 0, c1]).length = lp.length + 3 := by simp
    have pl' : (lp ++ [l1]).length = lp.length + 1 := by simp
    constructor
    · have g2 := f2 (lp.length + 1) (by rw [lenG]; omega) 0
      have g1 := f1 (lp.length + 1) (by simp [after]) 0
      have o1 : origin (lp.length + 3) (lp.length + 1) = lp.length + 1 := by simp [origin]
      have o2 : offset (lp.length + 3) c2 (lp.length + 1) = 0 := by simp [offset]
      have o3 : origin (lp.length + 1) (lp.length + 1) = lp.length + 0 + 1 := by simp [origin]
      have o4 : offset (lp.length + 1) 0 (lp.length + 1) = 0 := by simp [offset]
      rw [pl, o1, o2, n1, b1, add_zero, g1, pl', o3, o4, L1, K1, zero_add] at g2
      exact g2
    · have g2 := f2 (lp.length + 4) (by rw [lenG]; omega) 0
      have g1 := f1 (lp.length + 3) (by simp [after]) c2
      have o1 : origin (lp.length + 3) (lp.length + 4) = lp.length + 3 := by simp [origin]
      have o2 : offset (lp.length + 3) c2 (lp.length + 4) = c2 := by simp [offset]
      have o3 : origin (lp.length + 1) (lp.length + 3) = lp.length + 2 := by simp [origin]
      have o4 : offset (lp.length + 1) 0 (lp.length + 3) = 0 := by simp [offset]
      rw [pl, o1, o2, n4, b4, zero_add, g1, pl', o3, o4, L2, K2, add_zero] at g2
      exact g2
  refine two_tip_limit num quad hq kind kind' s hb.stiff hf hv phi hL (a0 := aheadBoth lp ls mp ms kp ks l1 c1 c2 l2 m)
    (a1 := grownBoth lp ls mp ms kp ks l1 c1 c2 l2 m) (n := lp.length + (ls.length + 6))
    (k0 := kp ++ true :: true :: false :: false :: true :: true :: ks)
    (k1 := kp ++ true :: false :: false :: false :: false :: true :: ks) (by omega)
    ⟨fun _ _ _ => rfl, fun d => by simp [aheadBoth], fun d => rfl, continuous_const, lens, wts⟩
    ⟨fun _ _ _ => rfl, fun d => by simp [grownBoth], fun d => rfl, continuous_const, lens, wts⟩
    h0 h1 (lp.length + 1) (lp.length + 4) (by omega) (by omega) hk ?_ ?_ _ _ ?_ ?_ ?_ ?_
  · rintro i (rfl | rfl) d
    · exact atl _ 1
    · exact atl _ 4
  · rintro i (rfl | rfl) d
    · exact atl _ 1
    · exact atl _ 4
  · rw [ahead.1]; exact ⟨rfl, rfl⟩
  · rw [grown.1]; exact A1
  · rw [ahead.2]; exact A2
  · rw [grown.2]; exact ⟨rfl, rfl⟩

/-! ## Against `gdif` -/

/-- C65 for the saw test: the limits are what `gdif` returns, up to the sign of mode II. -/
theorem C65_saw_partial (num : Numerics) (quad : Quad) (hq : QuadOk quad 0) (kind kind' kind'' : SeqKind) (s s' : Self)
    (hb : BedOk s) (hc : ShearOk s) (hf : EigFresh num.eig s) (hv : NoFaceTouchdown s) (phi l c L : ℝ) (hc0 : 0 ≤ c)
    (hL : 0 < L) (hLl : L ≤ l) (C : List Vec6) (a : SegLists)
    (h : assembleAndSolve num kind'' phi ⟨[l, c], [0], [true, false]⟩ s = (.ok (C, a), s'))
    (C0 C1 : ℝ → List Vec6)
    (h0 : ∀ d ∈ Set.Icc 0 L, assembleAndSolve num kind phi ⟨[l - d, d, c], [0, 0], [true, true, false]⟩ s
      = (.ok (C0 d, ⟨[l - d, d, c], [0, 0], [true, true, false]⟩), s))
    (h1 : ∀ d ∈ Set.Icc 0 L, assembleAndSolve num kind' phi ⟨[l - d, d, c], [0, 0], [true, false, false]⟩ s
      = (.ok (C1 d, ⟨[l - d, d, c], [0, 0], [true, false, false]⟩), s)) :
    ∃ (I II : ℝ → ℝ) (GI GII : ℝ),
      gdif s phi [⟨C.getD 0 0, true, l⟩, ⟨C.getD 1 0, false, c⟩] "kJ/m^2" true = .ok (GI + GII, GI, GII) ∧
      (∀ d ∈ Set.Ioc 0 L, ginc quad s phi [⟨(C0 d).getD 0 0, (C1 d).getD 0 0, l - d, true, true⟩,
        ⟨(C0 d).getD 1 0, (C1 d).getD 1 0, d, false, true⟩, ⟨(C0 d).getD 2 0, (C1 d).getD 2 0, c, false, false⟩]
          = some (I d + II d, I d, II d)) ∧
      Tendsto I (𝓝[>] 0) (𝓝 GI) ∧ Tendsto II (𝓝[>] 0) (𝓝 (-GII)) := by
  obtain ⟨I, II, g, t1, t2⟩ := C65_left_partial num quad hq kind kind' kind'' s s' hb hc hf hv phi [] [] [] [] [] [] rfl rfl l c L hc0 hL hLl
    ⟨by simp [crackLeft, hc0, hL.le.trans hLl], 0, by simp [crackLeft], rfl, hL.trans_le hLl⟩ C a h C0 C1 h0 h1
  have tips : ∀ i, CrackTip ([(⟨C.getD 0 0, true, l⟩ : Seg), ⟨C.getD 1 0, false, c⟩].map Seg.k) i ↔ i = 0 := by
    intro i
    unfold CrackTip
    simp only [List.map_cons, List.map_nil, List.length_cons, List.length_nil]
    constructor
    · rintro ⟨h, -⟩; omega
    · rintro rfl; exact ⟨by omega, by simp⟩
  refine ⟨I, II, _, _, C30_edge_crack s phi _ 0 tips, fun d hd => ?_, t1, t2⟩
  have := g d hd
  simpa [advance, aheadLeft, grownLeft, List.range_succ, nth] using this

/-- C65 for a crack below a skier. -/
theorem C65_centre_partial (num : Numerics) (quad : Quad) (hq : QuadOk quad 0) (kind kind' kind'' : SeqKind) (s s' : Self)
    (hb : BedOk s) (hc : ShearOk s) (hf : EigFresh num.eig s) (hs : IsSkier s) (phi l1 c1 c2 l2 m L : ℝ)
    (hc1 : 0 ≤ c1) (hc2 : 0 ≤ c2) (hL : 0 < L) (hL1 : L ≤ l1) (hL2 : L ≤ l2) (C : List Vec6) (a : SegLists)
    (h : assembleAndSolve num kind'' phi ⟨[l1, c1, c2, l2], [0, m, 0], [true, false, false, true]⟩ s = (.ok (C, a), s'))
    (C0 C1 : ℝ → List Vec6)
    (h0 : ∀ d ∈ Set.Icc 0 L, assembleAndSolve num kind phi
        ⟨[l1 - d, d, c1, c2, d, l2 - d], [0, 0, m, 0, 0], [true, true, false, false, true, true]⟩ s
      = (.ok (C0 d, ⟨[l1 - d, d, c1, c2, d, l2 - d], [0, 0, m, 0, 0], [true, true, false, false, true, true]⟩), s))
    (h1 : ∀ d ∈ Set.Icc 0 L, assembleAndSolve num kind' phi
        ⟨[l1 - d, d, c1, c2, d, l2 - d], [0, 0, m, 0, 0], [true, false, false, false, false, true]⟩ s
      = (.ok (C1 d, ⟨[l1 - d, d, c1, c2, d, l2 - d], [0, 0, m, 0, 0], [true, false, false, false, false, true]⟩), s)) :
    ∃ (I II : ℝ → ℝ) (GI GII : ℝ),
      gdif s phi [⟨C.getD 0 0, true, l1⟩, ⟨C.getD 1 0, false, c1⟩, ⟨C.getD 2 0, false, c2⟩, ⟨C.getD 3 0, true, l2⟩] "kJ/m^2" true
        = .ok (GI + GII, GI, GII) ∧
      (∀ d ∈ Set.Ioc 0 L, ginc quad s phi (advance
        ⟨[l1 - d, d, c1, c2, d, l2 - d], [0, 0, m, 0, 0], [true, true, false, false, true, true]⟩
        [true, false, false, false, false, true] (C0 d) (C1 d)) = some (I d + II d, I d, II d)) ∧
      Tendsto I (𝓝[>] 0) (𝓝 GI) ∧ Tendsto II (𝓝[>] 0) (𝓝 (-GII)) := by
  have hv : ¬ IsVpst s := by
    unfold IsVpst
    rcases hs with h | h <;> rw [h] <;> decide
  have hp : ¬ IsPst s := by
    unfold IsPst
    rcases hs with h | h <;> rw [h] <;> decide
  have hl1 := hL.trans_le hL1
  have hl2 := hL.trans_le hL2
  obtain ⟨I, II, g, t1, t2⟩ := C65_both_partial num quad hq kind kind' kind'' s s' hb hc hf (fun h => absurd h hv)
    (.inr (.inr (.inl hs))) (fun h => absurd h hp) (fun h => absurd h hp) phi [] [] [] [] [] [] rfl rfl l1 c1 c2 l2 m L hL hL1
    ⟨by simp [crackBoth, hc1, hc2, hl1.le, hl2.le], 0, by simp [crackBoth], rfl, hl1⟩ C a h C0 C1 h0 h1
  set segs : List Seg := [⟨C.getD 0 0, true, l1⟩, ⟨C.getD 1 0, false, c1⟩, ⟨C.getD 2 0, false, c2⟩, ⟨C.getD 3 0, true, l2⟩] with hsegs
  have tips : ∀ i, CrackTip (segs.map Seg.k) i ↔ i = 0 ∨ i = 2 := by
    intro i
    unfold CrackTip
    simp only [hsegs, List.map_cons, List.map_nil, List.length_cons, List.length_nil]
    constructor
    · rintro ⟨h, h'⟩
      match i, h with
      | 0, _ => exact .inl rfl
      | 1, _ => simp at h'
      | 2, _ => exact .inr rfl
    · rintro (rfl | rfl)
      · exact ⟨by omega, by simp⟩
      · exact ⟨by omega, by simp⟩
  exact ⟨I, II, _, _, C30_centre_crack s phi segs 0 2 (by omega) (by simp [SupportedAt, hsegs]) tips, g, t1, t2⟩

/-! ## Concrete cases -/

theorem exists_exact_quad : ∃ quad : Quad, QuadOk quad 0 :=
  ⟨fun f a b => ∫ x in a..b, f x, fun f a b _ => by simp⟩

/-- The saw test of the examples. -/
example (quad : Quad) (hq : QuadOk quad 0) : ∃ (C : List Vec6) (C0 C1 : ℝ → List Vec6) (I II : ℝ → ℝ) (GI GII : ℝ),
    assembleAndSolve stdNum .list 30 (pstLists 200) (pstDemo .A 200) = (.ok (C, pstLists 200), pstDemo .A 200) ∧
    gdif (pstDemo .A 200) 30 [⟨C.getD 0 0, true, 1000⟩, ⟨C.getD 1 0, false, 200⟩] "kJ/m^2" true = .ok (GI + GII, GI, GII) ∧
    (∀ d ∈ Set.Ioc (0 : ℝ) 500, ginc quad (pstDemo .A 200) 30 [⟨(C0 d).getD 0 0, (C1 d).getD 0 0, 1000 - d, true, true⟩,
        ⟨(C0 d).getD 1 0, (C1 d).getD 1 0, d, false, true⟩, ⟨(C0 d).getD 2 0, (C1 d).getD 2 0, 200, false, false⟩]
          = some (I d + II d, I d, II d)) ∧
    Tendsto I (𝓝[>] 0) (𝓝 GI) ∧ Tendsto II (𝓝[>] 0) (𝓝 (-GII)) := by
  obtain ⟨C, h, -⟩ := pstDemo_solved .A (by simp) .list 30
  have ex : ∀ b : Bool, ∀ d : ℝ, ∃ C, d ∈ Set.Icc (0 : ℝ) 500 → assembleAndSolve stdNum .list 30
      ⟨[1000 - d, d, 200], [0, 0], [true, b, false]⟩ (pstDemo .A 200)
      = (.ok (C, ⟨[1000 - d, d, 200], [0, 0], [true, b, false]⟩), pstDemo .A 200) := by
    intro b d
    by_cases hd : d ∈ Set.Icc (0 : ℝ) 500
    · have hfull : full ⟨[1000 - d, d, 200], [0, 0], [true, b, false]⟩ = ⟨[1000 - d, d, 200], [0, 0], [true, b, false]⟩ := by
        unfold full; rw [if_neg (by simp)]
      have d0 := hd.1
      have d5 := hd.2
      obtain ⟨C, h1, -⟩ := C18_unique_solution stdNum .list 30 ⟨[1000 - d, d, 200], [0, 0], [true, b, false]⟩ (pstDemo .A 200)
        (pstDemo_bedOk _ _) (pstDemo_shear _ _) (pstDemo_fresh _ _)
        ⟨by simp, rfl, rfl, fun h => absurd (show finiteSystem "pst-" by decide) h⟩ (.inl rfl) (.inl (pstDemo_isPst _ _))
        (fun _ _ => by simp [pstDemo, Self.stage]) (fun _ _ _ => pstDemo_rest _)
        ⟨by
          intro x hx
          simp only [List.mem_cons, List.not_mem_nil, or_false] at hx
          rcases hx with rfl | rfl | rfl <;> linarith, 0, by simp, by simp, by simp only [nth, List.getD_cons_zero]; linarith⟩
      rw [hfull] at h1
      exact ⟨C, fun _ => h1⟩
    · exact ⟨[], fun h => absurd h hd⟩
  choose C0 h0 using ex true
  choose C1 h1 using ex false
  obtain ⟨I, II, GI, GII, g1, g2, g3, g4⟩ := C65_saw_partial stdNum quad hq .list .list .list (pstDemo .A 200) _ (pstDemo_bedOk _ _)
    (pstDemo_shear _ _) (pstDemo_fresh _ _) (pstDemo_noFace _ _) 30 1000 200 500 (by norm_num) (by norm_num) (by norm_num) C _ h C0 C1 h0 h1
  exact ⟨C, C0, C1, I, II, GI, GII, h, g1, g2, g3, g4⟩

end Weac
