import Verif.Lemmas.Stability

/-!
# A long supported column forgets its length

Chains whose first segment is supported and loaded by given forces at its
beginning. The state at the other end of this segment, and in all other
segments, depends on the length of the first segment by an exponentially small
amount only.
-/

namespace Weac.Spec

variable {b : Beam}

/-- Solution of a chain under load, with end conditions. -/
structure Column (b : Beam) (n : ℕ) (k : ℕ → Bool) (g F : ℕ → ℝ × ℝ × ℝ) (e0 e1 : EndCond) (l : ℕ → ℝ)
    (Y : ℕ → ℝ → Vec6) : Prop where
  nonneg : ∀ i < n, 0 ≤ l i
  driven : ∀ i < n, Driven b (k i) (g i) (Y i)
  bvp : Bvp b n F e0 e1 (fun i => Y i 0) (fun i => Y i (l i))

/-- Lengths with that of the first segment replaced. -/
def first (l : ℕ → ℝ) (L : ℝ) (i : ℕ) : ℝ := if i = 0 then L else l i

theorem abs_flux_le (z : Vec6) : |b.flux z| ≤ b.fluxNorm * ‖z‖ ^ 2 := by
  have hz := fun q => norm_le_pi_norm z q
  simp only [Real.norm_eq_abs] at hz
  have := flux_le (b := b) z (hz 0) (hz 2) (hz 4)
  linarith

/-- Distance over which disturbances of a supported segment decay. -/
theorem exists_decay (hb : b.Coercive) : ∃ r C, 0 < r ∧ 0 < C ∧ ∀ f : ℝ → Vec6, SolvesODE b Loads.zero true f → ∀ l, 1 ≤ l →
    b.flux (f l) ≤ 0 → ∀ x ∈ Set.Icc 0 l, ‖f x‖ ≤ C * ‖f 0‖ * Real.exp (-(x / r)) := by
  obtain ⟨C, hC, hloc⟩ := local_bound hb one_pos
  have hF := fluxNorm_nonneg (b := b)
  set κ := b.fluxNorm * C + 1 with hκ
  have hκ0 : 0 < κ := by positivity
  have hκ1 : 1 ≤ κ := by rw [hκ]; have : 0 ≤ b.fluxNorm * C := by positivity
                         linarith
  set c := C * b.fluxNorm * Real.exp (2 / κ) with hc
  have hc0 : 0 ≤ c := by positivity
  refine ⟨2 * κ, Real.sqrt c + 1, by positivity, by positivity, fun f hf l hl hfl x hx => ?_⟩
  have mono := flux_mono hb hf
  have neg : ∀ y ≤ l, 0 ≤ -b.flux (f y) := fun y hy => by
    have := mono hy
    simp only at this
    linarith
  have step : ∀ y, y + 1 ≤ l → -b.flux (f (y + 1)) ≤ Real.exp (-(1 / κ)) * -b.flux (f y) := by
    intro y hy
    have h1 := hloc f hf y y ⟨le_rfl, by linarith⟩
    have h2 := (abs_le.1 (abs_flux_le (b := b) (f y))).1
    have h3 := mul_le_mul_of_nonneg_left h1 hF
    have h4 : -b.flux (f y) ≤ κ * (b.flux (f (y + 1)) - b.flux (f y)) := by
      have := mono (by linarith : y ≤ y + 1)
      simp only at this
      rw [hκ]
      linarith
    have h5 : -b.flux (f y) / κ ≤ b.flux (f (y + 1)) - b.flux (f y) := by rw [div_le_iff₀ hκ0]; linarith
    have h6 : 1 - 1 / κ ≤ Real.exp (-(1 / κ)) := by have := Real.add_one_le_exp (-(1 / κ)); linarith
    have h7 := mul_le_mul_of_nonneg_right h6 (neg y (by linarith))
    have e : (1 - 1 / κ) * -b.flux (f y) = -b.flux (f y) - -b.flux (f y) / κ := by ring
    linarith
  have pow : ∀ m : ℕ, (m : ℝ) ≤ l → -b.flux (f m) ≤ Real.exp (-(m / κ)) * -b.flux (f 0) := by
    intro m
    induction m with
    | zero => intro _; simp
    | succ m ih =>
      intro hm
      push_cast at hm ⊢
      refine (step m hm).trans ?_
      have h1 := mul_le_mul_of_nonneg_left (ih (by linarith)) (Real.exp_pos (-(1 / κ))).le
      refine h1.trans (le_of_eq ?_)
      rw [← mul_assoc, ← Real.exp_add]
      congr 2
      field_simp
      ring
  have all : ∀ y ∈ Set.Icc 0 l, -b.flux (f y) ≤ Real.exp ((1 - y) / κ) * -b.flux (f 0) := by
    intro y hy
    have h1 := Nat.floor_le hy.1
    have h2 := (Nat.lt_floor_add_one y).le
    have h3 := pow ⌊y⌋₊ (h1.trans hy.2)
    have h4 := mono h1
    simp only at h4
    have h5 : Real.exp (-(⌊y⌋₊ / κ)) ≤ Real.exp ((1 - y) / κ) := by
      rw [Real.exp_le_exp, ← neg_div]
      exact div_le_div_of_nonneg_right (by linarith) hκ0.le
    have := mul_le_mul_of_nonneg_right h5 (neg 0 (by linarith))
    linarith
  set p := min x (l - 1) with hp
  have p0 : 0 ≤ p := le_min hx.1 (by linarith)
  have p1 : p ≤ l - 1 := min_le_right _ _
  have p2 : x - 1 ≤ p := le_min (by linarith) (by linarith [hx.2])
  have h1 := hloc f hf p x ⟨min_le_left _ _, by linarith⟩
  have h2 := all p ⟨p0, by linarith⟩
  have h3 := neg (p + 1) (by linarith)
  have h4 : Real.exp ((1 - p) / κ) ≤ Real.exp (2 / κ) * Real.exp (-(x / κ)) := by
    rw [← Real.exp_add, Real.exp_le_exp, ← neg_div, ← add_div]
    exact div_le_div_of_nonneg_right (by linarith) hκ0.le
  have h5 : -b.flux (f 0) ≤ b.fluxNorm * ‖f 0‖ ^ 2 := by
    have := (abs_le.1 (abs_flux_le (b := b) (f 0))).1
    linarith
  have h6 : ‖f x‖ ^ 2 ≤ c * ‖f 0‖ ^ 2 * Real.exp (-(x / κ)) := by
    calc ‖f x‖ ^ 2 ≤ C * -b.flux (f p) := h1.trans (mul_le_mul_of_nonneg_left (by linarith) hC.le)
      _ ≤ C * ((Real.exp (2 / κ) * Real.exp (-(x / κ))) * (b.fluxNorm * ‖f 0‖ ^ 2)) := by
        refine mul_le_mul_of_nonneg_left (h2.trans ?_) hC.le
        exact mul_le_mul h4 h5 (neg 0 (by linarith)) (by positivity)
      _ = _ := by rw [hc]; ring
  have h7 := le_of_sq_le_exp (by positivity) h6
  rw [Real.sqrt_mul hc0, Real.sqrt_sq (norm_nonneg _)] at h7
  refine h7.trans (mul_le_mul_of_nonneg_right ?_ (Real.exp_pos _).le)
  exact mul_le_mul_of_nonneg_right (by linarith) (norm_nonneg _)

theorem holds_near {e : EndCond} {z : Vec6} (h : e.Holds b z) {ε : ℝ} (hε : 0 ≤ ε) : e.Near b ε z := by
  cases e with
  | forces N M V => obtain ⟨h1, h2, h3⟩ := h; simp [EndCond.Near, h1, h2, h3, hε]
  | contact N kR w => obtain ⟨h1, h2, h3⟩ := h; simp [EndCond.Near, h1, h2, h3, hε]
  | state u w psi => obtain ⟨h1, h2, h3⟩ := h; simp [EndCond.Near, h1, h2, h3, hε]

theorem near_of_trans {F : ℝ × ℝ × ℝ} {zl zr : Vec6} (h : Transmission b F zl zr) {ε : ℝ} (hε : 0 ≤ ε) : NearTransmission b ε F zl zr := by
  obtain ⟨h1, h2, h3, h4, h5, h6⟩ := h
  exact ⟨by simp [h1, hε], by simp [h2, hε], by simp [h3, hε], by simp [h4, hε], by simp [h5, hε], by simp [h6, hε]⟩

/-- The states of columns of any length are bounded. -/
theorem column_bound (hb : b.Coercive) {n : ℕ} (hn : 2 ≤ n) {k : ℕ → Bool} (k0 : k 0 = true) {g F : ℕ → ℝ × ℝ × ℝ} {N M V : ℝ}
    {e1 : EndCond} (he : e1.PassiveRight) {z : Vec6} (hz : Driven b true (g 0) fun _ => z) {l : ℕ → ℝ} {Yr : ℕ → ℝ → Vec6}
    (hr : Column b n k g F (.forces N M V) e1 (first l 1) Yr) :
    ∃ K, 0 ≤ K ∧ ∀ L, 1 ≤ L → ∀ Y, Column b n k g F (.forces N M V) e1 (first l L) Y → ∀ x ∈ Set.Icc 0 L, ‖Y 0 x - z‖ ≤ K := by
  set R := ∑ i ∈ Finset.range n, |l i| with hR
  obtain ⟨K, hK, main⟩ := rough_bound hb n R one_pos
  set y := Yr 1 0 with hy
  set ε := |N - b.N z| + |M - b.M z| + |V - b.V z| + (|y 0 - z 0| + |y 2 - z 2| + |y 4 - z 4|) +
    (|(F 0).1 + b.N y - b.N z| + |(F 0).2.1 + b.M y - b.M z| + |(F 0).2.2 + b.V y - b.V z|) with hε
  have hε0 : 0 ≤ ε := by positivity
  have eN : ∀ z z', b.N (z - z') = b.N z - b.N z' := fun z z' => by simp [Beam.N]; ring
  have eM : ∀ z z', b.M (z - z') = b.M z - b.M z' := fun z z' => by simp [Beam.M]; ring
  have eV : ∀ z z', b.V (z - z') = b.V z - b.V z' := fun z z' => by simp [Beam.V]; ring
  refine ⟨K * ε, by positivity, fun L hL Y h x hx => ?_⟩
  have a1 := abs_nonneg (N - b.N z)
  have a2 := abs_nonneg (M - b.M z)
  have a3 := abs_nonneg (V - b.V z)
  have a4 := abs_nonneg (y 0 - z 0)
  have a5 := abs_nonneg (y 2 - z 2)
  have a6 := abs_nonneg (y 4 - z 4)
  have a7 := abs_nonneg ((F 0).1 + b.N y - b.N z)
  have a8 := abs_nonneg ((F 0).2.1 + b.M y - b.M z)
  have a9 := abs_nonneg ((F 0).2.2 + b.V y - b.V z)
  have hrough : Rough b ε n k (first l L) (.forces N M V) e1 fun i x => Y i x - if i = 0 then z else Yr i x := by
    refine ⟨fun i hi => ?_, ?_, ?_, fun i hi => ?_⟩
    · rcases Nat.eq_zero_or_pos i with rfl | hpos
      · have := (h.driven 0 hi)
        rw [k0] at this ⊢
        simpa using this.sub hz
      · simpa [hpos.ne'] using (h.driven i hi).sub (hr.driven i hi)
    · obtain ⟨h1, h2, h3⟩ := h.bvp.left
      simp only [EndCond.hom, EndCond.Near, if_true, eN, eM, eV, sub_zero, h1, h2, h3]
      exact ⟨by linarith, by linarith, by linarith⟩
    · have e0 : n - 1 ≠ 0 := by omega
      have h1 := hr.bvp.right
      have h2 := h.bvp.right
      simp only [first, e0, if_false] at h1 h2 ⊢
      exact holds_near (h2.sub h1) hε0
    · rcases Nat.eq_zero_or_pos i with rfl | hpos
      · obtain ⟨h1, h2, h3, h4, h5, h6⟩ := h.bvp.trans 0 hi
        simp only [first, if_true] at h1 h2 h3 h4 h5 h6
        simp only [first, if_true, Nat.add_one_ne_zero, if_false]
        rw [zero_add] at h1 h2 h3 h4 h5 h6 ⊢
        rw [← hy]
        refine ⟨?_, ?_, ?_, ?_, ?_, ?_⟩
        · rw [Pi.sub_apply, Pi.sub_apply, show Y 0 L 0 - z 0 - (Y 1 0 0 - y 0) = y 0 - z 0 by rw [h1]; ring]; linarith
        · rw [Pi.sub_apply, Pi.sub_apply, show Y 0 L 2 - z 2 - (Y 1 0 2 - y 2) = y 2 - z 2 by rw [h2]; ring]; linarith
        · rw [Pi.sub_apply, Pi.sub_apply, show Y 0 L 4 - z 4 - (Y 1 0 4 - y 4) = y 4 - z 4 by rw [h3]; ring]; linarith
        · rw [eN, eN, show b.N (Y 0 L) - b.N z - (b.N (Y 1 0) - b.N y) - 0 = (F 0).1 + b.N y - b.N z by rw [← h4]; ring]; linarith
        · rw [eM, eM, show b.M (Y 0 L) - b.M z - (b.M (Y 1 0) - b.M y) - 0 = (F 0).2.1 + b.M y - b.M z by rw [← h5]; ring]; linarith
        · rw [eV, eV, show b.V (Y 0 L) - b.V z - (b.V (Y 1 0) - b.V y) - 0 = (F 0).2.2 + b.V y - b.V z by rw [← h6]; ring]; linarith
      · have h1 := hr.bvp.trans i hi
        have h2 := h.bvp.trans i hi
        simp only [first, hpos.ne', if_false, Nat.add_one_ne_zero] at h1 h2 ⊢
        exact near_of_trans (h2.sub h1) hε0
  have hanch : Anchored 1 R n k (first l L) := by
    refine ⟨h.nonneg, ⟨0, by omega, k0, by simpa [first] using hL⟩, fun i hi => ?_⟩
    rcases Nat.eq_zero_or_pos i with rfl | hpos
    · exact .inl ⟨k0, by simpa [first] using hL⟩
    · refine .inr ?_
      simp only [first, hpos.ne', if_false]
      exact (le_abs_self _).trans (Finset.single_le_sum (f := fun i => |l i|) (fun _ _ => abs_nonneg _) (Finset.mem_range.2 hi))
  have := main k (first l L) (.forces N M V) e1 _ ε trivial he hε0 hrough hanch 0 (by omega) x (by simpa [first] using hx)
  simpa using this

/-- Columns of different length: with the first segments aligned at their ends,
the states differ by an amount that decays exponentially from the beginning of
the shorter one. The distance `r` depends on the beam only. -/
theorem column_length (hb : b.Coercive) : ∃ r, 0 < r ∧ ∀ {n : ℕ} (_ : 2 ≤ n) {k : ℕ → Bool} (_ : k 0 = true) {g F : ℕ → ℝ × ℝ × ℝ}
    {N M V : ℝ} {e1 : EndCond} (_ : e1.PassiveRight) {z : Vec6} (_ : Driven b true (g 0) fun _ => z) {l : ℕ → ℝ} {Yr : ℕ → ℝ → Vec6}
    (_ : Column b n k g F (.forces N M V) e1 (first l 1) Yr),
    ∃ K, 0 < K ∧ ∀ L L', 1 ≤ L → L ≤ L' → ∀ Y Y', Column b n k g F (.forces N M V) e1 (first l L) Y →
      Column b n k g F (.forces N M V) e1 (first l L') Y' →
        (∀ x ∈ Set.Icc 0 L, ‖Y 0 x - Y' 0 (x + (L' - L))‖ ≤ K * Real.exp (-(x / r))) ∧
        ∀ i, 0 < i → i < n → ∀ x ∈ Set.Icc 0 (l i), ‖Y i x - Y' i x‖ ≤ K * Real.exp (-(L / r)) := by
  obtain ⟨r, C, hr, hC, hdec⟩ := exists_decay hb
  refine ⟨r, hr, fun {n} hn {k} k0 {g F N M V e1} he {z} hz {l Yr} hYr => ?_⟩
  obtain ⟨K, hK, bound⟩ := column_bound hb hn k0 he hz hYr
  set R := ∑ i ∈ Finset.range n, |l i| with hR
  obtain ⟨Kt, hKt, gt⟩ := solves_growth hb true R
  obtain ⟨Kf, hKf, gf⟩ := solves_growth hb false R
  set G := max Kt Kf with hG
  have hG1 : 1 ≤ G := hKt.trans (le_max_left _ _)
  have grow : ∀ (bed : Bool) (f : ℝ → Vec6), SolvesODE b Loads.zero bed f → ∀ x, 0 ≤ x → x ≤ R → ‖f x‖ ≤ G * ‖f 0‖ := by
    intro bed f hf x h0 hx
    have hx' : |x - 0| ≤ R := by rw [sub_zero, abs_of_nonneg h0]; exact hx
    cases bed with
    | true => exact (gt f hf 0 x hx').trans (mul_le_mul_of_nonneg_right (le_max_left _ _) (norm_nonneg _))
    | false => exact (gf f hf 0 x hx').trans (mul_le_mul_of_nonneg_right (le_max_right _ _) (norm_nonneg _))
  have hlR : ∀ i < n, l i ≤ R := fun i hi =>
    (le_abs_self _).trans (Finset.single_le_sum (f := fun i => |l i|) (fun _ _ => abs_nonneg _) (Finset.mem_range.2 hi))
  set A := C * (2 * K + 1) with hA
  have hA0 : 0 < A := by positivity
  have hGn : 1 ≤ G ^ n := one_le_pow₀ hG1
  refine ⟨G ^ n * A, by positivity, fun L L' hL hLL Y Y' h h' => ?_⟩
  set D : ℕ → ℝ → Vec6 := fun i x => Y i x - Y' i (x + if i = 0 then L' - L else 0) with hD
  have hq : Quiet b n k (first l L) D := by
    refine ⟨h.nonneg, fun i hi => ?_, fun i hi => ?_⟩
    · have h2 : Driven b (k i) (g i) fun x => Y' i (x + if i = 0 then L' - L else 0) := by
        intro x
        obtain ⟨dz, h3, h4⟩ := h'.driven i hi (x + if i = 0 then L' - L else 0)
        exact ⟨dz, h3.comp_add_const _ _, h4⟩
      exact (h.driven i hi).sub h2
    · have h1 := h.bvp.trans i hi
      have h2 := h'.bvp.trans i hi
      rcases Nat.eq_zero_or_pos i with rfl | hpos
      · simp only [first, if_true] at h1 h2
        simp only [hD, first, if_true, Nat.add_one_ne_zero, if_false, add_zero, add_sub_cancel]
        exact h1.sub h2
      · simp only [first, hpos.ne', if_false] at h1 h2
        simp only [hD, first, hpos.ne', if_false, Nat.add_one_ne_zero, add_zero]
        exact h1.sub h2
  have right : b.flux (D (n - 1) (first l L (n - 1))) ≤ 0 := by
    have e0 : n - 1 ≠ 0 := by omega
    have h1 := h.bvp.right
    have h2 := h'.bvp.right
    simp only [first, e0, if_false] at h1 h2
    refine EndCond.flux_right he ?_
    simp only [hD, first, e0, if_false, add_zero]
    exact h1.sub h2
  have end0 : b.flux (D 0 L) ≤ 0 := by
    have := hq.flux_right hb (n - 1) 0 (by omega)
    simp only [first, if_true] at this
    exact this.trans right
  have s0 : SolvesODE b Loads.zero true (D 0) := k0 ▸ hq.solves 0 (by omega)
  have start : ‖D 0 0‖ ≤ 2 * K + 1 := by
    have h1 := bound L hL Y h 0 ⟨le_rfl, by linarith⟩
    have h2 := bound L' (hL.trans hLL) Y' h' (L' - L) ⟨by linarith, by linarith⟩
    have e : D 0 0 = (Y 0 0 - z) - (Y' 0 (L' - L) - z) := by simp [hD]
    rw [e]
    exact (norm_sub_le _ _).trans (by linarith)
  have main : ∀ x ∈ Set.Icc 0 L, ‖D 0 x‖ ≤ A * Real.exp (-(x / r)) := by
    intro x hx
    refine (hdec _ s0 L hL end0 x hx).trans (mul_le_mul_of_nonneg_right ?_ (Real.exp_pos _).le)
    exact mul_le_mul_of_nonneg_left start hC.le
  refine ⟨fun x hx => ?_, fun i hpos hi x hx => ?_⟩
  · have := main x hx
    simp only [hD, if_true] at this
    refine this.trans (mul_le_mul_of_nonneg_right ?_ (Real.exp_pos _).le)
    exact le_mul_of_one_le_left hA0.le hGn
  · have up : ∀ i, 0 < i → i < n → ‖D i 0‖ ≤ G ^ (i - 1) * ‖D 0 L‖ := by
      intro i
      induction i with
      | zero => intro h0; omega
      | succ i ih =>
        intro _ hi
        have e := transmission_eq hb (hq.trans i hi)
        rw [← e]
        rcases Nat.eq_zero_or_pos i with rfl | hp
        · simp [first]
        · have hl : first l L i = l i := by simp [first, hp.ne']
          rw [hl]
          have h0 := hq.nonneg i (by omega)
          rw [hl] at h0
          have h1 := grow _ _ (hq.solves i (by omega)) (l i) h0 (hlR i (by omega))
          refine h1.trans ((mul_le_mul_of_nonneg_left (ih hp (by omega)) (by linarith)).trans (le_of_eq ?_))
          rw [← mul_assoc, ← pow_succ']
          congr 2
          omega
    have h1 := grow _ _ (hq.solves i hi) x hx.1 (hx.2.trans (hlR i hi))
    have h2 := up i hpos hi
    have h3 := main L ⟨by linarith, le_rfl⟩
    have e : D i x = Y i x - Y' i x := by simp [hD, hpos.ne']
    rw [e] at h1
    refine h1.trans ?_
    calc G * ‖D i 0‖ ≤ G * (G ^ (i - 1) * ‖D 0 L‖) := mul_le_mul_of_nonneg_left h2 (by linarith)
      _ = G ^ i * ‖D 0 L‖ := by rw [← mul_assoc, ← pow_succ']; congr 2; omega
      _ ≤ G ^ n * (A * Real.exp (-(L / r))) :=
        mul_le_mul (pow_le_pow_right₀ hG1 hi.le) h3 (norm_nonneg _) (by positivity)
      _ = _ := by ring

end Weac.Spec
