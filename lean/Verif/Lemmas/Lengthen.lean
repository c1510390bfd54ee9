import Verif.Lemmas.LocalBound
import Verif.Props.Decay

/-!
# Longer end segments change a chain by little
-/

namespace Weac.Spec

variable {b : Beam}

/-- Bound for the power of the section forces. -/
noncomputable def Beam.fluxNorm (b : Beam) : ℝ := |b.A| + 2 * |b.B| + |b.D| + 2 * |b.S|

theorem flux_le (z : Vec6) {η : ℝ} (h0 : |z 0| ≤ η) (h2 : |z 2| ≤ η) (h4 : |z 4| ≤ η) : |b.flux z| ≤ b.fluxNorm * ‖z‖ * η := by
  have hz := fun q => norm_le_pi_norm z q
  simp only [Real.norm_eq_abs] at hz
  have hη : 0 ≤ η := (abs_nonneg _).trans h0
  have hn := norm_nonneg z
  have n1 : |b.N z| ≤ (|b.A| + |b.B|) * ‖z‖ := by
    unfold Beam.N
    refine (abs_add_le _ _).trans ?_
    rw [abs_mul, abs_mul]
    have := mul_le_mul_of_nonneg_left (hz 1) (abs_nonneg b.A)
    have := mul_le_mul_of_nonneg_left (hz 5) (abs_nonneg b.B)
    linarith
  have n2 : |b.M z| ≤ (|b.B| + |b.D|) * ‖z‖ := by
    unfold Beam.M
    refine (abs_add_le _ _).trans ?_
    rw [abs_mul, abs_mul]
    have := mul_le_mul_of_nonneg_left (hz 1) (abs_nonneg b.B)
    have := mul_le_mul_of_nonneg_left (hz 5) (abs_nonneg b.D)
    linarith
  have n3 : |b.V z| ≤ 2 * |b.S| * ‖z‖ := by
    unfold Beam.V
    rw [abs_mul]
    have h1 := abs_add_le (z 3) (z 4)
    have := mul_le_mul_of_nonneg_left (h1.trans (add_le_add (hz 3) (hz 4))) (abs_nonneg b.S)
    linarith
  unfold Beam.flux Beam.fluxNorm
  refine (abs_add_three _ _ _).trans ?_
  rw [abs_mul, abs_mul, abs_mul]
  have m1 := mul_le_mul n1 h0 (abs_nonneg _) (by positivity)
  have m2 := mul_le_mul n2 h4 (abs_nonneg _) (by positivity)
  have m3 := mul_le_mul n3 h2 (abs_nonneg _) (by positivity)
  linarith

/-- An unloaded chain. -/
structure Quiet (b : Beam) (n : ℕ) (k : ℕ → Bool) (l : ℕ → ℝ) (D : ℕ → ℝ → Vec6) : Prop where
  nonneg : ∀ i < n, 0 ≤ l i
  solves : ∀ i < n, SolvesODE b Loads.zero (k i) (D i)
  trans : ∀ i, i + 1 < n → Transmission b (0, 0, 0) (D i (l i)) (D (i + 1) 0)

theorem Quiet.flux_left (hb : b.Coercive) {n : ℕ} {k : ℕ → Bool} {l : ℕ → ℝ} {D : ℕ → ℝ → Vec6} (h : Quiet b n k l D) :
    ∀ i < n, b.flux (D 0 0) ≤ b.flux (D i 0)
  | 0, _ => le_rfl
  | i + 1, hi => by
    refine (h.flux_left hb i (by omega)).trans ?_
    rw [← transmission_flux (h.trans i hi)]
    exact flux_mono hb (h.solves i (by omega)) (h.nonneg i (by omega))

theorem Quiet.flux_right (hb : b.Coercive) {n : ℕ} {k : ℕ → Bool} {l : ℕ → ℝ} {D : ℕ → ℝ → Vec6} (h : Quiet b n k l D) :
    ∀ d i, i + d + 1 = n → b.flux (D i (l i)) ≤ b.flux (D (n - 1) (l (n - 1)))
  | 0, i, hi => by obtain rfl : i = n - 1 := by omega
                   exact le_rfl
  | d + 1, i, hi => by
    refine le_trans ?_ (h.flux_right hb d (i + 1) (by omega))
    rw [transmission_flux (h.trans i (by omega))]
    exact flux_mono hb (h.solves (i + 1) (by omega)) (h.nonneg (i + 1) (by omega))

/-- An unloaded chain whose ends move by `η` at most. -/
theorem quiet_bound (hb : b.Coercive) {n : ℕ} (hn : 2 ≤ n) {k : ℕ → Bool} (k0 : k 0 = true) (k1 : k (n - 1) = true)
    {d R : ℝ} (hd : 0 < d) : ∃ K, 0 < K ∧ ∀ (l : ℕ → ℝ) (D : ℕ → ℝ → Vec6), Quiet b n k l D → d ≤ l 0 → d ≤ l (n - 1) →
      (∀ i, 0 < i → i < n - 1 → l i ≤ R) → ∀ η, (∀ q ∈ ({0, 2, 4} : Set (Fin 6)), |D 0 0 q| ≤ η ∧ |D (n - 1) (l (n - 1)) q| ≤ η) →
        b.flux (D (n - 1) (l (n - 1))) - b.flux (D 0 0) ≤ K * η ^ 2 ∧
        ∀ i < n, ∀ x ∈ Set.Icc 0 (l i), ‖D i x‖ ^ 2 ≤ K * η ^ 2 := by
  obtain ⟨C, hC, hloc⟩ := local_bound hb hd
  obtain ⟨Kt, hKt, gt⟩ := solves_growth hb true R
  obtain ⟨Kf, hKf, gf⟩ := solves_growth hb false R
  set G := max Kt Kf with hG
  have hG1 : 1 ≤ G := hKt.trans (le_max_left _ _)
  have grow : ∀ (bed : Bool) (f : ℝ → Vec6), SolvesODE b Loads.zero bed f → ∀ x, 0 ≤ x → x ≤ R → ‖f x‖ ≤ G * ‖f 0‖ := by
    intro bed f hf x h0 hx
    have hx' : |x - 0| ≤ R := by rw [sub_zero, abs_of_nonneg h0]; exact hx
    cases bed with
    | true => exact (gt f hf 0 x hx').trans (mul_le_mul_of_nonneg_right (le_max_left _ _) (norm_nonneg _))
    | false => exact (gf f hf 0 x hx').trans (mul_le_mul_of_nonneg_right (le_max_right _ _) (norm_nonneg _))
  set c := b.fluxNorm + 1 with hc
  have hf0 : 0 ≤ b.fluxNorm := by unfold Beam.fluxNorm; positivity
  have hc0 : 0 < c := by linarith
  set K1 := 4 * c ^ 2 * C with hK1
  have hK1p : 0 < K1 := by positivity
  refine ⟨(G ^ n) ^ 2 * (C + 1) * K1, by positivity, fun l D h d0 d1 hR η hη => ?_⟩
  set E := b.flux (D (n - 1) (l (n - 1))) - b.flux (D 0 0) with hE
  have s0 : SolvesODE b Loads.zero true (D 0) := k0 ▸ h.solves 0 (by omega)
  have s1 : SolvesODE b Loads.zero true (D (n - 1)) := k1 ▸ h.solves (n - 1) (by omega)
  have r0 := h.flux_right hb (n - 1) 0 (by omega)
  have l1 := h.flux_left hb (n - 1) (by omega)
  have m0 := flux_mono hb s0
  have m1 := flux_mono hb s1
  have hE0 : 0 ≤ E := by
    have := m0 (h.nonneg 0 (by omega))
    simp only at this
    linarith
  -- states of the end segments
  have e0 : ∀ x ∈ Set.Icc 0 (l 0), ‖D 0 x‖ ^ 2 ≤ C * E := by
    intro x hx
    have hp : x ∈ Set.Icc (min x (l 0 - d)) (min x (l 0 - d) + d) := by
      refine ⟨min_le_left _ _, ?_⟩
      rcases le_total x (l 0 - d) with h | h
      · rw [min_eq_left h]; linarith
      · rw [min_eq_right h]; linarith [hx.2]
    have h1 : min x (l 0 - d) + d ≤ l 0 := by linarith [min_le_right x (l 0 - d)]
    have h2 : 0 ≤ min x (l 0 - d) := le_min hx.1 (by linarith)
    refine (hloc _ s0 _ _ hp).trans (mul_le_mul_of_nonneg_left ?_ hC.le)
    have a1 := m0 h1
    have a2 := m0 h2
    simp only at a1 a2
    linarith
  have e1 : ∀ x ∈ Set.Icc 0 (l (n - 1)), ‖D (n - 1) x‖ ^ 2 ≤ C * E := by
    intro x hx
    have hp : x ∈ Set.Icc (min x (l (n - 1) - d)) (min x (l (n - 1) - d) + d) := by
      refine ⟨min_le_left _ _, ?_⟩
      rcases le_total x (l (n - 1) - d) with h | h
      · rw [min_eq_left h]; linarith
      · rw [min_eq_right h]; linarith [hx.2]
    have h1 : min x (l (n - 1) - d) + d ≤ l (n - 1) := by linarith [min_le_right x (l (n - 1) - d)]
    have h2 : 0 ≤ min x (l (n - 1) - d) := le_min hx.1 (by linarith)
    refine (hloc _ s1 _ _ hp).trans (mul_le_mul_of_nonneg_left ?_ hC.le)
    have a1 := m1 h1
    have a2 := m1 h2
    simp only at a1 a2
    linarith
  -- strain energy
  have hη0 : 0 ≤ η := (abs_nonneg _).trans (hη 0 (by simp)).1
  have hEη : E ≤ K1 * η ^ 2 := by
    have f0 := flux_le (b := b) (D 0 0) (hη 0 (by simp)).1 (hη 2 (by simp)).1 (hη 4 (by simp)).1
    have f1 := flux_le (b := b) (D (n - 1) (l (n - 1))) (hη 0 (by simp)).2 (hη 2 (by simp)).2 (hη 4 (by simp)).2
    have g0 := e0 0 (Set.left_mem_Icc.2 (h.nonneg 0 (by omega)))
    have g1 := e1 _ (Set.right_mem_Icc.2 (h.nonneg (n - 1) (by omega)))
    set X := ‖D 0 0‖
    set Y := ‖D (n - 1) (l (n - 1))‖
    have hX : 0 ≤ X := norm_nonneg _
    have hY : 0 ≤ Y := norm_nonneg _
    have h1 : E ≤ c * η * (X + Y) := by
      have := (abs_le.1 f0).1
      have := (abs_le.1 f1).2
      have : 0 ≤ η * (X + Y) := by positivity
      rw [hc]
      linarith
    have h2 : (X + Y) ^ 2 ≤ 4 * (C * E) := by nlinarith [sq_nonneg (X - Y)]
    have h3 : E ^ 2 ≤ (c * η) ^ 2 * (4 * (C * E)) := by
      refine (pow_le_pow_left₀ hE0 h1 2).trans ?_
      rw [mul_pow]
      exact mul_le_mul_of_nonneg_left h2 (sq_nonneg _)
    rcases hE0.eq_or_lt with h0 | h0
    · rw [← h0]; positivity
    · have : E * E ≤ K1 * η ^ 2 * E := by rw [hK1]; linarith
      exact le_of_mul_le_mul_right this h0
  have hEC : C * E ≤ (C + 1) * K1 * η ^ 2 := by
    have h1 := mul_le_mul_of_nonneg_left hEη hC.le
    have : 0 ≤ K1 * η ^ 2 := by positivity
    linarith
  have hGn : 1 ≤ (G ^ n) ^ 2 := one_le_pow₀ (one_le_pow₀ hG1)
  have hbig : 0 ≤ (C + 1) * K1 * η ^ 2 := by positivity
  constructor
  · refine hEη.trans ?_
    have h1 : K1 * η ^ 2 ≤ (C + 1) * K1 * η ^ 2 := by
      have : 0 ≤ C * (K1 * η ^ 2) := by positivity
      linarith
    have := mul_le_mul_of_nonneg_right hGn hbig
    linarith
  · -- middle
    have start : ∀ i, i < n → 0 < i → ‖D i 0‖ ≤ G ^ i * ‖D 0 (l 0)‖ := by
      intro i
      induction i with
      | zero => intro _ h0; omega
      | succ i ih =>
        intro hi _
        rw [← transmission_eq hb (h.trans i hi)]
        rcases Nat.eq_zero_or_pos i with rfl | hpos
        · rw [zero_add, pow_one]
          exact le_mul_of_one_le_left (norm_nonneg _) hG1
        · have h1 := grow _ _ (h.solves i (by omega)) (l i) (h.nonneg i (by omega)) (hR i hpos (by omega))
          have h2 := mul_le_mul_of_nonneg_left (ih (by omega) hpos) (by linarith : (0 : ℝ) ≤ G)
          rw [pow_succ]
          linarith
    have hend := e0 _ (Set.right_mem_Icc.2 (h.nonneg 0 (by omega)))
    intro i hi x hx
    rcases Nat.eq_zero_or_pos i with rfl | hpos
    · have := e0 x hx
      have := mul_le_mul_of_nonneg_right hGn hbig
      linarith
    rcases eq_or_ne i (n - 1) with rfl | hne
    · have := e1 x hx
      have := mul_le_mul_of_nonneg_right hGn hbig
      linarith
    · have h1 := grow _ _ (h.solves i hi) x hx.1 (hx.2.trans (hR i hpos (by omega)))
      have h2 := mul_le_mul_of_nonneg_left (start i hi hpos) (by linarith : (0 : ℝ) ≤ G)
      have h3 : G * (G ^ i * ‖D 0 (l 0)‖) ≤ G ^ n * ‖D 0 (l 0)‖ := by
        rw [← mul_assoc, ← pow_succ']
        exact mul_le_mul_of_nonneg_right (pow_le_pow_right₀ hG1 (by omega)) (norm_nonneg _)
      have h4 := pow_le_pow_left₀ (norm_nonneg _) ((h1.trans h2).trans h3) 2
      rw [mul_pow] at h4
      have h5 := mul_le_mul_of_nonneg_left (hend.trans hEC) (sq_nonneg (G ^ n))
      linarith

/-- The part of a disturbance that passes a point at distance `l` of its origin. -/
theorem right_end (hb : b.Coercive) {C : ℝ} (hC : 0 < C) (hloc : ∀ f : ℝ → Vec6, SolvesODE b Loads.zero true f → ∀ p,
      ∀ x ∈ Set.Icc p (p + 1), ‖f x‖ ^ 2 ≤ C * (b.flux (f (p + 1)) - b.flux (f p)))
    {f : ℝ → Vec6} (hf : SolvesODE b Loads.zero true f) {l l' : ℝ} (h1 : 1 ≤ l) (hl : l ≤ l')
    (hu : f l' 0 = 0) (hw : f l' 2 = 0) (hp : f l' 4 = 0) :
    ‖f l‖ ^ 2 ≤ C * (Real.exp (1 - (l - 1) / b.reach) * -b.flux (f 0)) ∧
      -b.flux (f l) ≤ Real.exp (1 - l / b.reach) * -b.flux (f 0) := by
  have hm := flux_mono hb hf
  have h0 : b.flux (f l') = 0 := by simp [Beam.flux, hu, hw, hp]
  have hd := flux_decay hb hf (by linarith) hu hw hp
  refine ⟨?_, hd l ⟨by linarith, hl⟩⟩
  refine (hloc f hf (l - 1) l ⟨by linarith, by linarith⟩).trans (mul_le_mul_of_nonneg_left ?_ hC.le)
  have a1 := hd (l - 1) ⟨by linarith, by linarith⟩
  have a2 := hm hl
  simp only [h0] at a2
  rw [sub_add_cancel]
  linarith

theorem norm_flip (z : Vec6) : ‖flip z‖ = ‖z‖ := by
  have h : ∀ y : Vec6, ‖flip y‖ ≤ ‖y‖ := fun y => by
    rw [pi_norm_le_iff_of_nonneg (norm_nonneg _)]
    intro q
    have := norm_le_pi_norm y q
    fin_cases q <;> simpa [flip] using this
  refine le_antisymm (h z) ?_
  have := h (flip z)
  have e : flip (flip z) = z := by
    funext q
    fin_cases q <;> simp [flip]
  rwa [e] at this

theorem left_end (hb : b.Coercive) {C : ℝ} (hC : 0 < C) (hloc : ∀ f : ℝ → Vec6, SolvesODE b Loads.zero true f → ∀ p,
      ∀ x ∈ Set.Icc p (p + 1), ‖f x‖ ^ 2 ≤ C * (b.flux (f (p + 1)) - b.flux (f p)))
    {f : ℝ → Vec6} (hf : SolvesODE b Loads.zero true f) {l l' : ℝ} (h1 : 1 ≤ l) (hl : l ≤ l')
    (hu : f 0 0 = 0) (hw : f 0 2 = 0) (hp : f 0 4 = 0) :
    ‖f (l' - l)‖ ^ 2 ≤ C * (Real.exp (1 - (l - 1) / b.reach) * b.flux (f l')) ∧
      b.flux (f (l' - l)) ≤ Real.exp (1 - l / b.reach) * b.flux (f l') := by
  have := right_end hb hC hloc (solves_flip hf l') h1 hl (by show -(f (l' - l') 0) = 0; rw [sub_self, hu, neg_zero])
      (by show f (l' - l') 2 = 0; rw [sub_self, hw]) (by show -(f (l' - l') 4) = 0; rw [sub_self, hp, neg_zero])
  simpa only [norm_flip, flux_flip, neg_neg, sub_zero] using this

theorem flux_parallelogram (y z : Vec6) : b.flux (y - z) + b.flux (y + z) = 2 * b.flux y + 2 * b.flux z := by
  simp only [Beam.flux, Beam.N, Beam.M, Beam.V, Pi.sub_apply, Pi.add_apply]
  ring

/-- The strain energy of a difference. -/
theorem energy_sub (hb : b.Coercive) {f g : ℝ → Vec6} (hf : SolvesODE b Loads.zero true f) (hg : SolvesODE b Loads.zero true g)
    {x y : ℝ} (h : x ≤ y) : b.flux (f y - g y) - b.flux (f x - g x) ≤
      2 * (b.flux (f y) - b.flux (f x)) + 2 * (b.flux (g y) - b.flux (g x)) := by
  have hs : SolvesODE b Loads.zero true fun t => f t + g t := by
    rw [solvesODE_iff_driven] at hf hg ⊢
    have := hf.add hg
    have e : b.drive Loads.zero + b.drive Loads.zero = b.drive Loads.zero := by simp [Beam.drive, Loads.zero]
    rwa [e] at this
  have h1 := flux_mono hb hs h
  have h2 := flux_parallelogram (b := b) (f x) (g x)
  have h3 := flux_parallelogram (b := b) (f y) (g y)
  simp only at h1
  linarith

/-- A loaded chain whose ends are held as in the constant state `z`. -/
structure Loaded (b : Beam) (n : ℕ) (k : ℕ → Bool) (g F : ℕ → ℝ × ℝ × ℝ) (z : Vec6) (l : ℕ → ℝ) (Y : ℕ → ℝ → Vec6) : Prop where
  nonneg : ∀ i < n, 0 ≤ l i
  driven : ∀ i < n, Driven b (k i) (g i) (Y i)
  trans : ∀ i, i + 1 < n → Transmission b (F i) (Y i (l i)) (Y (i + 1) 0)
  left : Y 0 0 0 = z 0 ∧ Y 0 0 2 = z 2 ∧ Y 0 0 4 = z 4
  right : Y (n - 1) (l (n - 1)) 0 = z 0 ∧ Y (n - 1) (l (n - 1)) 2 = z 2 ∧ Y (n - 1) (l (n - 1)) 4 = z 4

/-- Strain energy (twice) of the deviation from `z` in the end segments. -/
noncomputable def Beam.tails (b : Beam) (n : ℕ) (z : Vec6) (l : ℕ → ℝ) (Y : ℕ → ℝ → Vec6) : ℝ :=
  b.flux (Y 0 (l 0) - z) - b.flux (Y (n - 1) 0 - z)

theorem exp_small {M r B x : ℝ} (hr : 0 < r) (hB : B = r * (2 * M)) (hx : B ≤ x) : M * Real.exp (-(x / r)) ≤ 1 / 2 := by
  have h1 : 2 * M ≤ x / r := by rw [le_div_iff₀ hr]; linarith
  have h2 := Real.add_one_le_exp (x / r)
  rw [Real.exp_neg, ← div_eq_mul_inv, div_le_iff₀ (Real.exp_pos _)]
  linarith

set_option maxHeartbeats 1000000 in
/-- Two chains which differ in the lengths of the end segments only. -/
theorem lengthen (hb : b.Coercive) {n : ℕ} (hn : 2 ≤ n) {k : ℕ → Bool} (k0 : k 0 = true) (k1 : k (n - 1) = true) (R : ℝ) :
    ∃ K B0, 0 < K ∧ 0 < B0 ∧ ∀ (g F : ℕ → ℝ × ℝ × ℝ) (z : Vec6), Driven b true (g 0) (fun _ => z) →
      Driven b true (g (n - 1)) (fun _ => z) → ∀ (l l' : ℕ → ℝ) (Y Y' : ℕ → ℝ → Vec6), Loaded b n k g F z l Y →
      Loaded b n k g F z l' Y' → (∀ i, 0 < i → i < n - 1 → l' i = l i ∧ l i ≤ R) → B0 ≤ l 0 → B0 ≤ l (n - 1) → l 0 ≤ l' 0 →
      l (n - 1) ≤ l' (n - 1) → 0 ≤ b.tails n z l Y ∧ b.tails n z l' Y' ≤ 4 * b.tails n z l Y ∧ ∀ i < n, ∀ x ∈ Set.Icc 0 (l i),
        ‖Y i x - Y' i (x + if i = 0 then l' 0 - l 0 else 0)‖ ^ 2 ≤
          K * Real.exp (-(min (l 0) (l (n - 1)) / b.reach)) * b.tails n z l Y := by
  obtain ⟨C, hC, hloc⟩ := local_bound hb one_pos
  obtain ⟨K, hK, hq⟩ := quiet_bound hb hn k0 k1 one_pos (R := R)
  have hr := (reach_pos hb).2.2
  set r := b.reach with hrdef
  set K' := K * C * Real.exp (1 + 1 / r) with hK'
  have hK'p : 0 < K' := by positivity
  set M := 4 * K' + Real.exp 1 with hM
  refine ⟨4 * K', max 1 (r * (2 * M)), by positivity, by positivity, fun g F z z0 z1 l l' Y Y' hY hY' hmid b0 b1 le0 le1 => ?_⟩
  set σ := l' 0 - l 0 with hσ
  set D : ℕ → ℝ → Vec6 := fun i x => Y i x - Y' i (x + if i = 0 then σ else 0) with hD
  set lam := min (l 0) (l (n - 1)) with hlam
  have hlam1 : 1 ≤ lam := (le_max_left _ _).trans (le_min b0 b1)
  have hlamB : r * (2 * M) ≤ lam := (le_max_right _ _).trans (le_min b0 b1)
  have l01 : 1 ≤ l 0 := hlam1.trans (min_le_left _ _)
  have l11 : 1 ≤ l (n - 1) := hlam1.trans (min_le_right _ _)
  have hn1 : n - 1 ≠ 0 := by omega
  -- deviations of both chains in the end segments
  have dr0 : Driven b true (g 0) (Y 0) := k0 ▸ hY.driven 0 (by omega)
  have dr1 : Driven b true (g (n - 1)) (Y (n - 1)) := k1 ▸ hY.driven (n - 1) (by omega)
  have dr0' : Driven b true (g 0) (Y' 0) := k0 ▸ hY'.driven 0 (by omega)
  have dr1' : Driven b true (g (n - 1)) (Y' (n - 1)) := k1 ▸ hY'.driven (n - 1) (by omega)
  have s0 := dr0.sub z0
  have s1 := dr1.sub z1
  have s0' := dr0'.sub z0
  have s1' := dr1'.sub z1
  obtain ⟨a0, a2, a4⟩ := hY.left
  obtain ⟨c0, c2, c4⟩ := hY.right
  obtain ⟨a0', a2', a4'⟩ := hY'.left
  obtain ⟨c0', c2', c4'⟩ := hY'.right
  have R1 := right_end hb hC hloc s1' l11 le1 (by simp [c0']) (by simp [c2']) (by simp [c4'])
  have R0 := left_end hb hC hloc s0' l01 le0 (by simp [a0']) (by simp [a2']) (by simp [a4'])
  set e0 := b.flux (Y 0 (l 0) - z) with he0
  set e1 := -b.flux (Y (n - 1) 0 - z) with he1
  set e0' := b.flux (Y' 0 (l' 0) - z) with he0'
  set e1' := -b.flux (Y' (n - 1) 0 - z) with he1'
  have fz0 : b.flux (Y 0 0 - z) = 0 := by simp [Beam.flux, a0, a2, a4]
  have fz1 : b.flux (Y (n - 1) (l (n - 1)) - z) = 0 := by simp [Beam.flux, c0, c2, c4]
  have fz0' : b.flux (Y' 0 0 - z) = 0 := by simp [Beam.flux, a0', a2', a4']
  have fz1' : b.flux (Y' (n - 1) (l' (n - 1)) - z) = 0 := by simp [Beam.flux, c0', c2', c4']
  have p0 : 0 ≤ e0 := by have := flux_mono hb s0 (hY.nonneg 0 (by omega)); simp only [fz0] at this; exact this
  have p1 : 0 ≤ e1 := by have := flux_mono hb s1 (hY.nonneg (n - 1) (by omega)); simp only [fz1] at this; linarith
  have p0' : 0 ≤ e0' := by have := flux_mono hb s0' (hY'.nonneg 0 (by omega)); simp only [fz0'] at this; exact this
  have p1' : 0 ≤ e1' := by have := flux_mono hb s1' (hY'.nonneg (n - 1) (by omega)); simp only [fz1'] at this; linarith
  have et : b.tails n z l Y = e0 + e1 := by unfold Beam.tails; rw [he0, he1]; ring
  have et' : b.tails n z l' Y' = e0' + e1' := by unfold Beam.tails; rw [he0', he1']; ring
  -- the difference of the chains
  have quiet : Quiet b n k l D := by
    refine ⟨hY.nonneg, fun i hi => (hY.driven i hi).sub ((hY'.driven i hi).shift _), fun i hi => ?_⟩
    have t1 := hY.trans i hi
    have t2 := hY'.trans i hi
    have e : (l i + if i = 0 then σ else 0) = l' i := by
      rcases Nat.eq_zero_or_pos i with rfl | hpos
      · rw [if_pos rfl, hσ]; ring
      · rw [if_neg hpos.ne', add_zero, (hmid i hpos (by omega)).1]
    have := t1.sub t2
    simp only [hD, e, if_neg (Nat.succ_ne_zero i), add_zero]
    exact this
  set η2 := C * (Real.exp (1 - (lam - 1) / r) * (e0' + e1')) with hη2
  have hη2p : 0 ≤ η2 := by positivity
  have up : ∀ {x e}, lam ≤ x → 0 ≤ e → e ≤ e0' + e1' → C * (Real.exp (1 - (x - 1) / r) * e) ≤ η2 := by
    intro x e hx he h
    rw [hη2]
    gcongr
  have hdisp : ∀ q ∈ ({0, 2, 4} : Set (Fin 6)), |D 0 0 q| ≤ Real.sqrt η2 ∧ |D (n - 1) (l (n - 1)) q| ≤ Real.sqrt η2 := by
    intro q hq'
    have y0 : Y 0 0 q = z q := by rcases hq' with rfl | rfl | rfl <;> assumption
    have y1 : Y (n - 1) (l (n - 1)) q = z q := by rcases hq' with rfl | rfl | rfl <;> assumption
    constructor
    · have e : D 0 0 q = -((Y' 0 σ - z) q) := by
        simp only [hD, if_true, zero_add, Pi.sub_apply, y0]; ring
      rw [e, abs_neg]
      refine Real.le_sqrt_of_sq_le ?_
      have h1 := norm_le_pi_norm (Y' 0 σ - z) q
      rw [Real.norm_eq_abs] at h1
      refine (pow_le_pow_left₀ (abs_nonneg _) h1 2).trans (R0.1.trans (up (min_le_left _ _) p0' (by linarith)))
    · have e : D (n - 1) (l (n - 1)) q = -((Y' (n - 1) (l (n - 1)) - z) q) := by
        simp only [hD, if_neg hn1, add_zero, Pi.sub_apply, y1]; ring
      rw [e, abs_neg]
      refine Real.le_sqrt_of_sq_le ?_
      have h1 := norm_le_pi_norm (Y' (n - 1) (l (n - 1)) - z) q
      rw [Real.norm_eq_abs] at h1
      refine (pow_le_pow_left₀ (abs_nonneg _) h1 2).trans (R1.1.trans (up (min_le_right _ _) p1' (by linarith)))
  obtain ⟨hE, hpt⟩ := hq l D quiet l01 l11 (fun i h1 h2 => (hmid i h1 h2).2) _ hdisp
  rw [Real.sq_sqrt hη2p] at hE hpt
  have hKη : K * η2 = K' * Real.exp (-(lam / r)) * (e0' + e1') := by
    have e : Real.exp (1 - (lam - 1) / r) = Real.exp (1 + 1 / r) * Real.exp (-(lam / r)) := by
      rw [← Real.exp_add]; congr 1; ring
    rw [hη2, e, hK']; ring
  rw [hKη] at hE hpt
  -- energy of the long chain
  have hsmall := exp_small hr rfl hlamB
  have q1 := quiet.flux_left hb (n - 1) (by omega)
  have q0 := quiet.flux_right hb (n - 1) 0 (by omega)
  have m1 := flux_mono hb (k1 ▸ quiet.solves (n - 1) (by omega)) (hY.nonneg (n - 1) (by omega))
  have m0 := flux_mono hb (k0 ▸ quiet.solves 0 (by omega)) (hY.nonneg 0 (by omega))
  simp only at m0 m1
  have E1 : e1' ≤ 2 * e1 + 2 * (b.flux (D (n - 1) (l (n - 1))) - b.flux (D 0 0)) + Real.exp (1 - lam / r) * e1' := by
    have h1 := energy_sub hb s1 (k1 ▸ quiet.solves (n - 1) (by omega)) (hY.nonneg (n - 1) (by omega))
    have e : ∀ x, Y (n - 1) x - z - D (n - 1) x = Y' (n - 1) x - z := fun x => by
      simp only [hD, if_neg hn1, add_zero]; abel
    rw [e, e, fz1] at h1
    have h2 : Real.exp (1 - l (n - 1) / r) * e1' ≤ Real.exp (1 - lam / r) * e1' := by
      gcongr
      exact min_le_right _ _
    linarith [R1.2]
  have E0 : e0' ≤ 2 * e0 + 2 * (b.flux (D (n - 1) (l (n - 1))) - b.flux (D 0 0)) + Real.exp (1 - lam / r) * e0' := by
    have h1 := energy_sub hb s0 (k0 ▸ quiet.solves 0 (by omega)) (hY.nonneg 0 (by omega))
    have e : ∀ x, Y 0 x - z - D 0 x = Y' 0 (x + σ) - z := fun x => by
      simp only [hD, if_true]; abel
    rw [e, e, fz0, zero_add, show l 0 + σ = l' 0 by rw [hσ]; ring] at h1
    have h2 : Real.exp (1 - l 0 / r) * e0' ≤ Real.exp (1 - lam / r) * e0' := by
      gcongr
      exact min_le_left _ _
    linarith [R0.2]
  have e : Real.exp (1 - lam / r) = Real.exp 1 * Real.exp (-(lam / r)) := by rw [← Real.exp_add]; congr 1
  rw [e] at E0 E1
  have T : e0' + e1' ≤ 4 * (e0 + e1) := by
    have h1 := mul_le_mul_of_nonneg_right hsmall (show 0 ≤ e0' + e1' by linarith)
    rw [hM] at h1
    linarith
  rw [et, et']
  refine ⟨by linarith, T, fun i hi x hx => (hpt i hi x hx).trans ?_⟩
  have := mul_le_mul_of_nonneg_left T (show 0 ≤ K' * Real.exp (-(lam / r)) by positivity)
  linarith

/-- Chain whose end segments extend to infinity. Positions in segment 0 are
counted from its right end and thus negative; `l 0 = 0`. -/
structure Infinite (b : Beam) (n : ℕ) (k : ℕ → Bool) (g F : ℕ → ℝ × ℝ × ℝ) (z : Vec6) (l : ℕ → ℝ) (Z : ℕ → ℝ → Vec6) : Prop where
  driven : ∀ i < n, Driven b (k i) (g i) (Z i)
  trans : ∀ i, i + 1 < n → Transmission b (F i) (Z i (l i)) (Z (i + 1) 0)
  left : Filter.Tendsto (Z 0) Filter.atBot (nhds z)
  right : Filter.Tendsto (Z (n - 1)) Filter.atTop (nhds z)

theorem Infinite.unique (hb : b.Coercive) {n : ℕ} (hn : 2 ≤ n) {k : ℕ → Bool} (k0 : k 0 = true) (k1 : k (n - 1) = true)
    {g F : ℕ → ℝ × ℝ × ℝ} {z : Vec6} {l : ℕ → ℝ} (h0 : l 0 = 0) (hl : ∀ i, 0 < i → i < n - 1 → 0 ≤ l i) {Z Z' : ℕ → ℝ → Vec6}
    (h : Infinite b n k g F z l Z) (h' : Infinite b n k g F z l Z') : ∀ i < n, Z i = Z' i := by
  obtain ⟨C, hC, hloc⟩ := local_bound hb one_pos
  set D : ℕ → ℝ → Vec6 := fun i x => Z i x - Z' i x with hD
  have hs : ∀ i < n, SolvesODE b Loads.zero (k i) (D i) := fun i hi => (h.driven i hi).sub (h'.driven i hi)
  have ht : ∀ i, i + 1 < n → D i (l i) = D (i + 1) 0 := fun i hi => transmission_eq hb ((h.trans i hi).sub (h'.trans i hi))
  have s0 : SolvesODE b Loads.zero true (D 0) := k0 ▸ hs 0 (by omega)
  have s1 : SolvesODE b Loads.zero true (D (n - 1)) := k1 ▸ hs (n - 1) (by omega)
  have fz : b.flux (0 : Vec6) = 0 := by simp [Beam.flux]
  have f0 : Filter.Tendsto (fun x => b.flux (D 0 x)) Filter.atBot (nhds 0) := by
    have := (h.left.sub h'.left)
    rw [sub_self] at this
    have h2 := (continuous_flux (b := b)).tendsto (0 : Vec6) |>.comp this
    rwa [fz] at h2
  have f1 : Filter.Tendsto (fun x => b.flux (D (n - 1) x)) Filter.atTop (nhds 0) := by
    have := (h.right.sub h'.right)
    rw [sub_self] at this
    have h2 := (continuous_flux (b := b)).tendsto (0 : Vec6) |>.comp this
    rwa [fz] at h2
  have m0 := flux_mono hb s0
  have m1 := flux_mono hb s1
  have g0 : ∀ x, 0 ≤ b.flux (D 0 x) := fun x =>
    le_of_tendsto f0 (Filter.eventually_atBot.2 ⟨x, fun y hy => m0 hy⟩)
  have g1 : ∀ x, b.flux (D (n - 1) x) ≤ 0 := fun x =>
    ge_of_tendsto f1 (Filter.eventually_atTop.2 ⟨x, fun y hy => m1 hy⟩)
  have chain : ∀ i < n, b.flux (D 0 0) ≤ b.flux (D i 0) := by
    intro i
    induction i with
    | zero => intro _; exact le_rfl
    | succ i ih =>
      intro hi
      refine (ih (by omega)).trans ?_
      rw [← ht i hi]
      rcases Nat.eq_zero_or_pos i with rfl | hpos
      · rw [h0]
      · exact flux_mono hb (hs i (by omega)) (hl i hpos (by omega))
  have z0 : D 0 0 = 0 := by
    have h1 := hloc _ s0 (-1) 0 ⟨by norm_num, by norm_num⟩
    rw [neg_add_cancel] at h1
    have h2 := chain (n - 1) (by omega)
    have h3 := mul_nonneg hC.le (g0 (-1))
    have h4 := mul_nonpos_of_nonneg_of_nonpos hC.le (h2.trans (g1 0))
    have : ‖D 0 0‖ ^ 2 ≤ 0 := by linarith
    exact norm_eq_zero.1 (pow_eq_zero_iff (two_ne_zero) |>.1 (le_antisymm this (sq_nonneg _)))
  have zz : ∀ i < n, D i 0 = 0 := by
    intro i
    induction i with
    | zero => intro _; exact z0
    | succ i ih =>
      intro hi
      rw [← ht i hi]
      exact (hs i (by omega)).at_rest hb 0 (ih (by omega)) _
  intro i hi
  funext x
  exact sub_eq_zero.1 ((hs i hi).at_rest hb 0 (zz i hi) x)

/-- Lengths with given end segments. -/
def ends (n : ℕ) (l : ℕ → ℝ) (l0 l1 : ℝ) (i : ℕ) : ℝ := if i = 0 then l0 else if i = n - 1 then l1 else l i

theorem exp_half (x r : ℝ) : Real.exp (-(x / (2 * r))) ^ 2 = Real.exp (-(x / r)) := by
  rw [← Real.exp_nat_mul]
  congr 1
  push_cast
  rw [mul_neg, div_mul_eq_div_div_swap]
  ring

theorem le_of_sq_le_exp {a c x r : ℝ} (hc : 0 ≤ c) (h : a ^ 2 ≤ c * Real.exp (-(x / r))) :
    a ≤ Real.sqrt c * Real.exp (-(x / (2 * r))) := by
  refine le_of_sq_le_sq ?_ (by positivity)
  rwa [mul_pow, Real.sq_sqrt hc, exp_half]

set_option maxHeartbeats 1000000 in
theorem exists_infinite (hb : b.Coercive) {n : ℕ} (hn : 2 ≤ n) {k : ℕ → Bool} (k0 : k 0 = true) (k1 : k (n - 1) = true)
    {g F : ℕ → ℝ × ℝ × ℝ} {z : Vec6} (z0 : Driven b true (g 0) fun _ => z) (z1 : Driven b true (g (n - 1)) fun _ => z)
    {l : ℕ → ℝ} (h0 : l 0 = 0) {R : ℝ} (hR : ∀ i, 0 < i → i < n - 1 → l i ≤ R)
    (hex : ∀ l0 l1, 0 < l0 → 0 < l1 → ∃ Y, Loaded b n k g F z (ends n l l0 l1) Y) :
    ∃ Z, Infinite b n k g F z l Z ∧ ∃ K B, 0 ≤ K ∧ 0 < B ∧ ∀ l0 l1, B ≤ l0 → B ≤ l1 → ∀ Y, Loaded b n k g F z (ends n l l0 l1) Y →
      ∀ i < n, ∀ x ∈ Set.Icc 0 (ends n l l0 l1 i), ‖Y i x - Z i (x - if i = 0 then l0 else 0)‖ ≤
        K * Real.exp (-(min l0 l1 / (2 * b.reach))) := by
  obtain ⟨C, hC, hloc⟩ := local_bound hb one_pos
  obtain ⟨K, B, hK, hB, main⟩ := lengthen hb hn k0 k1 R
  have hr := (reach_pos hb).2.2
  have hn1 : n - 1 ≠ 0 := by omega
  set r := b.reach with hrdef
  have E0 : ∀ l0 l1, ends n l l0 l1 0 = l0 := fun _ _ => if_pos rfl
  have E1 : ∀ l0 l1, ends n l l0 l1 (n - 1) = l1 := fun _ _ => by unfold ends; rw [if_neg hn1, if_pos rfl]
  have Em : ∀ l0 l1 i, 0 < i → i < n - 1 → ends n l l0 l1 i = l i := fun _ _ i h1 h2 => by
    unfold ends; rw [if_neg h1.ne', if_neg h2.ne]
  obtain ⟨Yb, hYb⟩ := hex B B hB hB
  have cmp : ∀ {l0 l1 l0' l1' : ℝ} {Y Y' : ℕ → ℝ → Vec6}, B ≤ l0 → B ≤ l1 → l0 ≤ l0' → l1 ≤ l1' →
      Loaded b n k g F z (ends n l l0 l1) Y → Loaded b n k g F z (ends n l l0' l1') Y' →
      0 ≤ b.tails n z (ends n l l0 l1) Y ∧ b.tails n z (ends n l l0' l1') Y' ≤ 4 * b.tails n z (ends n l l0 l1) Y ∧
      ∀ i < n, ∀ x ∈ Set.Icc 0 (ends n l l0 l1 i), ‖Y i x - Y' i (x + if i = 0 then l0' - l0 else 0)‖ ^ 2 ≤
          K * Real.exp (-(min l0 l1 / r)) * b.tails n z (ends n l l0 l1) Y := by
    intro l0 l1 l0' l1' Y Y' b0 b1 i0 i1 hY hY'
    have := main g F z z0 z1 _ _ Y Y' hY hY' (fun i h1 h2 => by rw [Em _ _ i h1 h2, Em _ _ i h1 h2]; exact ⟨rfl, hR i h1 h2⟩)
      (by rwa [E0]) (by rwa [E1]) (by rwa [E0, E0]) (by rwa [E1, E1])
    simpa only [E0, E1] using this
  set T := b.tails n z (ends n l B B) Yb with hT
  have hT0 : 0 ≤ T := (cmp le_rfl le_rfl le_rfl le_rfl hYb hYb).1
  have hT4 : ∀ {l0 l1 : ℝ} {Y : ℕ → ℝ → Vec6}, B ≤ l0 → B ≤ l1 → Loaded b n k g F z (ends n l l0 l1) Y →
      b.tails n z (ends n l l0 l1) Y ≤ 4 * T := fun b0 b1 hY => (cmp le_rfl le_rfl b0 b1 hYb hY).2.1
  set κ := Real.sqrt (K * (4 * T)) with hκ
  have near : ∀ {l0 l1 l0' l1' : ℝ} {Y Y' : ℕ → ℝ → Vec6}, B ≤ l0 → B ≤ l1 → l0 ≤ l0' → l1 ≤ l1' →
      Loaded b n k g F z (ends n l l0 l1) Y → Loaded b n k g F z (ends n l l0' l1') Y' →
      ∀ i < n, ∀ x ∈ Set.Icc 0 (ends n l l0 l1 i), ‖Y i x - Y' i (x + if i = 0 then l0' - l0 else 0)‖ ≤
          κ * Real.exp (-(min l0 l1 / (2 * r))) := by
    intro l0 l1 l0' l1' Y Y' b0 b1 i0 i1 hY hY' i hi x hx
    refine le_of_sq_le_exp (by positivity) (((cmp b0 b1 i0 i1 hY hY').2.2 i hi x hx).trans ?_)
    have := mul_le_mul_of_nonneg_left (hT4 b0 b1 hY) (show 0 ≤ K * Real.exp (-(min l0 l1 / r)) by positivity)
    linarith
  -- a sequence of longer and longer chains
  choose Ys hYs using fun m : ℕ => hex (B + m) (B + m) (by positivity) (by positivity)
  have hBm : ∀ m : ℕ, B ≤ B + m := fun m => by linarith [Nat.cast_nonneg (α := ℝ) m]
  set V : ℕ → ℕ → ℝ → Vec6 := fun m i x => Ys m i (x + if i = 0 then B + m else 0) with hV
  set U : ℕ → ℝ → Vec6 := fun i x => Yb i (x + if i = 0 then B else 0) with hU
  have nn : ∀ i < n, 0 < i → ∀ l0 l1, 0 < l0 → 0 < l1 → 0 ≤ ends n l l0 l1 i := fun i hi _ l0 l1 p0 p1 => by
    obtain ⟨Y, hY⟩ := hex l0 l1 p0 p1
    exact hY.nonneg i hi
  have hexp : Filter.Tendsto (fun m : ℕ => κ * Real.exp (-((B + m) / (2 * r)))) Filter.atTop (nhds 0) := by
    rw [← mul_zero κ]
    refine Filter.Tendsto.const_mul _ (Real.tendsto_exp_neg_atTop_nhds_zero.comp ?_)
    exact (Filter.tendsto_atTop_add_const_left _ _ tendsto_natCast_atTop_atTop).atTop_div_const (by positivity)
  have hcs : ∀ i < n, ∃ w, Filter.Tendsto (fun m => V m i 0) Filter.atTop (nhds w) := by
    intro i hi
    apply cauchySeq_tendsto_of_complete
    refine cauchySeq_of_le_tendsto_0' (fun m : ℕ => κ * Real.exp (-((B + m) / (2 * r)))) (fun m m' hm => ?_) hexp
    have hm' : B + (m : ℝ) ≤ B + m' := by linarith [Nat.cast_le (α := ℝ).2 hm]
    rw [dist_eq_norm]
    rcases Nat.eq_zero_or_pos i with rfl | hpos
    · have := near (hBm m) (hBm m) hm' hm' (hYs m) (hYs m') 0 hi (B + m) ⟨by linarith [hBm m], by rw [E0]⟩
      simpa [hV] using this
    · have := near (hBm m) (hBm m) hm' hm' (hYs m) (hYs m') i hi 0
        ⟨le_rfl, nn i hi hpos _ _ (by linarith [hBm m]) (by linarith [hBm m])⟩
      simpa [hV, hpos.ne'] using this
  choose! w hw using hcs
  set Z : ℕ → ℝ → Vec6 := fun i x => U i x + b.transfer (k i) x (w i - U i 0) with hZ
  have lim : ∀ i < n, ∀ x, Filter.Tendsto (fun m => V m i x) Filter.atTop (nhds (Z i x)) := by
    intro i hi x
    have e : ∀ m, V m i x = U i x + b.transfer (k i) x (V m i 0 - U i 0) := fun m => by
      have := solves_transfer hb (((hYs m).driven i hi).shift (if i = 0 then B + m else 0) |>.sub
        ((hYb.driven i hi).shift (if i = 0 then B else 0))) 0 x
      simp only [add_zero] at this
      rw [← sub_eq_iff_eq_add']
      rw [zero_add] at this
      simpa only [hV, hU, zero_add] using this
    simp only [e]
    exact ((b.transfer (k i) x).continuous.tendsto _ |>.comp ((hw i hi).sub_const _)).const_add _
  have bound : ∀ l0 l1, B ≤ l0 → B ≤ l1 → ∀ Y, Loaded b n k g F z (ends n l l0 l1) Y →
      ∀ i < n, ∀ x ∈ Set.Icc 0 (ends n l l0 l1 i), ‖Y i x - Z i (x - if i = 0 then l0 else 0)‖ ≤
        κ * Real.exp (-(min l0 l1 / (2 * r))) := by
    intro l0 l1 b0 b1 Y hY i hi x hx
    refine le_of_tendsto ((lim i hi _).const_sub _).norm ?_
    obtain ⟨m0, hm0⟩ := exists_nat_ge (max l0 l1)
    refine Filter.eventually_atTop.2 ⟨m0, fun m hm => ?_⟩
    have hm' : max l0 l1 ≤ B + m := by linarith [Nat.cast_le (α := ℝ).2 hm]
    have := near b0 b1 ((le_max_left _ _).trans hm') ((le_max_right _ _).trans hm') hY (hYs m) i hi x hx
    refine le_trans (le_of_eq ?_) this
    simp only [hV]
    congr 3
    split <;> ring
  refine ⟨Z, ⟨fun i hi => ?_, fun i hi => ?_, ?_, ?_⟩, κ, B, Real.sqrt_nonneg _, hB, bound⟩
  · have h1 := (hYb.driven i hi).shift (if i = 0 then B else 0)
    have h2 := (solvesODE_iff_driven _ _ _ _).1 (transfer_solves hb (k i) (w i - U i 0))
    have := h1.add h2
    have e : g i + b.drive Loads.zero = g i := by
      have : b.drive Loads.zero = 0 := by simp [Beam.drive, Loads.zero]
      rw [this, add_zero]
    rwa [e] at this
  · have tm : ∀ m, Transmission b (F i) (V m i (l i)) (V m (i + 1) 0) := fun m => by
      have := (hYs m).trans i hi
      simp only [hV, if_neg (Nat.succ_ne_zero i), add_zero]
      rcases Nat.eq_zero_or_pos i with rfl | hpos
      · rw [E0] at this
        simpa [h0] using this
      · rw [Em _ _ i hpos (by omega)] at this
        simpa [hpos.ne'] using this
    have tb : Transmission b (F i) (U i (l i)) (U (i + 1) 0) := by
      have := hYb.trans i hi
      simp only [hU, if_neg (Nat.succ_ne_zero i), add_zero]
      rcases Nat.eq_zero_or_pos i with rfl | hpos
      · rw [E0] at this
        simpa [h0] using this
      · rw [Em _ _ i hpos (by omega)] at this
        simpa [hpos.ne'] using this
    have e : Z i (l i) - U i (l i) = Z (i + 1) 0 - U (i + 1) 0 := by
      refine tendsto_nhds_unique ((lim i (by omega) (l i)).sub_const _) ?_
      have : ∀ m, V m i (l i) - U i (l i) = V m (i + 1) 0 - U (i + 1) 0 := fun m => transmission_eq hb ((tm m).sub tb)
      simp only [this]
      exact (lim (i + 1) hi 0).sub_const _
    have e1 : Z i (l i) = U i (l i) + (Z (i + 1) 0 - U (i + 1) 0) := by rw [← e]; abel
    obtain ⟨t0, t2, t4, tN, tM, tV⟩ := tb
    simp only [Beam.N, Beam.M, Beam.V] at tN tM tV
    rw [e1]
    refine ⟨?_, ?_, ?_, ?_, ?_, ?_⟩ <;> simp only [Beam.N, Beam.M, Beam.V, Pi.add_apply, Pi.sub_apply]
    · linear_combination t0
    · linear_combination t2
    · linear_combination t4
    · linear_combination tN
    · linear_combination tM
    · linear_combination tV
  · -- undisturbed on the left
    rw [tendsto_iff_norm_sub_tendsto_zero]
    set κ' := κ + Real.sqrt (C * Real.exp (1 + 1 / r) * (4 * T)) with hκ'
    have hlim : Filter.Tendsto (fun x : ℝ => κ' * Real.exp (-(-x / (2 * r)))) Filter.atBot (nhds 0) := by
      rw [← mul_zero κ']
      refine Filter.Tendsto.const_mul _ (Real.tendsto_exp_neg_atTop_nhds_zero.comp ?_)
      exact Filter.tendsto_neg_atBot_atTop.atTop_div_const (by positivity)
    refine squeeze_zero' (Filter.Eventually.of_forall fun x => norm_nonneg _) ?_ hlim
    refine Filter.eventually_atBot.2 ⟨-max B 1, fun x hx => ?_⟩
    have hxB : B ≤ -x := by linarith [le_max_left B 1]
    have hx1 : 1 ≤ -x := by linarith [le_max_right B 1]
    obtain ⟨Y, hY⟩ := hex (-x) (-x) (by linarith) (by linarith)
    have h1 := bound (-x) (-x) hxB hxB Y hY 0 (by omega) 0 ⟨le_rfl, by rw [E0]; linarith⟩
    rw [min_self, if_pos rfl, zero_sub, neg_neg, norm_sub_rev] at h1
    have s0 := (k0 ▸ hY.driven 0 (by omega) : Driven b true (g 0) (Y 0)).sub z0
    have s1 := (k1 ▸ hY.driven (n - 1) (by omega) : Driven b true (g (n - 1)) (Y (n - 1))).sub z1
    obtain ⟨a0, a2, a4⟩ := hY.left
    obtain ⟨c0, c2, c4⟩ := hY.right
    rw [E1] at c0 c2 c4
    have h2 := (left_end hb hC hloc s0 hx1 le_rfl (by simp [a0]) (by simp [a2]) (by simp [a4])).1
    rw [sub_self] at h2
    have fz1 : b.flux (Y (n - 1) (-x) - z) = 0 := by simp [Beam.flux, c0, c2, c4]
    have p1 := flux_mono hb s1 (show 0 ≤ -x by linarith)
    simp only [fz1] at p1
    have h3 := hT4 hxB hxB hY
    unfold Beam.tails at h3
    rw [E0] at h3
    have h4 : ‖Y 0 0 - z‖ ^ 2 ≤ C * Real.exp (1 + 1 / r) * (4 * T) * Real.exp (-(-x / r)) := by
      refine h2.trans ?_
      have e : Real.exp (1 - (-x - 1) / r) = Real.exp (1 + 1 / r) * Real.exp (-(-x / r)) := by
        rw [← Real.exp_add]; congr 1; ring
      rw [e]
      have := mul_le_mul_of_nonneg_left (show b.flux (Y 0 (-x) - z) ≤ 4 * T by linarith)
        (show 0 ≤ C * Real.exp (1 + 1 / r) * Real.exp (-(-x / r)) by positivity)
      linarith
    have h5 := le_of_sq_le_exp (by positivity) h4
    have h6 := norm_add_le (Z 0 x - Y 0 0) (Y 0 0 - z)
    rw [sub_add_sub_cancel] at h6
    rw [hκ']
    linarith
  · -- undisturbed on the right
    rw [tendsto_iff_norm_sub_tendsto_zero]
    set κ' := κ + Real.sqrt (C * Real.exp (1 + 1 / r) * (4 * T)) with hκ'
    have hlim : Filter.Tendsto (fun x : ℝ => κ' * Real.exp (-(x / (2 * r)))) Filter.atTop (nhds 0) := by
      rw [← mul_zero κ']
      refine Filter.Tendsto.const_mul _ (Real.tendsto_exp_neg_atTop_nhds_zero.comp ?_)
      exact Filter.tendsto_id.atTop_div_const (by positivity)
    refine squeeze_zero' (Filter.Eventually.of_forall fun x => norm_nonneg _) ?_ hlim
    refine Filter.eventually_atTop.2 ⟨max B 1, fun x hx => ?_⟩
    have hxB : B ≤ x := (le_max_left B 1).trans hx
    have hx1 : 1 ≤ x := (le_max_right B 1).trans hx
    obtain ⟨Y, hY⟩ := hex x x (by linarith) (by linarith)
    have h1 := bound x x hxB hxB Y hY (n - 1) (by omega) x ⟨by linarith, by rw [E1]⟩
    rw [min_self, if_neg hn1, sub_zero, norm_sub_rev] at h1
    have s0 := (k0 ▸ hY.driven 0 (by omega) : Driven b true (g 0) (Y 0)).sub z0
    have s1 := (k1 ▸ hY.driven (n - 1) (by omega) : Driven b true (g (n - 1)) (Y (n - 1))).sub z1
    obtain ⟨a0, a2, a4⟩ := hY.left
    obtain ⟨c0, c2, c4⟩ := hY.right
    rw [E1] at c0 c2 c4
    have h2 := (right_end hb hC hloc s1 hx1 le_rfl (by simp [c0]) (by simp [c2]) (by simp [c4])).1
    have fz0 : b.flux (Y 0 0 - z) = 0 := by simp [Beam.flux, a0, a2, a4]
    have p0 := flux_mono hb s0 (show 0 ≤ x by linarith)
    simp only [fz0] at p0
    have h3 := hT4 hxB hxB hY
    unfold Beam.tails at h3
    rw [E0] at h3
    have h4 : ‖Y (n - 1) x - z‖ ^ 2 ≤ C * Real.exp (1 + 1 / r) * (4 * T) * Real.exp (-(x / r)) := by
      refine h2.trans ?_
      have e : Real.exp (1 - (x - 1) / r) = Real.exp (1 + 1 / r) * Real.exp (-(x / r)) := by
        rw [← Real.exp_add]; congr 1; ring
      rw [e]
      have := mul_le_mul_of_nonneg_left (show -b.flux (Y (n - 1) 0 - z) ≤ 4 * T by linarith)
        (show 0 ≤ C * Real.exp (1 + 1 / r) * Real.exp (-(x / r)) by positivity)
      linarith
    have h5 := le_of_sq_le_exp (by positivity) h4
    have h6 := norm_add_le (Z (n - 1) x - Y (n - 1) x) (Y (n - 1) x - z)
    rw [sub_add_sub_cancel] at h6
    rw [hκ']
    linarith

end Weac.Spec
