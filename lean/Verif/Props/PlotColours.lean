import Verif.Model.Plot
import Verif.Props.LeastWeight
import Verif.Props.EnergyRelease

/-!
# Colour scale of `deformed` in `weac/plot.py`: C58
-/

namespace Weac

open Spec

/-! ## Rounding -/

theorem roundEven_near (x : ℝ) : |(roundEven x : ℝ) - x| ≤ 1 / 2 := by
  have h1 := Int.floor_le x
  have h2 := Int.lt_floor_add_one x
  unfold roundEven
  rw [abs_le]
  split_ifs <;> push_cast <;> constructor <;> linarith

/-- Halves go to the even neighbour. -/
theorem roundEven_half {x : ℝ} (h : |(roundEven x : ℝ) - x| = 1 / 2) : Even (roundEven x) := by
  have h1 := Int.floor_le x
  have h2 := Int.lt_floor_add_one x
  unfold roundEven at h ⊢
  split_ifs at h ⊢ with c1 c2 c3
  · rw [abs_of_nonpos (by linarith)] at h
    linarith
  · push_cast at h
    rw [abs_of_pos (by linarith)] at h
    linarith
  · exact c3
  · exact (Int.not_even_iff_odd.1 c3).add_one

theorem roundEven_bounds {x : ℝ} (h1 : 1 ≤ x) (h2 : x < 10) :
    1 ≤ roundEven x ∧ roundEven x ≤ 10 ∧ 2 / 3 * x < roundEven x ∧ (roundEven x : ℝ) ≤ 4 / 3 * x := by
  have hf1 := Int.floor_le x
  have hf2 := Int.lt_floor_add_one x
  have f1 : (1 : ℤ) ≤ ⌊x⌋ := Int.le_floor.2 (by exact_mod_cast h1)
  have f2 : ⌊x⌋ < 10 := Int.floor_lt.2 (by exact_mod_cast h2)
  have f1' : (1 : ℝ) ≤ ⌊x⌋ := by exact_mod_cast f1
  have key : (⌊x⌋ = 1 ∧ x - ⌊x⌋ < 1 / 2) ∨ 3 / 2 ≤ x := by
    by_cases h : x < 3 / 2
    · left
      have : ⌊x⌋ = 1 := by
        apply le_antisymm _ f1
        rw [← Int.lt_add_one_iff]
        exact Int.floor_lt.2 (by push_cast; linarith)
      refine ⟨this, ?_⟩
      rw [this]; push_cast; linarith
    · right; linarith
  have near := abs_le.1 (roundEven_near x)
  have r1 : 1 ≤ roundEven x := by unfold roundEven; split_ifs <;> omega
  have r2 : roundEven x ≤ 10 := by unfold roundEven; split_ifs <;> omega
  refine ⟨r1, r2, ?_⟩
  rcases key with ⟨e, hlt⟩ | h
  · have : roundEven x = 1 := by unfold roundEven; rw [if_pos hlt, e]
    rw [this]
    rw [e] at hlt
    push_cast at hlt ⊢
    constructor <;> linarith
  · by_cases hx : x = 3 / 2
    · have fl : ⌊x⌋ = 1 := by rw [hx]; norm_num
      have : roundEven x = 2 := by
        unfold roundEven
        rw [fl, hx]
        norm_num
      rw [this, hx]; norm_num
    · have : 3 / 2 < x := lt_of_le_of_ne h (Ne.symm hx)
      constructor <;> linarith

/-- Rounding to one significant digit. -/
theorem round_digit {a : ℝ} (ha : 0 < a) :
    ∃ (d : ℤ) (k : ℕ) (e : ℤ), significantDigits a = .ok d ∧ npRound a d = k * (10 : ℝ) ^ e ∧ 1 ≤ k ∧ k ≤ 10 ∧
      (10 : ℝ) ^ e ≤ a ∧ a < (10 : ℝ) ^ (e + 1) ∧
      (|npRound a d - a| ≤ (10 : ℝ) ^ e / 2 ∧ (|npRound a d - a| = (10 : ℝ) ^ e / 2 → Even k)) ∧
      2 / 3 * a < npRound a d ∧ npRound a d ≤ 4 / 3 * a := by
  set e := ⌊Real.logb 10 a⌋ with he
  have hd : significantDigits a = .ok (-e) := by
    unfold significantDigits
    rw [if_neg (by linarith), if_neg ha.ne']
  have p : (0 : ℝ) < (10 : ℝ) ^ e := by positivity
  have lo : (10 : ℝ) ^ e ≤ a := by
    have := Int.floor_le (Real.logb 10 a)
    rw [Real.le_logb_iff_rpow_le (by norm_num) ha, Real.rpow_intCast] at this
    exact this
  have hi : a < (10 : ℝ) ^ (e + 1) := by
    have := Int.lt_floor_add_one (Real.logb 10 a)
    rw [Real.logb_lt_iff_lt_rpow (by norm_num) ha] at this
    have e' : ((⌊Real.logb 10 a⌋ : ℝ) + 1) = ((e + 1 : ℤ) : ℝ) := by push_cast; rfl
    rw [e', Real.rpow_intCast] at this
    exact this
  have q : a * (10 : ℝ) ^ (-e) = a / (10 : ℝ) ^ e := by rw [zpow_neg]; rfl
  have x1 : 1 ≤ a * (10 : ℝ) ^ (-e) := by rw [q, one_le_div p]; exact lo
  have x2 : a * (10 : ℝ) ^ (-e) < 10 := by
    rw [q, div_lt_iff₀ p]
    rw [zpow_add₀ (by norm_num), zpow_one] at hi
    linarith
  obtain ⟨r1, r2, r3, r4⟩ := roundEven_bounds x1 x2
  have near := roundEven_near (a * (10 : ℝ) ^ (-e))
  have half := @roundEven_half (a * (10 : ℝ) ^ (-e))
  obtain ⟨k, hk⟩ := Int.eq_ofNat_of_zero_le (show 0 ≤ roundEven (a * (10 : ℝ) ^ (-e)) by omega)
  have val : npRound a (-e) = k * (10 : ℝ) ^ e := by
    unfold npRound
    rw [hk, zpow_neg, div_inv_eq_mul]
    simp
  rw [hk] at r1 r2 r3 r4 near half
  push_cast at r3 r4 near half
  rw [q] at r3 r4 near half
  have cancel : a / (10 : ℝ) ^ e * (10 : ℝ) ^ e = a := by field_simp
  refine ⟨-e, k, e, hd, val, by omega, by omega, lo, hi, ?_, ?_, ?_⟩
  · rw [val]
    have : (k : ℝ) * 10 ^ e - a = (k - a / 10 ^ e) * 10 ^ e := by rw [sub_mul, cancel]
    rw [this, abs_mul, abs_of_pos p]
    refine ⟨by nlinarith, fun heq => ?_⟩
    have h2 : |(k : ℝ) - a / 10 ^ e| = 1 / 2 := mul_right_cancel₀ p.ne' (by rw [heq]; ring)
    have := half (by simpa using h2)
    simpa using this
  · rw [val]; nlinarith
  · rw [val]; nlinarith

/-! ## Greatest absolute value -/

theorem reals_mem {l : List (Option ℝ)} {v : ℝ} : v ∈ reals l ↔ some v ∈ l := by
  simp [reals]

/-- What `absMax` returns: the greatest absolute value of the slab, of the weak
layer as well unless a NaN is among its values. -/
theorem absMax_spec {slab : List ℝ} {weak : List (Option ℝ)} (hs : slab ≠ []) (hw : weak ≠ []) :
    ∃ a, absMax slab weak = .ok a ∧ (∀ v ∈ slab, |v| ≤ a) ∧ 0 ≤ a ∧
      (none ∉ weak → (∀ v, some v ∈ weak → |v| ≤ a) ∧ (a ∈ slab.map (|·|) ∨ a ∈ (reals weak).map (|·|))) ∧
      (none ∈ weak → a ∈ slab.map (|·|)) := by
  obtain ⟨lo, e1, m1, b1⟩ := npMin_ok hs
  obtain ⟨hi, e2, m2, b2⟩ := npMax_ok hs
  have slabAbs : ∀ m, |lo| ≤ m → |hi| ≤ m → ∀ v ∈ slab, |v| ≤ m := fun m p q v hv =>
    abs_le.2 ⟨by linarith [(abs_le.1 p).1, b1 v hv], by linarith [(abs_le.1 q).2, b2 v hv]⟩
  by_cases hn : none ∈ weak
  · have any : weak.any Option.isNone = true := List.any_eq_true.2 ⟨none, hn, rfl⟩
    have c1 : minNaN weak = .ok none := by unfold minNaN; rw [any]; rfl
    have c2 : maxNaN weak = .ok none := by unfold maxNaN; rw [any]; rfl
    obtain ⟨a, ea, ma, ba⟩ := npMax_ok (l := (reals [some lo, some hi, none, none]).map fun v => |v|) (by simp [reals])
    have mem : a = |lo| ∨ a = |hi| := by simpa [reals] using ma
    refine ⟨a, ?_, slabAbs a (ba _ (by simp [reals])) (ba _ (by simp [reals])), ?_, fun h => absurd hn h, fun _ => ?_⟩
    · unfold absMax
      rw [e1, e2, c1, c2]
      exact ea
    · rcases mem with h | h <;> rw [h] <;> exact abs_nonneg _
    · rw [List.mem_map]
      rcases mem with h | h
      · exact ⟨lo, m1, h.symm⟩
      · exact ⟨hi, m2, h.symm⟩
  · have any : weak.any Option.isNone = false := by
      rw [List.any_eq_false]
      rintro (_ | x) hx
      · exact absurd hx hn
      · simp
    have ne : reals weak ≠ [] := by
      obtain ⟨x, r, rfl⟩ := List.exists_cons_of_ne_nil hw
      cases x with
      | none => simp at hn
      | some x => simp [reals]
    obtain ⟨wl, f1, n1, d1⟩ := npMin_ok ne
    obtain ⟨wh, f2, n2, d2⟩ := npMax_ok ne
    have c1 : minNaN weak = .ok (some wl) := by unfold minNaN; rw [any, f1]; rfl
    have c2 : maxNaN weak = .ok (some wh) := by unfold maxNaN; rw [any, f2]; rfl
    obtain ⟨a, ea, ma, ba⟩ := npMax_ok (l := (reals [some lo, some hi, some wl, some wh]).map fun v => |v|) (by simp [reals])
    have mem : a = |lo| ∨ a = |hi| ∨ a = |wl| ∨ a = |wh| := by simpa [reals] using ma
    refine ⟨a, ?_, slabAbs a (ba _ (by simp [reals])) (ba _ (by simp [reals])), ?_, fun _ => ⟨?_, ?_⟩, fun h => absurd h hn⟩
    · unfold absMax
      rw [e1, e2, c1, c2]
      exact ea
    · rcases mem with h | h | h | h <;> rw [h] <;> exact abs_nonneg _
    · intro v hv
      have p : |wl| ≤ a := ba _ (by simp [reals])
      have q : |wh| ≤ a := ba _ (by simp [reals])
      have hv' := reals_mem.2 hv
      exact abs_le.2 ⟨by linarith [(abs_le.1 p).1, d1 v hv'], by linarith [(abs_le.1 q).2, d2 v hv']⟩
    · simp only [List.mem_map]
      rcases mem with h | h | h | h
      · exact .inl ⟨lo, m1, h.symm⟩
      · exact .inl ⟨hi, m2, h.symm⟩
      · exact .inr ⟨wl, n1, h.symm⟩
      · exact .inr ⟨wh, n2, h.symm⟩

/-- Isolevels: equally spaced numbers from `-c` to `c`. -/
def Spec.SymmetricLevels (c : ℝ) (levels : ℕ) (l : List ℝ) : Prop :=
  l.length = levels + 1 ∧ ∀ i : ℕ, i ≤ levels → l[i]? = some (c * (2 * i / levels - 1))

theorem linspace_symmetric (c : ℝ) (levels : ℕ) (hl : 0 < levels) : SymmetricLevels c levels (linspaceAB (-c) c (levels + 1)) := by
  have : (0 : ℝ) < levels := by exact_mod_cast hl
  refine ⟨by simp [linspaceAB], fun i hi => ?_⟩
  unfold linspaceAB
  rw [List.getElem?_map, List.getElem?_range (by omega), Option.map_some, Nat.add_sub_cancel]
  congr 1
  field_simp
  ring

theorem colourLevels_spec {slab : List ℝ} {weak : List (Option ℝ)} (hs : slab ≠ []) (hw : weak ≠ []) (levels : ℕ)
    (hl : 0 < levels) (hne : ∃ v ∈ slab, v ≠ 0) :
    ∃ a c l, absMax slab weak = .ok a ∧ colourLevels slab weak levels = .ok l ∧ SymmetricLevels c levels l ∧ 0 < a ∧
      (∃ (k : ℕ) (e : ℤ), 1 ≤ k ∧ k ≤ 10 ∧ c = k * (10 : ℝ) ^ e ∧ (10 : ℝ) ^ e ≤ a ∧ a < (10 : ℝ) ^ (e + 1) ∧
        |c - a| ≤ (10 : ℝ) ^ e / 2) ∧
      2 / 3 * a < c ∧ c ≤ 4 / 3 * a := by
  obtain ⟨a, e1, b1, b2, -⟩ := absMax_spec hs hw
  obtain ⟨v, hv, hv0⟩ := hne
  have ha : 0 < a := lt_of_lt_of_le (abs_pos.2 hv0) (b1 v hv)
  obtain ⟨d, k, e, f1, f2, f3, f4, f5, f6, f7, f8, f9⟩ := round_digit ha
  refine ⟨a, npRound a d, linspaceAB (-npRound a d) (npRound a d) (levels + 1), e1, ?_, linspace_symmetric _ _ hl, ha,
    ⟨k, e, f3, f4, f2, f5, f6, f7.1⟩, f8, f9⟩
  unfold colourLevels
  simp only [bind, Except.bind, pure, Except.pure, e1, f1]

end Weac
