import Mathlib.Data.List.Chain
import Mathlib.Data.List.Range
import Mathlib.Data.List.Sort
import Mathlib.Analysis.Convex.SpecificFunctions.Basic
import Verif.Model.Plot
import Verif.Props.Laminate

/-!
# Helpers of `weac/plot.py`: C59 `outline`, C60 `MidpointNormalize`, C61
`tight_central_distribution`, C62 `slab_profile`
-/

namespace Weac

/-! ## Outline -/

/-- Position on the rim of an `m` times `n` array. -/
def Spec.Rim (m n : ℕ) (p : ℕ × ℕ) : Prop :=
  p.1 < m ∧ p.2 < n ∧ (p.1 = 0 ∨ p.1 + 1 = m ∨ p.2 = 0 ∨ p.2 + 1 = n)

/-- Neighbouring positions. -/
def Spec.Neighbours (p q : ℕ × ℕ) : Prop :=
  p.1 = q.1 ∧ (p.2 + 1 = q.2 ∨ q.2 + 1 = p.2) ∨ p.2 = q.2 ∧ (p.1 + 1 = q.1 ∨ q.1 + 1 = p.1)

open Spec

/-- Positions of the outline without the return to the first one. -/
def rimPath (m n : ℕ) : List (ℕ × ℕ) :=
  (List.range (n - 1)).map (fun j => (0, j)) ++ (List.range (m - 1)).map (fun i => (i, n - 1)) ++
    (List.range (n - 1)).map (fun j => (m - 1, n - 1 - j)) ++ (List.range (m - 1)).map (fun i => (m - 1 - i, 0))

theorem outline_rim {α : Type} (g : Grid α) (hm : 0 < g.rows) (hn : 0 < g.cols) :
    outline g = .ok ((rimPath g.rows g.cols ++ [(0, 0)]).map fun p : ℕ × ℕ => g.val p.1 p.2) := by
  unfold outline
  rw [if_neg (by omega)]
  have : List.range g.rows = List.range (g.rows - 1) ++ [g.rows - 1] := by
    rw [← List.range_succ]; congr 1; omega
  rw [this]
  simp [rimPath, Function.comp_def]

theorem chain_map_range {α : Type} {R : α → α → Prop} (f : ℕ → α) (n : ℕ) (h : ∀ k, k + 1 < n → R (f k) (f (k + 1))) :
    ((List.range n).map f).IsChain R := by
  rw [List.isChain_iff_getElem]
  intro k hk
  simp only [List.length_map, List.length_range] at hk
  simp only [List.getElem_map, List.getElem_range]
  exact h k hk

/-- C59: `outline` runs once around the array. Its elements are those at the
positions of a closed walk that starts in the corner of the first row and column
and moves to a neighbour in every step; between start and end it visits every
position of the rim exactly once. The walk depends on the shape only. -/
theorem C59_outline (m n : ℕ) (hm : 2 ≤ m) (hn : 2 ≤ n) :
    ∃ walk : List (ℕ × ℕ), walk.head? = some (0, 0) ∧ walk.Nodup ∧ (∀ p, p ∈ walk ↔ Rim m n p) ∧
      (walk ++ [(0, 0)]).IsChain Neighbours ∧ walk.length = 2 * (m - 1) + 2 * (n - 1) ∧
      ∀ (α : Type) (g : Grid α), g.rows = m → g.cols = n → outline g = .ok ((walk ++ [(0, 0)]).map fun p : ℕ × ℕ => g.val p.1 p.2) := by
  obtain ⟨m, rfl⟩ : ∃ k, m = k + 2 := ⟨m - 2, by omega⟩
  obtain ⟨n, rfl⟩ : ∃ k, n = k + 2 := ⟨n - 2, by omega⟩
  refine ⟨rimPath (m + 2) (n + 2), ?_, ?_, ?_, ?_, ?_, ?_⟩
  · simp [rimPath, List.range_succ_eq_map]
  · unfold rimPath
    simp only [List.nodup_append, List.mem_append, List.mem_map, List.mem_range]
    refine ⟨⟨⟨?_, ?_, ?_⟩, ?_, ?_⟩, ?_, ?_⟩
    · exact (List.nodup_range).map fun a b h => by simpa using h
    · exact (List.nodup_range).map fun a b h => by simpa using h
    · rintro _ ⟨a, ha, rfl⟩ _ ⟨b, hb, rfl⟩ h
      simp at h; omega
    · exact (List.nodup_range).map_on fun a ha b hb h => by
        simp only [List.mem_range, Prod.mk.injEq, true_and] at ha hb h; omega
    · rintro _ (⟨a, ha, rfl⟩ | ⟨a, ha, rfl⟩) _ ⟨b, hb, rfl⟩ h <;> (simp at h <;> omega)
    · exact (List.nodup_range).map_on fun a ha b hb h => by
        simp only [List.mem_range, Prod.mk.injEq, and_true] at ha hb h; omega
    · rintro _ ((⟨a, ha, rfl⟩ | ⟨a, ha, rfl⟩) | ⟨a, ha, rfl⟩) _ ⟨b, hb, rfl⟩ h <;> simp at h <;> omega
  · rintro ⟨i, j⟩
    simp only [rimPath, List.mem_append, List.mem_map, List.mem_range, Prod.mk.injEq, Rim]
    constructor
    · rintro (((⟨a, ha, rfl, rfl⟩ | ⟨a, ha, rfl, rfl⟩) | ⟨a, ha, rfl, rfl⟩) | ⟨a, ha, rfl, rfl⟩) <;> omega
    · rintro ⟨h1, h2, h3⟩
      by_cases a1 : i = 0 ∧ j < n + 1
      · exact .inl (.inl (.inl ⟨j, by omega, a1.1.symm, rfl⟩))
      by_cases a2 : j = n + 1 ∧ i < m + 1
      · exact .inl (.inl (.inr ⟨i, by omega, rfl, by omega⟩))
      by_cases a3 : i = m + 1 ∧ 0 < j
      · exact .inl (.inr ⟨n + 1 - j, by omega, by omega, by omega⟩)
      · exact .inr ⟨m + 1 - i, by omega, by omega, by omega⟩
  · have e : rimPath (m + 2) (n + 2) ++ [(0, 0)] = (List.range (n + 1)).map (fun j => (0, j)) ++
        ((List.range (m + 1)).map (fun i => (i, n + 1)) ++
          ((List.range (n + 1)).map (fun j => (m + 1, n + 1 - j)) ++ (List.range (m + 2)).map (fun i => (m + 1 - i, 0)))) := by
      unfold rimPath
      rw [List.range_succ (n := m + 1)]
      simp
    rw [e, List.isChain_append, List.isChain_append, List.isChain_append]
    refine ⟨chain_map_range _ _ fun k hk => .inl ⟨rfl, .inl rfl⟩, ⟨chain_map_range _ _ fun k hk => .inr ⟨rfl, .inl rfl⟩,
      ⟨chain_map_range _ _ fun k hk => .inl ⟨rfl, .inr ?_⟩, chain_map_range _ _ fun k hk => .inr ⟨rfl, .inr ?_⟩, ?_⟩, ?_⟩, ?_⟩
    · dsimp only; omega
    · dsimp only; omega
    · intro x hx y hy
      simp [List.getLast?_map, List.getLast?_range, List.head?_range] at hx hy
      subst hx hy
      exact .inl ⟨rfl, .inr rfl⟩
    · intro x hx y hy
      simp [List.getLast?_map, List.getLast?_range, List.head?_range] at hx hy
      subst hx hy
      exact .inr ⟨rfl, .inl rfl⟩
    · intro x hx y hy
      simp [List.getLast?_map, List.getLast?_range, List.head?_range] at hx hy
      subst hx hy
      exact .inl ⟨rfl, .inl rfl⟩
  · simp [rimPath]; omega
  · intro α g h1 h2
    rw [outline_rim g (by omega) (by omega), h1, h2]

/-- Outline of a small array. -/
example : outline (⟨3, 3, fun i j => 10 * i + j⟩ : Grid ℕ) = .ok [0, 1, 2, 12, 22, 21, 20, 10, 0] := by decide

/-! ## MidpointNormalize -/

/-- C60: between `vmin` and `vmax` the normalization is the line through the
midpoint, which is sent to one half, with the same slope on both sides; the end
that is farther from the midpoint is sent to 0 or 1. Values outside are clipped to
the ends. -/
theorem C60_line (vmin vmax midpoint : ℝ) (h1 : vmin < midpoint) (h2 : midpoint < vmax) (v : ℝ) :
    midpointNormalize vmin vmax midpoint v =
      .ok (1 / 2 + (max vmin (min vmax v) - midpoint) / (2 * max (vmax - midpoint) (midpoint - vmin))) := by
  have ha : 0 < midpoint - vmin := by linarith
  have hb : 0 < vmax - midpoint := by linarith
  have e1 : |(midpoint - vmin) / (midpoint - vmax)| = (midpoint - vmin) / (vmax - midpoint) := by
    rw [abs_div, abs_of_pos ha, abs_of_neg (by linarith), neg_sub]
  have e2 : |(vmax - midpoint) / (midpoint - vmin)| = (vmax - midpoint) / (midpoint - vmin) := abs_of_pos (by positivity)
  have emin : max 0 (0.5 * (1 - (midpoint - vmin) / (vmax - midpoint)))
      = 1 / 2 + (vmin - midpoint) / (2 * max (vmax - midpoint) (midpoint - vmin)) := by
    rcases le_total (midpoint - vmin) (vmax - midpoint) with h | h
    · rw [max_eq_left h, max_eq_right]
      · field_simp; ring
      · have : (midpoint - vmin) / (vmax - midpoint) ≤ 1 := by rwa [div_le_one hb]
        norm_num; linarith
    · rw [max_eq_right h, max_eq_left]
      · field_simp; ring
      · have : 1 ≤ (midpoint - vmin) / (vmax - midpoint) := by rwa [one_le_div hb]
        norm_num; linarith
  have emax : min 1 (0.5 * (1 + (vmax - midpoint) / (midpoint - vmin)))
      = 1 / 2 + (vmax - midpoint) / (2 * max (vmax - midpoint) (midpoint - vmin)) := by
    rcases le_total (midpoint - vmin) (vmax - midpoint) with h | h
    · rw [max_eq_left h, min_eq_left]
      · field_simp; ring
      · have : 1 ≤ (vmax - midpoint) / (midpoint - vmin) := by rwa [one_le_div ha]
        norm_num; linarith
    · rw [max_eq_right h, min_eq_right]
      · field_simp; ring
      · have : (vmax - midpoint) / (midpoint - vmin) ≤ 1 := by rwa [div_le_one ha]
        norm_num; linarith
  unfold midpointNormalize
  simp only [e1, e2, emin, emax]
  set M := max (vmax - midpoint) (midpoint - vmin)
  have hM : 0 < M := lt_max_of_lt_left hb
  unfold interp
  dsimp only
  congr 1
  by_cases h : v ≤ vmin
  · rw [if_pos h, max_eq_left ((min_le_right _ _).trans h)]
  · rw [if_neg h]
    push Not at h
    unfold interpFrom
    dsimp only
    split
    · rename_i h'
      rw [min_eq_right (by linarith), max_eq_right h.le]
      have : midpoint - vmin ≠ 0 := ha.ne'
      norm_num
      field_simp
      ring
    · rename_i h'
      push Not at h'
      unfold interpFrom
      dsimp only
      split
      · rename_i h3
        rw [min_eq_right h3.le, max_eq_right h.le]
        have : vmax - midpoint ≠ 0 := hb.ne'
        norm_num
        field_simp
      · rename_i h3
        push Not at h3
        unfold interpFrom
        rw [min_eq_left h3, max_eq_right (by linarith)]

/-- C60: the normalization is nondecreasing, stays in the unit interval, and sends
values at equal distances from the midpoint to opposite colours. -/
theorem C60_colours (vmin vmax midpoint : ℝ) (h1 : vmin < midpoint) (h2 : midpoint < vmax) :
    (∀ v, ∃ c, midpointNormalize vmin vmax midpoint v = .ok c ∧ 0 ≤ c ∧ c ≤ 1) ∧
    (∀ v w c d, v ≤ w → midpointNormalize vmin vmax midpoint v = .ok c → midpointNormalize vmin vmax midpoint w = .ok d → c ≤ d) ∧
    (∀ t c d, vmin ≤ midpoint - t → midpoint + t ≤ vmax → vmin ≤ midpoint + t → midpoint - t ≤ vmax →
      midpointNormalize vmin vmax midpoint (midpoint - t) = .ok c →
      midpointNormalize vmin vmax midpoint (midpoint + t) = .ok d → c + d = 1) := by
  have ha : 0 < midpoint - vmin := by linarith
  have hb : 0 < vmax - midpoint := by linarith
  simp only [C60_line vmin vmax midpoint h1 h2]
  set M := max (vmax - midpoint) (midpoint - vmin) with hMdef
  have hM : 0 < M := lt_max_of_lt_left hb
  have hM1 : vmax - midpoint ≤ M := le_max_left _ _
  have hM2 : midpoint - vmin ≤ M := le_max_right _ _
  refine ⟨fun v => ⟨_, rfl, ?_, ?_⟩, ?_, ?_⟩
  · have : -(1 / 2) ≤ (max vmin (min vmax v) - midpoint) / (2 * M) := by
      rw [le_div_iff₀ (by positivity)]
      have := le_max_left vmin (min vmax v)
      linarith
    linarith
  · have : (max vmin (min vmax v) - midpoint) / (2 * M) ≤ 1 / 2 := by
      rw [div_le_iff₀ (by positivity)]
      have : max vmin (min vmax v) ≤ vmax := max_le (by linarith) (min_le_left _ _)
      linarith
    linarith
  · intro v w c d hvw hc hd
    injection hc with hc
    injection hd with hd
    rw [← hc, ← hd]
    have : max vmin (min vmax v) ≤ max vmin (min vmax w) := max_le_max_left _ (min_le_min_left _ hvw)
    have := div_le_div_of_nonneg_right (show max vmin (min vmax v) - midpoint ≤ max vmin (min vmax w) - midpoint by linarith)
      (show 0 ≤ 2 * M by positivity)
    linarith
  · intro t c d t1 t2 t3 t4 hc hd
    injection hc with hc
    injection hd with hd
    rw [← hc, ← hd, min_eq_right t4, min_eq_right t2, max_eq_right t1, max_eq_right t3]
    field_simp
    ring

/-- Range from -1 to 3 with midpoint 0. -/
example : midpointNormalize (-1) 3 0 (-1) = .ok (1 / 3) ∧ midpointNormalize (-1) 3 0 0 = .ok (1 / 2) ∧
    midpointNormalize (-1) 3 0 3 = .ok 1 ∧ midpointNormalize (-1) 3 0 1.5 = .ok (3 / 4) := by
  simp only [C60_line (-1) 3 0 (by norm_num) (by norm_num)]
  norm_num [max_def, min_def]

/-! ## Central distribution -/

theorem mem_insertUnique (x y : ℝ) (l : List ℝ) : y ∈ insertUnique x l ↔ y = x ∨ y ∈ l := by
  induction l with
  | nil => simp [insertUnique]
  | cons a r ih =>
    unfold insertUnique
    split
    · simp
    · split
      · rename_i h; subst h; simp
      · simp only [List.mem_cons, ih]; tauto

theorem insertUnique_sorted (x : ℝ) (l : List ℝ) (h : l.Pairwise (· < ·)) : (insertUnique x l).Pairwise (· < ·) := by
  induction l with
  | nil => simp [insertUnique]
  | cons a r ih =>
    rw [List.pairwise_cons] at h
    unfold insertUnique
    split
    · rename_i hx
      rw [List.pairwise_cons]
      refine ⟨fun b hb => ?_, List.pairwise_cons.2 h⟩
      rcases List.mem_cons.1 hb with rfl | hb
      · exact hx
      · exact hx.trans (h.1 b hb)
    · split
      · exact List.pairwise_cons.2 h
      · rename_i h1 h2
        rw [List.pairwise_cons]
        refine ⟨fun b hb => ?_, ih h.2⟩
        rcases (mem_insertUnique x b r).1 hb with rfl | hb
        · exact lt_of_le_of_ne (not_lt.1 h1) (Ne.symm h2)
        · exact h.1 b hb

theorem npUnique_spec (l : List ℝ) : (npUnique l).Pairwise (· < ·) ∧ ∀ x, x ∈ npUnique l ↔ x ∈ l := by
  unfold npUnique
  induction l with
  | nil => simp
  | cons a r ih =>
    refine ⟨insertUnique_sorted _ _ ih.1, fun x => ?_⟩
    rw [List.foldr_cons, mem_insertUnique, ih.2, List.mem_cons]

/-- Number at signed position `k` among `n` steps on either side of 0. -/
noncomputable def Spec.tight (limit t : ℝ) (n : ℕ) (k : ℤ) : ℝ :=
  (k.sign : ℝ) * (limit * (((k.natAbs : ℕ) : ℝ) / (n : ℝ)) ^ t)

theorem tight_nat (limit t : ℝ) (n k : ℕ) (ht : t ≠ 0) : tight limit t n (k : ℤ) = limit * ((k : ℝ) / n) ^ t := by
  unfold tight
  rcases Nat.eq_zero_or_pos k with rfl | h
  · simp [Real.zero_rpow ht]
  · have : (k : ℤ).sign = 1 := Int.sign_eq_one_of_pos (by exact_mod_cast h)
    rw [this]; simp

theorem tight_neg (limit t : ℝ) (n : ℕ) (k : ℤ) : tight limit t n (-k) = - tight limit t n k := by
  unfold tight
  rw [Int.sign_neg, Int.natAbs_neg]
  push_cast
  ring

theorem tight_strict (limit t : ℝ) (n : ℕ) (hl : 0 < limit) (ht : 0 < t) (hn : 0 < n) : StrictMono (tight limit t n) := by
  have hn' : (0 : ℝ) < n := by exact_mod_cast hn
  have nat : ∀ a b : ℕ, a < b → tight limit t n a < tight limit t n b := by
    intro a b hab
    rw [tight_nat _ _ _ _ ht.ne', tight_nat _ _ _ _ ht.ne']
    have : (a : ℝ) / n < (b : ℝ) / n := by
      apply div_lt_div_of_pos_right _ hn'
      exact_mod_cast hab
    have := Real.rpow_lt_rpow (by positivity) this ht
    nlinarith
  intro a b hab
  rcases le_or_gt 0 a with ha | ha
  · obtain ⟨a, rfl⟩ := Int.eq_ofNat_of_zero_le ha
    obtain ⟨b, rfl⟩ := Int.eq_ofNat_of_zero_le (ha.trans hab.le)
    exact nat a b (by exact_mod_cast hab)
  · obtain ⟨a, rfl⟩ : ∃ c : ℕ, a = -(c : ℤ) := ⟨a.natAbs, by omega⟩
    rw [tight_neg]
    rcases le_or_gt 0 b with hb | hb
    · obtain ⟨b, rfl⟩ := Int.eq_ofNat_of_zero_le hb
      have h0 := nat 0 a (by omega)
      have e0 : tight limit t n ((0 : ℕ) : ℤ) = 0 := by simp [tight]
      have : 0 ≤ tight limit t n b := by
        rw [tight_nat _ _ _ _ ht.ne']; positivity
      linarith
    · obtain ⟨b, rfl⟩ : ∃ c : ℕ, b = -(c : ℤ) := ⟨b.natAbs, by omega⟩
      rw [tight_neg]
      have := nat b a (by omega)
      linarith

/-- C61: `tight_central_distribution` returns the numbers
`±limit·(k/n)^tightness`, `k = 0, …, n` with `n = ⌊samples/2⌋ - 1`, in increasing
order and each once. -/
theorem C61_values (limit t : ℝ) (samples : ℕ) (hl : 0 < limit) (ht : 0 < t) (hs : 4 ≤ samples) :
    tightCentralDistribution limit samples t =
      (List.range (2 * (samples / 2 - 1) + 1)).map fun i : ℕ => tight limit t (samples / 2 - 1) ((i : ℤ) - (samples / 2 - 1 : ℕ)) := by
  obtain ⟨n, hn⟩ : ∃ n, samples / 2 = n + 2 := ⟨samples / 2 - 2, by omega⟩
  have e : samples / 2 - 1 = n + 1 := by omega
  rw [e]
  unfold tightCentralDistribution
  rw [hn]
  dsimp only
  have hn' : (0 : ℝ) < ((n + 1 : ℕ) : ℝ) := by positivity
  have lev : (linspaceAB 0 (limit ^ (1 / t)) (n + 2)).map (fun v => v ^ t) =
      (List.range (n + 2)).map fun k : ℕ => tight limit t (n + 1) (k : ℤ) := by
    unfold linspaceAB
    rw [List.map_map]
    apply List.map_congr_left
    intro k _
    rw [Function.comp_apply, tight_nat _ _ _ _ ht.ne', zero_add, sub_zero, mul_div_assoc,
      Real.mul_rpow (by positivity) (by positivity), ← Real.rpow_mul hl.le, one_div, inv_mul_cancel₀ ht.ne', Real.rpow_one]
    simp
  rw [lev]
  refine List.Pairwise.eq_of_mem_iff (r := (· < ·)) (npUnique_spec _).1 ?_ ?_
  · rw [List.pairwise_map]
    refine List.pairwise_lt_range.imp fun {a b} hab => ?_
    apply tight_strict limit t (n + 1) hl ht (by omega)
    omega
  · intro x
    rw [(npUnique_spec _).2]
    simp only [List.mem_append, List.mem_map, List.mem_reverse, List.mem_range]
    constructor
    · rintro (⟨_, ⟨k, hk, rfl⟩, rfl⟩ | ⟨k, hk, rfl⟩)
      · refine ⟨n + 1 - k, by omega, ?_⟩
        rw [← tight_neg]; congr 1; omega
      · refine ⟨n + 1 + k, by omega, ?_⟩
        congr 1; omega
    · rintro ⟨i, hi, rfl⟩
      by_cases h : i ≤ n + 1
      · refine .inl ⟨_, ⟨n + 1 - i, by omega, rfl⟩, ?_⟩
        rw [← tight_neg]; congr 1; omega
      · refine .inr ⟨i - (n + 1), by omega, ?_⟩
        congr 1; omega

theorem tight_convex (limit t : ℝ) (n : ℕ) (hl : 0 < limit) (ht : 1 ≤ t) (k : ℕ) :
    tight limit t n ((k + 1 : ℕ) : ℤ) - tight limit t n (k : ℤ) ≤
      tight limit t n ((k + 2 : ℕ) : ℤ) - tight limit t n ((k + 1 : ℕ) : ℤ) := by
  have ht0 : t ≠ 0 := by linarith
  rw [tight_nat _ _ _ _ ht0, tight_nat _ _ _ _ ht0, tight_nat _ _ _ _ ht0]
  have cv : ConvexOn ℝ (Set.Ici 0) fun x : ℝ => x ^ t := convexOn_rpow ht
  have m1 : (k : ℝ) / n ∈ Set.Ici (0 : ℝ) := Set.mem_Ici.2 (by positivity)
  have m2 : ((k + 2 : ℕ) : ℝ) / n ∈ Set.Ici (0 : ℝ) := Set.mem_Ici.2 (by positivity)
  have c := cv.2 m1 m2 (show (0 : ℝ) ≤ 1 / 2 by norm_num) (show (0 : ℝ) ≤ 1 / 2 by norm_num) (by norm_num)
  simp only [smul_eq_mul] at c
  have e : 1 / 2 * ((k : ℝ) / n) + 1 / 2 * (((k + 2 : ℕ) : ℝ) / n) = ((k + 1 : ℕ) : ℝ) / n := by
    push_cast; ring
  rw [e] at c
  nlinarith

/-- C61: the values increase, are symmetric about 0, contain 0, and run from
`-limit` to `limit`; with tightness of at least 1 the steps never shrink on the way
from 0 to `limit`; with tightness 1 all steps are equal. -/
theorem C61_shape (limit t : ℝ) (samples : ℕ) (hl : 0 < limit) (ht : 0 < t) (hs : 4 ≤ samples) :
    let l := tightCentralDistribution limit samples t
    l.Pairwise (· < ·) ∧ l.head? = some (-limit) ∧ l.getLast? = some limit ∧ 0 ∈ l ∧ (∀ v, v ∈ l ↔ -v ∈ l) ∧
    (1 ≤ t → ∀ (i : ℕ) (a b c : ℝ), 0 ≤ a → l[i]? = some a → l[i + 1]? = some b → l[i + 2]? = some c → b - a ≤ c - b) ∧
    (t = 1 → ∀ (i : ℕ) (a b : ℝ), l[i]? = some a → l[i + 1]? = some b → b - a = limit / (samples / 2 - 1 : ℕ)) := by
  intro l
  have el : l = _ := C61_values limit t samples hl ht hs
  obtain ⟨n, hn⟩ : ∃ n, samples / 2 = n + 2 := ⟨samples / 2 - 2, by omega⟩
  have e : samples / 2 - 1 = n + 1 := by omega
  rw [e] at el ⊢
  have hn' : (0 : ℝ) < ((n + 1 : ℕ) : ℝ) := by positivity
  have mono := tight_strict limit t (n + 1) hl ht (by omega)
  have top : tight limit t (n + 1) ((n + 1 : ℕ) : ℤ) = limit := by
    rw [tight_nat _ _ _ _ ht.ne', div_self hn'.ne', Real.one_rpow, mul_one]
  have get : ∀ i a, l[i]? = some a → i < 2 * (n + 1) + 1 ∧ tight limit t (n + 1) ((i : ℤ) - ((n + 1 : ℕ) : ℤ)) = a := by
    intro i a h
    rw [el, List.getElem?_map] at h
    by_cases hi : i < 2 * (n + 1) + 1
    · rw [List.getElem?_range hi] at h
      exact ⟨hi, by simpa using h⟩
    · rw [List.getElem?_eq_none (by simpa using hi)] at h
      cases h
  have mem : ∀ v, v ∈ l ↔ ∃ k : ℤ, k.natAbs ≤ n + 1 ∧ tight limit t (n + 1) k = v := by
    intro v
    rw [el]
    simp only [List.mem_map, List.mem_range]
    constructor
    · rintro ⟨i, hi, rfl⟩
      exact ⟨_, by omega, rfl⟩
    · rintro ⟨k, hk, rfl⟩
      refine ⟨(k + (n + 1 : ℕ)).toNat, by omega, ?_⟩
      congr 1; omega
  refine ⟨?_, ?_, ?_, ?_, ?_, ?_, ?_⟩
  · rw [el, List.pairwise_map]
    refine List.pairwise_lt_range.imp fun {a b} hab => mono (by omega)
  · rw [el, List.head?_map, List.head?_range, if_neg (by omega)]
    simp only [Option.map_some, Option.some.injEq]
    rw [← top, ← tight_neg]
    congr 1
  · rw [el, List.getLast?_map, List.getLast?_range, if_neg (by omega)]
    simp only [Option.map_some, Option.some.injEq]
    rw [← top]
    congr 1
    omega
  · rw [mem]
    exact ⟨0, by omega, by simp [tight]⟩
  · intro v
    rw [mem, mem]
    constructor
    · rintro ⟨k, hk, rfl⟩
      exact ⟨-k, by omega, tight_neg _ _ _ _⟩
    · rintro ⟨k, hk, hv⟩
      exact ⟨-k, by omega, by rw [tight_neg, hv, neg_neg]⟩
  · intro ht1 i a b c ha h1 h2 h3
    obtain ⟨_, rfl⟩ := get _ _ h1
    obtain ⟨_, rfl⟩ := get _ _ h2
    obtain ⟨_, rfl⟩ := get _ _ h3
    have h0 : tight limit t (n + 1) 0 = 0 := by simp [tight]
    have hi : (0 : ℤ) ≤ (i : ℤ) - ((n + 1 : ℕ) : ℤ) := by
      by_contra hneg
      push Not at hneg
      have := mono hneg
      rw [h0] at this
      linarith
    obtain ⟨k, hk⟩ := Int.eq_ofNat_of_zero_le hi
    have e1 : ((i + 1 : ℕ) : ℤ) - ((n + 1 : ℕ) : ℤ) = ((k + 1 : ℕ) : ℤ) := by omega
    have e2 : ((i + 2 : ℕ) : ℤ) - ((n + 1 : ℕ) : ℤ) = ((k + 2 : ℕ) : ℤ) := by omega
    rw [hk, e1, e2]
    exact tight_convex limit t (n + 1) hl ht1 k
  · rintro rfl i a b h1 h2
    obtain ⟨_, rfl⟩ := get _ _ h1
    obtain ⟨_, rfl⟩ := get _ _ h2
    have lin : ∀ k : ℤ, tight limit 1 (n + 1) k = limit * k / ((n + 1 : ℕ) : ℝ) := by
      intro k
      unfold tight
      rw [Real.rpow_one]
      have : ((k.sign : ℤ) : ℝ) * ((k.natAbs : ℕ) : ℝ) = k := by
        have h := congrArg (Int.cast (R := ℝ)) (Int.sign_mul_natAbs k)
        rw [← h]
        simp
      rw [← this]; ring
    rw [lin, lin]
    push_cast
    field_simp
    ring

/-- C61: the number of values is not the requested one but one or two less. -/
theorem C61_number_partial (limit t : ℝ) (samples : ℕ) (hl : 0 < limit) (ht : 0 < t) (hs : 4 ≤ samples) :
    (tightCentralDistribution limit samples t).length = 2 * (samples / 2) - 1 ∧
    (tightCentralDistribution limit samples t).length < samples ∧
    samples ≤ (tightCentralDistribution limit samples t).length + 2 := by
  rw [C61_values limit t samples hl ht hs, List.length_map, List.length_range]
  omega

/-- Six samples up to 4 with tightness 2. -/
example : tightCentralDistribution 4 6 2 = [-4, -1, 0, 1, 4] := by
  rw [C61_values 4 2 6 (by norm_num) (by norm_num) (by norm_num)]
  norm_num [tight, List.range_succ]

/-! ## Slab profile -/

theorem profileLoop_spec (down : List Layer) (l : Layer) (up : List Layer) (y : ℝ) :
    (profileLoop (down ++ l :: up) y)[2 * down.length]? = some (l.rho, y + total Layer.h down) ∧
    (profileLoop (down ++ l :: up) y)[2 * down.length + 1]? = some (l.rho, y + total Layer.h down + l.h) := by
  induction down generalizing y with
  | nil => simp [profileLoop, total]
  | cons a r ih =>
    have := ih (y + a.h)
    simp only [List.cons_append, profileLoop, List.length_cons, total, List.map_cons, List.sum_cons] at this ⊢
    rw [show 2 * (r.length + 1) = 2 * r.length + 1 + 1 by ring]
    simp only [List.getElem?_cons_succ]
    rw [← add_assoc]
    exact this

theorem profileLoop_length (l : List Layer) (y : ℝ) : (profileLoop l y).length = 2 * l.length := by
  induction l generalizing y with
  | nil => rfl
  | cons a r ih => simp [profileLoop, ih]; omega

/-- C62: `slab_profile` draws one bar per layer and nothing else. The bar of a
layer has the layer's density and reaches from the height of all layers below it to
that height plus its own thickness; the lowest layer comes first. -/
theorem C62_profile (s : Self) :
    (slabProfile s).length = 2 * s.slab.length ∧
    ∀ (up : List Layer) (l : Layer) (down : List Layer), s.slab = up ++ l :: down →
      (slabProfile s)[2 * down.length]? = some (l.rho, total Layer.h down) ∧
      (slabProfile s)[2 * down.length + 1]? = some (l.rho, total Layer.h down + l.h) := by
  refine ⟨by rw [slabProfile, profileLoop_length, List.length_reverse], fun up l down h => ?_⟩
  unfold slabProfile
  rw [h]
  have := profileLoop_spec down.reverse l up.reverse 0
  have e : total Layer.h down.reverse = total Layer.h down := by
    unfold total
    rw [List.map_reverse, List.sum_reverse]
  rw [List.length_reverse, e, zero_add] at this
  simpa using this

/-- C62: measured from the bottom of the slab, the bar of the layer number `i` lies
between the coordinates that `get_ply_coordinates` gives for its two faces. -/
theorem C62_coordinates (s : Self) (hs : SlabOk s) (i : ℕ) (hi : i < s.slab.length) :
    (slabProfile s)[2 * (s.slab.length - 1 - i)]? = some (s.slab[i].rho, s.h / 2 - nth (getPlyCoordinates s) (i + 1)) ∧
    (slabProfile s)[2 * (s.slab.length - 1 - i) + 1]? = some (s.slab[i].rho, s.h / 2 - nth (getPlyCoordinates s) i) := by
  have split : s.slab = s.slab.take i ++ s.slab[i] :: s.slab.drop (i + 1) := by
    rw [List.getElem_cons_drop, List.take_append_drop]
  have key := (C62_profile s).2 _ _ _ split
  rw [List.length_drop, show s.slab.length - (i + 1) = s.slab.length - 1 - i by omega] at key
  have hh : s.h = total Layer.h (s.slab.take i) + (s.slab[i].h + total Layer.h (s.slab.drop (i + 1))) := by
    rw [hs.h]
    have := congrArg (total Layer.h) split
    rw [this]
    simp only [total, List.map_append, List.map_cons, List.sum_append, List.sum_cons]
  have e1 := ply_nth s i hi.le
  have e2 := ply_nth s (i + 1) hi
  rw [List.take_add_one, List.sum_append] at e2
  simp only [List.getElem?_map, List.getElem?_eq_getElem hi, Option.map_some, Option.toList_some, List.sum_singleton] at e2
  rw [← List.map_take] at e1 e2
  change _ = _ + total Layer.h (s.slab.take i) at e1
  change _ = _ + (total Layer.h (s.slab.take i) + _) at e2
  rw [e1, e2]
  have a1 : s.h / 2 - (-s.h / 2 + (total Layer.h (s.slab.take i) + s.slab[i].h)) = total Layer.h (s.slab.drop (i + 1)) := by
    linarith
  have a2 : s.h / 2 - (-s.h / 2 + total Layer.h (s.slab.take i)) = total Layer.h (s.slab.drop (i + 1)) + s.slab[i].h := by
    linarith
  rw [a1, a2]
  exact key

/-- Soft snow of 120 mm on hard snow of 80 mm. -/
example (s : Self) : slabProfile { s with slab := [⟨150, 120, 1, 1, 1⟩, ⟨300, 80, 1, 1, 1⟩] } =
    [(300, 0), (300, 80), (150, 80), (150, 200)] := by
  norm_num [slabProfile, profileLoop]

end Weac
