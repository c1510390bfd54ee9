import Verif.Props.PlotDeformed

/-!
# `plot_data` of `weac/plot.py` and its wrappers: C63
-/

namespace Weac

open Spec

/-- Sum of the lengths of the first segments (mm). -/
def Spec.startAt (li : List ℝ) (i : ℕ) : ℝ := (li.take i).sum

/-- Samples of a curve that have a coordinate. -/
def Spec.samples (x y : List (Option ℝ)) : List (ℝ × Option ℝ) := (x.zip y).filterMap fun p => p.1.map fun a => (a, p.2)

/-- Midpoint of two samples. -/
noncomputable def Spec.between (p q : ℝ × Option ℝ) : Option ℝ × Option ℝ :=
  (some ((p.1 + q.1) / 2), p.2.bind fun a => q.2.map fun b => (a + b) / 2)

theorem spansOf_ok (li : List ℝ) (ki : List Bool) :
    spansOf (some li) ki = .ok (((List.range ki.length).filter fun i => ! ki.getD i true).map fun i =>
      (startAt li i / 10, startAt li (i + 1) / 10)) := by
  unfold spansOf
  exact mapM_ok _ fun _ _ => rfl

theorem loadsOf_ok (li : List ℝ) (mi : List ℝ) :
    loadsOf (some li) mi = .ok (((List.range mi.length).filter fun i => decide (0 < mi.getD i 0)).map fun i =>
      startAt li (i + 1) / 10) := by
  unfold loadsOf
  exact mapM_ok _ fun _ _ => rfl

theorem marks_ok (li mi : List ℝ) (ki : List Bool) : marksOf true ⟨some li, some mi, some ki⟩ =
    .ok (((List.range ki.length).filter fun i => ! ki.getD i true).map (fun i => (startAt li i / 10, startAt li (i + 1) / 10)),
      0 :: ((List.range mi.length).filter fun i => decide (0 < mi.getD i 0)).map fun i => startAt li (i + 1) / 10) := by
  unfold marksOf
  dsimp only
  rw [if_pos rfl, spansOf_ok, loadsOf_ok]
  rfl

/-- Steps of a successful call of `plot_data`. -/
theorem plotData_ok {ax1 ax2 : List Curve} {labelpos : Option ℤ} {vlines : Bool} {segs : PlotSegs} {p : LinePlot}
    (h : plotData ax1 ax2 labelpos vlines segs = .ok p) :
    marksOf vlines segs = .ok (p.spans, p.vlines) ∧ p.curves = ax1 ++ ax2 := by
  unfold plotData at h
  obtain ⟨m, h1, h⟩ := res_bind h
  obtain ⟨pos, -, h⟩ := res_bind h
  obtain ⟨l1, -, h⟩ := res_bind h
  obtain ⟨l2, -, h⟩ := res_bind h
  injection h with h
  subst h
  exact ⟨h1, rfl⟩

/-- C63: the shaded intervals are exactly the unsupported segments and the vertical
lines exactly the start of the slab and the places of positive loads, in cm; the
curves are those handed over. -/
theorem C63_segments (ax1 ax2 : List Curve) (labelpos : Option ℤ) (li mi : List ℝ) (ki : List Bool) (p : LinePlot)
    (h : plotData ax1 ax2 labelpos true ⟨some li, some mi, some ki⟩ = .ok p) :
    (∀ q, q ∈ p.spans ↔ ∃ i : ℕ, ki[i]? = some false ∧ q = (startAt li i / 10, startAt li (i + 1) / 10)) ∧
    (∀ q, q ∈ p.vlines ↔ q = 0 ∨ ∃ (i : ℕ) (m : ℝ), mi[i]? = some m ∧ 0 < m ∧ q = startAt li (i + 1) / 10) ∧
    p.curves = ax1 ++ ax2 := by
  obtain ⟨h1, h3⟩ := plotData_ok h
  rw [marks_ok] at h1
  injection h1 with h1
  injection h1 with e1 e2
  replace e1 := e1.symm
  replace e2 := e2.symm
  refine ⟨fun q => ?_, fun q => ?_, h3⟩
  · rw [e1]
    simp only [List.mem_map, List.mem_filter, List.mem_range]
    constructor
    · rintro ⟨i, ⟨hi, hk⟩, rfl⟩
      refine ⟨i, ?_, rfl⟩
      rw [List.getD_eq_getElem?_getD, List.getElem?_eq_getElem hi, Option.getD_some] at hk
      rw [List.getElem?_eq_getElem hi]
      simpa using hk
    · rintro ⟨i, hk, rfl⟩
      have hi : i < ki.length := by
        by_contra hc
        rw [List.getElem?_eq_none (by omega)] at hk
        cases hk
      refine ⟨i, ⟨hi, ?_⟩, rfl⟩
      rw [List.getD_eq_getElem?_getD, hk]
      rfl
  · rw [e2]
    simp only [List.mem_cons, List.mem_map, List.mem_filter, List.mem_range, decide_eq_true_eq]
    refine or_congr Iff.rfl ⟨?_, ?_⟩
    · rintro ⟨i, ⟨hi, hk⟩, rfl⟩
      rw [List.getD_eq_getElem?_getD, List.getElem?_eq_getElem hi, Option.getD_some] at hk
      exact ⟨i, mi[i], List.getElem?_eq_getElem hi, hk, rfl⟩
    · rintro ⟨i, m, hk, hm, rfl⟩
      have hi : i < mi.length := by
        by_contra hc
        rw [List.getElem?_eq_none (by omega)] at hk
        cases hk
      refine ⟨i, ⟨hi, ?_⟩, rfl⟩
      rw [List.getD_eq_getElem?_getD, hk]
      exact hm

/-! ## Labels -/

theorem keepReal_x (x y : List (Option ℝ)) (h : x.length = y.length) :
    keepReal x x = .ok ((samples x y).map fun p => some p.1) ∧ keepReal x y = .ok ((samples x y).map Prod.snd) := by
  unfold keepReal
  rw [if_pos rfl, if_pos h]
  constructor
  · congr 1
    unfold samples
    induction x generalizing y with
    | nil => rfl
    | cons a r ih =>
      cases y with
      | nil => simp at h
      | cons b t =>
        have := ih t (by simpa using h)
        cases a <;> simp_all
  · congr 1
    unfold samples
    induction x generalizing y with
    | nil => rfl
    | cons a r ih =>
      cases y with
      | nil => simp at h
      | cons b t =>
        have := ih t (by simpa using h)
        cases a <;> simp_all

theorem samples_length (x y : List (Option ℝ)) (h : x.length = y.length) : (samples x y).length = (reals x).length := by
  unfold samples reals
  induction x generalizing y with
  | nil => rfl
  | cons a r ih =>
    cases y with
    | nil => simp at h
    | cons b t =>
      have := ih t (by simpa using h)
      cases a <;> simp_all

theorem pyIndex_nat {α : Type} (l : List α) (k : ℕ) (h : k < l.length) : pyIndex l (k : ℤ) = .ok l[k] := by
  unfold pyIndex
  simp only
  rw [if_neg (by omega), if_neg (by omega), Int.toNat_natCast, List.getElem?_eq_getElem h]

theorem labelAt_samples (S : List (ℝ × Option ℝ)) (k : ℕ) (h : k + 1 < S.length) :
    labelAt (S.map fun p => some p.1) (S.map Prod.snd) ((k + 1 : ℕ) : ℤ) = .ok (between S[k] S[k + 1]) := by
  unfold labelAt
  have e : ((k + 1 : ℕ) : ℤ) - 1 = (k : ℤ) := by omega
  rw [e, pyIndex_nat _ k (by simp; omega), pyIndex_nat _ (k + 1) (by simpa using h), pyIndex_nat _ k (by simp; omega),
    pyIndex_nat _ (k + 1) (by simpa using h)]
  simp only [List.getElem_map]
  rfl

theorem leftLabel_eq (x y : List (Option ℝ)) (hl : x.length = y.length) (hn : 0 < (reals x).length) (pos : ℤ) (i : ℕ) :
    leftLabel pos i ⟨x, y, false⟩ =
      (labelAt ((samples x y).map fun p => some p.1) ((samples x y).map Prod.snd) (pos - 10 * i)).map fun p => [p] := by
  have sl := samples_length x y hl
  unfold leftLabel
  rw [if_neg (by simpa using hl)]
  simp only [bind, Except.bind, pure, Except.pure, (keepReal_x x y hl).1, (keepReal_x x y hl).2, List.length_map]
  rw [if_neg Bool.false_ne_true, if_pos (by omega)]
  rfl

theorem leftLabels_ok (x : List (Option ℝ)) (pos : ℕ) (hpos : pos ≤ (reals x).length) (hp : 0 < (reals x).length)
    (ys : List (List (Option ℝ))) (hy : ∀ y ∈ ys, x.length = y.length) (i : ℕ) (h1 : 1 ≤ i) (h2 : 10 * (i - 1 + ys.length) + 1 ≤ pos) :
    ∃ L, leftLabels (pos : ℤ) i (ys.map fun y => ⟨x, y, false⟩) = .ok L ∧ L.length = ys.length ∧
      ∀ (j : ℕ) (y : List (Option ℝ)), ys[j]? = some y → ∃ p q, (samples x y)[pos - 10 * (i + j) - 1]? = some p ∧
        (samples x y)[pos - 10 * (i + j)]? = some q ∧ L[j]? = some (between p q) := by
  induction ys generalizing i with
  | nil => exact ⟨[], rfl, rfl, by simp⟩
  | cons y r ih =>
    have hl : x.length = y.length := hy y (by simp)
    have sl := samples_length x y hl
    simp only [List.length_cons] at h2
    obtain ⟨L, e1, e2, e3⟩ := ih (fun y hy' => hy y (by simp [hy'])) (i + 1) (by omega) (by omega)
    obtain ⟨k, hk⟩ : ∃ k, pos - 10 * i = k + 1 := ⟨pos - 10 * i - 1, by omega⟩
    have hk2 : k + 1 < (samples x y).length := by omega
    refine ⟨between (samples x y)[k] (samples x y)[k + 1] :: L, ?_, by simp [e2], ?_⟩
    · have c : (pos : ℤ) - 10 * (i : ℤ) = ((k + 1 : ℕ) : ℤ) := by omega
      rw [List.map_cons, leftLabels, leftLabel_eq x y hl hp, c, labelAt_samples _ k hk2, e1]
      rfl
    · intro j y' hj
      cases j with
      | zero =>
        simp only [List.getElem?_cons_zero, Option.some.injEq] at hj
        subst hj
        refine ⟨(samples x y)[k], (samples x y)[k + 1], ?_, ?_, rfl⟩
        · rw [show pos - 10 * (i + 0) - 1 = k by omega, List.getElem?_eq_getElem]
        · rw [show pos - 10 * (i + 0) = k + 1 by omega, List.getElem?_eq_getElem]
      | succ j =>
        obtain ⟨p, q, a, b, c⟩ := e3 j y' (by simpa using hj)
        refine ⟨p, q, ?_, ?_, by simpa using c⟩
        · rw [show i + (j + 1) = i + 1 + j by omega]; exact a
        · rw [show i + (j + 1) = i + 1 + j by omega]; exact b

theorem autoPos_eq (n : ℕ) : ⌊(0.95 : ℝ) * (n : ℝ)⌋ = ((95 * n / 100 : ℕ) : ℤ) := by
  rw [Int.floor_eq_iff]
  have h1 : 100 * (95 * n / 100) ≤ 95 * n := Nat.mul_div_le _ _
  have h2 : 95 * n < 100 * (95 * n / 100) + 100 := by omega
  have h1' : (100 : ℝ) * ((95 * n / 100 : ℕ) : ℝ) ≤ 95 * n := by exact_mod_cast h1
  have h2' : (95 : ℝ) * n < 100 * ((95 * n / 100 : ℕ) : ℝ) + 100 := by exact_mod_cast h2
  simp only [Int.cast_natCast]
  constructor
  · norm_num; linarith
  · norm_num; linarith

/-- C63: curves over common coordinates are drawn and every label sits on its curve,
midway between two neighbouring samples, if there are enough samples: the number
`⌊0.95 n⌋` has to exceed ten times the number of curves. Missing: fewer samples, see
`C63_few_samples_violated` and `C63_label_violated`. -/
theorem C63_labels_partial (x : List (Option ℝ)) (ys : List (List (Option ℝ))) (hy : ∀ y ∈ ys, x.length = y.length) (hne : ys ≠ [])
    (li mi : List ℝ) (ki : List Bool) (vlines : Bool) (hn : 10 * ys.length + 1 ≤ 95 * (reals x).length / 100) :
    ∃ p, plotData (ys.map fun y => ⟨x, y, false⟩) (vlines := vlines) (segs := ⟨some li, some mi, some ki⟩) = .ok p ∧
      p.labels.length = ys.length ∧
      ∀ (j : ℕ) (y : List (Option ℝ)), ys[j]? = some y → ∃ (k : ℕ) (a b : ℝ × Option ℝ), (samples x y)[k]? = some a ∧
        (samples x y)[k + 1]? = some b ∧ p.labels[j]? = some (between a b) := by
  obtain ⟨L, e1, e2, e3⟩ := leftLabels_ok x (95 * (reals x).length / 100) (by omega) (by omega) ys hy 1 le_rfl (by omega)
  obtain ⟨y, r, rfl⟩ := List.exists_cons_of_ne_nil hne
  obtain ⟨v, hv⟩ : ∃ v, marksOf vlines ⟨some li, some mi, some ki⟩ = .ok v := by
    cases vlines
    · exact ⟨_, rfl⟩
    · exact ⟨_, marks_ok li mi ki⟩
  refine ⟨⟨v.1, v.2, ((y :: r).map fun y => (⟨x, y, false⟩ : Curve)) ++ [], L ++ []⟩, ?_, by simpa using e2, ?_⟩
  · unfold plotData
    rw [hv]
    have hb : labelBase none (((y :: r).map fun y => (⟨x, y, false⟩ : Curve))) = .ok ((95 * (reals x).length / 100 : ℕ) : ℤ) := by
      rw [← autoPos_eq]
      rfl
    simp only [bind, Except.bind, pure, Except.pure, hb, e1, rightLabels]
  · intro j y' hj
    obtain ⟨a, b, h1, h2, h3⟩ := e3 j y' hj
    have hjl : j < (y :: r).length := by
      by_contra hc
      rw [List.getElem?_eq_none (by omega)] at hj
      cases hj
    refine ⟨95 * (reals x).length / 100 - 10 * (1 + j) - 1, a, b, h1, ?_, by simpa using h3⟩
    rw [show 95 * (reals x).length / 100 - 10 * (1 + j) - 1 + 1 = 95 * (reals x).length / 100 - 10 * (1 + j) by omega]
    exact h2

/-! ## Too few samples -/

theorem pyIndex_cases {α : Type} (l : List α) (k : ℤ) : (∃ v, pyIndex l k = .ok v) ∨ pyIndex l k = .error .indexError := by
  unfold pyIndex
  dsimp only
  generalize (if k < 0 then k + (l.length : ℤ) else k) = i
  by_cases h : i < 0
  · rw [if_pos h]; exact .inr rfl
  · rw [if_neg h]
    cases l[i.toNat]? with
    | none => exact .inr rfl
    | some v => exact .inl ⟨v, rfl⟩

theorem pyIndex_out {α : Type} (l : List α) (k : ℤ) (h : k + l.length < 0) : pyIndex l k = .error .indexError := by
  unfold pyIndex
  dsimp only
  have : (if k < 0 then k + (l.length : ℤ) else k) = k + l.length := if_pos (by omega)
  rw [this, if_pos h]

theorem labelAt_cases (x y : List (Option ℝ)) (k : ℤ) : (∃ p, labelAt x y k = .ok p) ∨ labelAt x y k = .error .indexError := by
  unfold labelAt
  rcases pyIndex_cases x (k - 1) with ⟨a, h1⟩ | h1
  · rcases pyIndex_cases x k with ⟨b, h2⟩ | h2
    · rcases pyIndex_cases y (k - 1) with ⟨c, h3⟩ | h3
      · rcases pyIndex_cases y k with ⟨d, h4⟩ | h4
        · rw [h1, h2, h3, h4]; exact .inl ⟨_, rfl⟩
        · rw [h1, h2, h3, h4]; exact .inr rfl
      · rw [h1, h2, h3]; exact .inr rfl
    · rw [h1, h2]; exact .inr rfl
  · rw [h1]; exact .inr rfl

theorem leftLabels_fail (x : List (Option ℝ)) (hn : 0 < (reals x).length) (pos : ℤ) (ys : List (List (Option ℝ)))
    (hy : ∀ y ∈ ys, x.length = y.length) (hne : ys ≠ []) (i : ℕ)
    (h : pos - 10 * ((i : ℤ) + ys.length - 1) - 1 + (reals x).length < 0) :
    leftLabels pos i (ys.map fun y => ⟨x, y, false⟩) = .error .indexError := by
  induction ys generalizing i with
  | nil => exact absurd rfl hne
  | cons y r ih =>
    have hl : x.length = y.length := hy y (by simp)
    have sl := samples_length x y hl
    rw [List.map_cons, leftLabels, leftLabel_eq x y hl hn]
    cases r with
    | nil =>
      have : labelAt ((samples x y).map fun p => some p.1) ((samples x y).map Prod.snd) (pos - 10 * i) = .error .indexError := by
        unfold labelAt
        rw [pyIndex_out _ _ (by simp only [List.length_map, sl]; simp at h; omega)]
        rfl
      rw [this]
      rfl
    | cons z t =>
      have e := ih (fun y hy' => hy y (by simp [hy'])) (by simp) (i + 1) (by simp at h ⊢; omega)
      rcases labelAt_cases ((samples x y).map fun p => some p.1) ((samples x y).map Prod.snd) (pos - 10 * i) with ⟨p, hp⟩ | hp
      · rw [hp, e]; rfl
      · rw [hp]; rfl

/-- C63 (violated): with few samples the plot fails, as labels are sought ten samples
apart: with `k` curves over `n ≥ 1` coordinates, `⌊0.95 n⌋ + n ≤ 10 k` raises
`IndexError`. -/
theorem C63_few_samples_violated (x : List (Option ℝ)) (hn : 0 < (reals x).length) (ys : List (List (Option ℝ)))
    (hy : ∀ y ∈ ys, x.length = y.length) (hne : ys ≠ []) (li mi : List ℝ) (ki : List Bool) (vlines : Bool)
    (h : 95 * (reals x).length / 100 + (reals x).length ≤ 10 * ys.length) :
    plotData (ys.map fun y => ⟨x, y, false⟩) (vlines := vlines) (segs := ⟨some li, some mi, some ki⟩) = .error .indexError := by
  have e1 := leftLabels_fail x hn ((95 * (reals x).length / 100 : ℕ) : ℤ) ys hy hne 1 (by push_cast; omega)
  obtain ⟨y, r, rfl⟩ := List.exists_cons_of_ne_nil hne
  obtain ⟨v, hv⟩ : ∃ v, marksOf vlines ⟨some li, some mi, some ki⟩ = .ok v := by
    cases vlines
    · exact ⟨_, rfl⟩
    · exact ⟨_, marks_ok li mi ki⟩
  have hb : labelBase none (((y :: r).map fun y => (⟨x, y, false⟩ : Curve))) = .ok ((95 * (reals x).length / 100 : ℕ) : ℤ) := by
    rw [← autoPos_eq]
    rfl
  unfold plotData
  rw [hv]
  simp only [bind, Except.bind, hb, e1]

theorem toCm_length (x : List (Option ℝ)) : (toCm x).length = x.length := by
  simp [toCm]

theorem toCm_reals (x : List (Option ℝ)) : (reals (toCm x)).length = (reals x).length := by
  unfold toCm reals
  induction x with
  | nil => rfl
  | cons a r ih => cases a <;> simp_all

/-- C63 (violated): the displacements of a solution sampled at 15 points cannot be
plotted, nor the stresses of one with at most ten points above the weak layer. -/
theorem C63_coarse_violated (s : Self) (x : List (Option ℝ)) (z : List Vec6) (hz : x.length = z.length) (hn : 0 < (reals x).length)
    (li mi : List ℝ) (ki : List Bool) :
    ((reals x).length ≤ 15 → plotDisplacements x z ⟨some li, some mi, some ki⟩ = .error .indexError) ∧
    ((reals x).length ≤ 10 → plotStresses s x z ⟨some li, some mi, some ki⟩ = .error .indexError) := by
  constructor
  · intro h
    have := C63_few_samples_violated (toCm x) (by rw [toCm_reals]; exact hn)
      [z.map fun Z => some (1 * fu Z 0), z.map fun Z => some (-(1 * fw Z)), (z.map fun Z => Z 4 * (180 / Real.pi)).map some]
      (by intro y hy; simp only [List.mem_cons, List.not_mem_nil, or_false] at hy; rcases hy with rfl | rfl | rfl <;> simp [toCm_length, hz])
      (by simp) li mi ki true (by rw [toCm_reals]; simp; omega)
    exact this
  · intro h
    have := C63_few_samples_violated (toCm x) (by rw [toCm_reals]; exact hn)
      [z.map fun Z => some (1e3 * ftau s Z), z.map fun Z => some (1e3 * fsig s Z)]
      (by intro y hy; simp only [List.mem_cons, List.not_mem_nil, or_false] at hy; rcases hy with rfl | rfl <;> simp [toCm_length, hz])
      (by simp) li mi ki true (by rw [toCm_reals]; simp; omega)
    exact this

/-- C63 (violated): with 22 samples the label of the second curve lies midway between its
last and its first point. -/
theorem C63_label_violated (x : List (Option ℝ)) (y1 y2 : List (Option ℝ)) (h1 : x.length = y1.length) (h2 : x.length = y2.length)
    (hn : (reals x).length = 22) (li mi : List ℝ) (ki : List Bool) (vlines : Bool) :
    ∃ p a b, plotData [⟨x, y1, false⟩, ⟨x, y2, false⟩] (vlines := vlines) (segs := ⟨some li, some mi, some ki⟩) = .ok p ∧
      (samples x y2)[21]? = some a ∧ (samples x y2)[0]? = some b ∧ p.labels[1]? = some (between a b) := by
  have sl1 := samples_length x y1 h1
  have sl2 := samples_length x y2 h2
  obtain ⟨v, hv⟩ : ∃ v, marksOf vlines ⟨some li, some mi, some ki⟩ = .ok v := by
    cases vlines
    · exact ⟨_, rfl⟩
    · exact ⟨_, marks_ok li mi ki⟩
  have hb : labelBase none [(⟨x, y1, false⟩ : Curve), ⟨x, y2, false⟩] = .ok 20 := by
    have : autoPos [(⟨x, y1, false⟩ : Curve), ⟨x, y2, false⟩] = .ok ⌊(0.95 : ℝ) * ((reals x).length : ℝ)⌋ := rfl
    unfold labelBase
    rw [this, autoPos_eq, hn]
    rfl
  have l1 : leftLabel 20 1 ⟨x, y1, false⟩ = .ok [between ((samples x y1)[9]'(by omega)) ((samples x y1)[10]'(by omega))] := by
    rw [leftLabel_eq x y1 h1 (by omega)]
    have := labelAt_samples (samples x y1) 9 (by omega)
    norm_num at this ⊢
    rw [this]
    rfl
  have l2 : leftLabel 20 2 ⟨x, y2, false⟩ = .ok [between ((samples x y2)[21]'(by omega)) ((samples x y2)[0]'(by omega))] := by
    rw [leftLabel_eq x y2 h2 (by omega)]
    have i1 : ∀ {α : Type} (l : List α) (hl : l.length = 22), pyIndex l (-1) = .ok (l[21]'(by omega)) := by
      intro α l hl
      unfold pyIndex
      simp [hl]
    have i2 : ∀ {α : Type} (l : List α) (hl : l.length = 22), pyIndex l 0 = .ok (l[0]'(by omega)) :=
      fun l hl => pyIndex_nat l 0 (by omega)
    have : labelAt ((samples x y2).map fun p => some p.1) ((samples x y2).map Prod.snd) (20 - 10 * ((2 : ℕ) : ℤ)) =
        .ok (between ((samples x y2)[21]'(by omega)) ((samples x y2)[0]'(by omega))) := by
      unfold labelAt
      norm_num
      rw [i1 _ (by simp; omega), i2 _ (by simp; omega), i1 _ (by simp; omega), i2 _ (by simp; omega)]
      simp only [List.getElem_map]
      rfl
    rw [this]
    rfl
  refine ⟨⟨v.1, v.2, [⟨x, y1, false⟩, ⟨x, y2, false⟩] ++ [], [between ((samples x y1)[9]'(by omega)) ((samples x y1)[10]'(by omega)),
    between ((samples x y2)[21]'(by omega)) ((samples x y2)[0]'(by omega))]⟩, _, _, ?_, List.getElem?_eq_getElem (by omega), List.getElem?_eq_getElem (by omega), rfl⟩
  unfold plotData
  rw [hv]
  simp only [bind, Except.bind, hb, leftLabels, l1, l2, rightLabels, pure, Except.pure]
  rfl

/-- C63 (violated): the comparison with finite elements always fails: it passes no
segments but leaves the vertical separators on. -/
theorem C63_fea_violated (s : Self) (x : List (Option ℝ)) (z : List Vec6) (c0 c1 c2 c3 : List (Option ℝ)) :
    plotFeaDisp x z c0 c1 c2 c3 = .error .typeError ∧ plotFeaStress s x z c0 c1 c2 = .error .typeError := ⟨rfl, rfl⟩

/-! ## Wrappers -/

/-- C63: the plot of displacements shows, over the coordinate in cm, the displacement of
the midplane, the upward deflection in mm and the rotation in degrees. -/
theorem C63_displacements (x : List (Option ℝ)) (z : List Vec6) (segs : PlotSegs) (p : LinePlot)
    (h : plotDisplacements x z segs = .ok p) :
    p.curves.map Curve.x = List.replicate 3 (x.map (Option.map fun v => v / 10)) ∧
    p.curves.map Curve.y = [z.map fun Z => some (Z 0), z.map fun Z => some (-Z 2), z.map fun Z => some (Z 4 * 180 / Real.pi)] := by
  have e := (plotData_ok (show plotData [⟨toCm x, z.map fun Z => some (1 * fu Z 0), false⟩, ⟨toCm x, z.map fun Z => some (-(1 * fw Z)), false⟩,
    ⟨toCm x, (z.map fun Z => Z 4 * (180 / Real.pi)).map some, false⟩] (segs := segs) = .ok p from h)).2
  rw [e]
  refine ⟨rfl, ?_⟩
  simp [fu, fw, mul_div_assoc, Function.comp_def]

/-- C63: the plot of stresses shows shear and normal stress of the weak layer in kPa. -/
theorem C63_stresses (s : Self) (x : List (Option ℝ)) (z : List Vec6) (segs : PlotSegs) (p : LinePlot)
    (h : plotStresses s x z segs = .ok p) :
    p.curves.map Curve.x = List.replicate 2 (x.map (Option.map fun v => v / 10)) ∧
    p.curves.map Curve.y = [z.map fun Z => some (1000 * (s.kt * (Z 0 + s.h / 2 * Z 4 - Z 3 * s.t / 2))),
      z.map fun Z => some (-(1000 * (s.kn * Z 2)))] := by
  have e := (plotData_ok (show plotData [⟨toCm x, z.map fun Z => some (1e3 * ftau s Z), false⟩,
    ⟨toCm x, z.map fun Z => some (1e3 * fsig s Z), false⟩] (segs := segs) = .ok p from h)).2
  rw [e]
  refine ⟨rfl, ?_⟩
  simp only [List.append_nil, List.map_cons, List.map_nil, List.cons.injEq, and_true, List.map_inj_left, Option.some.injEq]
  constructor
  · intro Z _
    simp only [ftau, fdw, fu, fpsi]
    norm_num
    ring
  · intro Z _
    simp only [fsig, fw]
    norm_num

/-- C63: the plots of energy release rates show kJ/m² as J/m². -/
theorem C63_energies (da g0 g1 g2 : List (Option ℝ)) (p q : LinePlot) (h : plotErrComp da g0 g1 = .ok p)
    (h' : plotErrModes da g0 g1 g2 = .ok q) :
    p.curves.map Curve.x = List.replicate 2 (da.map (Option.map fun v => v / 10)) ∧
    p.curves.map Curve.y = [g0.map (Option.map fun v => 1000 * v), g1.map (Option.map fun v => 1000 * v)] ∧
    q.curves.map Curve.x = List.replicate 3 (da.map (Option.map fun v => v / 10)) ∧
    q.curves.map Curve.y = [g2.map (Option.map fun v => 1000 * v), g1.map (Option.map fun v => 1000 * v), g0.map (Option.map fun v => 1000 * v)] ∧
    p.spans = [] ∧ p.vlines = [] ∧ q.spans = [] ∧ q.vlines = [] := by
  obtain ⟨m, e⟩ := plotData_ok h
  obtain ⟨m', e'⟩ := plotData_ok h'
  injection m with m
  injection m with m1 m2
  injection m' with m'
  injection m' with m3 m4
  rw [e, e', ← m1, ← m2, ← m3, ← m4]
  have : ∀ g : List (Option ℝ), perSquareMetre g = g.map (Option.map fun v => 1000 * v) := by
    intro g
    unfold perSquareMetre
    norm_num
  simp [this]
  rfl

/-- A slab of 3 m whose middle part is unsupported, with a load at its right end, sampled
at 50 points: one interval from 100 cm to 150 cm is shaded, lines stand at 0 and 150 cm,
and all labels sit on their curves. -/
example (z : List Vec6) (hz : z.length = 50) : ∃ p,
    plotDisplacements ((List.range 50).map fun i => some (i : ℝ)) z ⟨some [1000, 500, 1500], some [0, 80], some [true, false, true]⟩ = .ok p ∧
    p.spans = [(100, 150)] ∧ p.vlines = [0, 150] ∧ p.labels.length = 3 := by
  have hr : (reals (toCm ((List.range 50).map fun i => some (i : ℝ)))).length = 50 := by
    rw [toCm_reals]
    simp [reals]
  obtain ⟨p, h1, h2, -⟩ := C63_labels_partial (toCm ((List.range 50).map fun i => some (i : ℝ)))
    [z.map fun Z => some (1 * fu Z 0), z.map fun Z => some (-(1 * fw Z)), (z.map fun Z => Z 4 * (180 / Real.pi)).map some]
    (by intro y hy; simp only [List.mem_cons, List.not_mem_nil, or_false] at hy; rcases hy with rfl | rfl | rfl <;> simp [toCm_length, hz])
    (by simp) [1000, 500, 1500] [0, 80] [true, false, true] true (by rw [hr]; simp)
  obtain ⟨m, -⟩ := plotData_ok h1
  rw [marks_ok] at m
  injection m with m
  injection m with m1 m2
  refine ⟨p, h1, ?_, ?_, by simpa using h2⟩
  · rw [← m1]
    simp [List.range_succ, startAt]
    norm_num
  · rw [← m2]
    simp [List.range_succ, startAt]
    norm_num

end Weac
