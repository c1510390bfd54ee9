import Mathlib.Tactic.NormNum
import Mathlib.Tactic.Linarith
import Mathlib.Tactic.Ring
import Verif.Model.Criterion

/-!
# C49: locating a coordinate and splitting segments at the middle
-/

namespace Weac

namespace Spec

/-- Coordinate at which segment `i` begins. -/
def startOf (li : List ℝ) (i : ℕ) : ℝ := (li.take i).sum

/-- Strictly inside the segments at coordinate `x` the support is `k`. -/
def SupportAt (li : List ℝ) (ki : List Bool) (x : ℝ) (k : Bool) : Prop :=
  ∃ i, i < li.length ∧ ki[i]? = some k ∧ startOf li i < x ∧ x < startOf li (i + 1)

end Spec

theorem startOf_cons (l : ℝ) (li : List ℝ) (i : ℕ) : Spec.startOf (l :: li) (i + 1) = l + Spec.startOf li i := by
  simp [Spec.startOf]

theorem startOf_succ (li : List ℝ) {i : ℕ} (h : i < li.length) :
    Spec.startOf li (i + 1) = Spec.startOf li i + li[i] := by
  unfold Spec.startOf
  rw [List.sum_take_succ _ _ h]

theorem startOf_length (li : List ℝ) : Spec.startOf li li.length = li.sum := by
  unfold Spec.startOf; rw [List.take_length]

theorem startOf_mono {li : List ℝ} (h : ∀ l ∈ li, 0 ≤ l) {i j : ℕ} (hij : i ≤ j) :
    Spec.startOf li i ≤ Spec.startOf li j := by
  induction j, hij using Nat.le_induction with
  | base => exact le_rfl
  | succ j _ ih =>
    refine ih.trans ?_
    by_cases hj : j < li.length
    · rw [startOf_succ li hj]
      have := h _ (List.getElem_mem hj)
      linarith
    · unfold Spec.startOf
      rw [List.take_of_length_le (by omega), List.take_of_length_le (by omega)]

theorem segmentLoop_in {x : ℝ} : ∀ (li : List ℝ) (n : ℕ) (c : ℝ), x ≤ c + li.sum → (li ≠ []) →
    ∃ i, ∃ _ : i < li.length, segmentLoop x n c li
        = (((n + i : ℕ) : ℤ), some (x - (c + Spec.startOf li i))) ∧
      x ≤ c + Spec.startOf li (i + 1) ∧ ∀ j < i, c + Spec.startOf li (j + 1) < x := by
  intro li
  induction li with
  | nil => intro n c _ h; exact absurd rfl h
  | cons l ls ih =>
    intro n c h _
    unfold segmentLoop
    by_cases hx : x ≤ c + l
    · rw [if_pos hx]
      refine ⟨0, by simp, ?_, ?_, by simp⟩
      · simp [Spec.startOf]
      · simpa [Spec.startOf] using hx
    · rw [if_neg hx]
      have hs : x ≤ c + l + ls.sum := by simpa [add_assoc] using h
      have hne : ls ≠ [] := by
        rintro rfl
        exact hx (by simpa using hs)
      obtain ⟨i, hi, h1, h2, h3⟩ := ih (n + 1) (c + l) hs hne
      refine ⟨i + 1, by simpa using hi, ?_, ?_, ?_⟩
      · rw [h1, startOf_cons, show n + 1 + i = n + (i + 1) by omega, add_assoc]
      · rw [startOf_cons, ← add_assoc]; exact h2
      · intro j hj
        rcases j with _ | j
        · simpa [Spec.startOf] using not_le.1 hx
        · rw [startOf_cons, ← add_assoc]; exact h3 j (by omega)

theorem segmentLoop_out {x : ℝ} : ∀ (li : List ℝ) (n : ℕ) (c : ℝ), (∀ i < li.length, c + Spec.startOf li (i + 1) < x) →
    segmentLoop x n c li = (-1, none) := by
  intro li
  induction li with
  | nil => intro n c _; rfl
  | cons l ls ih =>
    intro n c h
    unfold segmentLoop
    have h0 := h 0 (by simp)
    rw [if_neg (by simpa [Spec.startOf] using h0)]
    refine ih _ _ fun i hi => ?_
    have := h (i + 1) (by simpa using hi)
    rwa [startOf_cons, ← add_assoc] at this

/-- C49: a coordinate on the beam is located in the first segment that ends at
or beyond it, with its distance from the beginning of this segment. -/
theorem C49_located (li : List ℝ) (x : ℝ) (h2 : 2 ≤ li.length) (hx : x ≤ li.sum) :
    ∃ i ξ, ∃ hi : i < li.length, findSegmentIndex li x = ((i : ℤ), some ξ) ∧ x = Spec.startOf li i + ξ ∧
      ξ ≤ li[i] ∧ (i = 0 ∨ 0 < ξ) := by
  obtain ⟨i, hi, h, h', h''⟩ := segmentLoop_in (x := x) li 0 0 (by simpa using hx) (by rintro rfl; simp at h2)
  refine ⟨i, x - Spec.startOf li i, hi, ?_, by ring, ?_, ?_⟩
  · unfold findSegmentIndex
    rw [if_neg (by omega), h]
    simp
  · rw [zero_add, startOf_succ li hi] at h'
    linarith
  · rcases i with _ | i
    · exact .inl rfl
    · right
      have := h'' i (by omega)
      rw [zero_add] at this
      linarith

example : ∃ i ξ, ∃ hi : i < [2, 0, 3].length, findSegmentIndex [2, 0, (3 : ℝ)] 4 = ((i : ℤ), some ξ) ∧
    (4 : ℝ) = Spec.startOf [2, 0, 3] i + ξ ∧ ξ ≤ [2, 0, (3 : ℝ)][i] ∧ (i = 0 ∨ 0 < ξ) :=
  C49_located [2, 0, 3] 4 (by norm_num) (by norm_num)

/-- C49: a coordinate beyond the beam is reported as such. -/
theorem C49_beyond (li : List ℝ) (x : ℝ) (h1 : li.length ≠ 1) (h0 : ∀ l ∈ li, 0 ≤ l) (hx : li.sum < x) :
    findSegmentIndex li x = (-1, none) := by
  unfold findSegmentIndex
  rw [if_neg h1]
  refine segmentLoop_out li 0 0 fun i hi => ?_
  have := startOf_mono h0 (show i + 1 ≤ li.length by omega)
  rw [startOf_length] at this
  linarith

example : findSegmentIndex [2, 3] 6 = (-1, none) := C49_beyond _ _ (by simp) (by simp) (by norm_num)

/-- Exception: with one segment the coordinate is not checked. -/
theorem C49_single (l x : ℝ) : findSegmentIndex [l] x = (0, some x) := by
  simp [findSegmentIndex]

/-! ## Splitting -/

theorem cumsum_getElem (li : List ℝ) : ∀ (c : ℝ) (i : ℕ) (h : i < li.length),
    ((li.scanl (· + ·) c).tail)[i]'(by simpa using h) = c + Spec.startOf li (i + 1) := by
  induction li with
  | nil => intro c i h; simp at h
  | cons l ls ih =>
    intro c i h
    rcases i with _ | i
    · rcases ls with _ | ⟨m, ls⟩ <;> simp [Spec.startOf]
    · have := ih (c + l) i (by simpa using h)
      rw [startOf_cons, ← add_assoc, ← this]
      simp [List.scanl_cons]

theorem nth_cumsum {li : List ℝ} {i : ℕ} (h : i < li.length) : nth (cumsum li) i = Spec.startOf li (i + 1) := by
  have := cumsum_getElem li 0 i h
  unfold nth cumsum
  rw [List.getD_eq_getElem?_getD, List.getElem?_eq_getElem (by simpa using h), Option.getD_some, this, zero_add]

theorem cumsum_last {li : List ℝ} (h : li ≠ []) : (cumsum li).getLast? = some li.sum := by
  have hl : (cumsum li).length = li.length := by simp [cumsum]
  have hp : 0 < li.length := List.length_pos_iff.2 h
  rw [List.getLast?_eq_getElem?, hl, List.getElem?_eq_getElem (by omega)]
  have := nth_cumsum (li := li) (i := li.length - 1) (by omega)
  unfold nth at this
  rw [List.getD_eq_getElem?_getD, List.getElem?_eq_getElem (by omega), Option.getD_some] at this
  rw [this, show li.length - 1 + 1 = li.length by omega, startOf_length]

/-- Result of the split when the middle does not fall into the first segment. -/
theorem split_run (li : List ℝ) (ki : List Bool) (h2 : ki.length = li.length) (h0 : ∀ l ∈ li, 0 ≤ l)
    (hf : nth li 0 < li.sum / 2) :
    ∃ i, ∃ hi : i + 1 < li.length, Spec.startOf li (i + 1) < li.sum / 2 ∧ li.sum / 2 ≤ Spec.startOf li (i + 2) ∧
      splitAtMidpoint li ki = .ok
        (li.take (i + 1) ++ [li.sum / 2 - Spec.startOf li (i + 1)] ++ [Spec.startOf li (i + 2) - li.sum / 2]
            ++ li.drop (i + 2),
          ki.take (i + 1) ++ [ki[i + 1]] ++ [ki[i + 1]] ++ ki.drop (i + 2)) := by
  have hne : li ≠ [] := by
    rintro rfl
    simp [nth] at hf
  have hsum : 0 ≤ li.sum := List.sum_nonneg h0
  have hp : 0 < li.length := List.length_pos_iff.2 hne
  cases hfd : (List.range li.length).find? fun i => decide (li.sum / 2 ≤ nth (cumsum li) i) with
  | none =>
    rw [List.find?_eq_none] at hfd
    have := hfd (li.length - 1) (by simp; omega)
    rw [nth_cumsum (by omega), show li.length - 1 + 1 = li.length by omega, startOf_length] at this
    exact absurd (decide_eq_true (by linarith)) this
  | some j =>
    have hj := List.find?_some hfd
    have hm := List.mem_range.1 (List.mem_of_find?_eq_some hfd)
    rw [nth_cumsum hm] at hj
    have hj := of_decide_eq_true hj
    rcases j with _ | i
    · exfalso
      rw [startOf_succ li hm] at hj
      simp only [Spec.startOf, List.take_zero, List.sum_nil, zero_add] at hj
      unfold nth at hf
      rw [List.getD_eq_getElem?_getD, List.getElem?_eq_getElem hm, Option.getD_some] at hf
      linarith
    · have hlt : Spec.startOf li (i + 1) < li.sum / 2 := by
        rw [List.find?_range_eq_some] at hfd
        have := hfd.2.2 i (by omega)
        rw [nth_cumsum (by omega)] at this
        simpa using this
      refine ⟨i, hm, hlt, hj, ?_⟩
      unfold splitAtMidpoint
      simp only [cumsum_last hne, hfd, List.getElem?_eq_getElem (show i + 1 < ki.length by omega)]
      rw [nth_cumsum (by omega), nth_cumsum hm]

theorem startOf_append (A B : List ℝ) (n : ℕ) : Spec.startOf (A ++ B) (A.length + n) = A.sum + Spec.startOf B n := by
  unfold Spec.startOf
  rw [List.take_length_add_append, List.sum_append]

/-- Support of one segment in a list of three parts. -/
theorem supportAt_split {A B : List ℝ} {A' B' : List Bool} {l x : ℝ} {k0 k : Bool} (hA : A'.length = A.length)
    (hB : B'.length = B.length) :
    Spec.SupportAt (A ++ l :: B) (A' ++ k0 :: B') x k ↔
      Spec.SupportAt A A' x k ∨ (k0 = k ∧ A.sum < x ∧ x < A.sum + l) ∨ Spec.SupportAt B B' (x - (A.sum + l)) k := by
  constructor
  · rintro ⟨i, hi, hk, h1, h2⟩
    rcases lt_trichotomy i A.length with h | rfl | h
    · left
      refine ⟨i, h, ?_, ?_, ?_⟩
      · rwa [List.getElem?_append_left (by omega)] at hk
      · simpa [Spec.startOf, List.take_append_of_le_length h.le] using h1
      · simpa [Spec.startOf, List.take_append_of_le_length h] using h2
    · right; left
      refine ⟨?_, ?_, ?_⟩
      · rw [← hA] at hk; simpa using hk
      · simpa [Spec.startOf] using h1
      · rw [startOf_append] at h2; simpa [Spec.startOf] using h2
    · right; right
      obtain ⟨j, rfl⟩ : ∃ j, i = A.length + (j + 1) := ⟨i - A.length - 1, by omega⟩
      refine ⟨j, by simpa using hi, ?_, ?_, ?_⟩
      · rw [← hA] at hk
        rw [List.getElem?_append_right (by omega)] at hk
        simpa using hk
      · have : Spec.startOf (A ++ l :: B) (A.length + (j + 1)) = A.sum + l + Spec.startOf B j := by
          rw [startOf_append, startOf_cons, add_assoc]
        rw [this] at h1; linarith
      · have : Spec.startOf (A ++ l :: B) (A.length + (j + 1) + 1) = A.sum + l + Spec.startOf B (j + 1) := by
          rw [add_assoc A.length, startOf_append, startOf_cons, add_assoc]
        rw [this] at h2; linarith
  · rintro (⟨i, hi, hk, h1, h2⟩ | ⟨rfl, h1, h2⟩ | ⟨j, hj, hk, h1, h2⟩)
    · refine ⟨i, by simp; omega, ?_, ?_, ?_⟩
      · rwa [List.getElem?_append_left (by omega)]
      · simpa [Spec.startOf, List.take_append_of_le_length hi.le] using h1
      · simpa [Spec.startOf, List.take_append_of_le_length hi] using h2
    · refine ⟨A.length, by simp, ?_, ?_, ?_⟩
      · rw [← hA]; simp
      · simpa [Spec.startOf] using h1
      · rw [startOf_append]; simpa [Spec.startOf] using h2
    · refine ⟨A.length + (j + 1), by simpa using hj, ?_, ?_, ?_⟩
      · rw [← hA, List.getElem?_append_right (by omega)]
        simpa using hk
      · have : Spec.startOf (A ++ l :: B) (A.length + (j + 1)) = A.sum + l + Spec.startOf B j := by
          rw [startOf_append, startOf_cons, add_assoc]
        rw [this]; linarith
      · have : Spec.startOf (A ++ l :: B) (A.length + (j + 1) + 1) = A.sum + l + Spec.startOf B (j + 1) := by
          rw [add_assoc A.length, startOf_append, startOf_cons, add_assoc]
        rw [this]; linarith

/-- C49: unless the middle lies in the first segment, splitting keeps the
total length and the nonnegativity of the lengths, puts a boundary in the
middle, and leaves the support at every other coordinate as it was. -/
theorem C49_split_partial (li : List ℝ) (ki : List Bool) (h2 : ki.length = li.length) (h0 : ∀ l ∈ li, 0 ≤ l)
    (hf : nth li 0 < li.sum / 2) :
    ∃ li' ki', splitAtMidpoint li ki = .ok (li', ki') ∧ ki'.length = li'.length ∧ li'.length = li.length + 1 ∧
      li'.sum = li.sum ∧
      (∀ l ∈ li', 0 ≤ l) ∧ (∃ i, i < li'.length ∧ Spec.startOf li' (i + 1) = li.sum / 2) ∧
      ∀ x k, x ≠ li.sum / 2 → (Spec.SupportAt li' ki' x k ↔ Spec.SupportAt li ki x k) := by
  obtain ⟨i, hi, hlt, hle, h⟩ := split_run li ki h2 h0 hf
  obtain ⟨A, l, B, rfl, hA⟩ : ∃ A l B, li = A ++ l :: B ∧ A.length = i + 1 :=
    ⟨li.take (i + 1), li[i + 1], li.drop (i + 2), by
      rw [List.cons_getElem_drop_succ, List.take_append_drop], by simp; omega⟩
  obtain ⟨A', k0, B', rfl, hA'⟩ : ∃ A' k0 B', ki = A' ++ k0 :: B' ∧ A'.length = i + 1 :=
    ⟨ki.take (i + 1), ki[i + 1]'(by omega), ki.drop (i + 2), by
      rw [List.cons_getElem_drop_succ, List.take_append_drop], by
        simp only [List.length_take]; omega⟩
  have hB : B'.length = B.length := by simp at h2; omega
  have e1 : Spec.startOf (A ++ l :: B) (i + 1) = A.sum := by simp [Spec.startOf, ← hA]
  have e2 : Spec.startOf (A ++ l :: B) (i + 2) = A.sum + l := by
    rw [show i + 2 = A.length + 1 by omega]
    rw [startOf_append]; simp [Spec.startOf]
  have t1 : (A ++ l :: B).take (i + 1) = A := by rw [← hA]; simp
  have t2 : (A ++ l :: B).drop (i + 2) = B := by
    rw [show i + 2 = A.length + 1 by omega]; simp [List.drop_append]
  have t3 : (A' ++ k0 :: B').take (i + 1) = A' := by rw [← hA']; simp
  have t4 : (A' ++ k0 :: B').drop (i + 2) = B' := by
    rw [show i + 2 = A'.length + 1 by omega]; simp [List.drop_append]
  have t5 : (A' ++ k0 :: B')[i + 1]'(by omega) = k0 := by simp [← hA']
  rw [e1] at hlt
  rw [e2] at hle
  rw [e1, e2, t1, t2, t3, t4, t5] at h
  refine ⟨_, _, h, ?_, ?_, ?_, ?_, ⟨i + 1, ?_, ?_⟩, ?_⟩
  · simp only [List.length_append, List.length_cons, List.length_nil]; omega
  · simp only [List.length_append, List.length_cons, List.length_nil]; omega
  · simp only [List.sum_append, List.sum_cons, List.sum_nil]; ring
  · intro l' hl'
    simp only [List.mem_append, List.mem_singleton] at hl'
    rcases hl' with ((hl' | rfl) | rfl) | hl'
    · exact h0 _ (by simp [hl'])
    · linarith
    · linarith
    · exact h0 _ (by simp [hl'])
  · simp; omega
  · rw [← hA, show A.length + 1 = (A ++ [(A ++ l :: B).sum / 2 - A.sum]).length by simp, Spec.startOf,
      List.append_assoc, List.take_left]
    simp
  · intro x k hx
    generalize (A ++ l :: B).sum / 2 = m at *
    have g1 := supportAt_split (A := A) (A' := A') (l := m - A.sum) (x := x) (k0 := k0) (k := k)
      (B := (A.sum + l - m) :: B) (B' := k0 :: B') (by omega) (by simp [hB])
    have g2 := supportAt_split (A := []) (A' := []) (l := A.sum + l - m) (x := x - (A.sum + (m - A.sum))) (k0 := k0)
      (k := k) (B := B) (B' := B') rfl hB
    have g3 := supportAt_split (A := A) (A' := A') (l := l) (x := x) (k0 := k0) (k := k) (B := B) (B' := B')
      (by omega) hB
    simp only [List.append_assoc, List.cons_append, List.nil_append] at g1 g2 ⊢
    rw [g1, g2, g3]
    have he : Spec.SupportAt [] [] (x - (A.sum + (m - A.sum))) k ↔ False := by
      simp [Spec.SupportAt]
    rw [he, false_or, show x - (A.sum + (m - A.sum)) - ([].sum + (A.sum + l - m)) = x - (A.sum + l) by
      simp]
    refine or_congr_right ?_
    rw [← or_assoc]
    refine or_congr_left ?_
    simp only [List.sum_nil]
    constructor
    · rintro (⟨a, b, c⟩ | ⟨a, b, c⟩)
      · exact ⟨a, b, by linarith⟩
      · exact ⟨a, by linarith, by linarith⟩
    · rintro ⟨a, b, c⟩
      rcases lt_or_gt_of_ne hx with h | h
      · exact .inl ⟨a, b, by linarith⟩
      · exact .inr ⟨a, by linarith, by linarith⟩

example : ∃ li' ki', splitAtMidpoint [1, 4, 2] [true, false, true] = .ok (li', ki') ∧ ki'.length = li'.length ∧
      li'.length = [1, 4, (2 : ℝ)].length + 1 ∧ li'.sum = [1, 4, (2 : ℝ)].sum ∧
      (∀ l ∈ li', 0 ≤ l) ∧ (∃ i, i < li'.length ∧ Spec.startOf li' (i + 1) = [1, 4, (2 : ℝ)].sum / 2) ∧
      ∀ x k, x ≠ [1, 4, (2 : ℝ)].sum / 2 →
        (Spec.SupportAt li' ki' x k ↔ Spec.SupportAt [1, 4, 2] [true, false, true] x k) :=
  C49_split_partial _ _ rfl (by intro l hl; fin_cases hl <;> norm_num) (by norm_num [nth])

theorem split_first {l : ℝ} {ls : List ℝ} {k : Bool} {ks : List Bool} (hf : (l :: ls).sum / 2 ≤ l) :
    splitAtMidpoint (l :: ls) (k :: ks) = .ok ((l :: ls).sum / 2 :: l :: ls, k :: k :: ks) := by
  have h0 : nth (cumsum (l :: ls)) 0 = l := by
    rw [nth_cumsum (by simp)]; simp [Spec.startOf]
  have hfd : ((List.range (l :: ls).length).find? fun i => decide ((l :: ls).sum / 2 ≤ nth (cumsum (l :: ls)) i))
      = some 0 := by
    rw [List.find?_range_eq_some]
    refine ⟨?_, by simp, by simp⟩
    rw [h0]
    exact decide_eq_true hf
  unfold splitAtMidpoint
  simp only [cumsum_last (List.cons_ne_nil l ls), hfd]

/-- C49 fails if the middle lies in the first segment: a segment is put in
front, and the beam becomes longer by half. -/
theorem C49_split_violated (li : List ℝ) (ki : List Bool) (hne : li ≠ []) (hk : ki ≠ [])
    (hf : li.sum / 2 ≤ nth li 0) :
    ∃ li' ki', splitAtMidpoint li ki = .ok (li', ki') ∧ li'.sum = li.sum + li.sum / 2 := by
  obtain ⟨l, ls, rfl⟩ := List.exists_cons_of_ne_nil hne
  obtain ⟨k, ks, rfl⟩ := List.exists_cons_of_ne_nil hk
  exact ⟨_, _, split_first (by simpa [nth] using hf), by rw [List.sum_cons, add_comm]⟩

example : ∃ li' ki', splitAtMidpoint [6, 2] [true, false] = .ok (li', ki') ∧
    li'.sum = [6, (2 : ℝ)].sum + [6, (2 : ℝ)].sum / 2 :=
  C49_split_violated _ _ (by simp) (by simp) (by norm_num [nth])

end Weac
