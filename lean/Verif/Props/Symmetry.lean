import Verif.Props.Springs

/-!
# C20, C21: mirror symmetry, insertion of segment boundaries
-/

namespace Weac
open Spec

/-! ## The lists of the caller -/

theorem Spec.Transmission.holds {b : Beam} {zl zr : Vec6} (h : Transmission b (0, 0, 0) zl zr) (e : EndCond) :
    e.Holds b zl ↔ e.Holds b zr := by
  obtain ⟨h0, h2, h4, hN, hM, hV⟩ := h
  simp only [sub_eq_zero] at hN hM hV
  cases e <;> simp only [EndCond.Holds, h0, h2, h4, hN, hM, hV]

theorem getSkierLoad_zero (s : Self) (phi : ℝ) : getSkierLoad s 0 phi = (0, 0) := by
  simp [getSkierLoad]

theorem jump_zero (s : Self) (phi : ℝ) (mi : List ℝ) (i : ℕ) (h : nth mi i = 0) : jump s phi mi i = (0, 0, 0) := by
  unfold jump
  split_ifs
  · rfl
  · simp [h, getSkierLoad_zero]

/-- The dummy segment appended to a single segment does not matter. -/
theorem meets_of_full {s : Self} {phi kR : ℝ} {a : SegLists} {C : ℕ → Vec6} (hv : Valid s a)
    (h : Meets s phi kR (full a) C) : Meets s phi kR a C := by
  unfold full at h
  split_ifs at h with h1
  · have hk1 := hv.ki
    have hm1 := hv.mi
    have hs := hv.support
    rw [h1] at hk1 hm1
    obtain ⟨li, mi, ki⟩ := a
    simp only at h1 hk1 hm1 hs h
    obtain ⟨l, rfl⟩ := List.length_eq_one_iff.mp h1
    obtain ⟨k, rfl⟩ := List.length_eq_one_iff.mp hk1
    have hm0 : mi = [] := List.length_eq_zero_iff.mp (by omega)
    subst hm0
    have hk : k = true := by simpa using hs
    subst hk
    obtain ⟨a1, a2, a3⟩ := h
    have t := a3 0 (by simp)
    rw [jump_zero s phi _ 0 (by simp [nth])] at t
    refine ⟨a1, ?_, fun i hi => absurd hi (by simp)⟩
    exact (t.holds _).mpr a2
  · exact h

/-- Every solved problem, in terms of the lists given by the caller. -/
theorem solved_meets {num : Numerics} {kind : SeqKind} {phi : ℝ} {a a' : SegLists} {s s' : Self} {C : List Vec6}
    (hf : EigFresh num.eig s) (hn : NoFaceTouchdown s)
    (h : assembleAndSolve num kind phi a s = (.ok (C, a'), s')) :
    Valid s a ∧ Meets s phi (valOf (spring num) s) a (fun i => C.getD i 0) := by
  have hv := (assembleWith_valid (sub := spring num) h).1
  obtain ⟨-, rfl, -, hm, -⟩ := C16_solution_meets_all_conditions num kind phi a a' s s' C hf hn h
  exact ⟨hv, meets_of_full hv hm⟩

/-! ## C21 -/

/-- A chain with a distinguished segment of length `l` and support `k`. -/
def before (lp ls mp ms : List ℝ) (kp ks : List Bool) (l : ℝ) (k : Bool) : SegLists :=
  ⟨lp ++ l :: ls, mp ++ ms, kp ++ k :: ks⟩

/-- The same chain with this segment cut in two, without a weight on the cut. -/
def after (lp ls mp ms : List ℝ) (kp ks : List Bool) (l1 l2 : ℝ) (k : Bool) : SegLists :=
  ⟨lp ++ l1 :: l2 :: ls, mp ++ 0 :: ms, kp ++ k :: k :: ks⟩

/-- Segment of the original chain a segment of the cut chain belongs to, and
its offset therein. -/
def origin (j i : ℕ) : ℕ := if i ≤ j then i else i - 1
def offset (j : ℕ) (l1 : ℝ) (i : ℕ) : ℝ := if i = j + 1 then l1 else 0

section
variable {α : Type} (p q : List α) (x y d : α)

theorem getD_lt {i : ℕ} (h : i < p.length) : (p ++ q).getD i d = p.getD i d := List.getD_append _ _ _ _ h

theorem getD_at : (p ++ x :: q).getD p.length d = x := by
  rw [List.getD_append_right _ _ _ _ (le_refl _)]; simp

theorem getD_at_succ : (p ++ x :: y :: q).getD (p.length + 1) d = y := by
  rw [List.getD_append_right _ _ _ _ (by omega)]; simp

theorem getD_gt1 {i : ℕ} (h : p.length < i) : (p ++ x :: q).getD i d = q.getD (i - p.length - 1) d := by
  rw [List.getD_append_right _ _ _ _ (by omega)]
  obtain ⟨m, hm⟩ : ∃ m, i - p.length = m + 1 := ⟨i - p.length - 1, by omega⟩
  rw [hm]; simp

theorem getD_gt2 {i : ℕ} (h : p.length + 1 < i) : (p ++ x :: y :: q).getD i d = q.getD (i - p.length - 2) d := by
  rw [List.getD_append_right _ _ _ _ (by omega)]
  obtain ⟨m, hm⟩ : ∃ m, i - p.length = m + 2 := ⟨i - p.length - 2, by omega⟩
  rw [hm]; simp

end

/-- C21. Cutting a segment in two does not change the displacement field. -/
theorem C21_splitting (num : Numerics) (kind kind' : SeqKind) (phi : ℝ) (lp ls mp ms : List ℝ) (kp ks : List Bool)
    (l1 l2 : ℝ) (k : Bool) (s s1 s2 : Self) (C C' : List Vec6) (a a' : SegLists) (hb : BedOk s) (hc : ShearOk s)
    (hf : EigFresh num.eig s) (hn : NoFaceTouchdown s) (hkp : kp.length = lp.length) (hmp : mp.length = lp.length)
    (hl1 : 0 ≤ l1) (hl2 : 0 ≤ l2) (hsup : Supported (before lp ls mp ms kp ks (l1 + l2) k))
    (h : assembleAndSolve num kind phi (before lp ls mp ms kp ks (l1 + l2) k) s = (.ok (C, a), s1))
    (h' : assembleAndSolve num kind' phi (after lp ls mp ms kp ks l1 l2 k) s = (.ok (C', a'), s2)) :
    ∀ i < (after lp ls mp ms kp ks l1 l2 k).li.length, ∀ x,
      zsol s x (C'.getD i 0) (nth (after lp ls mp ms kp ks l1 l2 k).li i) phi
          ((after lp ls mp ms kp ks l1 l2 k).ki.getD i false)
        = zsol s (x + offset lp.length l1 i) (C.getD (origin lp.length i) 0)
          (nth (before lp ls mp ms kp ks (l1 + l2) k).li (origin lp.length i)) phi
          ((before lp ls mp ms kp ks (l1 + l2) k).ki.getD (origin lp.length i) false) := by
  obtain ⟨hv, hm⟩ := solved_meets hf hn h
  obtain ⟨hv', hm'⟩ := solved_meets hf hn h'
  set A := before lp ls mp ms kp ks (l1 + l2) k with hA
  set B := after lp ls mp ms kp ks l1 l2 k with hB
  set j := lp.length with hj
  have nA : A.li.length = j + 1 + ls.length := by simp [hA, before]; omega
  have nB : B.li.length = j + 2 + ls.length := by simp [hB, after]; omega
  -- lookups
  have bl : ∀ i, nth B.li i = if i < j then nth A.li i else if i = j then l1 else if i = j + 1 then l2
      else nth A.li (i - 1) := by
    intro i
    simp only [hA, hB, before, after, nth]
    split_ifs with c1 c2 c3
    · rw [getD_lt _ _ _ c1, getD_lt _ _ _ c1]
    · rw [c2, hj, getD_at]
    · rw [c3, hj, getD_at_succ]
    · rw [getD_gt2 _ _ _ _ _ (by omega), getD_gt1 _ _ _ _ (by omega)]
      congr 1; omega
  have al : nth A.li j = l1 + l2 := by simp only [hA, before, nth, hj, getD_at]
  have bk : ∀ i, B.ki.getD i false = A.ki.getD (origin j i) false := by
    intro i
    simp only [hA, hB, before, after, origin]
    rcases lt_trichotomy i j with c | c | c
    · rw [if_pos c.le, getD_lt _ _ _ (by omega), getD_lt _ _ _ (by omega)]
    · rw [if_pos c.le, c, ← hkp, getD_at, getD_at]
    · rw [if_neg (by omega)]
      rcases Nat.eq_or_lt_of_le (show j + 1 ≤ i by omega) with c2 | c2
      · rw [← c2, Nat.add_sub_cancel, ← hkp, getD_at_succ, getD_at]
      · rw [getD_gt2 _ _ _ _ _ (by omega), getD_gt1 _ _ _ _ (by omega)]
        congr 1; omega
  have bm : ∀ i, nth B.mi i = if i < j then nth A.mi i else if i = j then 0 else nth A.mi (i - 1) := by
    intro i
    simp only [hA, hB, before, after, nth]
    split_ifs with c1 c2
    · rw [getD_lt _ _ _ (by omega), getD_lt _ _ _ (by omega)]
    · rw [c2, ← hmp, getD_at]
    · rw [getD_gt1 _ _ _ _ (by omega), List.getD_append_right _ _ _ _ (by omega)]
      congr 1; omega
  -- the original field, seen as a field of the cut chain
  set Z := stateAt s phi A.li A.ki (fun i => C.getD i 0) with hZ
  have hdr := fun i => stateAt_driven s hb phi A.li A.ki (fun i => C.getD i 0) i
  have hsupB : Supported B := by
    refine ⟨fun l hl => ?_, ?_⟩
    · simp only [hB, after, List.mem_append, List.mem_cons] at hl
      have hs := hsup.nonneg
      simp only [hA, before, List.mem_append, List.mem_cons] at hs
      rcases hl with hl | rfl | rfl | hl
      · exact hs l (.inl hl)
      · exact hl1
      · exact hl2
      · exact hs l (.inr (.inr hl))
    · obtain ⟨i, hi, hk, hp⟩ := hsup.bed
      rcases lt_trichotomy i j with c | c | c
      · refine ⟨i, by omega, ?_, ?_⟩
        · rw [bk, origin, if_pos c.le]; exact hk
        · rw [bl, if_pos c]; exact hp
      · rw [c, al] at hp
        rw [c] at hk
        by_cases hl : 0 < l1
        · refine ⟨j, by omega, ?_, ?_⟩
          · rw [bk, origin, if_pos le_rfl]; exact hk
          · rw [bl, if_neg (by omega), if_pos rfl]; exact hl
        · refine ⟨j + 1, by omega, ?_, ?_⟩
          · rw [bk, origin, if_neg (by omega), Nat.add_sub_cancel]; exact hk
          · rw [bl, if_neg (by omega), if_neg (by omega), if_pos rfl]; linarith
      · refine ⟨i + 1, by omega, ?_, ?_⟩
        · rw [bk, origin, if_neg (by omega), Nat.add_sub_cancel]; exact hk
        · rw [bl, if_neg (by omega), if_neg (by omega), if_neg (by omega), Nat.add_sub_cancel]; exact hp
  obtain ⟨m1, m2, m3⟩ := hm
  have key := field_unique s hb hc phi _ (spring_nonneg num s) B (hsupB.held _) _ hm'
    (fun i x => Z (origin j i) (x + offset j l1 i)) (fun i _ => ?_) ⟨?_, ?_, ?_⟩
  · intro i hi x
    exact (key i hi x).symm
  · rw [bk]
    exact (hdr (origin j i)).shift _
  · rw [bk]
    have e : origin j 0 = 0 := by simp [origin]
    have e2 : offset j l1 0 = 0 := by simp [offset]
    simp only [e, e2, add_zero]
    exact m1
  · rw [bk]
    have e : origin j (B.li.length - 1) = A.li.length - 1 := by unfold origin; split_ifs <;> omega
    have e3 : nth B.li (B.li.length - 1) + offset j l1 (B.li.length - 1) = nth A.li (A.li.length - 1) := by
      rw [bl, offset, if_neg (by omega), if_neg (by omega)]
      by_cases c : B.li.length - 1 = j + 1
      · rw [if_pos c, if_pos c, show A.li.length - 1 = j by omega, al]; ring
      · rw [if_neg c, if_neg c, add_zero]; congr 1; omega
    simp only [e, e3]
    exact m2
  · intro i hi
    rcases lt_trichotomy i j with c | c | c
    · have t := m3 i (by omega)
      have e1 : origin j i = i := by unfold origin; rw [if_pos c.le]
      have e2 : origin j (i + 1) = i + 1 := by unfold origin; rw [if_pos (by omega)]
      have e3 : offset j l1 i = 0 := by unfold offset; rw [if_neg (by omega)]
      have e4 : offset j l1 (i + 1) = 0 := by unfold offset; rw [if_neg (by omega)]
      have e5 : nth B.li i = nth A.li i := by rw [bl, if_pos c]
      have e6 : jump s phi B.mi i = jump s phi A.mi i := by
        have : nth B.mi i = nth A.mi i := by rw [bm, if_pos c]
        simp only [jump, this]
      simp only [e1, e2, e3, e4, e5, e6, add_zero]
      exact t
    · have e1 : origin j i = j := by unfold origin; rw [if_pos c.le, c]
      have e2 : origin j (i + 1) = j := by unfold origin; rw [if_neg (by omega), c]; rfl
      have e3 : offset j l1 i = 0 := by unfold offset; rw [if_neg (by omega)]
      have e4 : offset j l1 (i + 1) = l1 := by unfold offset; rw [if_pos (by omega)]
      have e5 : nth B.li i = l1 := by rw [bl, if_neg (by omega), if_pos c]
      have e6 : jump s phi B.mi i = (0, 0, 0) := jump_zero _ _ _ _ (by rw [bm, if_neg (by omega), if_pos c])
      simp only [e1, e2, e3, e4, e5, e6, add_zero, zero_add]
      exact ⟨rfl, rfl, rfl, sub_self _, sub_self _, sub_self _⟩
    · have t := m3 (i - 1) (by omega)
      have e1 : origin j i = i - 1 := by unfold origin; rw [if_neg (by omega)]
      have e2 : origin j (i + 1) = i - 1 + 1 := by unfold origin; rw [if_neg (by omega)]; omega
      have e4 : offset j l1 (i + 1) = 0 := by unfold offset; rw [if_neg (by omega)]
      have e5 : nth B.li i + offset j l1 i = nth A.li (i - 1) := by
        rw [bl, offset, if_neg (by omega), if_neg (by omega)]
        by_cases c' : i = j + 1
        · rw [if_pos c', if_pos c', c', Nat.add_sub_cancel, al]; ring
        · rw [if_neg c', if_neg c', add_zero]
      have e6 : jump s phi B.mi i = jump s phi A.mi (i - 1) := by
        have : nth B.mi i = nth A.mi (i - 1) := by rw [bm, if_neg (by omega), if_neg (by omega)]
        simp only [jump, this]
      simp only [e1, e2, e4, e5, e6, add_zero]
      exact t

/-- Both problems of C21 are solved in a concrete case: the supported metre of
the demonstration PST cut at 400 mm. -/
theorem pstDemo_cut_solved (mode : Mode) (hm : mode ≠ .unset) (kind : SeqKind) (phi : ℝ) :
    ∃ C, assembleAndSolve stdNum kind phi (after [] [200] [] [0] [] [false] 400 600 true) (pstDemo mode 200)
        = (.ok (C, after [] [200] [] [0] [] [false] 400 600 true), pstDemo mode 200) := by
  obtain ⟨C, h1, -⟩ := C18_unique_solution stdNum kind phi (after [] [200] [] [0] [] [false] 400 600 true)
    (pstDemo mode 200) (pstDemo_bedOk _ _) (pstDemo_shear _ _) (pstDemo_fresh _ _)
    ⟨by simp [after], rfl, rfl, fun h => absurd (show finiteSystem "pst-" by decide) h⟩ (.inr (by simp [after]))
    (.inl (pstDemo_isPst _ _)) (fun _ _ => hm) (fun _ _ _ => pstDemo_rest _)
    ⟨by simp [after], 0, by simp [after], by simp [after], by simp [after, nth]⟩
  refine ⟨C, ?_⟩
  have : full (after [] [200] [] [0] [] [false] 400 600 true) = after [] [200] [] [0] [] [false] 400 600 true := by
    unfold full; rw [if_neg (by simp [after])]
  rwa [this] at h1

example : before [] [200] [] [0] [] [false] (400 + 600) true = pstLists 200 ∧
    Supported (before [] [200] [] [0] [] [false] (400 + 600) true) := by
  have : before [] [200] [] [0] [] [false] (400 + 600) true = pstLists 200 := by
    simp [before, pstLists]; norm_num
  rw [this]
  exact ⟨rfl, pstLists_supported 200 (by norm_num)⟩

end Weac
