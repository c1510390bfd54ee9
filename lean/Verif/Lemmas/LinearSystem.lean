import Mathlib.LinearAlgebra.Matrix.ToLinearEquiv
import Verif.Lemmas.Assembly

/-!
# The assembled linear system is the boundary value problem
-/

namespace Weac

open Spec

/-! ## Left-hand side -/

theorem fN_add (s : Self) (z z' : Vec6) : fN s (z + z') = fN s z + fN s z' := by simp [fN]; ring
theorem fM_add (s : Self) (z z' : Vec6) : fM s (z + z') = fM s z + fM s z' := by simp [fM]; ring
theorem fV_add (s : Self) (z z' : Vec6) : fV s (z + z') = fV s z + fV s z' := by simp [fV]; ring
theorem fu_add (z z' : Vec6) (z0 : ℝ) : fu (z + z') z0 = fu z z0 + fu z' z0 := by simp [fu, fpsi]; ring
theorem fw_add (z z' : Vec6) : fw (z + z') = fw z + fw z' := by simp [fw]
theorem fpsi_add (z z' : Vec6) : fpsi (z + z') = fpsi z + fpsi z' := by simp [fpsi]
theorem fN_smul (s : Self) (a : ℝ) (z : Vec6) : fN s (a • z) = a * fN s z := by simp [fN]; ring
theorem fM_smul (s : Self) (a : ℝ) (z : Vec6) : fM s (a • z) = a * fM s z := by simp [fM]; ring
theorem fV_smul (s : Self) (a : ℝ) (z : Vec6) : fV s (a • z) = a * fV s z := by simp [fV]; ring
theorem fu_smul (a : ℝ) (z : Vec6) (z0 : ℝ) : fu (a • z) z0 = a * fu z z0 := by simp [fu, fpsi]; ring
theorem fw_smul (a : ℝ) (z : Vec6) : fw (a • z) = a * fw z := by simp [fw]
theorem fpsi_smul (a : ℝ) (z : Vec6) : fpsi (a • z) = a * fpsi z := by simp [fpsi]

theorem bcFun_add (s : Self) (kR : ℝ) (k : Bool) (pos : Pos) (z z' : Vec6) (t : Fin 3) :
    bcFun s kR k pos (z + z') t = bcFun s kR k pos z t + bcFun s kR k pos z' t := by
  unfold bcFun
  simp only [fN_add, fM_add, fV_add, fu_add, fw_add, fpsi_add]
  rcases s.mode with _ | _ | _ | _ <;> rcases pos with _ | _ | _ <;> split_ifs <;> fin_cases t <;>
    simp <;> ring

theorem bcFun_smul (s : Self) (kR : ℝ) (k : Bool) (pos : Pos) (a : ℝ) (z : Vec6) (t : Fin 3) :
    bcFun s kR k pos (a • z) t = a * bcFun s kR k pos z t := by
  unfold bcFun
  simp only [fN_smul, fM_smul, fV_smul, fu_smul, fw_smul, fpsi_smul]
  rcases s.mode with _ | _ | _ | _ <;> rcases pos with _ | _ | _ <;> split_ifs <;> fin_cases t <;>
    simp <;> ring

theorem eqsFun_add (s : Self) (kR : ℝ) (k : Bool) (pos : Pos) (zl zr zl' zr' : Vec6) (t : ℕ) :
    (eqsFun s kR k pos (zl + zl') (zr + zr')).getD t 0
      = (eqsFun s kR k pos zl zr).getD t 0 + (eqsFun s kR k pos zl' zr').getD t 0 := by
  rcases pos with _ | _ | _ <;>
    simp only [eqsFun, bcFun_add, fN_add, fM_add, fV_add, fu_add, fw_add, fpsi_add] <;>
    (rcases t with _ | _ | _ | _ | _ | _ | _ | _ | _ | _ | _ | _ | t <;> simp <;> ring)

theorem eqsFun_smul (s : Self) (kR : ℝ) (k : Bool) (pos : Pos) (a : ℝ) (zl zr : Vec6) (t : ℕ) :
    (eqsFun s kR k pos (a • zl) (a • zr)).getD t 0 = a * (eqsFun s kR k pos zl zr).getD t 0 := by
  rcases pos with _ | _ | _ <;>
    simp only [eqsFun, bcFun_smul, fN_smul, fM_smul, fV_smul, fu_smul, fw_smul, fpsi_smul] <;>
    (rcases t with _ | _ | _ | _ | _ | _ | _ | _ | _ | _ | _ | _ | t <;> simp)

/-- Row `r` of segment `i` as a linear map of its end states. -/
noncomputable def rowLin (s : Self) (kR : ℝ) (nS : ℕ) (ki : List Bool) (i r : ℕ) : Vec6 × Vec6 →ₗ[ℝ] ℝ where
  toFun z := rowOf s kR nS ki i r z.1 z.2
  map_add' z z' := by
    unfold rowOf
    split_ifs
    · exact eqsFun_add _ _ _ _ _ _ _ _ _
    · simp
  map_smul' a z := by
    unfold rowOf
    split_ifs
    · exact eqsFun_smul _ _ _ _ _ _ _ _
    · simp

theorem sum_blocks (f : ℕ → ℝ) (n : ℕ) :
    ∑ c ∈ Finset.range (6 * n), f c = ∑ i ∈ Finset.range n, ∑ j : Fin 6, f (6 * i + j) := by
  induction n with
  | zero => simp
  | succ n ih =>
    rw [Nat.mul_succ, Finset.sum_range_add, ih, Finset.sum_range_succ _ n]
    congr 1

/-- Constants of segment `i` in the vector of unknowns. -/
def constsOf (x : ℕ → ℝ) (i : ℕ) : Vec6 := fun j => x (6 * i + j)

theorem zh_cols (s : Self) (li : List ℝ) (ki : List Bool) (i : ℕ) (y : ℝ) (C : Vec6) :
    ∑ j : Fin 6, C j • colOf s li ki i y j = (zh s y (nth li i) (ki.getD i false)).mulVec C := by
  funext q
  simp [colOf, Matrix.mulVec, dotProduct, mul_comm]

theorem row_sum (s : Self) (kR phi : ℝ) (nS : ℕ) (li : List ℝ) (ki : List Bool) (x : ℕ → ℝ) (r : ℕ) :
    (∑ c ∈ Finset.range (6 * nS), matAt s kR nS li ki nS r c * x c) + vecAt s kR phi nS li ki nS r
    = ∑ i ∈ Finset.range nS, rowOf s kR nS ki i r (stateAt s phi li ki (constsOf x) i 0)
        (stateAt s phi li ki (constsOf x) i (nth li i)) := by
  rw [sum_blocks, vecAt, ← Finset.sum_add_distrib]
  refine Finset.sum_congr rfl fun i hi => ?_
  have hi' := Finset.mem_range.mp hi
  have hz : ∀ y, stateAt s phi li ki (constsOf x) i y
      = (∑ j : Fin 6, x (6 * i + j) • colOf s li ki i y j) + zp s y phi (ki.getD i false) := by
    intro y
    rw [stateAt, zsol, ← zh_cols]
    rfl
  have hl : ∀ zl zr, rowOf s kR nS ki i r zl zr = rowLin s kR nS ki i r (zl, zr) := fun _ _ => rfl
  rw [hz, hz, hl (_ + _), ← Prod.mk_add_mk, map_add, ← hl (zp s 0 phi _)]
  congr 1
  rw [show (∑ j : Fin 6, x (6 * i + j) • colOf s li ki i 0 j,
      ∑ j : Fin 6, x (6 * i + j) • colOf s li ki i (nth li i) j)
      = ∑ j : Fin 6, x (6 * i + j) • (colOf s li ki i 0 j, colOf s li ki i (nth li i) j) from ?_]
  · rw [map_sum]
    refine Finset.sum_congr rfl fun j _ => ?_
    rw [map_smul, ← hl, matAt, if_pos (by omega)]
    have e1 : (6 * i + (j : ℕ)) / 6 = i := by omega
    have e2 : (6 * i + (j : ℕ)) % 6 = j := by omega
    rw [e1, e2, smul_eq_mul, mul_comm]
  · simp [Prod.ext_iff, Prod.fst_sum, Prod.snd_sum]

/-- Rows of the first end. -/
theorem row_left (s : Self) (kR : ℝ) (nS : ℕ) (h2 : 2 ≤ nS) (ki : List Bool) (ZL ZR : ℕ → Vec6) (t : Fin 3) :
    ∑ i ∈ Finset.range nS, rowOf s kR nS ki i t (ZL i) (ZR i)
      = bcFun s kR (ki.getD 0 false) .l (ZL 0) t := by
  rw [Finset.sum_eq_single 0]
  · have hp : posOf nS 0 = .l := by
      unfold posOf
      rw [if_neg (by omega), if_pos rfl]
    rw [rowOf, rowStart, rowStop, hp, if_pos ⟨by simp, by split_ifs <;> omega⟩]
    fin_cases t <;> simp [eqsFun]
  · intro i _ hi
    rw [rowOf, rowStart, if_neg hi, if_neg (by omega)]
  · intro h
    exact absurd (Finset.mem_range.mpr (by omega)) h

/-- Rows of the last end. -/
theorem row_right (s : Self) (kR : ℝ) (nS : ℕ) (h2 : 2 ≤ nS) (ki : List Bool) (ZL ZR : ℕ → Vec6) (t : Fin 3) :
    ∑ i ∈ Finset.range nS, rowOf s kR nS ki i (6 * nS - 3 + t) (ZL i) (ZR i)
      = bcFun s kR (ki.getD (nS - 1) false) .r (ZR (nS - 1)) t := by
  rw [Finset.sum_eq_single (nS - 1)]
  · have hp : posOf nS (nS - 1) = .r := by
      unfold posOf
      rw [if_pos (by omega)]
    rw [rowOf, rowStart, rowStop, hp, if_neg (by omega : ¬ nS - 1 = 0), if_pos (by omega : nS - 1 + 1 = nS),
      if_pos ⟨by omega, by omega⟩]
    have e : 6 * nS - 3 + (t : ℕ) - (6 * (nS - 1) - 3) = 6 + t := by omega
    rw [e]
    fin_cases t <;> simp [eqsFun]
  · intro i hi hne
    have := Finset.mem_range.mp hi
    rw [rowOf, rowStop, if_neg (by omega : ¬ i + 1 = nS), if_neg (by omega)]
  · intro h
    exact absurd (Finset.mem_range.mpr (by omega)) h

/-- The six transmission quantities. -/
noncomputable def six (s : Self) (z : Vec6) : Fin 6 → ℝ :=
  ![fu z 0, fw z, fpsi z, fN s z, fM s z, fV s z]

/-- Rows between segments `i` and `i + 1`. -/
theorem row_mid (s : Self) (kR : ℝ) (nS : ℕ) (ki : List Bool) (ZL ZR : ℕ → Vec6) (i : ℕ) (hi : i + 1 < nS)
    (t : Fin 6) :
    ∑ j ∈ Finset.range nS, rowOf s kR nS ki j (6 * i + 3 + t) (ZL j) (ZR j)
      = six s (ZR i) t - six s (ZL (i + 1)) t := by
  have hsub : ({i, i + 1} : Finset ℕ) ⊆ Finset.range nS := by
    intro j hj
    simp only [Finset.mem_insert, Finset.mem_singleton] at hj
    rw [Finset.mem_range]; omega
  rw [← Finset.sum_subset hsub]
  · rw [Finset.sum_pair (by omega), sub_eq_add_neg]
    congr 1
    · unfold rowOf rowStop
      rw [if_neg (by omega : ¬ i + 1 = nS), if_pos ⟨by unfold rowStart; split_ifs <;> omega, by omega⟩]
      by_cases h0 : i = 0
      · subst h0
        have hp : posOf nS 0 = .l := by
          unfold posOf
          rw [if_neg (by omega), if_pos rfl]
        have e : 6 * 0 + 3 + (t : ℕ) - rowStart 0 = 3 + t := by simp [rowStart]
        rw [hp, e]
        fin_cases t <;> simp [eqsFun, six]
      · have hp : posOf nS i = .m := by
          unfold posOf
          rw [if_neg (by omega), if_neg h0]
        have e : 6 * i + 3 + (t : ℕ) - rowStart i = 6 + t := by
          unfold rowStart
          rw [if_neg h0]; omega
        rw [hp, e]
        fin_cases t <;> simp [eqsFun, six]
    · unfold rowOf rowStart
      rw [if_neg (by omega : ¬ i + 1 = 0), if_pos ⟨by omega, by unfold rowStop; split_ifs <;> omega⟩]
      have e : 6 * i + 3 + (t : ℕ) - (6 * (i + 1) - 3) = t := by omega
      rw [e]
      by_cases h0 : i + 1 + 1 = nS
      · have hp : posOf nS (i + 1) = .r := by
          unfold posOf
          rw [if_pos h0]
        rw [hp]
        fin_cases t <;> simp [eqsFun, six]
      · have hp : posOf nS (i + 1) = .m := by
          unfold posOf
          rw [if_neg h0, if_neg (by omega)]
        rw [hp]
        fin_cases t <;> simp [eqsFun, six]
  · intro j hj hne
    simp only [Finset.mem_insert, Finset.mem_singleton, not_or] at hne
    have := Finset.mem_range.mp hj
    unfold rowOf rowStart rowStop
    rw [if_neg]
    rintro ⟨h3, h4⟩
    split_ifs at h3 h4 <;> omega

/-- A statement about all rows. -/
theorem forall_rows (P : ℕ → Prop) (nS : ℕ) (h2 : 2 ≤ nS) :
    (∀ r < 6 * nS, P r) ↔
      (∀ t : Fin 3, P t) ∧ (∀ t : Fin 3, P (6 * nS - 3 + t)) ∧
        ∀ i, i + 1 < nS → ∀ t : Fin 6, P (6 * i + 3 + t) := by
  constructor
  · intro h
    exact ⟨fun t => h _ (by omega), fun t => h _ (by omega), fun i hi t => h _ (by omega)⟩
  · rintro ⟨h1, h3, h4⟩ r hr
    by_cases hr1 : r < 3
    · exact h1 ⟨r, hr1⟩
    · by_cases hr2 : 6 * nS - 3 ≤ r
      · have := h3 ⟨r - (6 * nS - 3), by omega⟩
        have e : 6 * nS - 3 + (r - (6 * nS - 3)) = r := by omega
        simpa [e] using this
      · have := h4 ((r - 3) / 6) (by omega) ⟨(r - 3) % 6, by omega⟩
        have e : 6 * ((r - 3) / 6) + 3 + (r - 3) % 6 = r := by omega
        simpa [e] using this

/-! ## Right-hand side -/

theorem rhsSkiers_aux (s : Self) (phi : ℝ) (l : List ℝ) (n0 : ℕ) (v : ℕ → ℝ) (r : ℕ) :
    ((l.zipIdx n0).foldl (fun rhs q =>
      let F := getSkierLoad s q.1 phi
      write3 rhs (6 * (q.2 + 1)) F.2 (-F.2 * s.h / 2) F.1) v) r
    = if 6 * (n0 + 1) ≤ r ∧ r < 6 * (n0 + 1 + l.length) ∧ r % 6 < 3 then
        let F := getSkierLoad s (nth l (r / 6 - 1 - n0)) phi
        if r % 6 = 0 then F.2 else if r % 6 = 1 then -F.2 * s.h / 2 else F.1
      else v r := by
  induction l generalizing n0 v with
  | nil =>
    rw [if_neg (by simp only [List.length_nil]; omega)]
    rfl
  | cons m l ih =>
    rw [List.zipIdx_cons, List.foldl_cons, ih]
    simp only [List.length_cons]
    by_cases h1 : 6 * (n0 + 1 + 1) ≤ r ∧ r < 6 * (n0 + 1 + 1 + l.length) ∧ r % 6 < 3
    · have h2 : 6 * (n0 + 1) ≤ r ∧ r < 6 * (n0 + 1 + (l.length + 1)) ∧ r % 6 < 3 := by omega
      rw [if_pos h1, if_pos h2]
      have e : r / 6 - 1 - n0 = (r / 6 - 1 - (n0 + 1)) + 1 := by omega
      rw [e]
      rfl
    · rw [if_neg h1]
      by_cases h2 : 6 * (n0 + 1) ≤ r ∧ r < 6 * (n0 + 1 + (l.length + 1)) ∧ r % 6 < 3
      · rw [if_pos h2]
        have e : r / 6 - 1 - n0 = 0 := by omega
        rw [e]
        simp only [write3, nth, List.getD_cons_zero]
        split_ifs <;> first | rfl | omega
      · rw [if_neg h2]
        simp only [write3]
        split_ifs <;> first | rfl | omega

/-- Right-hand side from skiers at the rows between segments. -/
theorem rhsSkiers_mid (s : Self) (phi : ℝ) (mi : List ℝ) (i : ℕ) (hi : i < mi.length) (t : Fin 6) :
    rhsSkiers s phi mi (6 * i + 3 + t)
      = (![0, 0, 0, (getSkierLoad s (nth mi i) phi).2, -(getSkierLoad s (nth mi i) phi).2 * s.h / 2,
          (getSkierLoad s (nth mi i) phi).1] : Fin 6 → ℝ) t := by
  unfold rhsSkiers
  rw [rhsSkiers_aux]
  by_cases ht : (t : ℕ) < 3
  · rw [if_neg (by omega)]
    have : t = 0 ∨ t = 1 ∨ t = 2 := by omega
    rcases this with rfl | rfl | rfl <;> rfl
  · have h2 : 6 * (0 + 1) ≤ 6 * i + 3 + (t : ℕ) ∧ 6 * i + 3 + (t : ℕ) < 6 * (0 + 1 + mi.length) ∧
        (6 * i + 3 + (t : ℕ)) % 6 < 3 := by omega
    rw [if_pos h2]
    have e1 : (6 * i + 3 + (t : ℕ)) / 6 - 1 - 0 = i := by omega
    have e2 : (6 * i + 3 + (t : ℕ)) % 6 = t - 3 := by omega
    rw [e1, e2]
    have : t = 3 ∨ t = 4 ∨ t = 5 := by omega
    rcases this with rfl | rfl | rfl <;> simp

theorem rhsSkiers_zero (s : Self) (phi : ℝ) (mi : List ℝ) (r : ℕ)
    (hr : r < 6 ∨ 6 * (mi.length + 1) ≤ r ∨ 3 ≤ r % 6) : rhsSkiers s phi mi r = 0 := by
  unfold rhsSkiers
  rw [rhsSkiers_aux, if_neg (by omega)]

theorem write3_at (v : ℕ → ℝ) (r0 : ℕ) (a b c : ℝ) (t : Fin 3) :
    write3 v r0 a b c (r0 + t) = ![a, b, c] t := by
  fin_cases t <;> simp [write3]

theorem write3_off (v : ℕ → ℝ) (r0 : ℕ) (a b c : ℝ) (r : ℕ) (h : r < r0 ∨ r0 + 3 ≤ r) :
    write3 v r0 a b c r = v r := by
  unfold write3
  rw [if_neg (by omega), if_neg (by omega), if_neg (by omega)]

/-- Touchdown data at an unsupported end: `sgn` is -1 at the left end. -/
noncomputable def tdData (s : Self) (sgn : ℝ) (k : Bool) : Option (ℝ × ℝ × ℝ) :=
  if k then none
  else match s.mode with
    | .B => some (0, 0, s.tc)
    | .C => some (sgn * (calcQt s * (s.a - s.td)), 0, s.tc)
    | _ => none

def write3? (v : ℕ → ℝ) (r0 : ℕ) : Option (ℝ × ℝ × ℝ) → ℕ → ℝ
  | none => v
  | some d => write3 v r0 d.1 d.2.1 d.2.2

theorem write3?_at (v : ℕ → ℝ) (r0 : ℕ) (d : Option (ℝ × ℝ × ℝ)) (t : Fin 3) :
    write3? v r0 d (r0 + t) = match d with
      | none => v (r0 + t)
      | some d => ![d.1, d.2.1, d.2.2] t := by
  cases d with
  | none => rfl
  | some d => exact write3_at _ _ _ _ _ _

theorem write3?_off (v : ℕ → ℝ) (r0 : ℕ) (d : Option (ℝ × ℝ × ℝ)) (r : ℕ) (h : r < r0 ∨ r0 + 3 ≤ r) :
    write3? v r0 d r = v r := by
  cases d with
  | none => rfl
  | some d => exact write3_off _ _ _ _ _ _ h

theorem tdStep_left (s : Self) (nS : ℕ) (h2 : 2 ≤ nS) (ki : List Bool) (v : ℕ → ℝ) :
    rhsTouchdownStep s nS ki v 0 = write3? v 0 (tdData s (-1) (ki.getD 0 false)) := by
  unfold rhsTouchdownStep tdData
  have : ¬ (0 + 1 = nS) := by omega
  rcases ki.getD 0 false with _ | _ <;> rcases hm : s.mode with _ | _ | _ | _ <;>
    simp [this, write3?]

theorem tdStep_right (s : Self) (nS : ℕ) (h2 : 2 ≤ nS) (ki : List Bool) (v : ℕ → ℝ) :
    rhsTouchdownStep s nS ki v (nS - 1) = write3? v (6 * nS - 3) (tdData s 1 (ki.getD (nS - 1) false)) := by
  unfold rhsTouchdownStep tdData
  have h1 : nS - 1 + 1 = nS := by omega
  have h0 : ¬ (nS - 1 = 0) := by omega
  rcases ki.getD (nS - 1) false with _ | _ <;> rcases hm : s.mode with _ | _ | _ | _ <;>
    simp [h1, h0, write3?]

theorem tdStep_mid (s : Self) (nS : ℕ) (ki : List Bool) (v : ℕ → ℝ) (i : ℕ) (h0 : i ≠ 0) (h1 : i + 1 ≠ nS) :
    rhsTouchdownStep s nS ki v i = v := by
  unfold rhsTouchdownStep
  simp [h0, h1]

theorem tdFold (s : Self) (nS : ℕ) (h2 : 2 ≤ nS) (ki : List Bool) (v : ℕ → ℝ) :
    (List.range nS).foldl (rhsTouchdownStep s nS ki) v
      = write3? (write3? v 0 (tdData s (-1) (ki.getD 0 false))) (6 * nS - 3)
          (tdData s 1 (ki.getD (nS - 1) false)) := by
  have key : ∀ n, n + 1 < nS → (List.range (n + 1)).foldl (rhsTouchdownStep s nS ki) v
      = write3? v 0 (tdData s (-1) (ki.getD 0 false)) := by
    intro n hn
    induction n with
    | zero =>
      rw [List.range_one, List.foldl_cons, List.foldl_nil, tdStep_left s nS h2]
    | succ n ih =>
      rw [List.range_succ, List.foldl_append, ih (by omega), List.foldl_cons, List.foldl_nil,
        tdStep_mid _ _ _ _ _ (by omega) (by omega)]
  obtain ⟨m, rfl⟩ : ∃ m, nS = m + 2 := ⟨nS - 2, by omega⟩
  rw [List.range_succ, List.foldl_append, key m (by omega), List.foldl_cons, List.foldl_nil]
  exact tdStep_right s (m + 2) h2 ki _

/-- The right-hand side. -/
noncomputable def rhsFinal (s : Self) (phi : ℝ) (a : SegLists) : ℕ → ℝ :=
  let nS := a.li.length
  let rhs := rhsSkiers s phi a.mi
  let rhs := if s.system ≠ "pst-" ∧ s.system ≠ "-pst" ∧ s.system ≠ "rested" then
      let v0 := bcFun s 0 false .m (zp s 0 phi (a.ki.getD 0 false))
      let v1 := bcFun s 0 false .m (zp s (nth a.li (nS - 1)) phi (a.ki.getD (nS - 1) false))
      write3 (write3 rhs 0 (v0 0) (v0 1) (v0 2)) (6 * nS - 3) (v1 0) (v1 1) (v1 2)
    else rhs
  let rhs := if s.system = "vpst-" ∨ s.system = "-vpst" then
      let F := verticalForces s phi
      write3 (write3 rhs 0 F.1 F.2.1 F.2.2) (6 * nS - 3) F.1 F.2.1 F.2.2
    else rhs
  let rhs := (List.range nS).foldl (rhsTouchdownStep s nS a.ki) rhs
  let rhs := if s.system = "rot" then (fun r => if r = 1 then 1 else 0) else rhs
  if s.system = "trans" then (fun r => if r = 2 then 1 else 0) else rhs

/-- Every segment can be assembled. -/
def AsmDefined (sub : Py ℝ) (s : Self) (a : SegLists) : Prop :=
  ∀ i < a.li.length, SegDefined sub s a.li.length a.li a.ki i

theorem AsmDefined.sys {sub : Py ℝ} {s : Self} {a : SegLists} (h : AsmDefined sub s a)
    (h2 : 2 ≤ a.li.length) : IsPst s ∨ IsVpst s ∨ IsSkier s ∨ IsAux s := by
  have := (h 0 (by omega)).1
  have hp : posOf a.li.length 0 = .l := by
    unfold posOf
    rw [if_neg (by omega), if_pos rfl]
  rw [hp] at this
  exact (this (by simp)).1

theorem asmSolveBy_run (solve : LinSolver) {sub : Py ℝ} {s : Self} {phi : ℝ} {a : SegLists} (h2 : 2 ≤ a.li.length)
    (h : AsmDefined sub s a) :
    asmSolveBy solve sub phi a s = ((solve (6 * a.li.length) (matAt s (valOf sub s) a.li.length a.li a.ki a.li.length)
        (fun r => rhsFinal s phi a r - vecAt s (valOf sub s) phi a.li.length a.li a.ki a.li.length r)).map
          fun x => (List.range a.li.length).map (constsOf x), s) := by
  have hsys := h.sys h2
  unfold asmSolveBy
  simp only []
  rw [Py.bind_of_ok (asmLoop_run a.li.length h)]
  simp only [Py.get_bind]
  by_cases hc : s.system ≠ "pst-" ∧ s.system ≠ "-pst" ∧ s.system ≠ "rested"
  · have hnp : ¬ IsPst s := fun hp => by
      rcases hp with hp | hp
      · exact hc.1 hp
      · exact hc.2.1 hp
    have hb : bc sub false .m s = (.ok (bcFun s 0 false .m), s) :=
      bc_run hsys (fun hp => absurd hp hnp) (fun hn => absurd hn.1 hnp)
    rw [if_pos hc, Py.bind_of_ok hb, Py.bind_of_ok hb, Py.pure_bind', Py.bind_eq, Py.lift_apply]
    unfold rhsFinal
    simp only [if_pos hc]
    rcases solve _ _ _ with e | x <;> rfl
  · rw [if_neg hc, Py.pure_bind', Py.bind_eq, Py.lift_apply]
    unfold rhsFinal
    simp only [if_neg hc]
    rcases solve _ _ _ with e | x <;> rfl

theorem asmSolve_run {sub : Py ℝ} {s : Self} {phi : ℝ} {a : SegLists} (h2 : 2 ≤ a.li.length)
    (h : AsmDefined sub s a) :
    asmSolve sub phi a s = ((npSolve (6 * a.li.length) (matAt s (valOf sub s) a.li.length a.li a.ki a.li.length)
        (fun r => rhsFinal s phi a r - vecAt s (valOf sub s) phi a.li.length a.li a.ki a.li.length r)).map
          fun x => (List.range a.li.length).map (constsOf x), s) := asmSolveBy_run npSolve h2 h

theorem asmSolveBy_defined {solve : LinSolver} {sub : Py ℝ} {s s' : Self} {phi : ℝ} {a : SegLists} {C : List Vec6}
    (hfr : Frame sub s) (h : asmSolveBy solve sub phi a s = (.ok C, s')) : AsmDefined sub s a := by
  unfold asmSolveBy at h
  simp only [] at h
  obtain ⟨acc, s1, h1, -⟩ := Py.bind_ok.mp h
  exact (asmLoop_ok hfr _ h1).2.2

theorem asmSolve_defined {sub : Py ℝ} {s s' : Self} {phi : ℝ} {a : SegLists} {C : List Vec6}
    (hfr : Frame sub s) (h : asmSolve sub phi a s = (.ok C, s')) : AsmDefined sub s a := asmSolveBy_defined hfr h


/-! ## Rows of the right-hand side -/

/-- A vertical face together with touchdown is excluded (see C40). -/
def NoFaceTouchdown (s : Self) : Prop := IsVpst s → s.mode ≠ .B ∧ s.mode ≠ .C

theorem tdData_face {s : Self} (h : NoFaceTouchdown s) (hv : IsVpst s) (sgn : ℝ) (k : Bool) :
    tdData s sgn k = none := by
  unfold tdData
  obtain ⟨h1, h2⟩ := h hv
  cases k
  · rcases hm : s.mode with _ | _ | _ | _ <;> simp_all
  · rfl

/-- Values of the right-hand side at the end rows. -/
noncomputable def rhsEnd (s : Self) (phi : ℝ) (e : Side) (k : Bool) : ℝ × ℝ × ℝ :=
  if IsPst s then (tdData s e.sgn k).getD (0, 0, 0)
  else if IsVpst s then verticalForces s phi
  else if IsSkier s then (zp s 0 phi true 0, zp s 0 phi true 2, zp s 0 phi true 4)
  else if s.system = "rot" then (0, if e = .left then 1 else 0, 0)
  else (0, 0, if e = .left then 1 else 0)

/-- Well-formed segment lists for this system. -/
structure ListsOk (s : Self) (a : SegLists) : Prop where
  two : 2 ≤ a.li.length
  mi : a.mi.length + 1 = a.li.length
  skier0 : IsSkier s → a.ki.getD 0 false = true
  skier1 : IsSkier s → a.ki.getD (a.li.length - 1) false = true

theorem sys_cases {s : Self} (h : IsPst s ∨ IsVpst s ∨ IsSkier s ∨ IsAux s) :
    s.system = "pst-" ∨ s.system = "-pst" ∨ s.system = "-vpst" ∨ s.system = "vpst-" ∨ s.system = "skier" ∨
      s.system = "skiers" ∨ s.system = "rot" ∨ s.system = "trans" := by
  unfold IsPst IsVpst IsSkier IsAux at h
  tauto

/-- The five kinds of systems with all decided flags. -/
theorem sys_kinds {s : Self} (h : IsPst s ∨ IsVpst s ∨ IsSkier s ∨ IsAux s) :
    (IsPst s ∧ ¬ IsVpst s ∧ ¬ IsSkier s ∧ ¬ IsAux s) ∨ (¬ IsPst s ∧ IsVpst s ∧ ¬ IsSkier s ∧ ¬ IsAux s) ∨
      (¬ IsPst s ∧ ¬ IsVpst s ∧ IsSkier s ∧ ¬ IsAux s) ∨
      (¬ IsPst s ∧ ¬ IsVpst s ∧ ¬ IsSkier s ∧ IsAux s ∧ s.system = "rot") ∨
      (¬ IsPst s ∧ ¬ IsVpst s ∧ ¬ IsSkier s ∧ IsAux s ∧ s.system = "trans") := by
  unfold IsPst IsVpst IsSkier IsAux
  rcases sys_cases h with h | h | h | h | h | h | h | h <;> rw [h] <;> decide

theorem zp_bed_const (s : Self) (x phi : ℝ) : zp s x phi true = zp s 0 phi true := by simp [zp]

theorem rhsFinal_left (s : Self) (phi : ℝ) (a : SegLists) (hl : ListsOk s a)
    (hsys : IsPst s ∨ IsVpst s ∨ IsSkier s ∨ IsAux s) (hv : NoFaceTouchdown s) (t : Fin 3) :
    rhsFinal s phi a t = ![(rhsEnd s phi .left (a.ki.getD 0 false)).1,
      (rhsEnd s phi .left (a.ki.getD 0 false)).2.1, (rhsEnd s phi .left (a.ki.getD 0 false)).2.2] t := by
  have h2 := hl.two
  have ht : (t : ℕ) < 3 := t.2
  have at0 : ∀ v a b c, write3 v 0 a b c t = (![a, b, c] : Fin 3 → ℝ) t := fun v a b c => by
    simpa using write3_at v 0 a b c t
  have off : ∀ v x y z, write3 v (6 * a.li.length - 3) x y z t = v t := fun v x y z =>
    write3_off _ _ _ _ _ _ (.inl (by omega))
  have off? : ∀ v d, write3? v (6 * a.li.length - 3) d t = v t := fun v d =>
    write3?_off _ _ _ _ (.inl (by omega))
  unfold rhsFinal rhsEnd
  simp only [tdFold s _ h2]
  rcases sys_kinds hsys with ⟨h1, h2, h3, h4⟩ | ⟨h1, h2, h3, h4⟩ | ⟨h1, h2, h3, h4⟩ | ⟨h1, h2, h3, h4, h5⟩ |
    ⟨h1, h2, h3, h4, h5⟩
  · have n1 : ¬ (s.system ≠ "pst-" ∧ s.system ≠ "-pst" ∧ s.system ≠ "rested") := fun h => by
      rcases h1 with h1 | h1
      · exact h.1 h1
      · exact h.2.1 h1
    have n2 : ¬ (s.system = "vpst-" ∨ s.system = "-vpst") := fun h => h2 h.symm
    have n3 : s.system ≠ "rot" := fun h => h4 (.inl h)
    have n4 : s.system ≠ "trans" := fun h => h4 (.inr h)
    simp only [if_pos h1, if_neg n1, if_neg n2, if_neg n3, if_neg n4, Side.sgn]
    rw [off?]
    rcases tdData s (-1) (a.ki.getD 0 false) with _ | d <;> simp only [write3?]
    · rw [rhsSkiers_zero _ _ _ _ (.inl (by omega))]
      fin_cases t <;> simp
    · simp [at0]
  · have n2 : (s.system = "vpst-" ∨ s.system = "-vpst") := h2.symm
    have n3 : s.system ≠ "rot" := fun h => h4 (.inl h)
    have n4 : s.system ≠ "trans" := fun h => h4 (.inr h)
    rw [tdData_face hv h2, tdData_face hv h2]
    simp only [if_neg h1, if_pos h2, if_pos n2, if_neg n3, if_neg n4, write3?, off, at0]
  · have n1 : (s.system ≠ "pst-" ∧ s.system ≠ "-pst" ∧ s.system ≠ "rested") := by
      rcases h3 with h | h <;> rw [h] <;> decide
    have n2 : ¬ (s.system = "vpst-" ∨ s.system = "-vpst") := fun h => h2 h.symm
    have n3 : s.system ≠ "rot" := fun h => h4 (.inl h)
    have n4 : s.system ≠ "trans" := fun h => h4 (.inr h)
    rw [hl.skier0 h3, hl.skier1 h3]
    have hb : ∀ z, bcFun s 0 false .m z = ![fu z 0, fw z, fpsi z] := fun z => by
      simp only [bcFun, if_neg h1, if_pos h3]
    simp only [hb, if_neg h1, if_neg h2, if_pos h3, if_pos n1, if_neg n2, if_neg n3, if_neg n4,
      zp_bed_const s (nth a.li (a.li.length - 1))]
    simp [off, at0, write3?, tdData, fu, fw, fpsi]
  · have h6 : s.system ≠ "trans" := by rw [h5]; decide
    simp only [if_neg h1, if_neg h2, if_neg h3, if_pos h5, if_neg h6]
    fin_cases t <;> simp
  · have h6 : s.system ≠ "rot" := by rw [h5]; decide
    simp only [if_neg h1, if_neg h2, if_neg h3, if_pos h5, if_neg h6]
    fin_cases t <;> simp

theorem rhsFinal_right (s : Self) (phi : ℝ) (a : SegLists) (hl : ListsOk s a)
    (hsys : IsPst s ∨ IsVpst s ∨ IsSkier s ∨ IsAux s) (hv : NoFaceTouchdown s) (t : Fin 3) :
    rhsFinal s phi a (6 * a.li.length - 3 + t)
      = ![(rhsEnd s phi .right (a.ki.getD (a.li.length - 1) false)).1,
      (rhsEnd s phi .right (a.ki.getD (a.li.length - 1) false)).2.1,
      (rhsEnd s phi .right (a.ki.getD (a.li.length - 1) false)).2.2] t := by
  have h2 := hl.two
  have hm := hl.mi
  have ht : (t : ℕ) < 3 := t.2
  have at1 : ∀ v x y z, write3 v (6 * a.li.length - 3) x y z (6 * a.li.length - 3 + t)
      = (![x, y, z] : Fin 3 → ℝ) t := fun v x y z => write3_at v _ x y z t
  have off? : ∀ v d, write3? v 0 d (6 * a.li.length - 3 + t) = v (6 * a.li.length - 3 + t) := fun v d =>
    write3?_off _ _ _ _ (.inr (by omega))
  unfold rhsFinal rhsEnd
  simp only [tdFold s _ h2]
  rcases sys_kinds hsys with ⟨h1, h2, h3, h4⟩ | ⟨h1, h2, h3, h4⟩ | ⟨h1, h2, h3, h4⟩ | ⟨h1, h2, h3, h4, h5⟩ |
    ⟨h1, h2, h3, h4, h5⟩
  · have n1 : ¬ (s.system ≠ "pst-" ∧ s.system ≠ "-pst" ∧ s.system ≠ "rested") := fun h => by
      rcases h1 with h1 | h1
      · exact h.1 h1
      · exact h.2.1 h1
    have n2 : ¬ (s.system = "vpst-" ∨ s.system = "-vpst") := fun h => h2 h.symm
    have n3 : s.system ≠ "rot" := fun h => h4 (.inl h)
    have n4 : s.system ≠ "trans" := fun h => h4 (.inr h)
    simp only [if_pos h1, if_neg n1, if_neg n2, if_neg n3, if_neg n4, Side.sgn]
    rw [write3?_at]
    rcases tdData s 1 (a.ki.getD (a.li.length - 1) false) with _ | d
    · simp only [off?]
      rw [rhsSkiers_zero _ _ _ _ (.inr (by omega))]
      fin_cases t <;> simp
    · simp
  · have n2 : (s.system = "vpst-" ∨ s.system = "-vpst") := h2.symm
    have n3 : s.system ≠ "rot" := fun h => h4 (.inl h)
    have n4 : s.system ≠ "trans" := fun h => h4 (.inr h)
    rw [tdData_face hv h2, tdData_face hv h2]
    simp only [if_neg h1, if_pos h2, if_pos n2, if_neg n3, if_neg n4, write3?, at1]
  · have n1 : (s.system ≠ "pst-" ∧ s.system ≠ "-pst" ∧ s.system ≠ "rested") := by
      rcases h3 with h | h <;> rw [h] <;> decide
    have n2 : ¬ (s.system = "vpst-" ∨ s.system = "-vpst") := fun h => h2 h.symm
    have n3 : s.system ≠ "rot" := fun h => h4 (.inl h)
    have n4 : s.system ≠ "trans" := fun h => h4 (.inr h)
    rw [hl.skier0 h3, hl.skier1 h3]
    have hb : ∀ z, bcFun s 0 false .m z = ![fu z 0, fw z, fpsi z] := fun z => by
      simp only [bcFun, if_neg h1, if_pos h3]
    simp only [hb, if_neg h1, if_neg h2, if_pos h3, if_pos n1, if_neg n2, if_neg n3, if_neg n4,
      zp_bed_const s (nth a.li (a.li.length - 1))]
    simp [at1, write3?, tdData, fu, fw, fpsi]
  · have h6 : s.system ≠ "trans" := by rw [h5]; decide
    have n1 : ¬ (6 * a.li.length - 3 + (t : ℕ) = 1) := by omega
    simp only [if_neg h1, if_neg h2, if_neg h3, if_pos h5, if_neg h6, if_neg n1]
    fin_cases t <;> simp
  · have h6 : s.system ≠ "rot" := by rw [h5]; decide
    have n1 : ¬ (6 * a.li.length - 3 + (t : ℕ) = 2) := by omega
    simp only [if_neg h1, if_neg h2, if_neg h3, if_pos h5, if_neg h6, if_neg n1]
    fin_cases t <;> simp

theorem rhsFinal_mid (s : Self) (phi : ℝ) (a : SegLists) (hl : ListsOk s a) (i : ℕ) (hi : i + 1 < a.li.length) (t : Fin 6) :
    rhsFinal s phi a (6 * i + 3 + t)
      = (![0, 0, 0, (jump s phi a.mi i).1, (jump s phi a.mi i).2.1, (jump s phi a.mi i).2.2] : Fin 6 → ℝ) t := by
  have h2 := hl.two
  have hm := hl.mi
  have ht : (t : ℕ) < 6 := t.2
  have off0 : ∀ v x y z, write3 v 0 x y z (6 * i + 3 + t) = v (6 * i + 3 + t) := fun v x y z =>
    write3_off _ _ _ _ _ _ (.inr (by omega))
  have off1 : ∀ v x y z, write3 v (6 * a.li.length - 3) x y z (6 * i + 3 + t) = v (6 * i + 3 + t) :=
    fun v x y z => write3_off _ _ _ _ _ _ (.inl (by omega))
  have off0? : ∀ v d, write3? v 0 d (6 * i + 3 + t) = v (6 * i + 3 + t) := fun v d =>
    write3?_off _ _ _ _ (.inr (by omega))
  have off1? : ∀ v d, write3? v (6 * a.li.length - 3) d (6 * i + 3 + t) = v (6 * i + 3 + t) := fun v d =>
    write3?_off _ _ _ _ (.inl (by omega))
  have hsk := rhsSkiers_mid s phi a.mi i (by omega) t
  unfold rhsFinal jump
  simp only [tdFold s _ h2]
  by_cases hA : IsAux s
  · have n1 : ¬ (6 * i + 3 + (t : ℕ) = 1) := by omega
    have n2 : ¬ (6 * i + 3 + (t : ℕ) = 2) := by omega
    simp only [if_pos hA]
    rcases hA with h | h
    · have h6 : s.system ≠ "trans" := by rw [h]; decide
      simp only [if_pos h, if_neg h6, if_neg n1]
      fin_cases t <;> simp
    · simp only [if_pos h, if_neg n2]
      fin_cases t <;> simp
  · have hr : s.system ≠ "rot" := fun h => hA (.inl h)
    have htr : s.system ≠ "trans" := fun h => hA (.inr h)
    rw [if_neg hA]
    simp only [if_neg hr, if_neg htr, off0?, off1?]
    have e : ∀ r : ℝ, -(getSkierLoad s (nth a.mi i) phi).2 * s.h / 2
        = -((getSkierLoad s (nth a.mi i) phi).2 * (s.h / 2)) := fun _ => by ring
    rw [e 0] at hsk
    rw [← hsk]
    split_ifs <;> simp only [off0, off1]

/-! ## Equations and conditions -/

theorem bcFun_left_iff (s : Self) (phi kR : ℝ) (k : Bool)
    (hsys : IsPst s ∨ IsVpst s ∨ IsSkier s ∨ IsAux s) (z : Vec6) :
    (∀ t : Fin 3, bcFun s kR k .l z t = ![(rhsEnd s phi .left k).1, (rhsEnd s phi .left k).2.1,
        (rhsEnd s phi .left k).2.2] t)
      ↔ (endCond s phi kR .left k).Holds s.beam z := by
  rw [Fin.forall_fin_succ, Fin.forall_fin_succ, Fin.forall_fin_one]
  unfold bcFun rhsEnd endCond
  rcases sys_kinds hsys with ⟨h1, h2, h3, h4⟩ | ⟨h1, h2, h3, h4⟩ | ⟨h1, h2, h3, h4⟩ | ⟨h1, h2, h3, h4, h5⟩ |
    ⟨h1, h2, h3, h4, h5⟩
  · simp only [if_pos h1]
    cases k with
    | true => simp [EndCond.Holds, tdData, fN, fM, fV, Self.beam, Beam.N, Beam.M, Beam.V]
    | false =>
      rcases hm : s.mode with _ | _ | _ | _ <;>
        simp [EndCond.Holds, tdData, hm, fN, fM, fV, fw, fpsi, Self.beam, Beam.N, Beam.M, Beam.V, Side.sgn,
          calcQt, Self.tangential, Self.loads, sub_eq_add_neg]
  · simp only [if_neg h1, if_pos h2, if_neg h3]
    simp [EndCond.Holds, faceForces, verticalForces, fN, fM, fV, Self.beam, Beam.N, Beam.M, Beam.V]
  · simp only [if_neg h1, if_neg h2, if_pos h3]
    simp [EndCond.Holds, fu, fw, fpsi]
  · simp only [if_neg h1, if_neg h2, if_neg h3, if_pos h5]
    simp [EndCond.Holds, fN, fM, fV, Self.beam, Beam.N, Beam.M, Beam.V]
  · have h6 : s.system ≠ "rot" := by rw [h5]; decide
    simp only [if_neg h1, if_neg h2, if_neg h3, if_neg h6]
    simp [EndCond.Holds, fN, fM, fV, Self.beam, Beam.N, Beam.M, Beam.V]

theorem bcFun_right_iff (s : Self) (phi kR : ℝ) (k : Bool)
    (hsys : IsPst s ∨ IsVpst s ∨ IsSkier s ∨ IsAux s) (z : Vec6) :
    (∀ t : Fin 3, bcFun s kR k .r z t = ![(rhsEnd s phi .right k).1, (rhsEnd s phi .right k).2.1,
        (rhsEnd s phi .right k).2.2] t)
      ↔ (endCond s phi kR .right k).Holds s.beam z := by
  rw [Fin.forall_fin_succ, Fin.forall_fin_succ, Fin.forall_fin_one]
  unfold bcFun rhsEnd endCond
  rcases sys_kinds hsys with ⟨h1, h2, h3, h4⟩ | ⟨h1, h2, h3, h4⟩ | ⟨h1, h2, h3, h4⟩ | ⟨h1, h2, h3, h4, h5⟩ |
    ⟨h1, h2, h3, h4, h5⟩
  · simp only [if_pos h1]
    cases k with
    | true => simp [EndCond.Holds, tdData, fN, fM, fV, Self.beam, Beam.N, Beam.M, Beam.V]
    | false =>
      rcases hm : s.mode with _ | _ | _ | _ <;>
        simp [EndCond.Holds, tdData, hm, fN, fM, fV, fw, fpsi, Self.beam, Beam.N, Beam.M, Beam.V, Side.sgn,
          calcQt, Self.tangential, Self.loads]
  · simp only [if_neg h1, if_pos h2, if_neg h3]
    simp [EndCond.Holds, faceForces, verticalForces, fN, fM, fV, Self.beam, Beam.N, Beam.M, Beam.V]
  · simp only [if_neg h1, if_neg h2, if_pos h3]
    simp [EndCond.Holds, fu, fw, fpsi]
  · simp only [if_neg h1, if_neg h2, if_neg h3, if_pos h5]
    simp [EndCond.Holds, fN, fM, fV, Self.beam, Beam.N, Beam.M, Beam.V]
  · have h6 : s.system ≠ "rot" := by rw [h5]; decide
    simp only [if_neg h1, if_neg h2, if_neg h3, if_neg h6]
    simp [EndCond.Holds, fN, fM, fV, Self.beam, Beam.N, Beam.M, Beam.V]

theorem six_iff (s : Self) (F : ℝ × ℝ × ℝ) (zl zr : Vec6) :
    (∀ t : Fin 6, six s zl t - six s zr t = (![0, 0, 0, F.1, F.2.1, F.2.2] : Fin 6 → ℝ) t)
      ↔ Transmission s.beam F zl zr := by
  constructor
  · intro h
    have h0 := h 0
    have h1 := h 1
    have h2 := h 2
    have h3 := h 3
    have h4 := h 4
    have h5 := h 5
    simp [six, fu, fw, fpsi, fN, fM, fV] at h0 h1 h2 h3 h4 h5
    exact ⟨by linarith, by linarith, by linarith, h3, h4, h5⟩
  · rintro ⟨h0, h1, h2, h3, h4, h5⟩ t
    simp only [Self.beam, Beam.N, Beam.M, Beam.V] at h3 h4 h5
    rw [h2] at h5
    fin_cases t <;> simp [six, fu, fw, fpsi, fN, fM, fV, h0, h1, h2] <;> assumption

/-- The linear system says exactly that the conditions are met. -/
theorem rows_iff_meets (s : Self) (phi kR : ℝ) (a : SegLists) (hl : ListsOk s a)
    (hsys : IsPst s ∨ IsVpst s ∨ IsSkier s ∨ IsAux s) (hv : NoFaceTouchdown s) (x : ℕ → ℝ) :
    (∀ r < 6 * a.li.length, ∑ c ∈ Finset.range (6 * a.li.length), matAt s kR a.li.length a.li a.ki a.li.length r c * x c
        = rhsFinal s phi a r - vecAt s kR phi a.li.length a.li a.ki a.li.length r)
      ↔ Meets s phi kR a (constsOf x) := by
  have e : ∀ r, (∑ c ∈ Finset.range (6 * a.li.length), matAt s kR a.li.length a.li a.ki a.li.length r c * x c
        = rhsFinal s phi a r - vecAt s kR phi a.li.length a.li a.ki a.li.length r)
      ↔ ∑ i ∈ Finset.range a.li.length, rowOf s kR a.li.length a.ki i r (stateAt s phi a.li a.ki (constsOf x) i 0)
        (stateAt s phi a.li a.ki (constsOf x) i (nth a.li i)) = rhsFinal s phi a r := by
    intro r
    rw [← row_sum s kR phi, eq_sub_iff_add_eq]
  simp only [e]
  rw [forall_rows _ _ hl.two]
  simp only [row_left s kR _ hl.two, row_right s kR _ hl.two, rhsFinal_left s phi a hl hsys hv,
    rhsFinal_right s phi a hl hsys hv]
  rw [bcFun_left_iff s phi kR _ hsys, bcFun_right_iff s phi kR _ hsys]
  constructor
  · rintro ⟨h1, h2, h3⟩
    refine ⟨h1, h2, fun i hi => (six_iff _ _ _ _).mp fun t => ?_⟩
    have := h3 i hi t
    rwa [row_mid s kR _ _ _ _ i hi, rhsFinal_mid s phi a hl i hi] at this
  · rintro ⟨h1, h2, h3⟩
    refine ⟨h1, h2, fun i hi t => ?_⟩
    rw [row_mid s kR _ _ _ _ i hi, rhsFinal_mid s phi a hl i hi]
    exact (six_iff _ _ _ _).mpr (h3 i hi) t

/-! ## The solver -/

theorem npSolve_sum (n : ℕ) (M : ℕ → ℕ → ℝ) (b y : ℕ → ℝ) :
    (∀ r < n, ∑ c ∈ Finset.range n, M r c * y c = b r) ↔
      (Matrix.of fun i j : Fin n => M i j).mulVec (fun j : Fin n => y j) = fun j : Fin n => b j := by
  constructor
  · intro h
    funext i
    have := h i i.2
    rw [Finset.sum_range] at this
    exact this
  · intro h r hr
    have := congrFun h ⟨r, hr⟩
    rw [Finset.sum_range]
    exact this

theorem npSolve_ok {n : ℕ} {M : ℕ → ℕ → ℝ} {b x : ℕ → ℝ} (h : npSolve n M b = .ok x) :
    (∀ r < n, ∑ c ∈ Finset.range n, M r c * x c = b r) ∧
    ∀ y : ℕ → ℝ, (∀ r < n, ∑ c ∈ Finset.range n, M r c * y c = b r) → ∀ i < n, y i = x i := by
  classical
  simp only [npSolve] at h
  set A : Matrix (Fin n) (Fin n) ℝ := Matrix.of fun i j => M i j with hA
  split_ifs at h with hu
  cases h
  have hx : A.mulVec (A⁻¹.mulVec fun j : Fin n => b j) = fun j : Fin n => b j := by
    rw [Matrix.mulVec_mulVec, Matrix.mul_nonsing_inv _ hu, Matrix.one_mulVec]
  constructor
  · rw [npSolve_sum, ← hA]
    convert hx using 2
    funext j
    simp
  · intro y hy i hi
    rw [npSolve_sum, ← hA] at hy
    beta_reduce
    rw [dif_pos hi, ← hy, Matrix.mulVec_mulVec, Matrix.nonsing_inv_mul _ hu, Matrix.one_mulVec]

/-- If at most one vector solves the homogeneous system, the solver succeeds. -/
theorem npSolve_of_injective {n : ℕ} {M : ℕ → ℕ → ℝ} (b : ℕ → ℝ)
    (h : ∀ y : ℕ → ℝ, (∀ r < n, ∑ c ∈ Finset.range n, M r c * y c = 0) → ∀ i < n, y i = 0) :
    ∃ x, npSolve n M b = .ok x := by
  classical
  have hu : IsUnit (Matrix.of fun i j : Fin n => M i j).det := by
    rw [isUnit_iff_ne_zero]
    intro h0
    obtain ⟨v, hv, hv0⟩ := Matrix.exists_mulVec_eq_zero_iff.mpr h0
    apply hv
    have h1 := h (fun i => if hi : i < n then v ⟨i, hi⟩ else 0) ((npSolve_sum n M (fun _ => 0) _).mpr (by
      have e : (fun j : Fin n => if hi : (j : ℕ) < n then v ⟨j, hi⟩ else 0) = v := by
        funext j
        simp
      rw [e, hv0]
      rfl))
    funext i
    have := h1 i i.2
    simpa using this
  simp only [npSolve, if_pos hu]
  exact ⟨_, rfl⟩

end Weac
