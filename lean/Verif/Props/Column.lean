import Verif.Lemmas.Column
import Verif.Props.MirrorOutput

/-!
# C75: the length of a long column does not matter
-/

namespace Weac

open Spec

/-- Segments of a column that begins with a supported segment of length `L`;
`rest` and `km` are lengths and support of the other segments, `mi` the skiers. -/
def columnOf (rest mi : List ℝ) (km : List Bool) (L : ℝ) : SegLists := ⟨L :: rest, mi, true :: km⟩

/-- A cut-out column (`pst` with slab-normal, `vpst` with vertical faces) that
begins with a supported segment: what is needed for it to be solved. -/
structure Spec.CutOut (num : Numerics) (s : Self) (rest mi : List ℝ) (km : List Bool) : Prop where
  system : IsPst s ∨ IsVpst s
  face : NoFaceTouchdown s
  some : 0 < rest.length
  support : km.length = rest.length
  skiers : mi.length = rest.length
  nonneg : ∀ l ∈ rest, 0 ≤ l
  stage : IsPst s → km.getLastD true = false → s.mode ≠ .unset
  spring : IsPst s → km.getLastD true = false → s.mode = .C → RestOk num s

theorem column_first (rest : List ℝ) (L : ℝ) : nth (L :: rest) = first (nth (0 :: rest)) L := by
  funext i
  unfold first nth
  rcases i with _ | i
  · simp
  · simp

theorem columnOf_last {rest : List ℝ} {km : List Bool} (h : km.length = rest.length) (h0 : 0 < rest.length) :
    (true :: km).getD rest.length false = km.getLastD true := by
  obtain ⟨n, hn⟩ : ∃ n, rest.length = n + 1 := ⟨rest.length - 1, by omega⟩
  rw [hn, List.getD_cons_succ, List.getD_eq_getElem _ _ (by omega), List.getLastD_eq_getLast?,
    List.getLast?_eq_getElem?, List.getElem?_eq_getElem (by omega), Option.getD_some]
  congr 1
  omega

theorem endCond_column (s : Self) (phi kR : ℝ) (h : IsPst s ∨ IsVpst s) : ∃ N M V, endCond s phi kR .left true = .forces N M V := by
  unfold endCond
  by_cases hp : IsPst s
  · rw [if_pos hp, if_pos rfl]; exact ⟨_, _, _, rfl⟩
  · rw [if_neg hp, if_pos (h.resolve_left hp)]; exact ⟨_, _, _, rfl⟩

/-- A column is solved for each length of its first segment. -/
theorem column_solved {num : Numerics} {s : Self} {rest mi : List ℝ} {km : List Bool} (h : CutOut num s rest mi km) (kind : SeqKind)
    (phi : ℝ) (hb : BedOk s) (hc : ShearOk s) (hf : EigFresh num.eig s) {L : ℝ} (hL : 0 < L) :
    ∃ C, assembleAndSolve num kind phi (columnOf rest mi km L) s = (.ok (C, columnOf rest mi km L), s) ∧
      SegsOk C (columnOf rest mi km L) ∧
      Column s.beam (rest.length + 1) (fun i => (true :: km).getD i false) (fun i => driveOf s phi ((true :: km).getD i false))
        (jump s phi mi) (endCond s phi (valOf (spring num) s) .left true)
        (endCond s phi (valOf (spring num) s) .right (km.getLastD true)) (first (nth (0 :: rest)) L)
        (stateAt s phi (L :: rest) (true :: km) fun i => C.getD i 0) := by
  have hlen : (columnOf rest mi km L).li.length = rest.length + 1 := by simp [columnOf]
  have h0 := h.some
  have hk := h.support
  have hm := h.skiers
  have hlast := columnOf_last hk h0
  have hfull : full (columnOf rest mi km L) = columnOf rest mi km L := by
    unfold full
    rw [if_neg (by rw [hlen]; omega)]
  have hopen : OpenEnd (columnOf rest mi km L) → km.getLastD true = false := by
    rintro (e | e)
    · simp [columnOf] at e
    · rw [hlen, Nat.add_sub_cancel] at e
      rw [← hlast]
      exact e
  have hfin : finiteSystem s.system := by
    unfold finiteSystem
    have := h.system
    unfold IsPst IsVpst at this
    tauto
  have hv : Valid s (columnOf rest mi km L) := ⟨by simp [columnOf], by simp [columnOf, hk], by simp [columnOf, hm], fun hn => absurd hfin hn⟩
  have hnn : ∀ l ∈ (columnOf rest mi km L).li, 0 ≤ l := by
    simp only [columnOf, List.mem_cons]
    rintro l (rfl | hl)
    · exact hL.le
    · exact h.nonneg l hl
  have hsup : Supported (columnOf rest mi km L) := ⟨hnn, 0, by rw [hlen]; omega, by simp [columnOf], by simpa [columnOf, nth] using hL⟩
  have hsys : IsPst s ∨ IsVpst s ∨ IsSkier s ∨ IsAux s := by have := h.system; tauto
  obtain ⟨C, h1, h2⟩ := C18_unique_solution num kind phi (columnOf rest mi km L) s hb hc hf hv (.inr (by rw [hlen]; omega))
    hsys (fun hp ho => h.stage hp (hopen (hfull ▸ ho))) (fun hp ho => h.spring hp (hopen (hfull ▸ ho))) hsup
  rw [hfull] at h1 h2
  have hmeet := (h2 h.face).1
  obtain ⟨-, -, n1, -⟩ := C16_solution_meets_all_conditions num kind phi _ _ s s C hf h.face h1
  have hS : SegsOk C (columnOf rest mi km L) := ⟨hv.ki, by omega, hnn⟩
  refine ⟨C, h1, hS, ⟨fun i hi => ?_, fun i _ => ?_, ?_⟩⟩
  · rw [← column_first]
    exact hS.at_nonneg i
  · exact stateAt_driven s hb phi _ _ _ i
  · unfold Meets at hmeet
    rw [hlen] at hmeet
    rw [← column_first]
    have e1 : (columnOf rest mi km L).ki.getD 0 false = true := rfl
    have e2 : (columnOf rest mi km L).ki.getD (rest.length + 1 - 1) false = km.getLastD true := hlast
    rw [e1, e2] at hmeet
    exact hmeet

/-- C75. A column that begins with a supported segment, with any crack, skiers
and touchdown stage beyond it. There is a distance `r` that depends on slab and
weak layer only, such that columns with first segments of lengths `L ≤ L'`, from
1 mm on, have the same displacements, rotations and derivatives up to a multiple
of `exp (-x / r)` at the distance `x` from the beginning of the shorter one, and
up to a multiple of `exp (-L / r)` in all other segments. -/
theorem C75_states (num : Numerics) (s : Self) (hb : BedOk s) (hc : ShearOk s) (hf : EigFresh num.eig s) :
    ∃ r, 0 < r ∧ ∀ (kind : SeqKind) (phi : ℝ) (rest mi : List ℝ) (km : List Bool), CutOut num s rest mi km →
      ∃ K, 0 < K ∧ ∀ L L', 1 ≤ L → L ≤ L' → ∃ C C',
        assembleAndSolve num kind phi (columnOf rest mi km L) s = (.ok (C, columnOf rest mi km L), s) ∧
        assembleAndSolve num kind phi (columnOf rest mi km L') s = (.ok (C', columnOf rest mi km L'), s) ∧
        (∀ x ∈ Set.Icc 0 L, ∀ q, |zsol s x (C.getD 0 0) L phi true q - zsol s (x + (L' - L)) (C'.getD 0 0) L' phi true q| ≤
          K * Real.exp (-(x / r))) ∧
        ∀ i < rest.length, ∀ x ∈ Set.Icc 0 (nth rest i), ∀ q,
          |zsol s x (C.getD (i + 1) 0) (nth rest i) phi (km.getD i false) q -
            zsol s x (C'.getD (i + 1) 0) (nth rest i) phi (km.getD i false) q| ≤ K * Real.exp (-(L / r)) := by
  have hco := hb.stiff.coercive hc
  obtain ⟨r, hr, main⟩ := column_length hco
  refine ⟨r, hr, fun kind phi rest mi km h => ?_⟩
  have hzp : Driven s.beam true (driveOf s phi ((true :: km).getD 0 false)) fun _ => zp s 0 phi true := by
    have := zp_driven s hb.stiff.regular phi true
    have e : (fun x => zp s x phi true) = fun _ => zp s 0 phi true := funext fun y => zp_bed_const s y phi
    rwa [e] at this
  obtain ⟨N, M, V, he⟩ := endCond_column s phi (valOf (spring num) s) h.system
  obtain ⟨Cr, -, -, hYr⟩ := column_solved h kind phi hb hc hf (one_pos (α := ℝ))
  rw [he] at hYr
  have h0 := h.some
  obtain ⟨K, hK, H⟩ := main (n := rest.length + 1) (by omega) (k := fun i => (true :: km).getD i false) rfl
    (g := fun i => driveOf s phi ((true :: km).getD i false))
    (endCond_passive_right s phi _ (km.getLastD true) (spring_nonneg num s)) hzp hYr
  refine ⟨K, hK, fun L L' hL hLL => ?_⟩
  obtain ⟨C, h1, -, h2⟩ := column_solved h kind phi hb hc hf (by linarith : 0 < L)
  obtain ⟨C', h1', -, h2'⟩ := column_solved h kind phi hb hc hf (by linarith : 0 < L')
  rw [he] at h2 h2'
  obtain ⟨g1, g2⟩ := H L L' hL hLL _ _ h2 h2'
  refine ⟨C, C', h1, h1', fun x hx q => ?_, fun i hi x hx q => ?_⟩
  · have h3 := norm_le_pi_norm (stateAt s phi (L :: rest) (true :: km) (fun i => C.getD i 0) 0 x -
      stateAt s phi (L' :: rest) (true :: km) (fun i => C'.getD i 0) 0 (x + (L' - L))) q
    rw [Real.norm_eq_abs] at h3
    exact h3.trans (g1 x hx)
  · have h3 := norm_le_pi_norm (stateAt s phi (L :: rest) (true :: km) (fun i => C.getD i 0) (i + 1) x -
      stateAt s phi (L' :: rest) (true :: km) (fun i => C'.getD i 0) (i + 1) x) q
    rw [Real.norm_eq_abs] at h3
    exact h3.trans (g2 (i + 1) (by omega) (by omega) x hx)

/-! ## Energy release rates -/

theorem tipWeight_le (ki : List Bool) (j : ℕ) : 0 ≤ tipWeight ki j ∧ tipWeight ki j ≤ 1 := by
  unfold tipWeight
  split_ifs <;> norm_num

theorem tipSum_close (ki : List Bool) (f f' : ℕ → ℝ) {e : ℝ} (he : 0 ≤ e) (h : ∀ j < ki.length, |f j - f' j| ≤ e) :
    |tipSum ki f - tipSum ki f'| ≤ ki.length * e := by
  unfold tipSum
  rw [← Finset.sum_sub_distrib]
  refine (Finset.abs_sum_le_sum_abs _ _).trans ?_
  have : ∑ _j ∈ Finset.range ki.length, e = ki.length * e := by simp
  rw [← this]
  refine Finset.sum_le_sum fun j hj => ?_
  split_ifs
  · rw [← mul_sub, abs_mul, abs_of_nonneg (tipWeight_le ki j).1]
    have := mul_le_mul (tipWeight_le ki j).2 (h j (Finset.mem_range.1 hj)) (abs_nonneg _) zero_le_one
    linarith
  · simpa using he

/-- Squares of nearby numbers. -/
theorem sq_close {a a' B e : ℝ} (ha : |a| ≤ B) (ha' : |a'| ≤ B) (h : |a - a'| ≤ e) : |a ^ 2 - a' ^ 2| ≤ 2 * B * e := by
  have e1 : a ^ 2 - a' ^ 2 = (a + a') * (a - a') := by ring
  rw [e1, abs_mul]
  have h1 := abs_add_le a a'
  have h2 : |a + a'| ≤ 2 * B := by linarith
  exact mul_le_mul h2 h (abs_nonneg _) ((abs_nonneg _).trans h2)

/-- Bound for the shear stress per state. -/
theorem tau_close (b : Beam) (z z' : Vec6) {e : ℝ} (h : ∀ q, |z q - z' q| ≤ e) :
    |b.tau z - b.tau z'| ≤ |b.kt| * (1 + |b.h / 2| + |b.t / 2|) * e := by
  have e1 : b.tau z - b.tau z' = b.kt * ((z 0 - z' 0) + b.h / 2 * (z 4 - z' 4) - b.t / 2 * (z 3 - z' 3)) := by
    unfold Beam.tau; ring
  rw [e1, abs_mul, mul_assoc]
  refine mul_le_mul_of_nonneg_left ?_ (abs_nonneg _)
  refine (abs_sub _ _).trans ?_
  have h1 := abs_add_le (z 0 - z' 0) (b.h / 2 * (z 4 - z' 4))
  rw [abs_mul] at h1
  rw [abs_mul]
  have h2 := mul_le_mul_of_nonneg_left (h 4) (abs_nonneg (b.h / 2))
  have h3 := mul_le_mul_of_nonneg_left (h 3) (abs_nonneg (b.t / 2))
  have h4 := h 0
  linarith

set_option maxHeartbeats 1000000 in
/-- C75. The differential energy release rates of such columns, total, mode I and
mode II, differ by a multiple of `exp (-L / r)` at most. -/
theorem C75_rates (num : Numerics) (s : Self) (hb : BedOk s) (hc : ShearOk s) (hf : EigFresh num.eig s) :
    ∃ r, 0 < r ∧ ∀ (kind : SeqKind) (phi : ℝ) (rest mi : List ℝ) (km : List Bool) (unit : String) (c : ℝ),
      convertEnergy unit = .ok c → CutOut num s rest mi km →
      ∃ K, 0 < K ∧ ∀ L L', 1 ≤ L → L ≤ L' → ∃ C C' G G',
        assembleAndSolve num kind phi (columnOf rest mi km L) s = (.ok (C, columnOf rest mi km L), s) ∧
        assembleAndSolve num kind phi (columnOf rest mi km L') s = (.ok (C', columnOf rest mi km L'), s) ∧
        gdif s phi (segsOf C (columnOf rest mi km L)) unit true = .ok G ∧
        gdif s phi (segsOf C' (columnOf rest mi km L')) unit true = .ok G' ∧
        |G.1 - G'.1| ≤ K * Real.exp (-(L / r)) ∧ |G.2.1 - G'.2.1| ≤ K * Real.exp (-(L / r)) ∧
        |G.2.2 - G'.2.2| ≤ K * Real.exp (-(L / r)) := by
  obtain ⟨r, hr, main⟩ := C75_states num s hb hc hf
  refine ⟨r, hr, fun kind phi rest mi km unit c hu h => ?_⟩
  obtain ⟨K, hK, H⟩ := main kind phi rest mi km h
  obtain ⟨Cr, hr1, hrS, -⟩ := column_solved h kind phi hb hc hf (one_pos (α := ℝ))
  set n := rest.length + 1 with hn
  -- end states
  have close : ∀ L L', 1 ≤ L → L ≤ L' → ∀ C C',
      assembleAndSolve num kind phi (columnOf rest mi km L) s = (.ok (C, columnOf rest mi km L), s) →
      assembleAndSolve num kind phi (columnOf rest mi km L') s = (.ok (C', columnOf rest mi km L'), s) →
      ∀ j < n, ∀ q, |endState s phi (segsOf C (columnOf rest mi km L)) j q -
        endState s phi (segsOf C' (columnOf rest mi km L')) j q| ≤ K * Real.exp (-(L / r)) := by
    intro L L' hL hLL C C' r1 r2 j hj q
    obtain ⟨D, D', d1, d2, d3, d4⟩ := H L L' hL hLL
    obtain rfl : D = C := by have := d1.symm.trans r1; simpa using this
    obtain rfl : D' = C' := by have := d2.symm.trans r2; simpa using this
    obtain ⟨E, f1, f2, -⟩ := column_solved h kind phi hb hc hf (by linarith : 0 < L)
    obtain rfl : D = E := by have := d1.symm.trans f1; simpa using this
    obtain ⟨E', f1', f2', -⟩ := column_solved h kind phi hb hc hf (by linarith : 0 < L')
    obtain rfl : D' = E' := by have := d2.symm.trans f1'; simpa using this
    rw [f2.endState s phi j (by simp only [columnOf, List.length_cons]; exact hj), f2'.endState s phi j (by simp only [columnOf, List.length_cons]; exact hj)]
    rcases j with _ | j
    · have := d3 L ⟨by linarith, le_rfl⟩ q
      rw [add_sub_cancel] at this
      exact this
    · have hjn : j < rest.length := by omega
      have hnn : 0 ≤ nth rest j := by
        rw [nth, List.getD_eq_getElem _ _ hjn]
        exact h.nonneg _ (List.getElem_mem hjn)
      exact d4 j hjn (nth rest j) ⟨hnn, le_rfl⟩ q
  -- bound for the end states
  set W := ∑ j ∈ Finset.range n, ‖endState s phi (segsOf Cr (columnOf rest mi km 1)) j‖ with hW
  have hW0 : 0 ≤ W := Finset.sum_nonneg fun _ _ => norm_nonneg _
  have size : ∀ L, 1 ≤ L → ∀ C, assembleAndSolve num kind phi (columnOf rest mi km L) s = (.ok (C, columnOf rest mi km L), s) →
      ∀ j < n, ∀ q, |endState s phi (segsOf C (columnOf rest mi km L)) j q| ≤ W + K := by
    intro L hL C r1 j hj q
    have h1 := close 1 L le_rfl hL Cr C hr1 r1 j hj q
    have h2 := norm_le_pi_norm (endState s phi (segsOf Cr (columnOf rest mi km 1)) j) q
    rw [Real.norm_eq_abs] at h2
    have h3 : ‖endState s phi (segsOf Cr (columnOf rest mi km 1)) j‖ ≤ W :=
      Finset.single_le_sum (f := fun j => ‖endState s phi (segsOf Cr (columnOf rest mi km 1)) j‖) (fun _ _ => norm_nonneg _)
        (Finset.mem_range.2 hj)
    have h4 : K * Real.exp (-(1 / r)) ≤ K := by
      refine mul_le_of_le_one_right hK.le (Real.exp_le_one_iff.2 ?_)
      have : 0 ≤ 1 / r := by positivity
      linarith
    have h5 := abs_sub_abs_le_abs_sub (endState s phi (segsOf C (columnOf rest mi km L)) j q)
      (endState s phi (segsOf Cr (columnOf rest mi km 1)) j q)
    rw [abs_sub_comm] at h5
    linarith
  set T := |s.beam.kt| * (1 + |s.beam.h / 2| + |s.beam.t / 2|) with hT
  have hT0 : 0 ≤ T := by positivity
  set B1 := |s.kn| * (W + K) with hB1
  set B2 := T * (W + K) with hB2
  set e1 := 2 * B1 * (|s.kn| * K) / |2 * s.kn| with he1
  set e2 := 2 * B2 * (T * K) / |2 * s.kt| with he2
  have hB10 : 0 ≤ B1 := by positivity
  have hB20 : 0 ≤ B2 := by positivity
  have he10 : 0 ≤ e1 := by positivity
  have he20 : 0 ≤ e2 := by positivity
  refine ⟨|c| * (n * (e1 + e2)) + 1, by positivity, fun L L' hL hLL => ?_⟩
  obtain ⟨C, C', r1, r2, -⟩ := H L L' hL hLL
  set x := Real.exp (-(L / r)) with hx
  have hx0 : 0 < x := Real.exp_pos _
  set S := segsOf C (columnOf rest mi km L) with hS
  set S' := segsOf C' (columnOf rest mi km L') with hS'
  have hki : ∀ L C, SegsOk C (columnOf rest mi km L) → (segsOf C (columnOf rest mi km L)).map Seg.k = true :: km := by
    intro L C hok
    refine List.ext_getElem ?_ fun i h1 h2 => ?_
    · rw [List.length_map, hok.length]; simp [columnOf, h.support]
    · have hi : i < (columnOf rest mi km L).li.length := by
        rw [List.length_map, hok.length] at h1; exact h1
      rw [List.getElem_map, hok.get i hi]
      exact List.getD_eq_getElem _ _ h2
  have ok1 : S.map Seg.k = true :: km := by
    obtain ⟨E, f1, f2, -⟩ := column_solved h kind phi hb hc hf (by linarith : 0 < L)
    obtain rfl : C = E := by have := r1.symm.trans f1; simpa using this
    exact hki _ _ f2
  have ok2 : S'.map Seg.k = true :: km := by
    obtain ⟨E, f1, f2, -⟩ := column_solved h kind phi hb hc hf (by linarith : 0 < L')
    obtain rfl : C' = E := by have := r2.symm.trans f1; simpa using this
    exact hki _ _ f2
  have g1 := C30_gdif s phi S unit c hu
  have g2 := C30_gdif s phi S' unit c hu
  rw [ok1] at g1
  rw [ok2] at g2
  have hlen : ((true :: km).length : ℝ) = n := by simp [hn, h.support]
  have hlen' : (true :: km).length = n := by simp [hn, h.support]
  have c1 : |tipSum (true :: km) (fun j => (s.kn * endState s phi S j 2) ^ 2 / (2 * s.kn)) -
      tipSum (true :: km) (fun j => (s.kn * endState s phi S' j 2) ^ 2 / (2 * s.kn))| ≤ n * (e1 * x) := by
    rw [← hlen]
    refine tipSum_close _ _ _ (by positivity) fun j hj => ?_
    rw [hlen'] at hj
    rw [← sub_div, abs_div]
    have := sq_close (a := s.kn * endState s phi S j 2) (a' := s.kn * endState s phi S' j 2) (B := B1) (e := |s.kn| * K * x)
      (by rw [abs_mul]; exact mul_le_mul_of_nonneg_left (size L hL C r1 j hj 2) (abs_nonneg _))
      (by rw [abs_mul]; exact mul_le_mul_of_nonneg_left (size L' (hL.trans hLL) C' r2 j hj 2) (abs_nonneg _))
      (by rw [← mul_sub, abs_mul, mul_assoc]; exact mul_le_mul_of_nonneg_left (close L L' hL hLL C C' r1 r2 j hj 2) (abs_nonneg _))
    refine (div_le_div_of_nonneg_right this (abs_nonneg _)).trans (le_of_eq ?_)
    rw [he1]; ring
  have c2 : |tipSum (true :: km) (fun j => s.beam.tau (endState s phi S j) ^ 2 / (2 * s.kt)) -
      tipSum (true :: km) (fun j => s.beam.tau (endState s phi S' j) ^ 2 / (2 * s.kt))| ≤ n * (e2 * x) := by
    rw [← hlen]
    refine tipSum_close _ _ _ (by positivity) fun j hj => ?_
    rw [hlen'] at hj
    rw [← sub_div, abs_div]
    have z0 : s.beam.tau 0 = 0 := by simp [Beam.tau]
    have t1 := tau_close s.beam (endState s phi S j) 0 (e := W + K) fun q => by
      rw [Pi.zero_apply, sub_zero]; exact size L hL C r1 j hj q
    have t2 := tau_close s.beam (endState s phi S' j) 0 (e := W + K) fun q => by
      rw [Pi.zero_apply, sub_zero]; exact size L' (hL.trans hLL) C' r2 j hj q
    rw [z0, sub_zero] at t1 t2
    have t3 := tau_close s.beam (endState s phi S j) (endState s phi S' j) (close L L' hL hLL C C' r1 r2 j hj)
    have := sq_close t1 t2 t3
    refine (div_le_div_of_nonneg_right this (abs_nonneg _)).trans (le_of_eq ?_)
    rw [he2]; ring
  have n0 : (0 : ℝ) ≤ n := by positivity
  have fin : ∀ y, |y| ≤ n * ((e1 + e2) * x) → |c * y| ≤ (|c| * (n * (e1 + e2)) + 1) * x := by
    intro y hy
    rw [abs_mul]
    have := mul_le_mul_of_nonneg_left hy (abs_nonneg c)
    linarith
  have p1 : 0 ≤ n * (e1 * x) := by positivity
  have p2 : 0 ≤ n * (e2 * x) := by positivity
  refine ⟨C, C', _, _, r1, r2, g1, g2, ?_, ?_, ?_⟩
  · rw [← mul_sub]
    refine fin _ ?_
    rw [add_sub_add_comm]
    refine (abs_add_le _ _).trans ?_
    linarith
  · rw [← mul_sub]; exact fin _ (by linarith)
  · rw [← mul_sub]; exact fin _ (by linarith)

/-! ## Columns with the crack on the left -/

theorem column_supported {num : Numerics} {s : Self} {rest mi : List ℝ} {km : List Bool} (h : CutOut num s rest mi km) {L : ℝ}
    (hL : 0 < L) : Supported (columnOf rest mi km L) := by
  refine ⟨?_, 0, by simp [columnOf], by simp [columnOf], by simpa [columnOf, nth] using hL⟩
  simp only [columnOf, List.mem_cons]
  rintro l (rfl | hl)
  · exact hL.le
  · exact h.nonneg l hl

theorem flip_close {z z' : Vec6} {e : ℝ} (h : ∀ q, |z q - z' q| ≤ e) (q : Fin 6) : |flip z q - flip z' q| ≤ e := by
  have k : ∀ a b : ℝ, |-a - -b| = |a - b| := fun a b => by rw [neg_sub_neg, abs_sub_comm]
  have hq := h q
  fin_cases q
  · exact (k _ _).le.trans hq
  · exact hq
  · exact hq
  · exact (k _ _).le.trans hq
  · exact (k _ _).le.trans hq
  · exact hq

/-- C75 for the mirror image: columns that end with the supported segment, as
systems `-pst` and `-vpst` do. -/
theorem C75_mirror (num : Numerics) (s : Self) (hb : BedOk s) (hc : ShearOk s) (hf : EigFresh num.eig s) :
    ∃ r, 0 < r ∧ ∀ (kind : SeqKind) (phi : ℝ) (rest mi : List ℝ) (km : List Bool), CutOut num s rest mi km →
      ∃ K, 0 < K ∧ ∀ L L', 1 ≤ L → L ≤ L' → ∀ C C' a a' s1 s2,
        assembleAndSolve num kind (-phi) (columnOf rest mi km L).mirror s.mirror = (.ok (C, a), s1) →
        assembleAndSolve num kind (-phi) (columnOf rest mi km L').mirror s.mirror = (.ok (C', a'), s2) →
        (∀ x ∈ Set.Icc 0 L, ∀ q, |zsol s.mirror x (C.getD rest.length 0) L (-phi) true q -
          zsol s.mirror x (C'.getD rest.length 0) L' (-phi) true q| ≤ K * Real.exp (-((L - x) / r))) ∧
        ∀ i < rest.length, ∀ x ∈ Set.Icc 0 (nth rest.reverse i), ∀ q,
          |zsol s.mirror x (C.getD i 0) (nth rest.reverse i) (-phi) (km.reverse.getD i false) q -
            zsol s.mirror x (C'.getD i 0) (nth rest.reverse i) (-phi) (km.reverse.getD i false) q| ≤ K * Real.exp (-(L / r)) := by
  obtain ⟨r, hr, main⟩ := C75_states num s hb hc hf
  refine ⟨r, hr, fun kind phi rest mi km h => ?_⟩
  obtain ⟨K, hK, H⟩ := main kind phi rest mi km h
  refine ⟨K, hK, fun L L' hL hLL C C' a a' s1 s2 r1 r2 => ?_⟩
  obtain ⟨D, D', d1, d2, d3, d4⟩ := H L L' hL hLL
  have hopen : ∀ L, OpenEnd (columnOf rest mi km L) → km.getLastD true = false := by
    rintro L (e | e)
    · simp [columnOf] at e
    · rw [← columnOf_last h.support h.some]
      simpa [columnOf] using e
  have hsys : IsPst s ∨ IsVpst s ∨ IsSkier s := by have := h.system; tauto
  have m1 := C20_mirror num kind kind phi _ _ a s s s1 D C hb hc hf h.face hsys (fun hp ho => h.spring hp (hopen L ho))
    (column_supported h (by linarith)) d1 r1
  have m2 := C20_mirror num kind kind phi _ _ a' s s s2 D' C' hb hc hf h.face hsys (fun hp ho => h.spring hp (hopen L' ho))
    (column_supported h (by linarith)) d2 r2
  have hlen : ∀ L, (columnOf rest mi km L).li.length = rest.length + 1 := fun L => by simp [columnOf]
  have hli : ∀ L, (columnOf rest mi km L).mirror.li = rest.reverse ++ [L] := fun L => by simp [columnOf, SegLists.mirror]
  have hki : ∀ L, (columnOf rest mi km L).mirror.ki = km.reverse ++ [true] := fun L => by simp [columnOf, SegLists.mirror]
  simp only [hlen, hli, hki] at m1 m2
  constructor
  · intro x hx q
    have k1 := m1 rest.length (by omega) x
    have k2 := m2 rest.length (by omega) x
    have e1 : ∀ L, nth (rest.reverse ++ [L]) rest.length = L := fun L => by
      rw [nth, List.getD_append_right _ _ _ _ (by simp)]; simp
    have e2 : (km.reverse ++ [true]).getD rest.length false = true := by
      rw [List.getD_append_right _ _ _ _ (by simp [h.support])]; simp [h.support]
    rw [e1, e2, show rest.length + 1 - 1 - rest.length = 0 by omega] at k1 k2
    have hn : ∀ L, nth (columnOf rest mi km L).li 0 = L := fun L => rfl
    rw [k1, k2]
    refine flip_close (fun q => ?_) q
    have := d3 (L - x) ⟨by linarith [hx.2], by linarith [hx.1]⟩ q
    rw [show L - x + (L' - L) = L' - x by ring] at this
    exact this
  · intro i hi x hx q
    have k1 := m1 i (by omega) x
    have k2 := m2 i (by omega) x
    have e1 : ∀ L, nth (rest.reverse ++ [L]) i = nth rest.reverse i := fun L => by
      rw [nth, nth, List.getD_append _ _ _ _ (by simpa using hi)]
    have e2 : (km.reverse ++ [true]).getD i false = km.reverse.getD i false := by
      rw [List.getD_append _ _ _ _ (by simpa [h.support] using hi)]
    have e3 : rest.length + 1 - 1 - i = (rest.length - 1 - i) + 1 := by omega
    rw [e1, e2, e3] at k1 k2
    have e4 : ∀ L, nth (columnOf rest mi km L).li (rest.length - 1 - i + 1) = nth rest (rest.length - 1 - i) := fun L => rfl
    rw [e4] at k1 k2
    rw [k1, k2]
    refine flip_close (fun q => ?_) q
    have e5 : nth rest.reverse i = nth rest (rest.length - 1 - i) := nth_reverse rest i hi
    rw [e5] at hx
    exact d4 (rest.length - 1 - i) (by omega) _ ⟨by linarith [hx.2], by linarith [hx.1]⟩ q

/-- Propagation saw test with 200 mm of unsupported slab in each of the stages A,
B and C: the energy release rate for a column of any length from 1 m on. -/
example (mode : Mode) (hm : mode ≠ .unset) (phi : ℝ) : ∃ r K, 0 < r ∧ ∀ L L', 1000 ≤ L → L ≤ L' → ∃ C C' G G',
    assembleAndSolve stdNum .list phi ⟨[L, 200], [0], [true, false]⟩ (pstDemo mode 200) =
      (.ok (C, ⟨[L, 200], [0], [true, false]⟩), pstDemo mode 200) ∧
    assembleAndSolve stdNum .list phi ⟨[L', 200], [0], [true, false]⟩ (pstDemo mode 200) =
      (.ok (C', ⟨[L', 200], [0], [true, false]⟩), pstDemo mode 200) ∧
    gdif (pstDemo mode 200) phi (segsOf C ⟨[L, 200], [0], [true, false]⟩) "J/m^2" true = .ok G ∧
    gdif (pstDemo mode 200) phi (segsOf C' ⟨[L', 200], [0], [true, false]⟩) "J/m^2" true = .ok G' ∧
    |G.1 - G'.1| ≤ K * Real.exp (-(L / r)) := by
  obtain ⟨r, hr, h⟩ := C75_rates stdNum (pstDemo mode 200) (pstDemo_bedOk _ _) (pstDemo_shear _ _) (pstDemo_fresh _ _)
  obtain ⟨K, -, h⟩ := h .list phi [200] [0] [false] "J/m^2" 1e3 (by simp [convertEnergy])
    ⟨.inl (pstDemo_isPst _ _), pstDemo_noFace _ _, by simp, rfl, rfl, by simp, fun _ _ => hm, fun _ _ _ => pstDemo_rest _⟩
  refine ⟨r, K, hr, fun L L' h1 h2 => ?_⟩
  obtain ⟨C, C', G, G', h3, h4, h5, h6, h7, -⟩ := h L L' (by linarith) h2
  exact ⟨C, C', G, G', h3, h4, h5, h6, h7⟩

end Weac
