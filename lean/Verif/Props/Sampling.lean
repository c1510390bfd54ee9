import Verif.Props.Loads
import Verif.Lemmas.Quadrature
import Mathlib.Analysis.Calculus.ContDiff.RCLike

/-!
# C74: sampled arrays miss little

Every state of the beam has a sampled state close by, and the distance is
proportional to the spacing of the grid; so extremes read off the arrays are
the extremes of the beam up to such an error.
-/

namespace Weac

open Spec

/-! ## Smoothness of the fields -/

theorem zsol_smooth (s : Self) (C : Vec6) (l phi : ℝ) (bed : Bool) : ContDiff ℝ 2 fun x => zsol s x C l phi bed := by
  rw [contDiff_pi]
  intro i
  unfold zsol
  rcases bed with _ | _
  · have : (fun x => ((zh s x l false).mulVec C + zp s x phi false) i)
        = fun x => ((zhFree s x).mulVec C) i + zp s x phi false i := by funext x; simp [zh]
    rw [this]
    unfold zhFree zp
    fin_cases i <;> simp [Matrix.mulVec, dotProduct, Fin.sum_univ_succ] <;> fun_prop
  · have hp : ∀ x, zp s x phi true = zp s 0 phi true := by intro x; simp [zp]
    simp only [hp, Pi.add_apply]
    refine ContDiff.add ?_ contDiff_const
    simp only [zh_true_mulVec, zhBed_getD, Finset.sum_apply, Pi.smul_apply]
    refine ContDiff.sum fun j _ => ContDiff.const_smul _ ?_
    by_cases hj : (j : ℕ) < (bedGens s.eigs l).length
    · rw [List.getD_eq_getElem _ _ hj]
      have hm := List.getElem_mem hj
      generalize (bedGens s.eigs l)[(j : ℕ)] = f at hm
      unfold bedGens at hm
      simp only [List.mem_append, List.mem_map] at hm
      rcases hm with (⟨m, -, rfl⟩ | ⟨m, -, rfl⟩) | ⟨m, -, rfl⟩ <;> fun_prop
    · rw [List.getD_eq_default _ _ (not_lt.mp hj)]
      exact contDiff_const

theorem zsol_lipschitz (s : Self) (C : Vec6) (l phi : ℝ) (bed : Bool) :
    ∃ K, 0 ≤ K ∧ ∀ x ∈ Set.Icc 0 |l|, ∀ y ∈ Set.Icc 0 |l|, ∀ q,
      |zsol s x C |l| phi bed q - zsol s y C |l| phi bed q| ≤ K * |x - y| := by
  have h := (zsol_contDiff s C |l| phi bed).contDiffOn (s := Set.Icc 0 |l|)
  obtain ⟨K, hK⟩ := h.exists_lipschitzOnWith (by simp) (convex_Icc _ _) isCompact_Icc
  refine ⟨K, K.2, fun x hx y hy q => ?_⟩
  have := hK.dist_le_mul x hx y hy
  rw [dist_eq_norm, Real.dist_eq] at this
  exact (norm_le_pi_norm (zsol s x C |l| phi bed - zsol s y C |l| phi bed) q).trans this

/-- Between two points, the chord of a twice differentiable function. -/
theorem chord_bound {f : ℝ → ℝ} (hf : ContDiff ℝ 2 f) (l : ℝ) :
    ∃ K, 0 ≤ K ∧ ∀ a b x, 0 ≤ a → a < b → b ≤ l → a ≤ x → x ≤ b →
      |f a + (f b - f a) * ((x - a) / (b - a)) - f x| ≤ K * (b - a) ^ 2 := by
  have hd : ContDiff ℝ 1 (deriv f) := by
    have : ContDiff ℝ (1 + 1) f := by
      rw [one_add_one_eq_two]; exact hf
    exact (contDiff_succ_iff_deriv.1 this).2.2
  have hdf : Differentiable ℝ f := hf.differentiable (by norm_num)
  obtain ⟨K, hK⟩ := (hd.contDiffOn (s := Set.Icc 0 l)).exists_lipschitzOnWith one_ne_zero (convex_Icc _ _) isCompact_Icc
  refine ⟨K, K.2, fun a b x h0 hab hbl hax hxb => ?_⟩
  rcases eq_or_lt_of_le hax with rfl | hax
  · rw [sub_self, zero_div, mul_zero, add_zero, sub_self, abs_zero]
    have : (0 : ℝ) ≤ K := K.2
    positivity
  obtain ⟨ξ, hξ, e1⟩ := exists_deriv_eq_slope f hab hdf.continuous.continuousOn hdf.differentiableOn
  obtain ⟨η, hη, e2⟩ := exists_deriv_eq_slope f hax hdf.continuous.continuousOn hdf.differentiableOn
  have hb0 : b - a ≠ 0 := (sub_pos.2 hab).ne'
  have hx0 : x - a ≠ 0 := (sub_pos.2 hax).ne'
  have e : f a + (f b - f a) * ((x - a) / (b - a)) - f x = (deriv f ξ - deriv f η) * (x - a) := by
    rw [e1, e2]; field_simp; ring
  have hl : |deriv f ξ - deriv f η| ≤ K * |ξ - η| := by
    have := hK.dist_le_mul ξ ⟨by linarith [hξ.1], by linarith [hξ.2]⟩ η ⟨by linarith [hη.1], by linarith [hη.2]⟩
    rwa [Real.dist_eq, Real.dist_eq] at this
  have hd : |ξ - η| ≤ b - a := abs_le.2 ⟨by linarith [hξ.1, hη.2], by linarith [hξ.2, hη.1]⟩
  have hK0 : (0 : ℝ) ≤ K := K.2
  rw [e, abs_mul, abs_of_pos (sub_pos.2 hax)]
  calc |deriv f ξ - deriv f η| * (x - a) ≤ (K * (b - a)) * (b - a) :=
        mul_le_mul (hl.trans (mul_le_mul_of_nonneg_left hd hK0)) (by linarith) (by linarith) (mul_nonneg hK0 (by linarith))
    _ = K * (b - a) ^ 2 := by ring

/-! ## Grid points nearby -/

/-- Grid points of a segment: coordinate, state and support. -/
theorem loop_point (s : Self) (phi : ℝ) (num : ℕ) (tot : ℝ) : ∀ (gs : List Seg) (x0 : ℝ) (prev : Option Bool)
    (_ : ∀ g ∈ gs, 0 < g.l) (b : ℝ) (g : Seg), Begins x0 gs b g → ∀ j < stepsOf num tot g.l,
    ∃ p ∈ rasterLoop s phi num tot x0 prev gs, p.x = b + stepOf num tot g.l * (j : ℝ) ∧
      p.z = zsol s (stepOf num tot g.l * (j : ℝ)) g.C g.l phi g.k ∧ (g.k = true → p.sup = true) := by
  intro gs
  induction gs with
  | nil => intro x0 prev _ b g h; exact h.elim
  | cons g gs ih =>
    intro x0 prev hpos b g' h j hj
    rw [rasterLoop]
    rcases h with ⟨rfl, rfl⟩ | h
    · have hm : j ∈ List.range (nqOf num tot g'.l gs.isEmpty) := by
        unfold stepsOf at hj
        unfold nqOf
        exact List.mem_range.mpr (by omega)
      refine ⟨_, List.mem_append_left _ (by rw [segPts_eq]; exact List.mem_map.mpr ⟨j, hm, rfl⟩), rfl, rfl, fun hk => ?_⟩
      simp only
      split
      · unfold headMask
        cases prev <;> simp [hk]
      · exact hk
    · rw [abs_of_pos (hpos g (by simp))] at h
      obtain ⟨p, h1, h2⟩ := ih (x0 + g.l) (some g.k) (fun g hg => hpos g (by simp [hg])) b g' h j hj
      exact ⟨p, List.mem_append_right _ h1, h2⟩

theorem grid_point (s : Self) (phi : ℝ) {num : ℕ} (segs : List Seg) (pts : List GridPt)
    (h : rasterize s phi num segs = .ok pts) (b : ℝ) (g : Seg) (hb : Begins 0 segs b g) (hl : g.l ≠ 0)
    (j : ℕ) (hj : j < stepsOf num (beamLength segs) |g.l|) :
    ∃ p ∈ pts, p.x = b + stepOf num (beamLength segs) |g.l| * (j : ℝ) ∧
      p.z = zsol s (stepOf num (beamLength segs) |g.l| * (j : ℝ)) g.C |g.l| phi g.k ∧ (g.k = true → p.sup = true) := by
  have e : pts = rasterLoop s phi num (beamLength segs) 0 none (dropZero segs) := by
    unfold rasterize at h
    rw [← dropZero_length]
    generalize dropZero segs = gs at h ⊢
    rcases gs with _ | ⟨g, gs⟩
    · cases h
    · injection h with h
      rw [← h]
  rw [e]
  exact loop_point s phi num _ _ 0 none (dropZero_pos segs) b _ (begins_dropZero.mpr ⟨g, hb, hl, rfl⟩) j hj

theorem beamLength_pos {segs : List Seg} {b x0 : ℝ} {g : Seg} (hb : Begins x0 segs b g) (hl : g.l ≠ 0) : 0 < beamLength segs := by
  induction segs generalizing x0 with
  | nil => exact hb.elim
  | cons h hs ih =>
    have h1 : 0 ≤ beamLength hs := by
      unfold beamLength
      exact List.sum_nonneg (by simp)
    have e : beamLength (h :: hs) = |h.l| + beamLength hs := by simp [beamLength]
    rw [e]
    rcases hb with ⟨-, rfl⟩ | hb
    · have := abs_pos.2 hl
      linarith
    · have := ih hb
      have := abs_nonneg h.l
      linarith

/-- C74. There is a constant such that every position of the beam has a sampled
point of the same segment within a distance of (length of the beam)/`num`,
whose state differs by no more than the constant times this distance. Supported
positions have such a point among those that are marked as supported. -/
theorem C74_dense (s : Self) (phi : ℝ) (segs : List Seg) :
    ∃ K, 0 ≤ K ∧ ∀ (num : ℕ) (pts : List GridPt), 1 ≤ num → rasterize s phi num segs = .ok pts →
      ∀ b g, Begins 0 segs b g → g.l ≠ 0 → ∀ x, 0 ≤ x → x ≤ |g.l| →
        ∃ p ∈ pts, b ≤ p.x ∧ p.x ≤ b + x ∧ b + x - p.x ≤ beamLength segs / num ∧ (g.k = true → p.xb = some p.x) ∧
          ∀ q, |p.z q - zsol s x g.C |g.l| phi g.k q| ≤ K * (beamLength segs / num) := by
  have hK : ∃ K, 0 ≤ K ∧ ∀ g ∈ segs, ∀ x ∈ Set.Icc 0 |g.l|, ∀ y ∈ Set.Icc 0 |g.l|, ∀ q,
      |zsol s x g.C |g.l| phi g.k q - zsol s y g.C |g.l| phi g.k q| ≤ K * |x - y| := by
    induction segs with
    | nil => exact ⟨0, le_rfl, fun g hg => absurd hg (by simp)⟩
    | cons g gs ih =>
      obtain ⟨K, h0, h⟩ := ih
      obtain ⟨K', h0', h'⟩ := zsol_lipschitz s g.C g.l phi g.k
      refine ⟨K + K', by positivity, fun g' hg x hx y hy q => ?_⟩
      rcases List.mem_cons.1 hg with rfl | hg
      · refine (h' x hx y hy q).trans (mul_le_mul_of_nonneg_right (by linarith) (abs_nonneg _))
      · refine (h g' hg x hx y hy q).trans (mul_le_mul_of_nonneg_right (by linarith) (abs_nonneg _))
  have hmem : ∀ (segs : List Seg) (x0 b : ℝ) (g : Seg), Begins x0 segs b g → g ∈ segs := by
    intro segs
    induction segs with
    | nil => intro x0 b g h; exact h.elim
    | cons h hs ih =>
      intro x0 b g hg
      rcases hg with ⟨-, rfl⟩ | hg
      · simp
      · exact List.mem_cons_of_mem _ (ih _ _ _ hg)
  obtain ⟨K, h0, hK⟩ := hK
  refine ⟨K, h0, fun num pts hn hr b g hg hl x hx0 hxl => ?_⟩
  have hL := beamLength_pos hg hl
  have hlp := abs_pos.2 hl
  set st := stepOf num (beamLength segs) |g.l| with hst
  have s1 : 0 < st := step_pos hn hL hlp
  have s2 : st ≤ beamLength segs / num := step_le hn hL hlp
  have s3 : st * (stepsOf num (beamLength segs) |g.l| : ℝ) = |g.l| := step_mul hn hL hlp
  have s4 : 1 ≤ stepsOf num (beamLength segs) |g.l| := ceil_pos hn hL hlp
  -- the last grid point of the segment at or before `x`
  obtain ⟨j, j1, j2, j3⟩ : ∃ j, j < stepsOf num (beamLength segs) |g.l| ∧ st * (j : ℝ) ≤ x ∧ x ≤ st * (j : ℝ) + st := by
    by_cases hj : ⌊x / st⌋₊ < stepsOf num (beamLength segs) |g.l|
    · refine ⟨⌊x / st⌋₊, hj, ?_, ?_⟩
      · have := Nat.floor_le (show 0 ≤ x / st by positivity)
        rw [le_div_iff₀ s1] at this
        linarith
      · have := (Nat.lt_floor_add_one (x / st)).le
        rw [div_le_iff₀ s1] at this
        linarith
    · refine ⟨stepsOf num (beamLength segs) |g.l| - 1, by omega, ?_, ?_⟩
      · have h1 : (stepsOf num (beamLength segs) |g.l| : ℝ) ≤ x / st := (Nat.le_floor_iff (by positivity)).1 (not_lt.1 hj)
        rw [le_div_iff₀ s1] at h1
        rw [Nat.cast_sub s4, Nat.cast_one, mul_sub]
        linarith
      · rw [Nat.cast_sub s4, Nat.cast_one, mul_sub]
        linarith
  obtain ⟨p, hp, p1, p2, p3⟩ := grid_point s phi segs pts hr b g hg hl j j1
  rw [← hst] at p1 p2
  have hj0 : 0 ≤ st * (j : ℝ) := by positivity
  refine ⟨p, hp, by linarith, by linarith, by linarith, fun hk => by simp [GridPt.xb, p3 hk], fun q => ?_⟩
  rw [p2]
  refine (hK g (hmem _ _ _ _ hg) _ ⟨hj0, by linarith⟩ _ ⟨hx0, hxl⟩ q).trans (mul_le_mul_of_nonneg_left ?_ h0)
  rw [abs_sub_comm, abs_of_nonneg (by linarith)]
  linarith

/-- C74. What holds at all sampled supported points holds on the whole supported
part of the beam up to a multiple of the spacing: bounds of the normal and the
shear stress of the weak layer. -/
theorem C74_extremes (s : Self) (phi : ℝ) (segs : List Seg) :
    ∃ K, 0 ≤ K ∧ ∀ (num : ℕ) (pts : List GridPt), 1 ≤ num → rasterize s phi num segs = .ok pts →
      ∀ b g, Begins 0 segs b g → g.l ≠ 0 → g.k = true → ∀ x, 0 ≤ x → x ≤ |g.l| →
        ∀ f ∈ [fsig s, ftau s], ∀ lo hi, (∀ p ∈ pts, p.xb ≠ none → lo ≤ f p.z ∧ f p.z ≤ hi) →
          lo - K * (beamLength segs / num) ≤ f (zsol s x g.C |g.l| phi g.k) ∧
          f (zsol s x g.C |g.l| phi g.k) ≤ hi + K * (beamLength segs / num) := by
  obtain ⟨K, h0, h⟩ := C74_dense s phi segs
  set c := |s.kn| + |s.kt| * (|s.t| / 2 + 1 + |s.h| / 2) with hcdef
  have hc1 : 0 ≤ |s.kt| * (|s.t| / 2 + 1 + |s.h| / 2) := by positivity
  have hc0 : 0 ≤ c := by positivity
  have hlin : ∀ f ∈ [fsig s, ftau s], ∀ (z z' : Vec6) (e : ℝ), (∀ q, |z q - z' q| ≤ e) → |f z - f z'| ≤ c * e := by
    intro f hf z z' e he
    have he0 : 0 ≤ e := (abs_nonneg _).trans (he 0)
    simp only [List.mem_cons, List.not_mem_nil, or_false] at hf
    rcases hf with rfl | rfl
    · have e1 : fsig s z - fsig s z' = -s.kn * (z 2 - z' 2) := by simp only [fsig, fw]; ring
      rw [e1, abs_mul, abs_neg]
      exact mul_le_mul (by linarith) (he 2) (abs_nonneg _) hc0
    · have e1 : ftau s z - ftau s z' = -s.kt * ((s.t / 2) * (z 3 - z' 3) - (z 0 - z' 0) - (s.h / 2) * (z 4 - z' 4)) := by
        simp only [ftau, fdw, fu, fpsi]; ring
      rw [e1, abs_mul, abs_neg]
      have e2 : |(s.t / 2) * (z 3 - z' 3) - (z 0 - z' 0) - (s.h / 2) * (z 4 - z' 4)| ≤ (|s.t| / 2 + 1 + |s.h| / 2) * e := by
        refine (abs_sub _ _).trans ((add_le_add (abs_sub _ _) le_rfl).trans ?_)
        rw [abs_mul, abs_mul, abs_div, abs_div, abs_two]
        have k1 := mul_le_mul_of_nonneg_left (he 3) (show 0 ≤ |s.t| / 2 by positivity)
        have k2 := mul_le_mul_of_nonneg_left (he 4) (show 0 ≤ |s.h| / 2 by positivity)
        have k3 := he 0
        nlinarith
      calc |s.kt| * _ ≤ |s.kt| * ((|s.t| / 2 + 1 + |s.h| / 2) * e) := mul_le_mul_of_nonneg_left e2 (abs_nonneg _)
        _ = (|s.kt| * (|s.t| / 2 + 1 + |s.h| / 2)) * e := by ring
        _ ≤ c * e := mul_le_mul_of_nonneg_right (by rw [hcdef]; linarith [abs_nonneg s.kn]) he0
  refine ⟨c * K, by positivity, fun num pts hn hr b g hg hl hk x hx0 hxl f hf lo hi hbd => ?_⟩
  obtain ⟨p, hp, -, -, -, p4, p5⟩ := h num pts hn hr b g hg hl x hx0 hxl
  have h1 := abs_le.1 (hlin f hf _ _ _ p5)
  have h2 := hbd p hp (by rw [p4 hk]; simp)
  rw [mul_assoc]
  exact ⟨by linarith, by linarith⟩

/-! ## Curves -/

/-- Entry `q` of the state on the straight line between two sampled points. -/
noncomputable def Spec.lineAt (p p' : GridPt) (q : Fin 6) (x : ℝ) : ℝ :=
  p.z q + (p'.z q - p.z q) * ((x - p.x) / (p'.x - p.x))

theorem next_le {pts : List GridPt} (hp : (pts.map GridPt.x).Pairwise (· < ·)) {k : ℕ} {p p' r : GridPt}
    (h : pts[k]? = some p) (h' : pts[k + 1]? = some p') (hr : r ∈ pts) (hlt : p.x < r.x) : p.x < p'.x ∧ p'.x ≤ r.x := by
  rw [List.pairwise_map, List.pairwise_iff_getElem] at hp
  obtain ⟨hk, rfl⟩ := List.getElem?_eq_some_iff.1 h
  obtain ⟨hk', rfl⟩ := List.getElem?_eq_some_iff.1 h'
  obtain ⟨m, hm, rfl⟩ := List.getElem_of_mem hr
  refine ⟨hp _ _ hk hk' (by omega), ?_⟩
  rcases lt_trichotomy m (k + 1) with hlt' | rfl | hlt'
  · rcases lt_or_eq_of_le (Nat.lt_succ_iff.1 hlt') with h1 | rfl
    · exact absurd (hp _ _ hm hk h1) (not_lt.2 hlt.le)
    · exact absurd hlt (lt_irrefl _)
  · exact le_rfl
  · exact (hp _ _ hk' hm hlt').le

set_option maxHeartbeats 1000000 in
theorem curves_bound (s : Self) (hb : BedOk s) (hc : ShearOk s) (phi kR : ℝ) (a : SegLists) (C : List Vec6) (hS : SegsOk C a)
    (hme : Meets s phi kR a (fun i => C.getD i 0)) :
    ∃ K, 0 ≤ K ∧ ∀ (num : ℕ) (pts : List GridPt), 1 ≤ num → rasterize s phi num (segsOf C a) = .ok pts →
      ∀ k p p', pts[k]? = some p → pts[k + 1]? = some p' → ∀ x, p.x ≤ x → x ≤ p'.x →
        ∀ i < a.li.length, startOf a.li i ≤ x → x ≤ startOf a.li (i + 1) → ∀ q ∈ [(0 : Fin 6), 2, 4],
          |lineAt p p' q x - stateAt s phi a.li a.ki (fun i => C.getD i 0) i (x - startOf a.li i) q|
            ≤ K * (a.li.sum / num) ^ 2 := by
  have hco := hb.stiff.coercive hc
  set st := stateAt s phi a.li a.ki (fun i => C.getD i 0) with hst
  have hch : ∀ (i : ℕ) (q : Fin 6), ∃ K, 0 ≤ K ∧ ∀ u v x, 0 ≤ u → u < v → v ≤ nth a.li i → u ≤ x → x ≤ v →
      |st i u q + (st i v q - st i u q) * ((x - u) / (v - u)) - st i x q| ≤ K * (v - u) ^ 2 := fun i q =>
    chord_bound (f := fun x => st i x q)
      ((contDiff_pi.1 (zsol_smooth s (C.getD i 0) (nth a.li i) phi _)) q) _
  choose κ κ0 κb using hch
  refine ⟨∑ i ∈ Finset.range a.li.length, ∑ q, κ i q, Finset.sum_nonneg fun i _ => Finset.sum_nonneg fun q _ => κ0 i q,
    fun num pts hn hr k p p' hp hp' x hx hx' i hi hxi hxi' q hq => ?_⟩
  obtain ⟨-, ⟨e, he, hex⟩, hpw, hchain, hbeg⟩ := C28_grid s phi num hn _ pts hr
  have hpm : p ∈ pts := List.mem_of_getElem? hp
  have hpm' : p' ∈ pts := List.mem_of_getElem? hp'
  have hem : e ∈ pts := List.mem_of_getLast? he
  rw [hS.beam] at hex hchain
  have hlt : p.x < p'.x := by
    have := hpw
    rw [List.pairwise_map, List.pairwise_iff_getElem] at this
    obtain ⟨hk, rfl⟩ := List.getElem?_eq_some_iff.1 hp
    obtain ⟨hk', rfl⟩ := List.getElem?_eq_some_iff.1 hp'
    exact this _ _ hk hk' (by omega)
  have hstep : p'.x - p.x ≤ a.li.sum / num := by
    rw [List.isChain_iff_getElem] at hchain
    obtain ⟨hk, rfl⟩ := List.getElem?_eq_some_iff.1 hp
    obtain ⟨hk', rfl⟩ := List.getElem?_eq_some_iff.1 hp'
    have h1 := hchain k (by simpa using hk')
    rwa [List.getElem_map, List.getElem_map] at h1
  have hle : p'.x ≤ e.x := by
    have := hpw
    rw [List.pairwise_map, List.pairwise_iff_getElem] at this
    obtain ⟨hk', rfl⟩ := List.getElem?_eq_some_iff.1 hp'
    rw [List.getLast?_eq_getElem?] at he
    obtain ⟨hm, rfl⟩ := List.getElem?_eq_some_iff.1 he
    rcases eq_or_lt_of_le (show k + 1 ≤ pts.length - 1 by omega) with h1 | h1
    · simp [h1]
    · exact (this _ _ hk' hm h1).le
  -- the segment of `p` contains `p'`
  obtain ⟨b, g, k1, k2, k3, k4, k5, k6⟩ := C28_field s phi num hn _ pts hr p hpm
  rw [hS.beam] at k5
  obtain ⟨j, hj, rfl, rfl⟩ := (hS.begins b g).1 k1
  simp only at k2 k4 k5 k6
  rw [abs_of_nonneg (hS.at_nonneg j)] at k4 k5 k6
  have hE := SegsOk.ends (a := a) j hj
  rw [← hE] at k4 k5
  have k5 : p.x < startOf a.li (j + 1) := k5.resolve_right fun h => by linarith
  have hp'j : p'.x ≤ startOf a.li (j + 1) := by
    rcases Nat.lt_or_ge (j + 1) a.li.length with hj1 | hj1
    · obtain ⟨r, hr1, hr2⟩ := List.mem_map.1 (hbeg _ _ ((hS.begins _ _).2 ⟨j + 1, hj1, rfl, rfl⟩))
      rw [← hr2]
      exact (next_le hpw hp hp' hr1 (hr2 ▸ k5)).2
    · have e1 : startOf a.li (j + 1) = a.li.sum := by
        unfold startOf
        rw [List.take_of_length_le hj1]
      rw [e1, ← hex]
      exact hle
  -- the states at `p'` and at `x` are those of this segment
  have hsame : ∀ i < a.li.length, ∀ y, startOf a.li i ≤ y → y ≤ startOf a.li (i + 1) → startOf a.li j ≤ y →
      y ≤ startOf a.li (j + 1) → SamePlace (st i (y - startOf a.li i)) (st j (y - startOf a.li j)) := by
    intro i hi y y1 y2 y3 y4
    rcases le_total i j with h | h
    · exact (state_cont hco hme hS.nonneg i y2 j h hj y3 y4).1
    · obtain ⟨q1, q2, q3⟩ := (state_cont hco hme hS.nonneg j y4 i h hi y1 y2).1
      exact ⟨q1.symm, q2.symm, q3.symm⟩
  have hq' : ∀ {z z' : Vec6}, SamePlace z z' → z q = z' q := by
    rintro z z' ⟨q1, q2, q3⟩
    simp only [List.mem_cons, List.not_mem_nil, or_false] at hq
    rcases hq with rfl | rfl | rfl <;> assumption
  obtain ⟨i', hi', f1, f2, f3⟩ := field_at hS hn hr hpm'
  have z1 : p'.z q = st j (p'.x - startOf a.li j) q := by
    rw [f3]
    exact hq' (hsame i' hi' _ f1 f2 (by linarith) hp'j)
  have z2 : st i (x - startOf a.li i) q = st j (x - startOf a.li j) q :=
    hq' (hsame i hi x hxi hxi' (by linarith) (by linarith))
  have z0 : p.z q = st j (p.x - startOf a.li j) q := by rw [k6]; rfl
  have key := κb j q (p.x - startOf a.li j) (p'.x - startOf a.li j) (x - startOf a.li j) (by linarith) (by linarith)
    (by linarith) (by linarith) (by linarith)
  unfold lineAt
  rw [z0, z1, z2]
  rw [show x - startOf a.li j - (p.x - startOf a.li j) = x - p.x by ring,
    show p'.x - startOf a.li j - (p.x - startOf a.li j) = p'.x - p.x by ring] at key
  refine key.trans ?_
  have hK : κ j q ≤ ∑ i ∈ Finset.range a.li.length, ∑ q, κ i q :=
    (Finset.single_le_sum (f := κ j) (fun q _ => κ0 j q) (Finset.mem_univ q)).trans
      (Finset.single_le_sum (f := fun i => ∑ q, κ i q) (fun i _ => Finset.sum_nonneg fun q _ => κ0 i q) (Finset.mem_range.2 hj))
  have hd : (p'.x - p.x) ^ 2 ≤ (a.li.sum / num) ^ 2 := pow_le_pow_left₀ (by linarith) hstep 2
  exact mul_le_mul hK hd (by positivity) ((κ0 j q).trans hK)

/-- C74. Straight lines drawn between neighbouring sampled points of the
displacements and the rotation deviate from the solution by no more than a constant
times the square of the spacing. -/
theorem C74_curves (num : Numerics) (kind : SeqKind) (phi : ℝ) (a a1 : SegLists) (s s1 : Self) (C : List Vec6)
    (hb : BedOk s) (hc : ShearOk s) (hf : EigFresh num.eig s) (hn : NoFaceTouchdown s) (hl : ∀ l ∈ a.li, 0 ≤ l)
    (h : assembleAndSolve num kind phi a s = (.ok (C, a1), s1)) :
    ∃ K, 0 ≤ K ∧ ∀ (n : ℕ) (pts : List GridPt), 1 ≤ n → rasterize s phi n (segsOf C a) = .ok pts →
      ∀ k p p', pts[k]? = some p → pts[k + 1]? = some p' → ∀ x, p.x ≤ x → x ≤ p'.x →
        ∀ i < a.li.length, startOf a.li i ≤ x → x ≤ startOf a.li (i + 1) → ∀ q ∈ [(0 : Fin 6), 2, 4],
          |lineAt p p' q x - zsol s (x - startOf a.li i) (C.getD i 0) (nth a.li i) phi (a.ki.getD i false) q|
            ≤ K * (a.li.sum / n) ^ 2 := by
  obtain ⟨hv, hme⟩ := solved_meets hf hn h
  obtain ⟨-, rfl, n1, -⟩ := C16_solution_meets_all_conditions num kind phi a a1 s s1 C hf hn h
  have g1 : a.li.length ≤ (full a).li.length := by unfold full; split_ifs <;> simp
  exact curves_bound s hb hc phi _ a C ⟨hv.ki, by rw [n1]; exact g1, hl⟩ hme

/-! ## A concrete case -/

/-- A skier of 80 kg over a collapsed zone of 30 cm in a beam of 4.3 m. With `n`
samples every position of the beam has a sampled neighbour of nearly the same
state, and the drawn deflection misses the solution by a multiple of 1/n². -/
example : ∃ C K, assembleAndSolve stdNum .list 38 skierLists skierDemo = (.ok (C, skierLists), skierDemo) ∧
    ∀ n, 1 ≤ n → ∃ pts, rasterize skierDemo 38 n (segsOf C skierLists) = .ok pts ∧
      (∀ x, 0 ≤ x → x ≤ 2000 → ∃ p ∈ pts, p.xb = some p.x ∧ x - p.x ≤ 4300 / n ∧
        ∀ q, |p.z q - zsol skierDemo x (C.getD 0 0) 2000 38 true q| ≤ K * (4300 / n)) ∧
      ∀ k p p', pts[k]? = some p → pts[k + 1]? = some p' → ∀ x, p.x ≤ x → x ≤ p'.x → x ≤ 2000 → 0 ≤ x →
        |lineAt p p' 2 x - fw (zsol skierDemo x (C.getD 0 0) 2000 38 true)| ≤ K * (4300 / n) ^ 2 := by
  obtain ⟨C, h, -⟩ := skierDemo_solved 38
  obtain ⟨K1, k1, h1⟩ := C74_dense skierDemo 38 (segsOf C skierLists)
  obtain ⟨K2, k2, h2⟩ := C74_curves stdNum .list 38 skierLists _ skierDemo _ C (demo_bedOk _ _) (demo_shear _ _ _)
    skierDemo_sound.fresh skierDemo_noFace (by simp [skierLists]) h
  obtain ⟨hv, -⟩ := solved_meets skierDemo_sound.fresh skierDemo_noFace h
  obtain ⟨-, -, n1, -⟩ := C16_solution_meets_all_conditions stdNum .list 38 _ _ _ _ C skierDemo_sound.fresh skierDemo_noFace h
  have hS : SegsOk C skierLists := ⟨hv.ki, by rw [n1], by simp [skierLists]⟩
  have hL : beamLength (segsOf C skierLists) = 4300 := by rw [hS.beam]; norm_num [skierLists]
  have hB : Begins 0 (segsOf C skierLists) 0 ⟨C.getD 0 0, true, 2000⟩ :=
    (hS.begins _ _).2 ⟨0, by simp [skierLists], rfl, rfl⟩
  refine ⟨C, K1 + K2, h, fun n hn => ?_⟩
  obtain ⟨pts, hp⟩ := (C28_runs skierDemo 38 n hn (segsOf C skierLists)).2 (by
    by_contra hc
    push Not at hc
    have : beamLength (segsOf C skierLists) = 0 := by
      unfold beamLength
      exact List.sum_eq_zero (by
        intro x hx
        obtain ⟨g, hg, rfl⟩ := List.mem_map.1 hx
        rw [hc g hg, abs_zero])
    rw [hL] at this
    norm_num at this)
  refine ⟨pts, hp, fun x hx0 hx => ?_, fun k p p' hk hk' x hx hx' hx2 hx0 => ?_⟩
  · obtain ⟨p, hpm, -, -, p3, p4, p5⟩ := h1 n pts hn hp 0 _ hB (by norm_num) x hx0 (by norm_num; exact hx)
    rw [hL] at p3
    refine ⟨p, hpm, p4 rfl, by linarith, fun q => ?_⟩
    have := p5 q
    rw [hL, show |(2000 : ℝ)| = 2000 by norm_num] at this
    refine this.trans (mul_le_mul_of_nonneg_right (by linarith) (by positivity))
  · have := h2 n pts hn hp k p p' hk hk' x hx hx' 0 (by simp [skierLists]) (by simpa [startOf] using hx0)
      (by simpa [startOf, skierLists] using hx2) 2 (by simp)
    have e : skierLists.li.sum = 4300 := by norm_num [skierLists]
    rw [e, show startOf skierLists.li 0 = 0 by simp [startOf], sub_zero] at this
    exact this.trans (mul_le_mul_of_nonneg_right (by linarith) (by positivity))

end Weac
