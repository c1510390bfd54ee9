import Verif.Props.Superposition
import Verif.Props.Envelope
import Mathlib.Topology.Order.Lattice
import Mathlib.Topology.Order.IntermediateValue

/-!
# C52: least weight that reaches the stress envelope
-/

namespace Weac

open Spec

/-! ## Stresses of the uncracked weak layer -/

theorem support_full {n : ℕ} {li : List ℝ} {x : ℝ} (h : n = li.length) (j : ℕ) (hj : j < li.length)
    (h1 : startOf li j < startOf li (j + 1)) (h2 : startOf li j ≤ x) (h3 : x ≤ startOf li (j + 1)) :
    OnSupport li (List.replicate n true) x :=
  ⟨j, hj, by rw [List.getD_eq_getElem?_getD, List.getElem?_replicate, if_pos (by omega)]; rfl, h1, h2, h3⟩

/-- Arrays without NaN. -/
theorem reals_some (v : List ℝ) : reals (v.map some) = v := by
  unfold reals
  rw [List.filterMap_map]
  simp

theorem all_some {v : List (Option ℝ)} (h : ∀ n < v.length, ∃ a, v[n]? = some (some a)) : ∃ u : List ℝ, v = u.map some := by
  refine ⟨reals v, ?_⟩
  unfold reals
  induction v with
  | nil => rfl
  | cons a v ih =>
    obtain ⟨b, hb⟩ := h 0 (by simp)
    simp only [List.getElem?_cons_zero, Option.some.injEq] at hb
    subst hb
    exact congrArg (some b :: ·) (ih fun n hn => by simpa using h (n + 1) (by simpa using hn))

/-- With full support no entry is NaN. -/
theorem Spec.Sampled.reals {n : ℕ} {li : List ℝ} {Z : ℕ → ℝ → Vec6} {sig tau : Vec6 → ℝ} {X S T : List (Option ℝ)}
    (h : Sampled li (List.replicate n true) Z sig tau X S T) (hn : n = li.length) :
    ∃ x s t : List ℝ, X = x.map some ∧ S = s.map some ∧ T = t.map some ∧ X ≠ [] := by
  obtain ⟨xs, h1, -, -, -, -, h2, h3, h4, h5⟩ := h
  have key : ∀ n < xs.length, (∃ a, X[n]? = some (some a)) ∧ (∃ a, S[n]? = some (some a)) ∧ ∃ a, T[n]? = some (some a) := by
    intro m hm
    obtain ⟨j, a1, a2, a3, a4, -, a5⟩ := h5 m xs[m] (List.getElem?_eq_getElem hm)
    rcases a5 with ⟨-, b1, b2, b3⟩ | ⟨b, -⟩
    · exact ⟨⟨_, b1⟩, ⟨_, b2⟩, ⟨_, b3⟩⟩
    · exact absurd (support_full hn j a1 a2 a3 a4) b
  obtain ⟨x, hx⟩ := all_some (v := X) fun n hn => (key n (by omega)).1
  obtain ⟨s, hs⟩ := all_some (v := S) fun n hn => (key n (by omega)).2.1
  obtain ⟨t, ht⟩ := all_some (v := T) fun n hn => (key n (by omega)).2.2
  refine ⟨x, s, t, hx, hs, ht, ?_⟩
  rintro rfl
  cases xs with
  | nil => simp at h1
  | cons => simp at h2

theorem mixList_some (c : ℝ) (a b : List ℝ) : mixList c (a.map some) (b.map some) = (List.zipWith (mix c) a b).map some := by
  unfold mixList
  rw [List.zipWith_map, List.map_zipWith]
  rfl

/-- Stress at the left end, far away from the skier. -/
theorem Spec.Sampled.left {li : List ℝ} {ki : List Bool} {Z : ℕ → ℝ → Vec6} {sig tau : Vec6 → ℝ} {X S T : List (Option ℝ)}
    (h : Sampled li ki Z sig tau X S T) (hk : ki.head? = some true) (h0 : ∀ l ∈ li, 0 ≤ l) (hl : 0 < nth li 0) :
    S[0]? = some (some (sig (Z 0 0))) := by
  obtain ⟨xs, h1, -, -, -, -, h2, h3, h4, h5⟩ := h
  rw [List.head?_eq_getElem?] at h1
  have hne : 0 < li.length := by
    by_contra hc
    have : li = [] := List.eq_nil_of_length_eq_zero (by omega)
    subst this
    simp [nth] at hl
  have e0 : startOf li 0 = 0 := by simp [startOf]
  have e1 : startOf li 1 = nth li 0 := by
    rw [startOf_succ li hne, e0, nth_eq hne, zero_add]
  obtain ⟨j, a1, a2, a3, a4, -, a5⟩ := h5 0 0 h1
  have hj : j = 0 := by
    by_contra hc
    have := startOf_mono h0 (show 1 ≤ j by omega)
    linarith
  subst hj
  rw [e0, sub_zero] at a5
  rcases a5 with ⟨-, -, b, -⟩ | ⟨b, -⟩
  · exact b
  · refine absurd ⟨0, hne, ?_, a2, a3, a4⟩ b
    rw [List.getD_eq_getElem?_getD, ← List.head?_eq_getElem?, hk]
    rfl

/-- Stresses at the grid points as functions of the weight. -/
theorem uncracked_family (num : Numerics) (site : Site) (hs : SiteOk num site) (li : List ℝ) (ki : List Bool)
    (h : BeamOk li ki) :
    ∃ n : ℕ, 0 < n ∧ ∃ a b c d : ℕ → ℝ, (∀ w, ∃ r, createSkierObject num site w li ki .nocrack = .ok r ∧
      reals r.sigma = (List.range n).map (fun i => a i + w * b i) ∧
      reals r.tau = (List.range n).map (fun i => c i + w * d i)) ∧
      (0 < nth li 0 → b 0 = 0 ∧ (0 < Real.cos (deg2rad site.phi) → a 0 < 0)) := by
  obtain ⟨p, p1, p2⟩ := C50_solution_partial num site hs 0 li ki h .nocrack
  obtain ⟨q, q1, q2⟩ := C50_solution_partial num site hs 1 li ki h .nocrack
  have hkl : ki.length = li.length := h.len
  obtain ⟨xp, sp, tp, e1, e2, e3, e4⟩ := p2.samples.reals hkl
  obtain ⟨xq, sq, tq, f1, f2, f3, f4⟩ := q2.samples.reals hkl
  have hl : sp.length = xp.length ∧ tp.length = xp.length ∧ sq.length = xp.length ∧ tq.length = xp.length := by
    obtain ⟨p', q', r, k1, k2, -, -, -, k3, k4, k5, k6, k7, k8, -⟩ := C51_superposition num site hs li ki h .nocrack 0 1 0
    rw [p1] at k1; rw [q1] at k2
    injection k1 with k1; injection k2 with k2
    subst k1 k2
    rw [← k3, e1] at k5 k6 k7 k8
    rw [e2] at k5; rw [f2] at k6; rw [e3] at k7; rw [f3] at k8
    simp only [List.length_map] at k5 k6 k7 k8
    exact ⟨k5, k7, k6, k8⟩
  refine ⟨xp.length, ?_, fun i => nth sp i, fun i => nth sq i - nth sp i, fun i => nth tp i,
    fun i => nth tq i - nth tp i, fun w => ?_, fun hl0 => ?_⟩
  · rcases xp with _ | ⟨x, xs⟩
    · simp [e1] at e4
    · simp
  · obtain ⟨p', q', r, k1, k2, k3, -, -, -, -, -, -, -, -, -, k4, k5⟩ := C51_superposition num site hs li ki h .nocrack 0 1 w
    rw [p1] at k1; rw [q1] at k2
    injection k1 with k1; injection k2 with k2
    subst k1 k2
    have hw : mix w 0 1 = w := by simp [mix]
    rw [hw] at k3
    refine ⟨r, k3, ?_, ?_⟩
    · rw [k4, e2, f2, mixList_some, reals_some]
      apply List.ext_getElem
      · simp; omega
      · intro i h1 h2
        simp only [List.length_map, List.length_range] at h2
        rw [List.getElem_zipWith, List.getElem_map, List.getElem_range]
        beta_reduce
        rw [nth_eq (by omega), nth_eq (by omega), mix]
        ring
    · rw [k5, e3, f3, mixList_some, reals_some]
      apply List.ext_getElem
      · simp; omega
      · intro i h1 h2
        simp only [List.length_map, List.length_range] at h2
        rw [List.getElem_zipWith, List.getElem_map, List.getElem_range]
        beta_reduce
        rw [nth_eq (by omega), nth_eq (by omega), mix]
        ring
  · have hb := CrackCase.support_ok .nocrack h
    have key : ∀ (w : ℝ) (r : Skier), SkierSolution site w li (CrackCase.nocrack.support ki) r →
        r.sigma[0]? = some (some (1000 * -((r.skier.loads site.phi).qn + (r.skier.loads site.phi).pn))) := by
      intro w r hr
      rw [hr.samples.left hb.left h.nonneg hl0]
      have hm := (hr.meets 0).left
      have he : endCond r.skier site.phi 0 .left (r.segments.ki.getD 0 false)
          = .state (zp r.skier 0 site.phi true 0) (zp r.skier 0 site.phi true 2) (zp r.skier 0 site.phi true 4) := by
        unfold endCond IsPst IsVpst IsSkier
        simp [hr.infinite]
      rw [he] at hm
      have hz := hm.2.1
      rw [hr.lengths, hr.support] at hz
      rw [hz]
      have hk := hr.stiff.kn.ne'
      simp only [zp, Self.loads, if_true, Matrix.cons_val]
      congr 2
      field_simp
    have k1 := key 0 p p2
    have k2 := key 1 q q2
    obtain ⟨p', q', r, m1, m2, -, m3, m4, -⟩ := C51_superposition num site hs li ki h .nocrack 0 1 0
    rw [p1] at m1; rw [q1] at m2
    injection m1 with m1; injection m2 with m2
    subst m1 m2
    rw [m4, ← m3] at k2
    have g1 : nth sp 0 = 1000 * -((p.skier.loads site.phi).qn + (p.skier.loads site.phi).pn) := by
      rw [e2, List.getElem?_map] at k1
      obtain ⟨y, y1, y2⟩ := Option.map_eq_some_iff.1 k1
      unfold nth
      rw [List.getD_eq_getElem?_getD, y1]
      exact Option.some.inj y2
    have g2 : nth sq 0 = 1000 * -((p.skier.loads site.phi).qn + (p.skier.loads site.phi).pn) := by
      rw [f2, List.getElem?_map] at k2
      obtain ⟨y, y1, y2⟩ := Option.map_eq_some_iff.1 k2
      unfold nth
      rw [List.getD_eq_getElem?_getD, y1]
      exact Option.some.inj y2
    refine ⟨by beta_reduce; rw [g1, g2]; ring, fun hc => ?_⟩
    beta_reduce
    rw [g1]
    have hq : 0 < (p.skier.slab.map fun l => l.rho * 1e-12 * p.skier.g * l.h).sum := by
      have : (p.skier.slab.map fun l => l.rho * 1e-12 * p.skier.g * l.h)
          = (site.profile.map fun l => l.rho * 1e-12 * p.skier.g * l.h) := by
        rw [← p2.profile, List.map_map]; rfl
      rw [this]
      apply List.sum_pos
      · intro x hx
        obtain ⟨y, hy, rfl⟩ := List.mem_map.1 hx
        obtain ⟨y1, y2⟩ := hs.plies.2 y hy
        have : p.skier.g = 9810 := p2.load.2.1
        rw [this]
        positivity
      · simpa using hs.plies.1
    have hp : p.skier.p = 0 := p2.load.1
    simp only [Self.loads, getWeightLoad, getSurfaceLoad, hp]
    have := mul_pos hq hc
    linarith

/-! ## Trials -/

theorem foldl_max_spec (vs : List ℝ) (v : ℝ) :
    vs.foldl max v ∈ v :: vs ∧ ∀ x ∈ v :: vs, x ≤ vs.foldl max v := by
  induction vs generalizing v with
  | nil => simp
  | cons a vs ih =>
    obtain ⟨h1, h2⟩ := ih (max v a)
    simp only [List.foldl_cons]
    constructor
    · rcases List.mem_cons.1 h1 with h | h
      · rw [h]
        rcases max_choice v a with e | e <;> rw [e] <;> simp
      · simp [h]
    · intro x hx
      have h3 := h2 (max v a) (by simp)
      rcases List.mem_cons.1 hx with rfl | hx
      · exact (le_max_left _ _).trans h3
      · rcases List.mem_cons.1 hx with rfl | hx
        · exact (le_max_right _ _).trans h3
        · exact h2 x (by simp [hx])

theorem foldl_min_spec (vs : List ℝ) (v : ℝ) :
    vs.foldl min v ∈ v :: vs ∧ ∀ x ∈ v :: vs, vs.foldl min v ≤ x := by
  induction vs generalizing v with
  | nil => simp
  | cons a vs ih =>
    obtain ⟨h1, h2⟩ := ih (min v a)
    simp only [List.foldl_cons]
    constructor
    · rcases List.mem_cons.1 h1 with h | h
      · rw [h]
        rcases min_choice v a with e | e <;> rw [e] <;> simp
      · simp [h]
    · intro x hx
      have h3 := h2 (min v a) (by simp)
      rcases List.mem_cons.1 hx with rfl | hx
      · exact h3.trans (min_le_left _ _)
      · rcases List.mem_cons.1 hx with rfl | hx
        · exact h3.trans (min_le_right _ _)
        · exact h2 x (by simp [hx])

theorem npMax_ok {l : List ℝ} (h : l ≠ []) : ∃ m, npMax l = .ok m ∧ m ∈ l ∧ ∀ x ∈ l, x ≤ m := by
  cases l with
  | nil => exact absurd rfl h
  | cons v vs => exact ⟨_, rfl, foldl_max_spec vs v⟩

theorem npMin_ok {l : List ℝ} (h : l ≠ []) : ∃ m, npMin l = .ok m ∧ m ∈ l ∧ ∀ x ∈ l, m ≤ x := by
  cases l with
  | nil => exact absurd rfl h
  | cons v vs => exact ⟨_, rfl, foldl_min_spec vs v⟩

/-- Distance to an ellipse at a grid point. -/
noncomputable def gridDist (a b c d : ℕ → ℝ) (sc tc w : ℝ) (i : ℕ) : ℝ :=
  ((a i + w * b i) / sc) ^ 2 + ((c i + w * d i) / tc) ^ 2

/-- Envelopes in the form of an ellipse. -/
def Spec.EllipticEnv (env : Env) : Prop :=
  ∃ sc tc, 0 < sc ∧ 0 < tc ∧ Elliptic (fun sigma tau => stressEnvelope env sigma tau) sc tc

theorem EllipticEnv.adam (s o d : ℝ) : EllipticEnv ⟨"adam_unpublished", s, o, d⟩ :=
  ⟨_, _, mul_pos (by norm_num) (strengthFactor_pos s o), mul_pos (by norm_num) (strengthFactor_pos s o), C46_adam s o d false⟩

theorem EllipticEnv.schottner (s o d : ℝ) (hd : 0 < d) : EllipticEnv ⟨"schottner", s, o, d⟩ :=
  ⟨_, _, by positivity, by positivity, C46_schottner s o d false⟩

theorem trial_family (num : Numerics) (site : Site) (hs : SiteOk num site) (he : EllipticEnv site.env) (li : List ℝ)
    (ki : List Bool) (h : BeamOk li ki) :
    ∃ n : ℕ, 0 < n ∧ ∃ a b c d : ℕ → ℝ, ∃ sc tc, 0 < sc ∧ 0 < tc ∧
      (∀ w, ∃ p, trial num site li ki w = .ok p ∧ p.weight = w ∧
        createSkierObject num site w li ki .nocrack = .ok p.run ∧
        (∃ i < n, p.distMax = gridDist a b c d sc tc w i) ∧ (∀ i < n, gridDist a b c d sc tc w i ≤ p.distMax) ∧
        (∃ i < n, p.distMin = gridDist a b c d sc tc w i) ∧ (∀ i < n, p.distMin ≤ gridDist a b c d sc tc w i)) ∧
      (0 < nth li 0 → b 0 = 0 ∧ (0 < Real.cos (deg2rad site.phi) → a 0 < 0)) ∧
      ∀ w r, createSkierObject num site w li ki .nocrack = .ok r → reals r.sigma = (List.range n).map (fun i => a i + w * b i) := by
  obtain ⟨n, hn, a, b, c, d, H, H'⟩ := uncracked_family num site hs li ki h
  obtain ⟨sc, tc, s1, s2, s3⟩ := he
  refine ⟨n, hn, a, b, c, d, sc, tc, s1, s2, fun w => ?_, H', fun w r hr => ?_⟩
  swap
  · obtain ⟨r', r1, r2, -⟩ := H w
    rw [hr] at r1
    injection r1 with r1
    rw [r1]
    exact r2
  obtain ⟨r, r1, r2, r3⟩ := H w
  have hd : distances site.env r = .ok ((List.range n).map (gridDist a b c d sc tc w)) := by
    unfold distances
    rw [r2, r3, List.zip_map', mapM_ok (g := fun p : ℝ × ℝ => (p.1 / sc) ^ 2 + (p.2 / tc) ^ 2) _ (fun p _ => s3 p.1 p.2),
      List.map_map]
    rfl
  have hne : (List.range n).map (gridDist a b c d sc tc w) ≠ [] := by
    simp; omega
  obtain ⟨hi, h1, h2, h3⟩ := npMax_ok hne
  obtain ⟨lo, l1, l2, l3⟩ := npMin_ok hne
  refine ⟨⟨w, r, hi, lo⟩, ?_, rfl, r1, ?_, ?_, ?_, ?_⟩
  · unfold trial
    rw [r1]
    simp only [bind, Except.bind, hd, h1, l1]
    rfl
  · obtain ⟨i, i1, i2⟩ := List.mem_map.1 h2
    exact ⟨i, by simpa using i1, i2.symm⟩
  · intro i hi'
    exact h3 _ (List.mem_map_of_mem (by simpa using hi'))
  · obtain ⟨i, i1, i2⟩ := List.mem_map.1 l2
    exact ⟨i, by simpa using i1, i2.symm⟩
  · intro i hi'
    exact l3 _ (List.mem_map_of_mem (by simpa using hi'))

theorem gridDist_convex (a b c d : ℕ → ℝ) (sc tc u v k : ℝ) (i : ℕ) (h0 : 0 ≤ k) (h1 : k ≤ 1) :
    gridDist a b c d sc tc (mix k u v) i ≤ mix k (gridDist a b c d sc tc u i) (gridDist a b c d sc tc v i) := by
  have e : mix k (gridDist a b c d sc tc u i) (gridDist a b c d sc tc v i) - gridDist a b c d sc tc (mix k u v) i
      = k * (1 - k) * (((u - v) * b i / sc) ^ 2 + ((u - v) * d i / tc) ^ 2) := by
    unfold gridDist mix; ring
  have : 0 ≤ k * (1 - k) * (((u - v) * b i / sc) ^ 2 + ((u - v) * d i / tc) ^ 2) :=
    mul_nonneg (mul_nonneg h0 (by linarith)) (by positivity)
  linarith

/-- C52: the greatest distance to an elliptic envelope is a convex function of
the weight of the skier. -/
theorem C52_convex (num : Numerics) (site : Site) (hs : SiteOk num site) (he : EllipticEnv site.env) (li : List ℝ)
    (ki : List Bool) (h : BeamOk li ki) (u v k : ℝ) (h0 : 0 ≤ k) (h1 : k ≤ 1) :
    ∃ p q r, trial num site li ki u = .ok p ∧ trial num site li ki v = .ok q ∧ trial num site li ki (mix k u v) = .ok r ∧
      r.distMax ≤ mix k p.distMax q.distMax := by
  obtain ⟨n, hn, a, b, c, d, sc, tc, s1, s2, H, -⟩ := trial_family num site hs he li ki h
  obtain ⟨p, p1, -, -, -, p2, -⟩ := H u
  obtain ⟨q, q1, -, -, -, q2, -⟩ := H v
  obtain ⟨r, r1, -, -, ⟨i, hi, r2⟩, -⟩ := H (mix k u v)
  refine ⟨p, q, r, p1, q1, r1, ?_⟩
  rw [r2]
  refine (gridDist_convex a b c d sc tc u v k i h0 h1).trans ?_
  have := mul_le_mul_of_nonneg_left (p2 i hi) (show 0 ≤ 1 - k by linarith)
  have := mul_le_mul_of_nonneg_left (q2 i hi) h0
  unfold mix
  linarith

example : EllipticEnv demoSite.env := EllipticEnv.adam 1 1 250

/-- Beam of `find_minimum_force`: two halves with two empty segments between
them. -/
theorem halves_ok (l : ℝ) (hl : 0 < l) : BeamOk [l / 2, 0, 0, l / 2] [true, true, true, true] := by
  refine ⟨rfl, ?_, ?_, ?_, rfl, rfl⟩
  · intro x hx
    simp only [List.mem_cons, List.not_mem_nil, or_false] at hx
    rcases hx with rfl | rfl | rfl | rfl <;> positivity
  · simp [startOf]
  · simp [nth]; positivity

example : ∃ p q r, trial midNum demoSite [100000, 0, 0, 100000] [true, true, true, true] 0 = .ok p ∧
    trial midNum demoSite [100000, 0, 0, 100000] [true, true, true, true] 100 = .ok q ∧
    trial midNum demoSite [100000, 0, 0, 100000] [true, true, true, true] (mix (1 / 4) 0 100) = .ok r ∧
    r.distMax ≤ mix (1 / 4) p.distMax q.distMax := by
  have := halves_ok 200000 (by norm_num)
  norm_num at this
  exact C52_convex midNum demoSite demoSite_ok (EllipticEnv.adam 1 1 250) _ _ this 0 100 (1 / 4) (by norm_num) (by norm_num)

/-! ## The slab alone -/

theorem zp_tau (s : Self) (h1 : s.kt ≠ 0) (h2 : s.kA55 ≠ 0) (phi : ℝ) :
    s.beam.tau (zp s 0 phi true) = (s.loads phi).qt + (s.loads phi).pt := by
  simp only [Beam.tau, Self.beam, zp, Self.loads, if_true, Matrix.cons_val]
  field_simp
  ring

theorem Spec.Sampled.const {n : ℕ} {li : List ℝ} {Z : ℕ → ℝ → Vec6} {sig tau : Vec6 → ℝ} {X S T : List (Option ℝ)}
    (h : Sampled li (List.replicate n true) Z sig tau X S T) (hn : n = li.length) (z : Vec6)
    (hz : ∀ j < li.length, ∀ x, Z j x = z) :
    (∀ v ∈ Weac.reals S, v = sig z) ∧ (∀ v ∈ Weac.reals T, v = tau z) := by
  obtain ⟨xs, -, -, -, -, -, -, h3, h4, h5⟩ := h
  have key : ∀ n < xs.length, S[n]? = some (some (sig z)) ∧ T[n]? = some (some (tau z)) := by
    intro m hm
    obtain ⟨j, a1, a2, a3, a4, -, a5⟩ := h5 m xs[m] (List.getElem?_eq_getElem hm)
    rcases a5 with ⟨-, -, b2, b3⟩ | ⟨b, -⟩
    · rw [hz j a1] at b2 b3
      exact ⟨b2, b3⟩
    · exact absurd (support_full hn j a1 a2 a3 a4) b
  constructor
  · intro v hv
    obtain ⟨a, ha, rfl⟩ := List.mem_filterMap.1 hv
    obtain ⟨m, hm, e⟩ := List.mem_iff_getElem.1 ha
    have := (key m (by omega)).1
    rw [List.getElem?_eq_getElem hm, e] at this
    simpa using this
  · intro v hv
    obtain ⟨a, ha, rfl⟩ := List.mem_filterMap.1 hv
    obtain ⟨m, hm, e⟩ := List.mem_iff_getElem.1 ha
    have := (key m (by omega)).2
    rw [List.getElem?_eq_getElem hm, e] at this
    simpa using this

/-- Weight of the snow cover per area, in kPa. -/
noncomputable def Spec.cover (profile : List Ply) : ℝ := 1000 * (profile.map fun p => p.rho * 1e-12 * 9810 * p.h).sum

/-- Without a skier the state is the same everywhere. -/
theorem slab_alone_state (site : Site) (li : List ℝ) (ki : List Bool)
    (h : BeamOk li ki) {r : Skier} (r2 : SkierSolution site 0 li (CrackCase.nocrack.support ki) r) :
    ∀ j < li.length, ∀ x, stateAt r.skier site.phi li (CrackCase.nocrack.support ki) (fun i => r.C.getD i 0) j x
      = zp r.skier 0 site.phi true := by
  have hkl : ki.length = li.length := h.len
  have hki : ∀ i < li.length, (CrackCase.nocrack.support ki).getD i false = true := by
    intro i hi
    simp only [CrackCase.support, List.getD_eq_getElem?_getD, List.getElem?_replicate, hkl, if_pos hi, Option.getD_some]
  have hst : ∀ i < li.length, ∀ x, stateAt r.skier site.phi li (CrackCase.nocrack.support ki) (fun _ => 0) i x
      = zp r.skier 0 site.phi true := by
    intro i hi x
    unfold stateAt zsol
    rw [hki i hi, Matrix.mulVec_zero, zero_add]
    rfl
  have h2 := h.two
  have hmeet : Meets r.skier site.phi 0 r.segments (fun _ => 0) := by
    have he : ∀ e b, endCond r.skier site.phi 0 e b = .state (zp r.skier 0 site.phi true 0) (zp r.skier 0 site.phi true 2)
        (zp r.skier 0 site.phi true 4) := by
      intro e b
      unfold endCond IsPst IsVpst IsSkier
      simp [r2.infinite]
    obtain ⟨x, ⟨m1, j, hj, m2, -, m3⟩, -⟩ := r2.weight
    have hm : ∀ i, nth r.segments.mi i = 0 := by
      intro i
      by_cases hi : i < r.segments.mi.length
      · rw [nth_eq hi]
        by_cases hij : i = j
        · subst hij; exact m2
        · exact m3 i hi hij
      · unfold nth
        rw [List.getD_eq_getElem?_getD, List.getElem?_eq_none (by omega)]
        rfl
    have hj0 : ∀ i, jump r.skier site.phi r.segments.mi i = (0, 0, 0) := by
      intro i
      unfold jump
      rw [hm i]
      simp [getSkierLoad]
    unfold Meets
    rw [he, he, r2.lengths, r2.support]
    constructor
    · rw [hst 0 (by omega)]; exact ⟨rfl, rfl, rfl⟩
    · rw [hst _ (by omega)]; exact ⟨rfl, rfl, rfl⟩
    · intro i hi
      rw [hj0]
      rw [hst i (by omega), hst (i + 1) hi]
      exact ⟨rfl, rfl, rfl, sub_self _, sub_self _, sub_self _⟩
  have hC := r2.unique 0 _ hmeet
  intro j hj x
  rw [← hst j hj x]
  unfold stateAt
  beta_reduce
  rw [← hC j hj]

/-- Without a skier the stresses are the same everywhere. -/
theorem slab_alone_samples (site : Site) (li : List ℝ) (ki : List Bool)
    (h : BeamOk li ki) {r : Skier} (r2 : SkierSolution site 0 li (CrackCase.nocrack.support ki) r) :
    (∀ v ∈ Weac.reals r.sigma, v = 1000 * -(r.skier.kn * zp r.skier 0 site.phi true 2)) ∧
      ∀ v ∈ Weac.reals r.tau, v = 1000 * r.skier.beam.tau (zp r.skier 0 site.phi true) :=
  r2.samples.const h.len (zp r.skier 0 site.phi true) (slab_alone_state site li ki h r2)

/-- C52: without a skier the weak layer carries the weight of the snow cover,
the same everywhere: the distance to the envelope is that of its normal and
tangential component. -/
theorem C52_slab_alone (num : Numerics) (site : Site) (hs : SiteOk num site) (li : List ℝ) (ki : List Bool) (h : BeamOk li ki)
    {sc tc : ℝ} (he : Elliptic (fun sigma tau => stressEnvelope site.env sigma tau) sc tc) :
    ∃ p, trial num site li ki 0 = .ok p ∧ p.distMax = p.distMin ∧
      p.distMax = (cover site.profile * Real.cos (deg2rad site.phi) / sc) ^ 2
        + (cover site.profile * Real.sin (deg2rad site.phi) / tc) ^ 2 := by
  obtain ⟨r, r1, r2⟩ := C50_solution_partial num site hs 0 li ki h .nocrack
  have hkl : ki.length = li.length := h.len
  obtain ⟨xs, sg, ta, e1, e2, e3, e4⟩ := r2.samples.reals hkl
  have hsamp := slab_alone_samples site li ki h r2
  have hq : (r.skier.slab.map fun l => l.rho * 1e-12 * r.skier.g * l.h).sum
      = (site.profile.map fun p => p.rho * 1e-12 * 9810 * p.h).sum := by
    rw [← r2.profile, List.map_map, r2.load.2.1]
    rfl
  have hsg : 1000 * -(r.skier.kn * zp r.skier 0 site.phi true 2) = -(cover site.profile * Real.cos (deg2rad site.phi)) := by
    have hk := r2.stiff.kn.ne'
    simp only [zp, if_true, Matrix.cons_val, getWeightLoad, getSurfaceLoad, hq, r2.load.1, cover]
    field_simp
    ring_nf
  have hta : 1000 * r.skier.beam.tau (zp r.skier 0 site.phi true) = -(cover site.profile * Real.sin (deg2rad site.phi)) := by
    rw [zp_tau _ r2.stiff.kt.ne' r2.stiff.kA55.ne']
    simp only [Self.loads, getWeightLoad, getSurfaceLoad, hq, r2.load.1, cover]
    ring
  rw [hsg, hta, e2, e3, reals_some, reals_some] at hsamp
  set D := (cover site.profile * Real.cos (deg2rad site.phi) / sc) ^ 2
        + (cover site.profile * Real.sin (deg2rad site.phi) / tc) ^ 2 with hD
  have hd : distances site.env r = .ok ((sg.zip ta).map fun p => (p.1 / sc) ^ 2 + (p.2 / tc) ^ 2) := by
    unfold distances
    rw [e2, e3, reals_some, reals_some, mapM_ok (g := fun p : ℝ × ℝ => (p.1 / sc) ^ 2 + (p.2 / tc) ^ 2) _
      (fun p _ => he p.1 p.2)]
  have hall : ∀ v ∈ (sg.zip ta).map (fun p => (p.1 / sc) ^ 2 + (p.2 / tc) ^ 2), v = D := by
    intro v hv
    obtain ⟨⟨a, b⟩, hp, rfl⟩ := List.mem_map.1 hv
    obtain ⟨ha, hb⟩ := List.of_mem_zip hp
    rw [hsamp.1 a ha, hsamp.2 b hb, hD]
    ring
  have hne : (sg.zip ta).map (fun p => (p.1 / sc) ^ 2 + (p.2 / tc) ^ 2) ≠ [] := by
    obtain ⟨ys, -, -, -, -, -, l1, l2, l3, -⟩ := r2.samples
    rw [e2, List.length_map] at l2
    rw [e3, List.length_map] at l3
    have : 0 < r.x.length := List.length_pos_iff.2 e4
    intro hc
    have := congrArg List.length hc
    simp at this
    rcases this with rfl | rfl
    · simp at l2; omega
    · simp at l3; omega
  obtain ⟨hi, h1, h3, -⟩ := npMax_ok hne
  obtain ⟨lo, l1, l3, -⟩ := npMin_ok hne
  refine ⟨⟨0, r, hi, lo⟩, ?_, ?_, hall _ h3⟩
  · unfold trial
    rw [r1]
    simp only [bind, Except.bind, hd, h1, l1]
    rfl
  · show hi = lo
    rw [hall _ h3, hall _ l3]

/-! ## The threshold -/

/-- C52: if the slab alone stays inside the envelope and a weight `c` just
reaches it, then every lighter skier stays inside and every heavier one
exceeds it. -/
theorem C52_threshold (num : Numerics) (site : Site) (hs : SiteOk num site) (he : EllipticEnv site.env) (li : List ℝ)
    (ki : List Bool) (h : BeamOk li ki) {c : ℝ} {t0 tc : Trial} (h0 : trial num site li ki 0 = .ok t0) (hin : t0.distMax < 1)
    (hc : trial num site li ki c = .ok tc) (h1 : tc.distMax = 1) (hpos : 0 < c) :
    (∀ v p, 0 ≤ v → v < c → trial num site li ki v = .ok p → p.distMax < 1) ∧
      ∀ v p, c < v → trial num site li ki v = .ok p → 1 < p.distMax := by
  constructor
  · intro v p hv hvc hp
    obtain ⟨p', q', r', k1, k2, k3, k4⟩ := C52_convex num site hs he li ki h 0 c (v / c) (by positivity)
      (by rw [div_le_one hpos]; exact hvc.le)
    have e : mix (v / c) 0 c = v := by unfold mix; field_simp; ring
    rw [e, hp] at k3; rw [h0] at k1; rw [hc] at k2
    injection k1 with k1; injection k2 with k2; injection k3 with k3
    subst k1 k2 k3
    rw [h1] at k4
    have hlt : v / c < 1 := by rw [div_lt_one hpos]; exact hvc
    unfold mix at k4
    nlinarith
  · intro v p hv hp
    have hv0 : 0 < v := hpos.trans hv
    obtain ⟨p', q', r', k1, k2, k3, k4⟩ := C52_convex num site hs he li ki h 0 v (c / v) (by positivity)
      (by rw [div_le_one hv0]; exact hv.le)
    have e : mix (c / v) 0 v = c := by unfold mix; field_simp; ring
    rw [e, hc] at k3; rw [h0] at k1; rw [hp] at k2
    injection k1 with k1; injection k2 with k2; injection k3 with k3
    subst k1 k2 k3
    rw [h1] at k4
    have hlt : c / v < 1 := by rw [div_lt_one hv0]; exact hv
    have hgt : 0 < c / v := by positivity
    unfold mix at k4
    by_contra hcon
    push Not at hcon
    nlinarith

/-- C52: such a weight exists as soon as some weight exceeds the envelope. -/
theorem C52_exists (num : Numerics) (site : Site) (hs : SiteOk num site) (he : EllipticEnv site.env) (li : List ℝ)
    (ki : List Bool) (h : BeamOk li ki) {v : ℝ} {t0 tv : Trial} (h0 : trial num site li ki 0 = .ok t0) (hin : t0.distMax < 1)
    (hv : trial num site li ki v = .ok tv) (h1 : 1 < tv.distMax) (hpos : 0 ≤ v) :
    ∃ c tc, 0 < c ∧ c < v ∧ trial num site li ki c = .ok tc ∧ tc.distMax = 1 := by
  obtain ⟨n, hn, a, b, c, d, sc, tc, s1, s2, H, -⟩ := trial_family num site hs he li ki h
  have hne : (Finset.range n).Nonempty := ⟨0, by simpa using hn⟩
  let D : ℝ → ℝ := fun w => (Finset.range n).sup' hne fun i => gridDist a b c d sc tc w i
  have hD : ∀ w p, trial num site li ki w = .ok p → p.distMax = D w := by
    intro w p hp
    obtain ⟨p', p1, -, -, ⟨i, hi, p2⟩, p3, -⟩ := H w
    rw [hp] at p1
    injection p1 with p1
    subst p1
    apply le_antisymm
    · rw [p2]
      exact Finset.le_sup' (fun i => gridDist a b c d sc tc w i) (by simpa using hi)
    · exact Finset.sup'_le _ _ fun i hi => p3 i (by simpa using hi)
  have hcont : Continuous D := by
    apply Continuous.finset_sup'_apply
    intro i _
    unfold gridDist
    fun_prop
  have e0 := hD 0 t0 h0
  have ev := hD v tv hv
  obtain ⟨w, ⟨w1, w2⟩, w3⟩ := intermediate_value_Icc hpos hcont.continuousOn
    (show (1 : ℝ) ∈ Set.Icc (D 0) (D v) from ⟨by linarith, by linarith⟩)
  obtain ⟨p, p1, -⟩ := H w
  refine ⟨w, p, lt_of_le_of_ne w1 ?_, lt_of_le_of_ne w2 ?_, p1, by rw [hD w p p1, w3]⟩
  · rintro rfl; linarith
  · rintro rfl; linarith

/-! ## The search -/

/-- A trial with its own weight. -/
def IsTrial (eval : ℝ → Res Trial) (p : Trial) : Prop := 0 < p.weight ∧ eval p.weight = .ok p

/-- What the search needs from the trials. -/
structure Trials (eval : ℝ → Res Trial) : Prop where
  ok : ∀ w, ∃ p, eval w = .ok p ∧ p.weight = w ∧ 0 < p.distMax

theorem Trials.is {eval : ℝ → Res Trial} (h : Trials eval) {w : ℝ} (hw : 0 < w) : ∃ p, eval w = .ok p ∧ IsTrial eval p ∧
    p.weight = w := by
  obtain ⟨p, h1, h2, -⟩ := h.ok w
  exact ⟨p, h1, ⟨by rw [h2]; exact hw, by rw [h2]; exact h1⟩, h2⟩

theorem Trials.pos {eval : ℝ → Res Trial} (h : Trials eval) {p : Trial} (hp : IsTrial eval p) : 0 < p.distMax := by
  obtain ⟨q, h1, -, h2⟩ := h.ok p.weight
  rw [hp.2] at h1
  injection h1 with h1
  subst h1
  exact h2

theorem forceLoop_spec {eval : ℝ → Res Trial} (h : Trials eval) (next : Trial → ℝ) (tol : ℝ)
    (hn : ∀ p, IsTrial eval p → 0 < next p) (n : ℕ) : ∀ p, IsTrial eval p → ∃ q lim, forceLoop eval next tol n p = .ok (q, lim) ∧
      IsTrial eval q ∧ (lim = false → |q.distMax - 1| ≤ tol) := by
  induction n with
  | zero => intro p hp; exact ⟨p, true, rfl, hp, by simp⟩
  | succ n ih =>
    intro p hp
    unfold forceLoop
    split
    · obtain ⟨q, q1, q2, -⟩ := h.is (hn p hp)
      rw [q1]
      exact ih q q2
    · exact ⟨p, false, rfl, hp, fun _ => by linarith⟩

theorem dampenedForce_spec {eval : ℝ → Res Trial} (h : Trials eval) (d : ℝ) (hd : 0 < d) :
    ∃ q lim, dampenedForce eval d = .ok (q, lim) ∧ IsTrial eval q ∧
      (lim = false → q.weight = 1 ∧ 1 ≤ q.distMin ∨ |q.distMax - 1| ≤ 0.01) := by
  obtain ⟨p, p1, p2, p3⟩ := h.is one_pos
  unfold dampenedForce
  rw [p1]
  simp only [bind, Except.bind]
  split
  · exact ⟨p, false, rfl, p2, fun _ => .inl ⟨p3, ‹_›⟩⟩
  · obtain ⟨q, lim, q1, q2, q3⟩ := forceLoop_spec h (fun p => (d + 1) * p.weight / (d + p.distMax)) 0.01
      (fun p hp => by have := h.pos hp; have := hp.1; positivity) 50 p p2
    exact ⟨q, lim, q1, q2, fun hl => .inr (q3 hl)⟩

theorem minForceDampened_spec {eval : ℝ → Res Trial} (h : Trials eval) (k : ℕ) (hk : k < 5) :
    ∃ p, minForceDampened eval k = .ok p ∧
      (IsTrial eval p ∧ (p.weight = 1 ∧ 1 ≤ p.distMin ∨ |p.distMax - 1| ≤ 0.01) ∨ p.weight = 0) := by
  induction k with
  | zero =>
    obtain ⟨q, lim, q1, q2, q3⟩ := dampenedForce_spec h 5 (by norm_num)
    unfold minForceDampened
    rw [q1]
    cases lim with
    | false => exact ⟨q, rfl, .inl ⟨q2, q3 rfl⟩⟩
    | true => exact ⟨{ q with weight := 0 }, rfl, .inr rfl⟩
  | succ k ih =>
    have : ((k + 1 : ℕ) : ℝ) < 5 := by exact_mod_cast hk
    obtain ⟨q, lim, q1, q2, q3⟩ := dampenedForce_spec h (5 - ((k + 1 : ℕ) : ℝ)) (by linarith)
    unfold minForceDampened
    rw [q1]
    cases lim with
    | false => exact ⟨q, rfl, .inl ⟨q2, q3 rfl⟩⟩
    | true => exact ih (by omega)

theorem minForce_spec {eval : ℝ → Res Trial} (h : Trials eval) :
    ∃ p, minForce eval = .ok p ∧
      (IsTrial eval p ∧ (p.weight = 1 ∧ 1 ≤ p.distMin ∨ |p.distMax - 1| ≤ 0.01) ∨ p.weight = 0) := by
  obtain ⟨p, p1, p2, p3⟩ := h.is one_pos
  unfold minForce
  rw [p1]
  simp only [bind, Except.bind]
  split
  · exact ⟨p, rfl, .inl ⟨p2, .inl ⟨p3, ‹_›⟩⟩⟩
  · obtain ⟨q, lim, q1, q2, q3⟩ := forceLoop_spec h (fun p => p.weight / p.distMax) 0.005
      (fun p hp => by have := h.pos hp; have := hp.1; positivity) 50 p p2
    rw [q1]
    cases lim with
    | false =>
      have := q3 rfl
      refine ⟨q, rfl, .inl ⟨q2, .inr (this.trans (by norm_num))⟩⟩
    | true => exact minForceDampened_spec h 4 (by norm_num)

theorem site_trials (num : Numerics) (site : Site) (hs : SiteOk num site) (he : EllipticEnv site.env)
    (hphi : 0 < Real.cos (deg2rad site.phi)) (li : List ℝ) (ki : List Bool) (h : BeamOk li ki) (hl : 0 < nth li 0) :
    Trials (trial num site li ki) := by
  obtain ⟨n, hn, a, b, c, d, sc, tc, s1, s2, H, H', -⟩ := trial_family num site hs he li ki h
  obtain ⟨hb, ha⟩ := H' hl
  have ha := ha hphi
  refine ⟨fun w => ?_⟩
  obtain ⟨p, p1, p2, -, -, p3, -⟩ := H w
  refine ⟨p, p1, p2, lt_of_lt_of_le ?_ (p3 0 hn)⟩
  unfold gridDist
  rw [hb, mul_zero, add_zero]
  have : a 0 / sc ≠ 0 := div_ne_zero ha.ne s1.ne'
  positivity

/-- C52: on a slope below 90 degrees `find_minimum_force` ends with a weight.
Unless it reports 0 (no convergence), the weight is positive, the returned
solution and distances are those of this weight, and either the greatest
distance is 1 up to 0.01, or the weight is 1 kg and the weak layer is outside the
envelope everywhere. -/
theorem C52_returned (num : Numerics) (site : Site) (hs : SiteOk num site) (he : EllipticEnv site.env)
    (hphi : 0 < Real.cos (deg2rad site.phi)) (li : List ℝ) (ki : List Bool) (h : BeamOk li ki) (hl : 0 < nth li 0) :
    ∃ p, minForce (trial num site li ki) = .ok p ∧ (p.weight = 0 ∨ 0 < p.weight ∧
      trial num site li ki p.weight = .ok p ∧ createSkierObject num site p.weight li ki .nocrack = .ok p.run ∧
      (|p.distMax - 1| ≤ 0.01 ∨ p.weight = 1 ∧ 1 ≤ p.distMin)) := by
  obtain ⟨p, p1, p2⟩ := minForce_spec (site_trials num site hs he hphi li ki h hl)
  refine ⟨p, p1, ?_⟩
  rcases p2 with ⟨⟨p2, p3⟩, p4⟩ | p2
  · obtain ⟨n, -, a, b, c, d, sc, tc, -, -, H, -⟩ := trial_family num site hs he li ki h
    obtain ⟨q, q1, -, q2, -⟩ := H p.weight
    rw [p3] at q1
    injection q1 with q1
    subst q1
    exact .inr ⟨p2, p3, q2, p4.symm⟩
  · exact .inl p2

/-- C52: if the slab alone stays inside the envelope and the weight `c` just
reaches it, the weight returned by `find_minimum_force` differs from `c` by at
most the fraction `0.01 / (1 - d)`, where `d` is the greatest distance for the
slab alone. Missing: convergence (weight 0 is returned if the iteration does
not converge), and the case that already 1 kg fails the weak layer
everywhere. -/
theorem C52_least_partial (num : Numerics) (site : Site) (hs : SiteOk num site) (he : EllipticEnv site.env)
    (hphi : 0 < Real.cos (deg2rad site.phi)) (li : List ℝ) (ki : List Bool) (h : BeamOk li ki) (hl : 0 < nth li 0)
    {c : ℝ} {p t0 tc : Trial} (hp : minForce (trial num site li ki) = .ok p) (h0 : trial num site li ki 0 = .ok t0)
    (hin : t0.distMax < 1) (hc : trial num site li ki c = .ok tc) (h1 : tc.distMax = 1) (hpos : 0 < c) :
    p.weight = 0 ∨ |p.weight - c| ≤ 0.01 / (1 - t0.distMax) * c ∨ p.weight = 1 ∧ 1 ≤ p.distMin := by
  obtain ⟨p', k1, k2⟩ := C52_returned num site hs he hphi li ki h hl
  rw [hp] at k1
  injection k1 with k1
  subst k1
  rcases k2 with k2 | ⟨k2, k3, -, k4 | k4⟩
  · exact .inl k2
  · refine .inr (.inl ?_)
    have hd : 0 < 1 - t0.distMax := by linarith
    rw [abs_le] at k4 ⊢
    rw [div_mul_eq_mul_div, le_div_iff₀ hd, ← neg_div, div_le_iff₀ hd]
    rcases le_total c p.weight with hw | hw
    · obtain ⟨x, y, z, m1, m2, m3, m4⟩ := C52_convex num site hs he li ki h 0 p.weight (c / p.weight) (by positivity)
        (by rw [div_le_one k2]; exact hw)
      have e : mix (c / p.weight) 0 p.weight = c := by unfold mix; field_simp; ring
      rw [e, hc] at m3; rw [h0] at m1; rw [k3] at m2
      injection m1 with m1; injection m2 with m2; injection m3 with m3
      subst m1 m2 m3
      rw [h1] at m4
      unfold mix at m4
      have := mul_le_mul_of_nonneg_right m4 k2.le
      have e2 : ((1 - c / p.weight) * t0.distMax + c / p.weight * p.distMax) * p.weight
          = (p.weight - c) * t0.distMax + c * p.distMax := by field_simp
      rw [e2] at this
      constructor <;> nlinarith
    · obtain ⟨x, y, z, m1, m2, m3, m4⟩ := C52_convex num site hs he li ki h 0 c (p.weight / c) (by positivity)
        (by rw [div_le_one hpos]; exact hw)
      have e : mix (p.weight / c) 0 c = p.weight := by unfold mix; field_simp; ring
      rw [e, k3] at m3; rw [h0] at m1; rw [hc] at m2
      injection m1 with m1; injection m2 with m2; injection m3 with m3
      subst m1 m2 m3
      rw [h1] at m4
      unfold mix at m4
      have := mul_le_mul_of_nonneg_right m4 hpos.le
      have e2 : ((1 - p.weight / c) * t0.distMax + p.weight / c * 1) * c = (c - p.weight) * t0.distMax + p.weight := by
        field_simp
      rw [e2] at this
      constructor <;> nlinarith
  · exact .inr (.inr k4)

end Weac
