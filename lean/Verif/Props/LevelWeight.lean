import Verif.Props.LeastWeight

/-!
# C52: on level ground there is a critical weight
-/

namespace Weac

open Spec

/-- A normal point load on a supported chain with fixed ends pushes its point
of attack in its own direction. -/
theorem load_deflects {b : Beam} (hb : b.Coercive) (n : ℕ) (l : ℕ → ℝ) (Z : ℕ → ℝ → Vec6) (F : ℕ → ℝ × ℝ × ℝ) (V : ℝ)
    (hl : ∀ i < n, 0 ≤ l i) (hZ : ∀ i < n, SolvesODE b Loads.zero true (Z i))
    (huniq : ∀ i < n, ∀ x, Z i x = 0 → ∀ y, Z i y = 0)
    (hbvp : Bvp b n F (.state 0 0 0) (.state 0 0 0) (fun i => Z i 0) (fun i => Z i (l i))) (j : ℕ) (hj : j + 1 < n)
    (hF : ∀ i, i ≠ j → F i = (0, 0, 0)) (hFj : F j = (0, 0, V)) (hV : V ≠ 0) (hleft : ∃ k, k ≤ j ∧ 0 < l k)
    (hright : ∃ k, j < k ∧ k < n ∧ 0 < l k) : 0 < V * Z (j + 1) 0 2 := by
  have mono : ∀ i < n, b.flux (Z i 0) ≤ b.flux (Z i (l i)) := fun i hi => flux_mono hb (hZ i hi) (hl i hi)
  have step : ∀ i, i + 1 < n → i ≠ j → b.flux (Z i (l i)) = b.flux (Z (i + 1) 0) := fun i hi hij => by
    have := hbvp.trans i hi
    rw [hF i hij] at this
    exact transmission_flux this
  have stepj : b.flux (Z j (l j)) = b.flux (Z (j + 1) 0) + V * Z (j + 1) 0 2 := by
    obtain ⟨h0, h2, h4, hN, hM, hV'⟩ := hbvp.trans j hj
    rw [hFj] at hN hM hV'
    simp only [sub_eq_iff_eq_add] at h0 h2 h4 hN hM hV'
    simp only [Beam.flux, h0, h2, h4, hN, hM, hV']
    ring
  have lo : ∀ i, i ≤ j → 0 ≤ b.flux (Z i 0) := by
    intro i
    induction i with
    | zero =>
      intro _
      obtain ⟨h1, h2, h3⟩ := hbvp.left
      simp [Beam.flux, h1, h2, h3]
    | succ i ih =>
      intro hi
      rw [← step i (by omega) (by omega)]
      exact (ih (by omega)).trans (mono i (by omega))
  have hi' : ∀ d i, j < i → i + d + 1 = n → b.flux (Z i (l i)) ≤ 0 := by
    intro d
    induction d with
    | zero =>
      intro i _ hi
      have : i = n - 1 := by omega
      subst this
      obtain ⟨h1, h2, h3⟩ := hbvp.right
      simp [Beam.flux, h1, h2, h3]
    | succ d ih =>
      intro i hji hi
      rw [step i (by omega) (by omega)]
      exact (mono _ (by omega)).trans (ih (i + 1) (by omega) (by omega))
  have up' : ∀ i, j < i → i < n → b.flux (Z i (l i)) ≤ 0 := fun i h1 h2 => hi' (n - 1 - i) i h1 (by omega)
  by_contra hcon
  push Not at hcon
  have hj1 : b.flux (Z (j + 1) 0) ≤ 0 := (mono _ hj).trans (up' _ (by omega) hj)
  have hj0 : 0 ≤ b.flux (Z j (l j)) := (lo j le_rfl).trans (mono j (by omega))
  have z1 : b.flux (Z (j + 1) 0) = 0 := by linarith
  have z0 : b.flux (Z j (l j)) = 0 := by linarith
  -- left of the load the flux is at most zero, right of it at least zero
  have leftUp : ∀ d i, i + d = j → b.flux (Z i (l i)) ≤ 0 := by
    intro d
    induction d with
    | zero => intro i hi; have : i = j := by omega
              subst this; exact z0.le
    | succ d ih =>
      intro i hi
      rw [step i (by omega) (by omega)]
      exact (mono _ (by omega)).trans (ih (i + 1) (by omega))
  have rightLo : ∀ i, i + (j + 1) < n → 0 ≤ b.flux (Z (i + (j + 1)) 0) := by
    intro i
    induction i with
    | zero => intro _; rw [zero_add, z1]
    | succ i ih =>
      intro hi
      have := step (i + (j + 1)) (by omega) (by omega)
      rw [show i + 1 + (j + 1) = i + (j + 1) + 1 by omega, ← this]
      exact (ih (by omega)).trans (mono _ (by omega))
  have rest : ∀ i < n, 0 < l i → ∀ x, Z i x = 0 := by
    intro i hi hli
    refine huniq i hi (l i / 2) (bedded_rest hb (hZ i hi) hli ?_)
    rcases le_or_gt i j with h | h
    · exact (leftUp (j - i) i (by omega)).trans (lo i h)
    · have := rightLo (i - (j + 1)) (by omega)
      rw [show i - (j + 1) + (j + 1) = i by omega] at this
      exact (up' i h hi).trans this
  obtain ⟨k, hk, hlk⟩ := hleft
  have left0 : ∀ d, k + d ≤ j → Z (k + d) (l (k + d)) = 0 := by
    intro d
    induction d with
    | zero => intro _; exact rest k (by omega) hlk _
    | succ d ih =>
      intro hd
      rcases (hl (k + (d + 1)) (by omega)).lt_or_eq with h | h
      · exact rest _ (by omega) h _
      · rw [← h]
        have := hbvp.trans (k + d) (by omega)
        rw [hF _ (by omega)] at this
        exact transmission_zero_right hb this (ih (by omega))
  obtain ⟨m, hm, hmn, hlm⟩ := hright
  have right0 : ∀ d i, i + d = m → j < i → Z i 0 = 0 := by
    intro d
    induction d with
    | zero => intro i hi _; have : i = m := by omega
              subst this; exact rest i hmn hlm 0
    | succ d ih =>
      intro i hi hji
      rcases (hl i (by omega)).lt_or_eq with h | h
      · exact rest i (by omega) h 0
      · have := hbvp.trans i (by omega)
        rw [hF _ (by omega)] at this
        have h0 := transmission_zero_left hb this (ih (i + 1) (by omega) (by omega))
        rwa [← h] at h0
  have a := left0 (j - k) (by omega)
  rw [show k + (j - k) = j by omega] at a
  have c := right0 (m - (j + 1)) (j + 1) (by omega) (by omega)
  have := (hbvp.trans j hj).V
  rw [hFj] at this
  simp only at this
  rw [a, c] at this
  simp [Beam.V] at this
  exact hV this.symm

/-- Boundaries of the beam are beginnings of segments of the grid. -/
theorem segment_at_boundary {li : List ℝ} (h0 : ∀ l ∈ li, 0 ≤ l) {j m : ℕ}
    (h1 : startOf li j ≤ startOf li m) (h2 : startOf li m < startOf li (j + 1)) : m ≤ j ∧ startOf li j = startOf li m := by
  have : m ≤ j := by
    by_contra hc
    have := startOf_mono h0 (show j + 1 ≤ m by omega)
    linarith
  exact ⟨this, le_antisymm h1 (startOf_mono h0 this)⟩

/-- On level ground the weight of a skier changes the normal stress somewhere
on the grid. -/
theorem level_sigma (num : Numerics) (site : Site) (hs : SiteOk num site) (hphi : site.phi = 0) (li : List ℝ)
    (ki : List Bool) (h : BeamOk li ki) (r : Skier) (hr : createSkierObject num site 1 li ki .nocrack = .ok r) :
    ∃ v ∈ reals r.sigma, v ≠ 1000 * -(r.skier.kn * zp r.skier 0 site.phi true 2) := by
  obtain ⟨r', r1, r2⟩ := C50_solution_partial num site hs 1 li ki h .nocrack
  rw [hr] at r1
  injection r1 with r1
  subst r1
  obtain ⟨s, j, hsys, hbed, hshear, hj, H⟩ := create_run num site hs li ki h .nocrack
  obtain ⟨C, pts, c1, c2, c3, -, -⟩ := H 1
  rw [hr] at c1
  injection c1 with c1
  have es : r.skier = s := by rw [c1]
  have eC : r.C = C := by rw [c1]
  have hkl : ki.length = li.length := h.len
  have hki : ∀ i < li.length, (CrackCase.nocrack.support ki).getD i false = true := by
    intro i hi
    simp only [CrackCase.support, List.getD_eq_getElem?_getD, List.getElem?_replicate, hkl, if_pos hi, Option.getD_some]
  have hZ : ∀ i < li.length, ∀ x, stateAt s site.phi li (CrackCase.nocrack.support ki) (fun i => C.getD i 0) i x
      = homAt s li (CrackCase.nocrack.support ki) (fun i => C.getD i 0) i x + zp s 0 site.phi true := by
    intro i hi x
    unfold stateAt zsol homAt
    rw [hki i hi]
    rfl
  have hm := c3 0
  unfold Meets at hm
  have he : ∀ e b, endCond s site.phi 0 e b = .state (zp s 0 site.phi true 0) (zp s 0 site.phi true 2)
      (zp s 0 site.phi true 4) := by
    intro e b
    unfold endCond IsPst IsVpst IsSkier
    simp [hsys]
  rw [he, he] at hm
  have h2 := h.two
  set Z := homAt s li (CrackCase.nocrack.support ki) (fun i => C.getD i 0) with hZdef
  have hsub : ∀ (f : Vec6 → ℝ), (∀ y z, f (y + z) = f y + f z) → ∀ y z, f (y + zp s 0 site.phi true) - f (z + zp s 0 site.phi true)
      = f y - f z := by
    intro f hf y z; rw [hf, hf]; ring
  have hbvp : Bvp s.beam li.length (jump s site.phi ((List.replicate (ki.length - 1) 0).set j 1)) (.state 0 0 0) (.state 0 0 0)
      (fun i => Z i 0) (fun i => Z i (nth li i)) := by
    constructor
    · have := hm.left
      simp only at this
      rw [hZ 0 (by omega)] at this
      obtain ⟨a1, a2, a3⟩ := this
      simp only [Pi.add_apply, add_eq_right] at a1 a2 a3
      exact ⟨a1, a2, a3⟩
    · have := hm.right
      simp only at this
      rw [hZ _ (by omega)] at this
      obtain ⟨a1, a2, a3⟩ := this
      simp only [Pi.add_apply, add_eq_right] at a1 a2 a3
      exact ⟨a1, a2, a3⟩
    · intro i hi
      have := hm.trans i hi
      simp only at this
      rw [hZ i (by omega), hZ (i + 1) hi] at this
      obtain ⟨a1, a2, a3, a4, a5, a6⟩ := this
      simp only [Pi.add_apply, add_left_inj] at a1 a2 a3
      refine ⟨a1, a2, a3, ?_, ?_, ?_⟩
      · rw [← a4]; exact (hsub _ (fun y z => by simp only [Beam.N, Pi.add_apply]; ring) _ _).symm
      · rw [← a5]; exact (hsub _ (fun y z => by simp only [Beam.M, Pi.add_apply]; ring) _ _).symm
      · rw [← a6]; exact (hsub _ (fun y z => by simp only [Beam.V, Pi.add_apply]; ring) _ _).symm
  have hjump : ∀ i, jump s site.phi ((List.replicate (ki.length - 1) 0).set j 1) i
      = if i = j then (0, 0, 1e-3 * s.g / s.lski) else (0, 0, 0) := by
    intro i
    have ha : ¬ IsAux s := by
      rintro (e | e) <;> rw [hsys] at e <;> exact absurd e (by decide)
    unfold jump
    rw [if_neg ha]
    have hn : nth ((List.replicate (ki.length - 1) 0).set j (1 : ℝ)) i = if i = j then 1 else 0 := by
      unfold nth
      simp only [List.getD_eq_getElem?_getD, List.getElem?_set, List.getElem?_replicate, List.length_replicate]
      by_cases hij : j = i
      · subst hij
        rw [if_pos rfl, if_pos (by omega), if_pos rfl]; rfl
      · have hji : ¬ i = j := fun e => hij e.symm
        rw [if_neg hij]
        simp only [hji, if_false]
        split <;> rfl
    rw [hn]
    split <;> simp [getSkierLoad, hphi, deg2rad]
  have hV : (1e-3 * s.g / s.lski : ℝ) ≠ 0 := by
    rw [← es, r2.load.2.1, r2.load.2.2]; norm_num
  have hsum : 0 < li.sum := by
    have := startOf_succ li (show li.length - 1 < li.length by omega)
    rw [show li.length - 1 + 1 = li.length by omega, startOf_length] at this
    have hl := h.last
    rw [nth_eq (by omega)] at hl
    have := startOf_mono h.nonneg (Nat.zero_le (li.length - 1))
    simp only [startOf, List.take_zero, List.sum_nil] at this
    have e := startOf_succ li (show li.length - 1 < li.length by omega)
    rw [show li.length - 1 + 1 = li.length by omega, startOf_length] at e
    simp only [startOf] at e
    linarith
  obtain ⟨x, hP, hfb⟩ := r2.weight
  have hx : startOf li (j + 1) = x := by
    obtain ⟨m1, k, hk, m2, m3, m4⟩ := hP
    have emi : r.segments.mi = (List.replicate (ki.length - 1) 0).set j 1 := by rw [c1]
    have hjl : j < r.segments.mi.length := by rw [emi]; simp; omega
    by_cases hjk : j = k
    · rw [hjk]; exact m3
    · have := m4 j hjl hjk
      simp only [emi, List.getElem_set_self] at this
      exact absurd this one_ne_zero
  have hleft : ∃ k, k ≤ j ∧ 0 < nth li k := by
    by_contra hc
    push Not at hc
    have : ∀ i, i ≤ j + 1 → startOf li i ≤ 0 := by
      intro i
      induction i with
      | zero => intro _; simp [startOf]
      | succ i ih =>
        intro hi
        rw [startOf_succ li (by omega)]
        have := hc i (by omega)
        rw [nth_eq (by omega)] at this
        linarith [ih (by omega)]
    have := this (j + 1) le_rfl
    have := hfb.2.1
    linarith
  have hdefl := load_deflects (hbed.stiff.coercive hshear) li.length (nth li) Z _ _
    (fun i hi => by rw [nth_eq hi]; exact h.nonneg _ (List.getElem_mem hi))
    (fun i hi => by
      have := zh_solves s hbed ((CrackCase.nocrack.support ki).getD i false) (nth li i) (C.getD i 0)
      rw [hki i hi] at this
      rw [hZdef]
      unfold homAt
      rw [hki i hi]
      exact this)
    (fun i hi y hy y' => by
      rw [hZdef] at hy ⊢
      unfold homAt at hy ⊢
      have h0 := zh_zero s hbed _ _ _ _ hy
      simp only [h0, Matrix.mulVec_zero])
    hbvp j hj (fun i hi => by rw [hjump, if_neg hi]) (by rw [hjump, if_pos rfl]) hV hleft
    ⟨li.length - 1, by omega, by omega, h.last⟩
  have hw : Z (j + 1) 0 2 ≠ 0 := fun e => by rw [e] at hdefl; simp at hdefl
  obtain ⟨xs, -, hlast, hpw, -, hmem, l1, l2, l3, hget⟩ := r2.samples
  obtain ⟨n, hn, hxn⟩ := List.mem_iff_getElem.1 (hmem (j + 1) hj)
  obtain ⟨m, m1, m2, m3, m4, m5, m6⟩ := hget n _ (by rw [List.getElem?_eq_getElem hn, hxn])
  have hlt : startOf li (j + 1) < startOf li (m + 1) := by
    rcases m5 with m5 | m5
    · exact m5
    · exfalso
      have e := startOf_succ li (show li.length - 1 < li.length by omega)
      rw [show li.length - 1 + 1 = li.length by omega, startOf_length] at e
      have hl := h.last
      rw [nth_eq (by omega)] at hl
      have := startOf_mono h.nonneg (show j + 1 ≤ li.length - 1 by omega)
      linarith
  obtain ⟨q1, q2⟩ := segment_at_boundary h.nonneg m3 hlt
  have hchain : ∀ d, j + 1 + d ≤ m → Z (j + 1 + d) 0 2 = Z (j + 1) 0 2 := by
    intro d
    induction d with
    | zero => intro _; rfl
    | succ d ih =>
      intro hd
      have ht := (hbvp.trans (j + 1 + d) (by omega)).w
      have hz : nth li (j + 1 + d) = 0 := by
        have e := startOf_succ li (show j + 1 + d < li.length by omega)
        have u1 := startOf_mono h.nonneg (show j + 1 ≤ j + 1 + d by omega)
        have u2 := startOf_mono h.nonneg (show j + 1 + d + 1 ≤ m by omega)
        have u3 := h.nonneg _ (List.getElem_mem (show j + 1 + d < li.length by omega))
        rw [nth_eq (by omega)]
        linarith
      simp only [hz] at ht
      rw [← ih (by omega), ht]
      rfl
  have hZm : Z m 0 2 ≠ 0 := by
    have := hchain (m - (j + 1)) (by omega)
    rw [show j + 1 + (m - (j + 1)) = m by omega] at this
    rw [this]; exact hw
  rcases m6 with ⟨-, -, m7, -⟩ | ⟨m7, -⟩
  · rw [q2, sub_self, es, eC, hZ m m1] at m7
    refine ⟨_, List.mem_filterMap.2 ⟨_, List.mem_of_getElem? m7, rfl⟩, ?_⟩
    rw [es]
    have hk := hbed.stiff.kn
    simp only [Pi.add_apply]
    intro e
    have : s.kn * Z m 0 2 = 0 := by linarith
    rcases mul_eq_zero.1 this with e | e
    · exact hk.ne' e
    · exact hZm e
  · exact absurd (support_full hkl m m1 m2 m3 m4) m7

/-- C52: on level ground every slab that the weak layer carries has a critical
weight: one with which the envelope is just reached. Lighter skiers stay inside
the envelope and heavier ones leave it. -/
theorem C52_level (num : Numerics) (site : Site) (hs : SiteOk num site) (he : EllipticEnv site.env) (hphi : site.phi = 0)
    (li : List ℝ) (ki : List Bool) (h : BeamOk li ki) {t0 : Trial} (h0 : trial num site li ki 0 = .ok t0)
    (hin : t0.distMax < 1) :
    ∃ c tc, 0 < c ∧ trial num site li ki c = .ok tc ∧ tc.distMax = 1 ∧
      (∀ v p, 0 ≤ v → v < c → trial num site li ki v = .ok p → p.distMax < 1) ∧
      ∀ v p, c < v → trial num site li ki v = .ok p → 1 < p.distMax := by
  obtain ⟨n, hn, a, b, c, d, sc, tc, s1, s2, H, -, H'⟩ := trial_family num site hs he li ki h
  have hb : ∃ i < n, b i ≠ 0 := by
    obtain ⟨p, p1, p2⟩ := C50_solution_partial num site hs 0 li ki h .nocrack
    obtain ⟨q, q1, q2⟩ := C50_solution_partial num site hs 1 li ki h .nocrack
    obtain ⟨s, j, -, -, -, -, hrun⟩ := create_run num site hs li ki h .nocrack
    have hsk : p.skier = s ∧ q.skier = s := by
      obtain ⟨C, pts, c1, -⟩ := hrun 0
      obtain ⟨C', pts', c1', -⟩ := hrun 1
      rw [p1] at c1; rw [q1] at c1'
      injection c1 with c1; injection c1' with c1'
      exact ⟨by rw [c1], by rw [c1']⟩
    obtain ⟨v, hv, hne⟩ := level_sigma num site hs hphi li ki h q q1
    rw [H' 1 q q1] at hv
    obtain ⟨i, hi, rfl⟩ := List.mem_map.1 hv
    have hi : i < n := by simpa using hi
    refine ⟨i, hi, fun hb => hne ?_⟩
    have := (slab_alone_samples site li ki h p2).1 (a i + 0 * b i) (by
      rw [H' 0 p p1]
      exact List.mem_map.2 ⟨i, by simpa using hi, rfl⟩)
    rw [hsk.1] at this
    rw [hsk.2, ← this, hb]
    ring
  obtain ⟨i, hi, hbi⟩ := hb
  have hbp : 0 < |b i| := abs_pos.2 hbi
  set v := (sc + |a i| + 1) / |b i| with hv
  have hv0 : 0 ≤ v := by positivity
  obtain ⟨tv, v1, -, -, -, v2, -⟩ := H v
  have hgt : 1 < tv.distMax := by
    refine lt_of_lt_of_le ?_ (v2 i hi)
    have h3 : sc < |a i + v * b i| := by
      have h4 : |v * b i| = sc + |a i| + 1 := by
        rw [abs_mul, abs_of_nonneg hv0, hv, div_mul_cancel₀ _ hbp.ne']
      have h5 := abs_sub_abs_le_abs_sub (v * b i) (-a i)
      rw [abs_neg, h4, sub_neg_eq_add, add_comm (v * b i)] at h5
      linarith
    have h6 : 1 < |(a i + v * b i) / sc| := by
      rw [abs_div, abs_of_pos s1, one_lt_div s1]; exact h3
    have h7 : 1 < ((a i + v * b i) / sc) ^ 2 := by
      rw [← sq_abs]; nlinarith
    unfold gridDist
    have := sq_nonneg ((c i + v * d i) / tc)
    linarith
  obtain ⟨w, tw, w1, -, w2, w3⟩ := C52_exists num site hs he li ki h h0 hin v1 hgt hv0
  obtain ⟨k1, k2⟩ := C52_threshold num site hs he li ki h h0 hin w2 w3 w1
  exact ⟨w, tw, w1, w2, w3, k1, k2⟩

/-! ## A slab of 200 mm on level ground -/

/-- `demoSite` without slope. -/
noncomputable def levelSite : Site := { demoSite with phi := 0 }

theorem levelSite_ok : SiteOk midNum levelSite :=
  ⟨demoSite_ok.eig, demoSite_ok.plies, demoSite_ok.t, demoSite_ok.E, demoSite_ok.generic⟩

theorem levelBeam_ok : BeamOk [100000, 0, 0, 100000] [true, true, true, true] := by
  have := halves_ok 200000 (by norm_num)
  norm_num at this
  exact this

/-- The slab alone is far inside the envelope. -/
theorem levelSite_inside : ∃ t0, trial midNum levelSite [100000, 0, 0, 100000] [true, true, true, true] 0 = .ok t0 ∧
    t0.distMax < 1 := by
  obtain ⟨p, p1, -, p2⟩ := C52_slab_alone midNum levelSite levelSite_ok _ _ levelBeam_ok (C46_adam 1 1 250 false)
  refine ⟨p, p1, ?_⟩
  rw [p2]
  have : strengthFactor 1 1 = 1 := by unfold strengthFactor; norm_num
  rw [this]
  simp only [levelSite, demoSite, cover, deg2rad]
  norm_num

/-- Hypotheses of `C52_level`, `C52_threshold` and `C52_least_partial`, with the
results. -/
example : ∃ c tc p t0, 0 < c ∧ trial midNum levelSite [100000, 0, 0, 100000] [true, true, true, true] c = .ok tc ∧
    tc.distMax = 1 ∧ trial midNum levelSite [100000, 0, 0, 100000] [true, true, true, true] 0 = .ok t0 ∧
    minForce (trial midNum levelSite [100000, 0, 0, 100000] [true, true, true, true]) = .ok p ∧
    (p.weight = 0 ∨ |p.weight - c| ≤ 0.01 / (1 - t0.distMax) * c ∨ p.weight = 1 ∧ 1 ≤ p.distMin) := by
  obtain ⟨t0, h0, hin⟩ := levelSite_inside
  obtain ⟨c, tc, c1, c2, c3, -⟩ := C52_level midNum levelSite levelSite_ok (EllipticEnv.adam 1 1 250) rfl _ _ levelBeam_ok h0 hin
  have hphi : 0 < Real.cos (deg2rad levelSite.phi) := by simp [levelSite, deg2rad]
  have hl : 0 < nth [100000, 0, 0, (100000 : ℝ)] 0 := by norm_num [nth]
  obtain ⟨p, p1, -⟩ := C52_returned midNum levelSite levelSite_ok (EllipticEnv.adam 1 1 250) hphi _ _ levelBeam_ok hl
  exact ⟨c, tc, p, t0, c1, c2, c3, h0, p1, C52_least_partial midNum levelSite levelSite_ok (EllipticEnv.adam 1 1 250) hphi _ _
    levelBeam_ok hl p1 h0 hin c2 c3 c1⟩

end Weac
