import Verif.Props.Continuity
import Verif.Props.Coupled
import Verif.Props.TouchdownRuns

/-! # C56: crack propagation -/

namespace Weac
open Spec

/-! ## Specification -/

/-- Interaction of the two modes at energy release rates in kJ/m² (toughness
0.56 J/m² in mode I, 0.79 J/m² in mode II). -/
noncomputable def Spec.interaction (GI GII : ℝ) : ℝ :=
  (1000 * GI / 0.56) ^ (5 : ℕ) + (1000 * GII / 0.79) ^ (20 / 9 : ℝ)

/-- Energy available for crack advance at the crack tips of a beam with support
`ki`, relative to the toughness; `Z j` is the state at the right end of
segment `j`. -/
noncomputable def Spec.driving (s : Self) (ki : List Bool) (Z : ℕ → Vec6) : ℝ :=
  interaction (tipSum ki fun j => (s.kn * Z j 2) ^ 2 / (2 * s.kn)) (tipSum ki fun j => s.beam.tau (Z j) ^ 2 / (2 * s.kt))

/-- Beam of length `L` with a crack of length `a` in the middle. -/
noncomputable def Spec.midCrack (L a : ℝ) : List ℝ := [L / 2 - a / 2, a / 2, a / 2, L / 2 - a / 2]

/-- Its support. -/
def Spec.midSupport : List Bool := [true, false, false, true]

theorem criterion_interaction {GI GII : ℝ} (h1 : 0 ≤ GI) (h2 : 0 ≤ GII) :
    fractureToughnessCriterion (1000 * GI) (1000 * GII) = interaction GI GII := by
  unfold fractureToughnessCriterion interaction
  rw [abs_of_nonneg (by positivity), abs_of_nonneg (by positivity)]
  congr 1
  · rw [show (1 / 0.2 : ℝ) = ((5 : ℕ) : ℝ) by norm_num, Real.rpow_natCast]
  · norm_num

theorem skier_segs {C : List Vec6} {li : List ℝ} {ki : List Bool} (hC : C.length = li.length) (hk : ki.length = li.length)
    (s : Self) (phi : ℝ) (mi : List ℝ) (X σ τ : List (Option ℝ)) :
    (Skier.segs ⟨s, C, ⟨li, mi, ki⟩, X, σ, τ⟩).map Seg.k = ki ∧
    ∀ j < li.length, endState s phi (Skier.segs ⟨s, C, ⟨li, mi, ki⟩, X, σ, τ⟩) j
      = stateAt s phi li ki (fun i => C.getD i 0) j (nth li j) := by
  constructor
  · simp only [Skier.segs, List.map_map]
    apply List.ext_getElem
    · simp; omega
    · intro i h1 h2
      simp
  · intro j hj
    have e : (Skier.segs ⟨s, C, ⟨li, mi, ki⟩, X, σ, τ⟩).getD j ⟨0, false, 0⟩ = ⟨C.getD j 0, ki.getD j false, nth li j⟩ := by
      rw [List.getD_eq_getElem?_getD, List.getElem?_eq_getElem (by simp [Skier.segs]; omega), Option.getD_some]
      simp only [Skier.segs, List.getElem_map, List.getElem_zip]
      rw [nth_eq hj, List.getD_eq_getElem?_getD, List.getElem?_eq_getElem (by omega), Option.getD_some,
        List.getD_eq_getElem?_getD, List.getElem?_eq_getElem (by omega), Option.getD_some]
    unfold endState
    rw [e]
    rfl

theorem tipSum_congr {ki : List Bool} {f g : ℕ → ℝ} (h : ∀ j < ki.length, f j = g j) : tipSum ki f = tipSum ki g := by
  unfold tipSum
  refine Finset.sum_congr rfl fun j hj => ?_
  rw [h j (Finset.mem_range.mp hj)]

theorem gdif_driving (s : Self) (hn : 0 < s.kn) (ht : 0 < s.kt) (phi : ℝ) {C : List Vec6} {li : List ℝ} {ki : List Bool}
    (hC : C.length = li.length) (hk : ki.length = li.length) (mi : List ℝ) (X σ τ : List (Option ℝ)) :
    ∃ G, gdif s phi (Skier.segs ⟨s, C, ⟨li, mi, ki⟩, X, σ, τ⟩) "kJ/m^2" true = .ok G ∧
      fractureToughnessCriterion (1000 * G.2.1) (1000 * G.2.2)
        = driving s ki (fun j => stateAt s phi li ki (fun i => C.getD i 0) j (nth li j)) := by
  obtain ⟨h1, h2⟩ := skier_segs hC hk s phi mi X σ τ
  refine ⟨_, C30_gdif s phi _ "kJ/m^2" 1 (by unfold convertEnergy; rw [if_neg (by decide), if_pos rfl]), ?_⟩
  simp only [h1, one_mul]
  rw [criterion_interaction (tipSum_nonneg _ _ fun j => by positivity) (tipSum_nonneg _ _ fun j => by positivity)]
  unfold driving
  congr 1
  · exact tipSum_congr fun j hj => by rw [h2 j (by omega)]
  · exact tipSum_congr fun j hj => by rw [h2 j (by omega)]

/-- The run of `create_skier_object` together with that of the solver. -/
theorem create_solve (num : Numerics) (site : Site) (hs : SiteOk num site) {s : Self} (h0 : siteObject num.eig site = .ok s)
    (w : ℝ) (li mi : List ℝ) (ki : List Bool) (h : BeamOk li ki) (hw : skierWeights w li ki = .ok mi) (case : CrackCase) :
    ∃ C X σ τ, createSkierObject num site w li ki case = .ok ⟨s.afterSegments, C, ⟨li, mi, case.support ki⟩, X, σ, τ⟩ ∧
      C.length = li.length ∧
      assembleAndSolve num .ndarray site.phi ⟨li, mi, case.support ki⟩ s.afterSegments
        = (.ok (C, ⟨li, mi, case.support ki⟩), s.afterSegments) := by
  obtain ⟨s', k1, k2, k3, k4, k5, -⟩ := siteObject_ready num.eig site hs.plies hs.t hs.E
  obtain rfl : s' = s := by rw [h0] at k1; injection k1 with k1; exact k1.symm
  obtain ⟨hd, hsh⟩ := hs.generic s' k1
  obtain ⟨j, j1, j2, j3⟩ := skierWeights_run li ki h.len h.nonneg h.middle h.last
  have hmi : mi.length + 1 = li.length := by
    have e := j2 w
    rw [hw] at e
    injection e with e
    rw [e]
    exact (pointLoad_set w j1 h.len).1
  obtain ⟨C, pts, X, σ, τ, m1, m2, m3, m4, m5, -, -, -⟩ := solveSkier_run num site.phi hs.eig s' k2 k3 k4 k5 hd hsh
    li mi ki h hmi case
  refine ⟨C, X, σ, τ, ?_, m2, ?_⟩
  · unfold createSkierObject
    rw [k1]
    simp only [bind, Except.bind]
    rw [hw]
    exact m1
  have hb := case.support_ok h
  have h2 := h.two
  have hsk : IsSkier s'.afterSegments := .inr k3
  have hnp : ¬ IsPst s'.afterSegments := by
    rintro (h | h) <;> exact absurd (h.symm.trans k3) (by decide)
  have hnv : ¬ IsVpst s'.afterSegments := by
    rintro (h | h) <;> exact absurd (h.symm.trans k3) (by decide)
  have hfull : full ⟨li, mi, case.support ki⟩ = ⟨li, mi, case.support ki⟩ := by
    unfold full; rw [if_neg (by simp only; omega)]
  have hf : EigFresh num.eig s' := k2.fresh.eigFresh
  obtain ⟨C', k6, k7⟩ := C18_held num .ndarray site.phi ⟨li, mi, case.support ki⟩ s'.afterSegments
    ((C13_discriminant num.eig s' k2.stiff hf (hs.eig _) hd).stage _ _ _ _ _ _ _ _) (hsh.stage _ _ _ _ _ _ _ _)
    (hf.stage _ _ _ _ _ _ _ _) ⟨List.mem_of_head? hb.left, hb.len, hmi, fun _ => ⟨hb.left, hb.right⟩⟩
    (.inr (by simp only; omega)) (.inr (.inr (.inl hsk))) (fun h => absurd h hnp) (fun h => absurd h hnp)
    ⟨h.nonneg, li.length - 1, by simp only; omega, .inr hsk, h.last⟩
  rw [hfull] at k6 k7
  obtain ⟨k8, k9⟩ := k7 (fun h => absurd h hnv)
  obtain ⟨-, -, k10, -⟩ := C16_solution_meets_all_conditions num .ndarray site.phi _ _ _ _ C' (hf.stage _ _ _ _ _ _ _ _)
    (fun h => absurd h hnv) k6
  have e : C' = C := by
    apply List.ext_getElem
    · rw [m2]; exact k10
    · intro i hi hi'
      have := m4 _ _ k8 i (by omega)
      rw [List.getD_eq_getElem?_getD, List.getElem?_eq_getElem hi, List.getD_eq_getElem?_getD,
        List.getElem?_eq_getElem hi', Option.getD_some, Option.getD_some] at this
      exact this
  rw [← e]
  exact k6

/-! ## C56 -/

/-- C56: for a sound site and a beam with supported ends and a boundary at or
beyond the middle, the check returns the interaction of the energy release rates
at the crack tips, and whether it has reached one. -/
theorem C56_value (num : Numerics) (site : Site) (hs : SiteOk num site) (w : ℝ) (li : List ℝ) (ki : List Bool)
    (h : BeamOk li ki) :
    ∃ r v, createSkierObject num site w li ki .crack = .ok r ∧ SkierSolution site w li ki r ∧
      v = driving r.skier ki (fun j => stateAt r.skier site.phi li ki (fun i => r.C.getD i 0) j (nth li j)) ∧
      crackPropagation num site w li ki = .ok (v, decide (1 ≤ v)) := by
  obtain ⟨r, h1, h2⟩ := C50_solution_partial num site hs w li ki h .crack
  obtain ⟨s, C, ⟨li', mi, ki'⟩, X, σ, τ⟩ := r
  have hl : li' = li := h2.lengths
  have hk : ki' = ki := h2.support
  subst hl hk
  obtain ⟨G, g1, g2⟩ := gdif_driving s h2.stiff.kn h2.stiff.kt site.phi h2.constants h.len mi X σ τ
  refine ⟨_, _, h1, h2, rfl, ?_⟩
  unfold crackPropagation propagationValue
  simp only [bind, Except.bind, h1, g1]
  rw [← g2]
  rfl

/-! ## Continuity -/

section

variable {T : Type*} [TopologicalSpace T]

theorem continuous_interaction {f g : T → ℝ} (hf : Continuous f) (hg : Continuous g) :
    Continuous fun t => interaction (f t) (g t) := by
  unfold interaction
  refine (((continuous_const.mul hf).div_const _).pow _).add ?_
  exact ((continuous_const.mul hg).div_const _).rpow_const fun _ => .inr (by norm_num)

theorem continuous_tipSum (ki : List Bool) {f : T → ℕ → ℝ} (hf : ∀ j, Continuous fun t => f t j) :
    Continuous fun t => tipSum ki (f t) := by
  unfold tipSum
  refine continuous_finsetSum _ fun j _ => ?_
  split_ifs
  · exact continuous_const.mul (hf j)
  · exact continuous_const

theorem continuous_driving (s : Self) (ki : List Bool) {Z : T → ℕ → Vec6} (hZ : ∀ j, Continuous fun t => Z t j) :
    Continuous fun t => driving s ki (Z t) := by
  have hz : ∀ j q, Continuous fun t => Z t j q := fun j q => (continuous_apply q).comp (hZ j)
  unfold driving Beam.tau
  refine continuous_interaction (continuous_tipSum _ fun j => ?_) (continuous_tipSum _ fun j => ?_)
  · exact ((continuous_const.mul (hz j 2)).pow 2).div_const _
  · have h0 := hz j 0
    have h3 := hz j 3
    have h4 := hz j 4
    fun_prop

/-- A beam whose segment lengths and weight vary continuously, with the weight
on the same boundary throughout. -/
theorem propagation_family (num : Numerics) (site : Site) (hs : SiteOk num site) {w : T → ℝ} {li mi : T → List ℝ} {n : ℕ}
    {ki : List Bool} (h : ∀ t, BeamOk (li t) ki) (hn : ∀ t, (li t).length = n)
    (hl : ∀ i, Continuous fun t => nth (li t) i) (hm : ∀ i, Continuous fun t => nth (mi t) i)
    (hw : ∀ t, skierWeights (w t) (li t) ki = .ok (mi t)) :
    ∃ v : T → ℝ, Continuous v ∧ ∀ t, crackPropagation num site (w t) (li t) ki = .ok (v t, decide (1 ≤ v t)) := by
  obtain ⟨s, k1, k2, k3, k4, k5, -⟩ := siteObject_ready num.eig site hs.plies hs.t hs.E
  have hr := fun t => create_solve num site hs k1 (w t) (li t) (mi t) ki (h t) (hw t) .crack
  choose C X σ τ c1 c2 c3 using hr
  have hG := fun t => gdif_driving s.afterSegments k2.stiff.kn k2.stiff.kt site.phi (c2 t) (h t).len (mi t) (X t) (σ t) (τ t)
  choose G g1 g2 using hG
  have hnv : ¬ IsVpst s.afterSegments := by
    rintro (h | h) <;> exact absurd (h.symm.trans k3) (by decide)
  have hfull : ∀ t, full ⟨li t, mi t, ki⟩ = ⟨li t, mi t, ki⟩ := fun t => by
    unfold full; rw [if_neg (by have := (h t).two; simp only; omega)]
  obtain ⟨-, e2⟩ := C55_continuous num .ndarray s.afterSegments (k2.fresh.eigFresh.stage _ _ _ _ _ _ _ _)
    (fun h => absurd h hnv) (phi := fun _ => site.phi) (a := fun t => ⟨li t, mi t, ki⟩) (n := n) (ki := ki)
    ⟨fun _ _ _ => rfl, hn, fun _ => rfl, continuous_const, hl, hm⟩ (C := C) (fun t => by rw [hfull]; exact c3 t)
  simp only [hfull] at e2
  refine ⟨_, continuous_driving s.afterSegments ki fun j => e2 j _ (hl j), fun t => ?_⟩
  unfold crackPropagation propagationValue
  simp only [bind, Except.bind, c1 t]
  rw [show CrackCase.crack.support ki = ki from rfl, g1 t]
  simp only
  rw [g2 t]
  rfl

end

/-- C56: with a fixed crack the criterion depends continuously on the weight of
the skier. -/
theorem C56_continuous_weight (num : Numerics) (site : Site) (hs : SiteOk num site) (li : List ℝ) (ki : List Bool)
    (h : BeamOk li ki) :
    ∃ v : ℝ → ℝ, Continuous v ∧ ∀ w, crackPropagation num site w li ki = .ok (v w, decide (1 ≤ v w)) := by
  obtain ⟨j, j1, j2, j3⟩ := skierWeights_run li ki h.len h.nonneg h.middle h.last
  refine propagation_family num site hs (w := fun w => w) (fun _ => h) (fun _ => rfl) (fun _ => continuous_const) (fun i => ?_) j2
  by_cases hi : i = j
  · by_cases hj : j < ki.length - 1
    · have e : (fun t : ℝ => nth ((List.replicate (ki.length - 1) 0).set j t) i) = fun t => t := by
        funext t; subst hi; simp [nth, hj]
      rw [e]; exact continuous_id
    · have e : (fun t : ℝ => nth ((List.replicate (ki.length - 1) 0).set j t) i) = fun _ => nth (List.replicate (ki.length - 1) 0) i := by
        funext t; rw [List.set_eq_of_length_le (by simpa using hj)]
      rw [e]; exact continuous_const
  · have e : (fun t : ℝ => nth ((List.replicate (ki.length - 1) 0).set j t) i) = fun _ => nth (List.replicate (ki.length - 1) 0) i := by
      funext t
      simp only [nth, List.getD_eq_getElem?_getD]
      rw [List.getElem?_set_ne (Ne.symm hi)]
    rw [e]; exact continuous_const

theorem weights_zero {li : List ℝ} {ki : List Bool} (h : BeamOk li ki) :
    skierWeights 0 li ki = .ok (List.replicate (li.length - 1) 0) := by
  obtain ⟨j, j1, j2, j3⟩ := skierWeights_run li ki h.len h.nonneg h.middle h.last
  rw [j2, h.len]
  congr 1
  apply List.ext_getElem
  · simp
  · intro i h1 h2
    simp

/-- C56: without a skier the criterion depends continuously on the lengths of
the segments. -/
theorem C56_continuous_length {T : Type*} [TopologicalSpace T] (num : Numerics) (site : Site) (hs : SiteOk num site)
    {li : T → List ℝ} {n : ℕ} {ki : List Bool} (h : ∀ t, BeamOk (li t) ki) (hn : ∀ t, (li t).length = n)
    (hl : ∀ i, Continuous fun t => nth (li t) i) :
    ∃ v : T → ℝ, Continuous v ∧ ∀ t, crackPropagation num site 0 (li t) ki = .ok (v t, decide (1 ≤ v t)) :=
  propagation_family num site hs (w := fun _ => 0) h hn hl (mi := fun _ => List.replicate (n - 1) 0)
    (fun _ => continuous_const) (fun t => by rw [weights_zero (h t), hn])

/-! ## The search for the critical length -/

theorem midCrack_ok {L a : ℝ} (h0 : 0 ≤ a) (h : a < L) : BeamOk (midCrack L a) midSupport := by
  refine ⟨rfl, ?_, ?_, ?_, rfl, rfl⟩
  · simp only [midCrack, List.mem_cons, List.not_mem_nil, or_false]
    rintro l (rfl | rfl | rfl | rfl) <;> linarith
  · simp [midCrack, startOf]
    linarith
  · simp only [midCrack, nth, List.length_cons, List.length_nil]
    show 0 < L / 2 - a / 2
    linarith

/-- Accuracy of the root finder: what it returns lies within `δ` of evaluated
points of opposite sign. -/
def Spec.BrentNear (num : Numerics) (δ : ℝ) : Prop :=
  ∀ a b hist r, num.brent a b hist = .inr r → (∃ p ∈ hist, ∃ q ∈ hist, p.2 * q.2 ≤ 0) →
    ∃ p ∈ hist, ∃ q ∈ hist, p.2 * q.2 ≤ 0 ∧ |p.1 - r| ≤ δ ∧ |q.1 - r| ≤ δ

theorem brentLoop_near {num : Numerics} {δ : ℝ} (hb : BrentNear num δ)
    (hq : ∀ a b hist x, a ≤ b → num.brent a b hist = .inl x → a ≤ x ∧ x ≤ b)
    {F : ℝ → ℝ} {f : ℝ → Py ℝ} {a b : ℝ} (hab : a ≤ b) {s : Self} (hf : ∀ x, a ≤ x → x ≤ b → f x s = (.ok (F x), s)) :
    ∀ {n : ℕ} {hist : List (ℝ × ℝ)} {s' : Self} {r : ℝ}, (∀ p ∈ hist, a ≤ p.1 ∧ p.1 ≤ b ∧ p.2 = F p.1) →
      (∃ p ∈ hist, ∃ q ∈ hist, p.2 * q.2 ≤ 0) → brentLoop (num.brent a b) f n hist s = (.ok r, s') →
      ∃ p q, a ≤ p ∧ p ≤ b ∧ a ≤ q ∧ q ≤ b ∧ F p * F q ≤ 0 ∧ |p - r| ≤ δ ∧ |q - r| ≤ δ := by
  intro n
  induction n with
  | zero => intro hist s' r _ _ h; simp [brentLoop] at h
  | succ n ih =>
    intro hist s' r h1 h2 h
    unfold brentLoop at h
    rcases hn : num.brent a b hist with x | y
    · rw [hn] at h
      obtain ⟨x1, x2⟩ := hq a b hist x hab hn
      simp only at h
      rw [Py.bind_of_ok (hf x x1 x2)] at h
      refine ih ?_ ?_ h
      · intro p hp
        rcases List.mem_append.mp hp with hp | hp
        · exact h1 p hp
        · rw [List.mem_singleton] at hp
          subst hp
          exact ⟨x1, x2, rfl⟩
      · obtain ⟨p, hp, q, hq', e⟩ := h2
        exact ⟨p, List.mem_append_left _ hp, q, List.mem_append_left _ hq', e⟩
    · rw [hn] at h
      simp only [Py.pure_apply, Prod.mk.injEq, Except.ok.injEq] at h
      obtain ⟨p, hp, q, hq', e1, e2, e3⟩ := hb a b hist y hn h2
      obtain ⟨p1, p2, p3⟩ := h1 p hp
      obtain ⟨q1, q2, q3⟩ := h1 q hq'
      rw [← h.1]
      exact ⟨p.1, q.1, p1, p2, q1, q2, by rw [← p3, ← q3]; exact e1, e2, e3⟩

/-- A continuous function has a zero within `δ` of what the search returns. -/
theorem brentq_near {num : Numerics} {δ : ℝ} (hδ : 0 ≤ δ) (hb : BrentNear num δ)
    (hq : ∀ a b hist x, a ≤ b → num.brent a b hist = .inl x → a ≤ x ∧ x ≤ b)
    {F : ℝ → ℝ} {f : ℝ → Py ℝ} {a b : ℝ} (hab : a ≤ b) (hF : ContinuousOn F (Set.Icc a b)) {s s' : Self}
    (hf : ∀ x, a ≤ x → x ≤ b → f x s = (.ok (F x), s)) {r : ℝ} (h : brentq num f a b s = (.ok r, s')) :
    ∃ c, a ≤ c ∧ c ≤ b ∧ F c = 0 ∧ |r - c| ≤ δ := by
  unfold brentq at h
  rw [Py.bind_of_ok (hf a le_rfl hab), Py.bind_of_ok (hf b hab le_rfl)] at h
  split_ifs at h with h1 h2 h3
  · simp only [Py.pure_apply, Prod.mk.injEq, Except.ok.injEq] at h
    rw [← h.1]
    exact ⟨a, le_rfl, hab, h1, by simpa using hδ⟩
  · simp only [Py.pure_apply, Prod.mk.injEq, Except.ok.injEq] at h
    rw [← h.1]
    exact ⟨b, hab, le_rfl, h2, by simpa using hδ⟩
  · simp at h
  · obtain ⟨p, q, p1, p2, q1, q2, e1, e2, e3⟩ := brentLoop_near hb hq hab hf
      (by
        intro p hp
        rcases List.mem_cons.mp hp with rfl | hp
        · exact ⟨le_rfl, hab, rfl⟩
        · rw [List.mem_singleton] at hp
          subst hp
          exact ⟨hab, le_rfl, rfl⟩)
      ⟨(a, F a), by simp, (b, F b), by simp, not_lt.mp h3⟩ h
    have hsub : Set.uIcc p q ⊆ Set.Icc a b := Set.uIcc_subset_Icc ⟨p1, p2⟩ ⟨q1, q2⟩
    have h0 : (0 : ℝ) ∈ Set.uIcc (F p) (F q) := by
      rw [Set.mem_uIcc]
      rcases mul_nonpos_iff.mp e1 with ⟨u, v⟩ | ⟨u, v⟩
      · exact .inr ⟨v, u⟩
      · exact .inl ⟨u, v⟩
    obtain ⟨c, hc, hc0⟩ := intermediate_value_uIcc (hF.mono hsub) h0
    refine ⟨c, (hsub hc).1, (hsub hc).2, hc0, ?_⟩
    rw [abs_le] at e2 e3 ⊢
    rcases Set.mem_uIcc.mp hc with ⟨u, v⟩ | ⟨u, v⟩ <;> constructor <;> linarith

/-- The objective of the search on `[lo, hi]`. -/
theorem objective_run (num : Numerics) (site : Site) (hs : SiteOk num site) :
    ∃ v : ℝ → ℝ, ContinuousOn v (Set.Ico 0 (1000 * profileHeight site.profile)) ∧
      ∀ a, 0 ≤ a → a < 1000 * profileHeight site.profile →
        crackPropagation num site 0 (midCrack (1000 * profileHeight site.profile) a) midSupport = .ok (v a, decide (1 ≤ v a)) ∧
        propagationObjective num site a = .ok (v a - 1) := by
  set L := 1000 * profileHeight site.profile with hL
  obtain ⟨v, h1, h2⟩ := C56_continuous_length num site hs (T := Set.Ico (0 : ℝ) L) (li := fun a => midCrack L a) (n := 4)
    (ki := midSupport) (fun a => midCrack_ok a.2.1 a.2.2) (fun a => rfl) (fun i => by
      have hc : Continuous fun t : Set.Ico (0 : ℝ) L => (t : ℝ) := continuous_subtype_val
      match i with
      | 0 => exact continuous_const.sub (hc.div_const _)
      | 1 => exact hc.div_const _
      | 2 => exact hc.div_const _
      | 3 => exact continuous_const.sub (hc.div_const _)
      | i + 4 => exact continuous_const)
  classical
  refine ⟨fun a => if h : a ∈ Set.Ico (0 : ℝ) L then v ⟨a, h⟩ else 0, ?_, fun a a0 aL => ?_⟩
  · rw [continuousOn_iff_continuous_domRestrict]
    refine h1.congr fun a => ?_
    show v a = dite _ _ _
    rw [dif_pos a.2]
  · have e := h2 ⟨a, a0, aL⟩
    have hm : a ∈ Set.Ico (0 : ℝ) L := ⟨a0, aL⟩
    simp only [dif_pos hm]
    refine ⟨e, ?_⟩
    unfold propagationObjective
    unfold crackPropagation at e
    simp only [bind, Except.bind] at e ⊢
    simp only [← hL]
    unfold midCrack midSupport at e
    cases hp : propagationValue num site 0 [L / 2 - a / 2, a / 2, a / 2, L / 2 - a / 2] [true, false, false, true] with
    | error x => rw [hp] at e; simp at e
    | ok g =>
      rw [hp] at e
      simp only [pure, Except.pure, Except.ok.injEq, Prod.mk.injEq] at e
      simp only
      rw [← e.1]
      rfl

/-- Contract of the root finder for C56: it asks for values inside the interval
and returns a point inside, within `δ` of a change of sign it has seen. -/
structure Spec.BrentSound (num : Numerics) (δ : ℝ) : Prop where
  inside : BrentOk num
  query : ∀ a b hist x, a ≤ b → num.brent a b hist = .inl x → a ≤ x ∧ x ≤ b
  near : BrentNear num δ

theorem brentLoop_error {next : List (ℝ × ℝ) → ℝ ⊕ ℝ} {f : ℝ → Py ℝ} {a b : ℝ} {s : Self}
    (hq : ∀ hist x, next hist = .inl x → a ≤ x ∧ x ≤ b) (hf : ∀ x, a ≤ x → x ≤ b → ∃ y, f x s = (.ok y, s)) :
    ∀ n hist, (∃ r, brentLoop next f n hist s = (.ok r, s)) ∨ brentLoop next f n hist s = (.error .runtimeError, s) := by
  intro n
  induction n with
  | zero => intro hist; right; rfl
  | succ n ih =>
    intro hist
    unfold brentLoop
    rcases hn : next hist with x | y
    · obtain ⟨x1, x2⟩ := hq hist x hn
      obtain ⟨y, hy⟩ := hf x x1 x2
      simp only
      rw [Py.bind_of_ok hy]
      exact ih _
    · exact .inl ⟨y, rfl⟩

/-- C56, the search. For a sound site and an interval shorter than the beam:

* a length that is returned lies in the interval, and within the accuracy of the
  root finder there is a crack length in the interval that is exactly critical;
* the search ends in `ValueError` exactly if the criterion lies strictly on the
  same side at both ends; otherwise it returns a length or, if the root finder
  gives up, `None`.

Missing: that the length found is the smallest critical one; nothing in the code
makes sure of it. -/
theorem C56_search_partial (num : Numerics) {δ : ℝ} (hδ : 0 ≤ δ) (hb : BrentSound num δ)
    (site : Site) (hs : SiteOk num site) (dummy : Self) {lo hi : ℝ} (h0 : 0 ≤ lo) (h1 : lo ≤ hi)
    (h2 : hi < 1000 * profileHeight site.profile) :
    (∀ a, minCrackLength num site lo hi dummy = .ok (some a) → lo ≤ a ∧ a ≤ hi ∧
      ∃ c, lo ≤ c ∧ c ≤ hi ∧ |a - c| ≤ δ ∧
        crackPropagation num site 0 (midCrack (1000 * profileHeight site.profile) c) midSupport = .ok (1, true)) ∧
    ∃ vl vh, crackPropagation num site 0 (midCrack (1000 * profileHeight site.profile) lo) midSupport
          = .ok (vl, decide (1 ≤ vl)) ∧
      crackPropagation num site 0 (midCrack (1000 * profileHeight site.profile) hi) midSupport = .ok (vh, decide (1 ≤ vh)) ∧
      ((vl - 1) * (vh - 1) ≤ 0 → ∃ o, minCrackLength num site lo hi dummy = .ok o) ∧
      (0 < (vl - 1) * (vh - 1) → minCrackLength num site lo hi dummy = .error .valueError) := by
  obtain ⟨v, v1, v2⟩ := objective_run num site hs
  have hf : ∀ x, lo ≤ x → x ≤ hi → Py.lift (propagationObjective num site x) dummy = (.ok (v x - 1), dummy) := by
    intro x x1 x2
    rw [Py.lift_apply, (v2 x (by linarith) (by linarith)).2]
  have hcont : ContinuousOn (fun x => v x - 1) (Set.Icc lo hi) :=
    (v1.mono fun x hx => ⟨h0.trans hx.1, lt_of_le_of_lt hx.2 h2⟩).sub continuousOn_const
  refine ⟨fun a ha => ?_, v lo, v hi, (v2 lo h0 (by linarith)).1, (v2 hi (by linarith) h2).1, fun hp => ?_, fun hp => ?_⟩
  · unfold minCrackLength at ha
    rcases hr : brentq num (fun a => Py.lift (propagationObjective num site a)) lo hi dummy with ⟨r | r, s'⟩
    · rw [hr] at ha
      simp only at ha
      split at ha <;> simp_all
    · rw [hr] at ha
      simp only [Except.ok.injEq, Option.some.injEq] at ha
      subst ha
      obtain ⟨r1, r2⟩ := brentq_bracket hb.inside h1 hr
      obtain ⟨c, c1, c2, c3, c4⟩ := brentq_near hδ hb.near hb.query h1 hcont hf hr
      refine ⟨r1, r2, c, c1, c2, c4, ?_⟩
      rw [(v2 c (by linarith) (by linarith)).1, show v c = 1 by linarith]
      simp
  · have : (∃ r, brentq num (fun a => Py.lift (propagationObjective num site a)) lo hi dummy = (.ok r, dummy)) ∨
        brentq num (fun a => Py.lift (propagationObjective num site a)) lo hi dummy = (.error .runtimeError, dummy) := by
      unfold brentq
      rw [Py.bind_of_ok (hf lo le_rfl h1), Py.bind_of_ok (hf hi h1 le_rfl)]
      by_cases e1 : v lo - 1 = 0
      · rw [if_pos e1]; exact .inl ⟨lo, rfl⟩
      by_cases e2 : v hi - 1 = 0
      · rw [if_neg e1, if_pos e2]; exact .inl ⟨hi, rfl⟩
      rw [if_neg e1, if_neg e2, if_neg (not_lt.mpr hp)]
      exact brentLoop_error (hb.query lo hi · · h1) (fun x x1 x2 => ⟨_, hf x x1 x2⟩) _ _
    unfold minCrackLength
    rcases this with ⟨r, hr⟩ | hr
    · exact ⟨some r, by rw [hr]⟩
    · exact ⟨none, by rw [hr]⟩
  · unfold minCrackLength brentq
    rw [Py.bind_of_ok (hf lo le_rfl h1), Py.bind_of_ok (hf hi h1 le_rfl), if_neg (left_ne_zero_of_mul hp.ne'),
      if_neg (right_ne_zero_of_mul hp.ne'), if_pos hp]
    rfl

/-- C56: if the criterion changes sides over the interval and the root finder
ends, a length is returned. -/
theorem C56_search_found (num : Numerics) (hn : BrentRuns num) (site : Site) (hs : SiteOk num site) (dummy : Self)
    {lo hi : ℝ} (h0 : 0 ≤ lo) (h1 : lo ≤ hi) (h2 : hi < 1000 * profileHeight site.profile) {vl vh : ℝ} {bl bh : Bool}
    (hl : crackPropagation num site 0 (midCrack (1000 * profileHeight site.profile) lo) midSupport = .ok (vl, bl))
    (hh : crackPropagation num site 0 (midCrack (1000 * profileHeight site.profile) hi) midSupport = .ok (vh, bh))
    (hc : (vl - 1) * (vh - 1) ≤ 0) : ∃ a, minCrackLength num site lo hi dummy = .ok (some a) ∧ lo ≤ a ∧ a ≤ hi := by
  obtain ⟨v, v1, v2⟩ := objective_run num site hs
  have hf : ∀ x, lo ≤ x → x ≤ hi → Py.lift (propagationObjective num site x) dummy = (.ok (v x - 1), dummy) := by
    intro x x1 x2
    rw [Py.lift_apply, (v2 x (by linarith) (by linarith)).2]
  rw [(v2 lo h0 (by linarith)).1] at hl
  rw [(v2 hi (by linarith) h2).1] at hh
  simp only [Except.ok.injEq, Prod.mk.injEq] at hl hh
  rw [← hl.1, ← hh.1] at hc
  obtain ⟨r, hr⟩ := brentq_runs hn h1 (fun x x1 x2 => ⟨_, hf x x1 x2⟩) (hf lo le_rfl h1) (hf hi h1 le_rfl) hc
  obtain ⟨r1, r2⟩ := brentq_bracket hn.inside h1 hr
  exact ⟨r, by unfold minCrackLength; rw [hr], r1, r2⟩

/-! ## Long and short cracks -/

theorem tipSum_mid (f : ℕ → ℝ) : tipSum midSupport f = (f 0 + f 2) / 2 := by
  have c : ∀ f, f = 1 ∨ f = 2 → CentreCrack [true, false, false, true] f := by
    intro f hf
    exact ⟨⟨0, by omega, rfl⟩, ⟨3, by omega, rfl⟩⟩
  have c0 := c (freeSide [true, false, false, true] 0) (by simp [freeSide])
  have c2 := c (freeSide [true, false, false, true] 2) (by simp [freeSide])
  simp [tipSum, midSupport, CrackTip, tipWeight, Finset.sum_range_succ, c0, c2]
  ring

theorem interaction_mono {a b c d : ℝ} (ha : 0 ≤ a) (h1 : a ≤ b) (hc : 0 ≤ c) (h2 : c ≤ d) :
    interaction a c ≤ interaction b d := by
  unfold interaction
  gcongr

/-- The shear force of an unsupported piece changes by the load it carries. -/
theorem free_shear {b : Beam} {d : ℝ × ℝ × ℝ} {f : ℝ → Vec6} (h : Driven b false d f) (x : ℝ) :
    b.V (f x) = b.V (f 0) - d.2.1 * x := by
  have hd : ∀ y, HasDerivAt (fun y => b.V (f y) + d.2.1 * y) 0 y := by
    intro y
    obtain ⟨dz, h1, h2⟩ := h y
    have e3 := (hasDerivAt_pi.mp h1) 3
    have e4 := (hasDerivAt_pi.mp h1) 4
    have e := ((e3.add e4).const_mul b.S).add ((hasDerivAt_id y).const_mul d.2.1)
    have e0 : b.S * (dz 3 + dz 4) + d.2.1 * 1 = 0 := by
      have := h2.V
      simp only [Bool.false_eq_true, if_false] at this
      rw [this]; ring
    rw [e0] at e
    exact e
  have := is_const_of_deriv_eq_zero (fun y => (hd y).differentiableAt) (fun y => (hd y).deriv) x 0
  simp only [mul_zero, add_zero] at this
  linarith

theorem jump_none (s : Self) (phi : ℝ) (n i : ℕ) : jump s phi (List.replicate n 0) i = (0, 0, 0) := by
  refine jump_zero s phi _ i ?_
  unfold nth
  rw [List.getD_eq_getElem?_getD, List.getElem?_replicate]
  split_ifs <;> rfl

/-- Without a jump the whole state is continuous. -/
theorem Transmission.same {b : Beam} (hS : b.S ≠ 0) (hK : b.A * b.D - b.B ^ 2 ≠ 0) {z y : Vec6}
    (h : Transmission b (0, 0, 0) z y) : z = y := by
  obtain ⟨h0, h2, h4, hN, hM, hV⟩ := h
  simp only [Beam.N, Beam.M, Beam.V] at hN hM hV
  have h3 : z 3 = y 3 := by
    have : b.S * (z 3 - y 3) = 0 := by rw [h4] at hV; linarith
    rcases mul_eq_zero.mp this with h | h
    · exact absurd h hS
    · linarith
  have h1 : z 1 = y 1 := by
    have : (b.A * b.D - b.B ^ 2) * (z 1 - y 1) = 0 := by linear_combination b.D * hN - b.B * hM
    rcases mul_eq_zero.mp this with h | h
    · exact absurd h hK
    · linarith
  have h5 : z 5 = y 5 := by
    have : (b.A * b.D - b.B ^ 2) * (z 5 - y 5) = 0 := by linear_combination b.A * hM - b.B * hN
    rcases mul_eq_zero.mp this with h | h
    · exact absurd h hK
    · linarith
  funext i
  fin_cases i <;> assumption

/-- Cracks of every length, up to that of the beam. -/
theorem mid_states (num : Numerics) (site : Site) (hs : SiteOk num site) {s : Self} (k1 : siteObject num.eig site = .ok s)
    {L : ℝ} (hL : 0 < L) : ∃ (C : Set.Icc 0 L → List Vec6) (kR : ℝ),
      (∀ a : Set.Icc 0 L, Meets s.afterSegments site.phi kR ⟨midCrack L a, List.replicate 3 0, midSupport⟩
        (fun i => (C a).getD i 0)) ∧
      (Continuous fun a : Set.Icc 0 L => driving s.afterSegments midSupport (fun j =>
        stateAt s.afterSegments site.phi (midCrack L a) midSupport (fun i => (C a).getD i 0) j (nth (midCrack L a) j))) ∧
      ∀ a : Set.Icc 0 L, a < L → ∃ v, v = driving s.afterSegments midSupport (fun j =>
          stateAt s.afterSegments site.phi (midCrack L a) midSupport (fun i => (C a).getD i 0) j (nth (midCrack L a) j)) ∧
        crackPropagation num site 0 (midCrack L a) midSupport = .ok (v, decide (1 ≤ v)) := by
  obtain ⟨s', k1', k2, k3, k4, k5, -⟩ := siteObject_ready num.eig site hs.plies hs.t hs.E
  obtain rfl : s' = s := by rw [k1] at k1'; injection k1' with k1'; exact k1'.symm
  obtain ⟨hd, hsh⟩ := hs.generic s' k1
  have hf : EigFresh num.eig s' := k2.fresh.eigFresh
  have hsk : IsSkier s'.afterSegments := .inr k3
  have hnp : ¬ IsPst s'.afterSegments := by
    rintro (h | h) <;> exact absurd (h.symm.trans k3) (by decide)
  have hnv : ¬ IsVpst s'.afterSegments := by
    rintro (h | h) <;> exact absurd (h.symm.trans k3) (by decide)
  have hc : Continuous fun t : Set.Icc (0 : ℝ) L => (t : ℝ) := continuous_subtype_val
  have hl : ∀ i, Continuous fun t : Set.Icc (0 : ℝ) L => nth (midCrack L t) i := fun i => by
    match i with
    | 0 => exact continuous_const.sub (hc.div_const _)
    | 1 => exact hc.div_const _
    | 2 => exact hc.div_const _
    | 3 => exact continuous_const.sub (hc.div_const _)
    | i + 4 => exact continuous_const
  have hfull : ∀ t, full ⟨midCrack L t, List.replicate 3 0, midSupport⟩ = ⟨midCrack L t, List.replicate 3 0, midSupport⟩ :=
    fun t => by unfold full; rw [if_neg (by simp [midCrack])]
  obtain ⟨C, c1, c2, -, c4⟩ := C55_family num .ndarray s'.afterSegments
    ((C13_discriminant num.eig s' k2.stiff hf (hs.eig _) hd).stage _ _ _ _ _ _ _ _) (hsh.stage _ _ _ _ _ _ _ _)
    (hf.stage _ _ _ _ _ _ _ _) (fun h => absurd h hnv) (phi := fun _ : Set.Icc (0 : ℝ) L => site.phi)
    (a := fun t => ⟨midCrack L t, List.replicate 3 0, midSupport⟩) (n := 4) (ki := midSupport)
    ⟨fun _ _ _ => rfl, fun _ => rfl, fun _ => rfl, continuous_const, hl, fun i => (continuous_const (y := nth (List.replicate 3 0) i))⟩
    (fun t => ⟨by simp [midSupport], rfl, rfl, fun _ => by simp [midSupport]⟩) (.inr (by norm_num))
    (.inr (.inr (.inl hsk))) (fun h => absurd h hnp) (fun h => absurd h hnp)
    (fun t => ⟨by
        have h0 := t.2.1
        have h5 := t.2.2
        simp only [midCrack, List.mem_cons, List.not_mem_nil, or_false]
        rintro l (rfl | rfl | rfl | rfl) <;> linarith, by
        rcases lt_or_ge (t : ℝ) L with ht | ht
        · exact ⟨0, by simp [midCrack], .inr hsk, by simp only [midCrack, nth, List.getD_cons_zero]; linarith⟩
        · exact ⟨1, by simp [midCrack], .inr hsk, by
            simp only [midCrack, nth, List.getD_cons_succ, List.getD_cons_zero]; linarith⟩⟩)
  simp only [hfull] at c1 c2 c4
  refine ⟨C, _, c2, continuous_driving _ _ fun j => c4 j _ (hl j), fun a ha => ⟨_, rfl, ?_⟩⟩
  have hB := midCrack_ok (L := L) a.2.1 ha
  obtain ⟨C', X, σ, τ, d1, d2, d3⟩ := create_solve num site hs k1 0 (midCrack L a) _ midSupport hB (weights_zero hB) .crack
  obtain rfl : C a = C' := by
    have := (c1 a).symm.trans d3
    simp only [Prod.mk.injEq, Except.ok.injEq, and_true] at this
    exact this.1
  obtain ⟨G, g1, g2⟩ := gdif_driving s'.afterSegments k2.stiff.kn k2.stiff.kt site.phi d2 hB.len _ X σ τ
  rw [← g2]
  unfold crackPropagation propagationValue
  simp only [bind, Except.bind, d1]
  rw [show CrackCase.crack.support midSupport = midSupport from rfl, g1]
  rfl

/-- Loads of the slab of a site. -/
theorem site_loads (num : Numerics) (site : Site) (hs : SiteOk num site) {s : Self} (k1 : siteObject num.eig site = .ok s) :
    (s.loads site.phi).qn + (s.loads site.phi).pn = cover site.profile / 1000 * Real.cos (deg2rad site.phi) ∧
    (s.loads site.phi).qt + (s.loads site.phi).pt = -(cover site.profile / 1000 * Real.sin (deg2rad site.phi)) := by
  obtain ⟨s', k1', k2, k3, k4, k5, k6, k7, k8, k9, -⟩ := siteObject_ready num.eig site hs.plies hs.t hs.E
  obtain rfl : s' = s := by rw [k1] at k1'; injection k1' with k1'; exact k1'.symm
  have hq : (s'.slab.map fun l => l.rho * 1e-12 * s'.g * l.h).sum
      = (site.profile.map fun p => p.rho * 1e-12 * 9810 * p.h).sum := by
    rw [← k9, List.map_map, k7]
    rfl
  simp only [Self.loads, getWeightLoad, getSurfaceLoad, hq, k6, cover]
  constructor <;> ring

/-- With a crack over the whole beam the slab hangs on its two ends. -/
theorem clamped_tips (s : Self) (hb : BedOk s) (hsk : s.system = "skiers") (phi kR L : ℝ) (C : ℕ → Vec6)
    (h : Meets s phi kR ⟨midCrack L L, List.replicate 3 0, midSupport⟩ C) :
    s.beam.tau (stateAt s phi (midCrack L L) midSupport C 2 (nth (midCrack L L) 2))
        - s.beam.tau (stateAt s phi (midCrack L L) midSupport C 0 (nth (midCrack L L) 0))
      = s.kt * s.t * ((s.loads phi).qn + (s.loads phi).pn) * L / (2 * s.kA55) := by
  have he : ∀ e b, endCond s phi kR e b = .state (zp s 0 phi true 0) (zp s 0 phi true 2) (zp s 0 phi true 4) := by
    intro e b
    unfold endCond IsPst IsVpst IsSkier
    simp [hsk]
  have hS : s.beam.S ≠ 0 := hb.stiff.kA55.ne'
  have hK : s.beam.A * s.beam.D - s.beam.B ^ 2 ≠ 0 := by
    have h1 := hb.stiff.K0
    have h2 := hb.stiff.K0_eq
    have : s.beam.A * s.beam.D - s.beam.B ^ 2 = -s.K0 := by rw [h2]; simp [Self.beam]
    rw [this]; linarith
  obtain ⟨h1, h2, h3⟩ := h
  have t0 := Transmission.same hS hK ((jump_none s phi 3 0) ▸ h3 0 (by simp [midCrack]))
  have t1 := Transmission.same hS hK ((jump_none s phi 3 1) ▸ h3 1 (by simp [midCrack]))
  have t2 := Transmission.same hS hK ((jump_none s phi 3 2) ▸ h3 2 (by simp [midCrack]))
  rw [he] at h1 h2
  simp only at h1 h2 t0 t1 t2
  have l0 : nth (midCrack L L) 0 = 0 := by simp [midCrack, nth]
  have l1 : nth (midCrack L L) 1 = L / 2 := by simp [midCrack, nth]
  have l2 : nth (midCrack L L) 2 = L / 2 := by simp [midCrack, nth]
  have l3 : nth (midCrack L L) 3 = 0 := by simp [midCrack, nth]
  rw [l0] at t0
  rw [l1] at t1
  rw [l2] at t2
  rw [show (midCrack L L).length - 1 = 3 from rfl, l3] at h2
  have f1 := free_shear (stateAt_driven s hb phi (midCrack L L) midSupport C 1) (L / 2)
  have f2 := free_shear (stateAt_driven s hb phi (midCrack L L) midSupport C 2) (L / 2)
  rw [t1] at f1
  rw [← t0] at f1
  rw [t2, f1] at f2
  rw [l0, l2, t2]
  obtain ⟨a0, a2, a4⟩ := h1
  obtain ⟨b0, b2, b4⟩ := h2
  set zl := stateAt s phi (midCrack L L) midSupport C 0 0
  set zr := stateAt s phi (midCrack L L) midSupport C 3 0
  have hd1 : (driveOf s phi (midSupport.getD 1 false)).2.1 = (s.loads phi).qn + (s.loads phi).pn := rfl
  have hd2 : (driveOf s phi (midSupport.getD 2 false)).2.1 = (s.loads phi).qn + (s.loads phi).pn := rfl
  rw [hd1, hd2] at f2
  unfold Beam.V at f2
  unfold Beam.tau
  rw [a0, a4, b0, b4]
  rw [a4, b4] at f2
  have hk : s.kA55 ≠ 0 := hS
  show s.kt * (_ + s.h / 2 * _ - s.t / 2 * _) - s.kt * (_ + s.h / 2 * _ - s.t / 2 * _) = _
  have f2' : s.kA55 * (zr 3 + zp s 0 phi true 4) = s.kA55 * (zl 3 + zp s 0 phi true 4)
      - ((s.loads phi).qn + (s.loads phi).pn) * (L / 2) - ((s.loads phi).qn + (s.loads phi).pn) * (L / 2) := f2
  field_simp
  linear_combination -s.kt * s.t * f2'

/-- Without a crack the slab is at rest on the weak layer. -/
theorem uncracked_tips (s : Self) (hb : BedOk s) (hc : ShearOk s) (hsk : s.system = "skiers") (phi kR : ℝ) {L : ℝ}
    (hL : 0 < L) (C : ℕ → Vec6) (h : Meets s phi kR ⟨midCrack L 0, List.replicate 3 0, midSupport⟩ C) :
    stateAt s phi (midCrack L 0) midSupport C 0 (nth (midCrack L 0) 0) = zp s 0 phi true ∧
      stateAt s phi (midCrack L 0) midSupport C 2 (nth (midCrack L 0) 2) = zp s 0 phi true := by
  have he : ∀ e b, endCond s phi kR e b = .state (zp s 0 phi true 0) (zp s 0 phi true 2) (zp s 0 phi true 4) := by
    intro e b
    unfold endCond IsPst IsVpst IsSkier
    simp [hsk]
  have hS : s.beam.S ≠ 0 := hb.stiff.kA55.ne'
  have hK : s.beam.A * s.beam.D - s.beam.B ^ 2 ≠ 0 := by
    have h1 := hb.stiff.K0
    have h2 := hb.stiff.K0_eq
    have : s.beam.A * s.beam.D - s.beam.B ^ 2 = -s.K0 := by rw [h2]; simp [Self.beam]
    rw [this]; linarith
  obtain ⟨h1, h2, h3⟩ := h
  have t0 := Transmission.same hS hK ((jump_none s phi 3 0) ▸ h3 0 (by simp [midCrack]))
  have t1 := Transmission.same hS hK ((jump_none s phi 3 1) ▸ h3 1 (by simp [midCrack]))
  have t2 := Transmission.same hS hK ((jump_none s phi 3 2) ▸ h3 2 (by simp [midCrack]))
  rw [he] at h1 h2
  simp only at h1 h2 t0 t1 t2
  have l0 : nth (midCrack L 0) 0 = L / 2 := by simp [midCrack, nth]
  have l1 : nth (midCrack L 0) 1 = 0 := by simp [midCrack, nth]
  have l2 : nth (midCrack L 0) 2 = 0 := by simp [midCrack, nth]
  have l3 : nth (midCrack L 0) 3 = L / 2 := by simp [midCrack, nth]
  rw [l0] at t0
  rw [l1] at t1
  rw [l2] at t2
  rw [show (midCrack L 0).length - 1 = 3 from rfl, l3] at h2
  have key : ∀ i < 2, ∀ x, zp s x phi true
      = (fun i : ℕ => if i = 0 then stateAt s phi (midCrack L 0) midSupport C 0 else stateAt s phi (midCrack L 0) midSupport C 3) i x := by
    refine chain_unique (hb.stiff.coercive hc) 2 (fun _ => L / 2) (fun _ => true) (fun _ => driveOf s phi true)
      (fun _ x => zp s x phi true) _ (fun _ _ => by linarith) (fun _ _ => zp_driven s hb.stiff.regular phi true) (fun i _ => ?_)
      (fun _ => (0, 0, 0)) (.state (zp s 0 phi true 0) (zp s 0 phi true 2) (zp s 0 phi true 4))
      (.state (zp s 0 phi true 0) (zp s 0 phi true 2) (zp s 0 phi true 4)) trivial trivial ?_ ?_
      ⟨0, by norm_num, by linarith, .inl rfl⟩
    · by_cases hi : i = 0
      · rw [if_pos hi]
        exact stateAt_driven s hb phi (midCrack L 0) midSupport C 0
      · rw [if_neg hi]
        exact stateAt_driven s hb phi (midCrack L 0) midSupport C 3
    · refine ⟨⟨rfl, rfl, rfl⟩, ?_, fun i _ => ?_⟩
      · simp only [zp_bed_const s (L / 2)]
        exact ⟨rfl, rfl, rfl⟩
      · simp only [zp_bed_const s (L / 2)]
        exact ⟨rfl, rfl, rfl, sub_self _, sub_self _, sub_self _⟩
    · refine ⟨h1, h2, fun i hi => ?_⟩
      obtain rfl : i = 0 := by omega
      simp only [if_true, zero_add, one_ne_zero, if_false]
      rw [t0, t1, t2]
      exact ⟨rfl, rfl, rfl, sub_self _, sub_self _, sub_self _⟩
  have e0 := key 0 (by norm_num) (L / 2)
  have e3 := key 1 (by norm_num) 0
  simp only [if_true, one_ne_zero, if_false] at e0 e3
  rw [l0, l2, t2, ← e0, ← e3]
  exact ⟨zp_bed_const _ _ _, rfl⟩

theorem mean_square_le (x y d : ℝ) {k : ℝ} (hk : 0 < k) (h : y - x = 2 * d) :
    d ^ 2 / (2 * k) ≤ (x ^ 2 / (2 * k) + y ^ 2 / (2 * k)) / 2 := by
  have e : (x ^ 2 / (2 * k) + y ^ 2 / (2 * k)) / 2 = ((x ^ 2 + y ^ 2) / 2) / (2 * k) := by ring
  rw [e]
  obtain rfl : d = (y - x) / 2 := by linarith
  gcongr
  nlinarith [sq_nonneg (x + y)]

/-- C56: a beam that is cracked over nearly its whole length fails, if the two
ends that carry the weight of the slab are sheared enough by its sagging. -/
theorem C56_long_crack (num : Numerics) (site : Site) (hs : SiteOk num site) {s : Self}
    (h0 : siteObject num.eig site = .ok s) {L : ℝ} (hL : 0 < L)
    (hG : 0.79 < 1000 * ((s.kt * s.t * (cover site.profile / 1000 * Real.cos (deg2rad site.phi)) * L / (4 * s.kA55)) ^ 2
      / (2 * s.kt))) :
    ∃ a0 < L, ∀ a, a0 ≤ a → 0 ≤ a → a < L →
      ∃ v, 1 < v ∧ crackPropagation num site 0 (midCrack L a) midSupport = .ok (v, true) := by
  obtain ⟨C, kR, c1, c2, c3⟩ := mid_states num site hs h0 hL
  obtain ⟨s', k1', k2, k3, k4, k5, -⟩ := siteObject_ready num.eig site hs.plies hs.t hs.E
  obtain rfl : s' = s := by rw [h0] at k1'; injection k1' with k1'; exact k1'.symm
  obtain ⟨hd, hsh⟩ := hs.generic s' h0
  have hb : BedOk s'.afterSegments :=
    (C13_discriminant num.eig s' k2.stiff k2.fresh.eigFresh (hs.eig _) hd).stage _ _ _ _ _ _ _ _
  have e := clamped_tips s'.afterSegments hb k3 site.phi kR L _ (c1 ⟨L, hL.le, le_rfl⟩)
  have e' : (s'.afterSegments.loads site.phi).qn + (s'.afterSegments.loads site.phi).pn
      = cover site.profile / 1000 * Real.cos (deg2rad site.phi) := (site_loads num site hs h0).1
  rw [e'] at e
  have hgt : 1 < driving s'.afterSegments midSupport (fun j => stateAt s'.afterSegments site.phi (midCrack L L) midSupport
      (fun i => (C ⟨L, hL.le, le_rfl⟩).getD i 0) j (nth (midCrack L L) j)) := by
    unfold driving
    rw [tipSum_mid, tipSum_mid]
    have hkt : 0 < s'.kt := k2.stiff.kt
    have hkn : 0 < s'.kn := k2.stiff.kn
    have hle := interaction_mono (a := 0) (c := (s'.kt * s'.t * (cover site.profile / 1000 * Real.cos (deg2rad site.phi)) * L
        / (4 * s'.kA55)) ^ 2 / (2 * s'.kt)) le_rfl
      (b := ((s'.kn * stateAt s'.afterSegments site.phi (midCrack L L) midSupport
          (fun i => (C ⟨L, hL.le, le_rfl⟩).getD i 0) 0 (nth (midCrack L L) 0) 2) ^ 2 / (2 * s'.kn)
        + (s'.kn * stateAt s'.afterSegments site.phi (midCrack L L) midSupport
          (fun i => (C ⟨L, hL.le, le_rfl⟩).getD i 0) 2 (nth (midCrack L L) 2) 2) ^ 2 / (2 * s'.kn)) / 2)
      (by positivity) (by positivity)
      (mean_square_le (s'.afterSegments.beam.tau (stateAt s'.afterSegments site.phi (midCrack L L) midSupport
          (fun i => (C ⟨L, hL.le, le_rfl⟩).getD i 0) 0 (nth (midCrack L L) 0)))
        (s'.afterSegments.beam.tau (stateAt s'.afterSegments site.phi (midCrack L L) midSupport
          (fun i => (C ⟨L, hL.le, le_rfl⟩).getD i 0) 2 (nth (midCrack L L) 2))) _ hkt (by
        rw [e]
        show s'.kt * s'.t * _ * L / (2 * s'.kA55) = _
        ring))
    refine lt_of_lt_of_le ?_ hle
    unfold interaction
    have : 1 < 1000 * ((s'.kt * s'.t * (cover site.profile / 1000 * Real.cos (deg2rad site.phi)) * L
        / (4 * s'.kA55)) ^ 2 / (2 * s'.kt)) / 0.79 := by
      rw [lt_div_iff₀ (by norm_num), one_mul]
      exact hG
    have := Real.one_lt_rpow this (show (0 : ℝ) < 20 / 9 by norm_num)
    simpa using this
  obtain ⟨ε, hε, h⟩ := Metric.isOpen_iff.mp (isOpen_lt continuous_const c2) ⟨L, hL.le, le_rfl⟩ hgt
  refine ⟨L - ε / 2, by linarith, fun a a1 a2 a3 => ?_⟩
  obtain ⟨v, v1, v2⟩ := c3 ⟨a, a2, a3.le⟩ a3
  have hv : 1 < v := by
    rw [v1]
    refine h (?_ : dist _ _ < ε)
    rw [Subtype.dist_eq, Real.dist_eq, abs_lt]
    constructor <;> simp only <;> linarith
  exact ⟨v, hv, by rw [v2, decide_eq_true hv.le]⟩

/-- C56: without a crack the criterion compares the weight of the snow cover
with the toughness, and a short enough crack does not grow if this is below
one. -/
theorem C56_short_crack (num : Numerics) (site : Site) (hs : SiteOk num site) {s : Self}
    (h0 : siteObject num.eig site = .ok s) {L : ℝ} (hL : 0 < L) :
    ∃ v0, v0 = interaction ((cover site.profile / 1000 * Real.cos (deg2rad site.phi)) ^ 2 / (2 * s.kn))
        ((cover site.profile / 1000 * Real.sin (deg2rad site.phi)) ^ 2 / (2 * s.kt)) ∧
      crackPropagation num site 0 (midCrack L 0) midSupport = .ok (v0, decide (1 ≤ v0)) ∧
      (v0 < 1 → ∃ a0, 0 < a0 ∧ ∀ a, 0 ≤ a → a ≤ a0 → a < L →
        ∃ v, v < 1 ∧ crackPropagation num site 0 (midCrack L a) midSupport = .ok (v, false)) := by
  obtain ⟨C, kR, c1, c2, c3⟩ := mid_states num site hs h0 hL
  obtain ⟨s', k1', k2, k3, k4, k5, -⟩ := siteObject_ready num.eig site hs.plies hs.t hs.E
  obtain rfl : s' = s := by rw [h0] at k1'; injection k1' with k1'; exact k1'.symm
  obtain ⟨hd, hsh⟩ := hs.generic s' h0
  have hb : BedOk s'.afterSegments :=
    (C13_discriminant num.eig s' k2.stiff k2.fresh.eigFresh (hs.eig _) hd).stage _ _ _ _ _ _ _ _
  obtain ⟨e0, e2⟩ := uncracked_tips s'.afterSegments hb (hsh.stage _ _ _ _ _ _ _ _) k3 site.phi kR hL _ (c1 ⟨0, le_rfl, hL.le⟩)
  obtain ⟨q1, q2⟩ := site_loads num site hs h0
  have hkt : 0 < s'.kt := k2.stiff.kt
  have hkn : 0 < s'.kn := k2.stiff.kn
  have hdr : driving s'.afterSegments midSupport (fun j => stateAt s'.afterSegments site.phi (midCrack L 0) midSupport
      (fun i => (C ⟨0, le_rfl, hL.le⟩).getD i 0) j (nth (midCrack L 0) j))
      = interaction ((cover site.profile / 1000 * Real.cos (deg2rad site.phi)) ^ 2 / (2 * s'.kn))
        ((cover site.profile / 1000 * Real.sin (deg2rad site.phi)) ^ 2 / (2 * s'.kt)) := by
    unfold driving
    rw [tipSum_mid, tipSum_mid]
    beta_reduce
    rw [e0, e2, zp_tau _ hb.stiff.kt.ne' hb.stiff.kA55.ne']
    have e3 : s'.afterSegments.kn * zp s'.afterSegments 0 site.phi true 2 = (s'.loads site.phi).qn + (s'.loads site.phi).pn := by
      simp only [zp, if_true, Matrix.cons_val, Self.loads]
      show s'.kn * (_ / s'.kn) = _
      rw [mul_div_cancel₀ _ hkn.ne']
      rfl
    have e4 : (s'.afterSegments.loads site.phi).qt + (s'.afterSegments.loads site.phi).pt
      = -(cover site.profile / 1000 * Real.sin (deg2rad site.phi)) := q2
    rw [e3, e4, q1]
    show interaction ((_ / (2 * s'.kn) + _ / (2 * s'.kn)) / 2) ((_ / (2 * s'.kt) + _ / (2 * s'.kt)) / 2) = _
    congr 1 <;> ring
  obtain ⟨v, v1, v2⟩ := c3 ⟨0, le_rfl, hL.le⟩ hL
  simp only at v1 v2
  refine ⟨v, v1.trans hdr, v2, fun hv => ?_⟩
  rw [v1] at hv
  obtain ⟨ε, hε, h⟩ := Metric.isOpen_iff.mp (isOpen_lt c2 continuous_const) ⟨0, le_rfl, hL.le⟩ hv
  refine ⟨ε / 2, by linarith, fun a a1 a2 a3 => ?_⟩
  obtain ⟨v', w1, w2⟩ := c3 ⟨a, a1, a3.le⟩ a3
  have hv' : v' < 1 := by
    rw [w1]
    refine h (?_ : dist _ _ < ε)
    rw [Subtype.dist_eq, Real.dist_eq, abs_lt]
    constructor <;> simp only <;> linarith
  exact ⟨v', hv', by rw [w2, decide_eq_false (not_le.mpr hv')]⟩

end Weac
