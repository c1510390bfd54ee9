import Verif.Props.Segments
import Verif.Props.Workflow
import Verif.Props.Raster
import Verif.Props.Output

/-!
# C50: `create_skier_object`
-/

namespace Weac

/-! ## Position of the skier -/

namespace Spec

/-- The only load on the boundaries of the segments is `w`, at coordinate `x`. -/
def PointLoad (li mi : List ℝ) (w x : ℝ) : Prop :=
  mi.length + 1 = li.length ∧ ∃ j, ∃ h : j < mi.length, mi[j] = w ∧ startOf li (j + 1) = x ∧
    ∀ i, ∀ h : i < mi.length, i ≠ j → mi[i] = 0

/-- `x` is the first boundary between two segments at or beyond `m`. -/
def FirstBoundary (li : List ℝ) (m x : ℝ) : Prop :=
  (∃ j, j + 1 < li.length ∧ startOf li (j + 1) = x) ∧ m ≤ x ∧
    ∀ i, i + 1 < li.length → m ≤ startOf li (i + 1) → x ≤ startOf li (i + 1)

end Spec

theorem medianLoop_in {half : ℝ} : ∀ (li : List ℝ) (n : ℕ) (c : ℝ), half ≤ c + li.sum → li ≠ [] →
    ∃ i, i < li.length ∧ half ≤ c + Spec.startOf li (i + 1) ∧ (∀ j < i, c + Spec.startOf li (j + 1) < half) ∧
      medianLoop half n c li = if i + 1 < li.length then
        .ok (some (if nth li (i + 1) = 0 then n + i + 1 else n + i)) else .error .indexError := by
  intro li
  induction li with
  | nil => intro n c _ h; exact absurd rfl h
  | cons l ls ih =>
    intro n c h _
    by_cases hx : half ≤ c + l
    · refine ⟨0, by simp, by simpa [Spec.startOf] using hx, by simp, ?_⟩
      unfold medianLoop
      rw [if_pos hx]
      cases ls with
      | nil => simp
      | cons l' ls => simp [nth]
    · have hs : half ≤ c + l + ls.sum := by simpa [add_assoc] using h
      have hne : ls ≠ [] := by
        rintro rfl
        exact hx (by simpa using hs)
      obtain ⟨i, hi, h1, h2, h3⟩ := ih (n + 1) (c + l) hs hne
      refine ⟨i + 1, by simpa using hi, ?_, ?_, ?_⟩
      · rw [startOf_cons, ← add_assoc]; exact h1
      · intro j hj
        rcases j with _ | j
        · simpa [Spec.startOf] using not_le.1 hx
        · rw [startOf_cons, ← add_assoc]; exact h2 j (by omega)
      · unfold medianLoop
        rw [if_neg hx, h3]
        have e1 : nth (l :: ls) (i + 1 + 1) = nth ls (i + 1) := by simp [nth]
        rw [e1]
        simp only [List.length_cons, add_lt_add_iff_right]
        split_ifs <;> simp <;> omega

/-- Index of the boundary found by the loop. -/
theorem skierWeights_run (li : List ℝ) (ki : List Bool) (hk : ki.length = li.length) (h0 : ∀ l ∈ li, 0 ≤ l)
    (hm : li.sum / 2 ≤ Spec.startOf li (li.length - 1)) (hl : 0 < nth li (li.length - 1)) :
    ∃ j, j + 1 < li.length ∧ (∀ w, skierWeights w li ki = .ok ((List.replicate (ki.length - 1) 0).set j w)) ∧
      Spec.FirstBoundary li (li.sum / 2) (Spec.startOf li (j + 1)) := by
  have hs := List.sum_nonneg h0
  have hne : li ≠ [] := by
    rintro rfl
    simp [nth] at hl
  have hp : 0 < li.length := List.length_pos_iff.2 hne
  have hpos : 0 < li.sum := by
    have := startOf_succ li (i := li.length - 1) (by omega)
    rw [show li.length - 1 + 1 = li.length by omega, startOf_length] at this
    have h2 := startOf_mono h0 (Nat.zero_le (li.length - 1))
    simp only [Spec.startOf, List.take_zero, List.sum_nil] at h2
    unfold nth at hl
    rw [List.getD_eq_getElem?_getD, List.getElem?_eq_getElem (by omega), Option.getD_some] at hl
    unfold Spec.startOf at this
    linarith
  obtain ⟨i, hi, h1, h2, h3⟩ := medianLoop_in (half := li.sum / 2) li 0 0 (by linarith) hne
  rw [zero_add] at h1
  have hlast : i + 1 < li.length := by
    by_contra hc
    have hi' : li.length - 1 = i := by omega
    rcases i with _ | i
    · rw [hi'] at hm
      simp [Spec.startOf] at hm
      linarith
    · have := h2 i (by omega)
      rw [zero_add] at this
      rw [hi'] at hm
      linarith
  rw [if_pos hlast] at h3
  have hfirst : ∀ k, k + 1 < li.length → li.sum / 2 ≤ Spec.startOf li (k + 1) →
      Spec.startOf li (i + 1) ≤ Spec.startOf li (k + 1) := by
    intro k _ hk
    refine startOf_mono h0 ?_
    by_contra hc
    have := h2 k (by omega)
    linarith
  have hki : ki ≠ [] := by
    rintro rfl
    simp at hk; omega
  by_cases hz : nth li (i + 1) = 0
  · rw [if_pos hz] at h3
    have hlt : i + 1 + 1 < li.length := by
      by_contra hc
      have : li.length - 1 = i + 1 := by omega
      rw [this, hz] at hl
      exact lt_irrefl _ hl
    have e : Spec.startOf li (i + 1 + 1) = Spec.startOf li (i + 1) := by
      rw [startOf_succ li (by omega)]
      unfold nth at hz
      rw [List.getD_eq_getElem?_getD, List.getElem?_eq_getElem (by omega), Option.getD_some] at hz
      rw [hz, add_zero]
    refine ⟨i + 1, hlt, fun w => ?_, ⟨i + 1, hlt, rfl⟩, ?_, ?_⟩
    · unfold skierWeights
      rw [if_neg hki, h3]
      show (if 0 + i + 1 < ki.length - 1 then _ else _) = _
      rw [if_pos (by omega), zero_add]
      rfl
    · rw [e]; exact h1
    · rw [e]; exact hfirst
  · rw [if_neg hz] at h3
    refine ⟨i, hlast, fun w => ?_, ⟨i, hlast, rfl⟩, h1, hfirst⟩
    unfold skierWeights
    rw [if_neg hki, h3]
    show (if 0 + i < ki.length - 1 then _ else _) = _
    rw [if_pos (by omega), zero_add]
    rfl

theorem pointLoad_set {li : List ℝ} {j n : ℕ} (w : ℝ) (hj : j + 1 < li.length) (hn : n = li.length) :
    Spec.PointLoad li ((List.replicate (n - 1) 0).set j w) w (Spec.startOf li (j + 1)) := by
  subst hn
  refine ⟨by simp; omega, j, by simp; omega, by simp, rfl, ?_⟩
  intro i hi hij
  rw [List.getElem_set_ne (by omega)]
  simp

/-- C50: the whole weight acts on the first boundary at or beyond the middle of
the beam, provided the last segment is not empty and does not reach beyond the
middle. -/
theorem C50_position_partial (w : ℝ) (li : List ℝ) (ki : List Bool) (hk : ki.length = li.length)
    (h0 : ∀ l ∈ li, 0 ≤ l) (hm : li.sum / 2 ≤ Spec.startOf li (li.length - 1)) (hl : 0 < nth li (li.length - 1)) :
    ∃ mi x, skierWeights w li ki = .ok mi ∧ Spec.PointLoad li mi w x ∧ Spec.FirstBoundary li (li.sum / 2) x := by
  obtain ⟨j, h1, h2, h3⟩ := skierWeights_run li ki hk h0 hm hl
  exact ⟨_, _, h2 w, pointLoad_set w h1 hk, h3⟩

/-- If some boundary is in the middle, the weight acts there. -/
theorem Spec.FirstBoundary.middle {li : List ℝ} {m x : ℝ} (h : Spec.FirstBoundary li m x) {i : ℕ}
    (hi : i + 1 < li.length) (hm : Spec.startOf li (i + 1) = m) : x = m :=
  le_antisymm (hm ▸ h.2.2 i hi hm.ge) h.2.1

example : ∃ mi, skierWeights 80 [2000, 150, 0, 150, 2000] [true, false, false, false, true] = .ok mi ∧
    Spec.PointLoad [2000, 150, 0, 150, 2000] mi 80 2150 := by
  obtain ⟨mi, x, h1, h2, h3⟩ := C50_position_partial 80 [2000, 150, 0, 150, 2000] [true, false, false, false, true] rfl
    (by intro l hl; fin_cases hl <;> norm_num) (by norm_num [Spec.startOf]) (by norm_num [nth])
  have := h3.middle (i := 1) (by norm_num) (by norm_num [Spec.startOf])
  refine ⟨mi, h1, ?_⟩
  rw [this] at h2
  norm_num at h2
  exact h2

/-- C50 fails if the middle of the beam lies inside the last segment: the
search for a position ends in an exception. -/
theorem C50_position_violated (w : ℝ) (li : List ℝ) (ki : List Bool) (hk : ki ≠ []) (hne : li ≠ [])
    (h0 : ∀ l ∈ li, 0 ≤ l) (hm : Spec.startOf li (li.length - 1) < li.sum / 2) :
    skierWeights w li ki = .error .indexError := by
  have hs := List.sum_nonneg h0
  obtain ⟨i, hi, h1, h2, h3⟩ := medianLoop_in (half := li.sum / 2) li 0 0 (by linarith) hne
  rw [zero_add] at h1
  have : ¬ i + 1 < li.length := by
    intro hc
    have := startOf_mono h0 (show i + 1 ≤ li.length - 1 by omega)
    linarith
  rw [if_neg this] at h3
  unfold skierWeights
  rw [if_neg hk, h3]
  rfl

example : skierWeights 80 [1000, 300, 1700] [true, false, true] = .error .indexError :=
  C50_position_violated _ _ _ (by simp) (by simp) (by intro l hl; fin_cases hl <;> norm_num)
    (by norm_num [Spec.startOf])

/-! ## The object -/

theorem siteObject_ready (eig : EigSolver) (site : Site) (hv : ValidPlies site.profile) (ht : 0 < site.t)
    (hE : 0 < site.E) :
    ∃ s, siteObject eig site = .ok s ∧ Ready eig s ∧ s.system = "skiers" ∧ s.touchdown = false ∧ s.hasContact = true ∧
      s.p = 0 ∧ s.g = 9810 ∧ s.lski = 1000 ∧ s.slab.map Layer.ply = site.profile ∧ s.t = site.t ∧
      s.weak = ⟨0.25, site.E⟩ := by
  obtain ⟨s, h1, h2, h3, h4, h5, h6, h7, h8, h9⟩ := layeredInit_ready eig "skiers" site.profile false hv
  refine ⟨setFoundationProperties eig site.t site.E 0.25 true s, ?_, ⟨h2.slab.congr rfl, ⟨ht, hE, ?_, ?_⟩,
    C27_idempotent eig _, h2.g, h2.lski⟩, h3, h4, h5, h6, h7, h8, h9, rfl, rfl⟩
  · unfold siteObject
    rw [h1]
    rfl
  · show (-1 : ℝ) < 0.25; norm_num
  · show (0.25 : ℝ) < 1; norm_num

/-- Sites for which the solver is known to work: valid snow profile and weak
layer, distinct eigenvalues, and a slab that is stiff in shear compared with
the weak layer. -/
structure SiteOk (num : Numerics) (site : Site) : Prop where
  eig : ∀ K, Spec.EigOk K (num.eig K)
  plies : ValidPlies site.profile
  t : 0 < site.t
  E : 0 < site.E
  generic : ∀ s, siteObject num.eig site = .ok s → (cubicOf s).disc ≠ 0 ∧ ShearOk s

/-- Segments with a boundary at or beyond the middle and supported ends. -/
structure BeamOk (li : List ℝ) (ki : List Bool) : Prop where
  len : ki.length = li.length
  nonneg : ∀ l ∈ li, 0 ≤ l
  middle : li.sum / 2 ≤ Spec.startOf li (li.length - 1)
  last : 0 < nth li (li.length - 1)
  left : ki.head? = some true
  right : ki.getLast? = some true

theorem BeamOk.two {li : List ℝ} {ki : List Bool} (h : BeamOk li ki) : 2 ≤ li.length := by
  obtain ⟨j, h1, -⟩ := skierWeights_run li ki h.len h.nonneg h.middle h.last
  omega

theorem CrackCase.support_ok (case : CrackCase) {li : List ℝ} {ki : List Bool} (h : BeamOk li ki) :
    BeamOk li (case.support ki) := by
  cases case with
  | crack => exact h
  | nocrack =>
    have h2 := h.two
    have hl := h.len
    refine ⟨by simp [CrackCase.support, h.len], h.nonneg, h.middle, h.last, ?_, ?_⟩
    · simp only [CrackCase.support, List.head?_replicate]
      rw [if_neg (by omega)]
    · simp only [CrackCase.support, List.getLast?_replicate]
      rw [if_neg (by omega)]

/-- The object of `create_skier_object` after `calc_segments`. -/
noncomputable def Self.afterSegments (s : Self) : Self :=
  s.stage s.system .A 10000 0 (Spec.collapseHeight s 0.5 s.phi) 0 0 1000

theorem kPa : convertStress "kPa" = .ok 1000 := by
  unfold convertStress
  rw [if_pos rfl]
  norm_num

theorem solveSkier_run (num : Numerics) (phi : ℝ) (hE : ∀ K, Spec.EigOk K (num.eig K)) (s : Self) (hr : Ready num.eig s)
    (hs : s.system = "skiers") (ht : s.touchdown = false) (hc : s.hasContact = true) (hd : (cubicOf s).disc ≠ 0)
    (hsh : ShearOk s) (li mi : List ℝ) (ki : List Bool) (h : BeamOk li ki) (hmi : mi.length + 1 = li.length)
    (case : CrackCase) :
    ∃ C pts X σ τ, (solveSkier num phi li mi ki case s).1 = .ok ⟨s.afterSegments, C, ⟨li, mi, case.support ki⟩, X, σ, τ⟩ ∧
      C.length = li.length ∧
      (∀ kR, Meets s.afterSegments phi kR ⟨li, mi, case.support ki⟩ (fun i => C.getD i 0)) ∧
      (∀ kR C', Meets s.afterSegments phi kR ⟨li, mi, case.support ki⟩ C' → ∀ i < li.length, C' i = C.getD i 0) ∧
      rasterize s.afterSegments phi 800 (Skier.segs ⟨s.afterSegments, C, ⟨li, mi, case.support ki⟩, [], [], []⟩)
        = .ok pts ∧
      X = pts.map (fun p => p.xb.map (· / 10)) ∧
      σ = pts.map (fun p => p.xb.map fun _ => 1000 * -(s.kn * p.z 2)) ∧
      τ = pts.map (fun p => p.xb.map fun _ => 1000 * s.beam.tau p.z) := by
  have hf : EigFresh num.eig s := hr.fresh.eigFresh
  obtain ⟨g, hg⟩ := calcSegments_off num li mi ki (CrackCase.nocrack.support ki) 10000 0 0 0 0.5 1000 s hc ht
    (by rw [hs]; decide)
  have hg' := C22_skiers num li mi ki _ 10000 0 0 0 0.5 1000 s _ g hf hs hg
  subst hg'
  change calcSegments num li mi ki (CrackCase.nocrack.support ki) 10000 0 0 0 0.5 1000 s
    = (_, s.afterSegments) at hg
  have hsk : IsSkier s.afterSegments := .inr hs
  have hnp : ¬ IsPst s.afterSegments := by
    rintro (h | h) <;> exact absurd (h.symm.trans hs) (by decide)
  have hnv : ¬ IsVpst s.afterSegments := by
    rintro (h | h) <;> exact absurd (h.symm.trans hs) (by decide)
  have hb := case.support_ok h
  have h2 := h.two
  have hfull : full ⟨li, mi, case.support ki⟩ = ⟨li, mi, case.support ki⟩ := by
    unfold full; rw [if_neg (by simp only; omega)]
  obtain ⟨C, k1, k2⟩ := C18_unique_solution num .ndarray phi ⟨li, mi, case.support ki⟩ s.afterSegments
    ((C13_discriminant num.eig s hr.stiff hf (hE _) hd).stage _ _ _ _ _ _ _ _) (hsh.stage _ _ _ _ _ _ _ _)
    (hf.stage _ _ _ _ _ _ _ _) ⟨List.mem_of_head? hb.left, hb.len, hmi, fun _ => ⟨hb.left, hb.right⟩⟩
    (.inr (by simp only; omega)) (.inr (.inr (.inl hsk))) (fun h => absurd h hnp) (fun h => absurd h hnp)
    ⟨h.nonneg, li.length - 1, by simp only; omega, by
      have := hb.right
      rw [List.getLast?_eq_getElem?, hb.len] at this
      simp only
      rw [List.getD_eq_getElem?_getD, this, Option.getD_some], h.last⟩
  rw [hfull] at k1 k2
  obtain ⟨-, -, k3, -⟩ := C16_solution_meets_all_conditions num .ndarray phi _ _ _ _ C (hf.stage _ _ _ _ _ _ _ _)
    (fun h => absurd h hnv) k1
  obtain ⟨k4, k5⟩ := k2 (fun h => absurd h hnv)
  have hend : ∀ kR kR' e b, endCond s.afterSegments phi kR e b = endCond s.afterSegments phi kR' e b := by
    intro kR kR' e b
    unfold endCond
    simp only [if_neg hnp, if_neg hnv, if_pos hsk]
  have hMe : ∀ kR kR' C', Meets s.afterSegments phi kR ⟨li, mi, case.support ki⟩ C' →
      Meets s.afterSegments phi kR' ⟨li, mi, case.support ki⟩ C' := by
    intro kR kR' C' hC
    unfold Meets at hC ⊢
    rw [hend kR' kR, hend kR' kR]
    exact hC
  set r : Skier := ⟨s.afterSegments, C, ⟨li, mi, case.support ki⟩, [], [], []⟩ with hrdef
  have hne : ∃ g ∈ r.segs, g.l ≠ 0 := by
    refine ⟨⟨C.getD (li.length - 1) 0, (case.support ki).getD (li.length - 1) false, nth li (li.length - 1)⟩, ?_,
      h.last.ne'⟩
    simp only [Skier.segs, List.mem_map]
    refine ⟨(C.getD (li.length - 1) 0, (case.support ki).getD (li.length - 1) false, nth li (li.length - 1)), ?_, rfl⟩
    rw [List.mem_iff_getElem]
    have := hb.len
    simp only at k3
    refine ⟨li.length - 1, by simp [hrdef]; omega, ?_⟩
    simp only [hrdef, List.getElem_zip, nth]
    rw [List.getD_eq_getElem?_getD, List.getD_eq_getElem?_getD, List.getD_eq_getElem?_getD,
      List.getElem?_eq_getElem (by omega), List.getElem?_eq_getElem (by omega), List.getElem?_eq_getElem (by omega)]
    rfl
  obtain ⟨pts, hpts⟩ := (C28_runs s.afterSegments phi 800 (by norm_num) r.segs).mpr hne
  refine ⟨C, pts, _, _, _, ?_, k3, fun kR => hMe _ kR _ k4, fun kR C' hC => k5 C' (hMe kR _ _ hC), hpts, rfl, rfl, rfl⟩
  have hsh : getWeaklayerShearstress s.afterSegments (pts.map GridPt.xb) (pts.map GridPt.z) "kPa" false
      = .ok (pts.map (fun p => p.xb.map (· / 10)), pts.map (fun p => p.xb.map fun _ => 1000 * s.beam.tau p.z)) := by
    unfold getWeaklayerShearstress
    simp only [kPa, bind, Except.bind]
    have e : (pts.map GridPt.z).map (fun Z => some (-(1000 : ℝ) * s.afterSegments.kt
          * (fdw Z * s.afterSegments.t / 2 - fu Z (s.afterSegments.h / 2))))
        = (pts.map fun p => 1000 * s.beam.tau p.z).map some := by
      rw [List.map_map, List.map_map]
      refine List.map_congr_left fun p _ => ?_
      simp only [Function.comp_apply, Spec.Beam.tau, Self.beam, fdw, fu, fpsi, Option.some.injEq]
      show -1000 * s.kt * (p.z 3 * s.t / 2 - (p.z 0 + s.h / 2 * p.z 4)) = _
      ring
    rw [e, filter_keep _ _ (by simp), List.map_map, List.zipWith_map, List.zipWith_self]
    rfl
  have hno : getWeaklayerNormalstress s.afterSegments (pts.map GridPt.xb) (pts.map GridPt.z) "kPa" false
      = .ok (pts.map (fun p => p.xb.map (· / 10)), pts.map (fun p => p.xb.map fun _ => 1000 * -(s.kn * p.z 2))) := by
    unfold getWeaklayerNormalstress
    simp only [kPa, bind, Except.bind]
    have e : (pts.map GridPt.z).map (fun Z => some (-(1000 : ℝ) * s.afterSegments.kn * fw Z))
        = (pts.map fun p => 1000 * -(s.kn * p.z 2)).map some := by
      rw [List.map_map, List.map_map]
      refine List.map_congr_left fun p _ => ?_
      simp only [Function.comp_apply, fw, Option.some.injEq]
      show -1000 * s.kn * p.z 2 = _
      ring
    rw [e, filter_keep _ _ (by simp), List.map_map, List.zipWith_map, List.zipWith_self]
    rfl
  unfold solveSkier
  rw [Py.bind_of_ok hg]
  simp only
  rw [Py.bind_of_ok (show assembleAndSolve num .ndarray phi ⟨li, mi, _⟩ s.afterSegments
      = (.ok (C, ⟨li, mi, case.support ki⟩), s.afterSegments) from (by cases case <;> exact k1))]
  simp only
  rw [Py.get_bind, Py.bind_of_ok (show Py.lift _ _ = _ by rw [Py.lift_apply, hpts])]
  rw [Py.bind_of_ok (show Py.lift _ _ = _ by rw [Py.lift_apply, hsh])]
  simp only
  rw [Py.bind_of_ok (show Py.lift _ _ = _ by rw [Py.lift_apply, hno])]
  rfl

/-! ## What is returned -/

namespace Spec

/-- Coordinate `x` belongs to a supported segment, ends included. -/
def OnSupport (li : List ℝ) (ki : List Bool) (x : ℝ) : Prop :=
  ∃ i, i < li.length ∧ ki.getD i false = true ∧ startOf li i < startOf li (i + 1) ∧ startOf li i ≤ x ∧
    x ≤ startOf li (i + 1)

/-- The lists `X` (cm), `S`, `T` hold the values `sig` and `tau` of the field
`Z i` (in segment `i`, from its beginning) on a fine grid over the beam, and
NaN away from the support. -/
def Sampled (li : List ℝ) (ki : List Bool) (Z : ℕ → ℝ → Vec6) (sig tau : Vec6 → ℝ) (X S T : List (Option ℝ)) : Prop :=
  ∃ xs : List ℝ, xs.head? = some 0 ∧ xs.getLast? = some li.sum ∧ xs.Pairwise (· < ·) ∧
    xs.IsChain (fun a b => b - a ≤ li.sum / 800) ∧ (∀ i < li.length, startOf li i ∈ xs) ∧
    X.length = xs.length ∧ S.length = xs.length ∧ T.length = xs.length ∧
    ∀ (n : ℕ) (x : ℝ), xs[n]? = some x → ∃ j, j < li.length ∧ startOf li j < startOf li (j + 1) ∧ startOf li j ≤ x ∧
      x ≤ startOf li (j + 1) ∧ (x < startOf li (j + 1) ∨ x = li.sum) ∧
      (OnSupport li ki x ∧ X[n]? = some (some (x / 10)) ∧ S[n]? = some (some (sig (Z j (x - startOf li j)))) ∧
          T[n]? = some (some (tau (Z j (x - startOf li j)))) ∨
        ¬ OnSupport li ki x ∧ X[n]? = some none ∧ S[n]? = some none ∧ T[n]? = some none)

end Spec

theorem begins_iff (segs : List Seg) (x0 b : ℝ) (g : Seg) :
    Spec.Begins x0 segs b g ↔ ∃ i, ∃ h : i < segs.length, segs[i] = g ∧ b = x0 + Spec.startOf (segs.map fun g => |g.l|) i := by
  induction segs generalizing x0 with
  | nil => simp [Spec.Begins]
  | cons h hs ih =>
    simp only [Spec.Begins, ih]
    constructor
    · rintro (⟨rfl, rfl⟩ | ⟨i, hi, h1, h2⟩)
      · exact ⟨0, by simp, rfl, by simp [Spec.startOf]⟩
      · exact ⟨i + 1, by simpa using hi, h1, by rw [h2, List.map_cons, startOf_cons, add_assoc]⟩
    · rintro ⟨i, hi, h1, h2⟩
      rcases i with _ | i
      · exact .inl ⟨by simpa [Spec.startOf] using h2, h1.symm⟩
      · refine .inr ⟨i, by simpa using hi, h1, ?_⟩
        rw [h2, List.map_cons, startOf_cons, add_assoc]

theorem segs_length {r : Skier} {n : ℕ} (h1 : r.C.length = n) (h2 : r.segments.ki.length = n)
    (h3 : r.segments.li.length = n) : r.segs.length = n := by
  simp [Skier.segs, h1, h2, h3]

theorem segs_get {r : Skier} {n : ℕ} (h1 : r.C.length = n) (h2 : r.segments.ki.length = n)
    (h3 : r.segments.li.length = n) (i : ℕ) (hi : i < n) :
    r.segs[i]'(by rw [segs_length h1 h2 h3]; exact hi) =
      ⟨r.C.getD i 0, r.segments.ki.getD i false, nth r.segments.li i⟩ := by
  simp only [Skier.segs, List.getElem_map, List.getElem_zip, nth, List.getD_eq_getElem?_getD]
  rw [List.getElem?_eq_getElem (by omega), List.getElem?_eq_getElem (by omega), List.getElem?_eq_getElem (by omega)]
  rfl

theorem segs_abs {r : Skier} {n : ℕ} (h1 : r.C.length = n) (h2 : r.segments.ki.length = n)
    (h3 : r.segments.li.length = n) (h0 : ∀ l ∈ r.segments.li, 0 ≤ l) :
    r.segs.map (fun g => |g.l|) = r.segments.li := by
  apply List.ext_getElem
  · simp [segs_length h1 h2 h3, h3]
  · intro i hi hj
    rw [List.getElem_map, segs_get h1 h2 h3 i (by omega)]
    simp only [nth, List.getD_eq_getElem?_getD]
    rw [List.getElem?_eq_getElem hj, Option.getD_some]
    exact abs_of_nonneg (h0 _ (List.getElem_mem hj))

theorem nth_eq {li : List ℝ} {i : ℕ} (h : i < li.length) : nth li i = li[i] := by
  unfold nth
  rw [List.getD_eq_getElem?_getD, List.getElem?_eq_getElem h, Option.getD_some]

theorem sampled_of_raster (s : Self) (phi : ℝ) (C : List Vec6) (li mi : List ℝ) (ki : List Bool)
    (h1 : C.length = li.length) (h2 : ki.length = li.length) (h0 : ∀ l ∈ li, 0 ≤ l) (pts : List GridPt)
    (h : rasterize s phi 800 (Skier.segs ⟨s, C, ⟨li, mi, ki⟩, [], [], []⟩) = .ok pts) (sig tau : Vec6 → ℝ) :
    Spec.Sampled li ki (fun j x => stateAt s phi li ki (fun i => C.getD i 0) j x) sig tau
      (pts.map fun p => p.xb.map (· / 10)) (pts.map fun p => p.xb.map fun _ => sig p.z)
      (pts.map fun p => p.xb.map fun _ => tau p.z) := by
  set r : Skier := ⟨s, C, ⟨li, mi, ki⟩, [], [], []⟩ with hr
  have habs : r.segs.map (fun g => |g.l|) = li := segs_abs (r := r) h1 h2 rfl h0
  have hlen : r.segs.length = li.length := segs_length (r := r) h1 h2 rfl
  have hbl : Spec.beamLength r.segs = li.sum := by
    rw [← habs]; rfl
  have hB : ∀ b g, Spec.Begins 0 r.segs b g ↔ ∃ i, i < li.length ∧
      g = ⟨C.getD i 0, ki.getD i false, nth li i⟩ ∧ b = Spec.startOf li i := by
    intro b g
    rw [begins_iff, habs]
    constructor
    · rintro ⟨i, hi, rfl, hb⟩
      exact ⟨i, by omega, segs_get (r := r) h1 h2 rfl i (by omega), by rw [hb, zero_add]⟩
    · rintro ⟨i, hi, hg, hb⟩
      exact ⟨i, by omega, by rw [hg]; exact segs_get (r := r) h1 h2 rfl i (by omega), by rw [hb, zero_add]⟩
  obtain ⟨⟨p0, a1, a2⟩, ⟨p1, b1, b2⟩, c, d, e⟩ := C28_grid s phi 800 (by norm_num) r.segs pts h
  rw [hbl] at b2 d
  have hpos : ∀ i < li.length, nth li i ≠ 0 → Spec.startOf li i < Spec.startOf li (i + 1) := by
    intro i hi hz
    rw [startOf_succ li hi]
    rw [nth_eq hi] at hz
    have := lt_of_le_of_ne (h0 _ (List.getElem_mem hi)) hz.symm
    linarith
  have hend : ∀ i < li.length, Spec.startOf li i + |nth li i| = Spec.startOf li (i + 1) := by
    intro i hi
    rw [startOf_succ li hi, nth_eq hi, abs_of_nonneg (h0 _ (List.getElem_mem hi))]
  have hsup : ∀ x, (∃ b g, Spec.Begins 0 r.segs b g ∧ g.l ≠ 0 ∧ g.k = true ∧ b ≤ x ∧ x ≤ b + |g.l|) ↔
      Spec.OnSupport li ki x := by
    intro x
    constructor
    · rintro ⟨b, g, hb, k1, k2, k3, k4⟩
      obtain ⟨i, hi, rfl, rfl⟩ := (hB b g).1 hb
      exact ⟨i, hi, k2, hpos i hi k1, k3, by rw [← hend i hi]; exact k4⟩
    · rintro ⟨i, hi, k2, k1, k3, k4⟩
      refine ⟨_, _, (hB _ _).2 ⟨i, hi, rfl, rfl⟩, ?_, k2, k3, by rw [hend i hi]; exact k4⟩
      rw [← hend i hi] at k1
      intro hz
      simp only at hz
      rw [hz] at k1
      simp at k1
  refine ⟨pts.map GridPt.x, ?_, ?_, c, ?_, ?_, by simp, by simp, by simp, ?_⟩
  · rw [List.head?_map, a1, Option.map_some, a2]
  · rw [List.getLast?_map, b1, Option.map_some, b2]
  · exact_mod_cast d
  · intro i hi
    exact e _ _ ((hB _ _).2 ⟨i, hi, rfl, rfl⟩)
  · intro n x hn
    rw [List.getElem?_map] at hn
    obtain ⟨p, hp, rfl⟩ := Option.map_eq_some_iff.1 hn
    have hmem := List.mem_of_getElem? hp
    obtain ⟨b, g, k1, k2, k3, k4, k5, k6⟩ := C28_field s phi 800 (by norm_num) r.segs pts h p hmem
    obtain ⟨m1, m2⟩ := C29_mask s phi 800 (by norm_num) r.segs pts h p hmem
    rw [hsup] at m1 m2
    obtain ⟨j, hj, rfl, rfl⟩ := (hB b g).1 k1
    simp only at k2 k4 k5 k6
    rw [hend j hj] at k4 k5
    rw [hbl] at k5
    refine ⟨j, hj, hpos j hj k2, k3, k4, k5, ?_⟩
    have hz : p.z = stateAt s phi li ki (fun i => C.getD i 0) j (p.x - Spec.startOf li j) := by
      rw [k6]
      unfold stateAt
      rw [nth_eq hj, abs_of_nonneg (h0 _ (List.getElem_mem hj))]
    by_cases ho : Spec.OnSupport li ki p.x
    · refine .inl ⟨ho, ?_, ?_, ?_⟩ <;> rw [List.getElem?_map, hp, Option.map_some, m1.2 ho, Option.map_some]
      · rw [hz]
      · rw [hz]
    · refine .inr ⟨ho, ?_, ?_, ?_⟩ <;> rw [List.getElem?_map, hp, Option.map_some, m2.2 ho, Option.map_none]

/-- What `create_skier_object` promises for weight `w` on segments `li` with
support `ki`: an object with the given snow profile and weak layer and no other
surface load; the given segments; the weight at the first boundary at or beyond
the middle; constants that are the only ones to meet all conditions; stresses in
kPa on a fine grid. -/
structure Spec.SkierSolution (site : Site) (w : ℝ) (li : List ℝ) (ki : List Bool) (r : Skier) : Prop where
  profile : r.skier.slab.map Layer.ply = site.profile
  weak : r.skier.t = site.t ∧ r.skier.weak = ⟨0.25, site.E⟩
  load : r.skier.p = 0 ∧ r.skier.g = 9810 ∧ r.skier.lski = 1000
  stiff : Stiff r.skier
  infinite : r.skier.system = "skiers"
  lengths : r.segments.li = li
  support : r.segments.ki = ki
  weight : ∃ x, PointLoad li r.segments.mi w x ∧ FirstBoundary li (li.sum / 2) x
  constants : r.C.length = li.length
  meets : ∀ kR, Meets r.skier site.phi kR r.segments (fun i => r.C.getD i 0)
  unique : ∀ kR C', Meets r.skier site.phi kR r.segments C' → ∀ i < li.length, C' i = r.C.getD i 0
  samples : Sampled li ki (stateAt r.skier site.phi li ki (fun i => r.C.getD i 0))
    (fun Z => 1000 * -(r.skier.kn * Z 2)) (fun Z => 1000 * r.skier.beam.tau Z) r.x r.sigma r.tau

/-- C50: for a sound site and a beam with supported ends and a boundary at or
beyond the middle, `create_skier_object` returns that solution, with the
support of the chosen case. -/
theorem C50_solution_partial (num : Numerics) (site : Site) (hs : SiteOk num site) (w : ℝ) (li : List ℝ) (ki : List Bool)
    (h : BeamOk li ki) (case : CrackCase) :
    ∃ r, createSkierObject num site w li ki case = .ok r ∧
      Spec.SkierSolution site w li (case.support ki) r := by
  obtain ⟨s, k1, k2, k3, k4, k5, k6, k7, k8, k9, k10, k11⟩ := siteObject_ready num.eig site hs.plies hs.t hs.E
  obtain ⟨hd, hsh⟩ := hs.generic s k1
  obtain ⟨j, j1, j2, j3⟩ := skierWeights_run li ki h.len h.nonneg h.middle h.last
  have hb := case.support_ok h
  have hP := pointLoad_set w j1 h.len
  obtain ⟨C, pts, X, σ, τ, m1, m2, m3, m4, m5, rfl, rfl, rfl⟩ := solveSkier_run num site.phi hs.eig s k2 k3 k4 k5 hd hsh
    li _ ki h hP.1 case
  have hc : createSkierObject num site w li ki case
      = (solveSkier num site.phi li ((List.replicate (ki.length - 1) 0).set j w) ki case s).1 := by
    unfold createSkierObject
    rw [k1]
    simp only [bind, Except.bind]
    rw [j2]
  rw [hc, m1]
  exact ⟨_, rfl, ⟨k9, ⟨k10, k11⟩, ⟨k6, k7, k8⟩, k2.stiff.stage _ _ _ _ _ _ _ _, k3, rfl, rfl, ⟨_, hP, j3⟩, m2, m3, m4,
    sampled_of_raster s.afterSegments site.phi C li _ _ m2 hb.len h.nonneg pts m5 _ _⟩⟩

/-! ## A concrete site -/

/-- A slab of 200 mm with a density of about 300 kg/m³, for which the modulus is
rational, on the default weak layer and a slope of 38 degrees. -/
noncomputable def demoSite : Site := { profile := [⟨917 * (4 / 5) ^ 5, 200⟩], phi := 38 }

theorem demoSite_modulus : bergfeld (917 * (4 / 5) ^ 5) 917 6.5 4.4 = 6500 * (4 / 5) ^ 22 := by
  unfold bergfeld
  rw [show (917 : ℝ) * (4 / 5) ^ 5 / 917 = (4 / 5 : ℝ) ^ (5 : ℝ) by
    rw [show (5 : ℝ) = ((5 : ℕ) : ℝ) by norm_num, Real.rpow_natCast]; norm_num, ← Real.rpow_mul (by norm_num)]
  rw [show (5 : ℝ) * 4.4 = ((22 : ℕ) : ℝ) by norm_num, Real.rpow_natCast]
  norm_num

/-- Slab of a site with one layer. -/
theorem siteObject_slab (eig : EigSolver) (p : Ply) (phi E t : ℝ) (env : Env) (s : Self)
    (h : siteObject eig ⟨[p], phi, E, t, env⟩ = .ok s) :
    s.slab = [⟨p.rho, p.h, bergfeld p.rho 917 6.5 4.4, bergfeld p.rho 917 6.5 4.4 / (2 * (1 + 0.25)), 0.25⟩] := by
  injection h with h
  rw [← h]
  rfl

theorem demoSite_fields (eig : EigSolver) (s : Self) (h : siteObject eig demoSite = .ok s) :
    s.kn = 2 / 225 ∧ s.kt = 1 / 300 ∧ s.B11 = 0 ∧ s.h = 200 ∧ s.t = 30 ∧
      s.A11 = 4 * (6500 * (4 / 5) ^ 22) * (160 / 3) ∧ s.D11 = 4 * (6500 * (4 / 5) ^ 22) * (1600000 / 9) ∧
      s.kA55 = 6500 * (4 / 5) ^ 22 * (200 / 3) ∧ s.K0 = - (s.A11 * s.D11) := by
  have hv : ValidPlies demoSite.profile := by
    refine ⟨by simp [demoSite], ?_⟩
    simp only [demoSite, List.mem_singleton, forall_eq]
    norm_num
  obtain ⟨s', h1, h2, -, -, -, -, -, -, -, h3, h4⟩ := siteObject_ready eig demoSite hv (by norm_num [demoSite])
    (by norm_num [demoSite])
  rw [h] at h1
  injection h1 with h1
  subst h1
  have hsl := siteObject_slab eig _ _ _ _ _ s h
  rw [demoSite_modulus] at hsl
  have hh : s.h = 200 := by
    rw [h2.slab.h, hsl]
    norm_num [Spec.total]
  obtain ⟨e1, e2, e3, e4, e5, e6, e7⟩ := fundamental_fields eig s
  have hfr : calcFundamentalSystem eig s = s := h2.fresh
  rw [hfr] at e1 e2 e3 e4 e5 e6 e7
  have ht : s.t = 30 := h3
  have hw : s.weak = ⟨0.25, 0.25⟩ := h4
  have hk := h2.slab.k
  rw [laminate_eq] at e3 e4 e5 e6 e7
  simp only [hsl, hh, hk, Spec.layerSum] at e3 e4 e5 e6 e7
  simp only [calcFoundationStiffness, ht, hw] at e1 e2
  have hB : s.B11 = 0 := by rw [e4]; norm_num
  refine ⟨by rw [e1]; norm_num, by rw [e2]; norm_num, hB, hh, ht, by rw [e3]; ring, by rw [e5]; ring, by rw [e6]; ring, ?_⟩
  rw [h2.stiff.K0_eq, hB]; ring

theorem disc_of_fields (s : Self) (h1 : s.kn = 2 / 225) (h2 : s.kt = 1 / 300) (h3 : s.B11 = 0) (h4 : s.h = 200)
    (h5 : s.t = 30) (h6 : s.A11 = 4 * (6500 * (4 / 5) ^ 22) * (160 / 3))
    (h7 : s.D11 = 4 * (6500 * (4 / 5) ^ 22) * (1600000 / 9)) (h8 : s.kA55 = 6500 * (4 / 5) ^ 22 * (200 / 3))
    (h9 : s.K0 = - (s.A11 * s.D11)) : (cubicOf s).disc ≠ 0 := by
  unfold Cubic.disc cubicOf calcSystemMatrix
  simp only [h1, h2, h3, h4, h5, h6, h7, h8, h9]
  simp only [Matrix.of_apply, Matrix.cons_val', Matrix.cons_val]
  norm_num

/-- The site meets the hypotheses. -/
theorem demoSite_ok : SiteOk midNum demoSite := by
  refine ⟨stdEig_ok, ⟨by simp [demoSite], ?_⟩, by norm_num [demoSite], by norm_num [demoSite], fun s hs => ?_⟩
  · simp only [demoSite, List.mem_singleton, forall_eq]
    norm_num
  · obtain ⟨h1, h2, h3, h4, h5, h6, h7, h8, h9⟩ := demoSite_fields _ s hs
    refine ⟨disc_of_fields s h1 h2 h3 h4 h5 h6 h7 h8 h9, ?_⟩
    unfold ShearOk
    rw [h2, h5, h8]
    norm_num

/-- A beam with a crack under the skier. -/
theorem demoBeam_ok : BeamOk [2000, 150, 150, 2000] [true, false, false, true] := by
  refine ⟨rfl, by norm_num, by norm_num [Spec.startOf], by norm_num [nth], rfl, rfl⟩

example : ∃ r, createSkierObject midNum demoSite 80 [2000, 150, 150, 2000] [true, false, false, true] .crack = .ok r ∧
    Spec.SkierSolution demoSite 80 [2000, 150, 150, 2000] [true, false, false, true] r :=
  C50_solution_partial midNum demoSite demoSite_ok 80 _ _ demoBeam_ok .crack

end Weac
