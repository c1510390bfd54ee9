import Verif.Props.Standing
import Verif.Lemmas.SwapTouch
import Verif.Props.SameSnow

/-!
# The choice of the eigenvectors (C86)

An eigensolver returns some eigenvector for every eigenvalue, scaled by an
arbitrary factor, and the pairs in an arbitrary order.
-/

namespace Weac

open Spec

/-- The complex form of `mode_settles`. -/
theorem cplx_settles (s : Self) (v : Fin 6 → ℂ) (lam : ℂ) (hl : lam ≠ 0) (h61 : calcSystemMatrix s 5 0 ≠ 0)
    (h : (toC (calcSystemMatrix s)).mulVec v = lam • v) (h0 : v 2 = 0) : v = 0 := by
  have e0 := congrFun h 0
  have e2 := congrFun h 2
  have e3 := congrFun h 3
  have e4 := congrFun h 4
  have e5 := congrFun h 5
  have a50 : calcSystemMatrix s 5 0 ≠ 0 := h61
  unfold toC at e0 e2 e3 e4 e5
  generalize hK : calcSystemMatrix s = K at *
  have k0 : K 0 = ![0, 1, 0, 0, 0, 0] := by rw [← hK]; rfl
  have k2 : K 2 = ![0, 0, 0, 1, 0, 0] := by rw [← hK]; rfl
  have k3 : K 3 = ![0, 0, s.kn / s.kA55, 0, 0, -1] := by rw [← hK]; rfl
  have k4 : K 4 = ![0, 0, 0, 0, 0, 1] := by rw [← hK]; rfl
  have k51 : K 5 1 = 0 := by rw [← hK]; rfl
  simp only [Matrix.mulVec, dotProduct, Fin.sum_univ_six, Matrix.map_apply, k0, k2, k3, k4, k51, Pi.smul_apply, smul_eq_mul, h0]
    at e0 e2 e3 e4 e5
  simp at e0 e2 e3 e4 e5
  have v3 : v 3 = 0 := e2
  have v5 : v 5 = 0 := by rw [v3, mul_zero] at e3; exact neg_eq_zero.mp e3
  have v4 : v 4 = 0 := by
    rw [v5] at e4
    rcases mul_eq_zero.mp e4.symm with h | h
    · exact absurd h hl
    · exact h
  have v0 : v 0 = 0 := by
    rw [v3, v4, v5] at e5
    simp at e5
    rcases e5 with h | h
    · exact absurd h a50
    · exact h
  have v1 : v 1 = 0 := by rw [e0, v0, mul_zero]
  funext i
  fin_cases i <;> assumption

/-- Two eigenvectors of one eigenvalue are multiples of each other. -/
theorem same_direction (s : Self) (v w : Fin 6 → ℂ) (lam : ℂ) (hl : lam ≠ 0) (h61 : calcSystemMatrix s 5 0 ≠ 0)
    (hv : (toC (calcSystemMatrix s)).mulVec v = lam • v) (hw : (toC (calcSystemMatrix s)).mulVec w = lam • w) (h0 : v ≠ 0) :
    w = (w 2 / v 2) • v := by
  have hv2 : v 2 ≠ 0 := fun h => h0 (cplx_settles s v lam hl h61 hv h)
  have : v 2 • w - w 2 • v = 0 := by
    refine cplx_settles s _ lam hl h61 ?_ (by simp [mul_comm])
    rw [Matrix.mulVec_sub, Matrix.mulVec_smul, Matrix.mulVec_smul, hv, hw, smul_sub, smul_comm lam, smul_comm lam]
  funext i
  have h1 := congrFun this i
  simp only [Pi.sub_apply, Pi.smul_apply, smul_eq_mul, Pi.zero_apply] at h1
  simp only [Pi.smul_apply, smul_eq_mul]
  field_simp
  linear_combination h1

/-- Columns that are combinations of the columns of an eigensystem. -/
def InSpan (e : Eigs) (f : ℝ → ℝ → Vec6) : Prop := ∃ c : Vec6, ∀ x l, f x l = (bedMat e x l).mulVec c

theorem InSpan.comb {e : Eigs} {f g : ℝ → ℝ → Vec6} (hf : InSpan e f) (hg : InSpan e g) (a b : ℝ) :
    InSpan e fun x l => a • f x l + b • g x l := by
  obtain ⟨c, hc⟩ := hf
  obtain ⟨d, hd⟩ := hg
  exact ⟨a • c + b • d, fun x l => by
    dsimp only
    rw [Matrix.mulVec_add, Matrix.mulVec_smul, Matrix.mulVec_smul, hc, hd]⟩

/-- The columns as functions of the position and the length. -/
noncomputable def bedCols (e : Eigs) : List (ℝ → ℝ → Vec6) :=
  (e.re.map fun m => fun x l i => m.ev i * Real.exp (m.ew * (x + l * m.s))) ++
  (e.cx.map fun m => fun x l i => Real.exp (m.ew.re * (x + l * m.s)) *
      ((m.ev i).re * Real.cos (m.ew.im * x) - (m.ev i).im * Real.sin (m.ew.im * x))) ++
  (e.cx.map fun m => fun x l i => Real.exp (m.ew.re * (x + l * m.s)) *
      ((m.ev i).im * Real.cos (m.ew.im * x) + (m.ev i).re * Real.sin (m.ew.im * x)))

theorem zhBed_cols (e : Eigs) (x l : ℝ) : zhBed e x l = (bedCols e).map fun f => f x l := by
  simp only [zhBed, bedCols, List.map_append, List.map_map]
  rfl

theorem InSpan.col {e : Eigs} (h6 : (bedCols e).length = 6) {f : ℝ → ℝ → Vec6} (hf : f ∈ bedCols e) : InSpan e f := by
  obtain ⟨i, hi, rfl⟩ := List.getElem_of_mem hf
  refine ⟨Pi.single ⟨i, h6 ▸ hi⟩ 1, fun x l => ?_⟩
  funext r
  simp [bedMat, zhBed_cols, hi]

/-- If all columns of one eigensystem are combinations of those of another, one
matrix expresses them. -/
theorem span_matrix {e e' : Eigs} (h6 : (bedCols e').length = 6) (h : ∀ f ∈ bedCols e', InSpan e f) :
    ∃ T : Mat6, ∀ x l, bedMat e' x l = bedMat e x l * T := by
  have h1 : ∀ j : Fin 6, InSpan e ((bedCols e').getD j fun _ _ => 0) := fun j => by
    rw [List.getD_eq_getElem _ _ (by omega)]
    exact h _ (List.getElem_mem _)
  choose c hc using h1
  refine ⟨Matrix.of fun i j => c j i, fun x l => ?_⟩
  ext r j
  have h2 := congrFun (hc j x l) r
  rw [Matrix.mul_apply]
  simp only [bedMat, Matrix.of_apply, Matrix.mulVec, dotProduct] at h2 ⊢
  rw [← h2, zhBed_cols, List.getD_eq_getElem _ _ (by simp; omega), List.getElem_map, List.getD_eq_getElem _ _ (by omega)]

theorem eigs_span (s : Self) (h61 : calcSystemMatrix s 5 0 ≠ 0) {eig eig' : EigSolver}
    (he : EigOk (calcSystemMatrix s) (eig (calcSystemMatrix s))) (he' : EigOk (calcSystemMatrix s) (eig' (calcSystemMatrix s)))
    (h6 : (bedCols (eigsOf eig (calcSystemMatrix s))).length = 6) :
    ∀ f ∈ bedCols (eigsOf eig' (calcSystemMatrix s)), InSpan (eigsOf eig (calcSystemMatrix s)) f := by
  classical
  have other : ∀ q' ∈ eig' (calcSystemMatrix s), ∃ q ∈ eig (calcSystemMatrix s), q.1 = q'.1 := by
    intro q' hq'
    have : q'.1 ∈ (toC (calcSystemMatrix s)).charpoly.roots := by
      rw [← he'.spectrum]
      exact List.mem_map_of_mem hq'
    rw [← he.spectrum] at this
    obtain ⟨q, hq, h⟩ := List.mem_map.mp (Multiset.mem_coe.mp this)
    exact ⟨q, hq, h⟩
  have dir : ∀ q' ∈ eig' (calcSystemMatrix s), q'.1 ≠ 0 → ∀ q ∈ eig (calcSystemMatrix s), q.1 = q'.1 → ∃ c : ℂ, q'.2 = c • q.2 ∧
      c = q'.2 2 / q.2 2 := by
    intro q' hq' h0 q hq h
    exact ⟨_, same_direction s q.2 q'.2 q'.1 h0 h61 (h ▸ (he.pairs q hq).2) (he'.pairs q' hq').2 (he.pairs q hq).1, rfl⟩
  have cxm : ∀ q' ∈ eig' (calcSystemMatrix s), 0 < q'.1.im → ∃ q ∈ eig (calcSystemMatrix s), 0 < q.1.im ∧ q.1 = q'.1 ∧
      ∃ c : ℂ, q'.2 = c • q.2 := by
    intro q' hq' hi
    obtain ⟨q, hq, h⟩ := other q' hq'
    obtain ⟨c, hc, -⟩ := dir q' hq' (fun h0 => by rw [h0] at hi; simp at hi) q hq h
    exact ⟨q, hq, h ▸ hi, h, c, hc⟩
  intro f hf
  have hmem : ∀ q ∈ eig (calcSystemMatrix s), 0 < q.1.im →
      (⟨q.1, q.2, if 0 < q.1.re ∨ (q.1.re = 0 ∧ 0 < q.1.im) then -1 else 0⟩ : CplxMode) ∈ (eigsOf eig (calcSystemMatrix s)).cx := by
    intro q hq hi
    unfold eigsOf
    exact List.mem_map.mpr ⟨q, List.mem_filter.mpr ⟨hq, by simpa using hi⟩, rfl⟩
  unfold bedCols at hf
  rw [List.mem_append, List.mem_append] at hf
  rcases hf with (hf | hf) | hf
  · obtain ⟨m, hm, rfl⟩ := List.mem_map.mp hf
    simp only [eigsOf, List.mem_map, List.mem_filter, decide_eq_true_eq] at hm
    obtain ⟨q', ⟨hq', hi, hr⟩, rfl⟩ := hm
    obtain ⟨q, hq, h⟩ := other q' hq'
    obtain ⟨c, hc, hc'⟩ := dir q' hq' (fun h0 => hr (by rw [h0]; rfl)) q hq h
    have him : c.im = 0 := by
      have h1 := he.real q hq (h ▸ hi) 2
      have h2 := he'.real q' hq' hi 2
      rw [hc', Complex.div_im, h1, h2]
      simp
    have hcol : (fun x l (i : Fin 6) => (q.2 i).re * Real.exp (q.1.re * (x + l * if 0 < q.1.re then -1 else 0))) ∈
        bedCols (eigsOf eig (calcSystemMatrix s)) := by
      unfold bedCols
      refine List.mem_append_left _ (List.mem_append_left _ (List.mem_map.mpr ⟨⟨q.1.re, fun i => (q.2 i).re, if 0 < q.1.re then -1 else 0⟩,
        ?_, rfl⟩))
      simp only [eigsOf, List.mem_map, List.mem_filter, decide_eq_true_eq]
      exact ⟨q, ⟨hq, h ▸ hi, h ▸ hr⟩, rfl⟩
    have h2 := (InSpan.col h6 hcol).comb (InSpan.col h6 hcol) c.re 0
    convert h2 using 1
    funext x l i
    simp only [hc, h, Pi.smul_apply, smul_eq_mul, Complex.mul_re, him, Pi.add_apply]
    ring
  all_goals
    obtain ⟨m, hm, rfl⟩ := List.mem_map.mp hf
    simp only [eigsOf, List.mem_map, List.mem_filter, decide_eq_true_eq] at hm
    obtain ⟨q', ⟨hq', hi⟩, rfl⟩ := hm
    obtain ⟨q, hq, hqi, h, c, hc⟩ := cxm q' hq' hi
    have c1 := List.mem_map_of_mem (f := fun m : CplxMode => fun x l (i : Fin 6) => Real.exp (m.ew.re * (x + l * m.s)) *
      ((m.ev i).re * Real.cos (m.ew.im * x) - (m.ev i).im * Real.sin (m.ew.im * x))) (hmem q hq hqi)
    have c2 := List.mem_map_of_mem (f := fun m : CplxMode => fun x l (i : Fin 6) => Real.exp (m.ew.re * (x + l * m.s)) *
      ((m.ev i).im * Real.cos (m.ew.im * x) + (m.ev i).re * Real.sin (m.ew.im * x))) (hmem q hq hqi)
    have d1 : _ ∈ bedCols (eigsOf eig (calcSystemMatrix s)) := List.mem_append_left _ (List.mem_append_right _ c1)
    have d2 : _ ∈ bedCols (eigsOf eig (calcSystemMatrix s)) := List.mem_append_right _ c2
  · convert (InSpan.col h6 d1).comb (InSpan.col h6 d2) c.re (-c.im) using 1
    funext x l i
    simp only [hc, h, Pi.smul_apply, smul_eq_mul, Complex.mul_re, Complex.mul_im, Pi.add_apply]
    ring
  · convert (InSpan.col h6 d1).comb (InSpan.col h6 d2) c.im c.re using 1
    funext x l i
    simp only [hc, h, Pi.smul_apply, smul_eq_mul, Complex.mul_re, Complex.mul_im, Pi.add_apply]
    ring

/-- Any two eigensolvers give the same space of bedded solutions. -/
theorem blend (s : Self) (hs : Stiff s) (hm : s.B11 ≤ s.A11 * (s.h / 2)) {eig eig' : EigSolver}
    (he : EigOk (calcSystemMatrix s) (eig (calcSystemMatrix s))) (he' : EigOk (calcSystemMatrix s) (eig' (calcSystemMatrix s))) :
    ∃ T T', Blend (eigsOf eig (calcSystemMatrix s)) (eigsOf eig' (calcSystemMatrix s)) T T' := by
  have h61 := k61_ne s hs hm
  have h6 : ∀ {eig : EigSolver}, EigOk (calcSystemMatrix s) (eig (calcSystemMatrix s)) → ∀ x l,
      (zhBed (eigsOf eig (calcSystemMatrix s)) x l).length = 6 := fun he x l => by
    rw [zhBed_length]
    exact kept_modes _ s (K_det_ne_zero s hs.regular) he
  have g6 : ∀ {eig : EigSolver}, EigOk (calcSystemMatrix s) (eig (calcSystemMatrix s)) →
      (bedCols (eigsOf eig (calcSystemMatrix s))).length = 6 := fun he => by
    have := h6 he 0 0
    rwa [zhBed_cols, List.length_map] at this
  obtain ⟨T, hT⟩ := span_matrix (g6 he') (eigs_span s h61 he he' (g6 he))
  obtain ⟨T', hT'⟩ := span_matrix (g6 he) (eigs_span s h61 he' he (g6 he'))
  exact ⟨T, T', h6 he, h6 he', hT, hT'⟩

/-! ## Evaluation of a solution -/

/-- Segments for `ginc` with the same fields. -/
structure IncSame (T : Mat6) (g g' : IncSeg) : Prop where
  l : g'.l = g.l
  ki : g'.ki = g.ki
  k0 : g'.k0 = g.k0
  C0 : g.k0 = true → g.C0 = T.mulVec g'.C0
  C1 : g.ki = false → g'.C1 = g.C1

theorem same_segs {T : Mat6} {ki : List Bool} {C C' : List Vec6} (h : SameField T ki C C') (li : List ℝ) :
    List.Forall₂ (SegSame T) ((C.zip (ki.zip li)).map fun q => ⟨q.1, q.2.1, q.2.2⟩)
      ((C'.zip (ki.zip li)).map fun q => ⟨q.1, q.2.1, q.2.2⟩) := by
  refine List.forall₂_iff_get.mpr ⟨by simp [h.1], fun i h1 h2 => ?_⟩
  simp only [List.length_map, List.length_zip, lt_min_iff] at h1 h2
  simp only [List.get_eq_getElem, List.getElem_map, List.getElem_zip]
  refine ⟨rfl, rfl, ?_⟩
  have := h.2 i
  rwa [List.getD_eq_getElem _ _ h1.1, List.getD_eq_getElem _ _ h2.1, List.getD_eq_getElem _ _ h1.2.1] at this

theorem same_incSegs {T : Mat6} {ki k0 : List Bool} {C0 C0' C1 C1' : List Vec6} (h0 : SameField T k0 C0 C0')
    (h1 : SameField T ki C1 C1') (li : List ℝ) :
    List.Forall₂ (IncSame T) (incSegs C0 C1 li ki k0) (incSegs C0' C1' li ki k0) := by
  unfold incSegs
  refine List.forall₂_iff_get.mpr ⟨by simp [h0.1, h1.1], fun i a b => ?_⟩
  simp only [List.length_map, List.length_zip, lt_min_iff] at a b
  obtain ⟨a1, a2, a3, a4, a5⟩ := a
  obtain ⟨b1, b2, -, -, -⟩ := b
  simp only [List.get_eq_getElem, List.getElem_map, List.getElem_zip]
  refine ⟨rfl, rfl, rfl, fun h => ?_, fun h => ?_⟩
  · have e := h0.2 i
    rw [List.getD_eq_getElem _ _ a1, List.getD_eq_getElem _ _ b1, List.getD_eq_getElem _ _ a5] at e
    simp only at h
    rw [h] at e
    exact e
  · have e := h1.2 i
    rw [List.getD_eq_getElem _ _ a2, List.getD_eq_getElem _ _ b2, List.getD_eq_getElem _ _ a4] at e
    simp only at h
    rw [h] at e
    simpa [turn] using e.symm

section
variable {e e' : Eigs} {T T' : Mat6} (hB : Blend e e' T T') {s s' : Self} (hs : Swap e e' s s')
include hB hs

theorem swap_gincStep (quad : Quad) (phi : ℝ) (da : Option ℝ) (acc : ℝ × ℝ) {g g' : IncSeg} (h1 : g'.l = g.l)
    (h2 : g.C0 = (turn T true).mulVec g'.C0) (h3 : g.C1 = (turn T false).mulVec g'.C1) :
    gincStep quad s' phi da acc g' = gincStep quad s phi da acc g := by
  have e0 : ∀ x, zsol s' x g'.C0 g.l phi true = zsol s x g.C0 g.l phi true := fun x => hB.zsol hs h2 x _ _
  have e1 : ∀ x, zsol s' x g'.C1 g.l phi false = zsol s x g.C1 g.l phi false := fun x => hB.zsol hs h3 x _ _
  have i1 : ∀ x z0 z1, int1 s' x z0 z1 = int1 s x z0 z1 := fun x z0 z1 => by obtain ⟨-, rfl⟩ := hs; rfl
  have i2 : ∀ x z0 z1, int2 s' x z0 z1 = int2 s x z0 z1 := fun x z0 z1 => by obtain ⟨-, rfl⟩ := hs; rfl
  unfold gincStep
  simp only [h1, e0, e1, i1, i2]

theorem swap_gincFold (quad : Quad) (phi : ℝ) (da : Option ℝ) {a b : List IncSeg}
    (hf : List.Forall₂ (fun g g' : IncSeg => g'.l = g.l ∧ g.C0 = (turn T true).mulVec g'.C0 ∧ g.C1 = (turn T false).mulVec g'.C1) a b)
    (acc : ℝ × ℝ) : b.foldlM (gincStep quad s' phi da) acc = a.foldlM (gincStep quad s phi da) acc := by
  induction hf generalizing acc with
  | nil => rw [List.foldlM_nil, List.foldlM_nil]
  | @cons g g' _ _ h ht ih =>
    rw [List.foldlM_cons, List.foldlM_cons, swap_gincStep hB hs quad phi da acc h.1 h.2.1 h.2.2]
    simp only [ih]

theorem swap_ginc (quad : Quad) (phi : ℝ) {gs gs' : List IncSeg} (hg : List.Forall₂ (IncSame T) gs gs') :
    ginc quad s' phi gs' = ginc quad s phi gs := by
  have hf : List.Forall₂ (fun g g' : IncSeg => g'.l = g.l ∧ g.C0 = (turn T true).mulVec g'.C0 ∧ g.C1 = (turn T false).mulVec g'.C1)
      (gs.filter fun g => g.k0 && !g.ki) (gs'.filter fun g => g.k0 && !g.ki) := by
    induction hg with
    | nil => exact .nil
    | cons h ht ih =>
      rw [List.filter_cons, List.filter_cons, h.ki, h.k0]
      split
      · rename_i hc
        simp only [Bool.and_eq_true, Bool.not_eq_true'] at hc
        exact .cons ⟨h.l, h.C0 hc.1, by rw [h.C1 hc.2]; simp [turn]⟩ ih
      · exact ih
  have hl : (gs'.filter fun g => g.k0 && !g.ki).map IncSeg.l = (gs.filter fun g => g.k0 && !g.ki).map IncSeg.l := by
    revert hf
    generalize gs.filter (fun g => g.k0 && !g.ki) = a
    generalize gs'.filter (fun g => g.k0 && !g.ki) = b
    intro hf
    induction hf with
    | nil => rfl
    | cons h ht ih => rw [List.map_cons, List.map_cons, h.1, ih]
  unfold ginc
  simp only [hl, swap_gincFold hB hs quad phi _ hf]

omit hB hs in
theorem segs_getD {gs gs' : List Seg} (hg : List.Forall₂ (SegSame T) gs gs') (i : ℕ) :
    SegSame T (gs.getD i ⟨0, false, 0⟩) (gs'.getD i ⟨0, false, 0⟩) := by
  induction hg generalizing i with
  | nil => exact ⟨rfl, rfl, by simp⟩
  | cons h ht ih =>
    cases i with
    | zero => exact h
    | succ i => exact ih i

omit hB hs in
theorem segs_k {gs gs' : List Seg} (hg : List.Forall₂ (SegSame T) gs gs') : gs'.map Seg.k = gs.map Seg.k ∧
    gs'.map Seg.l = gs.map Seg.l := by
  induction hg with
  | nil => exact ⟨rfl, rfl⟩
  | cons h ht ih => simp only [List.map_cons, h.k, h.l, ih.1, ih.2, and_self]

theorem swap_gdif (phi : ℝ) (unit : String) (arr : Bool) {gs gs' : List Seg} (hg : List.Forall₂ (SegSame T) gs gs') :
    gdif s' phi gs' unit arr = gdif s phi gs unit arr := by
  have e : tipRate s' phi gs' unit = tipRate s phi gs unit := by
    funext i
    have h := segs_getD hg i
    unfold tipRate
    simp only [h.k, h.l, hB.zsol hs h.C]
    obtain ⟨-, rfl⟩ := hs
    rfl
  unfold gdif
  rw [e, (segs_k hg).1]

theorem swap_potential (phi L : ℝ) (n : ℕ) {gs gs' : List Seg} (hg : List.Forall₂ (SegSame T) gs gs') :
    totalPotential s' phi L n gs' = totalPotential s phi L n gs := by
  have e1 := swap_rasterize hB hs hg phi n
  have e2 : ∀ i, lengthAt gs' i = lengthAt gs i := fun i => by
    have := congrArg (fun v : List ℝ => v[i]?) (segs_k hg).2
    unfold lengthAt
    simp only [List.getElem?_map] at this
    revert this
    cases gs[i]? <;> cases gs'[i]? <;> simp
  unfold totalPotential internalPotential externalPotential
  rw [e1]
  simp only [e2]
  obtain ⟨-, rfl⟩ := hs
  rfl

end

/-! ## Objects built with two eigensolvers -/

theorem ready_before {eig : EigSolver} {s : Self} (hr : Ready eig s) (eig' : EigSolver) (ratio : ℝ) :
    Before eig eig' (calcSystemMatrix s) (calcSystemMatrix { s with kn := ratio * s.kn, kt := ratio * s.kt }) ratio s
      (calcEigensystem eig' s) :=
  ⟨congrArg Self.eigs hr.fresh.eigFresh.symm, rfl, rfl, rfl⟩

theorem ready_blends {eig eig' : EigSolver} (h1 : ∀ K, EigOk K (eig K)) (h2 : ∀ K, EigOk K (eig' K)) {s : Self} (hr : Ready eig s)
    (ratio : ℝ) (h0 : 0 < ratio) :
    (∃ T T', Blend (eigsOf eig (calcSystemMatrix s)) (eigsOf eig' (calcSystemMatrix s)) T T') ∧
    ∃ T T', Blend (eigsOf eig (calcSystemMatrix { s with kn := ratio * s.kn, kt := ratio * s.kt }))
      (eigsOf eig' (calcSystemMatrix { s with kn := ratio * s.kn, kt := ratio * s.kt })) T T' := by
  have hs := hr.stiff
  have hm := moment_le eig s hr
  refine ⟨blend s hs hm (h1 _) (h2 _), blend { s with kn := ratio * s.kn, kt := ratio * s.kt }
    ⟨hs.h, hs.t, mul_pos h0 hs.kn, mul_pos h0 hs.kt, hs.A11, hs.D11, hs.kA55, hs.K0_eq, hs.K0⟩ hm (h1 _) (h2 _)⟩

theorem foundation_other (eig eig' : EigSolver) (t E nu : ℝ) (s : Self) (e : Eigs) :
    setFoundationProperties eig' t E nu true { s with eigs := e }
      = calcEigensystem eig' (setFoundationProperties eig t E nu true s) := rfl

theorem layered_other (eig eig' : EigSolver) (system : String) (layers : CtorLayers) (td : Bool) :
    layeredInit eig' system layers td = (layeredInit eig system layers td).map (calcEigensystem eig') := by
  unfold layeredInit
  cases layers.truthy with
  | error e => rfl
  | ok b =>
    simp only [bind, Except.bind]
    generalize (if b = true then _ else _ : LayersArg) = arg
    unfold setBeamProperties
    cases arg with
    | rows l =>
      cases l with
      | nil => rfl
      | cons l ls => rfl
    | str w =>
      dsimp only
      cases lastWord w with
      | none => rfl
      | some w =>
        dsimp only
        cases loadDummyProfile w with
        | error e => rfl
        | ok v => rfl

end Weac
