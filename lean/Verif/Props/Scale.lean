import Verif.Lemmas.Scale
import Verif.Lemmas.Mesh
import Verif.Props.Mirror
import Verif.Props.Incremental

/-!
# C70: results are dimensionally consistent
-/

namespace Weac
open Spec

section
variable {c : Scale} {s s' : Self}

/-! ## Hypotheses hold at every scale -/

theorem Spec.Similar.shear (hb : c.Beams s.beam s'.beam) (hc : ShearOk s) : ShearOk s' := by
  have hl := c.len_pos
  have hs := c.stiff_pos
  have h1 : s'.kt = c.stiff / c.len * s.kt := hb.kt
  have h2 : s'.t = c.len * s.t := hb.t
  have h3 : s'.kA55 = c.stiff * c.len * s.kA55 := hb.S
  unfold ShearOk at hc ⊢
  rw [h1, h2, h3]
  have e : c.stiff / c.len * s.kt * (c.len * s.t) ^ 2 = c.stiff * c.len * (s.kt * s.t ^ 2) := by
    field_simp
  rw [e]
  nlinarith [mul_pos hs hl]

theorem cubic_scaled (hb : c.Beams s.beam s'.beam) (hs : Stiff s) (hs' : Stiff s') :
    (cubicOf s').p = (cubicOf s).p / c.len ^ 2 ∧ (cubicOf s').q = (cubicOf s).q / c.len ^ 4 ∧
      (cubicOf s').r = (cubicOf s).r / c.len ^ 6 := by
  have hl := c.len_pos.ne'
  have hf := c.stiff_pos.ne'
  have h1 : s'.kt = c.stiff / c.len * s.kt := hb.kt
  have h2 : s'.kn = c.stiff / c.len * s.kn := hb.kn
  have h3 : s'.kA55 = c.stiff * c.len * s.kA55 := hb.S
  have h4 : s'.A11 = c.stiff * c.len * s.A11 := hb.A
  have h5 : s'.B11 = c.stiff * c.len ^ 2 * s.B11 := hb.B
  have h6 : s'.D11 = c.stiff * c.len ^ 3 * s.D11 := hb.D
  have h7 : s'.h = c.len * s.h := hb.h
  have h8 : s'.t = c.len * s.t := hb.t
  have h9 : s'.K0 = c.stiff ^ 2 * c.len ^ 4 * s.K0 := by rw [hs'.K0_eq, hs.K0_eq, h4, h5, h6]; ring
  have hK := hs.K0.ne
  have hS := hs.kA55.ne'
  have e10 : calcSystemMatrix s' 1 0 = calcSystemMatrix s 1 0 / c.len ^ 2 := by
    simp only [calcSystemMatrix, Matrix.of_apply, Matrix.cons_val', Matrix.cons_val, h1, h5, h6, h7, h8, h9]
    field_simp
  have e13 : calcSystemMatrix s' 1 3 = calcSystemMatrix s 1 3 / c.len := by
    simp only [calcSystemMatrix, Matrix.of_apply, Matrix.cons_val', Matrix.cons_val, h1, h3, h5, h6, h7, h8, h9]
    field_simp
  have e14 : calcSystemMatrix s' 1 4 = calcSystemMatrix s 1 4 / c.len := by
    simp only [calcSystemMatrix, Matrix.of_apply, Matrix.cons_val', Matrix.cons_val, h1, h3, h5, h6, h7, h8, h9]
    field_simp
  have e32 : calcSystemMatrix s' 3 2 = calcSystemMatrix s 3 2 / c.len ^ 2 := by
    simp only [calcSystemMatrix, Matrix.of_apply, Matrix.cons_val', Matrix.cons_val, h2, h3]
    field_simp
  have e50 : calcSystemMatrix s' 5 0 = calcSystemMatrix s 5 0 / c.len ^ 3 := by
    simp only [calcSystemMatrix, Matrix.of_apply, Matrix.cons_val', Matrix.cons_val, h1, h4, h5, h7, h8, h9]
    field_simp
  have e53 : calcSystemMatrix s' 5 3 = calcSystemMatrix s 5 3 / c.len ^ 2 := by
    simp only [calcSystemMatrix, Matrix.of_apply, Matrix.cons_val', Matrix.cons_val, h1, h3, h4, h5, h7, h8, h9]
    field_simp
  have e54 : calcSystemMatrix s' 5 4 = calcSystemMatrix s 5 4 / c.len ^ 2 := by
    simp only [calcSystemMatrix, Matrix.of_apply, Matrix.cons_val', Matrix.cons_val, h1, h3, h4, h5, h7, h8, h9]
    field_simp
  simp only [cubicOf, e10, e13, e14, e32, e50, e53, e54]
  refine ⟨?_, ?_, ?_⟩ <;> field_simp

/-- Whether eigenvalues coincide does not depend on the scale. -/
theorem disc_scaled (hb : c.Beams s.beam s'.beam) (hs : Stiff s) (hs' : Stiff s') :
    (cubicOf s').disc = (cubicOf s).disc / c.len ^ 12 := by
  have hl := c.len_pos.ne'
  obtain ⟨h1, h2, h3⟩ := cubic_scaled hb hs hs'
  unfold Cubic.disc
  rw [h1, h2, h3]
  field_simp

theorem Spec.Similar.bedOk {eig : EigSolver} (h : Similar c s s') (hr : Ready eig s) (hr' : Ready eig s')
    (he' : EigOk (calcSystemMatrix s') (eig (calcSystemMatrix s'))) (hd : (cubicOf s).disc ≠ 0) : BedOk s' := by
  refine C13_discriminant eig s' hr'.stiff hr'.fresh.eigFresh he' ?_
  rw [disc_scaled (h.beams hr hr') hr.stiff hr'.stiff]
  exact div_ne_zero hd (pow_ne_zero _ c.len_pos.ne')

/-- The auxiliary problem of a resting tip, at scale. -/
theorem Spec.Similar.restOk {num : Numerics} (h : Similar c s s') (hr : Ready num.eig s) (hr' : Ready num.eig s')
    (hq : 0 < s.ratio) (htd : s.td < s.a)
    (he : EigOk (calcSystemMatrix s'.scaled) (num.eig (calcSystemMatrix s'.scaled)))
    (hd : (cubicOf s.scaled).disc ≠ 0) (hc : s.ratio * s.kt * s.t ^ 2 < 16 * s.kA55) : RestOk num s' := by
  have hb := h.beams hr hr'
  have hq' : 0 < s'.ratio := by rw [h.ratio]; exact hq
  have hbs : c.Beams s.scaled.beam s'.scaled.beam := by
    have k1 : s'.kn = c.stiff / c.len * s.kn := hb.kn
    have k2 : s'.kt = c.stiff / c.len * s.kt := hb.kt
    refine ⟨hb.A, hb.B, hb.D, hb.S, ?_, ?_, hb.h, hb.t, hb.zs⟩
    · show s'.ratio * s'.kn = _ * (s.ratio * s.kn); rw [h.ratio, k1]; ring
    · show s'.ratio * s'.kt = _ * (s.ratio * s.kt); rw [h.ratio, k2]; ring
  refine restOk_of num s' hr'.stiff hq' ?_ he ?_ ?_
  · rw [h.td, h.a]; exact mul_lt_mul_of_pos_left htd c.len_pos
  · rw [disc_scaled hbs (hr.stiff.scaled hq) (hr'.stiff.scaled hq')]
    exact div_ne_zero hd (pow_ne_zero _ c.len_pos.ne')
  · exact Similar.shear (s := s.scaled) (s' := s'.scaled) hbs hc

theorem Spec.Scale.nth_li (c : Scale) (a : SegLists) (i : ℕ) : nth (c.lists a).li i = c.len * nth a.li i := by
  unfold nth Scale.lists
  rw [List.getD_eq_getElem?_getD, List.getD_eq_getElem?_getD, List.getElem?_map]
  cases a.li[i]? <;> simp

theorem Spec.Scale.held (h : Similar c s s') {a : SegLists} (ha : Held s a) : Held s' (c.lists a) := by
  obtain ⟨h1, i, h2, h3, h4⟩ := ha
  refine ⟨fun l hl => ?_, i, by simpa [Scale.lists] using h2, ?_, ?_⟩
  · obtain ⟨x, hx, rfl⟩ := List.mem_map.mp hl
    exact mul_nonneg c.len_pos.le (h1 x hx)
  · exact h3.imp_right fun h5 => h.kinds.2.2.1.mpr h5
  · rw [c.nth_li]; exact mul_pos c.len_pos h4

theorem Spec.Scale.valid (h : Similar c s s') {a : SegLists} (ha : Valid s a) : Valid s' (c.lists a) := by
  obtain ⟨h1, h2, h3, h4⟩ := ha
  refine ⟨h1, by simpa [Scale.lists] using h2, by simpa [Scale.lists] using h3, ?_⟩
  rw [h.system]; exact h4

theorem Spec.Scale.full (c : Scale) (a : SegLists) : full (c.lists a) = c.lists (full a) := by
  unfold Weac.full
  by_cases h : a.li.length = 1
  · rw [if_pos h, if_pos (by simpa [Scale.lists] using h)]
    simp [Scale.lists]
  · rw [if_neg h, if_neg (by simpa [Scale.lists] using h)]

/-! ## The solution -/

/-- C70. A slab and its model at another scale, with segments, skiers and lengths
of a propagation saw test in proportion, have solutions in proportion. -/
theorem C70_solution_partial (num : Numerics) (kind kind' : SeqKind) (phi : ℝ) (a a1 a2 : SegLists) (s1 s2 : Self)
    (C C' : List Vec6) (h : Similar c s s') (hr : Ready num.eig s) (hr' : Ready num.eig s') (hb : BedOk s) (hb' : BedOk s')
    (hc : ShearOk s) (hn : NoFaceTouchdown s) (hsys : IsPst s ∨ IsVpst s ∨ IsSkier s)
    (hsp : IsPst s → OpenEnd a → s.mode = .C → RestOk num s ∧ RestOk num s') (hheld : Held s a)
    (hrun : assembleAndSolve num kind phi a s = (.ok (C, a1), s1))
    (hrun' : assembleAndSolve num kind' phi (c.lists a) s' = (.ok (C', a2), s2)) :
    ∀ i < a.li.length, ∀ x,
      zsol s' (c.len * x) (C'.getD i 0) (c.len * nth a.li i) phi (a.ki.getD i false)
        = c.state (zsol s x (C.getD i 0) (nth a.li i) phi (a.ki.getD i false)) := by
  have hl := c.len_pos.ne'
  have hbm := h.beams hr hr'
  have hf := hr.fresh.eigFresh
  have hf' := hr'.fresh.eigFresh
  obtain ⟨i1, i2, i3, i4⟩ := h.kinds
  have hn' : NoFaceTouchdown s' := fun hv => by rw [h.mode]; exact hn (i2.mp hv)
  obtain ⟨hv, hm⟩ := solved_meets hf hn hrun
  obtain ⟨hv', hm'⟩ := solved_meets hf' hn' hrun'
  have hki := hv.ki
  have hmi := hv.mi
  set n := a.li.length with hnl
  have hn0 : 0 < n := by omega
  have nB : (c.lists a).li.length = n := by simp [Scale.lists, hnl]
  set Z := stateAt s phi a.li a.ki (fun i => C.getD i 0) with hZ
  have hdr := fun i => stateAt_driven s hb phi a.li a.ki (fun i => C.getD i 0) i
  obtain ⟨m1, m2, m3⟩ := hm
  have hkR : ∀ k, (OpenEnd a ∨ k = true) → ∀ e, endCond s' phi (valOf (spring num) s') e k
      = endCond s' phi (c.stiff * c.len ^ 2 * valOf (spring num) s) e k := by
    intro k hk e
    refine endCond_spring _ _ _ _ _ _ fun hp hkf hmC => ?_
    rcases hk with hk | hk
    · obtain ⟨r1, r2⟩ := hsp (i1.mp hp) hk (by rw [← h.mode]; exact hmC)
      exact h.spring num hbm hf hf' r1 r2
    · rw [hk] at hkf; simp at hkf
  have key := field_unique s' hb' (Similar.shear hbm hc) phi _ (spring_nonneg num s') (c.lists a) (Scale.held h hheld) _ hm'
    (fun i x => c.state (Z i (x / c.len))) (fun i hi => ?_) ⟨?_, ?_, ?_⟩
  · intro i hi x
    have e := key i (by omega) (c.len * x)
    rw [mul_div_cancel_left₀ _ hl] at e
    rw [← c.nth_li]
    exact e.symm
  · show Driven s'.beam (a.ki.getD i false) (driveOf s' phi (a.ki.getD i false)) _
    rw [h.drive hbm]
    exact (hdr i).scaled hbm
  · show (endCond s' phi _ .left (a.ki.getD 0 false)).Holds _ _
    rw [hkR _ (by
      cases hk : a.ki.getD 0 false with
      | true => exact .inr rfl
      | false => exact .inl (.inl hk))]
    simp only [zero_div]
    exact h.endCond hbm hb.stiff hsys phi _ .left _ _ m1
  · rw [nB]
    show (endCond s' phi _ .right (a.ki.getD (n - 1) false)).Holds _ (c.state (Z (n - 1) (nth (c.lists a).li (n - 1) / c.len)))
    rw [hkR _ (by
      cases hk : a.ki.getD (n - 1) false with
      | true => exact .inr rfl
      | false => exact .inl (.inr hk)), c.nth_li, mul_div_cancel_left₀ _ hl]
    exact h.endCond hbm hb.stiff hsys phi _ .right _ _ m2
  · intro i hi
    rw [nB] at hi
    have t := m3 i hi
    simp only [c.nth_li, mul_div_cancel_left₀ _ hl, zero_div]
    rw [h.jump hbm]
    exact t.scaled hbm

/-- C70. The problem at another scale is solved whenever the original is: what
can go wrong does not depend on units. -/
theorem C70_solvable (num : Numerics) (kind : SeqKind) (phi : ℝ) (a : SegLists) (h : Similar c s s')
    (hr : Ready num.eig s) (hr' : Ready num.eig s') (he' : EigOk (calcSystemMatrix s') (num.eig (calcSystemMatrix s')))
    (hd : (cubicOf s).disc ≠ 0) (hc : ShearOk s) (hv : Valid s a) (hkd : kind = .list ∨ a.li.length ≠ 1)
    (hsys : IsPst s ∨ IsVpst s ∨ IsSkier s) (hst : IsPst s → OpenEnd (full a) → s.mode ≠ .unset)
    (hsp : IsPst s → OpenEnd (full a) → s.mode = .C → RestOk num s') (hheld : Held s a) :
    ∃ C', assembleAndSolve num kind phi (c.lists a) s' = (.ok (C', c.lists (full a)), s') := by
  obtain ⟨i1, i2, i3, i4⟩ := h.kinds
  have ho : OpenEnd (full (c.lists a)) → OpenEnd (full a) := by
    rw [c.full]
    intro ho
    unfold OpenEnd Scale.lists at ho
    simpa [OpenEnd] using ho
  obtain ⟨C', hC', -⟩ := C18_held num kind phi (c.lists a) s' (h.bedOk hr hr' he' hd) (Similar.shear (h.beams hr hr') hc)
    hr'.fresh.eigFresh (Scale.valid h hv) (by simpa [Scale.lists] using hkd)
    (by rcases hsys with h1 | h1 | h1
        · exact .inl (i1.mpr h1)
        · exact .inr (.inl (i2.mpr h1))
        · exact .inr (.inr (.inl (i3.mpr h1))))
    (fun hp ho' => by rw [h.mode]; exact hst (i1.mp hp) (ho ho'))
    (fun hp ho' hm => hsp (i1.mp hp) (ho ho') (by rw [← h.mode]; exact hm)) (Scale.held h hheld)
  rw [c.full] at hC'
  exact ⟨C', hC'⟩

end

/-! ## Quantities read from the solution -/

section
variable {c : Scale} {s s' : Self}

/-- C70. Displacements, rotations, section forces, weak-layer stresses and
strains, and energy release rates of a scaled state. -/
theorem C70_fields (hb : c.Beams s.beam s'.beam) (hkn : 0 < s.kn) (hkt : 0 < s.kt) (ht : 0 < s.t) (z : Vec6) (z0 : ℝ) :
    fu (c.state z) (c.len * z0) = c.disp * fu z z0 ∧ fw (c.state z) = c.disp * fw z ∧ fpsi (c.state z) = c.rot * fpsi z ∧
    fdw (c.state z) = c.rot * fdw z ∧ fdpsi (c.state z) = c.curv * fdpsi z ∧ fdu (c.state z) (c.len * z0) = c.rot * fdu z z0 ∧
    fN s' (c.state z) = c.force * fN s z ∧ fM s' (c.state z) = c.moment * fM s z ∧ fV s' (c.state z) = c.force * fV s z ∧
    fsig s' (c.state z) = c.stress * fsig s z ∧ ftau s' (c.state z) = c.stress * ftau s z ∧
    feps s' (c.state z) = c.rot * feps s z ∧ fgamma s' (c.state z) = c.rot * fgamma s z ∧
    fGi s' (c.state z) = c.energy * fGi s z ∧ fGii s' (c.state z) = c.energy * fGii s z := by
  have hl := c.len_pos.ne'
  have hs := c.stiff_pos.ne'
  have h1 : s'.kt = c.stiff / c.len * s.kt := hb.kt
  have h2 : s'.kn = c.stiff / c.len * s.kn := hb.kn
  have h7 : s'.h = c.len * s.h := hb.h
  have h8 : s'.t = c.len * s.t := hb.t
  have k1 := hkt.ne'
  have k2 := hkn.ne'
  have k3 := ht.ne'
  have eu : ∀ z0, fu (c.state z) (c.len * z0) = c.disp * fu z z0 := fun z0 => by
    simp only [fu, fpsi, Scale.state, Matrix.cons_val]
    rw [c.disp_eq]; ring
  have ew : fw (c.state z) = c.disp * fw z := rfl
  have edw : fdw (c.state z) = c.rot * fdw z := rfl
  have eu' : fu (c.state z) (c.len * s.h / 2) = c.disp * fu z (s.h / 2) := by rw [← eu, mul_div_assoc]
  have esig : fsig s' (c.state z) = c.stress * fsig s z := by
    simp only [fsig, ew, h2, Scale.disp, Scale.stress]; field_simp
  have etau : ftau s' (c.state z) = c.stress * ftau s z := by
    simp only [ftau, edw, h1, h7, h8, eu', Scale.disp, Scale.rot, Scale.stress]; field_simp
  refine ⟨eu z0, ew, rfl, edw, rfl, ?_, hb.N z, hb.M z, hb.V z, esig, etau, ?_, ?_, ?_, ?_⟩
  · simp only [fdu, fdpsi, Scale.state, Matrix.cons_val]
    rw [c.rot_eq]; ring
  · simp only [feps, ew, h8, c.disp_eq]; field_simp
  · simp only [fgamma, edw, h7, h8, eu', c.disp_eq]; field_simp
  · simp only [fGi, esig, h2, Scale.stress, Scale.energy]; field_simp
  · simp only [fGii, etau, h1, Scale.stress, Scale.energy]; field_simp

/-- A segment of the solution and its model. -/
structure SegScaled (c : Scale) (s s' : Self) (phi : ℝ) (g g' : Seg) : Prop where
  k : g'.k = g.k
  l : g'.l = c.len * g.l
  nonneg : 0 ≤ g.l
  z : ∀ x, zsol s' (c.len * x) g'.C g'.l phi g'.k = c.state (zsol s x g.C g.l phi g.k)

/-- Segments with the constants of a solution. -/
def segsOf (C : List Vec6) (a : SegLists) : List Seg :=
  (C.zip (a.ki.zip a.li)).map fun q => ⟨q.1, q.2.1, q.2.2⟩

theorem segs_scaled (num : Numerics) (kind kind' : SeqKind) (phi : ℝ) (a a1 a2 : SegLists) (s1 s2 : Self)
    (C C' : List Vec6) (h : Similar c s s') (hr : Ready num.eig s) (hr' : Ready num.eig s') (hb : BedOk s) (hb' : BedOk s')
    (hc : ShearOk s) (hn : NoFaceTouchdown s) (hsys : IsPst s ∨ IsVpst s ∨ IsSkier s)
    (hsp : IsPst s → OpenEnd a → s.mode = .C → RestOk num s ∧ RestOk num s') (hheld : Held s a)
    (hrun : assembleAndSolve num kind phi a s = (.ok (C, a1), s1))
    (hrun' : assembleAndSolve num kind' phi (c.lists a) s' = (.ok (C', a2), s2)) :
    List.Forall₂ (SegScaled c s s' phi) (segsOf C a) (segsOf C' (c.lists a)) := by
  have hn' : NoFaceTouchdown s' := fun hv => by rw [h.mode]; exact hn (h.kinds.2.1.mp hv)
  have key := C70_solution_partial num kind kind' phi a a1 a2 s1 s2 C C' h hr hr' hb hb' hc hn hsys hsp hheld hrun hrun'
  have hv := (solved_meets hr.fresh.eigFresh hn hrun).1
  obtain ⟨-, rfl, n1, -⟩ := C16_solution_meets_all_conditions num kind phi a a1 s s1 C hr.fresh.eigFresh hn hrun
  obtain ⟨-, rfl, n2, -⟩ := C16_solution_meets_all_conditions num kind' phi _ a2 s' s2 C' hr'.fresh.eigFresh hn' hrun'
  have g1 : a.li.length ≤ (full a).li.length := by unfold full; split_ifs <;> simp
  have g2 : (full (c.lists a)).li.length = (full a).li.length := by rw [c.full]; simp [Scale.lists]
  have hk := hv.ki
  have m1 : (segsOf C a).length = a.li.length := by simp [segsOf]; omega
  have m2 : (segsOf C' (c.lists a)).length = a.li.length := by simp [segsOf, Scale.lists]; omega
  rw [List.forall₂_iff_get]
  refine ⟨by rw [m1, m2], fun i h1 h2 => ?_⟩
  have hi : i < a.li.length := by omega
  have hC : C.getD i 0 = C[i]'(by omega) := List.getD_eq_getElem _ _ _
  have hC' : C'.getD i 0 = C'[i]'(by omega) := List.getD_eq_getElem _ _ _
  have hK : a.ki.getD i false = a.ki[i]'(by omega) := List.getD_eq_getElem _ _ _
  have hL : nth a.li i = a.li[i]'hi := List.getD_eq_getElem _ _ _
  have e1 : (segsOf C a).get ⟨i, h1⟩ = ⟨C.getD i 0, a.ki.getD i false, nth a.li i⟩ := by
    rw [hC, hK, hL]; simp [segsOf]
  have e2 : (segsOf C' (c.lists a)).get ⟨i, h2⟩ = ⟨C'.getD i 0, a.ki.getD i false, c.len * nth a.li i⟩ := by
    rw [hC', hK, hL]; simp [segsOf, Scale.lists]
  rw [e1, e2]
  exact ⟨rfl, rfl, hheld.nth_nonneg i, fun x => key i hi x⟩

/-! ## Grid of the solution -/

/-- A grid point and its model. -/
noncomputable def Spec.Scale.pt (c : Scale) (p : GridPt) : GridPt := ⟨c.len * p.x, c.state p.z, p.sup⟩

theorem linspace_scaled (r l : ℝ) (n : ℕ) (e : Bool) : linspace (r * l) n e = (linspace l n e).map (r * ·) := by
  unfold linspace
  rw [List.map_map]
  refine List.map_congr_left fun j _ => ?_
  cases e <;> simp [mul_assoc, mul_div_assoc]

theorem nqOf_scaled (c : Scale) (num : ℕ) (tot l : ℝ) (last : Bool) :
    nqOf num (c.len * tot) (c.len * l) last = nqOf num tot l last := by
  unfold nqOf
  rw [mul_div_mul_left _ _ c.len_pos.ne']

theorem segPts_scaled (phi : ℝ) (num : ℕ) (tot x0 : ℝ) (prev : Option Bool) {g g' : Seg} (last : Bool)
    (h : SegScaled c s s' phi g g') :
    segPts s' phi num (c.len * tot) (c.len * x0) prev g' last = (segPts s phi num tot x0 prev g last).map c.pt := by
  unfold segPts
  rw [h.l, nqOf_scaled, linspace_scaled]
  refine List.ext_getElem (by simp) fun i h1 h2 => ?_
  have hz := h.z
  rw [h.l, h.k] at hz
  simp only [List.getElem_map, List.getElem_mapIdx, Scale.pt, hz, h.k, mul_add]

theorem rasterLoop_scaled (phi : ℝ) (num : ℕ) (tot : ℝ) {gs gs' : List Seg}
    (h : List.Forall₂ (SegScaled c s s' phi) gs gs') : ∀ x0 prev,
    rasterLoop s' phi num (c.len * tot) (c.len * x0) prev gs' = (rasterLoop s phi num tot x0 prev gs).map c.pt := by
  induction h with
  | nil => intro x0 prev; rfl
  | @cons g g' gs gs' hg hgs ih =>
    intro x0 prev
    have he : gs'.isEmpty = gs.isEmpty := by cases hgs <;> rfl
    simp only [rasterLoop, List.map_append]
    rw [he, segPts_scaled phi num tot x0 prev _ hg, hg.l, hg.k, ← mul_add, ih]

theorem dropZero_scaled (phi : ℝ) {gs gs' : List Seg} (h : List.Forall₂ (SegScaled c s s' phi) gs gs') :
    List.Forall₂ (SegScaled c s s' phi) (dropZero gs) (dropZero gs') := by
  induction h with
  | nil => exact .nil
  | @cons g g' gs gs' hg hgs ih =>
    obtain ⟨C, k, l⟩ := g
    obtain ⟨C', k', l'⟩ := g'
    have h1 : |l| = l := abs_of_nonneg hg.nonneg
    have e : l' = c.len * l := hg.l
    have h2 : |l'| = l' := abs_of_nonneg (by rw [e]; exact mul_nonneg c.len_pos.le hg.nonneg)
    unfold dropZero at ih ⊢
    simp only [List.map_cons, h1, h2, List.filter_cons]
    by_cases hp : 0 < l
    · have hp' : 0 < l' := by rw [e]; exact mul_pos c.len_pos hp
      simp only [hp, hp', decide_true, if_true]
      exact .cons hg ih
    · have hp' : ¬ 0 < l' := by rw [e]; rw [mul_pos_iff_of_pos_left c.len_pos]; exact hp
      simp only [hp, hp', decide_false, Bool.false_eq_true, if_false]
      exact ih

theorem sum_scaled (phi : ℝ) {gs gs' : List Seg} (h : List.Forall₂ (SegScaled c s s' phi) gs gs') :
    (gs'.map Seg.l).sum = c.len * (gs.map Seg.l).sum := by
  induction h with
  | nil => simp
  | cons hg _ ih => simp only [List.map_cons, List.sum_cons, ih, hg.l]; ring

/-- C70. The grid of the solution: positions in proportion, scaled states, the
same mask. -/
theorem C70_grid (phi : ℝ) (n : ℕ) {gs gs' : List Seg} (h : List.Forall₂ (SegScaled c s s' phi) gs gs') :
    rasterize s' phi n gs' = (rasterize s phi n gs).map (List.map c.pt) := by
  have hd := dropZero_scaled phi h
  unfold rasterize
  have hs := sum_scaled phi hd
  generalize hg : dropZero gs = us at *
  generalize hg' : dropZero gs' = us' at *
  cases hd with
  | nil => rfl
  | @cons g g' us us' h1 h2 =>
    simp only [hs]
    have e' := rasterLoop_scaled phi n ((g :: us).map Seg.l).sum (.cons h1 h2) 0 none
    rw [mul_zero] at e'
    rw [e']
    rfl

/-! ## Energy release rates -/

theorem tipRate_scaled (hb : c.Beams s.beam s'.beam) (hs : Stiff s) (phi : ℝ) (unit : String) {gs gs' : List Seg}
    (h : List.Forall₂ (SegScaled c s s' phi) gs gs') (i : ℕ) (hi : i < gs.length) :
    tipRate s' phi gs' unit i
      = (tipRate s phi gs unit i).map fun v => (c.energy * v.1, c.energy * v.2.1, c.energy * v.2.2) := by
  have hlen := h.length_eq
  have hg := (List.forall₂_iff_get.mp h).2 i hi (by omega)
  have e1 : gs.getD i ⟨0, false, 0⟩ = gs.get ⟨i, hi⟩ := List.getD_eq_getElem _ _ _
  have e2 : gs'.getD i ⟨0, false, 0⟩ = gs'.get ⟨i, by omega⟩ := List.getD_eq_getElem _ _ _
  unfold tipRate
  simp only [e1, e2]
  generalize gs.get ⟨i, hi⟩ = g at hg ⊢
  generalize gs'.get ⟨i, _⟩ = g' at hg ⊢
  have hz : zsol s' g'.l g'.C g'.l phi g'.k = c.state (zsol s g.l g.C g.l phi g.k) := by
    rw [← hg.z]; rw [hg.l]
  rw [hz]
  obtain ⟨-, -, -, -, -, -, -, -, -, -, -, -, -, f1, f2⟩ := C70_fields hb hs.kn hs.kt hs.t (zsol s g.l g.C g.l phi g.k) 0
  simp only [fGi, fGii, one_mul] at f1 f2
  unfold fGiU fGiiU
  rcases convertEnergy unit with e | r
  · rfl
  · show (Except.ok _ : Res _) = Except.ok _
    congr 1
    simp only [mul_div_assoc, f1, f2]
    refine Prod.ext ?_ (Prod.ext ?_ ?_) <;> dsimp only <;> ring

theorem mapM_res_map {α β γ : Type} (f : α → Res β) (g : α → Res γ) (r : β → γ) (l : List α)
    (h : ∀ x ∈ l, g x = (f x).map r) : l.mapM g = (l.mapM f).map (List.map r) := by
  induction l with
  | nil => rfl
  | cons x xs ih =>
    rw [List.mapM_cons, List.mapM_cons, h x (List.mem_cons_self ..), ih fun y hy => h y (List.mem_cons_of_mem _ hy)]
    rcases f x with e | v
    · rfl
    · rcases xs.mapM f with e | vs <;> rfl

/-- C70. Differential energy release rates. -/
theorem C70_gdif (hb : c.Beams s.beam s'.beam) (hs : Stiff s) (phi : ℝ) (unit : String) (arr : Bool) {gs gs' : List Seg}
    (h : List.Forall₂ (SegScaled c s s' phi) gs gs') :
    gdif s' phi gs' unit arr
      = (gdif s phi gs unit arr).map fun v => (c.energy * v.1, c.energy * v.2.1, c.energy * v.2.2) := by
  have hk : gs'.map Seg.k = gs.map Seg.k := by
    induction h with
    | nil => rfl
    | cons hg _ ih => simp only [List.map_cons, ih, hg.k]
  have hm := mapM_res_map (tipRate s phi gs unit) (tipRate s' phi gs' unit)
    (fun v => (c.energy * v.1, c.energy * v.2.1, c.energy * v.2.2)) (tipIndices (gs.map Seg.k)) fun i hi =>
      tipRate_scaled hb hs phi unit h i (by
        have := List.mem_filter.mp hi
        have := List.mem_range.mp this.1
        simp at this; omega)
  unfold gdif
  rw [hk, hm]
  rcases (tipIndices (gs.map Seg.k)).mapM (tipRate s phi gs unit) with e | G
  · rfl
  have hav : averageTips (gs.map Seg.k) arr (G.map fun v => (c.energy * v.1, c.energy * v.2.1, c.energy * v.2.2))
      = (averageTips (gs.map Seg.k) arr G).map (List.map fun v => (c.energy * v.1, c.energy * v.2.1, c.energy * v.2.2)) := by
    unfold averageTips
    rw [List.length_map]
    split_ifs
    · show Except.ok _ = Except.ok _
      congr 1
      refine List.ext_getElem (by simp) fun i h1 h2 => ?_
      simp only [List.getElem_map, List.getElem_mapIdx]
      split_ifs <;> refine Prod.ext ?_ (Prod.ext ?_ ?_) <;> dsimp only <;> ring
    · rfl
    · rfl
  show (averageTips _ arr (G.map _) >>= _) = Except.map _ (averageTips _ arr G >>= _)
  rw [hav]
  rcases averageTips (gs.map Seg.k) arr G with e | G'
  · rfl
  show Except.ok _ = Except.ok _
  congr 1
  simp only [List.map_map, Function.comp_def, List.sum_map_mul_left]

end

/-! ## Incremental energy release rates -/

section
variable {c : Scale} {s s' : Self}

/-- A segment of two solutions, before and after cracking, and its model. -/
structure IncScaled (c : Scale) (s s' : Self) (phi : ℝ) (g g' : IncSeg) : Prop where
  k0 : g'.k0 = g.k0
  ki : g'.ki = g.ki
  l : g'.l = c.len * g.l
  z0 : ∀ x, zsol s' (c.len * x) g'.C0 g'.l phi g'.k0 = c.state (zsol s x g.C0 g.l phi g.k0)
  z1 : ∀ x, zsol s' (c.len * x) g'.C1 g'.l phi g'.ki = c.state (zsol s x g.C1 g.l phi g.ki)

theorem quad_scaled {quad : Quad} (hq : QuadOk quad 0) (c : Scale) (r : ℝ) {f f' : ℝ → ℝ} (hf : Continuous f)
    (hf' : Continuous f') (h : ∀ x, f' (c.len * x) = r * f x) (l : ℝ) :
    quad f' 0 (c.len * l) = c.len * r * quad f 0 l := by
  have e : ∀ (f : ℝ → ℝ) (a b : ℝ), Continuous f → quad f a b = ∫ x in a..b, f x := fun f a b hf =>
    sub_eq_zero.mp (abs_nonpos_iff.mp (hq f a b hf))
  have h1 := intervalIntegral.mul_integral_comp_mul_left (a := 0) (b := l) (f := f') (c := c.len)
  rw [e _ _ _ hf, e _ _ _ hf']
  rw [mul_zero] at h1
  rw [← h1]
  simp only [h]
  rw [intervalIntegral.integral_const_mul, mul_assoc]

theorem gincStep_scaled {quad : Quad} (hq : QuadOk quad 0) (hb : c.Beams s.beam s'.beam) (hs : Stiff s) (phi : ℝ)
    (da : Option ℝ) {g g' : IncSeg} (h : IncScaled c s s' phi g g') (hg : g.k0 = true ∧ g.ki = false) (acc : ℝ × ℝ) :
    gincStep quad s' phi (da.map (c.len * ·)) (c.energy * acc.1, c.energy * acc.2) g'
      = (gincStep quad s phi da acc g).map fun v => (c.energy * v.1, c.energy * v.2) := by
  have hl := c.len_pos.ne'
  have hf := c.stiff_pos.ne'
  have z0 := h.z0
  have z1 := h.z1
  rw [h.k0, hg.1, h.l] at z0
  rw [h.ki, hg.2, h.l] at z1
  have F := fun z => C70_fields hb hs.kn hs.kt hs.t z 0
  have ht : s'.t = c.len * s.t := hb.t
  have c1 : ∀ (s : Self) (g : IncSeg), Continuous fun x => int1 s x (fun x => zsol s x g.C0 g.l phi true)
      (fun x => zsol s x g.C1 g.l phi false) := fun s g => by
    have c0 := continuous_pi_iff.mp (continuous_zsol s g.C0 g.l phi true)
    have c1 := continuous_pi_iff.mp (continuous_zsol s g.C1 g.l phi false)
    have := c0 2
    have := c1 2
    unfold int1 fsig feps fw
    fun_prop
  have c2 : ∀ (s : Self) (g : IncSeg), Continuous fun x => int2 s x (fun x => zsol s x g.C0 g.l phi true)
      (fun x => zsol s x g.C1 g.l phi false) := fun s g => by
    have c0 := continuous_pi_iff.mp (continuous_zsol s g.C0 g.l phi true)
    have c1 := continuous_pi_iff.mp (continuous_zsol s g.C1 g.l phi false)
    have := c0 0
    have := c0 3
    have := c0 4
    have := c1 0
    have := c1 3
    have := c1 4
    unfold int2 ftau fgamma fdw fu fpsi
    fun_prop
  have q1 := quad_scaled hq c c.energy (c1 s g) (c1 s' g') (fun x => by
    simp only [int1, h.l, z0, z1]
    obtain ⟨-, -, -, -, -, -, -, -, -, f1, -⟩ := F (zsol s x g.C0 g.l phi true)
    obtain ⟨-, -, -, -, -, -, -, -, -, -, -, f2, -⟩ := F (zsol s x g.C1 g.l phi false)
    rw [f1, f2, ht]
    unfold Scale.stress Scale.rot Scale.energy
    field_simp) g.l
  have q2 := quad_scaled hq c c.energy (c2 s g) (c2 s' g') (fun x => by
    simp only [int2, h.l, z0, z1]
    obtain ⟨-, -, -, -, -, -, -, -, -, -, f1, -⟩ := F (zsol s x g.C0 g.l phi true)
    obtain ⟨-, -, -, -, -, -, -, -, -, -, -, -, f2, -⟩ := F (zsol s x g.C1 g.l phi false)
    rw [f1, f2, ht]
    unfold Scale.stress Scale.rot Scale.energy
    field_simp) g.l
  rw [h.l] at q1 q2
  unfold gincStep
  rw [h.l]
  rcases da with _ | d
  · rfl
  · simp only [Option.map_some, q1, q2]
    congr 1
    have e : ∀ x, c.len * c.energy * x / (2 * (c.len * d)) = c.energy * (x / (2 * d)) := fun x => by
      rw [show c.len * c.energy * x = c.len * (c.energy * x) by ring, show 2 * (c.len * d) = c.len * (2 * d) by ring,
        mul_div_mul_left _ _ hl, mul_div_assoc]
    rw [e, e]
    refine Prod.ext ?_ ?_ <;> dsimp only <;> ring

/-- C70. Incremental energy release rates, for exact quadrature. -/
theorem C70_ginc {quad : Quad} (hq : QuadOk quad 0) (hb : c.Beams s.beam s'.beam) (hs : Stiff s) (phi : ℝ)
    {gs gs' : List IncSeg} (h : List.Forall₂ (IncScaled c s s' phi) gs gs') :
    ginc quad s' phi gs' = (ginc quad s phi gs).map fun v => (c.energy * v.1, c.energy * v.2.1, c.energy * v.2.2) := by
  have hcr : List.Forall₂ (fun g g' => IncScaled c s s' phi g g' ∧ g.k0 = true ∧ g.ki = false)
      (gs.filter fun g => g.k0 && !g.ki) (gs'.filter fun g => g.k0 && !g.ki) := by
    induction h with
    | nil => exact .nil
    | @cons g g' gs gs' hg hgs ih =>
      rw [List.filter_cons, List.filter_cons, hg.k0, hg.ki]
      by_cases hp : (g.k0 && !g.ki) = true
      · rw [if_pos hp, if_pos hp]
        exact .cons ⟨hg, by simpa using hp⟩ ih
      · rw [if_neg hp, if_neg hp]; exact ih
  unfold ginc
  generalize gs.filter (fun g => g.k0 && !g.ki) = us at hcr
  generalize gs'.filter (fun g => g.k0 && !g.ki) = us' at hcr
  have hsum : (us'.map IncSeg.l).sum = c.len * (us.map IncSeg.l).sum := by
    induction hcr with
    | nil => simp
    | cons hg _ ih => simp only [List.map_cons, List.sum_cons, ih, hg.1.l]; ring
  have hda : (if 0 < (us'.map IncSeg.l).sum then some (us'.map IncSeg.l).sum else none : Option ℝ)
      = (if 0 < (us.map IncSeg.l).sum then some (us.map IncSeg.l).sum else none : Option ℝ).map (c.len * ·) := by
    rw [hsum]
    by_cases hp : 0 < (us.map IncSeg.l).sum
    · rw [if_pos hp, if_pos (mul_pos c.len_pos hp)]; rfl
    · rw [if_neg hp, if_neg (by rw [mul_pos_iff_of_pos_left c.len_pos]; exact hp)]; rfl
  dsimp only
  rw [hda]
  generalize (if 0 < (us.map IncSeg.l).sum then some (us.map IncSeg.l).sum else none : Option ℝ) = da
  have key : ∀ acc : ℝ × ℝ, us'.foldlM (gincStep quad s' phi (da.map (c.len * ·))) (c.energy * acc.1, c.energy * acc.2)
      = (us.foldlM (gincStep quad s phi da) acc).map fun v => (c.energy * v.1, c.energy * v.2) := by
    clear hsum hda
    induction hcr with
    | nil => intro acc; rfl
    | cons hg _ ih =>
      intro acc
      rw [List.foldlM_cons, List.foldlM_cons, gincStep_scaled hq hb hs phi da hg.1 hg.2]
      rcases gincStep quad s phi da acc _ with _ | v
      · rfl
      · exact ih v
  have k0 := key (0, 0)
  simp only [mul_zero] at k0
  rw [k0, Option.map_map, Option.map_map]
  congr 1
  funext v
  simp only [Function.comp, mul_add]

/-! ## Stresses in the slab -/

/-- A mesh point and its model. -/
def Spec.Scale.mesh (c : Scale) (p : MeshPt) : MeshPt := ⟨c.len * p.z, c.stiff * p.E, p.nu, c.dens * p.rho⟩

/-- C70. The mesh through the slab, with the resolution in proportion. -/
theorem C70_mesh (h : Similar c s s') (hh : s'.h = c.len * s.h) (dz : ℝ) :
    getZmesh s' (c.len * dz) = (getZmesh s dz).map c.mesh := by
  rw [getZmesh_eq, getZmesh_eq, h.slab, hh, show -(c.len * s.h) / 2 = c.len * (-s.h / 2) by ring]
  generalize -s.h / 2 = top
  induction s.slab generalizing top with
  | nil => rfl
  | cons l ls ih =>
    have e : c.len * top + (c.layer l).h = c.len * (top + l.h) := by simp only [Scale.layer]; ring
    simp only [List.map_cons, meshFrom, List.map_append]
    rw [e, ih]
    congr 1
    unfold meshLayer
    rw [← mul_sub, mul_div_mul_left _ _ c.len_pos.ne', List.map_map]
    refine List.map_congr_left fun j _ => ?_
    simp only [Function.comp, Scale.mesh, Scale.layer, MeshPt.mk.injEq, and_true]
    ring

theorem cumTrap_scaled (r q : ℝ) (l : List (ℝ × ℝ)) : ∀ acc,
    cumTrap (r * q * acc) (l.map fun p => (r * p.1, q * p.2)) = (cumTrap acc l).map (r * q * ·) := by
  induction l with
  | nil => intro acc; rfl
  | cons p l ih =>
    intro acc
    cases l with
    | nil => rfl
    | cons p' l =>
      have e := ih (acc + (p'.1 - p.1) * (p.2 + p'.2) / 2)
      simp only [List.map_cons, cumTrap] at e ⊢
      rw [← e]
      congr 2
      ring

theorem zipWith_scaled (r : ℝ) (l l' : List ℝ) :
    List.zipWith (fun a b => a + b) (l.map (r * ·)) (l'.map (r * ·)) = (List.zipWith (fun a b => a + b) l l').map (r * ·) := by
  rw [List.zipWith_map, List.map_zipWith]
  simp only [mul_add]

theorem state_add (c : Scale) (x y : Vec6) : c.state (x + y) = c.state x + c.state y := by
  funext i
  fin_cases i <;> simp [Scale.state, mul_add]

theorem state_smul (c : Scale) (r : ℝ) (x : Vec6) : c.state (r • x) = r • c.state x := by
  funext i
  fin_cases i <;> simp [Scale.state] <;> ring

theorem system_scaled (hb : c.Beams s.beam s'.beam) (hs : Stiff s) (hs' : Stiff s') (z : Vec6) :
    (calcSystemMatrix s').mulVec (c.state z) = (1 / c.len) • c.state ((calcSystemMatrix s).mulVec z) := by
  have hl := c.len_pos.ne'
  have hf := c.stiff_pos.ne'
  have h1 : s'.kt = c.stiff / c.len * s.kt := hb.kt
  have h2 : s'.kn = c.stiff / c.len * s.kn := hb.kn
  have h3 : s'.kA55 = c.stiff * c.len * s.kA55 := hb.S
  have h4 : s'.A11 = c.stiff * c.len * s.A11 := hb.A
  have h5 : s'.B11 = c.stiff * c.len ^ 2 * s.B11 := hb.B
  have h6 : s'.D11 = c.stiff * c.len ^ 3 * s.D11 := hb.D
  have h7 : s'.h = c.len * s.h := hb.h
  have h8 : s'.t = c.len * s.t := hb.t
  have h9 : s'.K0 = c.stiff ^ 2 * c.len ^ 4 * s.K0 := by rw [hs'.K0_eq, hs.K0_eq, h4, h5, h6]; ring
  have hK := hs.K0.ne
  have hS := hs.kA55.ne'
  funext i
  fin_cases i <;>
    simp [calcSystemMatrix, Scale.state, Matrix.mulVec, dotProduct, Fin.sum_univ_six, h1, h2, h3, h4, h5, h6, h7, h8, h9,
      Scale.disp, Scale.rot, Scale.curv] <;> field_simp

theorem load_scaled (h : Similar c s s') (hb : c.Beams s.beam s'.beam) (hs : Stiff s) (hs' : Stiff s') (phi : ℝ) :
    getLoadVector s' phi = (1 / c.len) • c.state (getLoadVector s phi) := by
  have hl := c.len_pos.ne'
  have hf := c.stiff_pos.ne'
  obtain ⟨l1, l2, l3, l4⟩ := h.loads phi
  simp only [Self.loads] at l1 l2 l3 l4
  have h3 : s'.kA55 = c.stiff * c.len * s.kA55 := hb.S
  have h4 : s'.A11 = c.stiff * c.len * s.A11 := hb.A
  have h5 : s'.B11 = c.stiff * c.len ^ 2 * s.B11 := hb.B
  have h6 : s'.D11 = c.stiff * c.len ^ 3 * s.D11 := hb.D
  have h7 : s'.h = c.len * s.h := hb.h
  have h10 : s'.zs = c.len * s.zs := hb.zs
  have h9 : s'.K0 = c.stiff ^ 2 * c.len ^ 4 * s.K0 := by rw [hs'.K0_eq, hs.K0_eq, h4, h5, h6]; ring
  have hK := hs.K0.ne
  have hS := hs.kA55.ne'
  funext i
  fin_cases i <;>
    simp [getLoadVector, Scale.state, l1, l2, l3, l4, h3, h4, h5, h6, h7, h9, h10, Scale.stress,
      Scale.rot, Scale.curv] <;> field_simp

theorem dzdx_scaled (h : Similar c s s') (hb : c.Beams s.beam s'.beam) (hs : Stiff s) (hs' : Stiff s') (phi : ℝ) (z : Vec6) :
    dzdx s' (c.state z) phi = (1 / c.len) • c.state (dzdx s z phi) := by
  unfold dzdx
  rw [system_scaled hb hs hs', load_scaled h hb hs hs', state_add, smul_add]

theorem dzdxdx_scaled (h : Similar c s s') (hb : c.Beams s.beam s'.beam) (hs : Stiff s) (hs' : Stiff s') (phi : ℝ) (z : Vec6) :
    dzdxdx s' (c.state z) phi = (1 / c.len ^ 2) • c.state (dzdxdx s z phi) := by
  have e : ∀ (s : Self) z, dzdxdx s z phi = (calcSystemMatrix s).mulVec (dzdx s z phi) := fun _ _ => rfl
  have hl := c.len_pos.ne'
  rw [e, e, dzdx_scaled h hb hs hs', ← state_smul, system_scaled hb hs hs', Matrix.mulVec_smul, state_smul, smul_smul]
  congr 1
  field_simp

/-- C70. Axial, shear and normal stresses through the slab, on a mesh in
proportion. -/
theorem C70_slab_stresses (h : Similar c s s') (hb : c.Beams s.beam s'.beam) (hs : Stiff s) (hs' : Stiff s') (z : Vec6)
    (phi dz : ℝ) (unit : String) :
    fSxx s' (c.state z) phi (c.len * dz) unit = (fSxx s z phi dz unit).map (List.map (c.stress * ·)) ∧
    fTxz s' (c.state z) phi (c.len * dz) unit = (fTxz s z phi dz unit).map (List.map (c.stress * ·)) ∧
    fSzz s' (c.state z) phi (c.len * dz) unit = (fSzz s z phi dz unit).map (List.map (c.stress * ·)) := by
  have hl := c.len_pos.ne'
  have hf := c.stiff_pos.ne'
  have hm := C70_mesh h hb.h dz
  have d1 := dzdx_scaled h hb hs hs' phi z
  have d2 := dzdxdx_scaled h hb hs hs' phi z
  have a1 : du0dxdx s' (c.state z) phi = c.curv * du0dxdx s z phi := by
    unfold du0dxdx; rw [d1]
    show 1 / c.len * (c.rot * dzdx s z phi 1) = _
    rw [c.rot_eq]; field_simp
  have a2 : dpsidxdx s' (c.state z) phi = c.curv / c.len * dpsidxdx s z phi := by
    unfold dpsidxdx; rw [d1]
    show 1 / c.len * (c.curv * dzdx s z phi 5) = _
    field_simp
  have a3 : du0dxdxdx s' (c.state z) phi = c.curv / c.len * du0dxdxdx s z phi := by
    unfold du0dxdxdx; rw [d2]
    show 1 / c.len ^ 2 * (c.rot * dzdxdx s z phi 1) = _
    rw [c.rot_eq]; field_simp
  have a4 : dpsidxdxdx s' (c.state z) phi = c.curv / c.len ^ 2 * dpsidxdxdx s z phi := by
    unfold dpsidxdxdx; rw [d2]
    show 1 / c.len ^ 2 * (c.curv * dzdxdx s z phi 5) = _
    field_simp
  have hcv : c.stiff * c.curv = c.dens := by rw [mul_comm]; exact c.curv_eq
  refine ⟨?_, ?_, ?_⟩
  · unfold fSxx
    rw [hm]
    rcases convertStress unit with e | r
    · rfl
    show Except.ok _ = Except.ok _
    congr 1
    rw [List.map_map]
    refine List.ext_getElem (by simp) fun i h1 h2 => ?_
    have hn : ∀ j, nth ((getZmesh s dz).map (MeshPt.z ∘ c.mesh)) j = c.len * nth ((getZmesh s dz).map MeshPt.z) j := by
      intro j
      unfold nth
      simp only [List.getD_eq_getElem?_getD, List.getElem?_map]
      cases (getZmesh s dz)[j]? <;> simp [Scale.mesh]
    have hdu : ∀ x, fdu (c.state z) (c.len * x) = c.rot * fdu z x := fun x => by
      simp only [fdu, fdpsi, Scale.state, Matrix.cons_val]
      rw [c.rot_eq]; ring
    have hr : c.stiff * c.rot = c.dens * c.len := by unfold Scale.rot; field_simp
    simp only [List.getElem_map, List.getElem_mapIdx, List.length_map, List.map_map, hn, h.g, Function.comp_apply]
    generalize (getZmesh s dz)[i]'(by simpa using h1) = p
    simp only [Scale.mesh, hdu, Scale.stress]
    split_ifs <;> linear_combination (r * (p.E / (1 - p.nu ^ 2)) * fdu z p.z) * hr
  · unfold fTxz
    rw [hm]
    rcases convertStress unit with e | r
    · rfl
    show Except.ok _ = Except.ok _
    congr 1
    have t1 : ((getZmesh s dz).map c.mesh).map (fun p => (p.z, p.E / (1 - p.nu ^ 2)
          * (du0dxdx s' (c.state z) phi + p.z * dpsidxdx s' (c.state z) phi)))
        = ((getZmesh s dz).map fun p => (p.z, p.E / (1 - p.nu ^ 2) * (du0dxdx s z phi + p.z * dpsidxdx s z phi))).map
          fun p => (c.len * p.1, c.dens * p.2) := by
      rw [List.map_map, List.map_map]
      refine List.map_congr_left fun p _ => Prod.ext rfl ?_
      simp only [Function.comp, Scale.mesh, a1, a2]
      rw [← hcv]
      field_simp
    have t2 : ((getZmesh s dz).map c.mesh).map (fun p => (p.z, -(1e-12 * p.rho) * s'.g * Real.sin (deg2rad phi)))
        = ((getZmesh s dz).map fun p => (p.z, -(1e-12 * p.rho) * s.g * Real.sin (deg2rad phi))).map
          fun p => (c.len * p.1, c.dens * p.2) := by
      rw [List.map_map, List.map_map]
      refine List.map_congr_left fun p _ => Prod.ext rfl ?_
      simp only [Function.comp, Scale.mesh, h.g]
      ring
    have k := fun l => cumTrap_scaled c.len c.dens l 0
    simp only [mul_zero] at k
    rw [t1, t2, k, k, zipWith_scaled, List.map_map, List.map_map]
    refine List.map_congr_left fun v _ => ?_
    simp only [Function.comp, Scale.stress]
    ring
  · unfold fSzz
    rw [hm]
    rcases convertStress unit with e | r
    · rfl
    show Except.ok _ = Except.ok _
    congr 1
    have t1 : ((getZmesh s dz).map c.mesh).map (fun p => (p.z, p.E / (1 - p.nu ^ 2)
          * (du0dxdxdx s' (c.state z) phi + p.z * dpsidxdxdx s' (c.state z) phi)))
        = ((getZmesh s dz).map fun p => (p.z, p.E / (1 - p.nu ^ 2) * (du0dxdxdx s z phi + p.z * dpsidxdxdx s z phi))).map
          fun p => (c.len * p.1, c.dens / c.len * p.2) := by
      rw [List.map_map, List.map_map]
      refine List.map_congr_left fun p _ => Prod.ext rfl ?_
      simp only [Function.comp, Scale.mesh, a3, a4]
      rw [← hcv]
      field_simp
    have t2 : ((getZmesh s dz).map c.mesh).map (fun p => (p.z, -(1e-12 * p.rho * s'.g * Real.cos (deg2rad phi))))
        = ((getZmesh s dz).map fun p => (p.z, -(1e-12 * p.rho * s.g * Real.cos (deg2rad phi)))).map
          fun p => (c.len * p.1, c.dens * p.2) := by
      rw [List.map_map, List.map_map]
      refine List.map_congr_left fun p _ => Prod.ext rfl ?_
      simp only [Function.comp, Scale.mesh, h.g]
      ring
    have t3 : ∀ I : List ℝ, List.zipWith (fun (p : MeshPt) y => (p.z, y)) ((getZmesh s dz).map c.mesh)
          (I.map (c.len * (c.dens / c.len) * ·))
        = (List.zipWith (fun (p : MeshPt) y => (p.z, y)) (getZmesh s dz) I).map fun p => (c.len * p.1, c.dens * p.2) := by
      intro I
      rw [List.zipWith_map, List.map_zipWith, mul_div_cancel₀ _ hl]
      rfl
    have k := fun q l => cumTrap_scaled c.len q l 0
    simp only [mul_zero] at k
    rw [t1, t2, k, k, t3, k, zipWith_scaled, List.map_map, List.map_map]
    refine List.map_congr_left fun v _ => ?_
    simp only [Function.comp, Scale.stress]
    ring

end

/-! ## Whole sessions -/

section
variable {c : Scale} {s s' : Self}

/-- C70. What a user sees of two sessions at different scales: grid of the
solution and energy release rates at the crack tips. -/
theorem C70_results_partial (num : Numerics) (kind kind' : SeqKind) (phi : ℝ) (a a1 a2 : SegLists) (s1 s2 : Self)
    (C C' : List Vec6) (h : Similar c s s') (hr : Ready num.eig s) (hr' : Ready num.eig s') (hb : BedOk s) (hb' : BedOk s')
    (hc : ShearOk s) (hn : NoFaceTouchdown s) (hsys : IsPst s ∨ IsVpst s ∨ IsSkier s)
    (hsp : IsPst s → OpenEnd a → s.mode = .C → RestOk num s ∧ RestOk num s') (hheld : Held s a)
    (hrun : assembleAndSolve num kind phi a s = (.ok (C, a1), s1))
    (hrun' : assembleAndSolve num kind' phi (c.lists a) s' = (.ok (C', a2), s2)) :
    (∀ n, rasterize s' phi n (segsOf C' (c.lists a)) = (rasterize s phi n (segsOf C a)).map (List.map c.pt)) ∧
    ∀ unit arr, gdif s' phi (segsOf C' (c.lists a)) unit arr
      = (gdif s phi (segsOf C a) unit arr).map fun v => (c.energy * v.1, c.energy * v.2.1, c.energy * v.2.2) := by
  have hs := segs_scaled num kind kind' phi a a1 a2 s1 s2 C C' h hr hr' hb hb' hc hn hsys hsp hheld hrun hrun'
  exact ⟨fun n => C70_grid phi n hs, fun unit arr => C70_gdif (h.beams hr hr') hb.stiff phi unit arr hs⟩

/-- C70. Stresses in the weak layer and in the slab, at positions in proportion. -/
theorem C70_stresses_partial (num : Numerics) (kind kind' : SeqKind) (phi : ℝ) (a a1 a2 : SegLists) (s1 s2 : Self)
    (C C' : List Vec6) (h : Similar c s s') (hr : Ready num.eig s) (hr' : Ready num.eig s') (hb : BedOk s) (hb' : BedOk s')
    (hc : ShearOk s) (hn : NoFaceTouchdown s) (hsys : IsPst s ∨ IsVpst s ∨ IsSkier s)
    (hsp : IsPst s → OpenEnd a → s.mode = .C → RestOk num s ∧ RestOk num s') (hheld : Held s a)
    (hrun : assembleAndSolve num kind phi a s = (.ok (C, a1), s1))
    (hrun' : assembleAndSolve num kind' phi (c.lists a) s' = (.ok (C', a2), s2)) (i : ℕ) (hi : i < a.li.length) (x : ℝ) :
    let z := zsol s x (C.getD i 0) (nth a.li i) phi (a.ki.getD i false)
    let z' := zsol s' (c.len * x) (C'.getD i 0) (c.len * nth a.li i) phi (a.ki.getD i false)
    fw z' = c.disp * fw z ∧ fsig s' z' = c.stress * fsig s z ∧ ftau s' z' = c.stress * ftau s z ∧
    ∀ dz unit, fSxx s' z' phi (c.len * dz) unit = (fSxx s z phi dz unit).map (List.map (c.stress * ·)) ∧
      fTxz s' z' phi (c.len * dz) unit = (fTxz s z phi dz unit).map (List.map (c.stress * ·)) ∧
      fSzz s' z' phi (c.len * dz) unit = (fSzz s z phi dz unit).map (List.map (c.stress * ·)) := by
  intro z z'
  have hz : z' = c.state z := C70_solution_partial num kind kind' phi a a1 a2 s1 s2 C C' h hr hr' hb hb' hc hn hsys hsp hheld
    hrun hrun' i hi x
  have hbm := h.beams hr hr'
  obtain ⟨-, f1, -, -, -, -, -, -, -, f2, f3, -⟩ := C70_fields hbm hb.stiff.kn hb.stiff.kt hb.stiff.t z 0
  rw [hz]
  exact ⟨f1, f2, f3, fun dz unit => C70_slab_stresses h hbm hb.stiff hb'.stiff z phi dz unit⟩

/-! ## Input of the user -/

/-- C70. What the user has to enter: rows, weak-layer thickness and modulus,
surface load in proportion, and the coefficient of the density-stiffness law
such that the moduli of the layers are in proportion. -/
theorem C70_input (eig : EigSolver) (c : Scale) (s0 : Self) (ls : List Ply) (hv : ValidPlies ls) (C0 C1 nuS t E nu p : ℝ)
    (h0 : s0.a = 0 ∧ s0.td = 0 ∧ s0.tc = 0) :
    Similar c
      (setSurfaceLoad p (setFoundationProperties eig t E nu true (setBeamProperties eig (.rows ls) C0 C1 nuS false s0).2))
      (setSurfaceLoad (c.stress * p) (setFoundationProperties eig (c.len * t) (c.stiff * E) nu true
        (setBeamProperties eig (.rows (ls.map c.ply)) (c.stiff * C0 / c.dens ^ C1) C1 nuS false s0).2)) := by
  obtain ⟨h1, h2, h3⟩ := h0
  obtain ⟨hne, hv⟩ := hv
  have hE : (setBeamProperties eig (.rows (ls.map c.ply)) (c.stiff * C0 / c.dens ^ C1) C1 nuS false s0).2.slab
      = (setBeamProperties eig (.rows ls) C0 C1 nuS false s0).2.slab.map c.layer := by
    have e : ∀ l ∈ ls, bergfeld (c.ply l).rho 917 (c.stiff * C0 / c.dens ^ C1) C1 = c.stiff * bergfeld l.rho 917 C0 C1 := by
      intro l hl
      have hd : (0 : ℝ) < c.dens ^ C1 := Real.rpow_pos_of_pos c.dens_pos _
      simp only [bergfeld, Scale.ply]
      rw [mul_div_assoc c.dens, Real.mul_rpow c.dens_pos.le (div_nonneg (hv l hl).1.le (by norm_num))]
      field_simp
    have hz : ∀ ls : List Ply, (∀ l ∈ ls, bergfeld (c.ply l).rho 917 (c.stiff * C0 / c.dens ^ C1) C1 = c.stiff * bergfeld l.rho 917 C0 C1) →
        List.zipWith (fun l e => (⟨l.rho, l.h, e, e / (2 * (1 + nuS)), nuS⟩ : Layer)) (ls.map c.ply)
          ((ls.map c.ply).map fun r => bergfeld r.rho 917 (c.stiff * C0 / c.dens ^ C1) C1)
        = (List.zipWith (fun l e => (⟨l.rho, l.h, e, e / (2 * (1 + nuS)), nuS⟩ : Layer)) ls
          (ls.map fun r => bergfeld r.rho 917 C0 C1)).map c.layer := by
      intro ls
      induction ls with
      | nil => intro _; rfl
      | cons l ls ih =>
        intro e
        simp only [List.map_cons, List.zipWith_cons_cons]
        rw [ih fun l hl => e l (List.mem_cons_of_mem _ hl), e l (List.mem_cons_self ..)]
        simp only [Scale.layer, Scale.ply, mul_div_assoc]
    cases ls with
    | nil => exact absurd rfl hne
    | cons l ls => exact hz (l :: ls) e
  have hs : ∀ (ls : List Ply), ls ≠ [] → ∀ C0, ∃ k h zs sl,
      (setBeamProperties eig (.rows ls) C0 C1 nuS false s0).2 = { s0 with k := k, h := h, zs := zs, slab := sl } := by
    intro ls hl C0
    cases ls with
    | nil => exact absurd rfl hl
    | cons l ls => exact ⟨_, _, _, _, rfl⟩
  obtain ⟨k, hh, zs, sl, e1⟩ := hs ls hne C0
  obtain ⟨k', hh', zs', sl', e2⟩ := hs (ls.map c.ply) (by simpa using hne) (c.stiff * C0 / c.dens ^ C1)
  rw [e1, e2] at hE ⊢
  refine ⟨rfl, rfl, rfl, hE, rfl, rfl, rfl, rfl, rfl, rfl, ?_, ?_, ?_, rfl⟩
  · show s0.a = c.len * s0.a; rw [h1, mul_zero]
  · show s0.td = c.len * s0.td; rw [h2, mul_zero]
  · show s0.tc = c.disp * s0.tc; rw [h3, mul_zero]

/-- The model of an object at scale. -/
noncomputable def Spec.Scale.object (c : Scale) (eig : EigSolver) (s : Self) : Self :=
  calcFundamentalSystem eig { s with
    slab := s.slab.map c.layer, h := c.len * s.h, zs := c.len * s.zs, t := c.len * s.t,
    weak := ⟨s.weak.nu, c.stiff * s.weak.E⟩, p := c.stress * s.p, a := c.len * s.a, td := c.len * s.td, tc := c.disp * s.tc }

theorem object_similar (c : Scale) (eig : EigSolver) (s : Self) : Similar c s (c.object eig s) :=
  ⟨rfl, rfl, rfl, rfl, rfl, rfl, rfl, rfl, rfl, rfl, rfl, rfl, rfl, rfl⟩

theorem object_ready (c : Scale) {eig : EigSolver} {s : Self} (h : Ready eig s) : Ready eig (c.object eig s) := by
  obtain ⟨⟨a1, a2, a3, a4, a5⟩, ⟨w1, w2, w3, w4⟩, -, g1, g2⟩ := h
  refine ⟨⟨?_, ?_, ?_, ?_, a5⟩, ⟨mul_pos c.len_pos w1, mul_pos c.stiff_pos w2, w3, w4⟩, C27_idempotent eig _, g1, g2⟩
  · show s.slab.map c.layer ≠ []
    simpa using a1
  · intro l hl
    obtain ⟨l, hm, rfl⟩ := List.mem_map.mp (show l ∈ s.slab.map c.layer from hl)
    obtain ⟨b1, b2, b3, b4, b5, b6⟩ := a2 l hm
    exact ⟨mul_pos c.dens_pos b1, mul_pos c.len_pos b2, mul_pos c.stiff_pos b3, mul_pos c.stiff_pos b4, b5, b6⟩
  · show c.len * s.h = total Layer.h (s.slab.map c.layer)
    rw [a3]
    exact (total_scaled Layer.h Layer.h c.layer c.len (fun _ => rfl) _).symm
  · show c.len * s.zs = (calcCenterOfGravity ((s.slab.map c.layer).map Layer.ply)).2
    rw [a4, c.layer_ply, cog_scaled]

/-! ## Translational springs -/

/-- C70 is false for the translational substitute springs of the touchdown
model. Every slab with weight has a model with all lengths and displacements
unchanged and stiffnesses, densities and weights multiplied by two or three,
for which the spring is not multiplied by the same number: the unit load of the
auxiliary problem is added to the weight of the slab. -/
theorem C70_translation_violated (eig : EigSolver) (he : ∀ K, EigOk K (eig K)) (s : Self) (hr : Ready eig s)
    (hd : (cubicOf s).disc ≠ 0) (hc : ShearOk s) (hp : 0 ≤ s.p) (L : ℝ) (hL : 0 < L) :
    ∃ c : Scale, ∃ k k', c.len = 1 ∧ c.disp = 1 ∧ Similar c s (c.object eig s) ∧
      substituteStiffness eig L false .trans s = (.ok k, s) ∧
      substituteStiffness eig L false .trans (c.object eig s) = (.ok k', c.object eig s) ∧ k' ≠ c.stiff * k := by
  have hb : BedOk s := C13_discriminant eig s hr.stiff hr.fresh.eigFresh (he _) hd
  have hq : 0 < (s.loads 0).qn + (s.loads 0).pn := by
    have h0 : deg2rad 0 = 0 := by simp [deg2rad]
    have e : (s.loads 0).qn + (s.loads 0).pn = (s.slab.map fun l => l.rho * 1e-12 * s.g * l.h).sum + s.p := by
      simp [Self.loads, getWeightLoad, getSurfaceLoad, h0]
    rw [e]
    have hpos : 0 < (s.slab.map fun l => l.rho * 1e-12 * s.g * l.h).sum := by
      refine List.sum_pos _ (fun x hx => ?_) (by simpa using hr.slab.ne)
      obtain ⟨l, hl, rfl⟩ := List.mem_map.mp hx
      have := (hr.slab.valid l hl).rho
      have := (hr.slab.valid l hl).h
      have := hr.g
      positivity
    linarith
  obtain ⟨k, Z, h1, h2, h3⟩ := substitute_response eig L hL false .trans (by simp) s hr.fresh.eigFresh
    (prep_false_bedOk eig .trans hb) (prep_false_shear eig .trans hc)
  simp only [reduceCtorEq, if_false] at h2 h3
  have hco := hb.stiff.coercive hc
  have hneg := h2.work_neg hco hL (.inr (.inr one_ne_zero))
  have hZ : Z 0 2 < 0 := by simpa using hneg
  set w := ((s.loads 0).qn + (s.loads 0).pn) / (s.auxBeam false).kn with hw
  have hw0 : 0 < w := div_pos hq hb.stiff.kn
  have key : ∀ (r : ℝ) (hr0 : 0 < r), ∃ k', substituteStiffness eig L false .trans (Scale.object ⟨1, r, r, one_pos, hr0, hr0⟩ eig s)
      = (.ok k', Scale.object ⟨1, r, r, one_pos, hr0, hr0⟩ eig s) ∧ k' = |1 / (Z 0 2 / r + w)| := by
    intro r hr0
    set c : Scale := ⟨1, r, r, one_pos, hr0, hr0⟩ with hcd
    have hsim := object_similar c eig s
    have hrd := object_ready c hr
    have hbm := hsim.beams hr hrd
    have hc' : ShearOk (c.object eig s) := Similar.shear hbm hc
    have hb' := hsim.bedOk hr hrd (he _) hd
    obtain ⟨k', Z', g1, g2, g3⟩ := substitute_response eig L hL false .trans (by simp) (c.object eig s) hrd.fresh.eigFresh
      (prep_false_bedOk eig .trans hb') (prep_false_shear eig .trans hc')
    simp only [reduceCtorEq, if_false] at g2 g3
    refine ⟨k', g1, ?_⟩
    have hrne := hr0.ne'
    have hT := h2.scaled (hsim.auxBeams hbm false) (1 / c.force)
    have hF : c.force = r := by simp [Scale.force, hcd]
    have hl1 : c.len = 1 := rfl
    rw [mul_zero, mul_zero, hF, one_div_mul_cancel hrne, mul_one, hl1, one_mul] at hT
    have e := g2.unique (hb'.stiff.coercive hc') hL hT 0
    have e2 : Z' 0 2 = Z 0 2 / r := by
      rw [e]
      simp only [Pi.smul_apply, smul_eq_mul, zero_div]
      show 1 / r * (c.disp * Z 0 2) = _
      have : c.disp = 1 := by simp [Scale.disp, hcd, hrne]
      rw [this]; ring
    have e3 : (((c.object eig s).loads 0).qn + ((c.object eig s).loads 0).pn) / ((c.object eig s).auxBeam false).kn = w := by
      obtain ⟨l1, -, l3, -⟩ := hsim.loads 0
      have hk : ((c.object eig s).auxBeam false).kn = c.stiff / c.len * (s.auxBeam false).kn := hbm.kn
      have hkn : (s.auxBeam false).kn ≠ 0 := hb.stiff.kn.ne'
      rw [l1, l3, hk, hw]
      simp only [Scale.stress, hcd]
      field_simp
    rw [g3, e2, e3]
  obtain ⟨k2, a1, a2⟩ := key 2 (by norm_num)
  obtain ⟨k3, b1, b2⟩ := key 3 (by norm_num)
  by_cases hx : k2 = 2 * k
  · refine ⟨⟨1, 3, 3, one_pos, by norm_num, by norm_num⟩, k, k3, rfl, by norm_num [Scale.disp], object_similar _ _ _, h1, b1, ?_⟩
    show k3 ≠ 3 * k
    intro hy
    rw [h3, a2] at hx
    rw [h3, b2] at hy
    have r2 : 2 * |1 / (Z 0 2 + w)| = |2 / (Z 0 2 + w)| := by rw [abs_div, abs_div]; simp [abs_of_pos]; ring
    have r3 : 3 * |1 / (Z 0 2 + w)| = |3 / (Z 0 2 + w)| := by rw [abs_div, abs_div]; simp [abs_of_pos]; ring
    rw [r2] at hx
    rw [r3] at hy
    have i2 : |Z 0 2 / 2 + w| = |(Z 0 2 + w) / 2| := by
      have := congrArg (·⁻¹) hx
      simpa only [← abs_inv, inv_div, div_one] using this
    have i3 : |Z 0 2 / 3 + w| = |(Z 0 2 + w) / 3| := by
      have := congrArg (·⁻¹) hy
      simpa only [← abs_inv, inv_div, div_one] using this
    rcases abs_eq_abs.mp i2 with j2 | j2 <;> rcases abs_eq_abs.mp i3 with j3 | j3 <;> linarith
  · exact ⟨⟨1, 2, 2, one_pos, by norm_num, by norm_num⟩, k, k2, rfl, by norm_num [Scale.disp], object_similar _ _ _, h1, a1, hx⟩

/-! ## Concrete cases -/

/-- The slab `comp` under a skier, at half the size, with three times the
stiffness and twice the density: solved, and all results are in proportion. -/
noncomputable def halfScale : Scale := ⟨1 / 2, 3, 2, by norm_num, by norm_num, by norm_num⟩

example : halfScale.stress = 1 ∧ halfScale.disp = 1 / 6 ∧ halfScale.force = 1 / 2 ∧ halfScale.energy = 1 / 6 := by
  refine ⟨?_, ?_, ?_, ?_⟩ <;> norm_num [halfScale, Scale.stress, Scale.disp, Scale.force, Scale.energy]

theorem pstDemo_plain_disc (mode : Mode) : (cubicOf (pstDemo mode 200)).disc ≠ 0 := by
  obtain ⟨h1, h2, h3, h4, h5, h6, h7, h8, -⟩ := demo_fields stdEig "pst-" true
  have hK0 := (demo_ready stdEig "pst-" true).stiff.K0_eq
  rw [h3, h4, h5] at hK0
  unfold Cubic.disc cubicOf
  simp only [calcSystemMatrix, pstDemo, Self.stage, h1, h2, h3, h4, h5, h6, h7, h8, hK0, Matrix.of_apply, Matrix.cons_val',
    Matrix.cons_val]
  norm_num

theorem Ready.stage {eig : EigSolver} {s : Self} (h : Ready eig s) (system : String) (mode : Mode) (L a tc td phi ratio : ℝ) :
    Ready eig (s.stage system mode L a tc td phi ratio) :=
  ⟨h.slab.congr rfl, ⟨h.weak.t, h.weak.E, h.weak.nu_lo, h.weak.nu_hi⟩,
    congrArg (fun s : Self => s.stage system mode L a tc td phi ratio) h.fresh, h.g, h.lski⟩

/-- The demonstration PST in every stage and its model: both are solved, and the
hypotheses of C70 hold. -/
example (mode : Mode) (hm : mode ≠ .unset) (phi : ℝ) :
    ∃ C C', assembleAndSolve stdNum .list phi (pstLists 200) (pstDemo mode 200)
        = (.ok (C, pstLists 200), pstDemo mode 200) ∧
      assembleAndSolve stdNum .list phi (halfScale.lists (pstLists 200)) (halfScale.object stdEig (pstDemo mode 200))
        = (.ok (C', halfScale.lists (pstLists 200)), halfScale.object stdEig (pstDemo mode 200)) ∧
      ∀ x, zsol (halfScale.object stdEig (pstDemo mode 200)) (1 / 2 * x) (C'.getD 1 0) (1 / 2 * 200) phi false
        = halfScale.state (zsol (pstDemo mode 200) x (C.getD 1 0) 200 phi false) := by
  obtain ⟨C, hC, -⟩ := pstDemo_solved mode hm .list phi
  have hr : Ready stdEig (pstDemo mode 200) := (demo_ready stdEig "pst-" true).stage _ _ _ _ _ _ _ _
  have hr' := object_ready halfScale hr
  have hsim := object_similar halfScale stdEig (pstDemo mode 200)
  have hrest : RestOk stdNum (halfScale.object stdEig (pstDemo mode 200)) := by
    refine hsim.restOk (num := stdNum) hr hr' ?_ ?_ (stdEig_ok _) (pstDemo_disc mode 200) ?_
    · show (0 : ℝ) < 1000; norm_num
    · show (200 : ℝ) < 500; norm_num
    · obtain ⟨-, h2, -, -, -, h6, -, h8, -⟩ := demo_fields stdEig "pst-" true
      show 1000 * (demo stdEig "pst-" true).kt * (demo stdEig "pst-" true).t ^ 2 < 16 * (demo stdEig "pst-" true).kA55
      rw [h2, h6, h8]; norm_num
  have hd : (cubicOf (pstDemo mode 200)).disc ≠ 0 := pstDemo_plain_disc mode
  have hheld := (pstLists_supported 200 (by norm_num)).held (pstDemo mode 200)
  obtain ⟨C', hC'⟩ := C70_solvable (c := halfScale) stdNum .list phi (pstLists 200) hsim hr hr' (stdEig_ok _) hd
    (pstDemo_shear mode 200) (pstLists_valid mode 200 200) (.inl rfl) (.inl (pstDemo_isPst mode 200)) (fun _ _ => hm)
    (fun _ _ _ => hrest) hheld
  rw [pstLists_full] at hC'
  refine ⟨C, C', hC, hC', fun x => ?_⟩
  exact C70_solution_partial stdNum .list .list phi (pstLists 200) _ _ _ _ C C' hsim hr hr' (pstDemo_bedOk mode 200)
    (hsim.bedOk hr hr' (stdEig_ok _) hd) (pstDemo_shear mode 200) (pstDemo_noFace mode 200) (.inl (pstDemo_isPst mode 200))
    (fun _ _ _ => ⟨pstDemo_rest mode, hrest⟩) hheld hC hC' 1 (by simp [pstLists]) x

/-- The input of C70: a slab of two layers on 30 mm of weak layer. -/
example : Similar halfScale
    (setSurfaceLoad 0 (setFoundationProperties stdEig 30 0.25 0.25 true
      (setBeamProperties stdEig (.rows [⟨180, 100⟩, ⟨240, 200⟩]) 6.5 4.4 0.25 false (Self.init "skier" false true)).2))
    (setSurfaceLoad (halfScale.stress * 0) (setFoundationProperties stdEig (1 / 2 * 30) (3 * 0.25) 0.25 true
      (setBeamProperties stdEig (.rows [⟨2 * 180, 1 / 2 * 100⟩, ⟨2 * 240, 1 / 2 * 200⟩]) (3 * 6.5 / 2 ^ (4.4 : ℝ)) 4.4 0.25 false
        (Self.init "skier" false true)).2)) :=
  C70_input stdEig halfScale (Self.init "skier" false true) [⟨180, 100⟩, ⟨240, 200⟩] ⟨by simp, by simp⟩ 6.5 4.4 0.25 30 0.25 0.25 0
    ⟨rfl, rfl, rfl⟩

/-- `C70_translation_violated` applies to the demonstration PST. -/
example (mode : Mode) : ∃ c : Scale, ∃ k k', c.len = 1 ∧ c.disp = 1 ∧ Similar c (pstDemo mode 200) (c.object stdEig (pstDemo mode 200)) ∧
      substituteStiffness stdEig 300 false .trans (pstDemo mode 200) = (.ok k, pstDemo mode 200) ∧
      substituteStiffness stdEig 300 false .trans (c.object stdEig (pstDemo mode 200))
        = (.ok k', c.object stdEig (pstDemo mode 200)) ∧ k' ≠ c.stiff * k :=
  C70_translation_violated stdEig stdEig_ok (pstDemo mode 200) ((demo_ready stdEig "pst-" true).stage _ _ _ _ _ _ _ _)
    (pstDemo_plain_disc mode) (pstDemo_shear mode 200) (le_refl (0 : ℝ)) 300 (by norm_num)

end

end Weac
