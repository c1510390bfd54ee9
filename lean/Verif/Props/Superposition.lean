import Verif.Props.Skier

/-!
# C51: superposition

The solution for a weight between two others is their weighted mean.
-/

namespace Weac

namespace Spec

/-- Weighted mean. -/
def mix (c a b : ℝ) : ℝ := (1 - c) * a + c * b

/-- Weighted mean of vectors. -/
def mixVec (c : ℝ) (a b : Vec6) : Vec6 := (1 - c) • a + c • b

/-- Weighted mean of arrays with NaN entries. -/
def mixList (c : ℝ) (a b : List (Option ℝ)) : List (Option ℝ) := List.zipWith (Option.map₂ (mix c)) a b

end Spec

open Spec

theorem mixVec_apply (c : ℝ) (a b : Vec6) (i : Fin 6) : mixVec c a b i = mix c (a i) (b i) := rfl

theorem zsol_mix (s : Self) (x l phi c : ℝ) (k : Bool) (C D : Vec6) :
    zsol s x (mixVec c C D) l phi k = mixVec c (zsol s x C l phi k) (zsol s x D l phi k) := by
  unfold zsol mixVec
  rw [Matrix.mulVec_add, Matrix.mulVec_smul, Matrix.mulVec_smul]
  ext i
  simp only [Pi.add_apply, Pi.smul_apply, smul_eq_mul]
  ring

theorem stateAt_mix (s : Self) (phi c : ℝ) (li : List ℝ) (ki : List Bool) (C D : ℕ → Vec6) (i : ℕ) (x : ℝ) :
    stateAt s phi li ki (fun i => mixVec c (C i) (D i)) i x
      = mixVec c (stateAt s phi li ki C i x) (stateAt s phi li ki D i x) := zsol_mix _ _ _ _ _ _ _ _

theorem Beam.N_mix (b : Beam) (c : ℝ) (y z : Vec6) : b.N (mixVec c y z) = mix c (b.N y) (b.N z) := by
  simp only [Beam.N, mixVec_apply, mix]; ring

theorem Beam.M_mix (b : Beam) (c : ℝ) (y z : Vec6) : b.M (mixVec c y z) = mix c (b.M y) (b.M z) := by
  simp only [Beam.M, mixVec_apply, mix]; ring

theorem Beam.V_mix (b : Beam) (c : ℝ) (y z : Vec6) : b.V (mixVec c y z) = mix c (b.V y) (b.V z) := by
  simp only [Beam.V, mixVec_apply, mix]; ring

theorem Beam.tau_mix (b : Beam) (c : ℝ) (y z : Vec6) : b.tau (mixVec c y z) = mix c (b.tau y) (b.tau z) := by
  simp only [Beam.tau, mixVec_apply, mix]; ring

theorem jump_mix (s : Self) (phi c : ℝ) (mi mi' mi'' : List ℝ) (i : ℕ)
    (h : nth mi'' i = mix c (nth mi i) (nth mi' i)) :
    jump s phi mi'' i = (mix c (jump s phi mi i).1 (jump s phi mi' i).1, mix c (jump s phi mi i).2.1 (jump s phi mi' i).2.1,
      mix c (jump s phi mi i).2.2 (jump s phi mi' i).2.2) := by
  unfold jump
  split
  · simp [mix]
  · simp only [getSkierLoad, h, mix, Prod.mk.injEq]
    refine ⟨?_, ?_, ?_⟩ <;> ring

theorem transmission_mix {b : Beam} {F F' F'' : ℝ × ℝ × ℝ} {zl zr zl' zr' : Vec6} (c : ℝ) (h : Transmission b F zl zr)
    (h' : Transmission b F' zl' zr') (e : F'' = (mix c F.1 F'.1, mix c F.2.1 F'.2.1, mix c F.2.2 F'.2.2)) :
    Transmission b F'' (mixVec c zl zl') (mixVec c zr zr') := by
  subst e
  constructor
  · rw [mixVec_apply, mixVec_apply, h.u, h'.u]
  · rw [mixVec_apply, mixVec_apply, h.w, h'.w]
  · rw [mixVec_apply, mixVec_apply, h.psi, h'.psi]
  · simp only [Beam.N_mix, ← h.N, ← h'.N, mix]; ring
  · simp only [Beam.M_mix, ← h.M, ← h'.M, mix]; ring
  · simp only [Beam.V_mix, ← h.V, ← h'.V, mix]; ring

theorem holds_mix {b : Beam} {u w psi : ℝ} {z z' : Vec6} (c : ℝ) (h : (EndCond.state u w psi).Holds b z)
    (h' : (EndCond.state u w psi).Holds b z') : (EndCond.state u w psi).Holds b (mixVec c z z') := by
  obtain ⟨h1, h2, h3⟩ := h
  obtain ⟨k1, k2, k3⟩ := h'
  refine ⟨?_, ?_, ?_⟩ <;> rw [mixVec_apply]
  · rw [h1, k1, mix]; ring
  · rw [h2, k2, mix]; ring
  · rw [h3, k3, mix]; ring

/-- Conditions of the skier systems are affine in constants and weights. -/
theorem meets_mix (s : Self) (hs : s.system = "skiers") (phi kR c : ℝ) (li mi mi' mi'' : List ℝ) (ki : List Bool)
    (C D : ℕ → Vec6) (h : Meets s phi kR ⟨li, mi, ki⟩ C) (h' : Meets s phi kR ⟨li, mi', ki⟩ D)
    (hm : ∀ i, nth mi'' i = mix c (nth mi i) (nth mi' i)) :
    Meets s phi kR ⟨li, mi'', ki⟩ (fun i => mixVec c (C i) (D i)) := by
  have he : ∀ e b, endCond s phi kR e b = .state (zp s 0 phi true 0) (zp s 0 phi true 2) (zp s 0 phi true 4) := by
    intro e b
    unfold endCond IsPst IsVpst IsSkier
    simp [hs]
  unfold Meets at *
  rw [he, he] at h h' ⊢
  constructor
  · simp only [stateAt_mix]
    exact holds_mix c h.left h'.left
  · simp only [stateAt_mix]
    exact holds_mix c h.right h'.right
  · intro i hi
    simp only [stateAt_mix]
    exact transmission_mix c (h.trans i hi) (h'.trans i hi) (jump_mix _ _ _ _ _ _ _ (hm i))

/-! ## Sampling -/

/-- Segments with the same lengths and support. -/
def Alike (g g' : Seg) : Prop := g.k = g'.k ∧ g.l = g'.l

def mixSeg (c : ℝ) (g g' : Seg) : Seg := ⟨mixVec c g.C g'.C, g.k, g.l⟩

def mixPt (c : ℝ) (p q : GridPt) : GridPt := ⟨p.x, mixVec c p.z q.z, p.sup⟩

theorem segPts_mix (s : Self) (phi : ℝ) (num : ℕ) (tot x0 c : ℝ) (prev : Option Bool) (g g' : Seg) (h : Alike g g')
    (last : Bool) :
    segPts s phi num tot x0 prev (mixSeg c g g') last
      = List.zipWith (mixPt c) (segPts s phi num tot x0 prev g last) (segPts s phi num tot x0 prev g' last) := by
  obtain ⟨C, k, l⟩ := g
  obtain ⟨C', k', l'⟩ := g'
  obtain ⟨rfl, rfl⟩ := h
  apply List.ext_getElem
  · simp [segPts, mixSeg]
  · intro n h1 h2
    simp only [segPts, mixSeg, List.getElem_mapIdx, List.getElem_zipWith, mixPt, zsol_mix]

theorem rasterLoop_mix (s : Self) (phi : ℝ) (num : ℕ) (tot c : ℝ) {gs gs' : List Seg} (h : List.Forall₂ Alike gs gs') :
    ∀ (x0 : ℝ) (prev : Option Bool), (rasterLoop s phi num tot x0 prev gs).length = (rasterLoop s phi num tot x0 prev gs').length ∧
      rasterLoop s phi num tot x0 prev (List.zipWith (mixSeg c) gs gs')
        = List.zipWith (mixPt c) (rasterLoop s phi num tot x0 prev gs) (rasterLoop s phi num tot x0 prev gs') := by
  induction h with
  | nil => intro x0 prev; simp [rasterLoop]
  | cons hg ht ih =>
    rename_i g g' gs gs'
    intro x0 prev
    obtain ⟨i1, i2⟩ := ih (x0 + g.l) (some g.k)
    have hl := ht.length_eq
    have hem : gs.isEmpty = gs'.isEmpty := by cases ht <;> rfl
    have hem' : (List.zipWith (mixSeg c) gs gs').isEmpty = gs.isEmpty := by cases ht <;> rfl
    have hsl : (segPts s phi num tot x0 prev g gs.isEmpty).length = (segPts s phi num tot x0 prev g' gs.isEmpty).length := by
      simp [segPts, linspace, hg.2]
    simp only [rasterLoop, List.zipWith_cons_cons]
    rw [← hg.1, ← hg.2, ← hem, hem']
    refine ⟨by rw [List.length_append, List.length_append, hsl, i1], ?_⟩
    rw [List.zipWith_append hsl, segPts_mix _ _ _ _ _ _ _ _ _ hg]
    exact congrArg _ i2

theorem dropZero_mix (c : ℝ) {gs gs' : List Seg} (h : List.Forall₂ Alike gs gs') :
    List.Forall₂ Alike (dropZero gs) (dropZero gs') ∧
      dropZero (List.zipWith (mixSeg c) gs gs') = List.zipWith (mixSeg c) (dropZero gs) (dropZero gs') := by
  induction h with
  | nil => simp [dropZero]
  | cons hg ht ih =>
    rename_i g g' gs gs'
    obtain ⟨C, k, l⟩ := g
    obtain ⟨C', k', l'⟩ := g'
    obtain ⟨rfl, rfl⟩ := hg
    unfold dropZero at ih ⊢
    by_cases hl : 0 < |l|
    · simp only [List.zipWith_cons_cons, List.map_cons, mixSeg, List.filter_cons, hl, decide_true, if_true,
        List.forall₂_cons]
      exact ⟨⟨⟨rfl, rfl⟩, ih.1⟩, congrArg _ ih.2⟩
    · simp only [List.zipWith_cons_cons, List.map_cons, mixSeg, List.filter_cons, hl, decide_false, Bool.false_eq_true,
        if_false]
      exact ih

theorem rasterize_mix (s : Self) (phi : ℝ) (num : ℕ) (c : ℝ) {gs gs' : List Seg} (h : List.Forall₂ Alike gs gs')
    {p q r : List GridPt} (hp : rasterize s phi num gs = .ok p) (hq : rasterize s phi num gs' = .ok q)
    (hr : rasterize s phi num (List.zipWith (mixSeg c) gs gs') = .ok r) :
    p.length = q.length ∧ r = List.zipWith (mixPt c) p q := by
  obtain ⟨h1, h2⟩ := dropZero_mix c h
  unfold rasterize at hp hq hr
  rw [h2] at hr
  have hlen : ∀ {as bs : List Seg}, List.Forall₂ Alike as bs → (as.map Seg.l).sum = (bs.map Seg.l).sum ∧
      ((List.zipWith (mixSeg c) as bs).map Seg.l).sum = (as.map Seg.l).sum := by
    intro as bs hab
    induction hab with
    | nil => simp
    | cons hg _ ih =>
      simp only [List.map_cons, List.sum_cons, List.zipWith_cons_cons, ih.1, ih.2, hg.2, mixSeg]
      exact ⟨trivial, trivial⟩
  obtain ⟨e1, e2⟩ := hlen h1
  generalize dropZero gs = as at *
  generalize dropZero gs' = bs at *
  cases h1 with
  | nil => simp at hp
  | cons hg ht =>
    simp only [Except.ok.injEq, List.zipWith_cons_cons] at hp hq hr
    rw [← List.zipWith_cons_cons, e2] at hr
    rw [← e1] at hq
    obtain ⟨k1, k2⟩ := rasterLoop_mix s phi num _ c (List.Forall₂.cons hg ht) 0 none
    subst hp hq hr
    exact ⟨k1, k2⟩

/-! ## `create_skier_object` -/

/-- The object and the boundary that carries the weight do not depend on the
weight. -/
theorem create_run (num : Numerics) (site : Site) (hs : SiteOk num site) (li : List ℝ) (ki : List Bool)
    (h : BeamOk li ki) (case : CrackCase) :
    ∃ s j, s.system = "skiers" ∧ BedOk s ∧ ShearOk s ∧ j + 1 < li.length ∧ ∀ w, ∃ C pts,
      createSkierObject num site w li ki case = .ok ⟨s, C, ⟨li, (List.replicate (ki.length - 1) 0).set j w, case.support ki⟩,
        pts.map (fun p => p.xb.map (· / 10)), pts.map (fun p => p.xb.map fun _ => 1000 * -(s.kn * p.z 2)),
        pts.map (fun p => p.xb.map fun _ => 1000 * s.beam.tau p.z)⟩ ∧
      C.length = li.length ∧
      (∀ kR, Meets s site.phi kR ⟨li, (List.replicate (ki.length - 1) 0).set j w, case.support ki⟩ (fun i => C.getD i 0)) ∧
      (∀ kR C', Meets s site.phi kR ⟨li, (List.replicate (ki.length - 1) 0).set j w, case.support ki⟩ C' →
        ∀ i < li.length, C' i = C.getD i 0) ∧
      rasterize s site.phi 800 (List.zipWith (fun C p => ⟨C, p.1, p.2⟩) C ((case.support ki).zip li)) = .ok pts := by
  obtain ⟨s, k1, k2, k3, k4, k5, -⟩ := siteObject_ready num.eig site hs.plies hs.t hs.E
  obtain ⟨hd, hsh⟩ := hs.generic s k1
  obtain ⟨j, j1, j2, j3⟩ := skierWeights_run li ki h.len h.nonneg h.middle h.last
  refine ⟨s.afterSegments, j, k3, (C13_discriminant num.eig s k2.stiff k2.fresh.eigFresh (hs.eig _) hd).stage _ _ _ _ _ _ _ _,
    hsh.stage _ _ _ _ _ _ _ _, by have := h.len; omega, fun w => ?_⟩
  have hP := pointLoad_set w j1 h.len
  obtain ⟨C, pts, X, σ, τ, m1, m2, m3, m4, m5, rfl, rfl, rfl⟩ := solveSkier_run num site.phi hs.eig s k2 k3 k4 k5 hd hsh
    li _ ki h hP.1 case
  refine ⟨C, pts, ?_, m2, m3, m4, ?_⟩
  · unfold createSkierObject
    rw [k1]
    simp only [bind, Except.bind]
    rw [j2]
    exact m1
  · rw [← m5]
    unfold Skier.segs
    rw [List.map_zip_eq_zipWith]
    rfl

theorem alike_segs (C D : List Vec6) (l : List (Bool × ℝ)) (h : C.length = l.length) (h' : D.length = l.length) (c : ℝ) :
    List.Forall₂ Alike (List.zipWith (fun C p => (⟨C, p.1, p.2⟩ : Seg)) C l) (List.zipWith (fun C p => ⟨C, p.1, p.2⟩) D l) ∧
      List.zipWith (mixSeg c) (List.zipWith (fun C p => (⟨C, p.1, p.2⟩ : Seg)) C l)
          (List.zipWith (fun C p => ⟨C, p.1, p.2⟩) D l)
        = List.zipWith (fun C p => ⟨C, p.1, p.2⟩) (List.zipWith (mixVec c) C D) l := by
  induction l generalizing C D with
  | nil => simp
  | cons a l ih =>
    obtain ⟨x, C, rfl⟩ := List.exists_cons_of_length_eq_add_one h
    obtain ⟨y, D, rfl⟩ := List.exists_cons_of_length_eq_add_one h'
    obtain ⟨i1, i2⟩ := ih C D (by simpa using h) (by simpa using h')
    exact ⟨.cons ⟨rfl, rfl⟩ i1, congrArg _ i2⟩

/-- C51: for a sound site and beam, and weights `v` and `w`, the solution for
any weighted mean of the two weights is the weighted mean of the two solutions:
same grid, and constants and both stresses in the same proportion. -/
theorem C51_superposition (num : Numerics) (site : Site) (hs : SiteOk num site) (li : List ℝ) (ki : List Bool)
    (h : BeamOk li ki) (case : CrackCase) (v w c : ℝ) :
    ∃ p q r, createSkierObject num site v li ki case = .ok p ∧ createSkierObject num site w li ki case = .ok q ∧
      createSkierObject num site (mix c v w) li ki case = .ok r ∧
      p.skier = r.skier ∧ q.skier = r.skier ∧ p.x = r.x ∧ q.x = r.x ∧
      p.sigma.length = r.x.length ∧ q.sigma.length = r.x.length ∧ p.tau.length = r.x.length ∧ q.tau.length = r.x.length ∧
      r.C = List.zipWith (mixVec c) p.C q.C ∧ r.sigma = mixList c p.sigma q.sigma ∧ r.tau = mixList c p.tau q.tau := by
  obtain ⟨s, j, hsys, -, -, hj, H⟩ := create_run num site hs li ki h case
  obtain ⟨C, p, a1, a2, a3, a4, a5⟩ := H v
  obtain ⟨D, q, b1, b2, b3, b4, b5⟩ := H w
  obtain ⟨B, r, c1, c2, c3, c4, c5⟩ := H (mix c v w)
  have hB : B = List.zipWith (mixVec c) C D := by
    have := c4 0 _ (meets_mix s hsys site.phi 0 c li _ _ _ _ _ _ (a3 0) (b3 0) (fun i => by
      unfold nth
      simp only [List.getD_eq_getElem?_getD, List.getElem?_set, List.getElem?_replicate, List.length_replicate]
      split <;> split <;> simp [mix]))
    apply List.ext_getElem
    · simp [a2, b2, c2]
    · intro n h1 h2
      have e := this n (by omega)
      simp only [List.getD_eq_getElem?_getD] at e
      rw [List.getElem?_eq_getElem (by omega), List.getElem?_eq_getElem (by omega), List.getElem?_eq_getElem (by omega)] at e
      rw [List.getElem_zipWith]
      exact e.symm
  have hl : ((case.support ki).zip li).length = li.length := by
    have := (case.support_ok h).len
    rw [List.length_zip]; omega
  obtain ⟨m1, m2⟩ := alike_segs C D ((case.support ki).zip li) (by omega) (by omega) c
  rw [hB, ← m2] at c5
  obtain ⟨e1, rfl⟩ := rasterize_mix s site.phi 800 c m1 a5 b5 c5
  have hq : q = List.zipWith (mixPt 1) p q := by
    have h1 := (alike_segs C D ((case.support ki).zip li) (by omega) (by omega) 1).2
    have h2 : List.zipWith (mixVec 1) C D = D := by
      apply List.ext_getElem
      · simp [a2, b2]
      · intro n h1 h2
        rw [List.getElem_zipWith]
        simp [mixVec]
    rw [h2] at h1
    exact (rasterize_mix s site.phi 800 1 m1 a5 b5 (by rw [h1]; exact b5)).2
  have hx : ∀ n (h1 : n < p.length) (h2 : n < q.length), q[n].x = p[n].x ∧ q[n].sup = p[n].sup := by
    intro n h1 h2
    have e : q[n]? = (List.zipWith (mixPt 1) p q)[n]? := by rw [← hq]
    rw [List.getElem?_zipWith, List.getElem?_eq_getElem h1, List.getElem?_eq_getElem h2] at e
    simp only [Option.some.injEq] at e
    exact ⟨(congrArg GridPt.x e).trans rfl, (congrArg GridPt.sup e).trans rfl⟩
  refine ⟨_, _, _, a1, b1, c1, rfl, rfl, ?_, ?_, by simp [e1], by simp [e1], by simp [e1], by simp [e1], hB, ?_, ?_⟩
  · apply List.ext_getElem
    · simp [e1]
    · intro n h1 h2
      simp only [List.getElem_map, List.getElem_zipWith]
      rfl
  · apply List.ext_getElem
    · simp [e1]
    · intro n h1 h2
      obtain ⟨k1, k2⟩ := hx n (by simp [e1] at h1 ⊢; omega) (by simpa using h1)
      simp only [List.getElem_map, List.getElem_zipWith, GridPt.xb, mixPt, k1, k2]
  · unfold mixList
    apply List.ext_getElem
    · simp [e1]
    · intro n h1 h2
      obtain ⟨k1, k2⟩ := hx n (by simp [e1] at h1 ⊢; omega) (by simp [e1] at h1 ⊢; omega)
      simp only [List.getElem_map, List.getElem_zipWith, GridPt.xb, mixPt, k1, k2]
      split
      · simp only [Option.map_some, Option.map₂_some_some, Option.some.injEq, mixVec_apply, mix]; ring
      · rfl
  · unfold mixList
    apply List.ext_getElem
    · simp [e1]
    · intro n h1 h2
      obtain ⟨k1, k2⟩ := hx n (by simp [e1] at h1 ⊢; omega) (by simp [e1] at h1 ⊢; omega)
      simp only [List.getElem_map, List.getElem_zipWith, GridPt.xb, mixPt, k1, k2]
      split
      · simp only [Option.map_some, Option.map₂_some_some, Option.some.injEq, Beam.tau_mix, mix]; ring
      · rfl

/-- A skier of 60 kg halfway between nobody and one of 120 kg. -/
example : ∃ p q r, createSkierObject midNum demoSite 0 [2000, 150, 150, 2000] [true, false, false, true] .crack = .ok p ∧
    createSkierObject midNum demoSite 120 [2000, 150, 150, 2000] [true, false, false, true] .crack = .ok q ∧
    createSkierObject midNum demoSite (mix (1 / 2) 0 120) [2000, 150, 150, 2000] [true, false, false, true] .crack = .ok r ∧
    r.sigma = mixList (1 / 2) p.sigma q.sigma := by
  obtain ⟨p, q, r, h1, h2, h3, -, -, -, -, -, -, -, -, -, h4, -⟩ := C51_superposition midNum demoSite demoSite_ok _ _
    demoBeam_ok .crack 0 120 (1 / 2)
  exact ⟨p, q, r, h1, h2, h3, h4⟩

end Weac
