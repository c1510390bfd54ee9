import Verif.Spec.Scale
import Verif.Lemmas.Stage
import Verif.Props.Springs

/-!
# Slabs at another scale: stiffnesses, loads and curves
-/

namespace Weac
open Spec

/-- Factors between the stiffnesses of similar slabs. -/
structure Spec.Scale.Beams (c : Scale) (b b' : Beam) : Prop where
  A : b'.A = c.stiff * c.len * b.A
  B : b'.B = c.stiff * c.len ^ 2 * b.B
  D : b'.D = c.stiff * c.len ^ 3 * b.D
  S : b'.S = c.stiff * c.len * b.S
  kn : b'.kn = c.stiff / c.len * b.kn
  kt : b'.kt = c.stiff / c.len * b.kt
  h : b'.h = c.len * b.h
  t : b'.t = c.len * b.t
  zs : b'.zs = c.len * b.zs

theorem layerSum_scaled {α β : Type} (th : α → ℝ) (th' : β → ℝ) (f : α → β) (c : ℝ) (hf : ∀ l, th' (f l) = c * th l)
    (F : β → ℝ → ℝ → ℝ) (ls : List α) (top : ℝ) :
    layerSum th' F (c * top) (ls.map f) = layerSum th (fun l a b => F (f l) (c * a) (c * b)) top ls := by
  induction ls generalizing top with
  | nil => rfl
  | cons l ls ih =>
    simp only [List.map_cons, layerSum]
    rw [hf, ← mul_add, ih]

theorem total_scaled {α β : Type} (th : α → ℝ) (th' : β → ℝ) (f : α → β) (c : ℝ) (hf : ∀ l, th' (f l) = c * th l)
    (ls : List α) : total th' (ls.map f) = c * total th ls := by
  induction ls with
  | nil => simp [total]
  | cons l ls ih => rw [List.map_cons, total_cons, total_cons, ih, hf]; ring

section
variable (c : Scale)

theorem Spec.Scale.layer_ply (ls : List Layer) : (ls.map c.layer).map Layer.ply = (ls.map Layer.ply).map c.ply := by
  simp [Scale.layer, Scale.ply, Layer.ply]

theorem Spec.Scale.disp_eq : c.disp = c.rot * c.len := by unfold Scale.disp Scale.rot; ring
theorem Spec.Scale.rot_eq : c.rot = c.curv * c.len := by unfold Scale.curv Scale.rot; ring
theorem Spec.Scale.curv_eq : c.curv * c.stiff = c.dens := by
  unfold Scale.curv; exact div_mul_cancel₀ _ c.stiff_pos.ne'
theorem Spec.Scale.curv_pos : 0 < c.curv := div_pos c.dens_pos c.stiff_pos
theorem Spec.Scale.rot_pos : 0 < c.rot := div_pos (mul_pos c.dens_pos c.len_pos) c.stiff_pos
theorem Spec.Scale.disp_pos : 0 < c.disp := div_pos (mul_pos c.dens_pos (pow_pos c.len_pos 2)) c.stiff_pos

theorem cog_scaled (ls : List Ply) : calcCenterOfGravity (ls.map c.ply)
    = (c.len * (calcCenterOfGravity ls).1, c.len * (calcCenterOfGravity ls).2) := by
  have hT : total Ply.h (ls.map c.ply) = c.len * total Ply.h ls := total_scaled Ply.h Ply.h c.ply c.len (fun _ => rfl) ls
  refine Prod.ext ?_ ?_
  · show (calcCenterOfGravity _).1 = c.len * _
    rw [cog_fst, cog_fst, hT]
  · show (calcCenterOfGravity _).2 = c.len * _
    rw [cog_num, cog_num, hT, show -(c.len * total Ply.h ls) / 2 = c.len * (-(total Ply.h ls) / 2) by ring,
      layerSum_scaled Ply.h Ply.h c.ply c.len (fun _ => rfl), layerSum_scaled Ply.h Ply.h c.ply c.len (fun _ => rfl)]
    have e1 : layerSum Ply.h (fun l a b => (c.ply l).rho * (c.ply l).h * ((c.len * a + c.len * b) / 2)) (-(total Ply.h ls) / 2) ls
        = c.dens * c.len ^ 2 * layerSum Ply.h (fun l a b => l.rho * l.h * ((a + b) / 2)) (-(total Ply.h ls) / 2) ls := by
      rw [← layerSum_mul]
      exact layerSum_congr _ _ _ fun l _ a b _ => by simp only [Scale.ply]; ring
    have e2 : layerSum Ply.h (fun l _ _ => (c.ply l).rho * (c.ply l).h) (-(total Ply.h ls) / 2) ls
        = c.dens * c.len * layerSum Ply.h (fun l _ _ => l.rho * l.h) (-(total Ply.h ls) / 2) ls := by
      rw [← layerSum_mul]
      exact layerSum_congr _ _ _ fun l _ a b _ => by simp only [Scale.ply]; ring
    rw [e1, e2, show c.dens * c.len ^ 2 = c.dens * c.len * c.len by ring, mul_assoc (c.dens * c.len),
      mul_div_mul_left _ _ (mul_pos c.dens_pos c.len_pos).ne', mul_div_assoc]

theorem wedge_scaled (ls : List Ply) (phi : ℝ) : calcVerticalBcCenterOfGravity (ls.map c.ply) phi
    = (c.len * (calcVerticalBcCenterOfGravity ls phi).1, c.len * (calcVerticalBcCenterOfGravity ls phi).2.1,
      c.force * (calcVerticalBcCenterOfGravity ls phi).2.2) := by
  have hl := c.len_pos.ne'
  by_cases h0 : deg2rad phi = 0
  · simp [calcVerticalBcCenterOfGravity, h0]
  have hT : total Ply.h (ls.map c.ply) = c.len * total Ply.h ls := total_scaled Ply.h Ply.h c.ply c.len (fun _ => rfl) ls
  rw [vertical_eq _ phi h0, vertical_eq _ phi h0]
  simp only [hT]
  rw [show -(c.len * total Ply.h ls) / 2 = c.len * (-(total Ply.h ls) / 2) by ring,
    layerSum_scaled Ply.h Ply.h c.ply c.len (fun _ => rfl), layerSum_scaled Ply.h Ply.h c.ply c.len (fun _ => rfl),
    layerSum_scaled Ply.h Ply.h c.ply c.len (fun _ => rfl)]
  generalize total Ply.h ls = H
  generalize Real.tan (deg2rad phi) = T
  have e1 : layerSum Ply.h (fun l a b => (c.len * a + (c.ply l).h / 3 * (3 / 2 * (c.len * H) - c.len * a - 2 * (c.len * b))
        / (c.len * H - c.len * a - c.len * b)) * (1e-12 * (c.ply l).rho)
          * ((c.ply l).h / 2 * (c.len * H - c.len * a - c.len * b) * T)) (-H / 2) ls
      = c.force * c.len * layerSum Ply.h (fun l a b => (a + l.h / 3 * (3 / 2 * H - a - 2 * b) / (H - a - b)) * (1e-12 * l.rho)
          * (l.h / 2 * (H - a - b) * T)) (-H / 2) ls := by
    rw [← layerSum_mul]
    refine layerSum_congr _ _ _ fun l _ a b _ => ?_
    have e : (c.ply l).h / 3 * (3 / 2 * (c.len * H) - c.len * a - 2 * (c.len * b)) / (c.len * H - c.len * a - c.len * b)
        = c.len * (l.h / 3 * (3 / 2 * H - a - 2 * b) / (H - a - b)) := by
      rw [show c.len * H - c.len * a - c.len * b = c.len * (H - a - b) by ring,
        show (c.ply l).h / 3 * (3 / 2 * (c.len * H) - c.len * a - 2 * (c.len * b))
          = c.len * (c.len * (l.h / 3 * (3 / 2 * H - a - 2 * b))) by simp only [Scale.ply]; ring,
        mul_div_mul_left _ _ hl, mul_div_assoc]
    rw [e]
    simp only [Scale.ply, Scale.force]
    ring
  have e2 : layerSum Ply.h (fun l a b => 1e-12 * (c.ply l).rho * ((c.ply l).h / 2 * (c.len * H - c.len * a - c.len * b) * T)) (-H / 2) ls
      = c.force * layerSum Ply.h (fun l a b => 1e-12 * l.rho * (l.h / 2 * (H - a - b) * T)) (-H / 2) ls := by
    rw [← layerSum_mul]
    exact layerSum_congr _ _ _ fun l _ a b _ => by simp only [Scale.ply, Scale.force]; ring
  have e3 : layerSum Ply.h (fun l a b => (c.ply l).h / 2 * (c.len * H - c.len * a - c.len * b) * T * (1e-12 * (c.ply l).rho)) (-H / 2) ls
      = c.force * layerSum Ply.h (fun l a b => l.h / 2 * (H - a - b) * T * (1e-12 * l.rho)) (-H / 2) ls := by
    rw [← layerSum_mul]
    exact layerSum_congr _ _ _ fun l _ a b _ => by simp only [Scale.ply, Scale.force]; ring
  have hF : c.force ≠ 0 := (mul_pos c.dens_pos (pow_pos c.len_pos 2)).ne'
  rw [e1, e2, e3, mul_assoc c.force, mul_div_mul_left _ _ hF]
  refine Prod.ext ?_ (Prod.ext ?_ rfl) <;> (dsimp only; ring)

end

section
variable {c : Scale} {s s' : Self}

theorem Spec.Similar.loads (h : Similar c s s') (phi : ℝ) : (s'.loads phi).qn = c.stress * (s.loads phi).qn ∧
    (s'.loads phi).qt = c.stress * (s.loads phi).qt ∧ (s'.loads phi).pn = c.stress * (s.loads phi).pn ∧
    (s'.loads phi).pt = c.stress * (s.loads phi).pt := by
  have hq : (s'.slab.map fun l => l.rho * 1e-12 * s'.g * l.h).sum
      = c.stress * (s.slab.map fun l => l.rho * 1e-12 * s.g * l.h).sum := by
    rw [h.slab, h.g]
    induction s.slab with
    | nil => simp
    | cons l ls ih =>
      simp only [List.map_cons, List.sum_cons, ih]
      simp only [Scale.layer, Scale.stress]
      ring
  simp only [Self.loads, getWeightLoad, getSurfaceLoad, hq, h.p]
  refine ⟨by ring, by ring, by ring, by ring⟩

theorem Spec.Similar.skier (h : Similar c s s') (m phi : ℝ) :
    getSkierLoad s' (c.force * m) phi = (c.force * (getSkierLoad s m phi).1, c.force * (getSkierLoad s m phi).2) := by
  simp only [getSkierLoad, h.g, h.lski]
  refine Prod.ext ?_ ?_ <;> dsimp only <;> ring

/-- Stiffnesses of similar slabs. -/
theorem Spec.Similar.beams {eig : EigSolver} (h : Similar c s s') (hr : Ready eig s) (hr' : Ready eig s') :
    c.Beams s.beam s'.beam := by
  have hl := c.len_pos.ne'
  have hh : s'.h = c.len * s.h := by
    rw [hr'.slab.h, hr.slab.h, h.slab]
    exact total_scaled Layer.h Layer.h c.layer c.len (fun _ => rfl) _
  have f := fundamental_fields eig s
  have f' := fundamental_fields eig s'
  rw [hr.fresh] at f
  rw [hr'.fresh] at f'
  obtain ⟨f1, f2, f3, f4, f5, f6, -⟩ := f
  obtain ⟨g1, g2, g3, g4, g5, g6, -⟩ := f'
  have lam := laminate_eq s
  have lam' := laminate_eq s'
  have htop : -s'.h / 2 = c.len * (-s.h / 2) := by rw [hh]; ring
  have sc : ∀ F : Layer → ℝ → ℝ → ℝ, layerSum Layer.h F (-s'.h / 2) s'.slab
      = layerSum Layer.h (fun l a b => F (c.layer l) (c.len * a) (c.len * b)) (-s.h / 2) s.slab := fun F => by
    rw [htop, h.slab]
    exact layerSum_scaled Layer.h Layer.h c.layer c.len (fun _ => rfl) F _ _
  rw [lam] at f3 f4 f5 f6
  rw [lam'] at g3 g4 g5 g6
  dsimp only at f3 f4 f5 f6 g3 g4 g5 g6
  rw [sc] at g3 g4 g5 g6
  refine ⟨?_, ?_, ?_, ?_, ?_, ?_, hh, h.t, ?_⟩
  · show s'.A11 = _ * s.A11
    rw [f3, g3, ← layerSum_mul]
    exact layerSum_congr _ _ _ fun l _ a b _ => by simp only [Scale.layer]; ring
  · show s'.B11 = _ * s.B11
    rw [f4, g4, ← layerSum_mul]
    exact layerSum_congr _ _ _ fun l _ a b _ => by simp only [Scale.layer]; ring
  · show s'.D11 = _ * s.D11
    rw [f5, g5, ← layerSum_mul]
    exact layerSum_congr _ _ _ fun l _ a b _ => by simp only [Scale.layer]; ring
  · show s'.kA55 = _ * s.kA55
    rw [f6, g6, ← layerSum_mul, hr.slab.k, hr'.slab.k]
    exact layerSum_congr _ _ _ fun l _ a b _ => by simp only [Scale.layer]; ring
  · show s'.kn = _ * s.kn
    rw [f1, g1]
    simp only [calcFoundationStiffness, h.t, h.E, h.nu]
    rw [mul_div_assoc, mul_div_mul_comm]
  · show s'.kt = _ * s.kt
    rw [f2, g2]
    simp only [calcFoundationStiffness, h.t, h.E, h.nu]
    rw [mul_div_assoc, mul_div_mul_comm]
  · show s'.zs = c.len * s.zs
    rw [hr'.slab.zs, hr.slab.zs, h.slab, c.layer_ply, cog_scaled]

end

/-! ## Curves -/

section
variable {c : Scale} {b b' : Beam}

theorem Spec.Scale.Beams.tau (h : c.Beams b b') (z : Vec6) : b'.tau (c.state z) = c.stress * b.tau z := by
  have hl := c.len_pos.ne'
  have hs := c.stiff_pos.ne'
  simp [Beam.tau, Scale.state, h.kt, h.h, h.t, Scale.stress, Scale.disp, Scale.rot]
  field_simp

theorem Spec.Scale.Beams.settle (h : c.Beams b b') (z : Vec6) : b'.kn * c.state z 2 = c.stress * (b.kn * z 2) := by
  have hl := c.len_pos.ne'
  have hs := c.stiff_pos.ne'
  simp [Scale.state, h.kn, Scale.stress, Scale.disp]
  field_simp

theorem Spec.Scale.Beams.N (h : c.Beams b b') (z : Vec6) : b'.N (c.state z) = c.force * b.N z := by
  have hs := c.stiff_pos.ne'
  simp [Beam.N, Scale.state, h.A, h.B, Scale.force, Scale.rot, Scale.curv]
  field_simp

theorem Spec.Scale.Beams.M (h : c.Beams b b') (z : Vec6) : b'.M (c.state z) = c.moment * b.M z := by
  have hs := c.stiff_pos.ne'
  simp [Beam.M, Scale.state, h.B, h.D, Scale.moment, Scale.rot, Scale.curv]
  field_simp

theorem Spec.Scale.Beams.V (h : c.Beams b b') (z : Vec6) : b'.V (c.state z) = c.force * b.V z := by
  have hs := c.stiff_pos.ne'
  simp [Beam.V, Scale.state, h.S, Scale.force, Scale.rot]
  field_simp

/-- The model of a curve is in balance with the loads at scale. -/
theorem Spec.Driven.scaled (h : c.Beams b b') {bed : Bool} {d : ℝ × ℝ × ℝ} {f : ℝ → Vec6} (hf : Driven b bed d f) :
    Driven b' bed (c.stress * d.1, c.stress * d.2.1, c.force * d.2.2) (fun x => c.state (f (x / c.len))) := by
  intro x
  have hl := c.len_pos.ne'
  have hs := c.stiff_pos.ne'
  obtain ⟨dz, h1, h2⟩ := hf (x / c.len)
  have h3 : HasDerivAt (fun y => f (y / c.len)) ((1 / c.len) • dz) x :=
    h1.scomp x ((hasDerivAt_id' x).div_const c.len)
  refine ⟨c.state ((1 / c.len) • dz), ?_, ?_⟩
  · rw [hasDerivAt_pi] at h3 ⊢
    intro i
    fin_cases i
    · exact (h3 0).const_mul _
    · exact (h3 1).const_mul _
    · exact (h3 2).const_mul _
    · exact (h3 3).const_mul _
    · exact (h3 4).const_mul _
    · exact (h3 5).const_mul _
  · obtain ⟨⟨k0, k2, k4⟩, eN, eV, eM⟩ := h2
    have hts := h.tau (f (x / c.len))
    have hVs := h.V (f (x / c.len))
    have hws := h.settle (f (x / c.len))
    have hN : b'.A * c.state ((1 / c.len) • dz) 1 + b'.B * c.state ((1 / c.len) • dz) 5
        = c.stress * (b.A * dz 1 + b.B * dz 5) := by
      simp [Scale.state, h.A, h.B, Scale.stress, Scale.rot, Scale.curv]
      field_simp
    have hM : b'.B * c.state ((1 / c.len) • dz) 1 + b'.D * c.state ((1 / c.len) • dz) 5
        = c.force * (b.B * dz 1 + b.D * dz 5) := by
      simp [Scale.state, h.B, h.D, Scale.force, Scale.rot, Scale.curv]
      field_simp
    have hV : b'.S * (c.state ((1 / c.len) • dz) 3 + c.state ((1 / c.len) • dz) 4)
        = c.stress * (b.S * (dz 3 + dz 4)) := by
      simp [Scale.state, h.S, Scale.stress, Scale.rot]
      field_simp
    refine ⟨⟨?_, ?_, ?_⟩, ?_, ?_, ?_⟩
    · simp [Scale.state, k0, c.disp_eq]; field_simp
    · simp [Scale.state, k2, c.disp_eq]; field_simp
    · simp [Scale.state, k4, c.rot_eq]; field_simp
    · rw [hN, eN, hts]
      cases bed
      · simp
      · simp; ring
    · rw [hV, eV, hws]
      cases bed
      · simp
      · simp; ring
    · rw [hM, eM, hts, hVs, h.h, h.t]
      cases bed <;> simp [Scale.force, Scale.stress] <;> ring

theorem Spec.Transmission.scaled (h : c.Beams b b') {F : ℝ × ℝ × ℝ} {zl zr : Vec6} (ht : Transmission b F zl zr) :
    Transmission b' (c.force * F.1, c.moment * F.2.1, c.force * F.2.2) (c.state zl) (c.state zr) := by
  obtain ⟨h1, h2, h3, h4, h5, h6⟩ := ht
  refine ⟨?_, ?_, ?_, ?_, ?_, ?_⟩
  · show c.disp * zl 0 = c.disp * zr 0; rw [h1]
  · show c.disp * zl 2 = c.disp * zr 2; rw [h2]
  · show c.rot * zl 4 = c.rot * zr 4; rw [h3]
  · rw [h.N, h.N, ← h4]; ring
  · rw [h.M, h.M, ← h5]; ring
  · rw [h.V, h.V, ← h6]; ring

end

section
variable {c : Scale} {s s' : Self}

theorem Spec.Similar.drive (h : Similar c s s') (hb : c.Beams s.beam s'.beam) (phi : ℝ) (bed : Bool) :
    driveOf s' phi bed = (c.stress * (driveOf s phi bed).1, c.stress * (driveOf s phi bed).2.1,
      c.force * (driveOf s phi bed).2.2) := by
  obtain ⟨h1, h2, h3, h4⟩ := h.loads phi
  have hl := c.len_pos.ne'
  have hs := c.stiff_pos.ne'
  have e : s'.B11 / s'.A11 = c.len * (s.B11 / s.A11) := by
    have hA : s'.A11 = c.stiff * c.len * s.A11 := hb.A
    have hB : s'.B11 = c.stiff * c.len ^ 2 * s.B11 := hb.B
    rw [hA, hB, show c.stiff * c.len ^ 2 * s.B11 = c.stiff * c.len * (c.len * s.B11) by ring,
      mul_div_mul_left _ _ (mul_ne_zero hs hl), mul_div_assoc]
  simp only [driveOf, Beam.drive, h1, h2, h3, h4, hb.zs, hb.h, e]
  refine Prod.ext (by dsimp only; ring) (Prod.ext (by dsimp only; ring) ?_)
  dsimp only
  cases bed <;> simp [Scale.force, Scale.stress] <;> ring

/-- The uniform state of the model. -/
theorem Spec.Similar.zp (h : Similar c s s') (hb : c.Beams s.beam s'.beam) (hst : Stiff s) (phi x : ℝ) :
    zp s' x phi true = c.state (zp s 0 phi true) := by
  obtain ⟨h1, h2, h3, h4⟩ := h.loads phi
  simp only [Self.loads] at h1 h2 h3 h4
  have hl := c.len_pos.ne'
  have hs := c.stiff_pos.ne'
  have k1 : s'.kn = c.stiff / c.len * s.kn := hb.kn
  have k2 : s'.kt = c.stiff / c.len * s.kt := hb.kt
  have k3 : s'.kA55 = c.stiff * c.len * s.kA55 := hb.S
  have k4 : s'.h = c.len * s.h := hb.h
  have k5 : s'.t = c.len * s.t := hb.t
  have k6 : s'.zs = c.len * s.zs := hb.zs
  have p1 := hst.kn.ne'
  have p2 := hst.kt.ne'
  have p3 := hst.kA55.ne'
  funext i
  fin_cases i
  · simp [Weac.zp, Scale.state, h2, h4, k2, k3, k4, k5, k6, Scale.disp, Scale.stress]
    field_simp
  · simp [Weac.zp, Scale.state]
  · simp [Weac.zp, Scale.state, h1, h3, k1, Scale.disp, Scale.stress]
    field_simp
  · simp [Weac.zp, Scale.state]
  · simp [Weac.zp, Scale.state, h2, h4, k3, k4, k5, k6, Scale.rot, Scale.stress]
    field_simp
  · simp [Weac.zp, Scale.state]

theorem Spec.Similar.kinds (h : Similar c s s') : (IsPst s' ↔ IsPst s) ∧ (IsVpst s' ↔ IsVpst s) ∧
    (IsSkier s' ↔ IsSkier s) ∧ (IsAux s' ↔ IsAux s) := by
  unfold IsPst IsVpst IsSkier IsAux
  rw [h.system]
  exact ⟨Iff.rfl, Iff.rfl, Iff.rfl, Iff.rfl⟩

theorem Spec.Similar.jump (h : Similar c s s') (hb : c.Beams s.beam s'.beam) (phi : ℝ) (a : SegLists) (i : ℕ) :
    jump s' phi (c.lists a).mi i = (c.force * (jump s phi a.mi i).1, c.moment * (jump s phi a.mi i).2.1,
      c.force * (jump s phi a.mi i).2.2) := by
  have hm : nth (c.lists a).mi i = c.force * nth a.mi i := by
    unfold nth Scale.lists
    rw [List.getD_eq_getElem?_getD, List.getD_eq_getElem?_getD, List.getElem?_map]
    cases a.mi[i]? <;> simp
  have hh : s'.h = c.len * s.h := hb.h
  unfold Weac.jump
  by_cases ha : IsAux s
  · rw [if_pos ha, if_pos (h.kinds.2.2.2.mpr ha)]
    simp
  · rw [if_neg ha, if_neg (fun hc => ha (h.kinds.2.2.2.mp hc)), hm]
    simp only [h.skier, hh]
    refine Prod.ext rfl (Prod.ext ?_ rfl)
    dsimp only
    unfold Scale.moment Scale.force
    ring

theorem Spec.Similar.endCond (h : Similar c s s') (hb : c.Beams s.beam s'.beam) (hst : Stiff s)
    (hsys : IsPst s ∨ IsVpst s ∨ IsSkier s) (phi kR : ℝ) (e : Side) (k : Bool) (z : Vec6)
    (hz : (endCond s phi kR e k).Holds s.beam z) :
    (endCond s' phi (c.stiff * c.len ^ 2 * kR) e k).Holds s'.beam (c.state z) := by
  obtain ⟨i1, i2, i3, i4⟩ := h.kinds
  have hl := c.len_pos.ne'
  have hs := c.stiff_pos.ne'
  obtain ⟨-, q2, -, q4⟩ := h.loads s.phi
  unfold Weac.endCond at hz ⊢
  by_cases c1 : IsPst s
  · rw [if_pos c1] at hz
    rw [if_pos (i1.mpr c1)]
    cases k with
    | true =>
      simp only [if_true] at hz ⊢
      obtain ⟨a1, a2, a3⟩ := hz
      exact ⟨by rw [hb.N, a1, mul_zero], by rw [hb.M, a2, mul_zero], by rw [hb.V, a3, mul_zero]⟩
    | false =>
      simp only [Bool.false_eq_true, if_false] at hz ⊢
      have ht : s'.tangential = c.stress * s.tangential := by
        simp only [Self.tangential, h.phi, q2, q4]; ring
      rw [h.mode, h.tc, ht, h.a, h.td]
      generalize s.mode = md at hz ⊢
      rcases md with _ | _ | _ | _ <;> simp only [EndCond.Holds] at hz ⊢
      · obtain ⟨a1, a2, a3⟩ := hz
        exact ⟨by rw [hb.N, a1, mul_zero], by rw [hb.M, a2, mul_zero], by rw [hb.V, a3, mul_zero]⟩
      · obtain ⟨a1, a2, a3⟩ := hz
        exact ⟨by rw [hb.N, a1, mul_zero], by rw [hb.M, a2, mul_zero], by rw [hb.V, a3, mul_zero]⟩
      · obtain ⟨a1, a2, a3⟩ := hz
        refine ⟨by rw [hb.N, a1, mul_zero], ?_, by show c.disp * z 2 = _; rw [a3]⟩
        have : s.beam.M z = 0 := by simpa using a2
        rw [hb.M, this]; simp
      · obtain ⟨a1, a2, a3⟩ := hz
        refine ⟨?_, ?_, by show c.disp * z 2 = _; rw [a3]⟩
        · rw [hb.N, a1]
          unfold Scale.force Scale.stress
          ring
        · rw [hb.M]
          have e4 : c.state z 4 = c.rot * z 4 := rfl
          have e5 : s.beam.M z = -(e.sgn * kR * z 4) := by linarith
          rw [e4, e5]
          unfold Scale.moment Scale.rot
          field_simp
          ring
  · rw [if_neg c1] at hz
    rw [if_neg (fun hc => c1 (i1.mp hc))]
    by_cases c2 : IsVpst s
    · rw [if_pos c2] at hz
      rw [if_pos (i2.mpr c2)]
      unfold faceForces at hz ⊢
      rw [h.slab, c.layer_ply, wedge_scaled, h.g]
      obtain ⟨a1, a2, a3⟩ := hz
      refine ⟨?_, ?_, ?_⟩
      · rw [hb.N, a1]; ring
      · rw [hb.M, a2]; unfold Scale.moment Scale.force; ring
      · rw [hb.V, a3]; ring
    · rw [if_neg c2] at hz
      rw [if_neg (fun hc => c2 (i2.mp hc))]
      have c3 : IsSkier s := (hsys.resolve_left c1).resolve_left c2
      rw [if_pos c3] at hz
      rw [if_pos (i3.mpr c3)]
      obtain ⟨a1, a2, a3⟩ := hz
      rw [h.zp hb hst phi 0]
      exact ⟨by show c.disp * z 0 = c.disp * _; rw [a1], by show c.disp * z 2 = c.disp * _; rw [a2],
        by show c.rot * z 4 = c.rot * _; rw [a3]⟩

/-! ## Springs -/

/-- The beam of the auxiliary problem. -/
theorem Spec.Similar.auxBeams (h : Similar c s s') (hb : c.Beams s.beam s'.beam) (rested : Bool) :
    c.Beams (s.auxBeam rested) (s'.auxBeam rested) := by
  cases rested
  · exact hb
  · have k1 : s'.kn = c.stiff / c.len * s.kn := hb.kn
    have k2 : s'.kt = c.stiff / c.len * s.kt := hb.kt
    refine ⟨hb.A, hb.B, hb.D, hb.S, ?_, ?_, hb.h, hb.t, hb.zs⟩
    · show s'.ratio * s'.kn = c.stiff / c.len * (s.ratio * s.kn)
      rw [h.ratio, k1]; ring
    · show s'.ratio * s'.kt = c.stiff / c.len * (s.ratio * s.kt)
      rw [h.ratio, k2]; ring

/-- Response of the model to a load at its end. -/
theorem Spec.TipLoaded.scaled {b b' : Beam} (hb : c.Beams b b') {L N M V : ℝ} {Z : ℝ → Vec6} (h : TipLoaded b L N M V Z) (r : ℝ) :
    TipLoaded b' (c.len * L) (r * c.force * N) (r * c.moment * M) (r * c.force * V) (fun x => r • c.state (Z (x / c.len))) := by
  have e : ∀ b : Beam, b.drive Loads.zero = 0 := fun b => by simp [Beam.drive, Loads.zero]
  have fN : ∀ z, b'.N (r • c.state z) = r * c.force * b.N z := fun z => by
    rw [mul_assoc, ← hb.N]; simp [Beam.N]; ring
  have fM : ∀ z, b'.M (r • c.state z) = r * c.moment * b.M z := fun z => by
    rw [mul_assoc, ← hb.M]; simp [Beam.M]; ring
  have fV : ∀ z, b'.V (r • c.state z) = r * c.force * b.V z := fun z => by
    rw [mul_assoc, ← hb.V]; simp [Beam.V]; ring
  obtain ⟨h1, h2, h3⟩ := h.loaded
  obtain ⟨k1, k2, k3⟩ := h.free
  have hl := c.len_pos.ne'
  refine ⟨?_, ⟨?_, ?_, ?_⟩, ?_, ?_, ?_⟩
  · rw [solvesODE_iff_driven, e]
    have hd := (solvesODE_iff_driven _ _ _ _).mp h.ode
    rw [e] at hd
    have h0 := Driven.smul r (hd.scaled hb)
    simp only [Prod.fst_zero, Prod.snd_zero, mul_zero, Prod.mk_zero_zero, smul_zero] at h0
    exact h0
  · simp only [zero_div]; rw [fN, h1]
  · simp only [zero_div]; rw [fM, h2]
  · simp only [zero_div]; rw [fV, h3]
  · simp only [mul_div_cancel_left₀ L hl]; rw [fN, k1, mul_zero]
  · simp only [mul_div_cancel_left₀ L hl]; rw [fM, k2, mul_zero]
  · simp only [mul_div_cancel_left₀ L hl]; rw [fV, k3, mul_zero]

/-- Rotational springs of similar slabs. -/
theorem Spec.Similar.rotation (eig : EigSolver) (h : Similar c s s') (hb : c.Beams s.beam s'.beam) (hf : EigFresh eig s)
    (hf' : EigFresh eig s') (rested : Bool) (hp : BedOk (prep eig rested .rot s)) (hp' : BedOk (prep eig rested .rot s'))
    (hc : ShearOk (prep eig rested .rot s)) (hc' : ShearOk (prep eig rested .rot s')) (L : ℝ) (hL : 0 < L) :
    ∃ k, substituteStiffness eig L rested .rot s = (.ok k, s) ∧
      substituteStiffness eig (c.len * L) rested .rot s' = (.ok (c.stiff * c.len ^ 2 * k), s') := by
  obtain ⟨k, h1, h2, ⟨Z, hZ⟩, h3⟩ := C26_rotational_spring eig L hL rested s hf hp hc
  obtain ⟨k', h1', h2', -, h3'⟩ := C26_rotational_spring eig (c.len * L) (mul_pos c.len_pos hL) rested s' hf' hp' hc'
  have hm : 0 < c.moment := mul_pos c.dens_pos (pow_pos c.len_pos 3)
  have hT := hZ.scaled (h.auxBeams hb rested) (1 / c.moment)
  rw [mul_zero, one_div_mul_cancel hm.ne', mul_one] at hT
  have e := h3' _ hT
  have e0 := h3 Z hZ
  simp only [Pi.smul_apply, smul_eq_mul, zero_div] at e
  have e4 : c.state (Z 0) 4 = c.rot * Z 0 4 := rfl
  rw [e4, e0] at e
  have hl := c.len_pos.ne'
  have hs := c.stiff_pos.ne'
  have hd := c.dens_pos.ne'
  have hk : k' = c.stiff * c.len ^ 2 * k := by
    unfold Scale.moment Scale.rot at e
    field_simp at e
    linarith
  exact ⟨k, h1, by rw [h1', hk]⟩

theorem Spec.Similar.spring (num : Numerics) (h : Similar c s s') (hb : c.Beams s.beam s'.beam) (hf : EigFresh num.eig s)
    (hf' : EigFresh num.eig s') (hp : RestOk num s) (hp' : RestOk num s') :
    valOf (spring num) s' = c.stiff * c.len ^ 2 * valOf (spring num) s := by
  obtain ⟨k, h1, h2⟩ := h.rotation num.eig hb hf hf' true hp.bed hp'.bed hp.shear hp'.shear (s.a - s.td) (sub_pos.mpr hp.td)
  have e1 : Weac.spring num s = (.ok k, s) := by unfold Weac.spring; rw [Py.get_bind]; exact h1
  have e2 : Weac.spring num s' = (.ok (c.stiff * c.len ^ 2 * k), s') := by
    unfold Weac.spring
    rw [Py.get_bind, h.a, h.td, ← mul_sub]
    exact h2
  rw [valOf_ok e1, valOf_ok e2]

end

end Weac
