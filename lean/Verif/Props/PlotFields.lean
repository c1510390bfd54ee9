import Verif.Props.PlotLines

/-!
# What `deformed` colours and outlines, and further line plots: C57, C58, C63
-/

namespace Weac

open Spec

theorem mapM_elem {α β : Type} (f : α → Res β) : ∀ (l : List α) (v : List β), l.mapM f = .ok v →
    v.length = l.length ∧ ∀ (j : ℕ) (a : α), l[j]? = some a → ∃ b, v[j]? = some b ∧ f a = .ok b := by
  intro l
  induction l with
  | nil =>
    intro v h
    injection h with h
    subst h
    exact ⟨rfl, by simp⟩
  | cons a r ih =>
    intro v h
    rw [List.mapM_cons] at h
    obtain ⟨b, h1, h⟩ := res_bind h
    obtain ⟨w, h2, h⟩ := res_bind h
    injection h with h
    subst h
    obtain ⟨e1, e2⟩ := ih w h2
    refine ⟨by simp [e1], ?_⟩
    intro j a' hj
    cases j with
    | zero =>
      simp only [List.getElem?_cons_zero, Option.some.injEq] at hj
      subst hj
      exact ⟨b, rfl, h1⟩
    | succ j =>
      obtain ⟨b', h3, h4⟩ := e2 j a' (by simpa using hj)
      exact ⟨b', by simpa using h3, h4⟩

/-- Column `j` of the slab shows `f` of the state there. -/
def Spec.ShowsColumns (d : Drawing) (z : List Vec6) (n : ℕ) (f : Vec6 → Res (List ℝ)) : Prop :=
  d.slab.rows = n ∧ d.slab.cols = z.length ∧
  ∀ (j : ℕ) (Z : Vec6), z[j]? = some Z → ∃ col, f Z = .ok col ∧ ∀ i, d.slab.val i j = nth col i

theorem shows_of {s : Self} {dz : ℝ} {z : List Vec6} {f : Vec6 → Res (List ℝ)} {v : List (List ℝ)} {d : Drawing}
    (h : z.mapM f = .ok v)
    (hd : d.slab = ⟨(plotMesh s dz).length, z.length, fun i j => nth (v.getD j []) i⟩) :
    ShowsColumns d z (getZmesh s dz).length f := by
  obtain ⟨-, e⟩ := mapM_elem f z v h
  refine ⟨by rw [hd]; simp [plotMesh], by rw [hd], ?_⟩
  intro j Z hj
  obtain ⟨col, c1, c2⟩ := e j Z hj
  refine ⟨col, c2, fun i => ?_⟩
  rw [hd]
  dsimp only
  rw [List.getD_eq_getElem?_getD, c1, Option.getD_some]

/-- The weak layer shows `f` where it is drawn, and has no value elsewhere. -/
def Spec.ShowsSupported (d : Drawing) (z : List Vec6) (f : Vec6 → ℝ) : Prop :=
  d.weak.cols = z.length ∧ ∀ (j : ℕ) (Z : Vec6), z[j]? = some Z →
    (d.geom.weakX.val 1 j = none → d.weak.val 0 j = none) ∧ (d.geom.weakX.val 1 j ≠ none → d.weak.val 0 j = some (f Z))

theorem weak_shows {xw : List (Option ℝ)} {z : List Vec6} (hl : xw.length = z.length) {f : Vec6 → ℝ}
    {out : List (Option ℝ) → List Vec6 → String → Bool → Res (List (Option ℝ) × List (Option ℝ))} (ho : StressOutput f out)
    {X W : List (Option ℝ)} (h : out xw z "kPa" false = .ok (X, W)) {d : Drawing}
    (hw : d.weak = ⟨2, W.length, fun _ j => W.getD j none⟩)
    (hg : ∀ j, d.geom.weakX.val 1 j = (xw.getD j none).map fun x => x / 10) :
    ShowsSupported d z fun Z => 1000 * f Z := by
  obtain ⟨X', W', w1, w2, w3, w4⟩ := ho.kept xw z hl "kPa" 1000 (by simp)
  rw [h] at w1
  injection w1 with w1
  injection w1 with e1 e2
  subst e1 e2
  refine ⟨by rw [hw]; dsimp only; omega, ?_⟩
  intro j Z hj
  have hjz : j < z.length := by
    by_contra hc
    rw [List.getElem?_eq_none (by omega)] at hj
    cases hj
  have hjx : j < xw.length := by omega
  have hZ : z[j] = Z := by
    rw [List.getElem?_eq_getElem hjz] at hj
    injection hj
  obtain ⟨k1, k2⟩ := w4 j hjx hjz (by omega) (by omega)
  rw [hg j, hw]
  dsimp only
  rw [List.getD_eq_getElem?_getD, List.getElem?_eq_getElem hjx, Option.getD_some, List.getD_eq_getElem?_getD,
    List.getElem?_eq_getElem (by omega), Option.getD_some]
  cases hx : xw[j] with
  | none => exact ⟨fun _ => (k2 hx).2, fun h => absurd rfl h⟩
  | some x =>
    refine ⟨fun h => absurd h (by simp), fun _ => ?_⟩
    rw [(k1 x hx).2, hZ]

/-- C58: the stress fields are those of the slab in kPa, point by point; on the weak layer
`Sxx` is zero, `Txz` is its shear stress and `Szz` its normal stress, where it is drawn. -/
theorem C58_stresses (s : Self) (xsl : List ℝ) (xwl : List (Option ℝ)) (z : List Vec6) (phi dz scale pad : ℝ)
    (window : Option ℝ) (levels : ℕ) (normalize : Bool) (d : Drawing) :
    (deformed s xsl xwl z phi dz scale window pad levels "Sxx" normalize = .ok d →
      ShowsColumns d z (getZmesh s dz).length (fun Z => fSxx s Z phi dz "kPa") ∧ ∀ j < z.length, d.weak.val 0 j = some 0) ∧
    (deformed s xsl xwl z phi dz scale window pad levels "Txz" normalize = .ok d →
      ShowsColumns d z (getZmesh s dz).length (fun Z => fTxz s Z phi dz "kPa") ∧ ShowsSupported d z fun Z => 1000 * s.beam.tau Z) ∧
    (deformed s xsl xwl z phi dz scale window pad levels "Szz" normalize = .ok d →
      ShowsColumns d z (getZmesh s dz).length (fun Z => fSzz s Z phi dz "kPa") ∧ ShowsSupported d z fun Z => 1000 * -(s.kn * Z 2)) := by
  refine ⟨fun h => ?_, fun h => ?_, fun h => ?_⟩
  · obtain ⟨xs, xw, wv, -, hg, hf, hw, -⟩ := deformed_ok h
    obtain ⟨-, lw, -⟩ := geometry_ok hg
    unfold plotField at hf
    simp only [convertLength_cm, bind, Except.bind, pure, Except.pure] at hf
    rw [if_neg (by decide), if_neg (by decide), if_pos trivial] at hf
    obtain ⟨v, h1, hf⟩ := res_bind hf
    injection hf with hf
    injection hf with f1 f2
    refine ⟨shows_of h1 f1.symm, fun j hj => ?_⟩
    rw [hw, ← f2]
    dsimp only
    rw [List.getD_eq_getElem?_getD, List.getElem?_map, List.getElem?_eq_getElem (by omega)]
    rfl
  · obtain ⟨xs, xw, wv, -, hg, hf, hw, -⟩ := deformed_ok h
    have gx := geometry_ok hg
    unfold plotField at hf
    simp only [convertLength_cm, bind, Except.bind, pure, Except.pure] at hf
    rw [if_neg (by decide), if_neg (by decide), if_neg (by decide), if_pos trivial] at hf
    obtain ⟨v, h1, hf⟩ := res_bind hf
    obtain ⟨w, h2, hf⟩ := res_bind hf
    injection hf with hf
    injection hf with f1 f2
    refine ⟨shows_of h1 f1.symm, ?_⟩
    rw [← f2] at hw
    exact weak_shows gx.2.1 (C37_shear s) (X := w.1) h2 hw gx.2.2.2.2.2.2.2.2.2.2.2.2.2.2.2.2.2.2.2.1
  · obtain ⟨xs, xw, wv, -, hg, hf, hw, -⟩ := deformed_ok h
    have gx := geometry_ok hg
    unfold plotField at hf
    simp only [convertLength_cm, bind, Except.bind, pure, Except.pure] at hf
    rw [if_neg (by decide), if_neg (by decide), if_neg (by decide), if_neg (by decide), if_pos trivial] at hf
    obtain ⟨v, h1, hf⟩ := res_bind hf
    obtain ⟨w, h2, hf⟩ := res_bind hf
    injection hf with hf
    injection hf with f1 f2
    refine ⟨shows_of h1 f1.symm, ?_⟩
    rw [← f2] at hw
    exact weak_shows gx.2.1 (C37_normal s) (X := w.1) h2 hw gx.2.2.2.2.2.2.2.2.2.2.2.2.2.2.2.2.2.2.2.1

/-- C58: the field `principal` is the greatest principal stress of the slab and the least
of the weak layer, in kPa or normalized. -/
theorem C58_principal (s : Self) (xsl : List ℝ) (xwl : List (Option ℝ)) (z : List Vec6) (phi dz scale pad : ℝ)
    (window : Option ℝ) (levels : ℕ) (normalize : Bool) (d : Drawing)
    (h : deformed s xsl xwl z phi dz scale window pad levels "principal" normalize = .ok d) :
    ShowsColumns d z (getZmesh s dz).length (fun Z => principalSlab s Z phi dz "kPa" "max" normalize) ∧
    ∀ (j : ℕ) (Z : Vec6), z[j]? = some Z → ∃ v, principalWeak s Z 2.6 "kPa" "min" normalize = .ok v ∧ d.weak.val 0 j = some v := by
  obtain ⟨xs, xw, wv, -, hg, hf, hw, -⟩ := deformed_ok h
  unfold plotField at hf
  simp only [convertLength_cm, bind, Except.bind, pure, Except.pure] at hf
  rw [if_neg (by decide), if_neg (by decide), if_neg (by decide), if_neg (by decide), if_neg (by decide), if_pos trivial] at hf
  obtain ⟨v, h1, hf⟩ := res_bind hf
  obtain ⟨w, h2, hf⟩ := res_bind hf
  injection hf with hf
  injection hf with f1 f2
  refine ⟨shows_of h1 f1.symm, ?_⟩
  intro j Z hj
  obtain ⟨b, c1, c2⟩ := (mapM_elem _ z w h2).2 j Z hj
  refine ⟨b, c2, ?_⟩
  rw [hw, ← f2]
  dsimp only
  rw [List.getD_eq_getElem?_getD, List.getElem?_map, c1]
  rfl

/-- C58: other fields are refused. -/
theorem C58_unknown (s : Self) (xsl : List ℝ) (xwl : List (Option ℝ)) (z : List Vec6) (phi dz scale pad : ℝ)
    (window : Option ℝ) (levels : ℕ) (field : String) (normalize : Bool) (d : Drawing)
    (h : deformed s xsl xwl z phi dz scale window pad levels field normalize = .ok d) :
    field ∈ ["u", "w", "Sxx", "Txz", "Szz", "principal"] := by
  obtain ⟨xs, xw, wv, -, -, hf, -⟩ := deformed_ok h
  unfold plotField at hf
  simp only [convertLength_cm, bind, Except.bind, pure, Except.pure] at hf
  by_contra hc
  simp only [List.mem_cons, List.not_mem_nil, or_false, not_or] at hc
  rw [if_neg hc.1, if_neg hc.2.1, if_neg hc.2.2.1, if_neg hc.2.2.2.1, if_neg hc.2.2.2.2.1, if_neg hc.2.2.2.2.2] at hf
  cases hf

/-! ## Outline of the weak layer -/

theorem rimPath_two (n : ℕ) (hn : 0 < n) (i j : ℕ) : (i, j) ∈ rimPath 2 n ↔ i < 2 ∧ j < n := by
  simp only [rimPath, List.mem_append, List.mem_map, List.mem_range, Prod.mk.injEq]
  constructor
  · rintro (((⟨a, h1, rfl, rfl⟩ | ⟨a, h1, rfl, rfl⟩) | ⟨a, h1, rfl, rfl⟩) | ⟨a, h1, rfl, rfl⟩) <;> omega
  · rintro ⟨h1, h2⟩
    by_cases hi : i = 0
    · subst hi
      by_cases hj : j = n - 1
      · exact .inl (.inl (.inr ⟨0, by omega, rfl, hj.symm⟩))
      · exact .inl (.inl (.inl ⟨j, by omega, rfl, rfl⟩))
    · by_cases hj : j = 0
      · exact .inr ⟨0, by omega, by omega, hj.symm⟩
      · exact .inl (.inr ⟨n - 1 - j, by omega, by omega, by omega⟩)

/-- C57: for propagation saw tests the outline of the weak layer runs through its top and
bottom points above supported parts and no others; skier systems have none. -/
theorem C57_weak_outline (s : Self) (xsl : List ℝ) (xwl : List (Option ℝ)) (z : List Vec6) (phi dz scale pad : ℝ)
    (window : Option ℝ) (levels : ℕ) (field : String) (normalize : Bool) (d : Drawing)
    (h : deformed s xsl xwl z phi dz scale window pad levels field normalize = .ok d) :
    (s.system ∈ ["-pst", "pst-", "-vpst", "vpst-"] → ∃ o, d.weakOutline = some o ∧
      ∀ p : ℝ × ℝ, p ∈ o ↔ ∃ i j, i < 2 ∧ j < z.length ∧ d.geom.weakX.val i j = some p.1 ∧ d.geom.weakZ.val i j = p.2) ∧
    (s.system ∈ ["skier", "skiers"] → d.weakOutline = none) := by
  obtain ⟨xs, xw, wv, hc, hg, -, -, -, -, -, ho, -⟩ := deformed_ok h
  have gx := geometry_ok hg
  unfold weakOutlineOf at ho
  constructor
  · intro hs
    rw [if_pos hs] at ho
    obtain ⟨o, h1, ho⟩ := res_bind ho
    injection ho with ho
    refine ⟨o, ho.symm, ?_⟩
    have hpos : 0 < (maskCols xw).length := by
      by_contra hc
      unfold outline at h1
      rw [if_pos (.inr (by dsimp only; omega))] at h1
      cases h1
    rw [outline_rim _ (by dsimp only; omega) (by exact hpos)] at h1
    injection h1 with h1
    rw [← h1]
    have mem : ∀ j, j ∈ maskCols xw ↔ j < z.length ∧ ∃ x, xw.getD j none = some x := by
      intro j
      simp only [maskCols, List.mem_filter, List.mem_range, Option.isSome_iff_exists, gx.2.1]
    have wx : ∀ i j, i < 2 → ((∃ x, xw.getD j none = some x) ↔ ∃ x, d.geom.weakX.val i j = some x) := by
      intro i j hi
      have g0 := gx.2.2.2.2.2.2.2.2.2.2.2.2.2.2.2.2.2.2.1 j
      have g1 := gx.2.2.2.2.2.2.2.2.2.2.2.2.2.2.2.2.2.2.2.1 j
      obtain rfl | rfl : i = 0 ∨ i = 1 := by omega
      · rw [g0]; cases xw.getD j none <;> simp
      · rw [g1]; cases xw.getD j none <;> simp
    have elem : ∀ k, k < (maskCols xw).length → (maskCols xw).getD k 0 ∈ maskCols xw := by
      intro k hk
      rw [List.getD_eq_getElem?_getD, List.getElem?_eq_getElem hk, Option.getD_some]
      exact List.getElem_mem hk
    intro p
    simp only [List.mem_map, List.mem_append, List.mem_singleton, Prod.exists]
    constructor
    · rintro ⟨i, k, hik, rfl⟩
      have hik' : i < 2 ∧ k < (maskCols xw).length := by
        rcases hik with hik | hik
        · exact (rimPath_two _ hpos i k).1 hik
        · simp only [Prod.mk.injEq] at hik
          omega
      obtain ⟨m1, m2⟩ := (mem _).1 (elem k hik'.2)
      obtain ⟨x, hx⟩ := (wx i _ hik'.1).1 m2
      refine ⟨i, (maskCols xw).getD k 0, hik'.1, m1, ?_, rfl⟩
      dsimp only
      rw [hx]
      rfl
    · rintro ⟨i, j, hi, hj, h1, h2⟩
      have hm := (mem j).2 ⟨hj, (wx i j hi).2 ⟨_, h1⟩⟩
      obtain ⟨k, hk, e⟩ := List.getElem_of_mem hm
      refine ⟨i, k, .inl ((rimPath_two _ hpos i k).2 ⟨hi, hk⟩), ?_⟩
      rw [List.getD_eq_getElem?_getD, List.getElem?_eq_getElem hk, Option.getD_some, e, h1, h2]
      rfl
  · intro hs
    rw [if_neg (by simp only [List.mem_cons, List.not_mem_nil, or_false] at hs; rcases hs with hs | hs <;> rw [hs] <;> decide)] at ho
    injection ho with ho
    exact ho.symm

/-- C58: `deformed` draws the axial stress of every slab on level ground that is somewhere
stretched without being bent. -/
theorem C58_draws (s : Self) (hs : SlabOk s) (xsl : List ℝ) (xwl : List (Option ℝ)) (z : List Vec6) (dz scale pad : ℝ)
    (hdz : 0 < dz) (window : Option ℝ) (levels : ℕ) (normalize : Bool) (h1 : xsl.length = z.length) (h2 : xwl.length = z.length)
    (hz : 2 ≤ z.length) (hl : 1 ≤ levels) (hne : ∃ Z ∈ z, Z 1 ≠ 0 ∧ Z 5 = 0) (hsup : ∃ x, some x ∈ xwl) :
    ∃ d, deformed s xsl xwl z 0 dz scale window pad levels "Sxx" normalize = .ok d := by
  refine C57_draws_field s hs xsl xwl z 0 dz scale pad hdz window levels "Sxx" normalize h1 h2 hz hl (fun xw hw => ?_) hsup
  have m0 := mesh_length_two s hs dz hdz
  obtain ⟨Z, hZ, hZ1, hZ5⟩ := hne
  obtain ⟨j, hj, ej⟩ := List.getElem_of_mem hZ
  have col := fun Z => fSxx_eq s Z 0 dz "kPa" 1000 (by simp [convertStress]; norm_num)
  have all := mapM_ok (f := fun Z => fSxx s Z 0 dz "kPa") z fun Z _ => col Z
  obtain ⟨p, q, r, hm, -⟩ := mesh_two s hs hdz
  have g0 : ∃ e, (gapped s dz)[0]? = some (p, e) := by
    refine ⟨gap ((getZmesh s dz).map MeshPt.z) 0, ?_⟩
    unfold gapped
    rw [List.getElem?_mapIdx, hm]
    rfl
  obtain ⟨e, g0⟩ := g0
  have pe : 0 < p.E / (1 - p.nu ^ 2) := by
    obtain ⟨l, hl, e1, e2, -⟩ := (C33_range s hs dz hdz).2.2.2.2 p (by rw [hm]; simp)
    rw [e1, e2]
    have := hs.valid l hl
    apply div_pos this.E
    show 0 < 1 - l.nu ^ 2
    nlinarith [this.nu_lo, this.nu_hi]
  unfold plotField
  simp only [convertLength_cm, bind, Except.bind, pure, Except.pure]
  rw [if_neg (by decide), if_neg (by decide), if_pos trivial, all]
  refine ⟨_, rfl, by simp, rfl, by simp [hw], 1000 * (p.E / (1 - p.nu ^ 2) * Z 1), (Grid.mem_toList _ _).2
    ⟨0, j, by dsimp only; rw [List.length_map]; omega, hj, ?_⟩, by positivity⟩
  dsimp only
  rw [List.getD_eq_getElem?_getD, List.getElem?_map, List.getElem?_eq_getElem hj, ej]
  simp only [Option.map_some, Option.getD_some, nth]
  rw [List.getD_eq_getElem?_getD, List.getElem?_map, g0]
  simp [hZ5, deg2rad]

/-- A test with a free end: its outline of the weak layer leaves out the free part, its
slab is coloured by the axial stress, its weak layer by zero. -/
example (eig : EigSolver) : ∃ d o, deformed (demo eig "pst-" false) [0, 100, 200] [some 0, some 100, none]
      [fun i => if i = 1 then 1e-5 else 0, 0, 0] 0 (field := "Sxx") = .ok d ∧ d.weak.val 0 1 = some 0 ∧ d.weakOutline = some o ∧
    ∀ p ∈ o, p.1 ≤ 10 := by
  have hs := (demo_ready eig "pst-" false).slab
  have hsys : (demo eig "pst-" false).system = "pst-" := rfl
  obtain ⟨d, hd⟩ := C58_draws (demo eig "pst-" false) hs [0, 100, 200] [some 0, some 100, none]
    [fun i => if i = 1 then 1e-5 else 0, 0, 0] 2 100 2 (by norm_num) none 300 true rfl rfl (by simp) (by norm_num)
    ⟨_, List.mem_cons_self, by norm_num, by simp⟩ ⟨0, by simp⟩
  obtain ⟨-, hw⟩ := (C58_stresses _ _ _ _ _ _ _ _ _ _ _ d).1 hd
  obtain ⟨o, h1, h2⟩ := (C57_weak_outline _ _ _ _ _ _ _ _ _ _ _ _ d hd).1 (by rw [hsys]; simp)
  refine ⟨d, o, hd, hw 1 (by simp), h1, ?_⟩
  intro p hp
  obtain ⟨i, j, hi, hj, e1, -⟩ := (h2 p).1 hp
  obtain ⟨xs, xw, wv, hc, hg, -⟩ := deformed_ok hd
  have gx := geometry_ok hg
  have g0 := gx.2.2.2.2.2.2.2.2.2.2.2.2.2.2.2.2.2.2.1 j
  have g1 := gx.2.2.2.2.2.2.2.2.2.2.2.2.2.2.2.2.2.2.2.1 j
  unfold centred at hc
  rw [hsys, if_neg (by decide)] at hc
  injection hc with hc
  injection hc with c1 c2
  subst c1 c2
  simp only [List.length_cons, List.length_nil] at hj
  obtain rfl | rfl : i = 0 ∨ i = 1 := by omega
  all_goals
    obtain rfl | rfl | rfl : j = 0 ∨ j = 1 ∨ j = 2 := by omega
    all_goals simp at g0 g1; simp [g0, g1] at e1
    all_goals rw [← e1]; norm_num

/-! ## Line plots -/

/-- C63: the plot of section forces shows normal force, bending moment and shear force. -/
theorem C63_forces (s : Self) (x : List (Option ℝ)) (z : List Vec6) (segs : PlotSegs) (p : LinePlot)
    (h : plotSectionForces s x z segs = .ok p) :
    p.curves.map Curve.x = List.replicate 3 (x.map (Option.map fun v => v / 10)) ∧
    p.curves.map Curve.y = [z.map fun Z => some (s.A11 * Z 1 + s.B11 * Z 5), z.map fun Z => some (s.B11 * Z 1 + s.D11 * Z 5),
      z.map fun Z => some (s.kA55 * (Z 3 + Z 4))] := by
  obtain ⟨-, e⟩ := plotData_ok h
  rw [e]
  exact ⟨rfl, rfl⟩

/-- C63: the plot of a stress criterion shows it over the coordinate in cm. -/
theorem C63_criterion (x stress : List (Option ℝ)) (segs : PlotSegs) (p : LinePlot) (h : plotStressCriteria x stress segs = .ok p) :
    p.curves.map Curve.x = [x.map (Option.map fun v => v / 10)] ∧ p.curves.map Curve.y = [stress] := by
  obtain ⟨-, e⟩ := plotData_ok h
  rw [e]
  exact ⟨rfl, rfl⟩

/-- C63: label position 0 counts as none. -/
theorem C63_labelpos (ax1 ax2 : List Curve) (vlines : Bool) (segs : PlotSegs) :
    plotData ax1 ax2 (some 0) vlines segs = plotData ax1 ax2 none vlines segs := by
  rfl

theorem pyIndex_back {α : Type} (l : List α) (k : ℕ) (h : k < l.length) : pyIndex l (-(k : ℤ) - 1) = .ok (l[l.length - 1 - k]'(by omega)) := by
  unfold pyIndex
  dsimp only
  have e : (if -(k : ℤ) - 1 < 0 then -(k : ℤ) - 1 + (l.length : ℤ) else -(k : ℤ) - 1) = ((l.length - 1 - k : ℕ) : ℤ) := by
    rw [if_pos (by omega)]
    omega
  rw [e, if_neg (by omega), Int.toNat_natCast, List.getElem?_eq_getElem (by omega)]

/-- C63: the label of a dotted curve with at least three samples sits between the third
and the second sample from its end. -/
theorem C63_dotted (x y : List (Option ℝ)) (hl : x.length = y.length) (pos : ℤ) (i : ℕ) (n : ℕ) (hn : (samples x y).length = n + 3) :
    ∃ a b, (samples x y)[n]? = some a ∧ (samples x y)[n + 1]? = some b ∧ leftLabel pos i ⟨x, y, true⟩ = .ok [between a b] := by
  refine ⟨(samples x y)[n], (samples x y)[n + 1], List.getElem?_eq_getElem _, List.getElem?_eq_getElem _, ?_⟩
  have i2 : ∀ {α : Type} (l : List α) (h : l.length = n + 3), pyIndex l (-2 - 1) = .ok (l[n]'(by omega)) := by
    intro α l h
    have := pyIndex_back l 2 (by omega)
    simp only [h] at this
    exact this
  have i1 : ∀ {α : Type} (l : List α) (h : l.length = n + 3), pyIndex l (-2) = .ok (l[n + 1]'(by omega)) := by
    intro α l h
    have := pyIndex_back l 1 (by omega)
    simp only [h] at this
    exact this
  unfold leftLabel
  rw [if_neg (by simpa using hl)]
  simp only [bind, Except.bind, pure, Except.pure, (keepReal_x x y hl).1, (keepReal_x x y hl).2]
  rw [if_pos trivial]
  unfold labelAt
  rw [i2 _ (by simpa using hn), i1 _ (by simpa using hn), i2 _ (by simpa using hn), i1 _ (by simpa using hn)]
  simp only [List.getElem_map]
  rfl

/-- C63: labels of the right axis sit between two neighbouring samples of their curve if
the curve has more samples than the label position. -/
theorem C63_right (pos : ℕ) (cs : List (List (Option ℝ) × List (Option ℝ))) (h : ∀ c ∈ cs, c.1.length = c.2.length ∧ pos + 1 < (samples c.1 c.2).length) :
    ∃ L, rightLabels ((pos + 1 : ℕ) : ℤ) (cs.map fun c => ⟨c.1, c.2, false⟩) = .ok L ∧ L.length = cs.length ∧
      ∀ (j : ℕ) (c : List (Option ℝ) × List (Option ℝ)), cs[j]? = some c → ∃ a b, (samples c.1 c.2)[pos]? = some a ∧
        (samples c.1 c.2)[pos + 1]? = some b ∧ L[j]? = some (between a b) := by
  induction cs with
  | nil => exact ⟨[], rfl, rfl, by simp⟩
  | cons c r ih =>
    obtain ⟨L, e1, e2, e3⟩ := ih fun c hc => h c (by simp [hc])
    obtain ⟨hl, hn⟩ := h c (by simp)
    refine ⟨between (samples c.1 c.2)[pos] (samples c.1 c.2)[pos + 1] :: L, ?_, by simp [e2], ?_⟩
    · rw [List.map_cons, rightLabels]
      rw [if_neg (by simpa using hl)]
      simp only [bind, Except.bind, pure, Except.pure, (keepReal_x c.1 c.2 hl).1, (keepReal_x c.1 c.2 hl).2, labelAt_samples _ pos hn, e1]
    · intro j c' hj
      cases j with
      | zero =>
        simp only [List.getElem?_cons_zero, Option.some.injEq] at hj
        subst hj
        exact ⟨_, _, List.getElem?_eq_getElem (by omega), List.getElem?_eq_getElem hn, rfl⟩
      | succ j => exact e3 j c' (by simpa using hj)

/-- C63: the curves of all wrappers are solid lines; the plots along the slab mark
the segments that were passed. -/
theorem C63_solid (s : Self) (x v w g : List (Option ℝ)) (z : List Vec6) (segs : PlotSegs) (p : LinePlot) :
    (plotDisplacements x z segs = .ok p ∨ plotSectionForces s x z segs = .ok p ∨ plotStresses s x z segs = .ok p ∨
      plotStressCriteria x v segs = .ok p → (∀ c ∈ p.curves, c.dotted = false) ∧ marksOf true segs = .ok (p.spans, p.vlines)) ∧
    (plotErrComp x v w = .ok p ∨ plotErrModes x v w g = .ok p → ∀ c ∈ p.curves, c.dotted = false) := by
  constructor
  · rintro (h | h | h | h)
    · have e := plotData_ok (show plotData [⟨toCm x, z.map fun Z => some (1 * fu Z 0), false⟩, ⟨toCm x, z.map fun Z => some (-(1 * fw Z)), false⟩,
        ⟨toCm x, (z.map fun Z => Z 4 * (180 / Real.pi)).map some, false⟩] (segs := segs) = .ok p from h)
      exact ⟨by rw [e.2]; simp, e.1⟩
    · exact ⟨by rw [(plotData_ok h).2]; simp, (plotData_ok h).1⟩
    · have e := plotData_ok (show plotData [⟨toCm x, z.map fun Z => some (1e3 * ftau s Z), false⟩,
        ⟨toCm x, z.map fun Z => some (1e3 * fsig s Z), false⟩] (segs := segs) = .ok p from h)
      exact ⟨by rw [e.2]; simp, e.1⟩
    · exact ⟨by rw [(plotData_ok h).2]; simp, (plotData_ok h).1⟩
  · rintro (h | h)
    · rw [(plotData_ok h).2]; simp
    · rw [(plotData_ok h).2]; simp

end Weac
