import Verif.Model.Output
import Verif.Props.Raster
import Verif.Props.Principal

/-!
# C37, C42: output arrays
-/

namespace Weac
open Spec

/-- The coordinate (cm) - stress pairs of the grid points that have a
coordinate, in order. -/
noncomputable def Spec.present (x : List (Option ℝ)) (v : List ℝ) : List (ℝ × ℝ) :=
  (x.zip v).filterMap fun p => p.1.map fun a => (a / 10, p.2)

theorem filter_remove (x : List (Option ℝ)) (v : List ℝ) (h : x.length = v.length) :
    filterStress x (v.map some) true
      = .ok ((present x v).map fun p => some p.1, (present x v).map fun p => some p.2) := by
  have e1 : ∀ (x : List (Option ℝ)) (v : List ℝ), x.length = v.length →
      (((toCm x).zip (v.map some)).filter fun p => p.1.isSome).map Prod.snd = (present x v).map fun p => some p.2 := by
    intro x
    induction x with
    | nil => intro v _; rfl
    | cons a x ih =>
      intro v h
      cases v with
      | nil => simp at h
      | cons b v =>
        have hi := ih v (by simpa using h)
        cases a with
        | none => simpa [toCm, present] using hi
        | some a => simpa [toCm, present] using hi
  have e2 : ∀ (x : List (Option ℝ)) (v : List ℝ), x.length = v.length →
      (((toCm x).zip (toCm x)).filter fun p => p.1.isSome).map Prod.snd = (present x v).map fun p => some p.1 := by
    intro x
    induction x with
    | nil => intro v _; rfl
    | cons a x ih =>
      intro v h
      cases v with
      | nil => simp at h
      | cons b v =>
        have hi := ih v (by simpa using h)
        cases a with
        | none => simpa [toCm, present] using hi
        | some a => simpa [toCm, present] using hi
  unfold filterStress keepReal
  have hl : (toCm x).length = (v.map some).length := by simp [toCm, h]
  simp only [if_true]
  rw [if_pos hl, e1 x v h, e2 x v h]
  rfl

theorem filter_keep (x : List (Option ℝ)) (v : List ℝ) (h : x.length = v.length) :
    filterStress x (v.map some) false
      = .ok (x.map (Option.map (· / 10)), List.zipWith (fun a b => a.map fun _ => b) x v) := by
  unfold filterStress setNaN
  have hl : (toCm x).length = (v.map some).length := by simp [toCm, h]
  simp only [if_pos hl]
  have : List.zipWith (fun a b => if a.isNone then none else b) (toCm x) (v.map some)
      = List.zipWith (fun a b => a.map fun _ => b) x v := by
    unfold toCm
    rw [List.zipWith_map]
    congr 1
    funext a b
    cases a <;> rfl
  rw [this]
  rfl

theorem filter_mismatch (x : List (Option ℝ)) (v : List (Option ℝ)) (b : Bool) (h : x.length ≠ v.length) :
    filterStress x v b = .error .indexError := by
  have hl : (toCm x).length ≠ v.length := by simpa [toCm] using h
  cases b
  · unfold filterStress setNaN
    simp only [if_neg hl]
    rfl
  · unfold filterStress keepReal
    simp only [if_neg hl]
    rfl

/-- What the two stress outputs have in common: the stress `f`, in MPa, of the
columns, in the unit with factor `c`. -/
structure Spec.StressOutput (f : Vec6 → ℝ)
    (out : List (Option ℝ) → List Vec6 → String → Bool → Res (List (Option ℝ) × List (Option ℝ))) : Prop where
  /-- NaN pairs removed: exactly the pairs with a coordinate remain, in order -/
  removed : ∀ x z, x.length = z.length → ∀ unit c, (unit, c) ∈ [("MPa", (1 : ℝ)), ("kPa", 1000)] →
    out x z unit true = .ok
      ((present x (z.map fun Z => c * f Z)).map fun p => some p.1, (present x (z.map fun Z => c * f Z)).map fun p => some p.2)
  /-- NaN kept: coordinates in cm, the stress is NaN exactly where the coordinate is -/
  kept : ∀ x z, x.length = z.length → ∀ unit c, (unit, c) ∈ [("MPa", (1 : ℝ)), ("kPa", 1000)] →
    ∃ X T, out x z unit false = .ok (X, T) ∧ X.length = x.length ∧ T.length = x.length ∧
      ∀ (i : ℕ) (hx : i < x.length) (hz : i < z.length) (hX : i < X.length) (hT : i < T.length),
        (∀ a, x[i] = some a → X[i] = some (a / 10) ∧ T[i] = some (c * f z[i])) ∧
        (x[i] = none → X[i] = none ∧ T[i] = none)
  unit : ∀ x z u b, u ≠ "MPa" → u ≠ "kPa" → out x z u b = .error .keyError
  length : ∀ x z u b, u = "MPa" ∨ u = "kPa" → x.length ≠ z.length → out x z u b = .error .indexError

theorem stressOutput_of (f : Vec6 → ℝ)
    (out : List (Option ℝ) → List Vec6 → String → Bool → Res (List (Option ℝ) × List (Option ℝ)))
    (h : ∀ x z u b, out x z u b = (convertStress u >>= fun c => filterStress x ((z.map fun Z => c * f Z).map some) b)) :
    StressOutput f out := by
  have hu : ∀ u c, (u, c) ∈ [("MPa", (1 : ℝ)), ("kPa", 1000)] → convertStress u = .ok c := by
    intro u c hm
    simp only [List.mem_cons, Prod.mk.injEq, List.not_mem_nil, or_false] at hm
    rcases hm with ⟨rfl, rfl⟩ | ⟨rfl, rfl⟩
    · rfl
    · unfold convertStress
      rw [if_pos rfl]
      norm_num
  refine ⟨?_, ?_, ?_, ?_⟩
  · intro x z hl u c hm
    rw [h, hu u c hm]
    exact filter_remove x _ (by simpa using hl)
  · intro x z hl u c hm
    refine ⟨x.map (Option.map (· / 10)), List.zipWith (fun a b => a.map fun _ => b) x (z.map fun Z => c * f Z), ?_, ?_, ?_, ?_⟩
    · rw [h, hu u c hm]
      exact filter_keep x _ (by simpa using hl)
    · simp
    · simp [hl]
    · intro i hx hz hX hT
      refine ⟨fun a ha => ?_, fun ha => ?_⟩
      · simp [ha]
      · simp [ha]
  · intro x z u b h1 h2
    rw [h]
    unfold convertStress
    rw [if_neg h2, if_neg h1]
    rfl
  · intro x z u b hv hl
    obtain ⟨c, hc, -⟩ := convertStress_dom (unit := u) hv.symm
    rw [h, hc]
    exact filter_mismatch x _ b (by simpa using hl)

/-- C37, shear stress. -/
theorem C37_shear (s : Self) : StressOutput s.beam.tau (getWeaklayerShearstress s) := by
  apply stressOutput_of
  intro x z u b
  unfold getWeaklayerShearstress
  congr 1
  funext c
  rw [List.map_map]
  congr 1
  refine List.map_congr_left fun Z _ => ?_
  simp only [Function.comp_apply, Beam.tau, Self.beam, fdw, fu, fpsi]
  congr 1
  ring

/-- C37, normal stress. -/
theorem C37_normal (s : Self) : StressOutput (fun Z => -(s.kn * Z 2)) (getWeaklayerNormalstress s) := by
  apply stressOutput_of
  intro x z u b
  unfold getWeaklayerNormalstress
  congr 1
  funext c
  rw [List.map_map]
  congr 1
  refine List.map_congr_left fun Z _ => ?_
  simp only [Function.comp_apply, fw]
  congr 1
  ring

/-- The two modes agree: removing the NaN pairs of one gives the other. -/
theorem C37_modes_agree (f : Vec6 → ℝ)
    (out : List (Option ℝ) → List Vec6 → String → Bool → Res (List (Option ℝ) × List (Option ℝ))) (h : StressOutput f out)
    (x : List (Option ℝ)) (z : List Vec6) (hl : x.length = z.length) (unit : String) (hu : unit = "MPa" ∨ unit = "kPa") :
    ∃ X T X' T', out x z unit false = .ok (X, T) ∧ out x z unit true = .ok (X', T') ∧
      X' = X.filter Option.isSome ∧ T' = T.filter Option.isSome := by
  obtain ⟨c, hc⟩ : ∃ c, (unit, c) ∈ [("MPa", (1 : ℝ)), ("kPa", 1000)] := by
    rcases hu with rfl | rfl
    · exact ⟨1, by simp⟩
    · exact ⟨1000, by simp⟩
  obtain ⟨X, T, h1, h2, h3, h4⟩ := h.kept x z hl unit c hc
  refine ⟨X, T, _, _, h1, h.removed x z hl unit c hc, ?_, ?_⟩
  · have : X = x.map (Option.map (· / 10)) := by
      refine List.ext_getElem (by simpa using h2) fun i hi _ => ?_
      have := h4 i (by omega) (by omega) hi (by omega)
      simp only [List.getElem_map]
      cases hx : x[i]'(by omega) with
      | none => simp [this.2 hx]
      | some a => simp [(this.1 a hx).1]
    rw [this]
    clear this h1 h2 h3 h4
    induction x generalizing z with
    | nil => rfl
    | cons a x ih =>
      cases z with
      | nil => simp at hl
      | cons b z =>
        have := ih z (by simpa using hl)
        cases a with
        | none => simpa [present] using this
        | some a => simpa [present] using this
  · have : T = List.zipWith (fun a b => a.map fun _ => b) x (z.map fun Z => c * f Z) := by
      refine List.ext_getElem (by simp [h3, hl]) fun i hi _ => ?_
      have := h4 i (by omega) (by omega) (by omega) hi
      simp only [List.getElem_zipWith, List.getElem_map]
      cases hx : x[i]'(by omega) with
      | none => simp [this.2 hx]
      | some a => simp [(this.1 a hx).2]
    rw [this]
    clear this h1 h2 h3 h4
    induction x generalizing z with
    | nil => rfl
    | cons a x ih =>
      cases z with
      | nil => simp at hl
      | cons b z =>
        have := ih z (by simpa using hl)
        cases a with
        | none => simpa [present] using this
        | some a => simpa [present] using this

/-- With the arrays of `rasterize_solution`: the output has one pair for each
grid point of the supported segments (end points included), coordinates
increasing. -/
theorem C37_rasterized (s : Self) (phi : ℝ) (num : ℕ) (hn : 1 ≤ num) (segs : List Seg) (pts : List GridPt)
    (h : rasterize s phi num segs = .ok pts) :
    ∃ P : List (ℝ × ℝ), getWeaklayerNormalstress s (pts.map GridPt.xb) (pts.map GridPt.z) "kPa" true
        = .ok (P.map fun p => some p.1, P.map fun p => some p.2) ∧
      (P.map Prod.fst).Pairwise (· < ·) ∧
      ∀ x σ, (x, σ) ∈ P ↔ ∃ p ∈ pts, x = p.x / 10 ∧ σ = -(1000 * s.kn * p.z 2) ∧
        ∃ b g, Begins 0 segs b g ∧ g.l ≠ 0 ∧ g.k = true ∧ b ≤ p.x ∧ p.x ≤ b + |g.l| := by
  refine ⟨_, (C37_normal s).removed _ _ (by simp) "kPa" 1000 (by simp), ?_, ?_⟩
  · have hp := (C28_grid s phi num hn segs pts h).2.2.1
    clear h
    rw [List.pairwise_map] at hp
    rw [List.pairwise_map]
    unfold present
    rw [List.map_map, List.zip_map', List.filterMap_map, List.pairwise_filterMap]
    refine hp.imp ?_
    intro a b hab p hp q hq
    simp only [Function.comp_apply, Option.map_eq_some_iff, GridPt.xb] at hp hq
    obtain ⟨u, h1, rfl⟩ := hp
    obtain ⟨v, h2, rfl⟩ := hq
    split_ifs at h1 h2
    simp only [Option.some.injEq] at h1 h2
    subst h1 h2
    simp only
    linarith
  · intro x σ
    unfold present
    rw [List.map_map, List.zip_map', List.filterMap_map, List.mem_filterMap]
    constructor
    · rintro ⟨p, hp, he⟩
      simp only [Function.comp_apply, Option.map_eq_some_iff, Prod.mk.injEq] at he
      obtain ⟨a, h1, rfl, rfl⟩ := he
      have hx : p.xb = some p.x := by
        unfold GridPt.xb at h1 ⊢
        split_ifs at h1 ⊢
        rfl
      rw [hx] at h1
      injection h1 with h1
      refine ⟨p, hp, by rw [h1], by ring, ?_⟩
      exact (C29_mask s phi num hn segs pts h p hp).1.mp hx
    · rintro ⟨p, hp, rfl, rfl, hm⟩
      have hx := (C29_mask s phi num hn segs pts h p hp).1.mpr hm
      refine ⟨p, hp, ?_⟩
      simp only [Function.comp_apply, hx, Option.map_some, Option.some.injEq, Prod.mk.injEq, true_and]
      ring

/-- A concrete case with a NaN in the middle. -/
example (s : Self) (Z : Vec6) :
    getWeaklayerNormalstress s [some 0, none, some 20] [Z, Z, Z] "MPa" true
      = .ok ([some 0, some 2], [some (-(s.kn * Z 2)), some (-(s.kn * Z 2))]) := by
  rw [(C37_normal s).removed [some 0, none, some 20] [Z, Z, Z] rfl "MPa" 1 (by simp)]
  simp [present]
  norm_num

example (s : Self) (Z : Vec6) : ∃ X T, getWeaklayerShearstress s [some 0, none, some 20] [Z, Z, Z] "kPa" false = .ok (X, T) ∧
    T[1]? = some none ∧ T[2]? = some (some (1000 * s.beam.tau Z)) := by
  obtain ⟨X, T, h1, h2, h3, h4⟩ := (C37_shear s).kept [some 0, none, some 20] [Z, Z, Z] rfl "kPa" 1000 (by simp)
  simp only [List.length_cons, List.length_nil] at h2 h3
  refine ⟨X, T, h1, ?_, ?_⟩
  · rw [List.getElem?_eq_getElem (by omega), ((h4 1 (by simp) (by simp) (by omega) (by omega)).2 rfl).2]
  · rw [List.getElem?_eq_getElem (by omega), ((h4 2 (by simp) (by simp) (by omega) (by omega)).1 20 rfl).2]
    rfl

/-! ## C42: slab outputs -/

/-- Number of `u` in a metre. -/
noncomputable def Spec.perMetre : String → Option ℝ
  | "m" => some 1
  | "cm" => some 100
  | "mm" => some 1000
  | "um" => some 1000000
  | _ => none

theorem convertLength_eq (unit : String) :
    convertLength unit = match perMetre unit with
      | some f => .ok (f / 1000)
      | none => .error .keyError := by
  unfold convertLength perMetre
  split
  · rename_i h; subst h; simp; norm_num
  · split
    · rename_i h; subst h; simp; norm_num
    · split
      · rename_i h; subst h; simp
      · split
        · rename_i h; subst h; simp; norm_num
        · split <;> simp_all

/-- Displacement of the point at height `z0` of the cross section with state
`Z` (mm). -/
def Spec.displacementAt (Z : Vec6) (z0 : ℝ) : ℝ := Z 0 + z0 * Z 4

/-- C42, displacement. Coordinates are in cm, NaN kept; the displacement is that
of the top, middle or bottom of the cross section in the requested unit. -/
theorem C42_displacement (s : Self) (x : List (Option ℝ)) (z : List Vec6) (loc unit : String) (z0 f : ℝ)
    (hl : (loc, z0) ∈ [("top", -s.h / 2), ("mid", 0), ("bot", s.h / 2)]) (hu : perMetre unit = some f) :
    getSlabDisplacement s x z loc unit
      = .ok (x.map (Option.map (· / 10)), z.map fun Z => displacementAt Z z0 / 1000 * f) := by
  have h1 : locator s loc = .ok z0 := by
    simp only [List.mem_cons, Prod.mk.injEq, List.not_mem_nil, or_false] at hl
    rcases hl with ⟨rfl, rfl⟩ | ⟨rfl, rfl⟩ | ⟨rfl, rfl⟩ <;> simp [locator]
  unfold getSlabDisplacement
  rw [h1, convertLength_eq, hu]
  refine congrArg Except.ok (Prod.ext rfl (List.map_congr_left fun Z _ => ?_))
  simp only [displacementAt, fpsi]
  ring

theorem C42_deflection (x : List (Option ℝ)) (z : List Vec6) (unit : String) (f : ℝ) (hu : perMetre unit = some f) :
    getSlabDeflection x z unit = .ok (x.map (Option.map (· / 10)), z.map fun Z => Z 2 / 1000 * f) := by
  unfold getSlabDeflection
  rw [convertLength_eq, hu]
  refine congrArg Except.ok (Prod.ext rfl (List.map_congr_left fun Z _ => ?_))
  ring

theorem C42_rotation (x : List (Option ℝ)) (z : List Vec6) :
    (∀ unit ∈ ["rad", "radians"], getSlabRotation x z unit = .ok (x.map (Option.map (· / 10)), z.map fun Z => Z 4)) ∧
    (∀ unit ∈ ["deg", "degrees"], ∃ D, getSlabRotation x z unit = .ok (x.map (Option.map (· / 10)), D) ∧
      D.length = z.length ∧ ∀ (i : ℕ) (h : i < D.length) (h' : i < z.length), Real.pi * D[i] = 180 * z[i] 4) := by
  constructor
  · intro unit hu
    simp only [List.mem_cons, List.not_mem_nil, or_false] at hu
    rcases hu with rfl | rfl <;> simp [getSlabRotation, psiArray, toCm]
  · intro unit hu
    refine ⟨z.map fun Z => Z 4 * (180 / Real.pi), ?_, by simp, ?_⟩
    · simp only [List.mem_cons, List.not_mem_nil, or_false] at hu
      rcases hu with rfl | rfl <;> simp [getSlabRotation, psiArray, toCm]
    · intro i h h'
      have := Real.pi_ne_zero
      simp only [List.getElem_map]
      field_simp

/-- C42, the middle of the slab moves by the mean of top and bottom, whatever
the unit. -/
theorem C42_mean (s : Self) (x : List (Option ℝ)) (z : List Vec6) (unit : String) (hu : (perMetre unit).isSome) :
    ∃ X T M B, getSlabDisplacement s x z "top" unit = .ok (X, T) ∧ getSlabDisplacement s x z "mid" unit = .ok (X, M) ∧
      getSlabDisplacement s x z "bot" unit = .ok (X, B) ∧ T.length = z.length ∧ M.length = z.length ∧ B.length = z.length ∧
      ∀ (i : ℕ) (h1 : i < T.length) (h2 : i < M.length) (h3 : i < B.length), M[i] = (T[i] + B[i]) / 2 := by
  obtain ⟨f, hf⟩ := Option.isSome_iff_exists.mp hu
  refine ⟨_, _, _, _, C42_displacement s x z "top" unit (-s.h / 2) f (by simp) hf, C42_displacement s x z "mid" unit 0 f (by simp) hf,
    C42_displacement s x z "bot" unit (s.h / 2) f (by simp) hf, by simp, by simp, by simp, ?_⟩
  intro i h1 h2 h3
  simp only [List.getElem_map, displacementAt]
  ring

/-- C42, rejected arguments. An unknown location or length unit is a KeyError;
an unknown angle unit is rejected too, but with UnboundLocalError. -/
theorem C42_rejects (s : Self) (x : List (Option ℝ)) (z : List Vec6) (loc unit : String) :
    (loc ∉ ["top", "mid", "bot"] → getSlabDisplacement s x z loc unit = .error .keyError) ∧
    (perMetre unit = none → getSlabDisplacement s x z loc unit = .error .keyError ∧
      getSlabDeflection x z unit = .error .keyError) ∧
    (unit ∉ ["deg", "degree", "degrees", "rad", "radian", "radians"] →
      getSlabRotation x z unit = .error .unboundLocalError) := by
  refine ⟨fun h => ?_, fun h => ⟨?_, ?_⟩, fun h => ?_⟩
  · simp only [List.mem_cons, List.not_mem_nil, or_false, not_or] at h
    unfold getSlabDisplacement locator
    rw [if_neg h.1, if_neg h.2.1, if_neg h.2.2]
    rfl
  · unfold getSlabDisplacement
    rw [convertLength_eq, h]
    unfold locator
    split_ifs <;> rfl
  · unfold getSlabDeflection
    rw [convertLength_eq, h]
    rfl
  · simp only [List.mem_cons, List.not_mem_nil, or_false, not_or] at h
    unfold getSlabRotation psiArray
    rw [if_neg (by simp [h]), if_neg (by simp [h])]
    rfl

example (s : Self) (Z : Vec6) : getSlabDisplacement s [some 30, none] [Z, Z] "bot" "um"
    = .ok ([some 3, none], [1000 * (Z 0 + s.h / 2 * Z 4), 1000 * (Z 0 + s.h / 2 * Z 4)]) := by
  rw [C42_displacement s [some 30, none] [Z, Z] "bot" "um" (s.h / 2) 1000000 (by simp) rfl]
  simp only [displacementAt, List.map_cons, List.map_nil, Option.map_some, Option.map_none]
  norm_num
  ring

end Weac
