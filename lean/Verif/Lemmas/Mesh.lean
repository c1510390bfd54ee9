import Mathlib.Data.List.Chain
import Mathlib.Algebra.Order.Floor.Semiring
import Verif.Lemmas.Laminate
import Verif.Spec.State
import Verif.Model.Analysis

/-!
# The through-thickness mesh and trapezoidal sums over it
-/

namespace Weac
open Spec

/-- Layer `l` of a stack starting at depth `top` has its top face at `a`. -/
def Spec.LayerAt (top : ℝ) (ls : List Layer) (a : ℝ) (l : Layer) : Prop :=
  ∃ pre post, ls = pre ++ l :: post ∧ a = top + total Layer.h pre

/-- Mesh point at depth `z` in layer `l`. -/
def Layer.at (l : Layer) (z : ℝ) : MeshPt := ⟨z, l.E, l.nu, l.rho⟩

theorem Spec.LayerAt.cons {top : ℝ} {ls : List Layer} {a : ℝ} {l x : Layer} (h : LayerAt (top + x.h) ls a l) :
    LayerAt top (x :: ls) a l := by
  obtain ⟨pre, post, rfl, rfl⟩ := h
  exact ⟨x :: pre, post, rfl, by simp [add_assoc]⟩

theorem Spec.LayerAt.head (top : ℝ) (l : Layer) (ls : List Layer) : LayerAt top (l :: ls) top l :=
  ⟨[], ls, rfl, by simp⟩

theorem Spec.LayerAt.mem {top : ℝ} {ls : List Layer} {a : ℝ} {l : Layer} (h : LayerAt top ls a l) : l ∈ ls := by
  obtain ⟨pre, post, rfl, rfl⟩ := h
  simp

/-! ## One layer -/

/-- Number of cells of a layer. -/
noncomputable def cells (dz : ℝ) (l : Layer) : ℕ := ⌈l.h / dz⌉₊

theorem cells_pos {dz : ℝ} (hdz : 0 < dz) {l : Layer} (hl : 0 < l.h) : 0 < cells dz l :=
  Nat.ceil_pos.mpr (div_pos hl hdz)

theorem cell_le {dz : ℝ} (hdz : 0 < dz) {l : Layer} (hl : 0 < l.h) : l.h / cells dz l ≤ dz := by
  have h0 : (0 : ℝ) < cells dz l := by exact_mod_cast cells_pos hdz hl
  have := Nat.le_ceil (l.h / dz)
  rw [div_le_iff₀ h0]
  rw [div_le_iff₀ hdz] at this
  unfold cells
  linarith

theorem meshLayer_eq (dz a : ℝ) (l : Layer) :
    meshLayer dz a (a + l.h) l
      = (List.range (cells dz l + 1)).map fun j : ℕ => l.at (a + l.h * (j : ℝ) / (cells dz l : ℝ)) := by
  unfold meshLayer cells Layer.at
  simp

theorem meshLayer_head (dz a : ℝ) (l : Layer) : (meshLayer dz a (a + l.h) l).head? = some (l.at a) := by
  rw [meshLayer_eq, List.range_succ_eq_map]
  simp

theorem meshLayer_last {dz : ℝ} (hdz : 0 < dz) (a : ℝ) {l : Layer} (hl : 0 < l.h) :
    (meshLayer dz a (a + l.h) l).getLast? = some (l.at (a + l.h)) := by
  have h0 : (cells dz l : ℝ) ≠ 0 := by exact_mod_cast (cells_pos hdz hl).ne'
  rw [meshLayer_eq, List.range_succ]
  simp only [List.map_append, List.map_cons, List.map_nil, List.getLast?_append, List.getLast?_singleton,
    Option.some_or, Option.some.injEq]
  rw [mul_div_assoc, div_self h0, mul_one]

/-- Step inside a layer. -/
structure LayerStep (dz a : ℝ) (l : Layer) (p q : MeshPt) : Prop where
  p_eq : p = l.at p.z
  q_eq : q = l.at q.z
  lo : a ≤ p.z
  lt : p.z < q.z
  le : q.z ≤ p.z + dz
  hi : q.z ≤ a + l.h

theorem meshLayer_chain {dz : ℝ} (hdz : 0 < dz) (a : ℝ) {l : Layer} (hl : 0 < l.h) :
    (meshLayer dz a (a + l.h) l).IsChain (LayerStep dz a l) := by
  have h0 : (0 : ℝ) < cells dz l := by exact_mod_cast cells_pos hdz hl
  have hc := cell_le hdz hl
  rw [meshLayer_eq, List.isChain_map, List.isChain_range]
  intro j hj
  have hj' : ((j : ℝ) + 1) ≤ cells dz l := by
    have : j + 1 ≤ cells dz l := by omega
    exact_mod_cast this
  have hstep : l.h * ((j + 1 : ℕ) : ℝ) / (cells dz l : ℝ) = l.h * (j : ℝ) / (cells dz l : ℝ) + l.h / cells dz l := by
    push_cast; ring
  have hp : 0 < l.h / cells dz l := div_pos hl h0
  refine ⟨rfl, rfl, ?_, ?_, ?_, ?_⟩
  · show a ≤ a + l.h * (j : ℝ) / (cells dz l : ℝ)
    have : 0 ≤ l.h * (j : ℝ) / (cells dz l : ℝ) := by positivity
    linarith
  · show a + l.h * (j : ℝ) / _ < a + l.h * ((j + 1 : ℕ) : ℝ) / _
    rw [hstep]; linarith
  · show a + l.h * ((j + 1 : ℕ) : ℝ) / _ ≤ a + l.h * (j : ℝ) / _ + dz
    rw [hstep]; linarith
  · show a + l.h * ((j + 1 : ℕ) : ℝ) / _ ≤ a + l.h
    have : l.h * ((j + 1 : ℕ) : ℝ) / (cells dz l : ℝ) ≤ l.h := by
      rw [div_le_iff₀ h0]; push_cast; exact mul_le_mul_of_nonneg_left hj' hl.le
    linarith

theorem meshLayer_mem {dz : ℝ} (hdz : 0 < dz) (a : ℝ) {l : Layer} (hl : 0 < l.h) {p : MeshPt}
    (hp : p ∈ meshLayer dz a (a + l.h) l) : p = l.at p.z ∧ a ≤ p.z ∧ p.z ≤ a + l.h := by
  have h0 : (0 : ℝ) < cells dz l := by exact_mod_cast cells_pos hdz hl
  rw [meshLayer_eq, List.mem_map] at hp
  obtain ⟨j, hj, rfl⟩ := hp
  have hj' : (j : ℝ) ≤ cells dz l := by
    have : j ≤ cells dz l := by have := List.mem_range.mp hj; omega
    exact_mod_cast this
  refine ⟨rfl, ?_, ?_⟩
  · show a ≤ a + l.h * (j : ℝ) / (cells dz l : ℝ)
    have : 0 ≤ l.h * (j : ℝ) / (cells dz l : ℝ) := by positivity
    linarith
  · show a + l.h * (j : ℝ) / (cells dz l : ℝ) ≤ a + l.h
    have : l.h * (j : ℝ) / (cells dz l : ℝ) ≤ l.h := by
      rw [div_le_iff₀ h0]; exact mul_le_mul_of_nonneg_left hj' hl.le
    linarith

theorem meshLayer_length (dz a : ℝ) (l : Layer) : (meshLayer dz a (a + l.h) l).length = cells dz l + 1 := by
  rw [meshLayer_eq]; simp

/-! ## The whole mesh -/

/-- Mesh of a stack of layers starting at depth `top`. -/
noncomputable def meshFrom (dz : ℝ) : ℝ → List Layer → List MeshPt
  | _, [] => []
  | top, l :: ls => meshLayer dz top (top + l.h) l ++ meshFrom dz (top + l.h) ls

theorem meshFrom_append (dz top : ℝ) (ls ls' : List Layer) :
    meshFrom dz top (ls ++ ls') = meshFrom dz top ls ++ meshFrom dz (top + total Layer.h ls) ls' := by
  induction ls generalizing top with
  | nil => simp [meshFrom]
  | cons l ls ih => simp [meshFrom, ih, add_assoc]

theorem getZmesh_eq (s : Self) (dz : ℝ) : getZmesh s dz = meshFrom dz (-s.h / 2) s.slab := by
  have key : ∀ (ls : List Layer) (top : ℝ),
      ((List.range ls.length).map fun i => meshLayer dz (top + ((ls.map Layer.h).take i).sum)
        (top + ((ls.map Layer.h).take (i + 1)).sum) (ls.getD i ⟨0, 0, 0, 0, 0⟩)).flatten = meshFrom dz top ls := by
    intro ls
    induction ls with
    | nil => intro top; simp [meshFrom]
    | cons l ls ih =>
      intro top
      rw [List.length_cons, List.range_succ_eq_map]
      simp only [List.map_cons, List.map_map, List.flatten_cons, meshFrom]
      rw [← ih (top + l.h)]
      congr 1
      · simp
      · congr 1
        apply List.map_congr_left
        intro i _
        simp [add_assoc]
  rw [← key]
  unfold getZmesh
  dsimp only
  congr 1
  apply List.map_congr_left
  intro j hj
  have := List.mem_range.mp hj
  rw [ply_nth s j (by omega), ply_nth s (j + 1) (by omega)]

/-- Neighbours in the mesh: both faces of an interface, or a step inside a layer. -/
def MeshStep (dz top : ℝ) (ls : List Layer) (p q : MeshPt) : Prop :=
  q.z = p.z ∨ ∃ a l, LayerAt top ls a l ∧ LayerStep dz a l p q

theorem meshFrom_head (dz top : ℝ) (l : Layer) (ls : List Layer) :
    (meshFrom dz top (l :: ls)).head? = some (l.at top) := by
  rw [meshFrom, List.head?_append, meshLayer_head]
  rfl

theorem meshFrom_chain {dz : ℝ} (hdz : 0 < dz) (ls : List Layer) (hv : ∀ l ∈ ls, 0 < l.h) (top : ℝ) :
    (meshFrom dz top ls).IsChain (MeshStep dz top ls) := by
  induction ls generalizing top with
  | nil => simp [meshFrom]
  | cons l ls ih =>
    have hl := hv l (by simp)
    rw [meshFrom, List.isChain_append]
    refine ⟨?_, ?_, ?_⟩
    · exact (meshLayer_chain hdz top hl).imp fun p q h => Or.inr ⟨top, l, LayerAt.head _ _ _, h⟩
    · refine (ih (fun x hx => hv x (List.mem_cons_of_mem _ hx)) (top + l.h)).imp fun p q h => ?_
      rcases h with h | ⟨a, l', h1, h2⟩
      · exact Or.inl h
      · exact Or.inr ⟨a, l', h1.cons, h2⟩
    · intro p hp q hq
      rw [meshLayer_last hdz top hl] at hp
      cases ls with
      | nil => simp [meshFrom] at hq
      | cons l' ls =>
        rw [meshFrom_head] at hq
        simp only [Option.mem_def, Option.some.injEq] at hp hq
        subst hp; subst hq
        exact Or.inl rfl

theorem meshFrom_last {dz : ℝ} (hdz : 0 < dz) (ls : List Layer) (hv : ∀ l ∈ ls, 0 < l.h) (hne : ls ≠ []) (top : ℝ) :
    ((meshFrom dz top ls).getLast?).map MeshPt.z = some (top + total Layer.h ls) := by
  induction ls generalizing top with
  | nil => simp at hne
  | cons l ls ih =>
    have hl := hv l (by simp)
    rw [meshFrom, List.getLast?_append, meshLayer_last hdz top hl]
    by_cases hn : ls = []
    · subst hn; simp [meshFrom, Layer.at]
    · have := ih (fun x hx => hv x (List.mem_cons_of_mem _ hx)) hn (top + l.h)
      cases hm : (meshFrom dz (top + l.h) ls).getLast? with
      | none => rw [hm] at this; simp at this
      | some p =>
        rw [hm] at this
        simp only [Option.map_some, Option.some.injEq] at this
        simp [this, add_assoc]

theorem meshFrom_mem {dz : ℝ} (hdz : 0 < dz) (ls : List Layer) (hv : ∀ l ∈ ls, 0 < l.h) (top : ℝ) {p : MeshPt}
    (hp : p ∈ meshFrom dz top ls) : ∃ a l, LayerAt top ls a l ∧ p = l.at p.z ∧ a ≤ p.z ∧ p.z ≤ a + l.h := by
  induction ls generalizing top with
  | nil => simp [meshFrom] at hp
  | cons l ls ih =>
    rw [meshFrom, List.mem_append] at hp
    rcases hp with hp | hp
    · exact ⟨top, l, LayerAt.head _ _ _, meshLayer_mem hdz top (hv l (by simp)) hp⟩
    · obtain ⟨a, l', h1, h2⟩ := ih (fun x hx => hv x (List.mem_cons_of_mem _ hx)) _ hp
      exact ⟨a, l', h1.cons, h2⟩

theorem meshFrom_length (dz : ℝ) (ls : List Layer) (top : ℝ) :
    (meshFrom dz top ls).length = (ls.map fun l => cells dz l + 1).sum := by
  induction ls generalizing top with
  | nil => simp [meshFrom]
  | cons l ls ih => simp [meshFrom, meshLayer_length, ih]

theorem Spec.LayerAt.bounds {top : ℝ} {ls : List Layer} {a : ℝ} {l : Layer} (h : LayerAt top ls a l)
    (hv : ∀ x ∈ ls, 0 < x.h) : top ≤ a ∧ a + l.h ≤ top + total Layer.h ls := by
  obtain ⟨pre, post, rfl, rfl⟩ := h
  have h1 := total_nonneg Layer.h (ls := pre) fun x hx => (hv x (by simp [hx])).le
  have h2 := total_nonneg Layer.h (ls := post) fun x hx => (hv x (by simp [hx])).le
  simp only [total_append, total_cons]
  constructor <;> linarith

theorem meshFrom_bounds {dz : ℝ} (hdz : 0 < dz) (ls : List Layer) (hv : ∀ l ∈ ls, 0 < l.h) (top : ℝ) {p : MeshPt}
    (hp : p ∈ meshFrom dz top ls) : top ≤ p.z ∧ p.z ≤ top + total Layer.h ls := by
  obtain ⟨a, l, h1, -, h3, h4⟩ := meshFrom_mem hdz ls hv top hp
  have := h1.bounds hv
  constructor <;> linarith

/-! ## Integrals over the profile -/

theorem profile_layer {top : ℝ} {ls : List Layer} {a : ℝ} {l : Layer} (f : Layer → ℝ) (h : LayerAt top ls a l)
    (hv : ∀ x ∈ ls, 0 < x.h) (z : ℝ) (h1 : a < z) (h2 : z ≤ a + l.h) : profile Layer.h f top ls z = f l := by
  obtain ⟨pre, post, rfl, rfl⟩ := h
  induction pre generalizing top with
  | nil => simp at h1 h2; simp [profile, h2]
  | cons x pre ih =>
    have hp := total_nonneg Layer.h (ls := pre) fun y hy => (hv y (by simp [hy])).le
    have hx := hv x (by simp)
    simp only [total_cons] at h1 h2
    rw [List.cons_append, profile, if_neg (by linarith)]
    refine ih (fun y hy => hv y (by simp at hy ⊢; tauto)) ?_ ?_ <;> linarith

/-- Integral from the top surface down to `z` of `f g`, with `f` constant in
each layer. -/
noncomputable def Spec.downTo (f : Layer → ℝ) (ls : List Layer) (top : ℝ) (g : ℝ → ℝ) (z : ℝ) : ℝ :=
  ∫ y in top..z, profile Layer.h f top ls y * g y

theorem downTo_step {top dz : ℝ} {ls : List Layer} {p q : MeshPt} (f : Layer → ℝ) (g : ℝ → ℝ) (hg : Continuous g)
    (hv : ∀ x ∈ ls, 0 < x.h) {a : ℝ} {l : Layer} (h : LayerAt top ls a l) (hs : LayerStep dz a l p q) :
    downTo f ls top g q.z - downTo f ls top g p.z = f l * ∫ y in p.z..q.z, g y := by
  have hint := (integral_profile Layer.h f g hg ls top fun x hx => (hv x hx).le).1
  have hb := h.bounds hv
  have hT := total_nonneg Layer.h (ls := ls) fun x hx => (hv x hx).le
  have sub : ∀ z, top ≤ z → z ≤ top + total Layer.h ls →
      IntervalIntegrable (fun y => profile Layer.h f top ls y * g y) MeasureTheory.volume top z := by
    intro z h1 h2
    refine hint.mono_set ?_
    rw [Set.uIcc_of_le h1, Set.uIcc_of_le (by linarith)]
    exact Set.Icc_subset_Icc le_rfl h2
  have h1 := hs.lo; have h2 := hs.lt; have h3 := hs.hi
  unfold downTo
  rw [intervalIntegral.integral_interval_sub_left (sub _ (by linarith) (by linarith)) (sub _ (by linarith) (by linarith)),
    ← intervalIntegral.integral_const_mul]
  refine intervalIntegral.integral_congr_ae (Filter.Eventually.of_forall fun y hy => ?_)
  rw [Set.uIoc_of_le h2.le] at hy
  rw [profile_layer f h hv y (by linarith [hy.1]) (by linarith [hy.2])]

theorem downTo_top (f : Layer → ℝ) (ls : List Layer) (top : ℝ) (g : ℝ → ℝ) : downTo f ls top g top = 0 := by
  simp [downTo]

/-- Over the whole slab this is the slab integral. -/
theorem downTo_bottom (f : Layer → ℝ) (ls : List Layer) (g : ℝ → ℝ) :
    downTo f ls (-(total Layer.h ls) / 2) g (total Layer.h ls / 2) = slabIntegral Layer.h f ls g := rfl

/-- Trapezoidal rule is exact for a layer-wise affine integrand. -/
theorem trap_affine {top dz : ℝ} {ls : List Layer} (hv : ∀ x ∈ ls, 0 < x.h) (f : Layer → ℝ) (F : MeshPt → ℝ)
    (hF : ∀ (l : Layer) z, F (l.at z) = f l) (α β : ℝ) {p q : MeshPt} (h : MeshStep dz top ls p q) :
    (q.z - p.z) * (F p * (α + β * p.z) + F q * (α + β * q.z)) / 2
      = downTo f ls top (fun y => α + β * y) q.z - downTo f ls top (fun y => α + β * y) p.z := by
  rcases h with h | ⟨a, l, h1, h2⟩
  · rw [h]; ring
  · rw [downTo_step f _ (by fun_prop) hv h1 h2]
    have e1 : F p = f l := by rw [h2.p_eq, hF]
    have e2 : F q = f l := by rw [h2.q_eq, hF]
    rw [e1, e2, intervalIntegral.integral_add (by simp) (by apply Continuous.intervalIntegrable; fun_prop),
      intervalIntegral.integral_const_mul, integral_id, intervalIntegral.integral_const]
    simp only [smul_eq_mul]
    ring

/-! ## Cumulative trapezoidal sums -/

theorem cumTrap_chain (y : MeshPt → ℝ) (H : ℝ → ℝ) (p0 : MeshPt) (ps : List MeshPt)
    (hc : (p0 :: ps).IsChain fun p q => (q.z - p.z) * (y p + y q) / 2 = H q.z - H p.z) (acc : ℝ) :
    cumTrap acc ((p0 :: ps).map fun p => (p.z, y p)) = (p0 :: ps).map fun p => acc + (H p.z - H p0.z) := by
  induction ps generalizing p0 acc with
  | nil => simp [cumTrap]
  | cons p1 ps ih =>
    rw [List.isChain_cons_cons] at hc
    simp only [List.map_cons, cumTrap] at ih ⊢
    rw [ih p1 hc.2, hc.1]
    simp only [sub_self, add_zero, List.cons.injEq, true_and]
    apply List.map_congr_left
    intro p _
    ring

/-- Cumulative trapezoidal sums over the mesh of a layer-wise affine integrand
are the integrals from the top surface. -/
theorem cumTrap_mesh {dz : ℝ} (hdz : 0 < dz) (ls : List Layer) (hv : ∀ x ∈ ls, 0 < x.h) (top : ℝ) (f : Layer → ℝ)
    (F : MeshPt → ℝ) (hF : ∀ (l : Layer) z, F (l.at z) = f l) (α β : ℝ) :
    cumTrap 0 ((meshFrom dz top ls).map fun p => (p.z, F p * (α + β * p.z)))
      = (meshFrom dz top ls).map fun p => downTo f ls top (fun y => α + β * y) p.z := by
  cases ls with
  | nil => simp [meshFrom, cumTrap]
  | cons l ls =>
    have hh := meshFrom_head dz top l ls
    have hc := meshFrom_chain hdz (l :: ls) hv top
    cases hm : meshFrom dz top (l :: ls) with
    | nil => simp [hm] at hh
    | cons p0 ps =>
      rw [hm] at hh hc
      simp only [List.head?_cons, Option.some.injEq] at hh
      rw [cumTrap_chain (fun p => F p * (α + β * p.z)) (downTo f (l :: ls) top fun y => α + β * y)]
      · apply List.map_congr_left
        intro p _
        have : p0.z = top := by rw [hh]; rfl
        rw [this, downTo_top]
        ring
      · exact hc.imp fun p q h => trap_affine hv f F hF α β h

end Weac
