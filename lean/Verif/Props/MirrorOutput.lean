import Verif.Props.Scale
import Verif.Props.Mirror
import Verif.Props.Propagation
import Verif.Props.Decay

/-! # C72: results for a slope that faces the other way -/

namespace Weac
open Spec

/-! ## Specification -/

/-- No skier stands at coordinate `x` of the beam. -/
def Spec.NoLoadAt (a : SegLists) (x : ℝ) : Prop :=
  ∀ i, i + 1 < a.li.length → startOf a.li (i + 1) = x → nth a.mi i = 0

/-- The same displacements and rotation. -/
def Spec.SamePlace (z z' : Vec6) : Prop := z 0 = z' 0 ∧ z 2 = z' 2 ∧ z 4 = z' 4

/-- The arrays `pts'` are those of `pts` in opposite order, at mirrored
coordinates of a beam of length `L`, with the same support, mirrored
displacements, and mirrored states wherever `free` holds. -/
structure Spec.MirrorGrid (L : ℝ) (free : ℝ → Prop) (pts pts' : List GridPt) : Prop where
  size : pts'.length = pts.length
  point : ∀ (k : ℕ) (p q : GridPt), pts[k]? = some p → pts'[pts.length - 1 - k]? = some q →
    q.x = L - p.x ∧ q.xb = p.xb.map (L - ·) ∧ SamePlace q.z (flip p.z) ∧ (free p.x → q.z = flip p.z)

/-! ## Coordinates of the grid -/

/-- Number of steps in a segment. -/
noncomputable def stepsOf (num : ℕ) (tot l : ℝ) : ℕ := ⌈l / tot * (num : ℝ)⌉₊

theorem loop_coord (s : Self) (phi : ℝ) (num : ℕ) (tot : ℝ) : ∀ (gs : List Seg) (x0 : ℝ) (prev : Option Bool)
    (_ : ∀ g ∈ gs, 0 < g.l) (p : GridPt), p ∈ rasterLoop s phi num tot x0 prev gs →
    ∃ b g, Begins x0 gs b g ∧ ∃ j ≤ stepsOf num tot g.l, p.x = b + stepOf num tot g.l * (j : ℝ) := by
  intro gs
  induction gs with
  | nil => intro x0 prev _ p hp; simp [rasterLoop] at hp
  | cons g gs ih =>
    intro x0 prev hpos p hp
    rw [rasterLoop, List.mem_append] at hp
    rcases hp with hp | hp
    · rw [segPts_eq] at hp
      obtain ⟨j, hj, rfl⟩ := List.mem_map.mp hp
      refine ⟨x0, g, .inl ⟨rfl, rfl⟩, j, ?_, rfl⟩
      have := List.mem_range.mp hj
      unfold nqOf at this
      unfold stepsOf
      split_ifs at this <;> omega
    · obtain ⟨b, g', h1, h2⟩ := ih _ _ (fun g hg => hpos g (by simp [hg])) p hp
      refine ⟨b, g', .inr ?_, h2⟩
      rw [abs_of_pos (hpos g (by simp))]
      exact h1

theorem loop_has (s : Self) (phi : ℝ) (num : ℕ) (tot : ℝ) : ∀ (gs : List Seg) (x0 : ℝ) (prev : Option Bool)
    (_ : ∀ g ∈ gs, 0 < g.l) (b : ℝ) (g : Seg), Begins x0 gs b g → ∀ j < stepsOf num tot g.l,
    ∃ p ∈ rasterLoop s phi num tot x0 prev gs, p.x = b + stepOf num tot g.l * (j : ℝ) := by
  intro gs
  induction gs with
  | nil => intro x0 prev _ b g h; exact h.elim
  | cons g gs ih =>
    intro x0 prev hpos b g' h j hj
    rw [rasterLoop]
    rcases h with ⟨rfl, rfl⟩ | h
    · have hm : j ∈ List.range (nqOf num tot g'.l gs.isEmpty) := by
        unfold stepsOf at hj
        unfold nqOf
        exact List.mem_range.mpr (by omega)
      refine ⟨_, List.mem_append_left _ (by rw [segPts_eq]; exact List.mem_map.mpr ⟨j, hm, rfl⟩), rfl⟩
    · rw [abs_of_pos (hpos g (by simp))] at h
      obtain ⟨p, h1, h2⟩ := ih (x0 + g.l) (some g.k) (fun g hg => hpos g (by simp [hg])) b g' h j hj
      exact ⟨p, List.mem_append_right _ h1, h2⟩

/-- Coordinates of the grid of a beam with segments `li`: boundaries, and the
same number of steps wherever the segment is. -/
theorem grid_coord (s : Self) (phi : ℝ) {num : ℕ} (hn : 1 ≤ num) (segs : List Seg) (pts : List GridPt)
    (h : rasterize s phi num segs = .ok pts) :
    (∀ x, x ∈ pts.map GridPt.x → ∃ b g, Begins 0 segs b g ∧ g.l ≠ 0 ∧ ∃ j ≤ stepsOf num (beamLength segs) |g.l|,
        x = b + stepOf num (beamLength segs) |g.l| * (j : ℝ)) ∧
    (∀ b g, Begins 0 segs b g → g.l ≠ 0 → ∀ j < stepsOf num (beamLength segs) |g.l|,
        b + stepOf num (beamLength segs) |g.l| * (j : ℝ) ∈ pts.map GridPt.x) := by
  have hz := (C28_runs s phi num hn segs).mp ⟨pts, h⟩
  have e : pts = rasterLoop s phi num (beamLength segs) 0 none (dropZero segs) := by
    unfold rasterize at h
    rw [← dropZero_length]
    generalize dropZero segs = gs at h ⊢
    rcases gs with _ | ⟨g, gs⟩
    · cases h
    · injection h with h
      rw [← h]
  constructor
  · intro x hx
    obtain ⟨p, hp, rfl⟩ := List.mem_map.mp hx
    rw [e] at hp
    obtain ⟨b, g', h1, j, h2, h3⟩ := loop_coord s phi num _ _ 0 none (dropZero_pos segs) p hp
    obtain ⟨g, k1, k2, rfl⟩ := begins_dropZero.mp h1
    exact ⟨b, g, k1, k2, j, h2, h3⟩
  · intro b g h1 h2 j hj
    obtain ⟨p, k1, k2⟩ := loop_has s phi num (beamLength segs) _ 0 none (dropZero_pos segs) b _
      (begins_dropZero.mpr ⟨g, h1, h2, rfl⟩) j hj
    rw [e]
    exact List.mem_map.mpr ⟨p, k1, k2⟩

/-! ## Segments in opposite order -/

theorem startOf_reverse (li : List ℝ) (i : ℕ) :
    startOf li.reverse i = li.sum - startOf li (li.length - i) := by
  unfold startOf
  rw [List.take_reverse, List.sum_reverse]
  have := List.sum_take_add_sum_drop li (li.length - i)
  linarith

/-- Lists of matching lengths, one vector of constants per segment. -/
structure SegsOk (C : List Vec6) (a : SegLists) : Prop where
  ki : a.ki.length = a.li.length
  C : a.li.length ≤ C.length
  nonneg : ∀ l ∈ a.li, 0 ≤ l

namespace SegsOk

variable {C : List Vec6} {a : SegLists}

theorem length (h : SegsOk C a) : (segsOf C a).length = a.li.length := by
  have h1 := h.ki
  have h2 := h.C
  simp [segsOf]
  omega

theorem get (h : SegsOk C a) (i : ℕ) (hi : i < a.li.length) :
    (segsOf C a)[i]'(by rw [h.length]; exact hi) = ⟨C.getD i 0, a.ki.getD i false, nth a.li i⟩ := by
  have h1 := h.ki
  have h2 := h.C
  simp only [segsOf, List.getElem_map, List.getElem_zip, nth, List.getD_eq_getElem?_getD]
  rw [List.getElem?_eq_getElem (by omega), List.getElem?_eq_getElem (by omega), List.getElem?_eq_getElem (by omega)]
  rfl

theorem at_nonneg (h : SegsOk C a) (i : ℕ) : 0 ≤ nth a.li i := by
  unfold nth
  rw [List.getD_eq_getElem?_getD]
  cases hi : a.li[i]? with
  | none => exact le_rfl
  | some l => exact h.nonneg l (List.mem_of_getElem? hi)

theorem abs (h : SegsOk C a) : (segsOf C a).map (fun g => |g.l|) = a.li := by
  apply List.ext_getElem
  · simp [h.length]
  · intro i hi hj
    rw [List.getElem_map, h.get i hj, nth_eq hj]
    exact abs_of_nonneg (h.nonneg _ (List.getElem_mem hj))

theorem beam (h : SegsOk C a) : beamLength (segsOf C a) = a.li.sum := by
  unfold beamLength
  rw [h.abs]

theorem begins (h : SegsOk C a) (b : ℝ) (g : Seg) : Begins 0 (segsOf C a) b g ↔ ∃ i, i < a.li.length ∧
    g = ⟨C.getD i 0, a.ki.getD i false, nth a.li i⟩ ∧ b = startOf a.li i := by
  rw [begins_iff, h.abs]
  constructor
  · rintro ⟨i, hi, rfl, hb⟩
    have hi' := hi
    rw [h.length] at hi'
    exact ⟨i, hi', h.get i hi', by rw [hb, zero_add]⟩
  · rintro ⟨i, hi, hg, hb⟩
    exact ⟨i, by rw [h.length]; exact hi, by rw [hg]; exact h.get i hi, by rw [hb, zero_add]⟩

theorem ends (i : ℕ) (hi : i < a.li.length) : startOf a.li (i + 1) = startOf a.li i + nth a.li i := by
  rw [startOf_succ a.li hi, nth_eq hi]

/-- Coordinates of the grid: boundaries, the end, and points inside the segments. -/
theorem coord (h : SegsOk C a) (s : Self) (phi : ℝ) {num : ℕ} (hn : 1 ≤ num) (pts : List GridPt)
    (hr : rasterize s phi num (segsOf C a) = .ok pts) (x : ℝ) (hx : x ∈ pts.map GridPt.x) :
    ∃ i, i < a.li.length ∧ (x = startOf a.li i ∨ x = startOf a.li (i + 1) ∨ nth a.li i ≠ 0 ∧
      ∃ j, 0 < j ∧ j < stepsOf num a.li.sum (nth a.li i) ∧
        x = startOf a.li i + stepOf num a.li.sum (nth a.li i) * (j : ℝ)) := by
  obtain ⟨b, g, h1, h2, j, h3, h4⟩ := (grid_coord s phi hn _ pts hr).1 x hx
  obtain ⟨i, hi, rfl, rfl⟩ := (h.begins b g).1 h1
  rw [h.beam] at h3 h4
  simp only at h2 h3 h4
  have hp := lt_of_le_of_ne (h.at_nonneg i) h2.symm
  rw [abs_of_pos hp] at h3 h4
  have ht : 0 < a.li.sum := by
    have := (rasterize_loop s phi hn ((C28_runs s phi num hn _).1 ⟨pts, hr⟩))
    obtain ⟨-, -, -, h5, -⟩ := this
    rwa [h.beam] at h5
  refine ⟨i, hi, ?_⟩
  rcases Nat.eq_zero_or_pos j with rfl | hj
  · left; rw [h4]; simp
  rcases h3.lt_or_eq with h3 | h3
  · exact .inr (.inr ⟨h2, j, hj, h3, h4⟩)
  · right; left
    rw [h4, h3, ends i hi]
    unfold stepsOf
    rw [step_mul hn ht hp]

/-- Boundaries, the end and the points inside the segments are on the grid. -/
theorem has (h : SegsOk C a) (s : Self) (phi : ℝ) {num : ℕ} (hn : 1 ≤ num) (pts : List GridPt)
    (hr : rasterize s phi num (segsOf C a) = .ok pts) :
    (∀ i ≤ a.li.length, startOf a.li i ∈ pts.map GridPt.x) ∧
    (∀ i < a.li.length, nth a.li i ≠ 0 → ∀ j < stepsOf num a.li.sum (nth a.li i),
      startOf a.li i + stepOf num a.li.sum (nth a.li i) * (j : ℝ) ∈ pts.map GridPt.x) := by
  obtain ⟨-, ⟨p, e1, e2⟩, -, -, e3⟩ := C28_grid s phi num hn _ pts hr
  constructor
  · intro i hi
    rcases hi.lt_or_eq with hi | rfl
    · exact e3 _ _ ((h.begins _ _).2 ⟨i, hi, rfl, rfl⟩)
    · rw [startOf_length, ← h.beam, ← e2]
      exact List.mem_map_of_mem (List.mem_of_getLast? e1)
  · intro i hi h0 j hj
    have h2 := (grid_coord s phi hn _ pts hr).2 _ _ ((h.begins _ _).2 ⟨i, hi, rfl, rfl⟩) h0 j
    rw [h.beam] at h2
    simp only at h2
    rw [abs_of_nonneg (h.at_nonneg i)] at h2
    exact h2 hj

end SegsOk

/-- Every coordinate of the grid occurs, mirrored, on the grid of the segments in
opposite order. -/
theorem mirror_coord {s s' : Self} {phi phi' : ℝ} {num : ℕ} (hn : 1 ≤ num) {C C' : List Vec6} {a a' : SegLists}
    (h : SegsOk C a) (h' : SegsOk C' a') (hm : a'.li = a.li.reverse) {pts pts' : List GridPt}
    (hr : rasterize s phi num (segsOf C a) = .ok pts) (hr' : rasterize s' phi' num (segsOf C' a') = .ok pts')
    (x : ℝ) (hx : x ∈ pts.map GridPt.x) : a.li.sum - x ∈ pts'.map GridPt.x := by
  obtain ⟨i, hi, hx⟩ := h.coord s phi hn pts hr x hx
  obtain ⟨k1, k2⟩ := h'.has s' phi' hn pts' hr'
  have hlen : a'.li.length = a.li.length := by rw [hm, List.length_reverse]
  have hsum : a'.li.sum = a.li.sum := by rw [hm, List.sum_reverse]
  have hst : ∀ i ≤ a.li.length, startOf a'.li (a.li.length - i) = a.li.sum - startOf a.li i := fun i hi => by
    rw [hm, startOf_reverse, show a.li.length - (a.li.length - i) = i by omega]
  rcases hx with rfl | rfl | ⟨h0, j, j1, j2, rfl⟩
  · rw [← hst i hi.le]
    exact k1 _ (by omega)
  · rw [← hst (i + 1) hi]
    exact k1 _ (by omega)
  · have hnth : nth a'.li (a.li.length - (i + 1)) = nth a.li i := by
      rw [hm, nth_reverse _ _ (by omega), show a.li.length - 1 - (a.li.length - (i + 1)) = i by omega]
    have ht : 0 < a.li.sum := by
      obtain ⟨-, -, -, h5, -⟩ := rasterize_loop s phi hn ((C28_runs s phi num hn _).1 ⟨pts, hr⟩)
      rwa [h.beam] at h5
    have hp := lt_of_le_of_ne (h.at_nonneg i) h0.symm
    have := k2 (a.li.length - (i + 1)) (by omega) (by rw [hnth]; exact h0)
      (stepsOf num a.li.sum (nth a.li i) - j) (by rw [hnth, hsum]; omega)
    rw [hnth, hsum, hst (i + 1) hi] at this
    have e : a.li.sum - (startOf a.li i + stepOf num a.li.sum (nth a.li i) * (j : ℝ))
        = a.li.sum - startOf a.li (i + 1)
          + stepOf num a.li.sum (nth a.li i) * ((stepsOf num a.li.sum (nth a.li i) - j : ℕ) : ℝ) := by
      rw [Nat.cast_sub j2.le, mul_sub, SegsOk.ends i hi]
      have := step_mul hn ht hp
      unfold stepsOf
      rw [this]
      ring
    rw [e]
    exact this

/-- Coordinates of the two grids. -/
theorem mirror_coords {s s' : Self} {phi phi' : ℝ} {num : ℕ} (hn : 1 ≤ num) {C C' : List Vec6} {a a' : SegLists}
    (h : SegsOk C a) (h' : SegsOk C' a') (hm : a'.li = a.li.reverse) {pts pts' : List GridPt}
    (hr : rasterize s phi num (segsOf C a) = .ok pts) (hr' : rasterize s' phi' num (segsOf C' a') = .ok pts') :
    pts'.map GridPt.x = ((pts.map GridPt.x).map (a.li.sum - ·)).reverse := by
  obtain ⟨-, -, e1, -⟩ := C28_grid s phi num hn _ pts hr
  obtain ⟨-, -, e2, -⟩ := C28_grid s' phi' num hn _ pts' hr'
  refine List.Pairwise.eq_of_mem_iff (r := (· < ·)) e2 ?_ fun x => ?_
  · rw [List.pairwise_reverse, List.pairwise_map]
    exact e1.imp fun h => by linarith
  · have hsum : a'.li.sum = a.li.sum := by rw [hm, List.sum_reverse]
    constructor
    · intro hx
      have := mirror_coord hn h' h (by rw [hm, List.reverse_reverse]) hr' hr x hx
      rw [hsum] at this
      exact List.mem_reverse.2 (List.mem_map.2 ⟨_, this, by ring⟩)
    · intro hx
      obtain ⟨y, hy, rfl⟩ := List.mem_map.1 (List.mem_reverse.1 hx)
      exact mirror_coord hn h h' hm hr hr' y hy

/-! ## States -/

/-- Displacements and rotation are continuous, and all of the state where no
skier stands. -/
theorem state_cont {s : Self} (hb : s.beam.Coercive) {phi kR : ℝ} {a : SegLists} {C : ℕ → Vec6} (hm : Meets s phi kR a C)
    (h0 : ∀ l ∈ a.li, 0 ≤ l) {x : ℝ} (i : ℕ) (hi : x ≤ startOf a.li (i + 1)) :
    ∀ m, i ≤ m → m < a.li.length → startOf a.li m ≤ x → x ≤ startOf a.li (m + 1) →
      SamePlace (stateAt s phi a.li a.ki C i (x - startOf a.li i)) (stateAt s phi a.li a.ki C m (x - startOf a.li m)) ∧
      (NoLoadAt a x → stateAt s phi a.li a.ki C i (x - startOf a.li i) = stateAt s phi a.li a.ki C m (x - startOf a.li m)) := by
  intro m him
  induction m, him using Nat.le_induction with
  | base => intro _ _ _; exact ⟨⟨rfl, rfl, rfl⟩, fun _ => rfl⟩
  | succ m him ih =>
    intro hl h1 _
    have h2 := startOf_mono h0 (show i + 1 ≤ m + 1 by omega)
    have e : x = startOf a.li (m + 1) := le_antisymm (hi.trans h2) h1
    have h3 := startOf_mono h0 (show m ≤ m + 1 by omega)
    obtain ⟨⟨p1, p2, p3⟩, p4⟩ := ih (by omega) (h3.trans h1) e.le
    have ht := hm.trans m hl
    have e1 : x - startOf a.li m = nth a.li m := by rw [e, SegsOk.ends m (by omega), add_sub_cancel_left]
    have e2 : x - startOf a.li (m + 1) = 0 := by rw [e, sub_self]
    rw [e1] at p1 p2 p3 p4
    rw [e2]
    refine ⟨⟨p1.trans ht.u, p2.trans ht.w, p3.trans ht.psi⟩, fun hx => (p4 hx).trans ?_⟩
    rw [jump_zero s phi a.mi m (hx m hl e.symm)] at ht
    exact transmission_eq hb ht

theorem onSupport_mirror {a : SegLists} (hk : a.ki.length = a.li.length) (x : ℝ) :
    OnSupport a.mirror.li a.mirror.ki (a.li.sum - x) ↔ OnSupport a.li a.ki x := by
  have key : ∀ (a : SegLists) (x : ℝ), a.ki.length = a.li.length → OnSupport a.li a.ki x →
      OnSupport a.mirror.li a.mirror.ki (a.li.sum - x) := by
    rintro a x hk ⟨i, h1, h2, h3, h4, h5⟩
    have hst : ∀ i ≤ a.li.length, startOf a.mirror.li (a.li.length - i) = a.li.sum - startOf a.li i := fun i hi => by
      show startOf a.li.reverse _ = _
      rw [startOf_reverse, show a.li.length - (a.li.length - i) = i by omega]
    have e1 := hst i h1.le
    have e2 := hst (i + 1) h1
    have e : a.li.length - i = a.li.length - (i + 1) + 1 := by omega
    rw [e] at e1
    refine ⟨a.li.length - (i + 1), by simp [SegLists.mirror]; omega, ?_, ?_, ?_, ?_⟩
    · show a.ki.reverse.getD _ _ = _
      rw [getD_reverse _ _ (by omega), show a.ki.length - 1 - (a.li.length - (i + 1)) = i by omega]
      exact h2
    · rw [e1, e2]; linarith
    · rw [e2]; linarith
    · rw [e1]; linarith
  constructor
  · intro h
    have := key a.mirror (a.li.sum - x) (by simpa [SegLists.mirror] using hk) h
    simpa [SegLists.mirror] using this
  · exact key a x hk

theorem mask_iff {C : List Vec6} {a : SegLists} (h : SegsOk C a) {s : Self} {phi : ℝ} {num : ℕ} (hn : 1 ≤ num)
    {pts : List GridPt} (hr : rasterize s phi num (segsOf C a) = .ok pts) {p : GridPt} (hp : p ∈ pts) :
    (OnSupport a.li a.ki p.x → p.xb = some p.x) ∧ (¬ OnSupport a.li a.ki p.x → p.xb = none) := by
  obtain ⟨m1, m2⟩ := C29_mask s phi num hn _ pts hr p hp
  have e : (∃ b g, Begins 0 (segsOf C a) b g ∧ g.l ≠ 0 ∧ g.k = true ∧ b ≤ p.x ∧ p.x ≤ b + |g.l|) ↔
      OnSupport a.li a.ki p.x := by
    constructor
    · rintro ⟨b, g, hb, k1, k2, k3, k4⟩
      obtain ⟨i, hi, rfl, rfl⟩ := (h.begins b g).1 hb
      simp only at k1 k2 k4
      have hp := lt_of_le_of_ne (h.at_nonneg i) k1.symm
      rw [abs_of_pos hp, ← SegsOk.ends i hi] at k4
      exact ⟨i, hi, k2, by rw [SegsOk.ends i hi]; linarith, k3, k4⟩
    · rintro ⟨i, hi, k2, k1, k3, k4⟩
      rw [SegsOk.ends i hi] at k1 k4
      refine ⟨_, _, (h.begins _ _).2 ⟨i, hi, rfl, rfl⟩, ?_, k2, k3, ?_⟩
      · simp only
        linarith
      · simp only
        rw [abs_of_nonneg (h.at_nonneg i)]
        exact k4
  rw [e] at m1 m2
  exact ⟨m1.2, m2.2⟩

/-- State at a point of the grid. -/
theorem field_at {C : List Vec6} {a : SegLists} (h : SegsOk C a) {s : Self} {phi : ℝ} {num : ℕ} (hn : 1 ≤ num)
    {pts : List GridPt} (hr : rasterize s phi num (segsOf C a) = .ok pts) {p : GridPt} (hp : p ∈ pts) :
    ∃ i, i < a.li.length ∧ startOf a.li i ≤ p.x ∧ p.x ≤ startOf a.li (i + 1) ∧
      p.z = stateAt s phi a.li a.ki (fun i => C.getD i 0) i (p.x - startOf a.li i) := by
  obtain ⟨b, g, k1, k2, k3, k4, k5, k6⟩ := C28_field s phi num hn _ pts hr p hp
  obtain ⟨i, hi, rfl, rfl⟩ := (h.begins b g).1 k1
  simp only at k4 k6
  rw [abs_of_nonneg (h.at_nonneg i)] at k4 k6
  exact ⟨i, hi, k3, by rw [SegsOk.ends i hi]; exact k4, k6⟩

/-- Fields mirrored segment by segment give mirrored arrays. -/
theorem mirror_arrays {s s' : Self} {phi phi' kR : ℝ} {C C' : List Vec6} {a : SegLists} (hco : s.beam.Coercive)
    (hme : Meets s phi kR a (fun i => C.getD i 0)) (hS : SegsOk C a) (hS' : SegsOk C' a.mirror)
    (key : ∀ i < a.li.length, ∀ x, stateAt s' phi' a.mirror.li a.mirror.ki (fun i => C'.getD i 0) i x
      = flip (stateAt s phi a.li a.ki (fun i => C.getD i 0) (a.li.length - 1 - i) (nth a.li (a.li.length - 1 - i) - x)))
    {m : ℕ} (hm : 1 ≤ m) {pts pts' : List GridPt} (hr : rasterize s phi m (segsOf C a) = .ok pts)
    (hr' : rasterize s' phi' m (segsOf C' a.mirror) = .ok pts') : MirrorGrid a.li.sum (NoLoadAt a) pts pts' := by
  have hx := mirror_coords hm hS hS' rfl hr hr'
  have hlen : pts'.length = pts.length := by simpa using congrArg List.length hx
  refine ⟨hlen, fun k p q hp hq => ?_⟩
  have hk : k < pts.length := (List.getElem?_eq_some_iff.1 hp).1
  have hqx : q.x = a.li.sum - p.x := by
    have e1 : (pts'.map GridPt.x)[pts.length - 1 - k]? = some q.x := by rw [List.getElem?_map, hq]; rfl
    rw [hx, List.getElem?_reverse (by simp; omega)] at e1
    simp only [List.length_map] at e1
    rw [show pts.length - 1 - (pts.length - 1 - k) = k by omega, List.getElem?_map, List.getElem?_map, hp] at e1
    simpa using e1.symm
  have hpm := List.mem_of_getElem? hp
  have hqm := List.mem_of_getElem? hq
  refine ⟨hqx, ?_, ?_⟩
  · obtain ⟨m1, m2⟩ := mask_iff hS hm hr hpm
    obtain ⟨m3, m4⟩ := mask_iff hS' hm hr' hqm
    rw [hqx, onSupport_mirror hS.ki] at m3 m4
    by_cases ho : OnSupport a.li a.ki p.x
    · rw [m1 ho, m3 ho]; rfl
    · rw [m2 ho, m4 ho]; rfl
  · obtain ⟨i, i1, i2, i3, i4⟩ := field_at hS hm hr hpm
    obtain ⟨j, j1, j2, j3, j4⟩ := field_at hS' hm hr' hqm
    have hjl : j < a.li.length := by simpa [SegLists.mirror] using j1
    rw [hqx] at j2 j3 j4
    have hst : ∀ i, startOf a.mirror.li i = a.li.sum - startOf a.li (a.li.length - i) := fun i => startOf_reverse _ _
    rw [hst] at j2 j3 j4
    have e : a.li.length - j = a.li.length - 1 - j + 1 := by omega
    have e' : a.li.length - (j + 1) = a.li.length - 1 - j := by omega
    rw [e] at j2 j4
    rw [e'] at j3
    have k1 : startOf a.li (a.li.length - 1 - j) ≤ p.x := by linarith
    have k2 : p.x ≤ startOf a.li (a.li.length - 1 - j + 1) := by linarith
    have hkey := key j hjl (a.li.sum - p.x - (a.li.sum - startOf a.li (a.li.length - 1 - j + 1)))
    have ez : q.z = flip (stateAt s phi a.li a.ki (fun i => C.getD i 0) (a.li.length - 1 - j)
        (p.x - startOf a.li (a.li.length - 1 - j))) := by
      rw [j4]
      refine hkey.trans ?_
      congr 2
      rw [SegsOk.ends _ (by omega)]
      ring
    have fl : ∀ {z z' : Vec6}, SamePlace z z' → SamePlace (flip z) (flip z') := fun {z z'} h =>
      ⟨congrArg Neg.neg h.1, h.2.1, congrArg Neg.neg h.2.2⟩
    rw [ez, i4]
    rcases le_total i (a.li.length - 1 - j) with hij | hij
    · obtain ⟨⟨q1, q2, q3⟩, q4⟩ := state_cont hco hme hS.nonneg i i3 _ hij (by omega) k1 k2
      exact ⟨fl ⟨q1.symm, q2.symm, q3.symm⟩, fun hx => by rw [q4 hx]⟩
    · obtain ⟨q1, q4⟩ := state_cont hco hme hS.nonneg _ k2 _ hij i1 i2 i3
      exact ⟨fl q1, fun hx => by rw [q4 hx]⟩

theorem mirror_segs {num : Numerics} {kind kind' : SeqKind} {phi : ℝ} {a a1 a2 : SegLists} {s s1 s2 : Self}
    {C C' : List Vec6} (hf : EigFresh num.eig s) (hn : NoFaceTouchdown s) (hsup : Supported a)
    (h : assembleAndSolve num kind phi a s = (.ok (C, a1), s1))
    (h' : assembleAndSolve num kind' (-phi) a.mirror s.mirror = (.ok (C', a2), s2)) : SegsOk C a ∧ SegsOk C' a.mirror := by
  obtain ⟨hv, hme⟩ := solved_meets hf hn h
  have hn' : NoFaceTouchdown s.mirror := fun hv => hn ((mirror_kinds s).2.1.mp hv)
  obtain ⟨-, rfl, n1, -⟩ := C16_solution_meets_all_conditions num kind phi a a1 s s1 C hf hn h
  obtain ⟨-, rfl, n2, -⟩ := C16_solution_meets_all_conditions num kind' (-phi) _ a2 _ s2 C' hf.mirror hn' h'
  have g1 : ∀ a : SegLists, a.li.length ≤ (full a).li.length := fun a => by unfold full; split_ifs <;> simp
  exact ⟨⟨hv.ki, by rw [n1]; exact g1 a, hsup.nonneg⟩, ⟨by simpa [SegLists.mirror] using hv.ki, by rw [n2]; exact g1 _,
    fun l hl => hsup.nonneg l (by simpa [SegLists.mirror] using hl)⟩⟩

/-- C72: `rasterize_solution` of the mirror image of a PST or skier problem
(segments and weights in opposite order, opposite inclination) returns the
arrays in opposite order at mirrored coordinates with the same NaN entries and
mirrored displacements. The derivatives are mirrored except where a skier
stands. -/
theorem C72_grid_partial (num : Numerics) (kind kind' : SeqKind) (phi : ℝ) (a a1 a2 : SegLists) (s s1 s2 : Self)
    (C C' : List Vec6) (hb : BedOk s) (hc : ShearOk s) (hf : EigFresh num.eig s) (hn : NoFaceTouchdown s)
    (hsys : IsPst s ∨ IsVpst s ∨ IsSkier s) (hsp : IsPst s → OpenEnd a → s.mode = .C → RestOk num s)
    (hsup : Supported a) (h : assembleAndSolve num kind phi a s = (.ok (C, a1), s1))
    (h' : assembleAndSolve num kind' (-phi) a.mirror s.mirror = (.ok (C', a2), s2)) (m : ℕ) (hm : 1 ≤ m)
    (pts pts' : List GridPt) (hr : rasterize s phi m (segsOf C a) = .ok pts)
    (hr' : rasterize s.mirror (-phi) m (segsOf C' a.mirror) = .ok pts') :
    MirrorGrid a.li.sum (NoLoadAt a) pts pts' := by
  have key := C20_mirror num kind kind' phi a a1 a2 s s1 s2 C C' hb hc hf hn hsys hsp hsup h h'
  obtain ⟨hv, hme⟩ := solved_meets hf hn h
  obtain ⟨hS, hS'⟩ := mirror_segs hf hn hsup h h'
  exact mirror_arrays (hb.stiff.coercive hc) hme hS hS' key hm hr hr'

/-! ## Under a skier -/

/-- The segment of a grid point at the beginning of a segment of positive length. -/
theorem field_begin {C : List Vec6} {a : SegLists} (h : SegsOk C a) {s : Self} {phi : ℝ} {num : ℕ} (hn : 1 ≤ num)
    {pts : List GridPt} (hr : rasterize s phi num (segsOf C a) = .ok pts) {p : GridPt} (hp : p ∈ pts) (i : ℕ)
    (hi : i < a.li.length) (hl : 0 < nth a.li i) (hx : p.x = startOf a.li i) :
    p.z = stateAt s phi a.li a.ki (fun i => C.getD i 0) i 0 := by
  obtain ⟨b, g, k1, k2, k3, k4, k5, k6⟩ := C28_field s phi num hn _ pts hr p hp
  obtain ⟨j, hj, rfl, rfl⟩ := (h.begins b g).1 k1
  rw [h.beam] at k5
  simp only at k2 k4 k5 k6
  rw [abs_of_nonneg (h.at_nonneg j)] at k4 k5 k6
  rw [← SegsOk.ends j hj] at k4 k5
  have hm := fun {i j : ℕ} => startOf_mono h.nonneg (i := i) (j := j)
  have hE := SegsOk.ends (a := a) i hi
  have hlt : p.x < startOf a.li (j + 1) := by
    refine k5.resolve_right fun hc => ?_
    have := hm (show i + 1 ≤ a.li.length from hi)
    rw [startOf_length] at this
    linarith
  have hij : j = i := by
    rcases lt_trichotomy j i with h1 | h1 | h1
    · have := hm (show j + 1 ≤ i from h1)
      linarith
    · exact h1
    · have := hm (show i + 1 ≤ j from h1)
      linarith
  subst hij
  rw [k6, hx, sub_self]
  rfl

/-- C72: where a skier stands the reported shear stress is that of the right-hand
side, so the mirrored run reports another one. The two differ by the jump of
the slope of the slab. -/
theorem C72_under_skier (num : Numerics) (kind kind' : SeqKind) (phi : ℝ) (a a1 a2 : SegLists) (s s1 s2 : Self)
    (C C' : List Vec6) (hb : BedOk s) (hc : ShearOk s) (hf : EigFresh num.eig s) (hn : NoFaceTouchdown s)
    (hsys : IsPst s ∨ IsVpst s ∨ IsSkier s) (hsp : IsPst s → OpenEnd a → s.mode = .C → RestOk num s)
    (hsup : Supported a) (h : assembleAndSolve num kind phi a s = (.ok (C, a1), s1))
    (h' : assembleAndSolve num kind' (-phi) a.mirror s.mirror = (.ok (C', a2), s2)) (m : ℕ) (hm : 1 ≤ m)
    (pts pts' : List GridPt) (hr : rasterize s phi m (segsOf C a) = .ok pts)
    (hr' : rasterize s.mirror (-phi) m (segsOf C' a.mirror) = .ok pts')
    (i : ℕ) (hi : i + 1 < a.li.length) (hl : 0 < nth a.li i) (hl' : 0 < nth a.li (i + 1))
    (p q : GridPt) (hp : p ∈ pts) (hq : q ∈ pts') (hpx : p.x = startOf a.li (i + 1)) (hqx : q.x = a.li.sum - p.x) :
    ftau s.mirror q.z = -ftau s p.z + s.kt * s.t * (getSkierLoad s (nth a.mi i) phi).1 / (2 * s.kA55) := by
  have key := C20_mirror num kind kind' phi a a1 a2 s s1 s2 C C' hb hc hf hn hsys hsp hsup h h'
  obtain ⟨hv, hme⟩ := solved_meets hf hn h
  obtain ⟨hS, hS'⟩ := mirror_segs hf hn hsup h h'
  have ha : ¬ IsAux s := by
    unfold IsPst IsVpst IsSkier at hsys
    unfold IsAux
    rcases hsys with (h | h) | (h | h) | (h | h) <;> rw [h] <;> decide
  have e1 : p.z = stateAt s phi a.li a.ki (fun i => C.getD i 0) (i + 1) 0 := field_begin hS hm hr hp (i + 1) hi hl' hpx
  have hnth : nth a.mirror.li (a.li.length - 1 - i) = nth a.li i := by
    show nth a.li.reverse _ = _
    rw [nth_reverse _ _ (by omega), show a.li.length - 1 - (a.li.length - 1 - i) = i by omega]
  have e2 : q.z = flip (stateAt s phi a.li a.ki (fun i => C.getD i 0) i (nth a.li i)) := by
    rw [field_begin hS' hm hr' hq (a.li.length - 1 - i) (by simp [SegLists.mirror]; omega) (by rw [hnth]; exact hl)
      (by rw [hqx, hpx]
          show _ = startOf a.li.reverse _
          rw [startOf_reverse, show a.li.length - (a.li.length - 1 - i) = i + 1 by omega])]
    have := key (a.li.length - 1 - i) (by omega) 0
    rw [show a.li.length - 1 - (a.li.length - 1 - i) = i by omega, sub_zero] at this
    exact this
  have ht := hme.trans i hi
  have hS0 : s.kA55 ≠ 0 := (hb.stiff.coercive hc).S.ne'
  have h3 := ht.V
  have h4 : (jump s phi a.mi i).2.2 = (getSkierLoad s (nth a.mi i) phi).1 := by unfold jump; rw [if_neg ha]
  rw [h4] at h3
  have hu := ht.u
  have hps := ht.psi
  rw [← e1] at hu hps h3
  rw [e2]
  set zl := stateAt s phi a.li a.ki (fun i => C.getD i 0) i (nth a.li i)
  simp only [Beam.V, Self.beam] at h3
  have e3 : zl 3 = p.z 3 + (getSkierLoad s (nth a.mi i) phi).1 / s.kA55 := by
    field_simp
    rw [hps] at h3
    linarith
  simp only [ftau, fdw, fu, fpsi, flip, Self.mirror, Matrix.cons_val]
  rw [hu, hps, e3]
  field_simp
  ring

/-- C72 is violated where a skier stands: the shear stresses of the two runs are
not mirrored. -/
theorem C72_grid_violated (num : Numerics) (kind kind' : SeqKind) (phi : ℝ) (a a1 a2 : SegLists) (s s1 s2 : Self)
    (C C' : List Vec6) (hb : BedOk s) (hc : ShearOk s) (hf : EigFresh num.eig s) (hn : NoFaceTouchdown s)
    (hsys : IsPst s ∨ IsVpst s ∨ IsSkier s) (hsp : IsPst s → OpenEnd a → s.mode = .C → RestOk num s)
    (hsup : Supported a) (h : assembleAndSolve num kind phi a s = (.ok (C, a1), s1))
    (h' : assembleAndSolve num kind' (-phi) a.mirror s.mirror = (.ok (C', a2), s2)) (m : ℕ) (hm : 1 ≤ m)
    (pts pts' : List GridPt) (hr : rasterize s phi m (segsOf C a) = .ok pts)
    (hr' : rasterize s.mirror (-phi) m (segsOf C' a.mirror) = .ok pts')
    (i : ℕ) (hi : i + 1 < a.li.length) (hl : 0 < nth a.li i) (hl' : 0 < nth a.li (i + 1))
    (hw : (getSkierLoad s (nth a.mi i) phi).1 ≠ 0) :
    ∃ (k : ℕ) (p q : GridPt), pts[k]? = some p ∧ pts'[pts.length - 1 - k]? = some q ∧ ftau s.mirror q.z ≠ -ftau s p.z := by
  obtain ⟨hS, hS'⟩ := mirror_segs hf hn hsup h h'
  have hG := C72_grid_partial num kind kind' phi a a1 a2 s s1 s2 C C' hb hc hf hn hsys hsp hsup h h' m hm pts pts' hr hr'
  obtain ⟨p, hp, hpx⟩ := List.mem_map.1 ((hS.has s phi hm pts hr).1 (i + 1) hi.le)
  obtain ⟨k, hk, rfl⟩ := List.getElem_of_mem hp
  have hkl : pts.length - 1 - k < pts'.length := by rw [hG.size]; omega
  have e1 : pts[k]? = some pts[k] := List.getElem?_eq_getElem hk
  have e2 : pts'[pts.length - 1 - k]? = some pts'[pts.length - 1 - k] := List.getElem?_eq_getElem hkl
  refine ⟨k, _, _, e1, e2, fun hc' => ?_⟩
  have e3 := C72_under_skier num kind kind' phi a a1 a2 s s1 s2 C C' hb hc hf hn hsys hsp hsup h h' m hm pts pts' hr hr' i hi
    hl hl' _ _ hp (List.getElem_mem hkl) hpx (hG.point k _ _ e1 e2).1
  have hS0 : s.kA55 ≠ 0 := (hb.stiff.coercive hc).S.ne'
  have h1 : s.kt ≠ 0 := (hb.stiff.coercive hc).kt.ne'
  have h2 : s.t ≠ 0 := hb.stiff.t.ne'
  have : s.kt * s.t * (getSkierLoad s (nth a.mi i) phi).1 / (2 * s.kA55) ≠ 0 :=
    div_ne_zero (mul_ne_zero (mul_ne_zero h1 h2) hw) (by simpa using hS0)
  rw [hc'] at e3
  exact this (by linarith)

/-! ## Energy release rates -/

theorem getElem?_mirror {α : Type} (l : List α) (j : ℕ) (hj : j < l.length) : l.reverse[l.length - 1 - j]? = l[j]? := by
  rw [List.getElem?_reverse (by omega), show l.length - 1 - (l.length - 1 - j) = j by omega]

theorem crackTip_mirror {ki : List Bool} {j : ℕ} : j + 1 < ki.length →
    (CrackTip ki.reverse (ki.length - 2 - j) ↔ CrackTip ki j) := by
  intro hj
  have e1 := getElem?_mirror ki j (by omega)
  have e2 := getElem?_mirror ki (j + 1) hj
  rw [show ki.length - 1 - (j + 1) = ki.length - 2 - j by omega] at e2
  rw [show ki.length - 1 - j = ki.length - 2 - j + 1 by omega] at e1
  unfold CrackTip
  rw [e1, e2, List.length_reverse]
  constructor
  · rintro ⟨-, h⟩; exact ⟨hj, h.symm⟩
  · rintro ⟨-, h⟩; exact ⟨by omega, h.symm⟩

theorem centre_mirror {ki : List Bool} {f : ℕ} (hf : f < ki.length) :
    CentreCrack ki.reverse (ki.length - 1 - f) ↔ CentreCrack ki f := by
  have key : ∀ (ki : List Bool) (f : ℕ), f < ki.length → CentreCrack ki f → CentreCrack ki.reverse (ki.length - 1 - f) := by
    rintro ki f hf ⟨⟨i, h1, h2⟩, j, h3, h4⟩
    have hj : j < ki.length := (List.getElem?_eq_some_iff.1 h4).1
    refine ⟨⟨ki.length - 1 - j, by omega, ?_⟩, ki.length - 1 - i, by show _ < _; omega, ?_⟩
    · unfold SupportedAt; rw [getElem?_mirror ki j hj]; exact h4
    · unfold SupportedAt; rw [getElem?_mirror ki i (by omega)]; exact h2
  constructor
  · intro h
    have := key ki.reverse (ki.length - 1 - f) (by simp; omega) h
    rw [List.reverse_reverse, List.length_reverse, show ki.length - 1 - (ki.length - 1 - f) = f by omega] at this
    exact this
  · exact key ki f hf

theorem tipWeight_mirror {ki : List Bool} {j : ℕ} (h : CrackTip ki j) :
    tipWeight ki.reverse (ki.length - 2 - j) = tipWeight ki j := by
  obtain ⟨hj, hne⟩ := h
  have e1 := getElem?_mirror ki j (by omega)
  have e2 := getElem?_mirror ki (j + 1) hj
  rw [show ki.length - 1 - (j + 1) = ki.length - 2 - j by omega] at e2
  have hfr : freeSide ki.reverse (ki.length - 2 - j) = ki.length - 1 - freeSide ki j := by
    unfold freeSide
    rw [e2]
    have g1 : ki[j]? = some ki[j] := List.getElem?_eq_getElem (by omega)
    have g2 : ki[j + 1]? = some ki[j + 1] := List.getElem?_eq_getElem hj
    rw [g1, g2] at hne
    rw [g1, g2]
    cases h1 : ki[j] <;> cases h2 : ki[j + 1] <;> rw [h1, h2] at hne <;> simp at hne ⊢ <;> omega
  have hlt : freeSide ki j < ki.length := by unfold freeSide; split_ifs <;> omega
  unfold tipWeight
  rw [hfr]
  by_cases hc : CentreCrack ki (freeSide ki j)
  · rw [if_pos hc, if_pos ((centre_mirror hlt).2 hc)]
  · rw [if_neg hc, if_neg fun h => hc ((centre_mirror hlt).1 h)]

theorem tipSum_mirror {ki : List Bool} {f f' : ℕ → ℝ}
    (h : ∀ j, j + 1 < ki.length → CrackTip ki j → f' (ki.length - 2 - j) = f j) :
    tipSum ki.reverse f' = tipSum ki f := by
  classical
  have key : ∀ (ki : List Bool) (f : ℕ → ℝ), tipSum ki f
      = ∑ j ∈ Finset.range (ki.length - 1), if CrackTip ki j then tipWeight ki j * f j else 0 := by
    intro ki f
    unfold tipSum
    rcases Nat.eq_zero_or_pos ki.length with h0 | h0
    · rw [h0]
    · obtain ⟨n, hn⟩ : ∃ n, ki.length = n + 1 := ⟨ki.length - 1, by omega⟩
      have hl : ¬ CrackTip ki n := by rintro ⟨h1, -⟩; omega
      rw [hn, Finset.sum_range_succ, Nat.add_sub_cancel, if_neg hl, add_zero]
  rw [key, key, List.length_reverse, ← Finset.sum_range_reflect]
  refine Finset.sum_congr rfl fun j hj => ?_
  have hj := Finset.mem_range.1 hj
  rw [show ki.length - 1 - 1 - j = ki.length - 2 - j by omega]
  by_cases hc : CrackTip ki j
  · rw [if_pos hc, if_pos ((crackTip_mirror (by omega)).2 hc), tipWeight_mirror hc, h j (by omega) hc]
  · rw [if_neg hc, if_neg fun h => hc ((crackTip_mirror (by omega)).1 h)]

theorem SegsOk.support {C : List Vec6} {a : SegLists} (h : SegsOk C a) : (segsOf C a).map Seg.k = a.ki := by
  have h1 := h.ki
  apply List.ext_getElem
  · simp [h.length, h1]
  · intro i hi hj
    rw [List.getElem_map, h.get i (by omega), List.getD_eq_getElem _ _ hj]

theorem SegsOk.endState {C : List Vec6} {a : SegLists} (h : SegsOk C a) (s : Self) (phi : ℝ) (j : ℕ) (hj : j < a.li.length) :
    endState s phi (segsOf C a) j = stateAt s phi a.li a.ki (fun i => C.getD i 0) j (nth a.li j) := by
  unfold Spec.endState
  rw [List.getD_eq_getElem?_getD, List.getElem?_eq_getElem (by rw [h.length]; exact hj), Option.getD_some, h.get j hj]
  rfl

/-- No skier stands at a crack tip. -/
def Spec.TipsFree (a : SegLists) : Prop := ∀ j, CrackTip a.ki j → nth a.mi j = 0

/-- Fields mirrored segment by segment have the same energy release rates. -/
theorem mirror_rates {s s' : Self} {phi phi' kR : ℝ} {C C' : List Vec6} {a : SegLists} (hs : s'.beam = s.beam)
    (hco : s.beam.Coercive) (hme : Meets s phi kR a (fun i => C.getD i 0)) (hS : SegsOk C a) (hS' : SegsOk C' a.mirror)
    (key : ∀ i < a.li.length, ∀ x, stateAt s' phi' a.mirror.li a.mirror.ki (fun i => C'.getD i 0) i x
      = flip (stateAt s phi a.li a.ki (fun i => C.getD i 0) (a.li.length - 1 - i) (nth a.li (a.li.length - 1 - i) - x)))
    (ht : TipsFree a) (unit : String) :
    gdif s' phi' (segsOf C' a.mirror) unit true = gdif s phi (segsOf C a) unit true := by
  have hkn : s'.kn = s.kn := congrArg Beam.kn hs
  have hkt : s'.kt = s.kt := congrArg Beam.kt hs
  have hkl := hS.ki
  have hend : ∀ j, j + 1 < a.ki.length → CrackTip a.ki j →
      endState s' phi' (segsOf C' a.mirror) (a.ki.length - 2 - j) = flip (endState s phi (segsOf C a) j) := by
    intro j hj hc
    have hl : a.mirror.li.length = a.li.length := by simp [SegLists.mirror]
    have hnth : nth a.mirror.li (a.ki.length - 2 - j) = nth a.li (j + 1) := by
      show nth a.li.reverse _ = _
      rw [nth_reverse _ _ (by omega), show a.li.length - 1 - (a.ki.length - 2 - j) = j + 1 by omega]
    rw [hS'.endState s' phi' _ (by omega), hS.endState s phi j (by omega), key _ (by omega),
      show a.li.length - 1 - (a.ki.length - 2 - j) = j + 1 by omega, hnth, sub_self]
    have h1 := hme.trans j (by omega)
    rw [jump_zero s phi a.mi j (ht j hc)] at h1
    have h2 := transmission_eq hco h1
    rw [← h2]
  have hfl : ∀ z, s.beam.tau (flip z) = -s.beam.tau z := fun z => by
    simp only [Beam.tau, flip, Matrix.cons_val]; ring
  cases hu : convertEnergy unit with
  | error e =>
    by_cases hT : tipIndices a.ki = []
    · have hT' : tipIndices a.mirror.ki = [] := by
        rw [List.eq_nil_iff_forall_not_mem] at hT ⊢
        intro j hj
        rw [mem_tipIndices] at hj
        have h1 : j + 1 < a.ki.length := by simpa [SegLists.mirror] using hj.1
        refine hT (a.ki.length - 2 - j) (mem_tipIndices.2 ?_)
        refine (crackTip_mirror (by omega)).1 ?_
        rw [show a.ki.length - 2 - (a.ki.length - 2 - j) = j by omega]
        exact hj
      unfold gdif
      rw [hS.support, hS'.support, hT, hT']
      rfl
    · have hbad : ∀ (s : Self) (phi : ℝ) (segs : List Seg), tipIndices (segs.map Seg.k) ≠ [] →
          gdif s phi segs unit true = .error e := by
        intro s phi segs hne
        unfold gdif
        obtain ⟨j, js, hj⟩ := List.exists_cons_of_ne_nil hne
        rw [hj, List.mapM_cons]
        have : tipRate s phi segs unit j = .error e := by
          unfold tipRate fGiU
          simp only [hu]
          rfl
        rw [this]
        rfl
      have hT' : tipIndices a.mirror.ki ≠ [] := by
        obtain ⟨j, hj⟩ := List.exists_mem_of_ne_nil _ hT
        rw [mem_tipIndices] at hj
        exact List.ne_nil_of_mem (mem_tipIndices.2 ((crackTip_mirror hj.1).2 hj))
      rw [hbad s phi _ (by rw [hS.support]; exact hT), hbad s' phi' _ (by rw [hS'.support]; exact hT')]
  | ok c =>
    rw [C30_gdif s phi _ unit c hu, C30_gdif s' phi' _ unit c hu, hS.support, hS'.support]
    have e1 : tipSum a.mirror.ki (fun j => (s'.kn * endState s' phi' (segsOf C' a.mirror) j 2) ^ 2 / (2 * s'.kn))
        = tipSum a.ki (fun j => (s.kn * endState s phi (segsOf C a) j 2) ^ 2 / (2 * s.kn)) := by
      refine tipSum_mirror fun j hj hc => ?_
      rw [hend j hj hc, hkn]
      rfl
    have e2 : tipSum a.mirror.ki (fun j => s'.beam.tau (endState s' phi' (segsOf C' a.mirror) j) ^ 2 / (2 * s'.kt))
        = tipSum a.ki (fun j => s.beam.tau (endState s phi (segsOf C a) j) ^ 2 / (2 * s.kt)) := by
      refine tipSum_mirror fun j hj hc => ?_
      rw [hend j hj hc, hkt, hs, hfl, neg_sq]
    rw [e1, e2]

/-- C72: `gdif` returns the same energy release rates (and fails for the same
units) for the mirror image, if no skier stands at a crack tip. -/
theorem C72_gdif (num : Numerics) (kind kind' : SeqKind) (phi : ℝ) (a a1 a2 : SegLists) (s s1 s2 : Self)
    (C C' : List Vec6) (hb : BedOk s) (hc : ShearOk s) (hf : EigFresh num.eig s) (hn : NoFaceTouchdown s)
    (hsys : IsPst s ∨ IsVpst s ∨ IsSkier s) (hsp : IsPst s → OpenEnd a → s.mode = .C → RestOk num s)
    (hsup : Supported a) (h : assembleAndSolve num kind phi a s = (.ok (C, a1), s1))
    (h' : assembleAndSolve num kind' (-phi) a.mirror s.mirror = (.ok (C', a2), s2)) (ht : TipsFree a) (unit : String) :
    gdif s.mirror (-phi) (segsOf C' a.mirror) unit true = gdif s phi (segsOf C a) unit true := by
  have key := C20_mirror num kind kind' phi a a1 a2 s s1 s2 C C' hb hc hf hn hsys hsp hsup h h'
  obtain ⟨hv, hme⟩ := solved_meets hf hn h
  obtain ⟨hS, hS'⟩ := mirror_segs hf hn hsup h h'
  exact mirror_rates (s := s) (s' := s.mirror) rfl (hb.stiff.coercive hc) hme hS hS' key ht unit

/-! ## Criteria -/

/-- A boundary between segments `j` and `j + 1` is in the middle of the beam, and
it is the only one there or the one between two empty segments. -/
structure Spec.MidBoundary (li : List ℝ) (j : ℕ) : Prop where
  bound : j + 1 < li.length
  middle : startOf li (j + 1) = li.sum / 2
  apart : (0 < nth li j ∧ 0 < nth li (j + 1)) ∨
    (1 ≤ j ∧ j + 2 < li.length ∧ 0 < nth li (j - 1) ∧ nth li j = 0 ∧ nth li (j + 1) = 0 ∧ 0 < nth li (j + 2))

theorem Spec.MidBoundary.mirror {li : List ℝ} {j : ℕ} (h : MidBoundary li j) : MidBoundary li.reverse (li.length - 2 - j) := by
  have hb := h.bound
  have hn : ∀ i < li.length, nth li.reverse (li.length - 1 - i) = nth li i := fun i hi => by
    rw [nth_reverse _ _ (by omega), show li.length - 1 - (li.length - 1 - i) = i by omega]
  have e0 := hn j (by omega)
  have e1 := hn (j + 1) hb
  rw [show li.length - 1 - j = li.length - 2 - j + 1 by omega] at e0
  rw [show li.length - 1 - (j + 1) = li.length - 2 - j by omega] at e1
  refine ⟨by simp; omega, ?_, ?_⟩
  · rw [startOf_reverse, List.sum_reverse, show li.length - (li.length - 2 - j + 1) = j + 1 by omega, h.middle]
    ring
  · rw [e0, e1]
    rcases h.apart with ⟨h1, h2⟩ | ⟨h1, h2, h3, h4, h5, h6⟩
    · exact .inl ⟨h2, h1⟩
    · have e2 := hn (j + 2) h2
      have e3 := hn (j - 1) (by omega)
      rw [show li.length - 1 - (j + 2) = li.length - 2 - j - 1 by omega] at e2
      rw [show li.length - 1 - (j - 1) = li.length - 2 - j + 2 by omega] at e3
      exact .inr ⟨by omega, by simp; omega, by rw [e2]; exact h6, h5, h4, by rw [e3]; exact h3⟩

/-- The weight is put on that boundary. -/
theorem skierWeights_mid {li : List ℝ} {ki : List Bool} (w : ℝ) (hk : ki.length = li.length) (h0 : ∀ l ∈ li, 0 ≤ l) {j : ℕ}
    (h : MidBoundary li j) : skierWeights w li ki = .ok ((List.replicate (ki.length - 1) 0).set j w) := by
  have hb := h.bound
  have hs := List.sum_nonneg h0
  have hE : ∀ i < li.length, startOf li (i + 1) = startOf li i + nth li i := fun i hi => by
    rw [startOf_succ li hi, nth_eq hi]
  obtain ⟨i, i1, i2, i3, i4⟩ := medianLoop_in (half := li.sum / 2) li 0 0 (by linarith) (by rintro rfl; simp at hb)
  simp only [zero_add] at i2 i3 i4
  have hmid := h.middle
  have key : medianLoop (li.sum / 2) 0 0 li = .ok (some j) := by
    rcases h.apart with ⟨h1, h2⟩ | ⟨h1, h2, h3, h4, h5, h6⟩
    · have : i = j := by
        rcases lt_trichotomy i j with h | h | h
        · have e1 := startOf_mono h0 (show i + 1 ≤ j from h)
          have e2 := hE j (by omega)
          linarith
        · exact h
        · have := i3 j h
          linarith
      subst this
      rw [i4, if_pos hb, if_neg h2.ne']
    · have e2 := hE j (by omega)
      have e3 := hE (j - 1) (by omega)
      rw [show j - 1 + 1 = j by omega] at e3
      have : i = j - 1 := by
        rcases lt_trichotomy i (j - 1) with h | h | h
        · have e1 := startOf_mono h0 (show i + 1 ≤ j - 1 from h)
          linarith
        · exact h
        · have := i3 (j - 1) h
          rw [show j - 1 + 1 = j by omega] at this
          linarith
      subst this
      rw [i4, show j - 1 + 1 = j by omega, if_pos (by omega), if_pos h4]
  unfold skierWeights
  rw [if_neg (by rintro rfl; simp at hk; omega), key]
  simp only [bind, Except.bind, pure, Except.pure, Option.getD_some]
  rw [if_pos (by omega)]

theorem weights_reverse (n j : ℕ) (hj : j < n) (w : ℝ) :
    ((List.replicate n (0 : ℝ)).set j w).reverse = (List.replicate n 0).set (n - 1 - j) w := by
  apply List.ext_getElem
  · simp
  · intro i h1 h2
    simp only [List.length_set, List.length_replicate] at h2
    rw [List.getElem_reverse]
    simp only [List.length_set, List.length_replicate, List.getElem_set, List.getElem_replicate]
    by_cases h : j = n - 1 - i
    · rw [if_pos h, if_pos (by omega)]
    · rw [if_neg h, if_neg (by omega)]

/-- The site on a slope that faces the other way. -/
def Site.mirror (site : Site) : Site := { site with phi := -site.phi }

theorem SiteOk.mirror {num : Numerics} {site : Site} (h : SiteOk num site) : SiteOk num site.mirror :=
  ⟨h.eig, h.plies, h.t, h.E, h.generic⟩

theorem afterSegments_mirror {s : Self} (hs : s.system = "skiers") : s.afterSegments.mirror = s.afterSegments := by
  have h1 : s.afterSegments.system = "skiers" := hs
  have h2 : s.afterSegments.phi = 0 := rfl
  unfold Self.mirror
  rw [h1, h2, neg_zero, show mirrorName "skiers" = "skiers" by decide]
  show _ = s.afterSegments
  rw [← h1, ← h2]

/-- Skier problems that are mirror images have mirrored fields. -/
theorem skier_fields (s : Self) (hb : BedOk s) (hc : ShearOk s) (hsk : IsSkier s) (hself : s.mirror = s) (phi : ℝ)
    (a : SegLists) (hki : a.ki.length = a.li.length) (hmi : a.mi.length + 1 = a.li.length) (hsup : Supported a)
    (C C' : ℕ → Vec6) (hm : Meets s phi 0 a C) (hm' : Meets s (-phi) 0 a.mirror C') :
    ∀ i < a.li.length, ∀ x, stateAt s (-phi) a.mirror.li a.mirror.ki C' i x
      = flip (stateAt s phi a.li a.ki C (a.li.length - 1 - i) (nth a.li (a.li.length - 1 - i) - x)) := by
  have hsys : IsPst s ∨ IsVpst s ∨ IsSkier s := .inr (.inr hsk)
  have ha : ¬ IsAux s := by
    unfold IsSkier at hsk
    unfold IsAux
    rcases hsk with h | h <;> rw [h] <;> decide
  set n := a.li.length with hnl
  have hn0 : 0 < n := by omega
  have nB : a.mirror.li.length = n := by simp [SegLists.mirror, hnl]
  have bl : ∀ i < n, nth a.mirror.li i = nth a.li (n - 1 - i) := fun i hi => nth_reverse a.li i hi
  have bk : ∀ i < n, a.mirror.ki.getD i false = a.ki.getD (n - 1 - i) false := fun i hi => by
    have := getD_reverse a.ki i (by omega)
    rw [hki] at this
    exact this
  have bm : ∀ i, i + 1 < n → nth a.mirror.mi i = nth a.mi (n - 2 - i) := fun i hi => by
    have := nth_reverse a.mi i (by omega)
    rw [show a.mi.length - 1 - i = n - 2 - i by omega] at this
    exact this
  set Z := stateAt s phi a.li a.ki C with hZ
  have hdr := fun i => stateAt_driven s hb phi a.li a.ki C i
  have hsupB : Supported a.mirror := by
    refine ⟨fun l hl => hsup.nonneg l (by simpa [SegLists.mirror] using hl), ?_⟩
    obtain ⟨i, hi, hk, hp⟩ := hsup.bed
    refine ⟨n - 1 - i, by omega, ?_, ?_⟩
    · rw [bk _ (by omega), show n - 1 - (n - 1 - i) = i by omega]; exact hk
    · rw [bl _ (by omega), show n - 1 - (n - 1 - i) = i by omega]; exact hp
  obtain ⟨m1, m2, m3⟩ := hm
  have hE := endCond_mirror s hsys phi 0
  have hD := driveOf_mirror s phi
  have hJ := jump_mirror s ha phi a.mi a.mirror.mi
  rw [hself] at hE hD hJ
  have key := field_unique s hb hc (-phi) 0 le_rfl a.mirror (hsupB.held _) _ hm'
    (fun i x => flip (Z (n - 1 - i) (nth a.li (n - 1 - i) - x))) (fun i hi => ?_) ⟨?_, ?_, ?_⟩
  · intro i hi x
    exact (key i (by omega) x).symm
  · rw [bk i (by omega), hD]
    exact (hdr (n - 1 - i)).flip (nth a.li (n - 1 - i))
  · rw [bk 0 hn0]
    simp only [Nat.sub_zero, sub_zero]
    exact hE .right _ _ m2
  · rw [nB, bk (n - 1) (by omega), bl (n - 1) (by omega)]
    simp only [Nat.sub_self, sub_self]
    exact hE .left _ _ m1
  · intro i hi
    rw [nB] at hi
    have t := m3 (n - 2 - i) (by omega)
    have e1 : n - 1 - i = n - 2 - i + 1 := by omega
    have e2 : n - 1 - (i + 1) = n - 2 - i := by omega
    rw [hJ (n - 2 - i) i (bm i hi)]
    simp only [bl i (by omega), e1, e2, sub_self, sub_zero]
    exact transmission_mirror t

theorem support_reverse (case : CrackCase) (ki : List Bool) : case.support ki.reverse = (case.support ki).reverse := by
  cases case with
  | crack => rfl
  | nocrack => simp [CrackCase.support]

/-- Results of `create_skier_object` for a site and for its mirror image. -/
theorem create_mirror (num : Numerics) (site : Site) (hs : SiteOk num site) (w : ℝ) (li : List ℝ) (ki : List Bool)
    (h : BeamOk li ki) (h' : BeamOk li.reverse ki.reverse) (j : ℕ) (hj : MidBoundary li j) (case : CrackCase) :
    ∃ (s : Self) (C C' : List Vec6) (a : SegLists) (pts pts' : List GridPt),
      a = ⟨li, (List.replicate (li.length - 1) 0).set j w, case.support ki⟩ ∧
      createSkierObject num site w li ki case = .ok ⟨s, C, a, pts.map (fun p => p.xb.map (· / 10)),
        pts.map (fun p => p.xb.map fun _ => 1000 * -(s.kn * p.z 2)), pts.map (fun p => p.xb.map fun _ => 1000 * s.beam.tau p.z)⟩ ∧
      createSkierObject num site.mirror w li.reverse ki.reverse case = .ok ⟨s, C', a.mirror, pts'.map (fun p => p.xb.map (· / 10)),
        pts'.map (fun p => p.xb.map fun _ => 1000 * -(s.kn * p.z 2)), pts'.map (fun p => p.xb.map fun _ => 1000 * s.beam.tau p.z)⟩ ∧
      rasterize s site.phi 800 (segsOf C a) = .ok pts ∧ rasterize s (-site.phi) 800 (segsOf C' a.mirror) = .ok pts' ∧
      SegsOk C a ∧ SegsOk C' a.mirror ∧ s.beam.Coercive ∧ Meets s site.phi 0 a (fun i => C.getD i 0) ∧
      ∀ i < a.li.length, ∀ x, stateAt s (-site.phi) a.mirror.li a.mirror.ki (fun i => C'.getD i 0) i x
        = flip (stateAt s site.phi a.li a.ki (fun i => C.getD i 0) (a.li.length - 1 - i) (nth a.li (a.li.length - 1 - i) - x)) := by
  obtain ⟨s, k1, k2, k3, k4, k5, k6, k7, k8, k9, k10, k11⟩ := siteObject_ready num.eig site hs.plies hs.t hs.E
  obtain ⟨hd, hsh⟩ := hs.generic s k1
  have hlen := h.len
  have hb := hj.bound
  have w1 := skierWeights_mid (ki := ki) w h.len h.nonneg hj
  have w2 := skierWeights_mid (ki := ki.reverse) w (by simpa using hlen) h'.nonneg hj.mirror
  rw [hlen] at w1
  rw [List.length_reverse, hlen, show li.length - 2 - j = li.length - 1 - 1 - j by omega,
    ← weights_reverse (li.length - 1) j (by omega) w] at w2
  set mi := (List.replicate (li.length - 1) (0 : ℝ)).set j w with hmi
  have hml : mi.length + 1 = li.length := by rw [hmi]; simp; omega
  obtain ⟨C, pts, X, σ, τ, m1, m2, m3, m4, m5, rfl, rfl, rfl⟩ := solveSkier_run num site.phi hs.eig s k2 k3 k4 k5 hd hsh
    li mi ki h hml case
  obtain ⟨C', pts', X, σ, τ, n1, n2, n3, n4, n5, rfl, rfl, rfl⟩ := solveSkier_run num (-site.phi) hs.eig s k2 k3 k4 k5 hd hsh
    li.reverse mi.reverse ki.reverse h' (by simpa using hml) case
  rw [support_reverse] at n1 n3 n4 n5
  have hbc := case.support_ok h
  have hB : BedOk s.afterSegments := (C13_discriminant num.eig s k2.stiff k2.fresh.eigFresh (hs.eig _) hd).stage _ _ _ _ _ _ _ _
  have hSh : ShearOk s.afterSegments := hsh.stage _ _ _ _ _ _ _ _
  refine ⟨s.afterSegments, C, C', ⟨li, mi, case.support ki⟩, pts, pts', rfl, ?_, ?_, m5, n5, ⟨hbc.len, m2.ge, h.nonneg⟩,
    ⟨by simpa [SegLists.mirror] using hbc.len, by rw [n2]; exact le_rfl, h'.nonneg⟩, hB.stiff.coercive hSh, m3 0, ?_⟩
  · unfold createSkierObject
    rw [k1]
    simp only [bind, Except.bind]
    rw [w1]
    exact m1
  · unfold createSkierObject
    rw [show siteObject num.eig site.mirror = .ok s from k1]
    simp only [bind, Except.bind]
    rw [w2]
    exact n1
  · refine skier_fields s.afterSegments hB hSh (.inr k3) (afterSegments_mirror k3) site.phi _ hbc.len hml ⟨h.nonneg, ?_⟩ _ _ (m3 0)
      (n3 0)
    refine ⟨li.length - 1, by simp only; omega, ?_, h.last⟩
    have := hbc.right
    rw [List.getLast?_eq_getElem?, hbc.len] at this
    simp only
    rw [List.getD_eq_getElem?_getD, this, Option.getD_some]

theorem segs_segsOf (s : Self) (C : List Vec6) (a : SegLists) (X σ τ : List (Option ℝ)) :
    Skier.segs ⟨s, C, a, X, σ, τ⟩ = segsOf C a := rfl

theorem propagationValue_of {num : Numerics} {site : Site} {w : ℝ} {li : List ℝ} {ki : List Bool} {r : Skier}
    (h : createSkierObject num site w li ki .crack = .ok r) : propagationValue num site w li ki
      = (gdif r.skier site.phi r.segs "kJ/m^2" true).bind
        fun G => .ok (fractureToughnessCriterion (1000 * G.2.1) (1000 * G.2.2)) := by
  unfold propagationValue
  rw [h]
  rfl

/-- C72: `check_crack_propagation_criterion` gives the same energy and verdict
for a slope and its mirror image, if the weight is not at a crack tip. -/
theorem C72_propagation (num : Numerics) (site : Site) (hs : SiteOk num site) (w : ℝ) (li : List ℝ) (ki : List Bool)
    (h : BeamOk li ki) (h' : BeamOk li.reverse ki.reverse) (j : ℕ) (hj : MidBoundary li j)
    (ht : ki[j]? = ki[j + 1]? ∨ w = 0) :
    crackPropagation num site.mirror w li.reverse ki.reverse = crackPropagation num site w li ki := by
  obtain ⟨s, C, C', a, pts, pts', ha, h1, h2, h3, h4, h5, h6, h7, h8, h9⟩ := create_mirror num site hs w li ki h h' j hj .crack
  have htip : TipsFree a := by
    intro i hi
    rw [ha] at hi ⊢
    change CrackTip ki i at hi
    show nth ((List.replicate (li.length - 1) 0).set j w) i = 0
    have hb := hj.bound
    have hl := h.len
    have hi1 := hi.1
    rw [nth_eq (by simp; omega)]
    simp only [List.getElem_set, List.getElem_replicate]
    split_ifs with hij
    · subst hij
      exact ht.resolve_left hi.2
    · rfl
  have hg := mirror_rates (s := s) (s' := s) rfl h7 h8 h5 h6 h9 htip "kJ/m^2"
  have e : propagationValue num site.mirror w li.reverse ki.reverse = propagationValue num site w li ki := by
    rw [propagationValue_of h1, propagationValue_of h2, segs_segsOf, segs_segsOf]
    dsimp only
    rw [show site.mirror.phi = -site.phi from rfl, hg]
  unfold crackPropagation
  rw [e]

/-- C72: `create_skier_object` returns arrays in opposite order: positions from
the other end, the same normal stresses, and opposite shear stresses except at
the skier. -/
theorem C72_create_partial (num : Numerics) (site : Site) (hs : SiteOk num site) (w : ℝ) (li : List ℝ) (ki : List Bool)
    (h : BeamOk li ki) (h' : BeamOk li.reverse ki.reverse) (j : ℕ) (hj : MidBoundary li j) (case : CrackCase) :
    ∃ r r', createSkierObject num site w li ki case = .ok r ∧
      createSkierObject num site.mirror w li.reverse ki.reverse case = .ok r' ∧
      r'.x = (r.x.map (Option.map (li.sum / 10 - ·))).reverse ∧ r'.sigma = r.sigma.reverse ∧
      r'.tau.length = r.tau.length ∧
      ∀ k : ℕ, r.x[k]? ≠ some (some (li.sum / 20)) → k < r.tau.length →
        r'.tau[r.tau.length - 1 - k]? = r.tau[k]?.map (Option.map Neg.neg) := by
  obtain ⟨s, C, C', a, pts, pts', ha, h1, h2, h3, h4, h5, h6, h7, h8, h9⟩ := create_mirror num site hs w li ki h h' j hj case
  have hG := mirror_arrays (s := s) (s' := s) h7 h8 h5 h6 h9 (by norm_num) h3 h4
  have hlen := hG.size
  have hL : a.li.sum = li.sum := by rw [ha]
  have hpt : ∀ (i : ℕ) (hi : i < pts.length) (hi' : i < pts'.length), ∃ p ∈ pts, pts[pts.length - 1 - i]? = some p ∧
      pts'[i].xb = p.xb.map (li.sum - ·) ∧ pts'[i].z 2 = p.z 2 := by
    intro i hi hi'
    have hk : pts.length - 1 - i < pts.length := by omega
    have e := hG.point (pts.length - 1 - i) pts[pts.length - 1 - i] pts'[i] (List.getElem?_eq_getElem hk)
      (by rw [show pts.length - 1 - (pts.length - 1 - i) = i by omega]; exact List.getElem?_eq_getElem hi')
    exact ⟨_, List.getElem_mem hk, List.getElem?_eq_getElem hk, by rw [← hL]; exact e.2.1, e.2.2.1.2.1⟩
  refine ⟨_, _, h1, h2, ?_, ?_, by simp [hlen], ?_⟩
  · apply List.ext_getElem
    · simp [hlen]
    · intro i hi hi'
      simp only [List.length_map, List.length_reverse] at hi hi'
      obtain ⟨p, -, e1, e2, -⟩ := hpt i hi' hi
      have e3 := (List.getElem?_eq_some_iff.1 e1).2
      simp only [List.getElem_map, List.getElem_reverse, List.length_map, e2, e3]
      cases p.xb with
      | none => rfl
      | some x => simp only [Option.map_some, Option.some.injEq]; ring
  · apply List.ext_getElem
    · simp [hlen]
    · intro i hi hi'
      simp only [List.length_map, List.length_reverse] at hi hi'
      obtain ⟨p, -, e1, e2, e4⟩ := hpt i hi' hi
      have e3 := (List.getElem?_eq_some_iff.1 e1).2
      simp only [List.getElem_map, List.getElem_reverse, List.length_map, e2, e3, e4]
      cases p.xb <;> rfl
  · intro k hk hkl
    simp only [List.length_map] at hkl hk ⊢
    have hk' : pts.length - 1 - k < pts'.length := by omega
    have e := hG.point k pts[k] pts'[pts.length - 1 - k] (List.getElem?_eq_getElem hkl) (List.getElem?_eq_getElem hk')
    rw [List.getElem?_map, List.getElem?_map, List.getElem?_eq_getElem hkl, List.getElem?_eq_getElem hk']
    simp only [Option.map_some, Option.some.injEq]
    rw [e.2.1]
    rw [List.getElem?_map, List.getElem?_eq_getElem hkl] at hk
    simp only [Option.map_some, ne_eq, Option.some.injEq] at hk
    have hxb : pts[k].xb = none ∨ pts[k].xb = some pts[k].x := by
      unfold GridPt.xb; split_ifs <;> simp
    rcases hxb with hxb | hxb
    · rw [hxb]; rfl
    · rw [hxb] at hk ⊢
      simp only [Option.map_some, Option.some.injEq] at hk ⊢
      have hfree : NoLoadAt a pts[k].x := by
        intro i hi hx
        rw [ha] at hi hx ⊢
        simp only at hi hx ⊢
        have hb := hj.bound
        rw [nth_eq (by simp; omega)]
        simp only [List.getElem_set, List.getElem_replicate]
        split_ifs with hij
        · exfalso
          subst hij
          rw [hj.middle] at hx
          exact hk (by rw [← hx]; ring)
        · rfl
      rw [e.2.2.2 hfree]
      simp only [Beam.tau, flip, Matrix.cons_val]
      ring

/-! ## Concrete cases -/

theorem skierLists_mirror : skierLists.mirror = skierLists := by
  simp [skierLists, SegLists.mirror]

/-- The mirror image of the demonstration is also solved. -/
theorem skierDemo_mirror (phi : ℝ) :
    ∃ C', assembleAndSolve stdNum .list (-phi) skierLists.mirror skierDemo.mirror = (.ok (C', skierLists.mirror), skierDemo.mirror) := by
  obtain ⟨i1, i2, i3, i4⟩ := mirror_kinds skierDemo
  have hf : EigFresh stdNum.eig skierDemo := (demo_ready _ _ _).fresh.eigFresh
  have hs : IsSkier skierDemo.mirror := i3.mpr skierDemo_isSkier
  have hnp : ¬ IsPst skierDemo.mirror := fun h => skierDemo_not_pst (i1.mp h)
  rw [skierLists_mirror]
  have hv : Valid skierDemo.mirror skierLists := ⟨by simp [skierLists], rfl, rfl, fun _ => by simp [skierLists]⟩
  obtain ⟨C, h1, h2⟩ := C18_unique_solution stdNum .list (-phi) skierLists skierDemo.mirror (demo_bedOk _ _).mirror
    (show ShearOk skierDemo from demo_shear _ _ _) hf.mirror hv (.inl rfl) (.inr (.inr (.inl hs))) (fun h => absurd h hnp)
    (fun h => absurd h hnp) skierLists_supported
  rw [skierLists_full] at h1
  exact ⟨C, h1⟩

/-- Arrays of 100 steps for a skier of 80 kg on slopes of 38 and -38 degrees: mirror
images except for the shear stress at the skier. -/
example : ∃ (C C' : List Vec6) (pts pts' : List GridPt), rasterize skierDemo 38 100 (segsOf C skierLists) = .ok pts ∧
    rasterize skierDemo.mirror (-38) 100 (segsOf C' skierLists.mirror) = .ok pts' ∧
    MirrorGrid 4300 (NoLoadAt skierLists) pts pts' ∧
    (∃ (k : ℕ) (p q : GridPt), pts[k]? = some p ∧ pts'[pts.length - 1 - k]? = some q ∧ ftau skierDemo.mirror q.z ≠ -ftau skierDemo p.z) ∧
    gdif skierDemo.mirror (-38) (segsOf C' skierLists.mirror) "kJ/m^2" true = gdif skierDemo 38 (segsOf C skierLists) "kJ/m^2" true := by
  obtain ⟨C, hC, -⟩ := skierDemo_solved 38
  obtain ⟨C', hC'⟩ := skierDemo_mirror 38
  have hf : EigFresh stdNum.eig skierDemo := (demo_ready _ _ _).fresh.eigFresh
  obtain ⟨hS, hS'⟩ := mirror_segs hf skierDemo_noFace skierLists_supported hC hC'
  have run : ∀ (s : Self) (phi : ℝ) (C : List Vec6) (a : SegLists), SegsOk C a → 0 < a.li.length → nth a.li 0 ≠ 0 →
      ∃ pts, rasterize s phi 100 (segsOf C a) = .ok pts := fun s phi C a h h0 h1 =>
    (C28_runs s phi 100 (by norm_num) _).mpr ⟨_, List.getElem_mem (by rw [h.length]; exact h0), by rw [h.get 0 h0]; exact h1⟩
  obtain ⟨pts, hp⟩ := run skierDemo 38 C skierLists hS (by simp [skierLists]) (by simp [skierLists, nth])
  obtain ⟨pts', hp'⟩ := run skierDemo.mirror (-38) C' skierLists.mirror hS' (by simp [skierLists, SegLists.mirror])
    (by simp [skierLists, nth, SegLists.mirror])
  have hsys : IsPst skierDemo ∨ IsVpst skierDemo ∨ IsSkier skierDemo := .inr (.inr skierDemo_isSkier)
  have hsp : IsPst skierDemo → OpenEnd skierLists → skierDemo.mode = .C → RestOk stdNum skierDemo :=
    fun h => absurd h skierDemo_not_pst
  refine ⟨C, C', pts, pts', hp, hp', ?_, ?_, ?_⟩
  · have := C72_grid_partial stdNum .list .list 38 skierLists _ _ skierDemo _ _ C C' (demo_bedOk _ _) (demo_shear _ _ _) hf
      skierDemo_noFace hsys hsp skierLists_supported hC hC' 100 (by norm_num) pts pts' hp hp'
    rwa [show skierLists.li.sum = 4300 by norm_num [skierLists]] at this
  · refine C72_grid_violated stdNum .list .list 38 skierLists _ _ skierDemo _ _ C C' (demo_bedOk _ _) (demo_shear _ _ _) hf
      skierDemo_noFace hsys hsp skierLists_supported hC hC' 100 (by norm_num) pts pts' hp hp' 1 (by simp [skierLists])
      (by simp [skierLists, nth]) (by simp [skierLists, nth]) ?_
    have hr := demo_ready stdEig "skiers" false
    have hcos : 0 < Real.cos (deg2rad 38) := Real.cos_pos_of_mem_Ioo ⟨by unfold deg2rad; linarith [Real.pi_pos], by
      unfold deg2rad; linarith [Real.pi_pos]⟩
    have h1 := hr.g
    have h2 := hr.lski
    simp only [getSkierLoad, skierLists, nth, skierDemo] at *
    norm_num
    exact ⟨⟨by positivity, by positivity⟩, hcos.ne'⟩
  · refine C72_gdif stdNum .list .list 38 skierLists _ _ skierDemo _ _ C C' (demo_bedOk _ _) (demo_shear _ _ _) hf
      skierDemo_noFace hsys hsp skierLists_supported hC hC' ?_ _
    rintro j ⟨h1, h2⟩
    have hj : j < 3 := by simp only [skierLists, List.length_cons, List.length_nil] at h1; omega
    interval_cases j <;> simp [skierLists, nth] at h2 ⊢

/-- Boundaries in the middle of the beams that the criteria use. -/
theorem midBoundary_halves {l : ℝ} (hl : 0 < l) : MidBoundary [l / 2, 0, 0, l / 2] 1 :=
  ⟨by simp, by simp [startOf], .inr ⟨le_rfl, by simp, by simp [nth]; linarith, by simp [nth], by simp [nth], by simp [nth]; linarith⟩⟩

example : crackPropagation midNum demoSite.mirror 80 [2000, 150, 150, 2000] [true, false, false, true]
    = crackPropagation midNum demoSite 80 [2000, 150, 150, 2000] [true, false, false, true] := by
  have := C72_propagation midNum demoSite demoSite_ok 80 [2000, 150, 150, 2000] [true, false, false, true] demoBeam_ok demoBeam_ok
    1 ⟨by simp, by norm_num [startOf], .inl ⟨by simp [nth], by simp [nth]⟩⟩ (.inl (by simp))
  simpa using this

/-- The uncracked beam of 2 m that `find_minimum_force` is called with. -/
example : ∃ r r', createSkierObject midNum demoSite 80 [(2000 : ℝ) / 2, 0, 0, 2000 / 2] [true, true, true, true] .nocrack = .ok r ∧
    createSkierObject midNum demoSite.mirror 80 [(2000 : ℝ) / 2, 0, 0, 2000 / 2] [true, true, true, true] .nocrack = .ok r' ∧
    r'.sigma = r.sigma.reverse := by
  obtain ⟨r, r', h1, h2, -, h3, -⟩ := C72_create_partial midNum demoSite demoSite_ok 80 [(2000 : ℝ) / 2, 0, 0, 2000 / 2]
    [true, true, true, true] (halves_ok 2000 (by norm_num)) (halves_ok 2000 (by norm_num)) 1 (midBoundary_halves (by norm_num)) .nocrack
  exact ⟨r, r', h1, h2, h3⟩

end Weac
