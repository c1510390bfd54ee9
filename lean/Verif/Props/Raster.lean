import Mathlib.Data.List.Chain
import Verif.Model.Raster
import Verif.Props.SolveDemo

/-!
# C28, C29: grid of the rasterized solution
-/

namespace Weac

/-! ## Specification -/

/-- Segment `g` of a beam that begins at `x0` begins at `b`. -/
def Spec.Begins : ℝ → List Seg → ℝ → Seg → Prop
  | _, [], _, _ => False
  | x0, h :: hs, b, g => (b = x0 ∧ g = h) ∨ Spec.Begins (x0 + |h.l|) hs b g

/-- Length of the beam. -/
noncomputable def Spec.beamLength (gs : List Seg) : ℝ := (gs.map fun g => |g.l|).sum

open Spec

theorem begins_bounds {gs : List Seg} {x0 b : ℝ} {g : Seg} (h : Begins x0 gs b g) :
    x0 ≤ b ∧ b + |g.l| ≤ x0 + beamLength gs := by
  induction gs generalizing x0 with
  | nil => exact h.elim
  | cons h0 hs ih =>
    have p := abs_nonneg h0.l
    have pl : 0 ≤ beamLength hs := by
      unfold beamLength
      exact List.sum_nonneg (by intro x hx; obtain ⟨g, -, rfl⟩ := List.mem_map.mp hx; exact abs_nonneg _)
    have e : beamLength (h0 :: hs) = |h0.l| + beamLength hs := by simp [beamLength]
    rw [e]
    rcases h with ⟨rfl, rfl⟩ | h
    · constructor <;> linarith
    · obtain ⟨h1, h2⟩ := ih h
      constructor <;> linarith

/-! ## Zero-length segments -/

theorem dropZero_cons (g : Seg) (gs : List Seg) :
    dropZero (g :: gs) = if g.l = 0 then dropZero gs else { g with l := |g.l| } :: dropZero gs := by
  unfold dropZero
  rw [List.map_cons, List.filter_cons]
  by_cases h : g.l = 0
  · simp [h]
  · simp [h]

theorem dropZero_pos (gs : List Seg) : ∀ g ∈ dropZero gs, 0 < g.l := by
  intro g hg
  unfold dropZero at hg
  simpa using (List.mem_filter.mp hg).2

theorem dropZero_length (gs : List Seg) : ((dropZero gs).map Seg.l).sum = beamLength gs := by
  induction gs with
  | nil => simp [dropZero, beamLength]
  | cons g gs ih =>
    have e : beamLength (g :: gs) = |g.l| + beamLength gs := by simp [beamLength]
    rw [dropZero_cons, e]
    split_ifs with h
    · rw [ih, h]; simp
    · rw [List.map_cons, List.sum_cons, ih]

theorem begins_dropZero {gs : List Seg} {x0 b : ℝ} {g' : Seg} :
    Begins x0 (dropZero gs) b g' ↔ ∃ g, Begins x0 gs b g ∧ g.l ≠ 0 ∧ g' = { g with l := |g.l| } := by
  induction gs generalizing x0 with
  | nil => simp [dropZero, Begins]
  | cons h0 hs ih =>
    rw [dropZero_cons]
    split_ifs with h
    · rw [ih]
      constructor
      · rintro ⟨g, h1, h2, h3⟩
        refine ⟨g, .inr ?_, h2, h3⟩
        rw [h, abs_zero, add_zero]; exact h1
      · rintro ⟨g, ⟨rfl, rfl⟩ | h1, h2, h3⟩
        · exact absurd h h2
        · rw [h, abs_zero, add_zero] at h1
          exact ⟨g, h1, h2, h3⟩
    · simp only [Begins, abs_abs]
      rw [ih]
      constructor
      · rintro (⟨rfl, rfl⟩ | ⟨g, h1, h2, h3⟩)
        · exact ⟨h0, .inl ⟨rfl, rfl⟩, h, rfl⟩
        · exact ⟨g, .inr h1, h2, h3⟩
      · rintro ⟨g, ⟨rfl, rfl⟩ | h1, h2, h3⟩
        · exact .inl ⟨rfl, h3⟩
        · exact .inr ⟨g, h1, h2, h3⟩

theorem dropZero_nil {gs : List Seg} : dropZero gs = [] ↔ ∀ g ∈ gs, g.l = 0 := by
  induction gs with
  | nil => simp [dropZero]
  | cons g gs ih =>
    rw [dropZero_cons]
    split_ifs with h
    · rw [ih]; simp [h]
    · simp [h]

theorem dropZero_count (gs : List Seg) : (dropZero gs).length = (gs.filter fun g => g.l ≠ 0).length := by
  induction gs with
  | nil => simp [dropZero]
  | cons g gs ih =>
    rw [dropZero_cons]
    by_cases h : g.l = 0
    · simp [h, ih]
    · simp [h, ih]

/-! ## One segment -/

section seg
variable {num : ℕ} {tot l : ℝ}

theorem ceil_pos (hn : 1 ≤ num) (ht : 0 < tot) (hl : 0 < l) : 1 ≤ ⌈l / tot * (num : ℝ)⌉₊ := by
  rw [Nat.one_le_iff_ne_zero, ← Nat.pos_iff_ne_zero, Nat.ceil_pos]
  have : (0 : ℝ) < num := by exact_mod_cast hn
  positivity

/-- Step of the local grid. -/
noncomputable def stepOf (num : ℕ) (tot l : ℝ) : ℝ := l / (⌈l / tot * (num : ℝ)⌉₊ : ℝ)

theorem step_pos (hn : 1 ≤ num) (ht : 0 < tot) (hl : 0 < l) : 0 < stepOf num tot l := by
  have h : (0 : ℝ) < (⌈l / tot * (num : ℝ)⌉₊ : ℝ) := by exact_mod_cast ceil_pos hn ht hl
  unfold stepOf
  positivity

theorem step_le (hn : 1 ≤ num) (ht : 0 < tot) (hl : 0 < l) : stepOf num tot l ≤ tot / num := by
  have hnr : (0 : ℝ) < num := by exact_mod_cast hn
  have h : (0 : ℝ) < (⌈l / tot * (num : ℝ)⌉₊ : ℝ) := by exact_mod_cast ceil_pos hn ht hl
  have hc := Nat.le_ceil (l / tot * (num : ℝ))
  unfold stepOf
  rw [div_le_div_iff₀ h hnr]
  have : l * num = tot * (l / tot * num) := by field_simp
  rw [this]
  exact mul_le_mul_of_nonneg_left hc ht.le

theorem step_mul (hn : 1 ≤ num) (ht : 0 < tot) (hl : 0 < l) : stepOf num tot l * (⌈l / tot * (num : ℝ)⌉₊ : ℝ) = l := by
  have h : (0 : ℝ) < (⌈l / tot * (num : ℝ)⌉₊ : ℝ) := by exact_mod_cast ceil_pos hn ht hl
  unfold stepOf
  exact div_mul_cancel₀ _ h.ne'

theorem linspace_eq (last : Bool) :
    linspace l (nqOf num tot l last) last
      = (List.range (nqOf num tot l last)).map fun j : ℕ => stepOf num tot l * (j : ℝ) := by
  unfold linspace
  refine List.map_congr_left fun j _ => ?_
  unfold stepOf nqOf
  cases last
  · simp only [Bool.false_eq_true, if_false, Nat.add_zero]; ring
  · simp only [if_true, Nat.add_sub_cancel]; ring

/-- Mask of the first point of a segment. -/
def headMask (prev : Option Bool) (k : Bool) : Bool :=
  match prev with
  | some k' => k' || k
  | none => k

theorem segPts_eq (s : Self) (phi x0 : ℝ) (prev : Option Bool) (g : Seg) (last : Bool) :
    segPts s phi num tot x0 prev g last
      = (List.range (nqOf num tot g.l last)).map fun j : ℕ =>
        { x := x0 + stepOf num tot g.l * (j : ℝ)
          z := zsol s (stepOf num tot g.l * (j : ℝ)) g.C g.l phi g.k
          sup := if j = 0 then headMask prev g.k else g.k } := by
  unfold segPts
  rw [linspace_eq]
  apply List.ext_getElem
  · simp
  · intro i h1 h2
    simp [headMask]
    rfl

end seg

/-! ## All segments -/

/-- Everything C28 and C29 need, for the part of the loop from `x0` on. -/
structure LoopOk (s : Self) (phi : ℝ) (num : ℕ) (tot x0 : ℝ) (prev : Option Bool) (gs : List Seg) (pts : List GridPt) :
    Prop where
  head : ∃ p, pts.head? = some p ∧ p.x = x0
  last : ∃ p, pts.getLast? = some p ∧ p.x = x0 + beamLength gs
  range : ∀ p ∈ pts, x0 ≤ p.x ∧ p.x ≤ x0 + beamLength gs
  chain : pts.IsChain fun p q => p.x < q.x ∧ q.x - p.x ≤ tot / num
  bounds : ∀ b g, Begins x0 gs b g → ∃ p ∈ pts, p.x = b
  field : ∀ p ∈ pts, ∃ b g, Begins x0 gs b g ∧ b ≤ p.x ∧ p.x ≤ b + g.l ∧ (p.x < b + g.l ∨ p.x = x0 + beamLength gs) ∧
    p.z = zsol s (p.x - b) g.C g.l phi g.k
  mask : ∀ p ∈ pts, p.sup = true ↔ (p.x = x0 ∧ prev = some true) ∨
    ∃ b g, Begins x0 gs b g ∧ g.k = true ∧ b ≤ p.x ∧ p.x ≤ b + g.l
  low : (gs.map fun g => g.l / tot * (num : ℝ)).sum + 1 ≤ pts.length
  high : (pts.length : ℝ) < (gs.map fun g => g.l / tot * (num : ℝ)).sum + 1 + gs.length

theorem loop_ok (s : Self) (phi : ℝ) (num : ℕ) (hn : 1 ≤ num) (tot : ℝ) (ht : 0 < tot) :
    ∀ (gs : List Seg) (x0 : ℝ) (prev : Option Bool), gs ≠ [] → (∀ g ∈ gs, 0 < g.l) →
      LoopOk s phi num tot x0 prev gs (rasterLoop s phi num tot x0 prev gs) := by
  intro gs
  induction gs with
  | nil => intro x0 prev h; exact absurd rfl h
  | cons g gs ih =>
    intro x0 prev _ hpos
    have hl : 0 < g.l := hpos g (by simp)
    have hc := ceil_pos hn ht hl
    have hs := step_pos hn ht hl
    have hsl := step_le hn ht hl
    have hsm := step_mul hn ht hl
    have hcl := Nat.le_ceil (g.l / tot * (num : ℝ))
    have hcu := Nat.ceil_lt_add_one (a := g.l / tot * (num : ℝ)) (by positivity)
    have hlen : beamLength (g :: gs) = g.l + beamLength gs := by simp [beamLength, abs_of_pos hl]
    set c := ⌈g.l / tot * (num : ℝ)⌉₊ with hcdef
    set h := stepOf num tot g.l with hh
    have hmaskpt : ∀ {j : ℕ}, (if j = 0 then headMask prev g.k else g.k) = true ↔
        (j = 0 ∧ prev = some true) ∨ g.k = true := by
      intro j
      by_cases hj : j = 0
      · subst hj
        simp only [if_true, true_and]
        rcases prev with _ | k'
        · simp [headMask]
        · simp [headMask]
      · simp [hj]
    have hinj : ∀ {j : ℕ}, x0 + h * (j : ℝ) = x0 ↔ j = 0 := by
      intro j
      constructor
      · intro e
        have : h * (j : ℝ) = 0 := by linarith
        rcases mul_eq_zero.mp this with h1 | h1
        · exact absurd h1 hs.ne'
        · exact_mod_cast h1
      · rintro rfl; simp
    rcases gs with _ | ⟨g2, gs2⟩
    · -- last segment
      have e : rasterLoop s phi num tot x0 prev [g] = (List.range (c + 1)).map fun j : ℕ =>
          { x := x0 + h * (j : ℝ)
            z := zsol s (h * (j : ℝ)) g.C g.l phi g.k
            sup := if j = 0 then headMask prev g.k else g.k } := by
        show segPts s phi num tot x0 prev g true ++ [] = _
        rw [List.append_nil, segPts_eq]
        rfl
      rw [e]
      have hl0 : beamLength [g] = g.l := by simp [beamLength, abs_of_pos hl]
      have hB : ∀ b g', Begins x0 [g] b g' ↔ b = x0 ∧ g' = g := by intro b g'; simp [Begins]
      have hle : ∀ j < c + 1, h * (j : ℝ) ≤ g.l := by
        intro j hj
        rw [← hsm]
        exact mul_le_mul_of_nonneg_left (by exact_mod_cast (by omega : j ≤ c)) hs.le
      refine ⟨⟨⟨x0, zsol s 0 g.C g.l phi g.k, headMask prev g.k⟩, by rw [List.head?_map, List.head?_range]; simp, ?_⟩, ⟨_, by rw [List.getLast?_map, List.getLast?_range]; simp; rfl, ?_⟩, ?_, ?_, ?_, ?_, ?_, ?_, ?_⟩
      · simp
      · simp only [hl0]
        rw [hsm]
      · intro p hp
        obtain ⟨j, hj, rfl⟩ := List.mem_map.mp hp
        have := hle j (List.mem_range.mp hj)
        have : 0 ≤ h * (j : ℝ) := by positivity
        rw [hl0]
        constructor <;> simp only <;> linarith
      · rw [List.isChain_map]
        rw [List.isChain_range]
        intro m hm
        have : ((m + 1 : ℕ) : ℝ) = m + 1 := by push_cast; ring
        simp only [this]
        constructor
        · nlinarith
        · nlinarith
      · intro b g' hb
        obtain ⟨rfl, rfl⟩ := (hB b g').mp hb
        exact ⟨_, List.mem_map.mpr ⟨0, List.mem_range.mpr (by omega), rfl⟩, by simp⟩
      · intro p hp
        obtain ⟨j, hj, rfl⟩ := List.mem_map.mp hp
        have h1 := hle j (List.mem_range.mp hj)
        have h2 : 0 ≤ h * (j : ℝ) := by positivity
        refine ⟨x0, g, (hB _ _).mpr ⟨rfl, rfl⟩, by simp only; linarith, by simp only; linarith, ?_, ?_⟩
        · rw [hl0]
          simp only
          rcases h1.lt_or_eq with h3 | h3
          · left; linarith
          · right; linarith
        · simp
      · intro p hp
        obtain ⟨j, hj, rfl⟩ := List.mem_map.mp hp
        have h1 := hle j (List.mem_range.mp hj)
        have h2 : 0 ≤ h * (j : ℝ) := by positivity
        simp only
        rw [hmaskpt, hinj]
        refine or_congr Iff.rfl ⟨fun hk => ⟨x0, g, (hB _ _).mpr ⟨rfl, rfl⟩, hk, by linarith, by linarith⟩, ?_⟩
        rintro ⟨b, g', hb, hk, -, -⟩
        obtain ⟨rfl, rfl⟩ := (hB b g').mp hb
        exact hk
      · simp only [List.map_cons, List.map_nil, List.sum_cons, List.sum_nil, List.length_map, List.length_range]
        push_cast
        linarith
      · simp only [List.map_cons, List.map_nil, List.sum_cons, List.sum_nil, List.length_map, List.length_range,
          List.length_cons, List.length_nil]
        push_cast
        linarith
    · -- more segments follow
      have hrec := ih (x0 + g.l) (some g.k) (by simp) (fun g' hg' => hpos g' (List.mem_cons_of_mem _ hg'))
      set rest := rasterLoop s phi num tot (x0 + g.l) (some g.k) (g2 :: gs2) with hrest
      have e : rasterLoop s phi num tot x0 prev (g :: g2 :: gs2) = ((List.range c).map fun j : ℕ =>
          ({ x := x0 + h * (j : ℝ)
             z := zsol s (h * (j : ℝ)) g.C g.l phi g.k
             sup := if j = 0 then headMask prev g.k else g.k } : GridPt)) ++ rest := by
        show segPts s phi num tot x0 prev g false ++ rest = _
        rw [segPts_eq]
        rfl
      rw [e]
      have hB : ∀ b g', Begins x0 (g :: g2 :: gs2) b g' ↔ (b = x0 ∧ g' = g) ∨ Begins (x0 + g.l) (g2 :: gs2) b g' := by
        intro b g'
        show (b = x0 ∧ g' = g) ∨ Begins (x0 + |g.l|) (g2 :: gs2) b g' ↔ _
        rw [abs_of_pos hl]
      have hlt : ∀ j < c, h * (j : ℝ) + h ≤ g.l := by
        intro j hj
        rw [← hsm]
        have : ((j : ℝ) + 1) ≤ c := by exact_mod_cast hj
        nlinarith
      obtain ⟨p0, hp0, hx0⟩ := hrec.head
      obtain ⟨pl, hpl, hxl⟩ := hrec.last
      have hne : rest ≠ [] := by intro h0; rw [h0] at hp0; simp at hp0
      have hrl : 0 ≤ beamLength (g2 :: gs2) := by
        have := hrec.range p0 (List.mem_of_mem_head? hp0)
        linarith [this.1, this.2]
      refine ⟨⟨⟨x0 + h * ((0 : ℕ) : ℝ), zsol s (h * ((0 : ℕ) : ℝ)) g.C g.l phi g.k, headMask prev g.k⟩, ?_, ?_⟩, ⟨pl, ?_, ?_⟩, ?_, ?_, ?_, ?_, ?_, ?_, ?_⟩
      · rw [List.head?_append, List.head?_map, List.head?_range, if_neg (by omega)]
        simp
      · simp
      · rw [List.getLast?_append, hpl]; rfl
      · rw [hxl, hlen]; ring
      · intro p hp
        rcases List.mem_append.mp hp with hp | hp
        · obtain ⟨j, hj, rfl⟩ := List.mem_map.mp hp
          have h1 := hlt j (List.mem_range.mp hj)
          have h2 : 0 ≤ h * (j : ℝ) := by positivity
          rw [hlen]
          constructor <;> simp only <;> linarith
        · have := hrec.range p hp
          rw [hlen]
          constructor <;> linarith [this.1, this.2]
      · refine List.isChain_append.mpr ⟨?_, hrec.chain, ?_⟩
        · rw [List.isChain_map, List.isChain_range]
          intro m hm
          have : ((m + 1 : ℕ) : ℝ) = m + 1 := by push_cast; ring
          simp only [this]
          constructor
          · nlinarith
          · nlinarith
        · intro p hp q hq
          rw [List.getLast?_map, List.getLast?_range, if_neg (by omega)] at hp
          simp only [Option.map_some, Option.mem_def, Option.some.injEq] at hp
          rw [hp0] at hq
          simp only [Option.mem_def, Option.some.injEq] at hq
          subst hp hq
          have hc1 : ((c - 1 : ℕ) : ℝ) = (c : ℝ) - 1 := by
            rw [Nat.cast_sub hc]; simp
          simp only [hc1, hx0]
          constructor
          · nlinarith
          · nlinarith
      · intro b g' hb
        rcases (hB b g').mp hb with ⟨rfl, rfl⟩ | hb
        · exact ⟨_, List.mem_append_left _ (List.mem_map.mpr ⟨0, List.mem_range.mpr (by omega), rfl⟩), by simp⟩
        · obtain ⟨p, hp, hpx⟩ := hrec.bounds b g' hb
          exact ⟨p, List.mem_append_right _ hp, hpx⟩
      · intro p hp
        rcases List.mem_append.mp hp with hp | hp
        · obtain ⟨j, hj, rfl⟩ := List.mem_map.mp hp
          have h1 := hlt j (List.mem_range.mp hj)
          have h2 : 0 ≤ h * (j : ℝ) := by positivity
          refine ⟨x0, g, (hB _ _).mpr (.inl ⟨rfl, rfl⟩), by simp only; linarith, by simp only; linarith, .inl (by simp only; linarith), ?_⟩
          simp
        · obtain ⟨b, g', k1, k2, k3, k4, k5⟩ := hrec.field p hp
          refine ⟨b, g', (hB _ _).mpr (.inr k1), k2, k3, ?_, k5⟩
          rw [hlen]
          rcases k4 with k4 | k4
          · exact .inl k4
          · right; linarith
      · intro p hp
        rcases List.mem_append.mp hp with hp | hp
        · obtain ⟨j, hj, rfl⟩ := List.mem_map.mp hp
          have h1 := hlt j (List.mem_range.mp hj)
          have h2 : 0 ≤ h * (j : ℝ) := by positivity
          simp only
          rw [hmaskpt, hinj]
          refine or_congr Iff.rfl ⟨fun hk => ⟨x0, g, (hB _ _).mpr (.inl ⟨rfl, rfl⟩), hk, by linarith, by linarith⟩, ?_⟩
          rintro ⟨b, g', hb, hk, hb1, hb2⟩
          rcases (hB b g').mp hb with ⟨rfl, rfl⟩ | hb
          · exact hk
          · have := (begins_bounds hb).1
            exfalso
            linarith
        · have hx := (hrec.range p hp).1
          rw [hrec.mask p hp]
          have hne0 : ¬ (p.x = x0 ∧ prev = some true) := by rintro ⟨h1, -⟩; linarith
          rw [or_iff_right hne0]
          constructor
          · rintro (⟨h1, h2⟩ | ⟨b, g', h1, h2, h3, h4⟩)
            · refine ⟨x0, g, (hB _ _).mpr (.inl ⟨rfl, rfl⟩), by simpa using h2, by linarith, by linarith⟩
            · exact ⟨b, g', (hB _ _).mpr (.inr h1), h2, h3, h4⟩
          · rintro ⟨b, g', hb, hk, h3, h4⟩
            rcases (hB b g').mp hb with ⟨rfl, rfl⟩ | hb
            · exact .inl ⟨by linarith, by simp [hk]⟩
            · exact .inr ⟨b, g', hb, hk, h3, h4⟩
      · have := hrec.low
        rw [List.length_append, List.map_cons, List.sum_cons, List.length_map, List.length_range]
        push_cast
        linarith
      · have := hrec.high
        rw [List.length_append, List.map_cons, List.sum_cons, List.length_map, List.length_range, List.length_cons]
        push_cast
        linarith

theorem rasterize_loop (s : Self) (phi : ℝ) {num : ℕ} (hn : 1 ≤ num) {segs : List Seg} (h : ∃ g ∈ segs, g.l ≠ 0) :
    ∃ pts, rasterize s phi num segs = .ok pts ∧
      LoopOk s phi num (beamLength segs) 0 none (dropZero segs) pts ∧ 0 < beamLength segs ∧
      beamLength (dropZero segs) = beamLength segs := by
  have hne : dropZero segs ≠ [] := by
    intro h0
    obtain ⟨g, hg, hl⟩ := h
    exact hl (dropZero_nil.mp h0 g hg)
  have htot : 0 < beamLength segs := by
    rw [← dropZero_length]
    refine List.sum_pos _ ?_ (by simpa using hne)
    intro x hx
    obtain ⟨g, hg, rfl⟩ := List.mem_map.mp hx
    exact dropZero_pos segs g hg
  have hbl : beamLength (dropZero segs) = beamLength segs := by
    rw [← dropZero_length segs]
    unfold beamLength
    congr 1
    exact List.map_congr_left fun g hg => abs_of_pos (dropZero_pos segs g hg)
  refine ⟨rasterLoop s phi num (beamLength segs) 0 none (dropZero segs), ?_,
    loop_ok s phi num hn _ htot _ 0 none hne (dropZero_pos segs), htot, hbl⟩
  rw [← dropZero_length segs]
  unfold rasterize
  generalize dropZero segs = gs at hne ⊢
  rcases gs with _ | ⟨g, gs⟩
  · exact absurd rfl hne
  · rfl

/-! ## C28 -/

/-- `rasterize_solution` returns a grid whenever some segment has nonzero
length, and fails with `IndexError` otherwise. -/
theorem C28_runs (s : Self) (phi : ℝ) (num : ℕ) (hn : 1 ≤ num) (segs : List Seg) :
    (∃ pts, rasterize s phi num segs = .ok pts) ↔ ∃ g ∈ segs, g.l ≠ 0 := by
  constructor
  · rintro ⟨pts, h⟩
    by_contra h0
    push Not at h0
    unfold rasterize at h
    rw [dropZero_nil.mpr h0] at h
    cases h
  · intro h
    obtain ⟨pts, h1, -⟩ := rasterize_loop s phi hn h
    exact ⟨pts, h1⟩

/-- The grid starts at 0, ends at the length of the beam, increases strictly
with steps of at most (length of the beam)/`num`, and contains the beginning
of every segment. -/
theorem C28_grid (s : Self) (phi : ℝ) (num : ℕ) (hn : 1 ≤ num) (segs : List Seg) (pts : List GridPt)
    (h : rasterize s phi num segs = .ok pts) :
    (∃ p, pts.head? = some p ∧ p.x = 0) ∧
    (∃ p, pts.getLast? = some p ∧ p.x = beamLength segs) ∧
    (pts.map GridPt.x).Pairwise (· < ·) ∧
    (pts.map GridPt.x).IsChain (fun x y => y - x ≤ beamLength segs / num) ∧
    ∀ b g, Begins 0 segs b g → b ∈ pts.map GridPt.x := by
  obtain ⟨pts', h1, ok, htot, hbl⟩ := rasterize_loop s phi hn ((C28_runs s phi num hn segs).mp ⟨pts, h⟩)
  rw [h] at h1
  obtain rfl : pts = pts' := by injection h1
  refine ⟨ok.head, ?_, ?_, ?_, ?_⟩
  · obtain ⟨p, h2, h3⟩ := ok.last
    exact ⟨p, h2, by rw [h3, hbl, zero_add]⟩
  · rw [← List.isChain_iff_pairwise, List.isChain_map]
    exact ok.chain.imp fun _ _ h => h.1
  · rw [List.isChain_map]
    exact ok.chain.imp fun _ _ h => h.2
  · -- a segment of length zero begins where the next one or the beam ends
    have key : ∀ (segs : List Seg) (x0 b : ℝ) (g : Seg), Begins x0 segs b g →
        b = x0 + beamLength segs ∨ ∃ g', Begins x0 segs b g' ∧ g'.l ≠ 0 := by
      intro segs
      induction segs with
      | nil => intro x0 b g h; exact h.elim
      | cons h0 hs ih =>
        intro x0 b g hb
        have e : beamLength (h0 :: hs) = |h0.l| + beamLength hs := by simp [beamLength]
        by_cases hz : h0.l = 0
        · have hb' : Begins x0 hs b g ∨ b = x0 := by
            rcases hb with ⟨h1, -⟩ | hb
            · exact .inr h1
            · rw [hz, abs_zero, add_zero] at hb; exact .inl hb
          rcases hs with _ | ⟨h1, hs⟩
          · rcases hb' with hb' | hb'
            · exact hb'.elim
            · left; rw [e, hz, hb']; simp [beamLength]
          · have hb2 : ∃ g, Begins x0 (h1 :: hs) b g := by
              rcases hb' with hb' | hb'
              · exact ⟨g, hb'⟩
              · exact ⟨h1, .inl ⟨hb', rfl⟩⟩
            obtain ⟨g2, hb2⟩ := hb2
            rcases ih x0 b g2 hb2 with h3 | ⟨g', h3, h4⟩
            · left; rw [e, hz, abs_zero, zero_add]; exact h3
            · refine .inr ⟨g', .inr ?_, h4⟩
              rw [hz, abs_zero, add_zero]; exact h3
        · rcases hb with ⟨h1, h2⟩ | hb
          · exact .inr ⟨h0, .inl ⟨h1, rfl⟩, hz⟩
          · rcases ih _ b g hb with h3 | ⟨g', h3, h4⟩
            · left; rw [e, h3]; ring
            · exact .inr ⟨g', .inr h3, h4⟩
    intro b g hb
    rcases key segs 0 b g hb with h3 | ⟨g', h3, h4⟩
    · obtain ⟨p, h2, h5⟩ := ok.last
      exact List.mem_map.mpr ⟨p, List.mem_of_getLast? h2, by rw [h5, h3, hbl]⟩
    · obtain ⟨p, hp, hpx⟩ := ok.bounds b _ (begins_dropZero.mpr ⟨g', h3, h4, rfl⟩)
      exact List.mem_map.mpr ⟨p, hp, hpx⟩

/-- Number of grid points: at least `num + 1` and at most `num` plus the
number of segments of nonzero length. -/
theorem C28_size (s : Self) (phi : ℝ) (num : ℕ) (hn : 1 ≤ num) (segs : List Seg) (pts : List GridPt)
    (h : rasterize s phi num segs = .ok pts) :
    num + 1 ≤ pts.length ∧ pts.length ≤ num + (segs.filter fun g => g.l ≠ 0).length := by
  obtain ⟨pts', h1, ok, htot, hbl⟩ := rasterize_loop s phi hn ((C28_runs s phi num hn segs).mp ⟨pts, h⟩)
  rw [h] at h1
  obtain rfl : pts = pts' := by injection h1
  have hsum : ((dropZero segs).map fun g => g.l / beamLength segs * (num : ℝ)).sum = num := by
    have : ((dropZero segs).map fun g => g.l / beamLength segs * (num : ℝ))
        = ((dropZero segs).map Seg.l).map fun l => l * (num / beamLength segs) := by
      rw [List.map_map]
      refine List.map_congr_left fun g _ => ?_
      simp only [Function.comp]
      ring
    rw [this, List.sum_map_mul_right, List.map_id', dropZero_length]
    field_simp
  have hlow := ok.low
  have hhigh := ok.high
  rw [hsum] at hlow hhigh
  rw [← dropZero_count]
  constructor
  · exact_mod_cast hlow
  · have : pts.length < num + 1 + (dropZero segs).length := by exact_mod_cast hhigh
    omega

/-- At each grid point the vector is the solution `z` of the segment of
nonzero length that contains the point, evaluated at the distance from the
beginning of that segment. At an interior segment boundary it is the segment
to the right. -/
theorem C28_field (s : Self) (phi : ℝ) (num : ℕ) (hn : 1 ≤ num) (segs : List Seg) (pts : List GridPt)
    (h : rasterize s phi num segs = .ok pts) (p : GridPt) (hp : p ∈ pts) :
    ∃ b g, Begins 0 segs b g ∧ g.l ≠ 0 ∧ b ≤ p.x ∧ p.x ≤ b + |g.l| ∧
      (p.x < b + |g.l| ∨ p.x = beamLength segs) ∧ p.z = zsol s (p.x - b) g.C |g.l| phi g.k := by
  obtain ⟨pts', h1, ok, htot, hbl⟩ := rasterize_loop s phi hn ((C28_runs s phi num hn segs).mp ⟨pts, h⟩)
  rw [h] at h1
  obtain rfl : pts = pts' := by injection h1
  obtain ⟨b, g', k1, k2, k3, k4, k5⟩ := ok.field p hp
  obtain ⟨g, k6, k7, rfl⟩ := begins_dropZero.mp k1
  rw [hbl, zero_add] at k4
  exact ⟨b, g, k6, k7, k2, k3, k4, k5⟩

/-! ## C29 -/

/-- `xb` holds the coordinate exactly at the grid points in the closed
stretches covered by supported segments (of nonzero length), so crack tips
are kept, and NaN at all others. -/
theorem C29_mask (s : Self) (phi : ℝ) (num : ℕ) (hn : 1 ≤ num) (segs : List Seg) (pts : List GridPt)
    (h : rasterize s phi num segs = .ok pts) (p : GridPt) (hp : p ∈ pts) :
    (p.xb = some p.x ↔ ∃ b g, Begins 0 segs b g ∧ g.l ≠ 0 ∧ g.k = true ∧ b ≤ p.x ∧ p.x ≤ b + |g.l|) ∧
    (p.xb = none ↔ ¬ ∃ b g, Begins 0 segs b g ∧ g.l ≠ 0 ∧ g.k = true ∧ b ≤ p.x ∧ p.x ≤ b + |g.l|) := by
  obtain ⟨pts', h1, ok, htot, hbl⟩ := rasterize_loop s phi hn ((C28_runs s phi num hn segs).mp ⟨pts, h⟩)
  rw [h] at h1
  obtain rfl : pts = pts' := by injection h1
  have hm : p.sup = true ↔ ∃ b g, Begins 0 segs b g ∧ g.l ≠ 0 ∧ g.k = true ∧ b ≤ p.x ∧ p.x ≤ b + |g.l| := by
    rw [ok.mask p hp]
    constructor
    · rintro (⟨-, h2⟩ | ⟨b, g', k1, k2, k3, k4⟩)
      · cases h2
      · obtain ⟨g, k6, k7, rfl⟩ := begins_dropZero.mp k1
        exact ⟨b, g, k6, k7, k2, k3, k4⟩
    · rintro ⟨b, g, k1, k2, k3, k4, k5⟩
      exact .inr ⟨b, _, begins_dropZero.mpr ⟨g, k1, k2, rfl⟩, k3, k4, k5⟩
  rw [← hm]
  unfold GridPt.xb
  cases p.sup <;> simp

/-- Both ends of a crack are grid points and are kept in `xb`: wherever a
supported segment of nonzero length begins or ends, `xb` has that coordinate. -/
theorem C29_crack_tips (s : Self) (phi : ℝ) (num : ℕ) (hn : 1 ≤ num) (segs : List Seg) (pts : List GridPt)
    (h : rasterize s phi num segs = .ok pts) (b : ℝ) (g : Seg) (hb : Begins 0 segs b g) (hl : g.l ≠ 0)
    (hk : g.k = true) : some b ∈ pts.map GridPt.xb ∧ some (b + |g.l|) ∈ pts.map GridPt.xb := by
  obtain ⟨-, hlast, -, -, hbeg⟩ := C28_grid s phi num hn segs pts h
  have hend : ∀ (segs : List Seg) (x0 b : ℝ) (g : Seg), Begins x0 segs b g →
      b + |g.l| = x0 + beamLength segs ∨ ∃ g', Begins x0 segs (b + |g.l|) g' := by
    intro segs
    induction segs with
    | nil => intro x0 b g h; exact h.elim
    | cons h0 hs ih =>
      intro x0 b g hb
      have e : beamLength (h0 :: hs) = |h0.l| + beamLength hs := by simp [beamLength]
      rcases hb with ⟨rfl, rfl⟩ | hb
      · rcases hs with _ | ⟨h1, hs⟩
        · left; rw [e]; simp [beamLength]
        · exact .inr ⟨h1, .inr (.inl ⟨rfl, rfl⟩)⟩
      · rcases ih _ b g hb with h3 | ⟨g', h3⟩
        · left; rw [h3, e]; ring
        · exact .inr ⟨g', .inr h3⟩
  have hsub : ∀ x ∈ pts.map GridPt.x, b ≤ x → x ≤ b + |g.l| → some x ∈ pts.map GridPt.xb := by
    intro x hx h1 h2
    obtain ⟨p, hp, rfl⟩ := List.mem_map.mp hx
    exact List.mem_map.mpr ⟨p, hp, (C29_mask s phi num hn segs pts h p hp).1.mpr ⟨b, g, hb, hl, hk, h1, h2⟩⟩
  have hp := abs_nonneg g.l
  refine ⟨hsub b (hbeg b g hb) le_rfl (by linarith), hsub _ ?_ (by linarith) le_rfl⟩
  rcases hend segs 0 b g hb with h3 | ⟨g', h3⟩
  · obtain ⟨p, h2, h5⟩ := hlast
    exact List.mem_map.mpr ⟨p, List.mem_of_getLast? h2, by rw [h5, h3]; ring⟩
  · exact hbeg _ g' h3

/-! ## A concrete grid

A 10 mm supported stretch, a segment of length zero and a 5 mm crack, `num = 2`. -/

/-- Three segments, the middle one of length zero. -/
def gridDemo : List Seg := [⟨0, true, 10⟩, ⟨0, true, 0⟩, ⟨0, false, 5⟩]

theorem gridDemo_pts (s : Self) (phi : ℝ) : ∃ pts, rasterize s phi 2 gridDemo = .ok pts ∧
    pts.map GridPt.x = [0, 5, 10, 15] ∧ pts.map GridPt.xb = [some 0, some 5, some 10, none] := by
  have hd : dropZero gridDemo = [⟨0, true, 10⟩, ⟨0, false, 5⟩] := by
    unfold gridDemo
    rw [dropZero_cons, if_neg (by norm_num), dropZero_cons, if_pos rfl, dropZero_cons, if_neg (by norm_num)]
    simp [dropZero]
  have c1 : ⌈(10 : ℝ) / 15 * ((2 : ℕ) : ℝ)⌉₊ = 2 := by
    rw [Nat.ceil_eq_iff (by norm_num)]; norm_num
  have c2 : ⌈(5 : ℝ) / 15 * ((2 : ℕ) : ℝ)⌉₊ = 1 := by
    rw [Nat.ceil_eq_iff (by norm_num)]; norm_num
  refine ⟨_, by unfold rasterize; rw [hd], ?_, ?_⟩
  all_goals
    have ht : (([⟨0, true, 10⟩, ⟨0, false, 5⟩] : List Seg).map Seg.l).sum = 15 := by norm_num
    rw [ht]
    simp only [rasterLoop, segPts_eq, nqOf, stepOf, List.isEmpty_cons, List.isEmpty_nil, c1, c2, List.append_nil]
    simp [List.range_succ, GridPt.xb, headMask]
    norm_num

example : ∃ g ∈ gridDemo, g.l ≠ 0 := ⟨⟨0, true, 10⟩, by simp [gridDemo], by norm_num⟩

example : Begins 0 gridDemo 10 ⟨0, false, 5⟩ := by
  refine .inr (.inr (.inl ⟨?_, rfl⟩))
  norm_num

end Weac
