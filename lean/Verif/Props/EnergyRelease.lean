import Mathlib.Data.List.GetD
import Verif.Model.Analysis
import Verif.Props.SolveDemo

/-!
# C30: differential energy release rate
-/

namespace Weac

/-! ## Specification -/

/-- Segment `i` of a chain with supports `ki` exists and is supported. -/
def Spec.SupportedAt (ki : List Bool) (i : ℕ) : Prop := ki[i]? = some true

/-- The unsupported segment `f` belongs to a centre crack: there is support on
both sides of it. -/
def Spec.CentreCrack (ki : List Bool) (f : ℕ) : Prop :=
  (∃ i < f, SupportedAt ki i) ∧ ∃ i > f, SupportedAt ki i

/-- Between segments `j` and `j + 1` support changes. -/
def Spec.CrackTip (ki : List Bool) (j : ℕ) : Prop := j + 1 < ki.length ∧ ki[j]? ≠ ki[j + 1]?

/-- The unsupported segment at the tip between `j` and `j + 1`. -/
def Spec.freeSide (ki : List Bool) (j : ℕ) : ℕ := if ki[j]? = some true then j + 1 else j

open Classical in
/-- Weight of a tip: the two tips of a centre crack share the crack advance. -/
noncomputable def Spec.tipWeight (ki : List Bool) (j : ℕ) : ℝ :=
  if CentreCrack ki (freeSide ki j) then 1 / 2 else 1

open Classical in
/-- Weighted sum of a rate over all crack tips. -/
noncomputable def Spec.tipSum (ki : List Bool) (rate : ℕ → ℝ) : ℝ :=
  ∑ j ∈ Finset.range ki.length, if CrackTip ki j then tipWeight ki j * rate j else 0

open Spec

/-! ## Crack tips of a support pattern -/

theorem mem_tipIndices {ki : List Bool} {j : ℕ} : j ∈ tipIndices ki ↔ CrackTip ki j := by
  unfold tipIndices CrackTip
  rw [List.mem_filter, List.mem_range]
  constructor
  · rintro ⟨h1, h2⟩
    refine ⟨by omega, ?_⟩
    rw [List.getD_eq_getElem _ _ (by omega), List.getD_eq_getElem _ _ (by omega)] at h2
    rw [List.getElem?_eq_getElem (by omega), List.getElem?_eq_getElem (by omega)]
    simpa using h2
  · rintro ⟨h1, h2⟩
    refine ⟨by omega, ?_⟩
    rw [List.getD_eq_getElem _ _ (by omega), List.getD_eq_getElem _ _ (by omega)]
    rw [List.getElem?_eq_getElem (by omega), List.getElem?_eq_getElem (by omega)] at h2
    simpa using h2

theorem tipIndices_sorted (ki : List Bool) : (tipIndices ki).Pairwise (· < ·) :=
  List.Pairwise.filter _ List.pairwise_lt_range

/-- Without a tip in `[a, b)` the support does not change from `a` to `b`. -/
theorem const_of_no_tip {ki : List Bool} {a b : ℕ} (hb : b < ki.length)
    (h : ∀ j, a ≤ j → j < b → ¬ CrackTip ki j) : ∀ i, a ≤ i → i ≤ b → ki[i]? = ki[a]? := by
  intro i hi
  induction i, hi using Nat.le_induction with
  | base => intro _; rfl
  | succ i hi ih =>
    intro hib
    have := h i hi (by omega)
    unfold CrackTip at this
    push Not at this
    rw [← this (by omega), ih (by omega)]

/-- With a tip in `[a, b)` some segment in `[a, b]` is supported. -/
theorem supported_of_tip {ki : List Bool} {a b j : ℕ} (h1 : a ≤ j) (h2 : j < b) (ht : CrackTip ki j) :
    ∃ i, a ≤ i ∧ i ≤ b ∧ SupportedAt ki i := by
  obtain ⟨hl, hn⟩ := ht
  rw [List.getElem?_eq_getElem (by omega), List.getElem?_eq_getElem (by omega)] at hn
  rcases h : ki[j] with _ | _
  · rcases h' : ki[j + 1] with _ | _
    · rw [h, h'] at hn; exact absurd rfl hn
    · exact ⟨j + 1, by omega, by omega, by unfold SupportedAt; rw [List.getElem?_eq_getElem (by omega), h']⟩
  · exact ⟨j, by omega, by omega, by unfold SupportedAt; rw [List.getElem?_eq_getElem (by omega), h]⟩

/-- The weights of the code are those of the specification. -/
theorem weight_eq (ki : List Bool) (r : ℕ) (hr : r < (tipIndices ki).length) :
    (if 1 < (tipIndices ki).length ∧ avgMask ki (tipIndices ki).length r = true then (0.5 : ℝ) else 1)
      = tipWeight ki ((tipIndices ki)[r]) := by
  set T := tipIndices ki with hT
  set j := T[r] with hj
  have htip : CrackTip ki j := mem_tipIndices.mp (hT ▸ List.getElem_mem hr)
  have hlen := htip.1
  have hsort := tipIndices_sorted ki
  rw [← hT] at hsort
  -- position in the list of tips and existence of tips to the left and right
  have hleft : (∃ j' < j, CrackTip ki j') ↔ r ≠ 0 := by
    constructor
    · rintro ⟨j', h1, h2⟩ rfl
      obtain ⟨r', hr', rfl⟩ := List.getElem_of_mem (hT ▸ mem_tipIndices.mpr h2)
      rcases Nat.eq_zero_or_pos r' with h0 | h0
      · subst h0; omega
      · have := List.pairwise_iff_getElem.mp hsort 0 r' hr hr' h0
        omega
    · intro h0
      refine ⟨T[0], List.pairwise_iff_getElem.mp hsort 0 r (by omega) hr (by omega), mem_tipIndices.mp (List.getElem_mem (l := tipIndices ki) _)⟩
  have hright : (∃ j' > j, CrackTip ki j') ↔ r ≠ T.length - 1 := by
    constructor
    · rintro ⟨j', h1, h2⟩ h0
      obtain ⟨r', hr', rfl⟩ := List.getElem_of_mem (hT ▸ mem_tipIndices.mpr h2)
      rcases Nat.lt_or_ge r' r with h3 | h3
      · have := List.pairwise_iff_getElem.mp hsort r' r hr' hr h3
        omega
      · have : r' = r := by omega
        subst this; omega
    · intro h0
      exact ⟨T[r + 1], List.pairwise_iff_getElem.mp hsort r (r + 1) hr (by omega) (by omega),
        mem_tipIndices.mp (List.getElem_mem (l := tipIndices ki) _)⟩
  have hd : ∀ i < ki.length, ∀ b, ki.getD i false = b ↔ ki[i]? = some b := by
    intro i hi b
    rw [List.getD_eq_getElem _ _ hi, List.getElem?_eq_getElem hi]; simp
  have hne := htip.2
  have h0 : r = 0 → ki[0]? = ki[j]? := by
    intro h
    have hn : ¬ ∃ j' < j, CrackTip ki j' := fun h' => hleft.mp h' h
    push Not at hn
    exact (const_of_no_tip (a := 0) (b := j) (by omega) (fun i _ hi => hn i hi) j (by omega) le_rfl).symm
  have h1 : r = T.length - 1 → ∀ i, j + 1 ≤ i → i < ki.length → ki[i]? = ki[j + 1]? := by
    intro h i hi hil
    have hn : ¬ ∃ j' > j, CrackTip ki j' := fun h' => hright.mp h' h
    push Not at hn
    exact const_of_no_tip (a := j + 1) (b := ki.length - 1) (by omega)
      (fun i hi _ => hn i (by omega)) i hi (by omega)
  have hiff : (1 < T.length ∧ avgMask ki T.length r = true) ↔ CentreCrack ki (freeSide ki j) := by
    unfold freeSide
    rcases hk : ki[j]'(by omega) with _ | _
    · -- free on the left
      have e : ki[j]? = some false := by rw [List.getElem?_eq_getElem (by omega), hk]
      have e' : ki[j + 1]? = some true := by
        rw [List.getElem?_eq_getElem hlen]
        rcases h : ki[j + 1] with _ | _
        · rw [e, List.getElem?_eq_getElem hlen, h] at hne; exact absurd rfl hne
        · rfl
      rw [e, if_neg (by simp)]
      have hR : ∃ i > j, SupportedAt ki i := ⟨j + 1, by omega, e'⟩
      unfold CentreCrack
      rw [and_iff_left hR]
      by_cases hr0 : r = 0
      · have hc : ¬ ∃ i < j, SupportedAt ki i := by
          rintro ⟨i, hi, hs⟩
          have hn : ¬ ∃ j' < j, CrackTip ki j' := fun h' => hleft.mp h' hr0
          push Not at hn
          have c1 := const_of_no_tip (a := 0) (b := j) (by omega) (fun i _ hi => hn i hi) i (by omega) (by omega)
          rw [hs, h0 hr0, e] at c1
          simp at c1
        rw [iff_false_right hc]
        rintro ⟨hlt, hm⟩
        unfold avgMask at hm
        rw [if_neg (by omega), if_pos hr0, hd 0 (by omega), h0 hr0, e] at hm
        simp at hm
      · obtain ⟨j', hj', ht'⟩ := hleft.mpr hr0
        have hc : ∃ i < j, SupportedAt ki i := by
          obtain ⟨i, -, hi2, hs⟩ := supported_of_tip (a := 0) (b := j) (by omega) hj' ht'
          rcases Nat.lt_or_ge i j with h | h
          · exact ⟨i, h, hs⟩
          · have : i = j := by omega
            subst this
            unfold SupportedAt at hs; rw [e] at hs; simp at hs
        rw [iff_true_right hc]
        refine ⟨by omega, ?_⟩
        unfold avgMask
        by_cases hrl : r = T.length - 1
        · rw [if_pos hrl, hd _ (by omega), h1 hrl _ (by omega) (by omega), e']
        · rw [if_neg hrl, if_neg hr0]
    · -- free on the right
      have e : ki[j]? = some true := by rw [List.getElem?_eq_getElem (by omega), hk]
      have e' : ki[j + 1]? = some false := by
        rw [List.getElem?_eq_getElem hlen]
        rcases h : ki[j + 1] with _ | _
        · rfl
        · rw [e, List.getElem?_eq_getElem hlen, h] at hne; exact absurd rfl hne
      rw [if_pos e]
      have hL : ∃ i < j + 1, SupportedAt ki i := ⟨j, by omega, e⟩
      unfold CentreCrack
      rw [and_iff_right hL]
      by_cases hrl : r = T.length - 1
      · have hc : ¬ ∃ i > j + 1, SupportedAt ki i := by
          rintro ⟨i, hi, hs⟩
          have hil : i < ki.length := by
            by_contra hh
            unfold SupportedAt at hs
            rw [List.getElem?_eq_none (by omega)] at hs
            simp at hs
          have := h1 hrl i (by omega) hil
          rw [hs, e'] at this
          simp at this
        rw [iff_false_right hc]
        rintro ⟨hlt, hm⟩
        unfold avgMask at hm
        rw [if_pos hrl, hd _ (by omega), h1 hrl _ (by omega) (by omega), e'] at hm
        simp at hm
      · obtain ⟨j', hj', ht'⟩ := hright.mpr hrl
        have hc : ∃ i > j + 1, SupportedAt ki i := by
          obtain ⟨i, hi1, -, hs⟩ := supported_of_tip (a := j + 1) (b := j' + 1) (by omega) (by omega) ht'
          rcases Nat.lt_or_ge (j + 1) i with h | h
          · exact ⟨i, h, hs⟩
          · have : i = j + 1 := by omega
            subst this
            unfold SupportedAt at hs; rw [e'] at hs; simp at hs
        rw [iff_true_right hc]
        refine ⟨by omega, ?_⟩
        unfold avgMask
        rw [if_neg hrl]
        by_cases hr0 : r = 0
        · rw [if_pos hr0, hd 0 (by omega), h0 hr0, e]
        · rw [if_neg hr0]
  unfold tipWeight
  by_cases hc : CentreCrack ki (freeSide ki j)
  · rw [if_pos (hiff.mpr hc), if_pos hc]; norm_num
  · rw [if_neg (fun h => hc (hiff.mp h)), if_neg hc]

/-- A sum over the list of tips is a sum over all transitions. -/
theorem sum_tips (ki : List Bool) (f : ℕ → ℝ) :
    open Classical in ((tipIndices ki).map f).sum = ∑ j ∈ Finset.range ki.length, if CrackTip ki j then f j else 0 := by
  classical
  have hnd : (tipIndices ki).Nodup := (tipIndices_sorted ki).imp (fun h => ne_of_lt h)
  rw [← Finset.sum_filter, ← List.sum_toFinset f hnd]
  refine Finset.sum_congr ?_ fun _ _ => rfl
  ext j
  rw [List.mem_toFinset, mem_tipIndices, Finset.mem_filter, Finset.mem_range]
  exact ⟨fun h => ⟨by have := h.1; omega, h⟩, fun h => h.2⟩

theorem mapM_ok {α β : Type} {f : α → Res β} {g : α → β} : ∀ (l : List α), (∀ x ∈ l, f x = .ok (g x)) →
    l.mapM f = .ok (l.map g) := by
  intro l
  induction l with
  | nil => intro _; rfl
  | cons a l ih =>
    intro h
    rw [List.mapM_cons, h a (by simp), ih (fun x hx => h x (List.mem_cons_of_mem _ hx))]
    rfl

theorem mapIdx_sum (T : List ℕ) (w : ℕ → ℝ) (w' : ℕ → ℝ) (f : ℕ → ℝ)
    (h : ∀ r (hr : r < T.length), w r = w' T[r]) :
    ((T.map f).mapIdx fun r v => w r * v).sum = (T.map fun j => w' j * f j).sum := by
  congr 1
  apply List.ext_getElem
  · simp
  · intro i h1 h2
    simp only [List.getElem_mapIdx, List.getElem_map]
    rw [h]

/-! ## C30 -/

/-- Rates at the right end of segment `j`. -/
noncomputable def Spec.endState (s : Self) (phi : ℝ) (segs : List Seg) (j : ℕ) : Vec6 :=
  let g := segs.getD j ⟨0, false, 0⟩
  zsol s g.l g.C g.l phi g.k

/-- `gdif` returns the sums over all crack tips, each tip of a centre crack
counting half and each tip of an edge crack counting fully: mode I from the
normal stress, mode II from the shear stress at the tip, and their total. -/
theorem C30_gdif (s : Self) (phi : ℝ) (segs : List Seg) (unit : String) (c : ℝ) (hc : convertEnergy unit = .ok c) :
    gdif s phi segs unit true = .ok
      (c * (tipSum (segs.map Seg.k) (fun j => (s.kn * endState s phi segs j 2) ^ 2 / (2 * s.kn))
          + tipSum (segs.map Seg.k) (fun j => s.beam.tau (endState s phi segs j) ^ 2 / (2 * s.kt))),
        c * tipSum (segs.map Seg.k) (fun j => (s.kn * endState s phi segs j 2) ^ 2 / (2 * s.kn)),
        c * tipSum (segs.map Seg.k) (fun j => s.beam.tau (endState s phi segs j) ^ 2 / (2 * s.kt))) := by
  set ki := segs.map Seg.k with hki
  set R1 : ℕ → ℝ := fun j => (s.kn * endState s phi segs j 2) ^ 2 / (2 * s.kn)
  set R2 : ℕ → ℝ := fun j => s.beam.tau (endState s phi segs j) ^ 2 / (2 * s.kt)
  have hGi : ∀ Z, fGiU s Z unit = .ok (c * ((s.kn * Z 2) ^ 2 / (2 * s.kn))) := by
    intro Z
    unfold fGiU
    rw [hc]
    show Except.ok _ = _
    congr 1
    simp only [fsig, fw]; ring
  have hGii : ∀ Z, fGiiU s Z unit = .ok (c * (s.beam.tau Z ^ 2 / (2 * s.kt))) := by
    intro Z
    unfold fGiiU
    rw [hc]
    show Except.ok _ = _
    congr 1
    rw [(C09_field_quantities s Z).2.2.2.1]; ring
  unfold gdif
  rw [mapM_ok (g := fun j => ((c * R1 j + c * R2 j, c * R1 j, c * R2 j) : ℝ × ℝ × ℝ)) (tipIndices (segs.map Seg.k)) (by
    intro j _
    show (fGiU s (endState s phi segs j) unit >>= fun gi => fGiiU s (endState s phi segs j) unit >>= fun gii =>
      pure (gi + gii, gi, gii)) = _
    rw [hGi, hGii]; rfl)]
  show (averageTips _ true _ >>= fun G => _) = _
  rw [← hki]
  set T := tipIndices ki with hT
  set w : ℕ → ℝ := fun r => if 1 < T.length ∧ avgMask ki T.length r = true then (0.5 : ℝ) else 1 with hw
  have hsum : ∀ f : ℕ → ℝ, ((T.map f).mapIdx fun r v => w r * v).sum = tipSum ki f := by
    intro f
    rw [mapIdx_sum T w (tipWeight ki) f (fun r hr => weight_eq ki r hr), sum_tips ki (fun j => tipWeight ki j * f j)]
    rfl
  have hlist : ∀ (f : ℕ → ℝ × ℝ × ℝ) (π : ℝ × ℝ × ℝ → ℝ) (hπ : ∀ v : ℝ × ℝ × ℝ, π (0.5 * v.1, 0.5 * v.2.1, 0.5 * v.2.2) = 0.5 * π v),
      1 < T.length → (((T.map f).mapIdx fun j v => if avgMask ki T.length j then (0.5 * v.1, 0.5 * v.2.1, 0.5 * v.2.2) else v).map π).sum
        = ((T.map fun j => π (f j)).mapIdx fun r v => w r * v).sum := by
    intro f π hπ hlt
    congr 1
    apply List.ext_getElem
    · simp
    · intro i h1 h2
      simp only [List.getElem_map, List.getElem_mapIdx, hw, hlt, true_and]
      by_cases hm : avgMask ki T.length i = true
      · rw [if_pos hm, if_pos hm, hπ]
      · rw [if_neg hm, if_neg hm, one_mul]
  have hlist1 : ∀ (f : ℕ → ℝ × ℝ × ℝ) (π : ℝ × ℝ × ℝ → ℝ), ¬ 1 < T.length →
      ((T.map f).map π).sum = ((T.map fun j => π (f j)).mapIdx fun r v => w r * v).sum := by
    intro f π hlt
    congr 1
    apply List.ext_getElem
    · simp
    · intro i h1 h2
      simp [hw, hlt]
  have hlin : ∀ f : ℕ → ℝ, tipSum ki (fun j => c * f j) = c * tipSum ki f := by
    intro f
    unfold tipSum
    rw [Finset.mul_sum]
    refine Finset.sum_congr rfl fun j _ => ?_
    split_ifs <;> ring
  have hadd : ∀ f g : ℕ → ℝ, tipSum ki (fun j => f j + g j) = tipSum ki f + tipSum ki g := by
    intro f g
    unfold tipSum
    rw [← Finset.sum_add_distrib]
    refine Finset.sum_congr rfl fun j _ => ?_
    split_ifs <;> ring
  have fin : ∀ a b d : ℝ, a = tipSum ki (fun j => c * R1 j + c * R2 j) → b = tipSum ki (fun j => c * R1 j) →
      d = tipSum ki (fun j => c * R2 j) →
      (Except.ok (a, b, d) : Res (ℝ × ℝ × ℝ)) = .ok (c * (tipSum ki R1 + tipSum ki R2), c * tipSum ki R1, c * tipSum ki R2) := by
    intro a b d h1 h2 h3
    rw [h1, h2, h3, hadd, hlin, hlin]
    congr 2; ring
  unfold averageTips
  rw [List.length_map]
  by_cases hlt : 1 < T.length
  · rw [if_pos hlt, if_pos rfl]
    show Except.ok _ = _
    apply fin
    · rw [hlist _ (fun v => v.1) (fun _ => rfl) hlt, hsum]
    · rw [hlist _ (fun v => v.2.1) (fun _ => rfl) hlt, hsum]
    · rw [hlist _ (fun v => v.2.2) (fun _ => rfl) hlt, hsum]
  · rw [if_neg hlt]
    show Except.ok _ = _
    apply fin
    · rw [hlist1 _ (fun v => v.1) hlt, hsum]
    · rw [hlist1 _ (fun v => v.2.1) hlt, hsum]
    · rw [hlist1 _ (fun v => v.2.2) hlt, hsum]

theorem tipSum_nonneg (ki : List Bool) (f : ℕ → ℝ) (h : ∀ j, 0 ≤ f j) : 0 ≤ tipSum ki f := by
  unfold tipSum
  refine Finset.sum_nonneg fun j _ => ?_
  split_ifs
  · have : 0 ≤ tipWeight ki j := by unfold tipWeight; split_ifs <;> norm_num
    exact mul_nonneg this (h j)
  · exact le_rfl

theorem convertEnergy_pos {unit : String} {c : ℝ} (h : convertEnergy unit = .ok c) : 0 < c := by
  unfold convertEnergy at h
  split_ifs at h <;> · injection h with h; rw [← h]; norm_num

/-- Every entry is non-negative and the first is the sum of the other two. -/
theorem C30_nonneg (s : Self) (hn : 0 < s.kn) (ht : 0 < s.kt) (phi : ℝ) (segs : List Seg) (unit : String)
    (G : ℝ × ℝ × ℝ) (h : gdif s phi segs unit true = .ok G) :
    0 ≤ G.1 ∧ 0 ≤ G.2.1 ∧ 0 ≤ G.2.2 ∧ G.1 = G.2.1 + G.2.2 := by
  by_cases hT : tipIndices (segs.map Seg.k) = []
  · unfold gdif at h
    rw [hT] at h
    have : G = (0, 0, 0) := by
      have : (Except.ok ((0 : ℝ), (0 : ℝ), (0 : ℝ)) : Res _) = .ok G := h
      injection this with this
      exact this.symm
    rw [this]; simp
  · rcases hc : convertEnergy unit with e | c
    · exfalso
      obtain ⟨j, T, hj⟩ := List.exists_cons_of_ne_nil hT
      unfold gdif at h
      have : ∀ Z, fGiU s Z unit = .error e := by intro Z; unfold fGiU; rw [hc]; rfl
      have h2 : ∀ j, tipRate s phi segs unit j = .error e := by
        intro j
        show (fGiU s (endState s phi segs j) unit >>= fun gi => fGiiU s (endState s phi segs j) unit >>= fun gii =>
          pure (gi + gii, gi, gii)) = _
        rw [this]; rfl
      rw [hj, List.mapM_cons, h2] at h
      cases h
    · have hp := convertEnergy_pos hc
      rw [C30_gdif s phi segs unit c hc] at h
      injection h with h
      rw [← h]
      have h1 := tipSum_nonneg (segs.map Seg.k) (fun j => (s.kn * endState s phi segs j 2) ^ 2 / (2 * s.kn)) (fun j => by positivity)
      have h2 := tipSum_nonneg (segs.map Seg.k) (fun j => s.beam.tau (endState s phi segs j) ^ 2 / (2 * s.kt)) (fun j => by positivity)
      refine ⟨?_, ?_, ?_, ?_⟩
      · exact mul_nonneg hp.le (add_nonneg h1 h2)
      · exact mul_nonneg hp.le h1
      · exact mul_nonneg hp.le h2
      · exact mul_add _ _ _

/-- Without a crack tip the rates are zero, whatever the unit argument. -/
theorem C30_no_tip (s : Self) (phi : ℝ) (segs : List Seg) (unit : String) (arr : Bool)
    (h : ∀ j, ¬ CrackTip (segs.map Seg.k) j) : gdif s phi segs unit arr = .ok (0, 0, 0) := by
  have hT : tipIndices (segs.map Seg.k) = [] := by
    rw [List.eq_nil_iff_forall_not_mem]
    intro j hj
    exact h j (mem_tipIndices.mp hj)
  unfold gdif
  rw [hT]
  rfl

theorem tipSum_single {ki : List Bool} {j : ℕ} (h : ∀ i, CrackTip ki i ↔ i = j) (f : ℕ → ℝ) : tipSum ki f = f j := by
  have hj := (h j).mpr rfl
  have hw : tipWeight ki j = 1 := by
    have hT : tipIndices ki = [j] := by
      have hmem : ∀ i, i ∈ tipIndices ki ↔ i = j := fun i => mem_tipIndices.trans (h i)
      have hnd : (tipIndices ki).Nodup := (tipIndices_sorted ki).imp (fun h => ne_of_lt h)
      have : (tipIndices ki).Perm [j] := (List.perm_ext_iff_of_nodup hnd (by simp)).mpr (by simpa using hmem)
      exact List.perm_singleton.mp this
    have := weight_eq ki 0 (by rw [hT]; simp)
    simp only [hT] at this
    rw [if_neg (by simp)] at this
    simpa using this.symm
  unfold tipSum
  rw [Finset.sum_eq_single j]
  · rw [if_pos hj, hw, one_mul]
  · intro i _ hi
    rw [if_neg (fun hc => hi ((h i).mp hc))]
  · intro hn
    exact absurd (Finset.mem_range.mpr (by have := hj.1; omega)) hn

/-- One edge crack: the rates are those of its only tip. -/
theorem C30_edge_crack (s : Self) (phi : ℝ) (segs : List Seg) (j : ℕ)
    (h : ∀ i, CrackTip (segs.map Seg.k) i ↔ i = j) :
    gdif s phi segs "kJ/m^2" true = .ok (fGi s (endState s phi segs j) + fGii s (endState s phi segs j),
      fGi s (endState s phi segs j), fGii s (endState s phi segs j)) := by
  rw [C30_gdif s phi segs "kJ/m^2" 1 (by unfold convertEnergy; rw [if_neg (by decide), if_pos rfl]),
    tipSum_single h, tipSum_single h]
  have e1 : fGi s (endState s phi segs j) = (s.kn * endState s phi segs j 2) ^ 2 / (2 * s.kn) := by
    simp only [fGi, fsig, fw]; ring
  have e2 : fGii s (endState s phi segs j) = s.beam.tau (endState s phi segs j) ^ 2 / (2 * s.kt) := by
    rw [fGii, (C09_field_quantities s _).2.2.2.1, one_mul]
  rw [e1, e2, one_mul, one_mul, one_mul]

/-- One centre crack: the rates are the mean of its two tips. -/
theorem C30_centre_crack (s : Self) (phi : ℝ) (segs : List Seg) (i j : ℕ) (hij : i < j)
    (hs : SupportedAt (segs.map Seg.k) i) (h : ∀ m, CrackTip (segs.map Seg.k) m ↔ m = i ∨ m = j) :
    gdif s phi segs "kJ/m^2" true = .ok
      ((fGi s (endState s phi segs i) + fGi s (endState s phi segs j)) / 2
          + (fGii s (endState s phi segs i) + fGii s (endState s phi segs j)) / 2,
        (fGi s (endState s phi segs i) + fGi s (endState s phi segs j)) / 2,
        (fGii s (endState s phi segs i) + fGii s (endState s phi segs j)) / 2) := by
  set ki := segs.map Seg.k with hki
  have hi := (h i).mpr (.inl rfl)
  have hj := (h j).mpr (.inr rfl)
  have hsi : ki[i]? = some true := hs
  have flip : ∀ {m : ℕ} {b : Bool}, CrackTip ki m → ki[m]? = some b → ki[m + 1]? = some (!b) := by
    intro m b hm hb
    rw [List.getElem?_eq_getElem hm.1]
    have := hm.2
    rw [hb, List.getElem?_eq_getElem hm.1] at this
    rcases h' : ki[m + 1]'hm.1 with _ | _ <;> rw [h'] at this <;> cases b <;> simp_all
  have hi1 : ki[i + 1]? = some false := flip hi hsi
  have hjf : ki[j]? = some false := by
    rw [← hi1]
    refine const_of_no_tip (a := i + 1) (b := j) (by have := hj.1; omega) ?_ j (by omega) le_rfl
    intro m h1 h2 hm
    rcases (h m).mp hm with h3 | h3 <;> omega
  have hj1 : ki[j + 1]? = some true := flip hj hjf
  have w1 : tipWeight ki i = 1 / 2 := by
    unfold tipWeight freeSide
    rw [if_pos hsi, if_pos ⟨⟨i, by omega, hsi⟩, ⟨j + 1, by omega, hj1⟩⟩]
  have w2 : tipWeight ki j = 1 / 2 := by
    unfold tipWeight freeSide
    rw [if_neg (c := ki[j]? = some true) (by rw [hjf]; simp), if_pos ⟨⟨i, hij, hsi⟩, ⟨j + 1, by omega, hj1⟩⟩]
  have hsum : ∀ f : ℕ → ℝ, tipSum ki f = (f i + f j) / 2 := by
    intro f
    unfold tipSum
    rw [Finset.sum_eq_add_of_mem i j (Finset.mem_range.mpr (by have := hi.1; omega))
      (Finset.mem_range.mpr (by have := hj.1; omega)) (by omega)]
    · rw [if_pos hi, if_pos hj, w1, w2]; ring
    · rintro m - ⟨h1, h2⟩
      rw [if_neg (fun hc => by rcases (h m).mp hc with h3 | h3 <;> contradiction)]
  have e1 : ∀ Z, fGi s Z = (s.kn * Z 2) ^ 2 / (2 * s.kn) := by
    intro Z; simp only [fGi, fsig, fw]; ring
  have e2 : ∀ Z, fGii s Z = s.beam.tau Z ^ 2 / (2 * s.kt) := by
    intro Z; rw [fGii, (C09_field_quantities s _).2.2.2.1, one_mul]
  rw [C30_gdif s phi segs "kJ/m^2" 1 (by unfold convertEnergy; rw [if_neg (by decide), if_pos rfl]), ← hki, hsum, hsum]
  simp only [e1, e2, one_mul]

/-- With a crack tip, an unknown unit raises `KeyError`; `ki` given as a list
raises `TypeError` as soon as there are two tips. -/
theorem C30_errors (s : Self) (phi : ℝ) (segs : List Seg) (unit : String) (arr : Bool) (j : ℕ)
    (hj : CrackTip (segs.map Seg.k) j) :
    (unit ∉ ["J/m^2", "kJ/m^2", "N/mm"] → gdif s phi segs unit arr = .error .keyError) ∧
    (unit ∈ ["J/m^2", "kJ/m^2", "N/mm"] → (∃ i ≠ j, CrackTip (segs.map Seg.k) i) →
      gdif s phi segs unit false = .error .typeError) := by
  constructor
  · intro hu
    have hc : convertEnergy unit = .error .keyError := by
      unfold convertEnergy
      simp only [List.mem_cons, List.not_mem_nil, or_false, not_or] at hu
      rw [if_neg hu.1, if_neg hu.2.1, if_neg hu.2.2]
    have h2 : ∀ j, tipRate s phi segs unit j = .error .keyError := by
      intro j
      show (fGiU s (endState s phi segs j) unit >>= fun gi => fGiiU s (endState s phi segs j) unit >>= fun gii =>
        pure (gi + gii, gi, gii)) = _
      unfold fGiU
      rw [hc]; rfl
    obtain ⟨i, T, hT⟩ := List.exists_cons_of_ne_nil (List.ne_nil_of_mem (mem_tipIndices.mpr hj))
    unfold gdif
    rw [hT, List.mapM_cons, h2]
    rfl
  · rintro hu ⟨i, hij, hi⟩
    obtain ⟨c, hc⟩ : ∃ c, convertEnergy unit = .ok c := by
      unfold convertEnergy
      simp only [List.mem_cons, List.not_mem_nil, or_false] at hu
      split_ifs with h1 h2 h3
      · exact ⟨_, rfl⟩
      · exact ⟨_, rfl⟩
      · exact ⟨_, rfl⟩
      · tauto
    have h2 : ∀ j, ∃ v, tipRate s phi segs unit j = .ok v := by
      intro j
      refine ⟨(c * fsig s (endState s phi segs j) ^ 2 / (2 * s.kn) + c * ftau s (endState s phi segs j) ^ 2 / (2 * s.kt), c * fsig s (endState s phi segs j) ^ 2 / (2 * s.kn), c * ftau s (endState s phi segs j) ^ 2 / (2 * s.kt)), ?_⟩
      show (fGiU s (endState s phi segs j) unit >>= fun gi => fGiiU s (endState s phi segs j) unit >>= fun gii =>
        pure (gi + gii, gi, gii)) = _
      unfold fGiU fGiiU
      rw [hc]; rfl
    choose v hv using h2
    unfold gdif
    rw [mapM_ok (g := v) _ (fun j _ => hv j)]
    show (averageTips _ false _ >>= fun G => _) = _
    unfold averageTips
    have hlt : 1 < ((tipIndices (segs.map Seg.k)).map v).length := by
      rw [List.length_map]
      by_contra hcon
      have hi' := mem_tipIndices.mpr hi
      have hj' := mem_tipIndices.mpr hj
      rcases hT : tipIndices (segs.map Seg.k) with _ | ⟨a, _ | ⟨b, T⟩⟩
      · rw [hT] at hi'; simp at hi'
      · rw [hT] at hi' hj'
        simp only [List.mem_singleton] at hi' hj'
        exact hij (hi'.trans hj'.symm)
      · rw [hT] at hcon; simp at hcon
    rw [if_pos hlt]
    rfl

/-- The rate at a tip may be evaluated from either side: if the two segments
are joined without a point load in normal direction, both give the same
stresses, hence the same rates. -/
theorem C30_either_side (s : Self) (hk : s.kA55 ≠ 0) (F : ℝ × ℝ × ℝ) (hF : F.2.2 = 0) (zl zr : Vec6)
    (h : Transmission s.beam F zl zr) : fGi s zl = fGi s zr ∧ fGii s zl = fGii s zr := by
  have hV := h.V
  rw [hF] at hV
  simp only [Beam.V, Self.beam] at hV
  have h3 : zl 3 = zr 3 := by
    have : s.kA55 * (zl 3 - zr 3) = 0 := by rw [h.psi] at hV; linarith
    rcases mul_eq_zero.mp this with h0 | h0
    · exact absurd h0 hk
    · linarith
  constructor
  · simp only [fGi, fsig, fw, h.w]
  · simp only [fGii, ftau, fdw, fu, fpsi, h.u, h.psi, h3]

/-! ## Concrete cases -/

/-- Pattern of a centre crack: two tips. -/
example : ∀ m, CrackTip [true, true, false, true] m ↔ m = 1 ∨ m = 2 := by
  intro m
  unfold CrackTip
  rcases m with _ | _ | _ | m <;> simp

/-- A saw-cut from the right: one tip. -/
example (C : Vec6) (l a : ℝ) : ∀ m, CrackTip (([⟨C, true, l⟩, ⟨C, false, a⟩] : List Seg).map Seg.k) m ↔ m = 0 := by
  intro m
  unfold CrackTip
  rcases m with _ | m <;> simp

/-- Two edge cracks: both tips count fully. -/
example : tipWeight [false, true, false] 0 = 1 ∧ tipWeight [false, true, false] 1 = 1 := by
  constructor
  · unfold tipWeight freeSide
    rw [if_neg]
    rintro ⟨⟨i, hi, -⟩, -⟩
    simp at hi
  · unfold tipWeight freeSide
    rw [if_neg]
    rintro ⟨-, i, hi, hs⟩
    rcases i with _ | _ | _ | i
    · simp at hi
    · simp at hi
    · simp [SupportedAt] at hs
    · simp [SupportedAt] at hs

end Weac
