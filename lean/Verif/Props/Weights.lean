import Verif.Lemmas.Weights
import Verif.Props.Loads

/-!
# C80: more weight pushes the slab further down

Two solutions for the same segmentation, inclination and touchdown stage that
differ in the weights on the slab. The changes of the weights and the changes
of the displacements of the loaded points of the surface, in the direction of
gravity, have a non-negative scalar product, which is positive unless all
weights are equal. A heavier skier sinks deeper under their own feet.
-/

namespace Weac

open Spec

/-- Displacement in the direction of gravity of the point of the surface between
segments `i` and `i + 1`. -/
noncomputable def Spec.sinkAt (s : Self) (phi : ℝ) (li : List ℝ) (ki : List Bool) (C : List Vec6) (i : ℕ) : ℝ :=
  let z := zsol s (nth li i) (C.getD i 0) (nth li i) phi (ki.getD i false)
  Real.cos (deg2rad phi) * fw z - Real.sin (deg2rad phi) * fu z (-(s.h / 2))

theorem holds_sub {b : Beam} {e : EndCond} {z z' : Vec6} (h : e.Holds b z) (h' : e.Holds b z') : e.hom.Holds b (z' - z) := by
  cases e with
  | forces N M V =>
    obtain ⟨h1, h2, h3⟩ := h
    obtain ⟨k1, k2, k3⟩ := h'
    simp only [Beam.N, Beam.M, Beam.V] at h1 h2 h3 k1 k2 k3
    refine ⟨?_, ?_, ?_⟩ <;> simp only [Beam.N, Beam.M, Beam.V, Pi.sub_apply]
    · linear_combination k1 - h1
    · linear_combination k2 - h2
    · linear_combination k3 - h3
  | contact N kR w =>
    obtain ⟨h1, h2, h3⟩ := h
    obtain ⟨k1, k2, k3⟩ := h'
    simp only [Beam.N, Beam.M] at h1 h2 k1 k2
    refine ⟨?_, ?_, ?_⟩ <;> simp only [Beam.N, Beam.M, Pi.sub_apply]
    · linear_combination k1 - h1
    · linear_combination k2 - h2
    · rw [h3, k3, sub_self]
  | state u w psi =>
    obtain ⟨h1, h2, h3⟩ := h
    obtain ⟨k1, k2, k3⟩ := h'
    refine ⟨?_, ?_, ?_⟩ <;> simp only [Pi.sub_apply]
    · rw [h1, k1, sub_self]
    · rw [h2, k2, sub_self]
    · rw [h3, k3, sub_self]

section

variable {s : Self} {phi kR : ℝ} {li mi mi' : List ℝ} {ki : List Bool} {C C' : ℕ → Vec6}

/-- The difference of two solutions is a chain under the difference of the weights. -/
theorem diff_bvp (hm : Meets s phi kR ⟨li, mi, ki⟩ C) (hm' : Meets s phi kR ⟨li, mi', ki⟩ C') :
    Bvp s.beam li.length (fun i => jump s phi mi' i - jump s phi mi i)
      (endCond s phi kR .left (ki.getD 0 false)).hom (endCond s phi kR .right (ki.getD (li.length - 1) false)).hom
      (fun i => homAt s li ki (fun i => C' i - C i) i 0) (fun i => homAt s li ki (fun i => C' i - C i) i (nth li i)) := by
  have e : ∀ i x, homAt s li ki (fun i => C' i - C i) i x = stateAt s phi li ki C' i x - stateAt s phi li ki C i x := by
    intro i x
    simp only [homAt, stateAt, zsol, Matrix.mulVec_sub]
    abel
  simp only [e]
  refine ⟨holds_sub hm.left hm'.left, holds_sub hm.right hm'.right, fun i hi => ?_⟩
  have t := hm.trans i hi
  have t' := hm'.trans i hi
  refine ⟨?_, ?_, ?_, ?_, ?_, ?_⟩
  · simp only [Pi.sub_apply, t.u, t'.u]
  · simp only [Pi.sub_apply, t.w, t'.w]
  · simp only [Pi.sub_apply, t.psi, t'.psi]
  · have a := t.N
    have a' := t'.N
    simp only [Beam.N] at a a'
    simp only [Beam.N, Pi.sub_apply, Prod.fst_sub]
    linear_combination a' - a
  · have a := t.M
    have a' := t'.M
    simp only [Beam.M] at a a'
    simp only [Beam.M, Pi.sub_apply, Prod.snd_sub, Prod.fst_sub]
    linear_combination a' - a
  · have a := t.V
    have a' := t'.V
    simp only [Beam.V] at a a'
    simp only [Beam.V, Pi.sub_apply, Prod.snd_sub]
    linear_combination a' - a

end

section

variable {num : Numerics} {s : Self} {phi : ℝ} {li mi mi' : List ℝ} {ki : List Bool} {C C' : List Vec6} {kind kind' : SeqKind}
  {s1 s1' : Self}

theorem diff_work (hx : ¬ IsAux s) (i : ℕ) :
    jumpWork (jump s phi mi' i - jump s phi mi i) (homAt s li ki (fun i => C'.getD i 0 - C.getD i 0) i (nth li i))
      = 1e-3 * s.g / s.lski * ((nth mi' i - nth mi i) * (sinkAt s phi li ki C' i - sinkAt s phi li ki C i)) := by
  have e : homAt s li ki (fun i => C'.getD i 0 - C.getD i 0) i (nth li i)
      = zsol s (nth li i) (C'.getD i 0) (nth li i) phi (ki.getD i false)
        - zsol s (nth li i) (C.getD i 0) (nth li i) phi (ki.getD i false) := by
    simp only [homAt, zsol, Matrix.mulVec_sub]
    abel
  rw [e]
  simp only [jump, if_neg hx, getSkierLoad, jumpWork, sinkAt, fw, fu, fpsi, Prod.fst_sub, Prod.snd_sub, Pi.sub_apply]
  ring

/-- C80. The changes of the weights and of the displacements of the loaded points,
in the direction of gravity, have a non-negative scalar product. -/
theorem C80_weights_monotone (hb : BedOk s) (hc : ShearOk s) (hf : EigFresh num.eig s) (hv : NoFaceTouchdown s) (hx : ¬ IsAux s)
    (hg : 0 < s.g) (hs : 0 < s.lski) (hl : ∀ l ∈ li, 0 ≤ l)
    (r : assembleAndSolve num kind phi ⟨li, mi, ki⟩ s = (.ok (C, ⟨li, mi, ki⟩), s1))
    (r' : assembleAndSolve num kind' phi ⟨li, mi', ki⟩ s = (.ok (C', ⟨li, mi', ki⟩), s1')) :
    0 ≤ ∑ i ∈ Finset.range (li.length - 1),
      (nth mi' i - nth mi i) * (sinkAt s phi li ki C' i - sinkAt s phi li ki C i) := by
  have h2 := full_two (assembleWith_valid (sub := spring num) r).1
  obtain ⟨-, hfull, -, hm, -⟩ := C16_solution_meets_all_conditions num kind phi _ _ s s1 C hf hv r
  obtain ⟨-, -, -, hm', -⟩ := C16_solution_meets_all_conditions num kind' phi _ _ s s1' C' hf hv r'
  rw [← hfull] at h2
  obtain ⟨n, hn⟩ : ∃ n, li.length = n + 1 := ⟨li.length - 1, by simp only at h2; omega⟩
  have hB := diff_bvp hm hm'
  rw [hn] at hB
  have key := point_work_nonneg (l := nth li) (Z := homAt s li ki fun i => C'.getD i 0 - C.getD i 0) (k := fun i => ki.getD i false) (hb.stiff.coercive hc)
    (fun i hi => by rw [nth_eq (show i < li.length by omega)]; exact hl _ (List.getElem_mem _)) (fun i _ => zh_solves s hb _ _ _)
    (endCond_passive_left s phi _ _ (spring_nonneg num s)) (endCond_passive_right s phi _ _ (spring_nonneg num s)) hB
  simp only [diff_work hx, ← Finset.mul_sum] at key
  rw [hn, Nat.add_sub_cancel]
  exact nonneg_of_mul_nonneg_right key (by positivity)

/-- C80, strict part: the scalar product is positive unless the weights agree. -/
theorem C80_weights_strict (hb : BedOk s) (hc : ShearOk s) (hf : EigFresh num.eig s) (hv : NoFaceTouchdown s) (hx : ¬ IsAux s)
    (hg : 0 < s.g) (hs : 0 < s.lski) (hl : ∀ l ∈ li, 0 < l)
    (r : assembleAndSolve num kind phi ⟨li, mi, ki⟩ s = (.ok (C, ⟨li, mi, ki⟩), s1))
    (r' : assembleAndSolve num kind' phi ⟨li, mi', ki⟩ s = (.ok (C', ⟨li, mi', ki⟩), s1'))
    (i : ℕ) (hi : i + 1 < li.length) (hd : nth mi i ≠ nth mi' i) :
    0 < ∑ i ∈ Finset.range (li.length - 1),
      (nth mi' i - nth mi i) * (sinkAt s phi li ki C' i - sinkAt s phi li ki C i) := by
  refine lt_of_le_of_ne (C80_weights_monotone hb hc hf hv hx hg hs (fun l h => (hl l h).le) r r') fun h0 => hd ?_
  have hV := (assembleWith_valid (sub := spring num) r).1
  obtain ⟨-, hfull, -, hm, -⟩ := C16_solution_meets_all_conditions num kind phi _ _ s s1 C hf hv r
  obtain ⟨-, -, -, hm', -⟩ := C16_solution_meets_all_conditions num kind' phi _ _ s s1' C' hf hv r'
  obtain ⟨n, hn⟩ : ∃ n, li.length = n + 1 := ⟨li.length - 1, by omega⟩
  have hB := diff_bvp hm hm'
  rw [hn] at hB h0
  rw [Nat.add_sub_cancel] at h0
  have hk : ∃ j ≤ n, ki.getD j false = true := by
    obtain ⟨j, hj, e⟩ := List.mem_iff_getElem.mp hV.support
    refine ⟨j, ?_, ?_⟩
    · have h1 : ki.length = li.length := hV.ki
      have h3 : j < ki.length := hj
      omega
    · rw [List.getD_eq_getElem?_getD, List.getElem?_eq_getElem hj, Option.getD_some]; exact e
  have hF := point_work_zero (l := nth li) (Z := homAt s li ki fun i => C'.getD i 0 - C.getD i 0) (k := fun i => ki.getD i false) (hb.stiff.coercive hc)
    (fun j hj => by rw [nth_eq (show j < li.length by omega)]; exact hl _ (List.getElem_mem _)) (fun i _ => zh_solves s hb _ _ _)
    (fun j _ x hz y => by
      simp only [homAt] at hz ⊢
      rw [zh_zero s hb _ _ _ _ hz, Matrix.mulVec_zero])
    (endCond_passive_left s phi _ _ (spring_nonneg num s)) (endCond_passive_right s phi _ _ (spring_nonneg num s)) hB
    (.inl hk) (by simp only [diff_work hx, ← Finset.mul_sum, ← h0, mul_zero, le_refl]) i (by omega)
  have hq : (0 : ℝ) < 1e-3 * s.g / s.lski := by positivity
  have e1 := congrArg Prod.fst hF
  have e2 := congrArg (fun q => q.2.2) hF
  simp only [jump, if_neg hx, getSkierLoad, Prod.fst_sub, Prod.snd_sub] at e1 e2
  have e1 : (nth mi' i - nth mi i) * Real.sin (deg2rad phi) = 0 := by
    refine (mul_eq_zero.mp (?_ : 1e-3 * s.g / s.lski * ((nth mi' i - nth mi i) * Real.sin (deg2rad phi)) = 0)).resolve_left hq.ne'
    linear_combination -e1
  have e2 : (nth mi' i - nth mi i) * Real.cos (deg2rad phi) = 0 := by
    refine (mul_eq_zero.mp (?_ : 1e-3 * s.g / s.lski * ((nth mi' i - nth mi i) * Real.cos (deg2rad phi)) = 0)).resolve_left hq.ne'
    linear_combination e2
  have := Real.sin_sq_add_cos_sq (deg2rad phi)
  have e : nth mi' i - nth mi i = 0 := by
    linear_combination (-(nth mi' i - nth mi i)) * this + Real.sin (deg2rad phi) * e1 + Real.cos (deg2rad phi) * e2
  linarith

/-- C80, one weight: if only the weight at one place grows, that point of the
surface moves further in the direction of gravity. -/
theorem C80_heavier_sinks (hb : BedOk s) (hc : ShearOk s) (hf : EigFresh num.eig s) (hv : NoFaceTouchdown s) (hx : ¬ IsAux s)
    (hg : 0 < s.g) (hs : 0 < s.lski) (hl : ∀ l ∈ li, 0 < l)
    (r : assembleAndSolve num kind phi ⟨li, mi, ki⟩ s = (.ok (C, ⟨li, mi, ki⟩), s1))
    (r' : assembleAndSolve num kind' phi ⟨li, mi', ki⟩ s = (.ok (C', ⟨li, mi', ki⟩), s1'))
    (i : ℕ) (hi : i + 1 < li.length) (hd : nth mi i < nth mi' i) (ho : ∀ j ≠ i, nth mi j = nth mi' j) :
    sinkAt s phi li ki C i < sinkAt s phi li ki C' i := by
  have h := C80_weights_strict hb hc hf hv hx hg hs hl r r' i hi hd.ne
  rw [Finset.sum_eq_single i (fun j _ hj => by rw [ho j hj, sub_self, zero_mul])
    (fun h => absurd (Finset.mem_range.2 (by omega)) h)] at h
  have := (mul_pos_iff_of_pos_left (sub_pos.mpr hd)).mp h
  linarith

end

/-- A skier of 100 kg sinks deeper into the slab over the crack than one of 80 kg. -/
example : ∃ C C' : List Vec6,
    assembleAndSolve stdNum .list 38 ⟨skierLists.li, [0, 80, 0], skierLists.ki⟩ skierDemo
      = (.ok (C, ⟨skierLists.li, [0, 80, 0], skierLists.ki⟩), skierDemo) ∧
    assembleAndSolve stdNum .list 38 ⟨skierLists.li, [0, 100, 0], skierLists.ki⟩ skierDemo
      = (.ok (C', ⟨skierLists.li, [0, 100, 0], skierLists.ki⟩), skierDemo) ∧
    sinkAt skierDemo 38 skierLists.li skierLists.ki C 1 < sinkAt skierDemo 38 skierLists.li skierLists.ki C' 1 := by
  have run := fun mi hm => loads_solved (demo_bedOk _ _) (demo_shear _ _ _) skierDemo_sound
    (.inr (.inr (.inl skierDemo_isSkier))) (fun h => absurd h skierDemo_not_pst) rfl (by simp [skierLists])
    (fun _ => by simp [skierLists])
    ⟨by simp [skierLists], 0, by simp [skierLists], by simp [skierLists], by simp [skierLists, nth]⟩ .list 38 skierDemo.p
    skierDemo.tc mi hm
  obtain ⟨C, r⟩ := run [0, 80, 0] rfl
  obtain ⟨C', r'⟩ := run [0, 100, 0] rfl
  refine ⟨C, C', r, r', ?_⟩
  refine C80_heavier_sinks (demo_bedOk _ _) (demo_shear _ _ _) skierDemo_sound.fresh skierDemo_sound.face ?_ ?_ ?_
    (by simp [skierLists]) r r' 1 (by simp [skierLists]) (by norm_num [nth])
    (fun j hj => by rcases j with _ | _ | _ | j <;> simp [nth] at hj ⊢)
  · show ¬ IsAux skierDemo
    rcases skierDemo_isSkier with h | h <;> rintro (h' | h') <;> rw [h] at h' <;> exact absurd h' (by decide)
  · rw [(demo_fields stdEig "skiers" false).2.2.2.2.2.2.2.2.2.2.2.1]; norm_num
  · rw [(demo_fields stdEig "skiers" false).2.2.2.2.2.2.2.2.2.2.2.2.1]; norm_num

end Weac
