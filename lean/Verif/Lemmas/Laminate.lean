import Verif.Lemmas.Tools
import Verif.Model.Eigensystem

namespace Weac
open Spec

theorem scanl_getElem (hs : List ℝ) (a : ℝ) (j : ℕ) (hj : j < (hs.scanl (· + ·) a).length) :
    (hs.scanl (· + ·) a)[j] = a + (hs.take j).sum := by
  induction hs generalizing a j with
  | nil => simp at hj; subst hj; simp
  | cons x xs ih =>
    cases j with
    | zero => simp
    | succ j => simp [List.scanl_cons, ih, add_assoc]

theorem cumsum_zero_cons (hs : List ℝ) : cumsum ((0 : ℝ) :: hs) = hs.scanl (· + ·) 0 := by
  simp [cumsum, List.scanl_cons]

theorem ply_length (s : Self) : (getPlyCoordinates s).length = s.slab.length + 1 := by
  simp [getPlyCoordinates, cumsum_zero_cons]

theorem ply_nth (s : Self) (j : ℕ) (hj : j ≤ s.slab.length) :
    nth (getPlyCoordinates s) j = -s.h / 2 + ((s.slab.map Layer.h).take j).sum := by
  rw [nth, List.getD_eq_getElem _ _ (by rw [ply_length]; omega)]
  simp only [getPlyCoordinates, cumsum_zero_cons, List.getElem_map]
  rw [scanl_getElem]
  ring_nf

theorem foldl_laminate (k : ℝ) (z : List ℝ) (slab : List Layer) (is : List ℕ)
    (acc : ℝ × ℝ × ℝ × ℝ) :
    is.foldl (laminateStep k z slab) acc =
      (acc.1 + (is.map fun i => (slab.getD i ⟨0, 0, 0, 0, 0⟩).E / (1 - (slab.getD i ⟨0, 0, 0, 0, 0⟩).nu ^ 2)
          * (nth z (i + 1) - nth z i)).sum,
       acc.2.1 + (is.map fun i => 1 / 2 * (slab.getD i ⟨0, 0, 0, 0, 0⟩).E / (1 - (slab.getD i ⟨0, 0, 0, 0, 0⟩).nu ^ 2)
          * (nth z (i + 1) ^ 2 - nth z i ^ 2)).sum,
       acc.2.2.1 + (is.map fun i => 1 / 3 * (slab.getD i ⟨0, 0, 0, 0, 0⟩).E / (1 - (slab.getD i ⟨0, 0, 0, 0, 0⟩).nu ^ 2)
          * (nth z (i + 1) ^ 3 - nth z i ^ 3)).sum,
       acc.2.2.2 + (is.map fun i => k * (slab.getD i ⟨0, 0, 0, 0, 0⟩).G
          * (nth z (i + 1) - nth z i)).sum) := by
  induction is generalizing acc with
  | nil => simp
  | cons i is ih =>
    rw [List.foldl_cons, ih]
    simp only [laminateStep, List.map_cons, List.sum_cons]
    refine Prod.ext ?_ (Prod.ext ?_ (Prod.ext ?_ ?_)) <;> (dsimp only; ring)

theorem laminate_eq (s : Self) :
    calcLaminateStiffnessMatrix s =
      let A11 := layerSum Layer.h (fun l a b => l.E / (1 - l.nu ^ 2) * (b - a)) (-s.h / 2) s.slab
      let B11 := layerSum Layer.h (fun l a b => 1 / 2 * l.E / (1 - l.nu ^ 2) * (b ^ 2 - a ^ 2)) (-s.h / 2) s.slab
      let D11 := layerSum Layer.h (fun l a b => 1 / 3 * l.E / (1 - l.nu ^ 2) * (b ^ 3 - a ^ 3)) (-s.h / 2) s.slab
      let kA55 := layerSum Layer.h (fun l a b => s.k * l.G * (b - a)) (-s.h / 2) s.slab
      { s with A11 := A11, B11 := B11, D11 := D11, kA55 := kA55, K0 := B11 ^ 2 - A11 * D11 } := by
  have key : ∀ F : Layer → ℝ → ℝ → ℝ,
      ((List.range s.slab.length).map fun i => F (s.slab.getD i ⟨0, 0, 0, 0, 0⟩)
          (nth (getPlyCoordinates s) i) (nth (getPlyCoordinates s) (i + 1))).sum
        = layerSum Layer.h F (-s.h / 2) s.slab := by
    intro F
    rw [← sum_range_eq_layerSum Layer.h F ⟨0, 0, 0, 0, 0⟩]
    congr 1
    apply List.map_congr_left
    intro j hj
    have := List.mem_range.mp hj
    rw [ply_nth s j (by omega), ply_nth s (j + 1) (by omega)]
  have k1 := key (fun l a b => l.E / (1 - l.nu ^ 2) * (b - a))
  have k2 := key (fun l a b => 1 / 2 * l.E / (1 - l.nu ^ 2) * (b ^ 2 - a ^ 2))
  have k3 := key (fun l a b => 1 / 3 * l.E / (1 - l.nu ^ 2) * (b ^ 3 - a ^ 3))
  have k4 := key (fun l a b => s.k * l.G * (b - a))
  simp only [calcLaminateStiffnessMatrix, ply_length, Nat.add_sub_cancel, foldl_laminate, zero_add]
  simp only [k1, k2, k3, k4]

end Weac
