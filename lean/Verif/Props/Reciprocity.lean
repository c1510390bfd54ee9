import Verif.Lemmas.Reciprocity
import Verif.Props.Weights

/-!
# C87: the effect of a skier here on a place there, and the other way round

Three solutions for the same segmentation, inclination and touchdown stage: with
some weights on the slab, and with two different changes of them. The work of the
first change of the weights on the displacements caused by the second equals the
work of the second on the displacements caused by the first up to a fraction of
the works the two do on their own displacements. The fraction is set by the
thickness of the weak layer: its shear traction acts on a lever arm from the
slab, and this is what keeps the model from being exactly reciprocal.
-/

namespace Weac

open Spec

section

variable {num : Numerics} {s : Self} {phi : ℝ} {li mi mi1 mi2 : List ℝ} {ki : List Bool} {C C1 C2 : List Vec6}
  {kind kind1 kind2 : SeqKind} {s0 s1 s2 : Self}

theorem cross_work (hx : ¬ IsAux s) (i : ℕ) :
    jumpWork (jump s phi mi1 i - jump s phi mi i) (homAt s li ki (fun i => C2.getD i 0 - C.getD i 0) i (nth li i))
      = 1e-3 * s.g / s.lski * ((nth mi1 i - nth mi i) * (sinkAt s phi li ki C2 i - sinkAt s phi li ki C i)) := by
  have e : homAt s li ki (fun i => C2.getD i 0 - C.getD i 0) i (nth li i)
      = zsol s (nth li i) (C2.getD i 0) (nth li i) phi (ki.getD i false)
        - zsol s (nth li i) (C.getD i 0) (nth li i) phi (ki.getD i false) := by
    simp only [homAt, zsol, Matrix.mulVec_sub]
    abel
  rw [e]
  simp only [jump, if_neg hx, getSkierLoad, jumpWork, sinkAt, fw, fu, fpsi, Prod.fst_sub, Prod.snd_sub, Pi.sub_apply]
  ring

/-- C87. The works of two changes of the weights on each other's displacements
differ by at most the fraction `2 c / (1 - c)` of the geometric mean of the works
on their own displacements. -/
theorem C87_reciprocity (hb : BedOk s) (hc : ShearOk s) (hf : EigFresh num.eig s) (hv : NoFaceTouchdown s) (hx : ¬ IsAux s)
    (hg : 0 < s.g) (hs : 0 < s.lski) (hl : ∀ l ∈ li, 0 ≤ l) {c : ℝ} (hc0 : 0 ≤ c) (hc1 : c < 1)
    (ht : s.t ^ 2 * s.kt ≤ 16 * c ^ 2 * s.kA55)
    (r : assembleAndSolve num kind phi ⟨li, mi, ki⟩ s = (.ok (C, ⟨li, mi, ki⟩), s0))
    (r1 : assembleAndSolve num kind1 phi ⟨li, mi1, ki⟩ s = (.ok (C1, ⟨li, mi1, ki⟩), s1))
    (r2 : assembleAndSolve num kind2 phi ⟨li, mi2, ki⟩ s = (.ok (C2, ⟨li, mi2, ki⟩), s2)) :
    (∑ i ∈ Finset.range (li.length - 1), (nth mi1 i - nth mi i) * (sinkAt s phi li ki C2 i - sinkAt s phi li ki C i)
        - ∑ i ∈ Finset.range (li.length - 1), (nth mi2 i - nth mi i) * (sinkAt s phi li ki C1 i - sinkAt s phi li ki C i)) ^ 2
      ≤ (2 * c / (1 - c)) ^ 2
        * ((∑ i ∈ Finset.range (li.length - 1), (nth mi1 i - nth mi i) * (sinkAt s phi li ki C1 i - sinkAt s phi li ki C i))
          * ∑ i ∈ Finset.range (li.length - 1), (nth mi2 i - nth mi i) * (sinkAt s phi li ki C2 i - sinkAt s phi li ki C i)) := by
  have h2 := full_two (assembleWith_valid (sub := spring num) r).1
  obtain ⟨-, hfull, -, hm, -⟩ := C16_solution_meets_all_conditions num kind phi _ _ s s0 C hf hv r
  obtain ⟨-, -, -, hm1, -⟩ := C16_solution_meets_all_conditions num kind1 phi _ _ s s1 C1 hf hv r1
  obtain ⟨-, -, -, hm2, -⟩ := C16_solution_meets_all_conditions num kind2 phi _ _ s s2 C2 hf hv r2
  rw [← hfull] at h2
  obtain ⟨n, hn⟩ : ∃ n, li.length = n + 1 := ⟨li.length - 1, by simp only at h2; omega⟩
  have hY := diff_bvp hm hm1
  have hZ := diff_bvp hm hm2
  rw [hn] at hY hZ
  have key := reciprocity (l := nth li) (Y := homAt s li ki fun i => C1.getD i 0 - C.getD i 0)
    (Z := homAt s li ki fun i => C2.getD i 0 - C.getD i 0) (k := fun i => ki.getD i false) (hb.stiff.coercive hc) hc0 hc1 ht
    (fun i hi => by rw [nth_eq (show i < li.length by omega)]; exact hl _ (List.getElem_mem _)) (fun i _ => zh_solves s hb _ _ _)
    (fun i _ => zh_solves s hb _ _ _)
    (endCond_passive_left s phi _ _ (spring_nonneg num s)) (endCond_passive_right s phi _ _ (spring_nonneg num s)) hY hZ
  simp only [cross_work hx, Finset.sum_sub_distrib, ← Finset.mul_sum] at key
  rw [hn, Nat.add_sub_cancel]
  have hq : (0 : ℝ) < 1e-3 * s.g / s.lski := by positivity
  generalize (1e-3 * s.g / s.lski : ℝ) = q at key hq
  refine le_of_mul_le_mul_left ?_ (pow_pos hq 2)
  refine le_trans (le_of_eq ?_) (key.trans (le_of_eq ?_)) <;> ring

/-- C87, one skier at two places: how much the place `j` sinks under a weight
added at `i` and how much the place `i` sinks under the same weight added at `j`
agree up to `2 c / (1 - c)` times the geometric mean of how much each sinks under
its own weight. -/
theorem C87_two_places (hb : BedOk s) (hc : ShearOk s) (hf : EigFresh num.eig s) (hv : NoFaceTouchdown s) (hx : ¬ IsAux s)
    (hg : 0 < s.g) (hs : 0 < s.lski) (hl : ∀ l ∈ li, 0 ≤ l) {c : ℝ} (hc0 : 0 ≤ c) (hc1 : c < 1)
    (ht : s.t ^ 2 * s.kt ≤ 16 * c ^ 2 * s.kA55)
    (r : assembleAndSolve num kind phi ⟨li, mi, ki⟩ s = (.ok (C, ⟨li, mi, ki⟩), s0))
    (r1 : assembleAndSolve num kind1 phi ⟨li, mi1, ki⟩ s = (.ok (C1, ⟨li, mi1, ki⟩), s1))
    (r2 : assembleAndSolve num kind2 phi ⟨li, mi2, ki⟩ s = (.ok (C2, ⟨li, mi2, ki⟩), s2))
    {m : ℝ} (hm0 : m ≠ 0) {i j : ℕ} (hi : i + 1 < li.length) (hj : j + 1 < li.length)
    (h1 : ∀ a, nth mi1 a = nth mi a + if a = i then m else 0) (h2 : ∀ a, nth mi2 a = nth mi a + if a = j then m else 0) :
    |(sinkAt s phi li ki C2 i - sinkAt s phi li ki C i) - (sinkAt s phi li ki C1 j - sinkAt s phi li ki C j)|
      ≤ 2 * c / (1 - c) * Real.sqrt ((sinkAt s phi li ki C1 i - sinkAt s phi li ki C i) * (sinkAt s phi li ki C2 j - sinkAt s phi li ki C j)) := by
  have key := C87_reciprocity hb hc hf hv hx hg hs hl hc0 hc1 ht r r1 r2
  have one : ∀ (a : ℕ) (_ : a + 1 < li.length) (f : ℕ → ℝ), ∑ b ∈ Finset.range (li.length - 1), (if b = a then m else 0) * f b = m * f a := by
    intro a ha f
    rw [Finset.sum_eq_single a (fun b _ hb => by rw [if_neg hb, zero_mul]) (fun h => absurd (Finset.mem_range.2 (by omega)) h), if_pos rfl]
  simp only [h1, h2, add_sub_cancel_left, one i hi, one j hj] at key
  have hk : 0 ≤ 2 * c / (1 - c) := div_nonneg (by linarith) (by linarith)
  rw [← Real.sqrt_sq hk, ← Real.sqrt_mul (sq_nonneg _), ← Real.sqrt_sq_eq_abs]
  refine Real.sqrt_le_sqrt (le_of_mul_le_mul_left ?_ (show 0 < m ^ 2 by positivity))
  refine le_trans (le_of_eq ?_) (key.trans (le_of_eq ?_)) <;> ring

end

/-- In the demonstration slab with its crack, at 38°: how much the place left of the
crack sinks under a skier of 80 kg right of it, and the other way round, agree to
within 5.2 % of the geometric mean of how much the two sink under the skier. -/
example : ∃ C C1 C2 : List Vec6,
    assembleAndSolve stdNum .list 38 ⟨skierLists.li, [0, 0, 0], skierLists.ki⟩ skierDemo
      = (.ok (C, ⟨skierLists.li, [0, 0, 0], skierLists.ki⟩), skierDemo) ∧
    assembleAndSolve stdNum .list 38 ⟨skierLists.li, [80, 0, 0], skierLists.ki⟩ skierDemo
      = (.ok (C1, ⟨skierLists.li, [80, 0, 0], skierLists.ki⟩), skierDemo) ∧
    assembleAndSolve stdNum .list 38 ⟨skierLists.li, [0, 0, 80], skierLists.ki⟩ skierDemo
      = (.ok (C2, ⟨skierLists.li, [0, 0, 80], skierLists.ki⟩), skierDemo) ∧
    let sink := sinkAt skierDemo 38 skierLists.li skierLists.ki
    |(sink C2 0 - sink C 0) - (sink C1 2 - sink C 2)| ≤ 2 / 39 * Real.sqrt ((sink C1 0 - sink C 0) * (sink C2 2 - sink C 2)) := by
  have run := fun mi hm => loads_solved (demo_bedOk _ _) (demo_shear _ _ _) skierDemo_sound
    (.inr (.inr (.inl skierDemo_isSkier))) (fun h => absurd h skierDemo_not_pst) rfl (by simp [skierLists])
    (fun _ => by simp [skierLists])
    ⟨by simp [skierLists], 0, by simp [skierLists], by simp [skierLists], by simp [skierLists, nth]⟩ .list 38 skierDemo.p
    skierDemo.tc mi hm
  obtain ⟨C, r⟩ := run [0, 0, 0] rfl
  obtain ⟨C1, r1⟩ := run [80, 0, 0] rfl
  obtain ⟨C2, r2⟩ := run [0, 0, 80] rfl
  refine ⟨C, C1, C2, r, r1, r2, ?_⟩
  have f := demo_fields stdEig "skiers" false
  have key := C87_two_places (c := 1 / 40) (demo_bedOk _ _) (demo_shear _ _ _) skierDemo_sound.fresh skierDemo_sound.face
    (show ¬ IsAux skierDemo by
      rcases skierDemo_isSkier with h | h <;> rintro (h' | h') <;> rw [h] at h' <;> exact absurd h' (by decide))
    (by rw [f.2.2.2.2.2.2.2.2.2.2.2.1]; norm_num) (by rw [f.2.2.2.2.2.2.2.2.2.2.2.2.1]; norm_num)
    (by simp [skierLists]) (by norm_num) (by norm_num)
    (by rw [f.2.1, f.2.2.2.2.2.1, f.2.2.2.2.2.2.2.1]; norm_num)
    r r1 r2 (m := 80) (by norm_num) (i := 0) (j := 2) (by simp [skierLists]) (by simp [skierLists])
    (fun a => by rcases a with _ | _ | _ | a <;> simp [nth]) (fun a => by rcases a with _ | _ | _ | a <;> simp [nth])
  norm_num at key ⊢
  exact key

end Weac
