import Verif.Lemmas.Lengthen

/-!
# C68: long boundary segments stand for an infinite slab
-/

namespace Weac

open Spec

/-- Segments with supported boundary segments of lengths `l0` and `l1`; `mid`, `km`
are lengths and support of the segments in between, `mi` the skiers. -/
def stretched (mid mi : List ℝ) (km : List Bool) (l0 l1 : ℝ) : SegLists := ⟨l0 :: (mid ++ [l1]), mi, true :: (km ++ [true])⟩

theorem stretched_ends (mid : List ℝ) (l0 l1 : ℝ) :
    nth (l0 :: (mid ++ [l1])) = ends (mid.length + 2) (nth (0 :: mid)) l0 l1 := by
  funext i
  unfold ends nth
  rcases i with _ | i
  · simp
  · simp only [Nat.add_one_ne_zero, if_false, List.getD_cons_succ]
    by_cases h : i < mid.length
    · rw [if_neg (by omega), List.getD_append _ _ _ _ h]
    · rw [List.getD_append_right _ _ _ _ (by omega)]
      by_cases h' : i = mid.length
      · rw [if_pos (by omega), h', Nat.sub_self]; rfl
      · rw [if_neg (by omega), List.getD_eq_default _ _ (by simp; omega), List.getD_eq_default _ _ (by omega)]

/-- Infinite slab with the segments, skiers and inclination of a system: equilibrium in
each segment and at each skier, and the undisturbed state far away on both sides. -/
def InfiniteSlab (s : Self) (phi : ℝ) (mid mi : List ℝ) (km : List Bool) (Z : ℕ → ℝ → Vec6) : Prop :=
  Infinite s.beam (mid.length + 2) (fun i => (true :: (km ++ [true])).getD i false)
    (fun i => driveOf s phi ((true :: (km ++ [true])).getD i false)) (jump s phi mi) (zp s 0 phi true) (nth (0 :: mid)) Z

/-- C68: systems with skiers. There is exactly one state of the slab of infinite
length with the same cracks and skiers, and from some length of the boundary
segments on the computed state differs from it by no more than a multiple of
`exp (-l / (2 reach))`, where `l` is the shorter boundary segment. -/
theorem C68_long_ends (num : Numerics) (kind : SeqKind) (phi : ℝ) (s : Self) (hb : BedOk s) (hc : ShearOk s)
    (hf : EigFresh num.eig s) (hsys : IsSkier s) (mid mi : List ℝ) (km : List Bool) (hkm : km.length = mid.length)
    (hmi : mi.length = mid.length + 1) (hnn : ∀ l ∈ mid, 0 ≤ l) :
    ∃ Z, InfiniteSlab s phi mid mi km Z ∧
      (∀ Z', InfiniteSlab s phi mid mi km Z' → ∀ i < mid.length + 2, Z' i = Z i) ∧
      ∃ K B, 0 < B ∧ ∀ l0 l1, B ≤ l0 → B ≤ l1 →
        let a := stretched mid mi km l0 l1
        ∃ C, assembleAndSolve num kind phi a s = (.ok (C, a), s) ∧
          ∀ i < a.li.length, ∀ x ∈ Set.Icc 0 (nth a.li i), ∀ q,
            |zsol s x (C.getD i 0) (nth a.li i) phi (a.ki.getD i false) q - Z i (x - if i = 0 then l0 else 0) q| ≤
              K * Real.exp (-(min l0 l1 / (2 * s.beam.reach))) := by
  have hco := hb.stiff.coercive hc
  have hnv : NoFaceTouchdown s := by
    intro hv
    unfold IsVpst at hv
    rcases hsys with e | e <;> rw [e] at hv <;> simp at hv
  have hnp : ¬ IsPst s := by
    unfold IsPst
    rcases hsys with e | e <;> rw [e] <;> simp
  have he : ∀ e k, endCond s phi (valOf (spring num) s) e k = .state (zp s 0 phi true 0) (zp s 0 phi true 2) (zp s 0 phi true 4) := by
    intro e k
    unfold endCond IsPst IsVpst IsSkier
    rcases hsys with hsys | hsys <;> simp [hsys]
  set n := mid.length + 2 with hn
  set ks := true :: (km ++ [true]) with hks
  have klast : ks.getD (n - 1) false = true := by
    rw [hks, hn, show mid.length + 2 - 1 = km.length + 1 by omega, List.getD_cons_succ,
      List.getD_append_right _ _ _ _ le_rfl, Nat.sub_self]
    rfl
  have hlen : ∀ l0 l1, (stretched mid mi km l0 l1).li.length = n := fun _ _ => by simp [stretched, hn]
  have hfull : ∀ l0 l1, full (stretched mid mi km l0 l1) = stretched mid mi km l0 l1 := fun l0 l1 => by
    unfold full
    rw [if_neg (by rw [hlen]; omega)]
  have solved : ∀ l0 l1, 0 < l0 → 0 < l1 → ∃ C, assembleAndSolve num kind phi (stretched mid mi km l0 l1) s =
      (.ok (C, stretched mid mi km l0 l1), s) ∧ Loaded s.beam n (fun i => ks.getD i false) (fun i => driveOf s phi (ks.getD i false))
        (jump s phi mi) (zp s 0 phi true) (ends n (nth (0 :: mid)) l0 l1)
        (stateAt s phi (stretched mid mi km l0 l1).li ks fun i => C.getD i 0) := by
    intro l0 l1 p0 p1
    have hv : Valid s (stretched mid mi km l0 l1) := by
      refine ⟨by simp [stretched], by simp [stretched, hkm], by simp [stretched, hmi], fun _ => by simp [stretched, List.getLast?_cons]⟩
    have hn0 : ∀ l ∈ (stretched mid mi km l0 l1).li, 0 ≤ l := by
      simp only [stretched, List.mem_cons, List.mem_append, List.not_mem_nil, or_false]
      rintro l (rfl | h | rfl)
      · exact p0.le
      · exact hnn l h
      · exact p1.le
    have hsup : Supported (stretched mid mi km l0 l1) := by
      refine ⟨hn0, 0, by rw [hlen]; omega, by simp [stretched], by simpa [stretched, nth] using p0⟩
    obtain ⟨C, h1, h2⟩ := C18_unique_solution num kind phi (stretched mid mi km l0 l1) s hb hc hf hv (.inr (by rw [hlen]; omega))
      (.inr (.inr (.inl hsys))) (fun h => absurd h hnp) (fun h => absurd h hnp) hsup
    rw [hfull] at h1 h2
    have hm := (h2 hnv).1
    unfold Meets at hm
    rw [he, he, hlen] at hm
    have en : nth (stretched mid mi km l0 l1).li = ends n (nth (0 :: mid)) l0 l1 := stretched_ends mid l0 l1
    refine ⟨C, h1, ⟨fun i hi => ?_, fun i _ => ?_, fun i hi => ?_, hm.left, ?_⟩⟩
    · rw [← en, nth, List.getD_eq_getElem _ _ (by rw [hlen]; exact hi)]
      exact hn0 _ (List.getElem_mem _)
    · exact stateAt_driven s hb phi _ _ _ i
    · rw [← en]; exact hm.trans i hi
    · rw [← en]; exact hm.right
  have hzp : Driven s.beam true (driveOf s phi true) fun _ => zp s 0 phi true := by
    have := zp_driven s hb.stiff.regular phi true
    have e : (fun x => zp s x phi true) = fun _ => zp s 0 phi true := funext fun y => zp_bed_const s y phi
    rwa [e] at this
  have hR : ∀ i, 0 < i → i < n - 1 → nth (0 :: mid) i ≤ mid.sum := by
    intro i h1 h2
    obtain ⟨j, rfl⟩ : ∃ j, i = j + 1 := ⟨i - 1, by omega⟩
    have hj : j < mid.length := by omega
    rw [nth, List.getD_cons_succ, List.getD_eq_getElem _ _ hj]
    exact List.single_le_sum hnn _ (List.getElem_mem hj)
  obtain ⟨Z, hZ, K, B, hK, hB, H⟩ := exists_infinite hco (by omega : 2 ≤ n) (k := fun i => ks.getD i false) rfl klast
    (g := fun i => driveOf s phi (ks.getD i false)) hzp (by simpa only [klast] using hzp) (l := nth (0 :: mid)) rfl hR
    (F := jump s phi mi) (fun l0 l1 p0 p1 => (solved l0 l1 p0 p1).elim fun C h => ⟨_, h.2⟩)
  refine ⟨Z, hZ, fun Z' hZ' i hi => ?_, K, B, hB, fun l0 l1 b0 b1 => ?_⟩
  · refine hZ'.unique hco (by omega) rfl klast rfl (fun j h1 h2 => ?_) hZ i hi
    obtain ⟨m, rfl⟩ : ∃ m, j = m + 1 := ⟨j - 1, by omega⟩
    have hj : m < mid.length := by omega
    rw [nth, List.getD_cons_succ, List.getD_eq_getElem _ _ hj]
    exact hnn _ (List.getElem_mem hj)
  · obtain ⟨C, h1, h2⟩ := solved l0 l1 (by linarith) (by linarith)
    refine ⟨C, h1, fun i hi x hx q => ?_⟩
    rw [hlen] at hi
    have h3 := H l0 l1 b0 b1 _ h2 i hi x (by rw [← stretched_ends]; exact hx)
    have h4 := norm_le_pi_norm (stateAt s phi (stretched mid mi km l0 l1).li ks (fun i => C.getD i 0) i x -
      Z i (x - if i = 0 then l0 else 0)) q
    rw [Real.norm_eq_abs] at h4
    exact h4.trans h3

/-- Skier of 80 kg in the middle of a field of 0.3 m without support, on a slope of
38 degrees. -/
example : ∃ Z, InfiniteSlab skierDemo 38 [150, 150] [0, 80, 0] [false, false] Z ∧
    ∃ K B, 0 < B ∧ ∀ l, B ≤ l → ∃ C, assembleAndSolve stdNum .list 38 ⟨[l, 150, 150, l], [0, 80, 0], [true, false, false, true]⟩ skierDemo =
        (.ok (C, ⟨[l, 150, 150, l], [0, 80, 0], [true, false, false, true]⟩), skierDemo) ∧
      |zsol skierDemo 150 (C.getD 1 0) 150 38 false 2 - Z 1 150 2| ≤ K * Real.exp (-(l / (2 * skierDemo.beam.reach))) := by
  obtain ⟨Z, h1, -, K, B, hB, h2⟩ := C68_long_ends stdNum .list 38 skierDemo (demo_bedOk _ _) (demo_shear _ _ _)
    (demo_ready _ _ _).fresh.eigFresh skierDemo_isSkier [150, 150] [0, 80, 0] [false, false] rfl rfl (by simp)
  refine ⟨Z, h1, K, B, hB, fun l hl => ?_⟩
  obtain ⟨C, h3, h4⟩ := h2 l l hl hl
  refine ⟨C, h3, ?_⟩
  have := h4 1 (by simp [stretched]) 150 (by simp [stretched, nth]) 2
  simpa [stretched, nth] using this

end Weac
