import Verif.Lemmas.Stage

/-!
# Concrete cases for C16, C17, C18, C25
-/

namespace Weac
open Spec

theorem demo_shear (eig : EigSolver) (system : String) (td : Bool) : ShearOk (demo eig system td) := by
  obtain ⟨-, h2, -, -, -, h6, -, h8, -⟩ := demo_fields eig system td
  unfold ShearOk
  rw [h2, h6, h8]
  norm_num

/-- A solver that meets all contracts (root finding is not needed here). -/
noncomputable def stdNum : Numerics := ⟨stdEig, fun a _ _ => .inr a⟩

/-- The slab of `comp` as a PST of 1.5 m with a crack of 0.5 m at the right
end, in a given touchdown stage, of which `td` is not yet touching. -/
noncomputable def pstDemo (mode : Mode) (td : ℝ) : Self :=
  (demo stdEig "pst-" true).stage "pst-" mode 1500 500 6 td 0 1000

theorem pstDemo_bedOk (mode : Mode) (td : ℝ) : BedOk (pstDemo mode td) := (demo_bedOk "pst-" true).stage _ _ _ _ _ _ _ _

theorem pstDemo_shear (mode : Mode) (td : ℝ) : ShearOk (pstDemo mode td) :=
  (demo_shear stdEig "pst-" true).stage _ _ _ _ _ _ _ _

theorem pstDemo_fresh (mode : Mode) (td : ℝ) : EigFresh stdNum.eig (pstDemo mode td) :=
  (demo_ready stdEig "pst-" true).fresh.eigFresh.stage _ _ _ _ _ _ _ _

theorem pstDemo_isPst (mode : Mode) (td : ℝ) : IsPst (pstDemo mode td) := .inl rfl

theorem pstDemo_noFace (mode : Mode) (td : ℝ) : NoFaceTouchdown (pstDemo mode td) := by
  intro h
  rcases h with h | h <;> exact absurd h (by show ¬ ("pst-" = _); decide)

theorem pstDemo_disc (mode : Mode) (td : ℝ) : (cubicOf (pstDemo mode td).scaled).disc ≠ 0 := by
  obtain ⟨h1, h2, h3, h4, h5, h6, h7, h8, -⟩ := demo_fields stdEig "pst-" true
  have hK0 := (demo_ready stdEig "pst-" true).stiff.K0_eq
  rw [h3, h4, h5] at hK0
  have hM : calcSystemMatrix (pstDemo mode td).scaled =
      !![0, 1, 0, 0, 0, 0; 1000 / 334720, 0, 0, -3000 / 66944, 5000 / 16736, 0; 0, 0, 0, 1, 0, 0;
        0, 0, 1000 / 39225, 0, 0, -1; 0, 0, 0, 0, 0, 1;
        69000 / 669440000, 0, 0, (4 * 16736 / 15 * (1046 / 3) - 16736 / 15 * (1000 / 300) * 30 * 230) / (4 * (16736 / 15 * (33472000 / 9))),
         (200 * (16736 / 15) * (1000 / 300) * 230 + 4 * 16736 / 15 * (1046 / 3)) / (4 * (16736 / 15 * (33472000 / 9))), 0] := by
    simp only [calcSystemMatrix, pstDemo, Self.scaled, Self.stage, h1, h2, h3, h4, h5, h6, h7, h8, hK0]
    norm_num
  unfold Cubic.disc cubicOf
  rw [hM]
  simp only [Matrix.of_apply, Matrix.cons_val', Matrix.cons_val]
  norm_num

theorem pstDemo_rest (mode : Mode) : RestOk stdNum (pstDemo mode 200) := by
  refine restOk_of stdNum _ (pstDemo_bedOk mode 200).stiff ?_ ?_ (stdEig_ok _) (pstDemo_disc mode 200) ?_
  · show (0 : ℝ) < 1000; norm_num
  · show (200 : ℝ) < 500; norm_num
  · obtain ⟨-, h2, -, -, -, h6, -, h8, -⟩ := demo_fields stdEig "pst-" true
    show 1000 * (demo stdEig "pst-" true).kt * (demo stdEig "pst-" true).t ^ 2 < 16 * (demo stdEig "pst-" true).kA55
    rw [h2, h6, h8]; norm_num

/-- Supported metre, then the unsupported length. -/
def pstLists (td : ℝ) : SegLists := ⟨[1000, td], [0], [true, false]⟩

theorem pstLists_valid (mode : Mode) (td td' : ℝ) : Valid (pstDemo mode td) (pstLists td') := by
  refine ⟨by simp [pstLists], rfl, rfl, fun h => ?_⟩
  exact absurd (show finiteSystem "pst-" by decide) h

theorem pstLists_supported (td : ℝ) (h : 0 ≤ td) : Supported (pstLists td) := by
  refine ⟨by simp [pstLists, h], 0, by simp [pstLists], by simp [pstLists], by simp [pstLists, nth]⟩

theorem pstLists_full (td : ℝ) : full (pstLists td) = pstLists td := by
  unfold full; rw [if_neg (by simp [pstLists])]

/-- Every stage of the PST is solved (C18, and with it C16 and C17). -/
theorem pstDemo_solved (mode : Mode) (hm : mode ≠ .unset) (kind : SeqKind) (phi : ℝ) :
    ∃ C, assembleAndSolve stdNum kind phi (pstLists 200) (pstDemo mode 200)
        = (.ok (C, pstLists 200), pstDemo mode 200) ∧
      Meets (pstDemo mode 200) phi (valOf (spring stdNum) (pstDemo mode 200)) (pstLists 200) (fun i => C.getD i 0) := by
  obtain ⟨C, h1, h2⟩ := C18_unique_solution stdNum kind phi (pstLists 200) (pstDemo mode 200) (pstDemo_bedOk _ _)
    (pstDemo_shear _ _) (pstDemo_fresh _ _) (pstLists_valid _ _ _) (.inr (by simp [pstLists]))
    (.inl (pstDemo_isPst _ _)) (fun _ _ => hm) (fun _ _ _ => pstDemo_rest _) (pstLists_supported _ (by norm_num))
  rw [pstLists_full] at h1 h2
  exact ⟨C, h1, (h2 (pstDemo_noFace _ _)).1⟩

example : ∃ C, assembleAndSolve stdNum .ndarray 30 (pstLists 200) (pstDemo .C 200)
    = (.ok (C, pstLists 200), pstDemo .C 200) :=
  let ⟨C, h, _⟩ := pstDemo_solved .C (by simp) .ndarray 30
  ⟨C, h⟩

/-- A skier of 80 kg over a field of 0.3 m without support. -/
noncomputable def skierDemo : Self := demo stdEig "skiers" false
def skierLists : SegLists := ⟨[2000, 150, 150, 2000], [0, 80, 0], [true, false, false, true]⟩

theorem skierDemo_isSkier : IsSkier skierDemo :=
  .inr (demo_fields stdEig "skiers" false).2.2.2.2.2.2.2.2.2.2.2.2.2.1

theorem skierDemo_not_pst : ¬ IsPst skierDemo := by
  unfold IsPst
  rw [show skierDemo.system = "skiers" from (demo_fields stdEig "skiers" false).2.2.2.2.2.2.2.2.2.2.2.2.2.1]
  decide

theorem skierDemo_noFace : NoFaceTouchdown skierDemo := by
  unfold NoFaceTouchdown IsVpst
  rw [show skierDemo.system = "skiers" from (demo_fields stdEig "skiers" false).2.2.2.2.2.2.2.2.2.2.2.2.2.1]
  intro h
  exact absurd h (by decide)

theorem skierLists_valid : Valid skierDemo skierLists :=
  ⟨by simp [skierLists], rfl, rfl, fun _ => by simp [skierLists]⟩

theorem skierLists_supported : Supported skierLists :=
  ⟨by simp [skierLists], 0, by simp [skierLists], by simp [skierLists], by simp [skierLists, nth]⟩

theorem skierLists_full : full skierLists = skierLists := by
  unfold full; rw [if_neg (by simp [skierLists])]

theorem skierDemo_solved (phi : ℝ) :
    ∃ C, assembleAndSolve stdNum .list phi skierLists skierDemo = (.ok (C, skierLists), skierDemo) ∧
      Meets skierDemo phi (valOf (spring stdNum) skierDemo) skierLists (fun i => C.getD i 0) := by
  obtain ⟨C, h1, h2⟩ := C18_unique_solution stdNum .list phi skierLists skierDemo (demo_bedOk _ _)
    (demo_shear _ _ _) (demo_ready _ _ _).fresh.eigFresh skierLists_valid (.inl rfl)
    (.inr (.inr (.inl skierDemo_isSkier))) (fun h => absurd h skierDemo_not_pst)
    (fun h => absurd h skierDemo_not_pst) skierLists_supported
  rw [skierLists_full] at h1 h2
  exact ⟨C, h1, (h2 skierDemo_noFace).1⟩

/-- C17: input without any support is rejected, and a single segment given as
a list is completed. -/
example : ¬ Valid skierDemo ⟨[100, 100], [0], [false, false]⟩ := fun h => by simpa using h.support
example : Valid skierDemo ⟨[100], [], [true]⟩ ∧ full ⟨[100], [], [true]⟩ = ⟨[100, 0], [0], [true, true]⟩ :=
  ⟨⟨by simp, rfl, rfl, fun _ => by simp⟩, by simp [full]⟩

/-- C25: springs of both kinds can be evaluated. -/
example : ∃ k, substituteStiffness stdEig 300 true .rot (pstDemo .C 200) = (.ok k, pstDemo .C 200) := by
  obtain ⟨k, -, -, -, -, h⟩ := substitute_run stdEig 300 (by norm_num) true .rot (by simp) (pstDemo .C 200)
    (pstDemo_fresh _ _) (pstDemo_rest .C).bed (pstDemo_rest .C).shear
  exact ⟨k, h⟩

example : ∃ k, substituteStiffness stdEig 1000 false .trans (pstDemo .A 500) = (.ok k, pstDemo .A 500) := by
  obtain ⟨k, -, -, -, -, h⟩ := substitute_run stdEig 1000 (by norm_num) false .trans (by simp) (pstDemo .A 500)
    (pstDemo_fresh _ _) (prep_false_bedOk _ _ (pstDemo_bedOk _ _)) (prep_false_shear _ _ (pstDemo_shear _ _))
  exact ⟨k, h⟩

end Weac
