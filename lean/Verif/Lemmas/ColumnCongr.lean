import Verif.Props.Touchdown

/-!
# The stored column length does not enter the solution

`assemble_and_solve` reads the lengths of its segments from its arguments; the
attribute `L` of the object is not used.
-/

namespace Weac
open Spec

/-- The object with another length of the column. -/
def Self.column (s : Self) (L : ℝ) : Self := { s with L := L }

theorem Same.ite {α : Type} {c : Prop} [Decidable c] {m m' : Py α} {s s' : Self} (h : Same m s s') (h' : Same m' s s') :
    Same (if c then m else m') s s' := by
  split_ifs
  · exact h
  · exact h'

section
variable {sub : Py ℝ} {s : Self} {L : ℝ}

theorem bc_column (h : Same sub s (s.column L)) (k : Bool) (pos : Pos) : Same (bc sub k pos) s (s.column L) := by
  unfold bc
  refine Same.getBind (by rfl) ?_
  split_ifs
  · exact Same.pure _ _ _
  · split
    · exact Same.pure _ _ _
    · exact Same.pure _ _ _
    · exact Same.pure _ _ _
    · exact h.bind fun kR => Same.getBind (by rfl) (Same.pure _ _ _)
    · exact h.bind fun kR => Same.getBind (by rfl) (Same.pure _ _ _)
    · exact Same.raise _ _ _
  all_goals first | exact Same.pure _ _ _ | exact Same.raise _ _ _

theorem eqs_column (h : Same sub s (s.column L)) (k : Bool) (pos : Pos) : Same (eqs sub k pos) s (s.column L) := by
  unfold eqs
  cases pos with
  | l =>
    exact (bc_column h _ _).bind fun _ => (bc_column h _ _).bind fun _ => (bc_column h _ _).bind fun _ =>
      Same.getBind (by rfl) (Same.pure _ _ _)
  | m => exact Same.getBind (by rfl) (Same.pure _ _ _)
  | r =>
    refine Same.getBind (by rfl) ?_
    exact (bc_column h _ _).bind fun _ => (bc_column h _ _).bind fun _ => (bc_column h _ _).bind fun _ => Same.pure _ _ _

theorem asmBody_column (h : Same sub s (s.column L)) (phi : ℝ) (nS : ℕ) (li : List ℝ) (ki : List Bool)
    (acc : (ℕ → ℕ → ℝ) × (ℕ → ℝ)) (i : ℕ) : Same (asmBody sub phi nS li ki acc i) s (s.column L) := by
  unfold asmBody
  refine Same.getBind (by rfl) ?_
  refine (eqs_column h _ _).bind fun f => Same.getBind (by rfl) ((eqs_column h _ _).bind fun g => ?_)
  dsimp only
  exact Same.ite (Same.raise _ _ _) (Same.pure _ _ _)

theorem forLoop_same {α β : Type} {body : α → β → Py α} {s s' : Self} (h : ∀ a b, Same (body a b) s s') (l : List β) :
    ∀ a, Same (forLoop body l a) s s' := by
  induction l with
  | nil => intro a; exact Same.pure _ _ _
  | cons b l ih => intro a; exact (h a b).bind fun a' => ih a'

theorem Same.lift {α : Type} (r : Res α) (s s' : Self) : Same (Py.lift r) s s' := by
  refine ⟨rfl, fun a t ht => ?_, fun a t ht => ?_⟩
  · rw [Py.lift_apply] at ht
    exact (congrArg Prod.snd ht).symm
  · rw [Py.lift_apply] at ht
    exact (congrArg Prod.snd ht).symm

theorem asmSolve_column (solve : LinSolver) (h : Same sub s (s.column L)) (phi : ℝ) (a : SegLists) :
    Same (asmSolveBy solve sub phi a) s (s.column L) := by
  unfold asmSolveBy
  refine (forLoop_same (fun acc i => asmBody_column h phi _ _ _ acc i) _ _).bind fun z => ?_
  refine Same.getBind (by rfl) ?_
  dsimp only
  refine Same.ite ?_ ?_
  · exact (bc_column h _ _).bind fun _ => (bc_column h _ _).bind fun _ => (Same.pure _ _ _).bind fun _ =>
      (Same.lift _ _ _).bind fun x => Same.pure _ _ _
  · exact (Same.pure _ _ _).bind fun _ => (Same.lift _ _ _).bind fun x => Same.pure _ _ _

theorem assemble_column (solve : LinSolver) (h : Same sub s (s.column L)) (kind : SeqKind) (phi : ℝ) (a : SegLists) :
    Same (assembleBy solve sub kind phi a) s (s.column L) := by
  unfold assembleBy
  refine Same.ite (Same.raise _ _ _) (Same.ite (Same.raise _ _ _) (Same.getBind (by rfl) (Same.ite (Same.raise _ _ _)
    (Same.ite ?_ ?_))))
  · cases kind
    · exact (asmSolve_column solve h _ _).bind fun _ => Same.pure _ _ _
    · exact Same.raise _ _ _
  · exact (asmSolve_column solve h _ _).bind fun _ => Same.pure _ _ _

end

theorem Same.run {α : Type} {m : Py α} {s s' : Self} (h : Same m s s') {x : α} (hr : m s = (.ok x, s)) : m s' = (.ok x, s') := by
  have hv := h.val
  rw [hr] at hv
  rcases hm : m s' with ⟨y, t⟩
  rw [hm] at hv
  simp only at hv
  subst hv
  rw [h.frame' _ _ hm]

/-- Solutions do not depend on the stored length of the column. -/
theorem solve_column (num : Numerics) (kind : SeqKind) (phi : ℝ) (a : SegLists) (s : Self) (hf : EigFresh num.eig s) (L : ℝ) :
    Same (assembleAndSolve num kind phi a) s (s.column L) := by
  unfold assembleAndSolve assembleWith
  exact assemble_column npSolve (Same.getBind (by rfl)
    (sub_same num.eig s hf _ true .rot (by simp) s.system s.mode L s.a s.tc s.td s.phi)) kind phi a

end Weac
