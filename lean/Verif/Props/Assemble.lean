import Verif.Lemmas.LinearSystem
import Verif.Props.Demo

/-!
# C16, C17, C25: assembly, input validation, frame of the substitute springs
-/

namespace Weac

open Spec

/-! ## Frames -/

theorem Frame.pure {α : Type} (a : α) (s : Self) : Frame (Pure.pure a : Py α) s := by
  intro b s' h
  simp only [Py.pure_apply, Prod.mk.injEq] at h
  exact h.2.symm

theorem Frame.get (s : Self) : Frame Py.get s := by
  intro b s' h
  simp only [Py.get_apply, Prod.mk.injEq] at h
  exact h.2.symm

theorem Frame.raise {α : Type} (e : PyErr) (s : Self) : Frame (Py.raise e : Py α) s := by
  intro b s' h
  simp at h

theorem Frame.lift {α : Type} (r : Res α) (s : Self) : Frame (Py.lift r) s := by
  intro b s' h
  simp only [Py.lift_apply, Prod.mk.injEq] at h
  exact h.2.symm

theorem Frame.bind {α β : Type} {m : Py α} {f : α → Py β} {s : Self} (hm : Frame m s)
    (hf : ∀ a, m s = (.ok a, s) → Frame (f a) s) : Frame (m >>= f) s := by
  intro b s' h
  obtain ⟨a, s1, h1, h2⟩ := Py.bind_ok.mp h
  have := hm a s1 h1
  subst this
  exact hf a h1 b s' h2

/-! ## `assemble_and_solve` -/

/-- Input that makes mechanical sense for the system of the object. -/
structure Valid (s : Self) (a : SegLists) : Prop where
  support : true ∈ a.ki
  ki : a.ki.length = a.li.length
  mi : a.mi.length + 1 = a.li.length
  /-- infinite systems need supported boundary segments -/
  ends : ¬ finiteSystem s.system → a.ki.head? = some true ∧ a.ki.getLast? = some true

/-- The lists the solver works on: one segment is completed by an empty
supported one. -/
def full (a : SegLists) : SegLists :=
  if a.li.length = 1 then ⟨a.li ++ [0], a.mi ++ [0], a.ki ++ [true]⟩ else a

theorem any_id_iff (l : List Bool) : l.any id = true ↔ true ∈ l := by
  simp [List.any_eq_true]

theorem ends_iff {l : List Bool} (h : l ≠ []) :
    (l.getD 0 false && l.getD (l.length - 1) false) = true ↔ l.head? = some true ∧ l.getLast? = some true := by
  rw [Bool.and_eq_true]
  refine and_congr ?_ ?_
  · cases l with
    | nil => exact absurd rfl h
    | cons b l => simp
  · rw [List.getLast?_eq_getElem?]
    have hl : l.length - 1 < l.length := by
      have := List.length_pos_iff.mpr h
      omega
    rw [List.getD_eq_getElem _ _ hl, List.getElem?_eq_getElem hl]
    simp

theorem valid_ne {s : Self} {a : SegLists} (h : Valid s a) : a.ki ≠ [] := by
  intro h0
  have := h.support
  rw [h0] at this
  simp at this

/-- C17, rejection: input that is not `Valid` raises `ValueError` and leaves
the object alone. -/
theorem C17_rejects (sub : Py ℝ) (kind : SeqKind) (phi : ℝ) (a : SegLists) (s : Self) (h : ¬ Valid s a) :
    assembleWith sub kind phi a s = (.error .valueError, s) := by
  unfold assembleWith assembleBy
  by_cases h1 : ¬ (a.ki.any id = true)
  · rw [if_pos h1]; rfl
  rw [if_neg h1]
  by_cases h2 : a.li.length ≠ a.ki.length ∨ (a.li.length : ℤ) - 1 ≠ (a.mi.length : ℤ)
  · rw [if_pos h2]; rfl
  rw [if_neg h2, Py.get_bind]
  rw [not_not, any_id_iff] at h1
  push Not at h2
  have hne : a.ki ≠ [] := by
    intro h0
    rw [h0] at h1
    simp at h1
  by_cases h3 : ¬ finiteSystem s.system ∧ ¬ ((a.ki.getD 0 false && a.ki.getD (a.ki.length - 1) false) = true)
  · rw [if_pos h3]; rfl
  · exfalso
    apply h
    refine ⟨h1, h2.1.symm, by omega, fun hf => ?_⟩
    rw [← ends_iff hne]
    by_contra hc
    exact h3 ⟨hf, hc⟩

theorem assembleBy_accepts (solve : LinSolver) (sub : Py ℝ) (kind : SeqKind) (phi : ℝ) (a : SegLists) (s : Self) (h : Valid s a)
    (hk : kind = .list ∨ a.li.length ≠ 1) :
    assembleBy solve sub kind phi a s
      = (((asmSolveBy solve sub phi (full a) s).1).map fun C => (C, full a), (asmSolveBy solve sub phi (full a) s).2) := by
  unfold assembleBy
  rw [if_neg (by rw [not_not, any_id_iff]; exact h.support)]
  rw [if_neg (by
    have := h.ki
    have := h.mi
    push Not
    constructor <;> omega), Py.get_bind]
  rw [if_neg (by
    rintro ⟨h1, h2⟩
    exact h2 ((ends_iff (valid_ne h)).mpr (h.ends h1)))]
  unfold full
  by_cases h1 : a.li.length = 1
  · rw [if_pos h1, if_pos h1]
    rcases hk with rfl | hk
    · simp only []
      rw [Py.bind_eq]
      rcases asmSolveBy solve sub phi _ s with ⟨_ | _, _⟩ <;> rfl
    · exact absurd h1 hk
  · rw [if_neg h1, if_neg h1, Py.bind_eq]
    rcases asmSolveBy solve sub phi _ s with ⟨_ | _, _⟩ <;> rfl

/-- C17, acceptance: valid input reaches the solver; a single segment is
completed by a dummy segment, which is appended to the caller's lists. -/
theorem C17_accepts (sub : Py ℝ) (kind : SeqKind) (phi : ℝ) (a : SegLists) (s : Self) (h : Valid s a)
    (hk : kind = .list ∨ a.li.length ≠ 1) :
    assembleWith sub kind phi a s
      = (((asmSolve sub phi (full a) s).1).map fun C => (C, full a), (asmSolve sub phi (full a) s).2) :=
  assembleBy_accepts npSolve sub kind phi a s h hk

/-- C17, arrays: a single segment given as arrays fails, because arrays have
no `append`. -/
theorem C17_single_ndarray (sub : Py ℝ) (phi : ℝ) (a : SegLists) (s : Self) (h : Valid s a)
    (h1 : a.li.length = 1) :
    assembleWith sub .ndarray phi a s = (.error .attributeError, s) := by
  unfold assembleWith assembleBy
  rw [if_neg (by rw [not_not, any_id_iff]; exact h.support)]
  rw [if_neg (by
    have := h.ki
    have := h.mi
    push Not
    constructor <;> omega), Py.get_bind]
  rw [if_neg (by
    rintro ⟨h1, h2⟩
    exact h2 ((ends_iff (valid_ne h)).mpr (h.ends h1))), if_pos h1]
  rfl

theorem full_two {s : Self} {a : SegLists} (h : Valid s a) : 2 ≤ (full a).li.length := by
  have h1 := h.ki
  have := List.length_pos_iff.mpr (valid_ne h)
  unfold full
  split_ifs with h2
  · simp [h2]
  · omega

theorem full_valid {s : Self} {a : SegLists} (h : Valid s a) : Valid s (full a) := by
  unfold full
  split_ifs with h2
  · refine ⟨by simp [h.support], by simp [h.ki], by simp [h.mi], fun hf => ?_⟩
    have := h.ends hf
    refine ⟨?_, by simp⟩
    simp [List.head?_append, this.1]
  · exact h

theorem skier_not_finite {s : Self} (h : IsSkier s) : ¬ finiteSystem s.system := by
  unfold finiteSystem
  rcases h with h | h <;> rw [h] <;> decide

theorem Valid.listsOk {s : Self} {a : SegLists} (h : Valid s a) : ListsOk s (full a) := by
  have hv := full_valid h
  have hne := valid_ne hv
  have key : IsSkier s → (full a).ki.getD 0 false = true ∧
      (full a).ki.getD ((full a).ki.length - 1) false = true := by
    intro hs
    have := (ends_iff hne).mpr (hv.ends (skier_not_finite hs))
    rwa [Bool.and_eq_true] at this
  refine ⟨full_two h, hv.mi, fun hs => (key hs).1, fun hs => ?_⟩
  rw [← hv.ki]
  exact (key hs).2

theorem assembleWith_valid {sub : Py ℝ} {kind : SeqKind} {phi : ℝ} {a : SegLists} {s s' : Self}
    {out : List Vec6 × SegLists} (h : assembleWith sub kind phi a s = (.ok out, s')) :
    Valid s a ∧ out.2 = full a ∧ asmSolve sub phi (full a) s = (.ok out.1, s') := by
  have hv : Valid s a := by
    by_contra hc
    rw [C17_rejects sub kind phi a s hc] at h
    simp at h
  have hk : kind = .list ∨ a.li.length ≠ 1 := by
    by_contra hc
    push Not at hc
    have : kind = .ndarray := by
      cases kind with
      | list => exact absurd rfl hc.1
      | ndarray => rfl
    rw [this, C17_single_ndarray sub phi a s hv hc.2] at h
    simp at h
  refine ⟨hv, ?_⟩
  rw [C17_accepts sub kind phi a s hv hk, Prod.mk.injEq] at h
  rcases hr : asmSolve sub phi (full a) s with ⟨e | C, s1⟩
  · rw [hr] at h
    simp [Except.map] at h
  · rw [hr] at h
    obtain ⟨h1, h2⟩ := h
    simp only [Except.map, Except.ok.injEq] at h1
    subst h1
    exact ⟨rfl, by rw [← h2]⟩

theorem asmSolve_frame {sub : Py ℝ} {phi : ℝ} {a : SegLists} {s : Self} (hfr : Frame sub s)
    (h2 : 2 ≤ a.li.length) : Frame (asmSolve sub phi a) s := by
  intro C s' h
  rw [asmSolve_run h2 (asmSolve_defined hfr h)] at h
  rw [Prod.mk.injEq] at h
  exact h.2.symm

theorem assembleWith_frame {sub : Py ℝ} {kind : SeqKind} {phi : ℝ} {a : SegLists} {s : Self}
    (hfr : Frame sub s) : Frame (assembleWith sub kind phi a) s := by
  intro out s' h
  obtain ⟨hv, -, h2⟩ := assembleWith_valid h
  exact asmSolve_frame hfr (full_two hv) _ _ h2

theorem constsOf_getD (x : ℕ → ℝ) (n i : ℕ) (hi : i < n) :
    ((List.range n).map (constsOf x)).getD i 0 = constsOf x i := by
  rw [List.getD_eq_getElem _ _ (by simpa using hi)]
  simp

/-- Two families of constants that agree on the existing segments are
interchangeable. -/
theorem Meets.congr {s : Self} {phi kR : ℝ} {a : SegLists} {C C' : ℕ → Vec6} (h0 : 0 < a.li.length)
    (h : ∀ i < a.li.length, C i = C' i) (hm : Meets s phi kR a C) : Meets s phi kR a C' := by
  have e : ∀ i < a.li.length, ∀ x, stateAt s phi a.li a.ki C i x = stateAt s phi a.li a.ki C' i x := by
    intro i hi x
    rw [stateAt, stateAt, h i hi]
  obtain ⟨h1, h2, h3⟩ := hm
  refine ⟨?_, ?_, fun i hi => ?_⟩
  · have := e 0 h0 0
    simp only [this] at h1
    exact h1
  · have := e (a.li.length - 1) (by omega) (nth a.li (a.li.length - 1))
    simp only [this] at h2
    exact h2
  · have := h3 i hi
    simp only [e i (by omega), e (i + 1) hi] at this
    exact this

theorem asmSolve_meets {sub : Py ℝ} {phi : ℝ} {a : SegLists} {s s' : Self} {C : List Vec6}
    (hfr : Frame sub s) (hl : ListsOk s a) (hv : NoFaceTouchdown s)
    (h : asmSolve sub phi a s = (.ok C, s')) :
    s' = s ∧ C.length = a.li.length ∧ Meets s phi (valOf sub s) a (fun i => C.getD i 0) ∧
      ∀ C' : ℕ → Vec6, Meets s phi (valOf sub s) a C' → ∀ i < a.li.length, C' i = C.getD i 0 := by
  have hd := asmSolve_defined hfr h
  have hsys := hd.sys hl.two
  rw [asmSolve_run hl.two hd, Prod.mk.injEq] at h
  obtain ⟨h, rfl⟩ := h
  rcases hx : npSolve (6 * a.li.length) (matAt s (valOf sub s) a.li.length a.li a.ki a.li.length)
    (fun r => rhsFinal s phi a r - vecAt s (valOf sub s) phi a.li.length a.li a.ki a.li.length r) with e | x
  · rw [hx] at h
    simp [Except.map] at h
  rw [hx] at h
  simp only [Except.map, Except.ok.injEq] at h
  subst h
  obtain ⟨k1, k2⟩ := npSolve_ok hx
  refine ⟨rfl, by simp, ?_, ?_⟩
  · refine Meets.congr (by have := hl.two; omega) (fun i hi => (constsOf_getD x _ i hi).symm) ?_
    exact (rows_iff_meets s phi _ a hl hsys hv x).mp k1
  · intro C' hC' i hi
    let y : ℕ → ℝ := fun c => C' (c / 6) (Fin.ofNat 6 c)
    have hy : ∀ i, constsOf y i = C' i := by
      intro i
      funext j
      have e1 : (6 * i + (j : ℕ)) / 6 = i := by omega
      have e2 : Fin.ofNat 6 (6 * i + (j : ℕ)) = j := by
        apply Fin.ext
        simp only [Fin.ofNat]
        omega
      simp only [constsOf, y, e1, e2]
    have h3 := k2 y ((rows_iff_meets s phi _ a hl hsys hv y).mpr
      (hC'.congr (by have := hl.two; omega) (fun i _ => (hy i).symm)))
    rw [constsOf_getD _ _ _ hi, ← hy]
    funext j
    exact h3 _ (by omega)

/-! ## Frame of the substitute springs -/

theorem noSub_frame (s : Self) : Frame noSub s := Frame.raise _ _

/-- The object while the auxiliary problem is solved. -/
noncomputable def prep (eig : EigSolver) (rested : Bool) (dof : Dof) (s : Self) : Self :=
  let s := match dof with
    | .rot => { s with system := "rot" }
    | .trans => { s with system := "trans" }
    | .other => s
  if rested then calcEigensystem eig { s with kn := s.ratio * s.kn, kt := s.ratio * s.kt } else s

/-- The auxiliary problem. -/
def auxLists (L : ℝ) : SegLists := ⟨[L, 0], [0], [true, true]⟩

/-- State at the loaded end of the auxiliary problem. -/
noncomputable def tip (s : Self) (L : ℝ) (C : List Vec6) : Res Vec6 :=
  (rasterize s 0 1 [⟨C.getD 0 0, true, L⟩, ⟨C.getD 1 0, true, 0⟩]).map
    fun pts => (pts.map GridPt.z).getD 0 0

/-- What a successful call has computed. -/
theorem substitute_ok {eig : EigSolver} {L : ℝ} {rested : Bool} {dof : Dof} {s s' : Self} {k : ℝ}
    (h : substituteStiffness eig L rested dof s = (.ok k, s')) :
    ∃ out z, assembleWith noSub .ndarray 0 (auxLists L) (prep eig rested dof s) = (.ok out, prep eig rested dof s) ∧
      tip (prep eig rested dof s) L out.1 = .ok z ∧
      ((dof = .rot ∧ k = |1 / fpsi z|) ∨ (dof = .trans ∧ k = |1 / fw z|)) ∧
      s' = if rested then { s with eigs := (calcEigensystem eig s).eigs } else s := by
  unfold substituteStiffness at h
  cases dof <;> cases rested <;>
    simp only [Py.get_bind, Py.bind_assoc, Py.modify_bind, Py.pure_bind', if_true, Bool.false_eq_true,
      if_false] at h
  case other.true | other.false =>
    obtain ⟨out, s2, h1, h2⟩ := Py.bind_ok.mp h
    rw [Py.get_bind] at h2
    obtain ⟨pts, s3, h3, h4⟩ := Py.bind_ok.mp h2
    simp at h4
  all_goals
    obtain ⟨out, s2, h1, h2⟩ := Py.bind_ok.mp h
    have e := assembleWith_frame (noSub_frame _) _ _ h1
    rw [e] at h1 h2
    rw [Py.get_bind] at h2
    obtain ⟨pts, s3, h3, h4⟩ := Py.bind_ok.mp h2
    have e3 := Frame.lift _ _ _ _ h3
    rw [e3] at h3 h4
    rw [Py.lift_apply, Prod.mk.injEq] at h3
    simp only [Py.bind_assoc, Py.modify_bind, Py.pure_bind', Py.pure_apply, Prod.mk.injEq,
      Except.ok.injEq] at h4
    refine ⟨out, (pts.map GridPt.z).getD 0 0, h1, ?_, ?_, ?_⟩
    · unfold tip prep
      simp only [if_true, Bool.false_eq_true, if_false]
      rw [h3.1]
      rfl
    · simpa using h4.1.symm
    · rw [← h4.2]; rfl

/-- C25: a successful evaluation of a substitute spring restores the object. -/
theorem C25_substitute_stiffness_frame (eig : EigSolver) (L : ℝ) (rested : Bool) (dof : Dof) (s s' : Self)
    (k : ℝ) (hf : EigFresh eig s) (h : substituteStiffness eig L rested dof s = (.ok k, s')) : s' = s := by
  obtain ⟨-, -, -, -, -, h5⟩ := substitute_ok h
  rw [h5]
  split_ifs
  · exact hf
  · rfl

/-- The spring that `assemble_and_solve` uses in stage C. -/
noncomputable def spring (num : Numerics) : Py ℝ := do
  let s ← Py.get
  substituteStiffness num.eig (s.a - s.td) true .rot

theorem spring_frame (num : Numerics) (s : Self) (hf : EigFresh num.eig s) : Frame (spring num) s := by
  intro k s' h
  unfold spring at h
  rw [Py.get_bind] at h
  exact C25_substitute_stiffness_frame num.eig (s.a - s.td) true .rot s s' k hf h

/-- C16. The constants returned by `assemble_and_solve` meet every end and
transmission condition, no other constants do, the object is unchanged, and
there is one vector of constants per segment. -/
theorem C16_solution_meets_all_conditions (num : Numerics) (kind : SeqKind) (phi : ℝ) (a a' : SegLists)
    (s s' : Self) (C : List Vec6) (hf : EigFresh num.eig s) (hv : NoFaceTouchdown s)
    (h : assembleAndSolve num kind phi a s = (.ok (C, a'), s')) :
    s' = s ∧ a' = full a ∧ C.length = a'.li.length ∧
    Meets s phi (valOf (spring num) s) a' (fun i => C.getD i 0) ∧
    ∀ C' : ℕ → Vec6, Meets s phi (valOf (spring num) s) a' C' → ∀ i < a'.li.length, C' i = C.getD i 0 := by
  have hfr := spring_frame num s hf
  obtain ⟨hV, h1, h2⟩ := assembleWith_valid (sub := spring num) h
  simp only [] at h1 h2
  subst h1
  obtain ⟨k1, k2, k3, k4⟩ := asmSolve_meets hfr hV.listsOk hv h2
  exact ⟨k1, rfl, k2, k3, k4⟩

end Weac
