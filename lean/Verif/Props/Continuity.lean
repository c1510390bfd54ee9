import Verif.Props.SolveDemo
import Mathlib.Topology.Instances.Matrix
import Mathlib.Analysis.SpecialFunctions.Trigonometric.Basic

/-! # C55: the solution depends continuously on its inputs -/

namespace Weac

variable {T : Type*} [TopologicalSpace T]

theorem continuous_deg2rad {p : T → ℝ} (h : Continuous p) : Continuous fun t => deg2rad (p t) := by
  unfold deg2rad
  fun_prop

theorem continuous_weight (s : Self) {p : T → ℝ} (h : Continuous p) :
    (Continuous fun t => (getWeightLoad s (p t)).1) ∧ Continuous fun t => (getWeightLoad s (p t)).2 := by
  have := continuous_deg2rad h
  constructor <;> (simp only [getWeightLoad]; fun_prop)

theorem continuous_surface (s : Self) {p : T → ℝ} (h : Continuous p) :
    (Continuous fun t => (getSurfaceLoad s (p t)).1) ∧ Continuous fun t => (getSurfaceLoad s (p t)).2 := by
  have := continuous_deg2rad h
  constructor <;> (simp only [getSurfaceLoad]; fun_prop)

theorem continuous_skier (s : Self) {m p : T → ℝ} (hm : Continuous m) (h : Continuous p) :
    (Continuous fun t => (getSkierLoad s (m t) (p t)).1) ∧ Continuous fun t => (getSkierLoad s (m t) (p t)).2 := by
  have := continuous_deg2rad h
  constructor <;> (simp only [getSkierLoad]; fun_prop)

theorem continuous_zp (s : Self) {x p : T → ℝ} (hx : Continuous x) (h : Continuous p) (bed : Bool) (q : Fin 6) :
    Continuous fun t => zp s (x t) (p t) bed q := by
  obtain ⟨h1, h2⟩ := continuous_weight s h
  obtain ⟨h3, h4⟩ := continuous_surface s h
  cases bed <;> fin_cases q <;> (simp [zp]; fun_prop)

theorem continuous_entry (F : List (T → Vec6)) (hF : ∀ f ∈ F, ∀ q, Continuous fun t => f t q) (j : ℕ) (q : Fin 6) :
    Continuous fun t => (F.map fun f => f t).getD j 0 q := by
  induction F generalizing j with
  | nil => simpa using continuous_const
  | cons f F ih =>
    cases j with
    | zero => simpa using hF f (by simp) q
    | succ j => simpa using ih (fun f hf => hF f (by simp [hf])) j

theorem continuous_zh (s : Self) {x l : T → ℝ} (hx : Continuous x) (hl : Continuous l) (bed : Bool) (q j : Fin 6) :
    Continuous fun t => zh s (x t) (l t) bed q j := by
  cases bed with
  | false =>
    fin_cases q <;> fin_cases j <;> (simp [zh, zhFree]; try fun_prop)
  | true =>
    have e : ∀ t, zhBed s.eigs (x t) (l t) = ((s.eigs.re.map fun m t => fun i => m.ev i * Real.exp (m.ew * (x t + l t * m.s))) ++
        (s.eigs.cx.map fun m t => fun i => Real.exp (m.ew.re * (x t + l t * m.s)) *
          ((m.ev i).re * Real.cos (m.ew.im * x t) - (m.ev i).im * Real.sin (m.ew.im * x t))) ++
        (s.eigs.cx.map fun m t => fun i => Real.exp (m.ew.re * (x t + l t * m.s)) *
          ((m.ev i).im * Real.cos (m.ew.im * x t) + (m.ev i).re * Real.sin (m.ew.im * x t)))).map
          (fun f : T → Vec6 => f t) := by
      intro t
      simp [zhBed, Function.comp_def]
    simp only [zh, if_true, Matrix.of_apply, e]
    refine continuous_entry _ ?_ _ _
    intro f hf q
    simp only [List.mem_append, List.mem_map] at hf
    rcases hf with (⟨m, -, rfl⟩ | ⟨m, -, rfl⟩) | ⟨m, -, rfl⟩ <;> fun_prop

theorem continuous_bcFun (s : Self) (kR : ℝ) (k : Bool) (pos : Pos) {z : T → Vec6} (h : ∀ q, Continuous fun t => z t q)
    (r : Fin 3) : Continuous fun t => bcFun s kR k pos (z t) r := by
  have h0 := h 0; have h1 := h 1; have h2 := h 2; have h3 := h 3; have h4 := h 4; have h5 := h 5
  unfold bcFun
  split_ifs
  · fin_cases r <;> (simp [fN, fM, fV]; fun_prop)
  · cases s.mode <;> cases pos <;> fin_cases r <;> (simp [fN, fM, fV, fw, fpsi]; fun_prop)
  · fin_cases r <;> (simp [fu, fw, fpsi]; fun_prop)
  · fin_cases r <;> (simp [fN, fM, fV]; fun_prop)

theorem continuous_getD {f : T → List ℝ} {n : ℕ} (g : Fin n → T → ℝ) (hf : ∀ t, f t = List.ofFn fun i => g i t)
    (hg : ∀ i, Continuous (g i)) (r : ℕ) : Continuous fun t => (f t).getD r 0 := by
  by_cases hr : r < n
  · have e : (fun t => (f t).getD r 0) = g ⟨r, hr⟩ := by
      funext t
      rw [hf, List.getD_eq_getElem?_getD, List.getElem?_eq_getElem (by simpa using hr)]
      simp
    rw [e]
    exact hg _
  · have e : (fun t => (f t).getD r 0) = fun _ => 0 := by
      funext t
      rw [hf, List.getD_eq_getElem?_getD, List.getElem?_eq_none (by simpa using hr)]
      rfl
    rw [e]
    exact continuous_const

theorem continuous_eqsFun (s : Self) (kR : ℝ) (k : Bool) (pos : Pos) {zl zr : T → Vec6}
    (hl : ∀ q, Continuous fun t => zl t q) (hr : ∀ q, Continuous fun t => zr t q) (r : ℕ) :
    Continuous fun t => (eqsFun s kR k pos (zl t) (zr t)).getD r 0 := by
  have h0 := hl 0; have h1 := hl 1; have h2 := hl 2; have h3 := hl 3; have h4 := hl 4; have h5 := hl 5
  have g0 := hr 0; have g1 := hr 1; have g2 := hr 2; have g3 := hr 3; have g4 := hr 4; have g5 := hr 5
  have bl := continuous_bcFun s kR k pos hl
  have br := continuous_bcFun s kR k pos hr
  cases pos <;> simp only [eqsFun] <;>
    rcases r with _ | _ | _ | _ | _ | _ | _ | _ | _ | _ | _ | _ | r <;>
    simp [fN, fM, fV, fu, fw, fpsi] <;> first | exact bl _ | exact br _ | fun_prop

theorem continuous_rowOf (s : Self) (kR : ℝ) (nS : ℕ) (ki : List Bool) (i r : ℕ) {zl zr : T → Vec6}
    (hl : ∀ q, Continuous fun t => zl t q) (hr : ∀ q, Continuous fun t => zr t q) :
    Continuous fun t => rowOf s kR nS ki i r (zl t) (zr t) := by
  unfold rowOf
  split_ifs
  · exact continuous_eqsFun s kR _ _ hl hr _
  · exact continuous_const

theorem continuous_matAt (s : Self) (kR : ℝ) (nS : ℕ) (ki : List Bool) {li : T → List ℝ}
    (hli : ∀ i, Continuous fun t => nth (li t) i) (n r c : ℕ) :
    Continuous fun t => matAt s kR nS (li t) ki n r c := by
  unfold matAt
  split_ifs
  · exact continuous_rowOf s kR nS ki _ _ (fun q => continuous_zh s continuous_const (hli _) _ _ _)
      (fun q => continuous_zh s (hli _) (hli _) _ _ _)
  · exact continuous_const

theorem continuous_vecAt (s : Self) (kR : ℝ) (nS : ℕ) (ki : List Bool) {li : T → List ℝ} {p : T → ℝ}
    (hli : ∀ i, Continuous fun t => nth (li t) i) (hp : Continuous p) (n r : ℕ) :
    Continuous fun t => vecAt s kR (p t) nS (li t) ki n r := by
  unfold vecAt
  exact continuous_finsetSum _ fun i _ => continuous_rowOf s kR nS ki _ _
    (fun q => continuous_zp s continuous_const hp _ _) (fun q => continuous_zp s (hli _) hp _ _)

theorem continuous_npSolve {n : ℕ} {M : T → ℕ → ℕ → ℝ} {b x : T → ℕ → ℝ} (h : ∀ t, npSolve n (M t) (b t) = .ok (x t))
    (hM : ∀ r < n, ∀ c < n, Continuous fun t => M t r c) (hb : ∀ r < n, Continuous fun t => b t r) (i : ℕ) :
    Continuous fun t => x t i := by
  classical
  have key : ∀ t, IsUnit (Matrix.of fun i j : Fin n => M t i j).det ∧ x t = fun i => if h : i < n then
      (Matrix.of fun i j : Fin n => M t i j)⁻¹.mulVec (fun j : Fin n => b t j) ⟨i, h⟩ else 0 := by
    intro t
    have := h t
    simp only [npSolve] at this
    split_ifs at this with hu
    injection this with this
    exact ⟨hu, this.symm⟩
  have e : (fun t => x t i) = fun t => if h : i < n then
      (Matrix.of fun i j : Fin n => M t i j)⁻¹.mulVec (fun j : Fin n => b t j) ⟨i, h⟩ else 0 := by
    funext t
    rw [(key t).2]
  rw [e]
  split_ifs with hi
  · have hA : Continuous fun t => Matrix.of fun i j : Fin n => M t i j :=
      continuous_matrix fun i j => hM i i.2 j j.2
    have hinv : Continuous fun t => (Matrix.of fun i j : Fin n => M t i j)⁻¹ := by
      simp only [Matrix.inv_def, Ring.inverse_eq_inv']
      exact (hA.matrix_det.inv₀ fun t => (key t).1.ne_zero).smul hA.matrix_adjugate
    have hv : Continuous fun t => fun j : Fin n => b t j := continuous_pi fun j => hb j j.2
    exact (continuous_apply (⟨i, hi⟩ : Fin n)).comp (hinv.matrix_mulVec hv)
  · exact continuous_const

/-- A family of inputs that varies continuously: slope angle, segment lengths
and skier weights, with a fixed support. The angle of a face cut vertically is
kept fixed. -/
structure Spec.Varies (s : Self) (phi : T → ℝ) (a : T → SegLists) (n : ℕ) (ki : List Bool) : Prop where
  face : IsVpst s → ∀ t t', phi t = phi t'
  len : ∀ t, (a t).li.length = n
  support : ∀ t, (a t).ki = ki
  angle : Continuous phi
  lengths : ∀ i, Continuous fun t => nth (a t).li i
  weights : ∀ i, Continuous fun t => nth (a t).mi i

open Spec

theorem continuous_rhs (s : Self) {phi : T → ℝ} {a : T → SegLists} {n : ℕ} {ki : List Bool} (h : Varies s phi a n ki)
    (hl : ∀ t, ListsOk s (a t)) (h2 : 2 ≤ n)
    (hsys : IsPst s ∨ IsVpst s ∨ IsSkier s ∨ IsAux s) (hv : NoFaceTouchdown s) :
    ∀ r < 6 * n, Continuous fun t => rhsFinal s (phi t) (a t) r := by
  have hend : ∀ e k, (Continuous fun t => (rhsEnd s (phi t) e k).1) ∧ (Continuous fun t => (rhsEnd s (phi t) e k).2.1) ∧
      Continuous fun t => (rhsEnd s (phi t) e k).2.2 := by
    intro e k
    unfold rhsEnd
    split_ifs with c1 c2 c3
    · exact ⟨continuous_const, continuous_const, continuous_const⟩
    · have : ∀ f : ℝ → ℝ, Continuous fun t => f (phi t) := by
        intro f
        rcases isEmpty_or_nonempty T with hT | ⟨⟨t0⟩⟩
        · exact continuous_of_discreteTopology
        · have : (fun t => f (phi t)) = fun _ => f (phi t0) := by
            funext t
            rw [h.face c2 t t0]
          rw [this]
          exact continuous_const
      exact ⟨this fun p => (verticalForces s p).1, this fun p => (verticalForces s p).2.1,
        this fun p => (verticalForces s p).2.2⟩
    · exact ⟨continuous_zp (x := fun _ => 0) s continuous_const h.angle true 0,
        continuous_zp (x := fun _ => 0) s continuous_const h.angle true 2,
        continuous_zp (x := fun _ => 0) s continuous_const h.angle true 4⟩
    all_goals exact ⟨continuous_const, continuous_const, continuous_const⟩
  rw [forall_rows (fun r => Continuous fun t => rhsFinal s (phi t) (a t) r) n h2]
  refine ⟨fun r => ?_, fun r => ?_, fun i hi r => ?_⟩
  · simp only [fun t => rhsFinal_left s (phi t) (a t) (hl t) hsys hv r, h.support]
    obtain ⟨e1, e2, e3⟩ := hend .left (ki.getD 0 false)
    fin_cases r
    · exact e1
    · exact e2
    · exact e3
  · have key := fun t => rhsFinal_right s (phi t) (a t) (hl t) hsys hv r
    simp only [h.len, h.support] at key
    simp only [key]
    obtain ⟨e1, e2, e3⟩ := hend .right (ki.getD (n - 1) false)
    fin_cases r
    · exact e1
    · exact e2
    · exact e3
  · simp only [fun t => rhsFinal_mid s (phi t) (a t) (hl t) i (by rw [h.len]; exact hi) r]
    obtain ⟨e1, e2⟩ := continuous_skier s (h.weights i) h.angle
    unfold jump
    split_ifs
    · fin_cases r <;> exact continuous_const
    · fin_cases r
      · exact continuous_const
      · exact continuous_const
      · exact continuous_const
      · exact e2
      · exact (e2.mul continuous_const).neg
      · exact e1

theorem Spec.Varies.full {s : Self} {phi : T → ℝ} {a : T → SegLists} {n : ℕ} {ki : List Bool} (h : Varies s phi a n ki)
    (h1 : 1 ≤ n) (hm : ∀ t, (a t).mi.length + 1 = n) : ∃ n' ki', 2 ≤ n' ∧ Varies s phi (fun t => full (a t)) n' ki' := by
  by_cases hn : n = 1
  · refine ⟨2, ki ++ [true], le_refl _, h.face, fun t => ?_, fun t => ?_, h.angle, fun i => ?_, fun i => ?_⟩
    · simp [Weac.full, h.len, hn]
    · simp [Weac.full, h.len, hn, h.support]
    · have e : (fun t => nth (Weac.full (a t)).li i) = if i = 0 then fun t => nth (a t).li 0 else fun _ => 0 := by
        split_ifs with hi
        · funext t
          have hl := h.len t
          rw [hi, Weac.full, if_pos (by omega)]
          obtain ⟨y, hy⟩ := List.length_eq_one_iff.mp (hl.trans hn)
          simp [nth, hy]
        · funext t
          have hl := h.len t
          rw [Weac.full, if_pos (by omega)]
          obtain ⟨y, hy⟩ := List.length_eq_one_iff.mp (hl.trans hn)
          rcases i with _ | _ | i
          · omega
          · simp [nth, hy]
          · simp [nth, hy]
      rw [e]
      split_ifs
      · exact h.lengths 0
      · exact continuous_const
    · have e : (fun t => nth (Weac.full (a t)).mi i) = fun _ => 0 := by
        funext t
        have hl := h.len t
        have hy : (a t).mi = [] := List.eq_nil_of_length_eq_zero (by have := hm t; omega)
        rw [Weac.full, if_pos (by omega)]
        rcases i with _ | i <;> simp [nth, hy]
      rw [e]
      exact continuous_const
  · have e : (fun t => Weac.full (a t)) = a := by
      funext t
      rw [Weac.full, if_neg (by rw [h.len]; exact hn)]
    rw [e]
    exact ⟨n, ki, by omega, h⟩

/-- C55: on an object in a fixed state, the constants returned by
`assemble_and_solve` and the displacements, rotations, and their derivatives at
any position depend continuously on slope angle, segment lengths, and skier
weights. -/
theorem C55_continuous (num : Numerics) (kind : SeqKind) (s : Self) (hf : EigFresh num.eig s) (hv : NoFaceTouchdown s)
    {phi : T → ℝ} {a : T → SegLists} {n : ℕ} {ki : List Bool} (h : Varies s phi a n ki)
    {C : T → List Vec6} (hC : ∀ t, assembleAndSolve num kind (phi t) (a t) s = (.ok (C t, full (a t)), s)) :
    (∀ i, Continuous fun t => (C t).getD i 0) ∧
    ∀ i (x : T → ℝ), Continuous x →
      Continuous fun t => stateAt s (phi t) (full (a t)).li (full (a t)).ki (fun i => (C t).getD i 0) i (x t) := by
  have hval : ∀ t, Valid s (a t) ∧ asmSolve (spring num) (phi t) (full (a t)) s = (.ok (C t), s) := fun t =>
    ⟨(assembleWith_valid (hC t)).1, (assembleWith_valid (hC t)).2.2⟩
  rcases isEmpty_or_nonempty T with hT | ⟨⟨t0⟩⟩
  · exact ⟨fun i => continuous_of_discreteTopology, fun i x hx => continuous_of_discreteTopology⟩
  have hn : 1 ≤ n := by
    have h1 := (hval t0).1.mi
    have h2 := h.len t0
    omega
  obtain ⟨n', ki', h2, h'⟩ := h.full hn fun t => by rw [(hval t).1.mi, h.len]
  have hdef := fun t => asmSolve_defined (spring_frame num s hf) (hval t).2
  have hsys := (hdef t0).sys (by rw [h'.len]; exact h2)
  have hx : ∀ t, ∃ x, npSolve (6 * n') (matAt s (valOf (spring num) s) n' (full (a t)).li ki' n')
      (fun r => rhsFinal s (phi t) (full (a t)) r - vecAt s (valOf (spring num) s) (phi t) n' (full (a t)).li ki' n' r) = .ok x
      ∧ C t = (List.range n').map (constsOf x) := by
    intro t
    have h3 := (hval t).2
    rw [asmSolve_run (by rw [h'.len]; exact h2) (hdef t)] at h3
    simp only [h'.len, h'.support] at h3
    cases hs : npSolve (6 * n') (matAt s (valOf (spring num) s) n' (full (a t)).li ki' n')
      (fun r => rhsFinal s (phi t) (full (a t)) r - vecAt s (valOf (spring num) s) (phi t) n' (full (a t)).li ki' n' r) with
    | error e => rw [hs] at h3; simp [Except.map] at h3
    | ok x =>
      rw [hs] at h3
      simp only [Except.map, Prod.mk.injEq, and_true] at h3
      injection h3 with h3
      exact ⟨x, rfl, h3.symm⟩
  choose x hx1 hx2 using hx
  have hcx := continuous_npSolve hx1 (fun r _ c _ => continuous_matAt s _ n' ki' h'.lengths _ _ _)
    (fun r hr => (continuous_rhs s h' (fun t => (hval t).1.listsOk) h2 hsys hv r hr).sub
      (continuous_vecAt s _ n' ki' h'.lengths h'.angle _ _))
  have hCc : ∀ i, Continuous fun t => (C t).getD i 0 := by
    intro i
    by_cases hi : i < n'
    · have e : (fun t => (C t).getD i 0) = fun t => constsOf (x t) i := by
        funext t
        rw [hx2, List.getD_eq_getElem?_getD, List.getElem?_eq_getElem (by simpa using hi)]
        simp
      rw [e]
      exact continuous_pi fun j => hcx _
    · have e : (fun t => (C t).getD i 0) = fun _ => 0 := by
        funext t
        rw [hx2, List.getD_eq_getElem?_getD, List.getElem?_eq_none (by simpa using hi)]
        rfl
      rw [e]
      exact continuous_const
  refine ⟨hCc, fun i y hy => ?_⟩
  simp only [h'.support]
  refine continuous_pi fun q => ?_
  unfold stateAt zsol
  simp only [Pi.add_apply, Matrix.mulVec, dotProduct]
  refine (continuous_finsetSum _ fun j _ => ?_).add (continuous_zp s hy h'.angle _ _)
  exact (continuous_zh s hy (h'.lengths i) _ _ _).mul ((continuous_apply j).comp (hCc i))

/-- C55 with existence: inputs that vary continuously and stay well-formed have
solutions throughout, and the fields found vary continuously. -/
theorem C55_family (num : Numerics) (kind : SeqKind) (s : Self) (hb : BedOk s) (hc : ShearOk s) (hf : EigFresh num.eig s)
    (hv : NoFaceTouchdown s) {phi : T → ℝ} {a : T → SegLists} {n : ℕ} {ki : List Bool} (h : Varies s phi a n ki)
    (hval : ∀ t, Valid s (a t)) (hkd : kind = .list ∨ n ≠ 1) (hsys : IsPst s ∨ IsVpst s ∨ IsSkier s ∨ IsAux s)
    (hst : IsPst s → s.mode ≠ .unset) (hsp : IsPst s → s.mode = .C → RestOk num s) (hsup : ∀ t, Held s (a t)) :
    ∃ C : T → List Vec6, (∀ t, assembleAndSolve num kind (phi t) (a t) s = (.ok (C t, full (a t)), s)) ∧
      (∀ t, Meets s (phi t) (valOf (spring num) s) (full (a t)) (fun i => (C t).getD i 0)) ∧
      (∀ i, Continuous fun t => (C t).getD i 0) ∧
      ∀ i (x : T → ℝ), Continuous x →
        Continuous fun t => stateAt s (phi t) (full (a t)).li (full (a t)).ki (fun i => (C t).getD i 0) i (x t) := by
  have h1 := fun t => C18_held num kind (phi t) (a t) s hb hc hf (hval t) (by rw [h.len]; exact hkd) hsys
    (fun h _ => hst h) (fun h _ => hsp h) (hsup t)
  choose C hC1 hC2 using h1
  obtain ⟨c1, c2⟩ := C55_continuous num kind s hf hv h hC1
  exact ⟨C, hC1, fun t => (hC2 t hv).1, c1, c2⟩

/-! ### A slab whose slope, crack and skier vary -/

/-- Crack of length `2 t` under a skier of `80 + t` kg. -/
def growing (t : Set.Icc (0 : ℝ) 500) : SegLists := ⟨[2000 - t, t, t, 2000 - t], [0, 80 + t, 0], [true, false, false, true]⟩

example : ∃ C : Set.Icc (0 : ℝ) 500 → List Vec6,
    (∀ t : Set.Icc (0 : ℝ) 500, assembleAndSolve stdNum .ndarray (30 + (t : ℝ) / 100) (growing t) skierDemo = (.ok (C t, growing t), skierDemo)) ∧
    ∀ i, Continuous fun t : Set.Icc (0 : ℝ) 500 =>
      stateAt skierDemo (30 + (t : ℝ) / 100) (growing t).li (growing t).ki (fun i => (C t).getD i 0) i t := by
  have hfull : ∀ t, full (growing t) = growing t := fun t => by unfold full; rw [if_neg (by simp [growing])]
  have hc : Continuous fun t : Set.Icc (0 : ℝ) 500 => (t : ℝ) := continuous_subtype_val
  obtain ⟨C, h1, -, -, h2⟩ := C55_family stdNum .ndarray skierDemo (demo_bedOk _ _) (demo_shear _ _ _)
    (demo_ready _ _ _).fresh.eigFresh skierDemo_noFace (phi := fun t : Set.Icc (0 : ℝ) 500 => 30 + (t : ℝ) / 100)
    (a := growing) (n := 4) (ki := [true, false, false, true])
    { face := fun h => by
        rcases h with h | h <;> exact absurd (h.symm.trans
          (show skierDemo.system = "skiers" from (demo_fields stdEig "skiers" false).2.2.2.2.2.2.2.2.2.2.2.2.2.1)) (by decide)
      len := fun t => rfl
      support := fun t => rfl
      angle := continuous_const.add (hc.div_const _)
      lengths := fun i => by
        match i with
        | 0 => exact continuous_const.sub hc
        | 1 => exact hc
        | 2 => exact hc
        | 3 => exact continuous_const.sub hc
        | i + 4 => exact continuous_const
      weights := fun i => by
        match i with
        | 0 => exact continuous_const
        | 1 => exact continuous_const.add hc
        | 2 => exact continuous_const
        | i + 3 => exact continuous_const }
    (fun t => ⟨by simp [growing], rfl, rfl, fun _ => by simp [growing]⟩) (.inr (by norm_num))
    (.inr (.inr (.inl skierDemo_isSkier))) (fun h => absurd h skierDemo_not_pst) (fun h => absurd h skierDemo_not_pst)
    (fun t => ⟨by
        have h0 := t.2.1
        have h5 := t.2.2
        simp only [growing, List.mem_cons, List.not_mem_nil, or_false]
        rintro l (rfl | rfl | rfl | rfl) <;> linarith,
      0, by simp [growing], .inl rfl, by
        have h5 := t.2.2
        simp only [growing, nth, List.getD_cons_zero]
        linarith⟩)
  exact ⟨C, fun t => by rw [h1, hfull], fun i => by simpa only [hfull] using h2 i _ hc⟩

end Weac
