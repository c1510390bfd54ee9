import Verif.Lemmas.Ode
import Verif.Props.Assemble

/-!
# C18: unique solvability
-/

namespace Weac

open Spec

/-- The weak layer is not excessively stiff in shear compared to the slab. -/
def ShearOk (s : Self) : Prop := s.kt * s.t ^ 2 < 16 * s.kA55

theorem Stiff.coercive {s : Self} (hs : Stiff s) (h : ShearOk s) : s.beam.Coercive := by
  refine ⟨hs.A11, ?_, hs.kA55, hs.kn, hs.kt, h⟩
  have h1 := hs.K0
  rw [hs.K0_eq] at h1
  show 0 < s.A11 * s.D11 - s.B11 ^ 2
  linarith

/-! ## Complementary solutions -/

theorem zh_solves (s : Self) (hb : BedOk s) (k : Bool) (l : ℝ) (C : Vec6) :
    SolvesODE s.beam Loads.zero k (fun x => (zh s x l k).mulVec C) := by
  intro x
  cases k with
  | true =>
    refine ⟨_, zh_true_deriv s hb.modes l C x, ?_⟩
    unfold Equil
    rw [if_pos rfl]
    exact (K_iff_equilibrium s hb.stiff.regular _ _).mp rfl
  | false =>
    obtain ⟨h1, h2⟩ := C11_free_complementary s hb.stiff.regular C l x
    exact ⟨_, h1, by simpa [Equil] using h2⟩

theorem zh_zero (s : Self) (hb : BedOk s) (k : Bool) (l x : ℝ) (C : Vec6) (h : (zh s x l k).mulVec C = 0) :
    C = 0 := by
  cases k with
  | true =>
    refine (Matrix.mulVec_injective_iff_isUnit).mpr (zh_true_isUnit s hb l x) ?_
    rw [h, Matrix.mulVec_zero]
  | false => exact zhFree_injective s hb.stiff.regular x C (by simpa [zh] using h)

/-! ## The homogeneous system -/

/-- Complementary part of the state in segment `i`. -/
noncomputable def homAt (s : Self) (li : List ℝ) (ki : List Bool) (C : ℕ → Vec6) (i : ℕ) (x : ℝ) : Vec6 :=
  (zh s x (nth li i) (ki.getD i false)).mulVec (C i)

theorem row_sum_hom (s : Self) (kR : ℝ) (nS : ℕ) (li : List ℝ) (ki : List Bool) (x : ℕ → ℝ) (r : ℕ) :
    ∑ c ∈ Finset.range (6 * nS), matAt s kR nS li ki nS r c * x c
    = ∑ i ∈ Finset.range nS, rowOf s kR nS ki i r (homAt s li ki (constsOf x) i 0)
        (homAt s li ki (constsOf x) i (nth li i)) := by
  have h := row_sum s kR 0 nS li ki x r
  have hz : vecAt s kR 0 nS li ki nS r = ∑ i ∈ Finset.range nS,
      rowOf s kR nS ki i r (zp s 0 0 (ki.getD i false)) (zp s (nth li i) 0 (ki.getD i false)) := rfl
  rw [hz] at h
  rw [eq_sub_of_add_eq h, ← Finset.sum_sub_distrib]
  refine Finset.sum_congr rfl fun i _ => ?_
  have hl : ∀ zl zr, rowOf s kR nS ki i r zl zr = rowLin s kR nS ki i r (zl, zr) := fun _ _ => rfl
  rw [hl, hl, hl, ← map_sub, Prod.mk_sub_mk]
  congr 2 <;> simp [stateAt, zsol, homAt]

theorem bcFun_left_hom (s : Self) (phi kR : ℝ) (k : Bool)
    (hsys : IsPst s ∨ IsVpst s ∨ IsSkier s ∨ IsAux s) (z : Vec6) :
    (∀ t : Fin 3, bcFun s kR k .l z t = 0) ↔ (endCond s phi kR .left k).hom.Holds s.beam z := by
  rw [Fin.forall_fin_succ, Fin.forall_fin_succ, Fin.forall_fin_one]
  unfold bcFun endCond
  rcases sys_kinds hsys with ⟨h1, h2, h3, h4⟩ | ⟨h1, h2, h3, h4⟩ | ⟨h1, h2, h3, h4⟩ | ⟨h1, h2, h3, h4, h5⟩ |
    ⟨h1, h2, h3, h4, h5⟩
  · simp only [if_pos h1]
    cases k with
    | true => simp [EndCond.hom, EndCond.Holds, fN, fM, fV, Self.beam, Beam.N, Beam.M, Beam.V]
    | false =>
      rcases hm : s.mode with _ | _ | _ | _ <;>
        simp [EndCond.hom, EndCond.Holds, fN, fM, fV, fw, fpsi, Self.beam, Beam.N, Beam.M, Beam.V, Side.sgn,
          sub_eq_add_neg]
  · simp only [if_neg h1, if_pos h2, if_neg h3]
    simp [EndCond.hom, EndCond.Holds, faceForces, fN, fM, fV, Self.beam, Beam.N, Beam.M, Beam.V]
  · simp only [if_neg h1, if_neg h2, if_pos h3]
    simp [EndCond.hom, EndCond.Holds, fu, fw, fpsi]
  · simp only [if_neg h1, if_neg h2, if_neg h3, if_pos h5]
    simp [EndCond.hom, EndCond.Holds, fN, fM, fV, Self.beam, Beam.N, Beam.M, Beam.V]
  · have h6 : s.system ≠ "rot" := by rw [h5]; decide
    simp only [if_neg h1, if_neg h2, if_neg h3, if_neg h6]
    simp [EndCond.hom, EndCond.Holds, fN, fM, fV, Self.beam, Beam.N, Beam.M, Beam.V]

theorem bcFun_right_hom (s : Self) (phi kR : ℝ) (k : Bool)
    (hsys : IsPst s ∨ IsVpst s ∨ IsSkier s ∨ IsAux s) (z : Vec6) :
    (∀ t : Fin 3, bcFun s kR k .r z t = 0) ↔ (endCond s phi kR .right k).hom.Holds s.beam z := by
  rw [Fin.forall_fin_succ, Fin.forall_fin_succ, Fin.forall_fin_one]
  unfold bcFun endCond
  rcases sys_kinds hsys with ⟨h1, h2, h3, h4⟩ | ⟨h1, h2, h3, h4⟩ | ⟨h1, h2, h3, h4⟩ | ⟨h1, h2, h3, h4, h5⟩ |
    ⟨h1, h2, h3, h4, h5⟩
  · simp only [if_pos h1]
    cases k with
    | true => simp [EndCond.hom, EndCond.Holds, fN, fM, fV, Self.beam, Beam.N, Beam.M, Beam.V]
    | false =>
      rcases hm : s.mode with _ | _ | _ | _ <;>
        simp [EndCond.hom, EndCond.Holds, fN, fM, fV, fw, fpsi, Self.beam, Beam.N, Beam.M, Beam.V, Side.sgn]
  · simp only [if_neg h1, if_pos h2, if_neg h3]
    simp [EndCond.hom, EndCond.Holds, faceForces, fN, fM, fV, Self.beam, Beam.N, Beam.M, Beam.V]
  · simp only [if_neg h1, if_neg h2, if_pos h3]
    simp [EndCond.hom, EndCond.Holds, fu, fw, fpsi]
  · simp only [if_neg h1, if_neg h2, if_neg h3, if_pos h5]
    simp [EndCond.hom, EndCond.Holds, fN, fM, fV, Self.beam, Beam.N, Beam.M, Beam.V]
  · have h6 : s.system ≠ "rot" := by rw [h5]; decide
    simp only [if_neg h1, if_neg h2, if_neg h3, if_neg h6]
    simp [EndCond.hom, EndCond.Holds, fN, fM, fV, Self.beam, Beam.N, Beam.M, Beam.V]

theorem endCond_passive_left (s : Self) (phi kR : ℝ) (k : Bool) (hk : 0 ≤ kR) :
    (endCond s phi kR .left k).PassiveLeft := by
  unfold endCond faceForces
  split_ifs <;> first | trivial | skip
  rcases s.mode with _ | _ | _ | _ <;> simp [EndCond.PassiveLeft, Side.sgn, hk]

theorem endCond_passive_right (s : Self) (phi kR : ℝ) (k : Bool) (hk : 0 ≤ kR) :
    (endCond s phi kR .right k).PassiveRight := by
  unfold endCond faceForces
  split_ifs <;> first | trivial | skip
  rcases s.mode with _ | _ | _ | _ <;> simp [EndCond.PassiveRight, Side.sgn, hk]

/-- Non-negative segment lengths and a supported segment of positive length. -/
structure Supported (a : SegLists) : Prop where
  nonneg : ∀ l ∈ a.li, 0 ≤ l
  bed : ∃ i, i < a.li.length ∧ a.ki.getD i false = true ∧ 0 < nth a.li i

/-- Non-negative segment lengths, and a supported segment of positive length or
fixed ends and any segment of positive length. -/
structure Held (s : Self) (a : SegLists) : Prop where
  nonneg : ∀ l ∈ a.li, 0 ≤ l
  held : ∃ i, i < a.li.length ∧ (a.ki.getD i false = true ∨ IsSkier s) ∧ 0 < nth a.li i

theorem Supported.held {a : SegLists} (h : Supported a) (s : Self) : Held s a := by
  obtain ⟨i, h1, h2, h3⟩ := h.bed
  exact ⟨h.nonneg, i, h1, .inl h2, h3⟩

theorem Held.first {s : Self} {a : SegLists} (h : Held s a) : ∃ i, i < a.li.length ∧ 0 < nth a.li i ∧
    (a.ki.getD i false = true ∨ IsSkier s ∧ ∀ j < i, nth a.li j = 0) := by
  obtain ⟨i, h1, h2 | h2, h3⟩ := h.held
  · exact ⟨i, h1, h3, .inl h2⟩
  · have hex : ∃ j, 0 < nth a.li j := ⟨i, h3⟩
    classical
    have hle : Nat.find hex ≤ i := Nat.find_le h3
    refine ⟨Nat.find hex, by omega, Nat.find_spec hex, .inr ⟨h2, fun j hj => ?_⟩⟩
    have h4 := Nat.find_min hex hj
    refine le_antisymm (not_lt.mp h4) ?_
    apply h.nonneg
    rw [nth, List.getD_eq_getElem _ _ (by omega)]
    exact List.getElem_mem _

theorem skier_state (s : Self) (phi kR : ℝ) (e : Side) (k : Bool) (h : IsSkier s) :
    ∃ u w psi, endCond s phi kR e k = .state u w psi := by
  have h1 : ¬ IsPst s := by rintro (h' | h') <;> rcases h with h | h <;> rw [h] at h' <;> exact absurd h' (by decide)
  have h2 : ¬ IsVpst s := by rintro (h' | h') <;> rcases h with h | h <;> rw [h] at h' <;> exact absurd h' (by decide)
  unfold endCond
  rw [if_neg h1, if_neg h2, if_pos h]
  exact ⟨_, _, _, rfl⟩

/-- The homogeneous system has only the trivial solution. -/
theorem asm_injective (s : Self) (hb : BedOk s) (hc : ShearOk s) (kR : ℝ) (hk : 0 ≤ kR) (a : SegLists)
    (h2 : 2 ≤ a.li.length) (hsys : IsPst s ∨ IsVpst s ∨ IsSkier s ∨ IsAux s) (hsup : Held s a) (y : ℕ → ℝ)
    (hy : ∀ r < 6 * a.li.length,
      ∑ c ∈ Finset.range (6 * a.li.length), matAt s kR a.li.length a.li a.ki a.li.length r c * y c = 0) :
    ∀ i < 6 * a.li.length, y i = 0 := by
  simp only [row_sum_hom] at hy
  rw [forall_rows _ _ h2] at hy
  simp only [row_left s kR _ h2, row_right s kR _ h2] at hy
  rw [bcFun_left_hom s 0 kR _ hsys, bcFun_right_hom s 0 kR _ hsys] at hy
  obtain ⟨hy1, hy2, hy3⟩ := hy
  obtain ⟨j, hj, hlj, hkj⟩ := hsup.first
  have hz := unloaded_at_rest (hb.stiff.coercive hc) a.li.length (nth a.li) (fun i => a.ki.getD i false)
    (homAt s a.li a.ki (constsOf y)) ?_ (fun i _ => zh_solves s hb _ _ _) ?_ _ _
    (endCond_passive_left s 0 kR (a.ki.getD 0 false) hk)
    (endCond_passive_right s 0 kR (a.ki.getD (a.li.length - 1) false) hk) ⟨hy1, hy2, ?_⟩ j hj hlj
    (hkj.imp_right fun h => ⟨skier_state s 0 kR _ _ h.1, h.2⟩)
  · intro c hcl
    have h0 := zh_zero s hb _ _ _ _ (hz (c / 6) (by omega) 0)
    have := congrFun h0 (Fin.ofNat 6 c)
    simp only [constsOf, Fin.ofNat, Pi.zero_apply] at this
    rwa [show 6 * (c / 6) + c % 6 = c by omega] at this
  · intro i hi
    apply hsup.nonneg
    rw [nth, List.getD_eq_getElem _ _ hi]
    exact List.getElem_mem hi
  · intro i _ x hx y'
    have h0 := zh_zero s hb _ _ _ _ hx
    simp only [homAt, h0, Matrix.mulVec_zero]
  · intro i hi
    refine (six_iff s (0, 0, 0) _ _).mp fun t => ?_
    have := hy3 i hi t
    rw [row_mid s kR _ _ _ _ i hi] at this
    rw [this]
    fin_cases t <;> rfl

/-- Whether the conditions at the ends of the chain can be evaluated: touchdown
has been staged before a PST with an unsupported end is solved, and the spring
is available where it is needed. -/
structure EndsReady (sub : Py ℝ) (s : Self) (a : SegLists) : Prop where
  system : IsPst s ∨ IsVpst s ∨ IsSkier s ∨ IsAux s
  staged : IsPst s → (a.ki.getD 0 false = false ∨ a.ki.getD (a.li.length - 1) false = false) → s.mode ≠ .unset
  spring : IsPst s → (a.ki.getD 0 false = false ∨ a.ki.getD (a.li.length - 1) false = false) → s.mode = .C →
    ∃ kR, sub s = (.ok kR, s)

theorem EndsReady.defined {sub : Py ℝ} {s : Self} {a : SegLists} (h : EndsReady sub s a) (hb : BedOk s) :
    AsmDefined sub s a := by
  intro i hi
  refine ⟨fun hp => ?_, fun _ => by rw [zhBed_length]; exact hb.six⟩
  have hend : i = 0 ∨ i = a.li.length - 1 := by
    unfold posOf at hp
    split_ifs at hp with h1 h2
    · right; omega
    · left; exact h2
    · exact absurd rfl hp
  have hor : a.ki.getD i false = false →
      (a.ki.getD 0 false = false ∨ a.ki.getD (a.li.length - 1) false = false) := by
    intro hf
    rcases hend with rfl | rfl
    · exact .inl hf
    · exact .inr hf
  refine ⟨h.system, fun hn => h.spring hn.1 (hor hn.2.1) hn.2.2, fun hp hf => ?_⟩
  have := h.staged hp (hor hf)
  rcases hm : s.mode with _ | _ | _ | _ <;> simp_all

theorem asmSolve_succeeds {sub : Py ℝ} {s : Self} (phi : ℝ) {a : SegLists} (hb : BedOk s) (hc : ShearOk s)
    (h2 : 2 ≤ a.li.length) (hr : EndsReady sub s a) (hk : 0 ≤ valOf sub s) (hsup : Held s a) :
    ∃ C, asmSolve sub phi a s = (.ok C, s) := by
  rw [asmSolve_run h2 (hr.defined hb)]
  obtain ⟨x, hx⟩ := npSolve_of_injective (n := 6 * a.li.length)
    (M := matAt s (valOf sub s) a.li.length a.li a.ki a.li.length)
    (fun r => rhsFinal s phi a r - vecAt s (valOf sub s) phi a.li.length a.li a.ki a.li.length r)
    (asm_injective s hb hc (valOf sub s) hk a h2 hr.system hsup)
  rw [hx]
  exact ⟨_, rfl⟩

theorem Held.full {s : Self} {a : SegLists} (h : Held s a) (hki : a.ki.length = a.li.length) :
    Held s (Weac.full a) := by
  unfold Weac.full
  split_ifs with h1
  · refine ⟨?_, ?_⟩
    · intro l hl
      simp only [List.mem_append, List.mem_singleton] at hl
      rcases hl with hl | hl
      · exact h.nonneg l hl
      · rw [hl]
    · obtain ⟨i, hi, hk, hp⟩ := h.held
      refine ⟨i, by simp; omega, hk.imp_left fun hk => ?_, ?_⟩
      · rw [List.getD_append _ _ _ _ (by omega)]; exact hk
      · rw [nth, List.getD_append _ _ _ _ hi]; exact hp
  · exact h

theorem assembleWith_succeeds {sub : Py ℝ} {s : Self} (kind : SeqKind) (phi : ℝ) {a : SegLists} (hb : BedOk s)
    (hc : ShearOk s) (hv : Valid s a) (hkd : kind = .list ∨ a.li.length ≠ 1) (hr : EndsReady sub s (full a))
    (hk : 0 ≤ valOf sub s) (hsup : Held s a) :
    ∃ C, assembleWith sub kind phi a s = (.ok (C, full a), s) := by
  obtain ⟨C, hC⟩ := asmSolve_succeeds phi hb hc (full_two hv) hr hk (hsup.full hv.ki)
  refine ⟨C, ?_⟩
  rw [C17_accepts sub kind phi a s hv hkd, hC]
  rfl

/-! ## The auxiliary problem of the substitute springs -/

theorem aux_valid (s : Self) (h : IsAux s) (L : ℝ) : Valid s (auxLists L) := by
  refine ⟨by simp [auxLists], rfl, rfl, fun hf => ?_⟩
  exfalso
  apply hf
  unfold finiteSystem
  rcases h with h | h <;> rw [h] <;> decide

theorem aux_supported (L : ℝ) (hL : 0 < L) : Supported (auxLists L) := by
  refine ⟨?_, 0, by simp [auxLists], by simp [auxLists], by simpa [auxLists, nth] using hL⟩
  intro l hl
  simp only [auxLists, List.mem_cons, List.not_mem_nil, or_false] at hl
  rcases hl with rfl | rfl
  · exact hL.le
  · exact le_refl _

theorem aux_not_pst {s : Self} (h : IsAux s) : ¬ IsPst s := by
  unfold IsPst
  rcases h with h | h <;> rw [h] <;> decide

theorem aux_not_vpst {s : Self} (h : IsAux s) : ¬ IsVpst s := by
  unfold IsVpst
  rcases h with h | h <;> rw [h] <;> decide

theorem aux_full (L : ℝ) : full (auxLists L) = auxLists L := by
  unfold full
  rw [if_neg (by simp [auxLists])]

theorem valOf_noSub (s : Self) : valOf noSub s = 0 := rfl

theorem aux_solvable {s : Self} (hb : BedOk s) (hc : ShearOk s) (h : IsAux s) (L : ℝ) (hL : 0 < L) :
    ∃ C, assembleWith noSub .ndarray 0 (auxLists L) s = (.ok (C, auxLists L), s) := by
  have := assembleWith_succeeds (sub := noSub) .ndarray 0 hb hc (aux_valid s h L) (.inr (by simp [auxLists]))
    ⟨.inr (.inr (.inr h)), fun hp => absurd hp (aux_not_pst h), fun hp => absurd hp (aux_not_pst h)⟩
    (by rw [valOf_noSub]) ((aux_supported L hL).held s)
  rwa [aux_full] at this

theorem tip_ok (s : Self) (L : ℝ) (hL : 0 < L) (C : List Vec6) :
    tip s L C = .ok (zsol s 0 (C.getD 0 0) L 0 true) := by
  have hd : dropZero [⟨C.getD 0 0, true, L⟩, ⟨C.getD 1 0, true, 0⟩] = [⟨C.getD 0 0, true, L⟩] := by
    simp [dropZero, abs_of_pos hL, hL]
  unfold tip rasterize
  rw [hd]
  have hn : nqOf 1 (List.map Seg.l [⟨C.getD 0 0, true, L⟩]).sum L true = 2 := by
    simp [nqOf, hL.ne']
  simp only [Except.map, rasterLoop, List.isEmpty_nil, segPts, List.append_nil, hn]
  simp [linspace, List.range_succ]

/-- A substitute spring can be evaluated whenever the auxiliary object is sane. -/
theorem substitute_run (eig : EigSolver) (L : ℝ) (hL : 0 < L) (rested : Bool) (dof : Dof) (hd : dof ≠ .other)
    (s : Self) (hf : EigFresh eig s) (hb : BedOk (prep eig rested dof s)) (hc : ShearOk (prep eig rested dof s)) :
    ∃ k C, 0 ≤ k ∧
      assembleWith noSub .ndarray 0 (auxLists L) (prep eig rested dof s)
        = (.ok (C, auxLists L), prep eig rested dof s) ∧
      (k = |1 / fpsi (zsol (prep eig rested dof s) 0 (C.getD 0 0) L 0 true)| ∧ dof = .rot ∨
        k = |1 / fw (zsol (prep eig rested dof s) 0 (C.getD 0 0) L 0 true)| ∧ dof = .trans) ∧
      substituteStiffness eig L rested dof s = (.ok k, s) := by
  have haux : IsAux (prep eig rested dof s) := by
    cases dof with
    | rot => left; unfold prep; split_ifs <;> rfl
    | trans => right; unfold prep; split_ifs <;> rfl
    | other => exact absurd rfl hd
  obtain ⟨C, hC⟩ := aux_solvable hb hc haux L hL
  have ht := tip_ok (prep eig rested dof s) L hL C
  have key : (substituteStiffness eig L rested dof s).1 = .ok (match dof with
      | .rot => |1 / fpsi (zsol (prep eig rested dof s) 0 (C.getD 0 0) L 0 true)|
      | _ => |1 / fw (zsol (prep eig rested dof s) 0 (C.getD 0 0) L 0 true)|) := by
    unfold tip at ht
    rcases hr : rasterize (prep eig rested dof s) 0 1 [⟨C.getD 0 0, true, L⟩, ⟨C.getD 1 0, true, 0⟩] with e | pts
    · rw [hr] at ht
      simp [Except.map] at ht
    rw [hr] at ht
    simp only [Except.map, Except.ok.injEq] at ht
    unfold substituteStiffness
    cases dof <;> cases rested <;>
      simp only [Py.get_bind, Py.bind_assoc, Py.modify_bind, Py.pure_bind', if_true, Bool.false_eq_true,
        if_false]
    case other.true | other.false => exact absurd rfl hd
    all_goals
      refine (congrArg Prod.fst (Py.bind_of_ok hC)).trans ?_
      rw [Py.get_bind, Py.bind_eq, Py.lift_apply, hr]
      simp only [Py.bind_assoc, Py.modify_bind, Py.pure_bind', Py.pure_apply, ht]
      try rfl
  rcases hrun : substituteStiffness eig L rested dof s with ⟨r, s'⟩
  rw [hrun] at key
  simp only at key
  subst key
  have := C25_substitute_stiffness_frame eig L rested dof s s' _ hf hrun
  subst this
  refine ⟨_, C, ?_, hC, ?_, rfl⟩
  · cases dof <;> exact abs_nonneg _
  · cases dof with
    | rot => exact .inl ⟨rfl, rfl⟩
    | trans => exact .inr ⟨rfl, rfl⟩
    | other => exact absurd rfl hd

/-! ## C18 -/

theorem spring_nonneg (num : Numerics) (s : Self) : 0 ≤ valOf (spring num) s := by
  rcases h : spring num s with ⟨e | k, s'⟩
  · simp [valOf, h]
  · rw [valOf_ok h]
    unfold spring at h
    rw [Py.get_bind] at h
    obtain ⟨-, z, -, -, h3, -⟩ := substitute_ok h
    rcases h3 with ⟨-, rfl⟩ | ⟨-, rfl⟩ <;> exact abs_nonneg _

/-- What stage C needs: the tip rests on a piece of positive length, whose
auxiliary problem (stiffer foundation) is as sane as the original one. -/
structure RestOk (num : Numerics) (s : Self) : Prop where
  td : s.td < s.a
  bed : BedOk (prep num.eig true .rot s)
  shear : ShearOk (prep num.eig true .rot s)

theorem spring_ok (num : Numerics) (s : Self) (hf : EigFresh num.eig s) (h : RestOk num s) :
    ∃ kR, spring num s = (.ok kR, s) := by
  obtain ⟨k, -, -, -, -, hk⟩ := substitute_run num.eig (s.a - s.td) (sub_pos.mpr h.td) true .rot (by simp) s hf
    h.bed h.shear
  refine ⟨k, ?_⟩
  unfold spring
  rw [Py.get_bind]
  exact hk

/-- One end of the chain hangs over the crack. -/
def OpenEnd (a : SegLists) : Prop := a.ki.getD 0 false = false ∨ a.ki.getD (a.li.length - 1) false = false

/-- C18. Every well-formed problem has exactly one solution, and the solver
finds it: no singular matrix, no other exception, the object is unchanged. With
the fixed ends of a skier system no segment of positive length needs to be
supported. -/
theorem C18_held (num : Numerics) (kind : SeqKind) (phi : ℝ) (a : SegLists) (s : Self)
    (hb : BedOk s) (hc : ShearOk s) (hf : EigFresh num.eig s) (hv : Valid s a)
    (hkd : kind = .list ∨ a.li.length ≠ 1) (hsys : IsPst s ∨ IsVpst s ∨ IsSkier s ∨ IsAux s)
    (hst : IsPst s → OpenEnd (full a) → s.mode ≠ .unset)
    (hsp : IsPst s → OpenEnd (full a) → s.mode = .C → RestOk num s) (hsup : Held s a) :
    ∃ C, assembleAndSolve num kind phi a s = (.ok (C, full a), s) ∧
      (NoFaceTouchdown s → Meets s phi (valOf (spring num) s) (full a) (fun i => C.getD i 0) ∧
        ∀ C' : ℕ → Vec6, Meets s phi (valOf (spring num) s) (full a) C' →
          ∀ i < (full a).li.length, C' i = C.getD i 0) := by
  obtain ⟨C, hC⟩ := assembleWith_succeeds (sub := spring num) kind phi hb hc hv hkd
    ⟨hsys, hst, fun h1 h2 h3 => spring_ok num s hf (hsp h1 h2 h3)⟩ (spring_nonneg num s) hsup
  refine ⟨C, hC, fun hn => ?_⟩
  obtain ⟨-, -, -, h4, h5⟩ := C16_solution_meets_all_conditions num kind phi a (full a) s s C hf hn hC
  exact ⟨h4, h5⟩

/-- C18 for segments of which one with positive length is supported. -/
theorem C18_unique_solution (num : Numerics) (kind : SeqKind) (phi : ℝ) (a : SegLists) (s : Self)
    (hb : BedOk s) (hc : ShearOk s) (hf : EigFresh num.eig s) (hv : Valid s a)
    (hkd : kind = .list ∨ a.li.length ≠ 1) (hsys : IsPst s ∨ IsVpst s ∨ IsSkier s ∨ IsAux s)
    (hst : IsPst s → OpenEnd (full a) → s.mode ≠ .unset)
    (hsp : IsPst s → OpenEnd (full a) → s.mode = .C → RestOk num s) (hsup : Supported a) :
    ∃ C, assembleAndSolve num kind phi a s = (.ok (C, full a), s) ∧
      (NoFaceTouchdown s → Meets s phi (valOf (spring num) s) (full a) (fun i => C.getD i 0) ∧
        ∀ C' : ℕ → Vec6, Meets s phi (valOf (spring num) s) (full a) C' →
          ∀ i < (full a).li.length, C' i = C.getD i 0) :=
  C18_held num kind phi a s hb hc hf hv hkd hsys hst hsp (hsup.held s)

/-! ## Balance obeyed by the computed fields -/

/-- The load per length that the fields of `z` balance: tangential, normal,
moment. In unsupported segments the moment deviates from the specification by
`B11 / A11 * pt` (see C12). -/
noncomputable def driveOf (s : Self) (phi : ℝ) (bed : Bool) : ℝ × ℝ × ℝ :=
  let d := s.beam.drive (s.loads phi)
  (d.1, d.2.1, d.2.2 - if bed then 0 else s.B11 / s.A11 * (s.loads phi).pt)

theorem zp_driven (s : Self) (hs : Regular s) (phi : ℝ) (bed : Bool) :
    Driven s.beam bed (driveOf s phi bed) (fun x => zp s x phi bed) := by
  intro x
  cases bed with
  | true =>
    refine ⟨0, ?_, ?_⟩
    · have : (fun x => zp s x phi true) = fun _ => zp s 0 phi true := funext fun y => zp_bed_const s y phi
      rw [this]
      exact hasDerivAt_const x _
    · have h1 := (C10_bedded_particular s hs x x phi).2.1
      have h2 := (C09_dzdx_iff_equilibrium s hs _ 0 phi).mp h1.symm
      have h3 := (equil_iff_balance s.beam (s.loads phi) true (zp s x phi true) 0).mp (by
        unfold Equil; rw [if_pos rfl]; exact h2)
      simpa [driveOf] using h3
  | false =>
    refine ⟨dzpFree s x phi, hasDerivAt_zpFree s x phi, ?_⟩
    have hA := hs.A11
    have hk := hs.kA55
    have hK := hs.K0
    have hKe := hs.K0_eq
    refine ⟨⟨?_, ?_, ?_⟩, ?_, ?_, ?_⟩
    · simp [zp, dzpFree, Self.loads]
    · simp [zp, dzpFree, Self.loads]
    · simp [zp, dzpFree, Self.loads]
    · simp [dzpFree, driveOf, Beam.drive, Self.beam]; field_simp; ring
    · simp [dzpFree, driveOf, Beam.drive, Self.beam]; field_simp; ring
    · simp [zp, dzpFree, driveOf, Beam.drive, Self.beam, Beam.V, Self.loads]
      have e : s.D11 = (s.B11 ^ 2 - s.K0) / s.A11 := by field_simp; linear_combination hKe
      rw [e]
      field_simp
      ring

theorem stateAt_driven (s : Self) (hb : BedOk s) (phi : ℝ) (li : List ℝ) (ki : List Bool) (C : ℕ → Vec6) (i : ℕ) :
    Driven s.beam (ki.getD i false) (driveOf s phi (ki.getD i false)) (stateAt s phi li ki C i) := by
  have h1 := (solvesODE_iff_driven _ _ _ _).mp (zh_solves s hb (ki.getD i false) (nth li i) (C i))
  have h2 := h1.add (zp_driven s hb.stiff.regular phi (ki.getD i false))
  have e : s.beam.drive Loads.zero = 0 := by simp [Beam.drive, Loads.zero]
  rw [e, zero_add] at h2
  exact h2

theorem Held.nth_nonneg {s : Self} {a : SegLists} (h : Held s a) (i : ℕ) : 0 ≤ nth a.li i := by
  rw [nth]
  by_cases hi : i < a.li.length
  · rw [List.getD_eq_getElem _ _ hi]
    exact h.nonneg _ (List.getElem_mem hi)
  · rw [List.getD_eq_default _ _ (by omega)]

/-- The computed field is the only one in balance with these loads that meets
all conditions. -/
theorem field_unique (s : Self) (hb : BedOk s) (hc : ShearOk s) (phi kR : ℝ) (hk : 0 ≤ kR) (a : SegLists)
    (hsup : Held s a) (C : ℕ → Vec6) (hC : Meets s phi kR a C) (Y : ℕ → ℝ → Vec6)
    (hY : ∀ i < a.li.length, Driven s.beam (a.ki.getD i false) (driveOf s phi (a.ki.getD i false)) (Y i))
    (hB : Bvp s.beam a.li.length (jump s phi a.mi) (endCond s phi kR .left (a.ki.getD 0 false))
      (endCond s phi kR .right (a.ki.getD (a.li.length - 1) false)) (fun i => Y i 0) (fun i => Y i (nth a.li i))) :
    ∀ i < a.li.length, ∀ x, Y i x = stateAt s phi a.li a.ki C i x :=
  chain_unique (hb.stiff.coercive hc) a.li.length (nth a.li) (fun i => a.ki.getD i false) _ Y
    (stateAt s phi a.li a.ki C) (fun i _ => hsup.nth_nonneg i) hY (fun i _ => stateAt_driven s hb phi a.li a.ki C i)
    _ _ _ (endCond_passive_left s phi kR _ hk) (endCond_passive_right s phi kR _ hk) hB hC
    (by obtain ⟨i, h1, h2, h3⟩ := hsup.first
        exact ⟨i, h1, h2, h3.imp_right fun h => ⟨skier_state s phi kR _ _ h.1, h.2⟩⟩)

/-- C18, fields. When the particular integral is right (C12), any field in
equilibrium with weight and surface load that meets the end and transmission
conditions is the computed one. -/
theorem C18_only_equilibrium (num : Numerics) (kind : SeqKind) (phi : ℝ) (a a' : SegLists) (s s' : Self)
    (C : List Vec6) (hb : BedOk s) (hc : ShearOk s) (hf : EigFresh num.eig s) (hn : NoFaceTouchdown s)
    (hp : s.B11 * (s.loads phi).pt = 0) (hsup : Held s a)
    (h : assembleAndSolve num kind phi a s = (.ok (C, a'), s')) (Y : ℕ → ℝ → Vec6)
    (hY : ∀ i < a'.li.length, SolvesODE s.beam (s.loads phi) (a'.ki.getD i false) (Y i))
    (hB : Bvp s.beam a'.li.length (jump s phi a'.mi)
      (endCond s phi (valOf (spring num) s) .left (a'.ki.getD 0 false))
      (endCond s phi (valOf (spring num) s) .right (a'.ki.getD (a'.li.length - 1) false))
      (fun i => Y i 0) (fun i => Y i (nth a'.li i))) :
    ∀ i < a'.li.length, ∀ x, Y i x = zsol s x (C.getD i 0) (nth a'.li i) phi (a'.ki.getD i false) := by
  obtain ⟨-, rfl, -, hm, -⟩ := C16_solution_meets_all_conditions num kind phi a a' s s' C hf hn h
  have hv := (assembleWith_valid (sub := spring num) h).1
  refine field_unique s hb hc phi _ (spring_nonneg num s) _ (hsup.full hv.ki) _ hm Y (fun i hi => ?_) hB
  have h1 := (solvesODE_iff_driven _ _ _ _).mp (hY i hi)
  have e : driveOf s phi ((full a).ki.getD i false) = s.beam.drive (s.loads phi) := by
    unfold driveOf
    split_ifs
    · simp
    · rw [div_mul_eq_mul_div, hp]; simp
  rwa [e]

end Weac
