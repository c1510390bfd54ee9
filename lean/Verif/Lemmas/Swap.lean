import Verif.Lemmas.Alike
import Verif.Lemmas.LinearSystem

/-!
# Objects that differ in the choice of eigenvectors only

If two sets of eigenvectors span the same solutions, the linear systems differ
by a change of the unknowns: both are regular or both are singular, and the
constants found belong to the same fields.
-/

namespace Weac

/-- `s'` is `s` with the eigensystem `e'` in place of `e`. -/
def Swap (e e' : Eigs) (s s' : Self) : Prop := s.eigs = e ∧ s' = { s with eigs := e' }

section
variable {α β : Type}

/-- Two calls on objects related by `R`: related values and objects related by
`R'`, or the same exception. -/
def Runs (R R' : Self → Self → Prop) (Q : α → α → Prop) (m m' : Py α) : Prop :=
  ∀ s s', R s s' → match m s, m' s' with
    | (.ok a, t), (.ok b, t') => Q a b ∧ R' t t'
    | (.error e, _), (.error f, _) => e = f
    | _, _ => False

variable {R R' R'' : Self → Self → Prop} {P : α → α → Prop} {Q : β → β → Prop}

theorem Runs.pure {a b : α} (h : P a b) : Runs R R P (Pure.pure a : Py α) (Pure.pure b) := fun _ _ hs => ⟨h, hs⟩

theorem Runs.raise (e : PyErr) : Runs R R' P (Py.raise e : Py α) (Py.raise e) := fun _ _ _ => rfl

theorem Runs.lift {a b : Res α} (h : ResRel P a b) : Runs R R P (Py.lift a) (Py.lift b) := by
  intro s s' hs
  unfold Py.lift
  cases a <;> cases b <;> simp_all [ResRel]

theorem Runs.modify {f f' : Self → Self} (h : ∀ s s', R s s' → R' (f s) (f' s')) :
    Runs R R' (· = ·) (Py.modify f) (Py.modify f') := fun _ _ hs => ⟨rfl, h _ _ hs⟩

theorem Runs.bind {m m' : Py α} {f f' : α → Py β} (h : Runs R R' P m m') (hf : ∀ a b, P a b → Runs R' R'' Q (f a) (f' b)) :
    Runs R R'' Q (m >>= f) (m' >>= f') := by
  intro s s' hs
  have h1 := h s s' hs
  show match Py.bind m f s, Py.bind m' f' s' with
    | (.ok a, t), (.ok b, t') => Q a b ∧ R'' t t'
    | (.error e, _), (.error f, _) => e = f
    | _, _ => False
  unfold Py.bind
  rcases hm : m s with ⟨r, t⟩
  rcases hm' : m' s' with ⟨r', t'⟩
  rw [hm, hm'] at h1
  cases r with
  | error e =>
    cases r' with
    | error e' => exact h1
    | ok b => exact h1.elim
  | ok a =>
    cases r' with
    | error e' => exact h1.elim
    | ok b => exact hf a b h1.1 t t' h1.2

theorem Runs.ite {p : Prop} [Decidable p] {a b a' b' : Py α} (h : Runs R R' P a a') (h' : Runs R R' P b b') :
    Runs R R' P (if p then a else b) (if p then a' else b') := by
  split <;> assumption

/-- Start with the object. -/
theorem Runs.self {f f' : Self → Py β} (h : ∀ s s', R s s' → Runs (fun t t' => t = s ∧ t' = s') R' Q (f s) (f' s')) :
    Runs R R' Q (Py.get >>= f) (Py.get >>= f') := fun s s' hs => h s s' hs s s' ⟨rfl, rfl⟩

theorem Runs.mono {P' : α → α → Prop} {S S' : Self → Self → Prop} {m m' : Py α} (h : Runs R R' P m m') (h1 : ∀ s s', S s s' → R s s')
    (h2 : ∀ s s', R' s s' → S' s s') (h3 : ∀ a b, P a b → P' a b) : Runs S S' P' m m' := by
  intro s s' hs
  have := h s s' (h1 s s' hs)
  rcases hm : m s with ⟨r, t⟩
  rcases hm' : m' s' with ⟨r', t'⟩
  rw [hm, hm'] at this
  cases r <;> cases r'
  · exact this
  · exact this.elim
  · exact this.elim
  · exact ⟨h3 _ _ this.1, h2 _ _ this.2⟩

/-- Start with the object, of which only the relation is remembered. -/
theorem Runs.read {f f' : Self → Py β} (h : ∀ s s', R s s' → Runs R R' Q (f s) (f' s')) :
    Runs R R' Q (Py.get >>= f) (Py.get >>= f') :=
  Runs.self fun s s' hs => (h s s' hs).mono (fun _ _ h => by obtain ⟨rfl, rfl⟩ := h; exact hs) (fun _ _ h => h) fun _ _ h => h

end

/-! ## Linear conditions -/

theorem lin_getD {V : Type} [AddCommMonoid V] [Module ℝ V] (gs : List (V → ℝ)) (h : ∀ g ∈ gs, IsLinearMap ℝ g) (r : ℕ) :
    IsLinearMap ℝ fun z => (gs.map fun g => g z).getD r 0 := by
  induction gs generalizing r with
  | nil => exact ⟨fun _ _ => by simp, fun _ _ => by simp⟩
  | cons g gs ih =>
    cases r with
    | zero => simpa using h g (by simp)
    | succ r => simpa using ih (fun g hg => h g (by simp [hg])) r

theorem lin_fN (s : Self) : IsLinearMap ℝ (fN s) := ⟨fN_add s, fN_smul s⟩
theorem lin_fM (s : Self) : IsLinearMap ℝ (fM s) := ⟨fM_add s, fM_smul s⟩
theorem lin_fV (s : Self) : IsLinearMap ℝ (fV s) := ⟨fV_add s, fV_smul s⟩
theorem lin_fu : IsLinearMap ℝ (fun z => fu z 0) := ⟨fun x y => fu_add x y 0, fun c x => fu_smul c x 0⟩
theorem lin_fw : IsLinearMap ℝ fw := ⟨fw_add, fw_smul⟩
theorem lin_fpsi : IsLinearMap ℝ fpsi := ⟨fpsi_add, fpsi_smul⟩

section
variable {V : Type} [AddCommMonoid V] [Module ℝ V]

theorem lin_neg {g : V → ℝ} (h : IsLinearMap ℝ g) : IsLinearMap ℝ fun z => -g z :=
  ⟨fun x y => by rw [h.map_add]; ring, fun c x => by rw [h.map_smul]; simp⟩

theorem lin_add {f g : V → ℝ} (h : IsLinearMap ℝ f) (h' : IsLinearMap ℝ g) : IsLinearMap ℝ fun z => f z + g z :=
  ⟨fun x y => by rw [h.map_add, h'.map_add]; ring, fun c x => by rw [h.map_smul, h'.map_smul]; simp [mul_add]⟩

theorem lin_mul {f : V → ℝ} (k : ℝ) (h : IsLinearMap ℝ f) : IsLinearMap ℝ fun z => k * f z :=
  ⟨fun x y => by rw [h.map_add]; ring, fun c x => by rw [h.map_smul]; simp only [smul_eq_mul]; ring⟩

theorem lin_sub {f g : V → ℝ} (h : IsLinearMap ℝ f) (h' : IsLinearMap ℝ g) : IsLinearMap ℝ fun z => f z - g z := by
  simpa only [sub_eq_add_neg] using lin_add h (lin_neg h')

theorem lin_fst {f : Vec6 → ℝ} (h : IsLinearMap ℝ f) : IsLinearMap ℝ fun z : Vec6 × Vec6 => f z.1 :=
  ⟨fun _ _ => h.map_add _ _, fun _ _ => h.map_smul _ _⟩

theorem lin_snd {f : Vec6 → ℝ} (h : IsLinearMap ℝ f) : IsLinearMap ℝ fun z : Vec6 × Vec6 => f z.2 :=
  ⟨fun _ _ => h.map_add _ _, fun _ _ => h.map_smul _ _⟩

theorem lin_vec {f g h : V → ℝ} (hf : IsLinearMap ℝ f) (hg : IsLinearMap ℝ g) (hh : IsLinearMap ℝ h) (i : Fin 3) :
    IsLinearMap ℝ fun z => (![f z, g z, h z] : Fin 3 → ℝ) i := by
  fin_cases i
  · exact hf
  · exact hg
  · exact hh

end

section
variable {e e' : Eigs} {R : Self → Self → Prop} (hR : ∀ s s', R s s' → Swap e e' s s') {sub sub' : Py ℝ}
  (hs : Runs R R (· = ·) sub sub')
include hR hs

theorem swap_bc (k : Bool) (pos : Pos) :
    Runs R R (fun b b' => b' = b ∧ ∀ i, IsLinearMap ℝ fun z => b z i) (bc sub k pos) (bc sub' k pos) := by
  unfold bc
  refine Runs.read fun s s' h => ?_
  obtain ⟨-, rfl⟩ := hR s s' h
  have hfree : ∀ i, IsLinearMap ℝ fun z => (![fN s z, fM s z, fV s z] : Fin 3 → ℝ) i := lin_vec (lin_fN s) (lin_fM s) (lin_fV s)
  refine Runs.ite (Runs.ite (Runs.pure ⟨rfl, hfree⟩) ?_) (Runs.ite (Runs.pure ⟨rfl, hfree⟩) (Runs.ite
    (Runs.pure ⟨rfl, lin_vec lin_fu lin_fw lin_fpsi⟩) (Runs.ite (Runs.pure ⟨rfl, hfree⟩) (Runs.raise _))))
  show Runs R R _ (match s.mode, pos with | .A, _ => _ | .B, .r => _ | .B, .l => _ | .C, .r => _ | .C, .l => _ | _, _ => _)
    (match s.mode, pos with | .A, _ => _ | .B, .r => _ | .B, .l => _ | .C, .r => _ | .C, .l => _ | _, _ => _)
  cases s.mode <;> cases pos
  all_goals first
    | exact Runs.pure ⟨rfl, hfree⟩
    | exact Runs.pure ⟨rfl, lin_vec (lin_fN s) (lin_fM s) lin_fw⟩
    | exact Runs.raise _
    | (refine Runs.bind hs fun a b hab => Runs.read fun s s' h => ?_
       obtain ⟨-, rfl⟩ := hR s s' h
       subst hab
       first
         | exact Runs.pure ⟨rfl, lin_vec (lin_fN s) (lin_add (lin_fM s) (lin_mul a lin_fpsi)) lin_fw⟩
         | exact Runs.pure ⟨rfl, lin_vec (lin_fN s) (lin_sub (lin_fM s) (lin_mul a lin_fpsi)) lin_fw⟩)

theorem swap_eqs (k : Bool) (pos : Pos) :
    Runs R R (fun f f' => f' = f ∧ ∀ r, IsLinearMap ℝ fun z : Vec6 × Vec6 => (f z.1 z.2).getD r 0)
      (eqs sub k pos) (eqs sub' k pos) := by
  have hb := swap_bc hR hs k pos
  unfold eqs
  have key : ∀ gs : List (Vec6 × Vec6 → ℝ), (∀ g ∈ gs, IsLinearMap ℝ g) → ∀ r,
      IsLinearMap ℝ fun z : Vec6 × Vec6 => (gs.map fun g => g z).getD r 0 := fun gs h r => lin_getD gs h r
  cases pos with
  | l =>
    refine Runs.bind hb fun a b h => Runs.bind hb fun a' b' h' => Runs.bind hb fun a'' b'' h'' => Runs.read fun s s' h0 => ?_
    obtain ⟨-, rfl⟩ := hR s s' h0
    obtain ⟨rfl, l0⟩ := h
    obtain ⟨rfl, l1⟩ := h'
    obtain ⟨rfl, l2⟩ := h''
    refine Runs.pure ⟨rfl, key [fun z => b z.1 0, fun z => b' z.1 1, fun z => b'' z.1 2,
      fun z => fu z.2 0, fun z => fw z.2, fun z => fpsi z.2, fun z => fN s z.2, fun z => fM s z.2, fun z => fV s z.2] ?_⟩
    simp only [List.forall_mem_cons]
    exact ⟨lin_fst (l0 0), lin_fst (l1 1), lin_fst (l2 2), lin_snd lin_fu, lin_snd lin_fw, lin_snd lin_fpsi, lin_snd (lin_fN s),
      lin_snd (lin_fM s), lin_snd (lin_fV s), by simp⟩
  | m =>
    refine Runs.read fun s s' h0 => ?_
    obtain ⟨-, rfl⟩ := hR s s' h0
    refine Runs.pure ⟨rfl, key [fun z => -fu z.1 0, fun z => -fw z.1, fun z => -fpsi z.1, fun z => -fN s z.1, fun z => -fM s z.1,
      fun z => -fV s z.1, fun z => fu z.2 0, fun z => fw z.2, fun z => fpsi z.2, fun z => fN s z.2, fun z => fM s z.2,
      fun z => fV s z.2] ?_⟩
    simp only [List.forall_mem_cons]
    exact ⟨lin_neg (lin_fst lin_fu), lin_neg (lin_fst lin_fw), lin_neg (lin_fst lin_fpsi), lin_neg (lin_fst (lin_fN s)),
      lin_neg (lin_fst (lin_fM s)), lin_neg (lin_fst (lin_fV s)), lin_snd lin_fu, lin_snd lin_fw, lin_snd lin_fpsi,
      lin_snd (lin_fN s), lin_snd (lin_fM s), lin_snd (lin_fV s), by simp⟩
  | r =>
    refine Runs.read fun s s' h0 => ?_
    obtain ⟨-, rfl⟩ := hR s s' h0
    refine Runs.bind hb fun a b h => Runs.bind hb fun a' b' h' => Runs.bind hb fun a'' b'' h'' => ?_
    obtain ⟨rfl, l0⟩ := h
    obtain ⟨rfl, l1⟩ := h'
    obtain ⟨rfl, l2⟩ := h''
    refine Runs.pure ⟨rfl, key [fun z => -fu z.1 0, fun z => -fw z.1, fun z => -fpsi z.1, fun z => -fN s z.1, fun z => -fM s z.1,
      fun z => -fV s z.1, fun z => b z.2 0, fun z => b' z.2 1, fun z => b'' z.2 2] ?_⟩
    simp only [List.forall_mem_cons]
    exact ⟨lin_neg (lin_fst lin_fu), lin_neg (lin_fst lin_fw), lin_neg (lin_fst lin_fpsi), lin_neg (lin_fst (lin_fN s)),
      lin_neg (lin_fst (lin_fM s)), lin_neg (lin_fst (lin_fV s)), lin_snd (l0 0), lin_snd (l1 1), lin_snd (l2 2), by simp⟩

end

/-! ## Change of the unknowns -/

/-- The columns of each block of `M'` are combinations of those of `M`. -/
def Mixed (T : ℕ → Mat6) (M M' : ℕ → ℕ → ℝ) : Prop :=
  ∀ r c, M' r c = ∑ j : Fin 6, M r (6 * (c / 6) + j) * T (c / 6) j (Fin.ofNat 6 c)

theorem Mixed.write {T : ℕ → Mat6} {M M' B B' : ℕ → ℕ → ℝ} (h : Mixed T M M') (r0 r1 i : ℕ)
    (hB : ∀ r c, B' r c = ∑ j : Fin 6, B r j * T i j (Fin.ofNat 6 c)) :
    Mixed T (writeBlock M r0 r1 (6 * i) (6 * (i + 1)) B) (writeBlock M' r0 r1 (6 * i) (6 * (i + 1)) B') := by
  intro r c
  unfold writeBlock
  by_cases hr : r0 ≤ r ∧ r < r1
  · by_cases hc : c / 6 = i
    · subst hc
      rw [if_pos ⟨hr.1, hr.2, by omega, by omega⟩, hB]
      refine Finset.sum_congr rfl fun j _ => ?_
      have := j.2
      rw [if_pos ⟨hr.1, hr.2, by omega, by omega⟩]
      congr 2
      · omega
      · apply Fin.ext
        simp [Fin.ofNat]
        omega
    · rw [if_neg (by omega), h]
      refine Finset.sum_congr rfl fun j _ => ?_
      have := j.2
      rw [if_neg (by omega)]
  · rw [if_neg (by tauto), h]
    refine Finset.sum_congr rfl fun j _ => ?_
    rw [if_neg (by tauto)]

/-- The change of the unknowns as a matrix. -/
noncomputable def blocks (n : ℕ) (T : ℕ → Mat6) : Matrix (Fin (6 * n)) (Fin (6 * n)) ℝ :=
  Matrix.of fun p c => if (p : ℕ) / 6 = (c : ℕ) / 6 then T ((c : ℕ) / 6) (Fin.ofNat 6 p) (Fin.ofNat 6 c) else 0

theorem sum_block (n : ℕ) (f : ℕ → ℝ) (i : ℕ) (hi : i < n) (hf : ∀ p, p / 6 ≠ i → f p = 0) :
    ∑ p : Fin (6 * n), f p = ∑ j : Fin 6, f (6 * i + j) := by
  rw [← Finset.sum_range (fun p => f p), sum_blocks, Finset.sum_eq_single_of_mem i (Finset.mem_range.mpr hi)]
  intro b _ hb
  refine Finset.sum_eq_zero fun j _ => hf _ ?_
  have := j.2
  omega

theorem Mixed.mul {T : ℕ → Mat6} {M M' : ℕ → ℕ → ℝ} (h : Mixed T M M') (n : ℕ) :
    (Matrix.of fun i j : Fin (6 * n) => M' i j) = (Matrix.of fun i j : Fin (6 * n) => M i j) * blocks n T := by
  ext r c
  have hc := c.2
  rw [Matrix.mul_apply]
  have e := sum_block n (fun p => M r p * if p / 6 = (c : ℕ) / 6 then T ((c : ℕ) / 6) (Fin.ofNat 6 p) (Fin.ofNat 6 c) else 0)
    ((c : ℕ) / 6) (by omega) (fun p hp => by rw [if_neg hp, mul_zero])
  show M' r c = ∑ p : Fin (6 * n), M r p * _
  rw [h]
  refine Eq.trans ?_ e.symm
  refine Finset.sum_congr rfl fun j _ => ?_
  have := j.2
  rw [if_pos (by omega)]
  congr 2
  apply Fin.ext
  simp [Fin.ofNat]
  omega

theorem blocks_mulVec (n : ℕ) (T : ℕ → Mat6) (y : ℕ → ℝ) (i : ℕ) (hi : i < n) (q : Fin 6) (hq : 6 * i + (q : ℕ) < 6 * n) :
    (blocks n T).mulVec (fun c => y c) ⟨6 * i + q, hq⟩ = (T i).mulVec (fun j => y (6 * i + j)) q := by
  have hq6 := q.2
  have e := sum_block n (fun c => (if (6 * i + (q : ℕ)) / 6 = c / 6 then T (c / 6) (Fin.ofNat 6 (6 * i + (q : ℕ))) (Fin.ofNat 6 c) else 0) * y c)
    i hi (fun p hp => by rw [if_neg (by omega), zero_mul])
  change ∑ c : Fin (6 * n), (if (6 * i + (q : ℕ)) / 6 = (c : ℕ) / 6 then
    T ((c : ℕ) / 6) (Fin.ofNat 6 (6 * i + (q : ℕ))) (Fin.ofNat 6 (c : ℕ)) else 0) * y c = ∑ j : Fin 6, T i q j * y (6 * i + (j : ℕ))
  refine e.trans ?_
  refine Finset.sum_congr rfl fun j _ => ?_
  have := j.2
  rw [if_pos (by omega)]
  have e1 : (6 * i + (j : ℕ)) / 6 = i := by omega
  have e2 : Fin.ofNat 6 (6 * i + (q : ℕ)) = q := Fin.ext (by show (6 * i + (q : ℕ)) % 6 = q; omega)
  have e3 : Fin.ofNat 6 (6 * i + (j : ℕ)) = j := Fin.ext (by show (6 * i + (j : ℕ)) % 6 = j; omega)
  rw [e1, e2, e3]

/-- Both solvers fail, or both succeed with solutions related by the change of
the unknowns. -/
theorem Mixed.solve {T T' : ℕ → Mat6} {M M' : ℕ → ℕ → ℝ} (h : Mixed T M M') (h' : Mixed T' M' M) (n : ℕ) (b : ℕ → ℝ) :
    ResRel (fun x x' => ∀ i < n, (fun j : Fin 6 => x (6 * i + j)) = (T i).mulVec fun j => x' (6 * i + j))
      (npSolve (6 * n) M b) (npSolve (6 * n) M' b) := by
  classical
  have e1 := h.mul n
  have e2 := h'.mul n
  have hiff : IsUnit (Matrix.of fun i j : Fin (6 * n) => M i j).det ↔ IsUnit (Matrix.of fun i j : Fin (6 * n) => M' i j).det := by
    constructor
    · intro hu
      rw [e2, Matrix.det_mul] at hu
      exact isUnit_of_mul_isUnit_left hu
    · intro hu
      rw [e1, Matrix.det_mul] at hu
      exact isUnit_of_mul_isUnit_left hu
  by_cases hu : IsUnit (Matrix.of fun i j : Fin (6 * n) => M i j).det
  · have hu' := hiff.mp hu
    obtain ⟨x, r1⟩ : ∃ x, npSolve (6 * n) M b = .ok x := by
      simp only [npSolve, if_pos hu]
      exact ⟨_, rfl⟩
    obtain ⟨x', r2⟩ : ∃ x, npSolve (6 * n) M' b = .ok x := by
      simp only [npSolve, if_pos hu']
      exact ⟨_, rfl⟩
    obtain ⟨s1, -⟩ := npSolve_ok r2
    obtain ⟨-, s2⟩ := npSolve_ok r1
    rw [r1, r2]
    show ∀ i < n, _ = _
    rw [npSolve_sum, e1, ← Matrix.mulVec_mulVec] at s1
    have s3 := s2 (fun p => if hp : p < 6 * n then (blocks n T).mulVec (fun c : Fin (6 * n) => x' c) ⟨p, hp⟩ else 0) (by
      rw [npSolve_sum]
      have : (fun j : Fin (6 * n) => if hp : (j : ℕ) < 6 * n then (blocks n T).mulVec (fun c : Fin (6 * n) => x' c) ⟨j, hp⟩ else 0)
          = (blocks n T).mulVec (fun c : Fin (6 * n) => x' c) := by
        funext j
        rw [dif_pos j.2]
      rw [this]
      exact s1)
    intro i hi
    funext q
    have hq := q.2
    have := s3 (6 * i + q) (by omega)
    rw [dif_pos (by omega), blocks_mulVec n T x' i hi q (by omega)] at this
    exact this.symm
  · have hu' : ¬ IsUnit (Matrix.of fun i j : Fin (6 * n) => M' i j).det := fun h => hu (hiff.mpr h)
    simp only [npSolve, if_neg hu, if_neg hu']
    rfl

/-! ## Assembly -/

/-- `zh(x, l, bed=True)` of an eigensystem. -/
noncomputable def bedMat (e : Eigs) (x l : ℝ) : Mat6 := Matrix.of fun i j => ((zhBed e x l).getD j 0) i

/-- Two eigensystems with six columns each, which are combinations of each
other. -/
structure Blend (e e' : Eigs) (T T' : Mat6) : Prop where
  six : ∀ x l, (zhBed e x l).length = 6
  six' : ∀ x l, (zhBed e' x l).length = 6
  fwd : ∀ x l, bedMat e' x l = bedMat e x l * T
  bwd : ∀ x l, bedMat e x l = bedMat e' x l * T'

theorem Blend.symm {e e' : Eigs} {T T' : Mat6} (h : Blend e e' T T') : Blend e' e T' T := ⟨h.six', h.six, h.bwd, h.fwd⟩

/-- Change of the constants of a segment. -/
noncomputable def turn (T : Mat6) (k : Bool) : Mat6 := if k then T else 1

theorem Blend.zh {e e' : Eigs} {T T' : Mat6} (h : Blend e e' T T') {s : Self} (hs : s.eigs = e) (x l : ℝ) (k : Bool) :
    zh { s with eigs := e' } x l k = zh s x l k * turn T k := by
  cases k with
  | false => simp [turn, Weac.zh]; rfl
  | true =>
    have := h.fwd x l
    subst hs
    exact this

/-- The same field. -/
theorem Blend.zsol {e e' : Eigs} {T T' : Mat6} (h : Blend e e' T T') {s s' : Self} (hs : Swap e e' s s') {C C' : Vec6} {k : Bool}
    (hC : C = (turn T k).mulVec C') (x l phi : ℝ) : zsol s' x C' l phi k = zsol s x C l phi k := by
  obtain ⟨h0, rfl⟩ := hs
  unfold Weac.zsol
  rw [h.zh h0, hC, Matrix.mulVec_mulVec]
  rfl

theorem lin_cols {f : Vec6 → Vec6 → List ℝ} {r : ℕ} (hf : IsLinearMap ℝ fun z : Vec6 × Vec6 => (f z.1 z.2).getD r 0)
    (A B T : Mat6) (c : Fin 6) :
    (f (fun q => (A * T) q c) (fun q => (B * T) q c)).getD r 0 = ∑ j, (f (fun q => A q j) (fun q => B q j)).getD r 0 * T j c := by
  have e : ∀ A : Mat6, (fun q => (A * T) q c) = ∑ j, T j c • (fun q => A q j) := by
    intro A
    funext q
    rw [Matrix.mul_apply, Finset.sum_apply]
    exact Finset.sum_congr rfl fun j _ => mul_comm _ _
  have e2 : ((fun q => (A * T) q c, fun q => (B * T) q c) : Vec6 × Vec6) = ∑ j, T j c • ((fun q => A q j, fun q => B q j) : Vec6 × Vec6) := by
    rw [e A, e B]
    ext1
    · rw [Prod.fst_sum]; rfl
    · rw [Prod.snd_sum]; rfl
  have := congrArg (hf.mk' _) e2
  rw [map_sum] at this
  refine Eq.trans this ?_
  refine Finset.sum_congr rfl fun j _ => ?_
  rw [map_smul, smul_eq_mul, mul_comm]
  rfl

section
variable {e e' : Eigs} {R : Self → Self → Prop} (hR : ∀ s s', R s s' → Swap e e' s s') {sub sub' : Py ℝ}
  (hs : Runs R R (· = ·) sub sub') {T T' : Mat6} (hB : Blend e e' T T')
include hR hs hB

theorem swap_asmBody (phi : ℝ) (n : ℕ) (li : List ℝ) (ki : List Bool) {acc acc' : (ℕ → ℕ → ℝ) × (ℕ → ℝ)}
    (h1 : Mixed (fun i => turn T (ki.getD i false)) acc.1 acc'.1) (h2 : Mixed (fun i => turn T' (ki.getD i false)) acc'.1 acc.1)
    (h3 : acc'.2 = acc.2) (i : ℕ) :
    Runs R R (fun p p' => Mixed (fun i => turn T (ki.getD i false)) p.1 p'.1 ∧ Mixed (fun i => turn T' (ki.getD i false)) p'.1 p.1 ∧
      p'.2 = p.2) (asmBody sub phi n li ki acc i) (asmBody sub' phi n li ki acc' i) := by
  have he := swap_eqs hR hs (ki.getD i false) (posOf n i)
  unfold asmBody
  refine Runs.read fun s s' h => Runs.bind he fun f f' hf => Runs.read fun s1 s1' h1' => Runs.bind he fun g g' hg => ?_
  obtain ⟨h0, rfl⟩ := hR s s' h
  obtain ⟨-, rfl⟩ := hR s1 s1' h1'
  obtain ⟨rfl, lf⟩ := hf
  obtain ⟨rfl, -⟩ := hg
  have l6 : (zhBed s.eigs 0 (nth li i)).length = 6 := by rw [h0]; exact hB.six _ _
  have l6' : (zhBed ({ s with eigs := e' } : Self).eigs 0 (nth li i)).length = 6 := hB.six' _ _
  simp only [l6, l6', bne_self_eq_false, Bool.and_false, Bool.false_eq_true, if_false]
  refine Runs.pure ⟨?_, ?_, ?_⟩ <;> dsimp only
  · refine Mixed.write h1 _ _ i fun r c => ?_
    rw [hB.zh h0, hB.zh h0]
    rw [lin_cols (lf r)]
    refine Finset.sum_congr rfl fun j _ => ?_
    rw [show Fin.ofNat 6 (j : ℕ) = j from Fin.ext (Nat.mod_eq_of_lt j.2)]
  · refine Mixed.write h2 _ _ i fun r c => ?_
    have hz : ∀ x l k, zh s x l k = zh { s with eigs := e' } x l k * turn T' k := by
      intro x l k
      have := hB.symm.zh (s := { s with eigs := e' }) rfl x l k
      rw [← this, ← h0]
    rw [hz 0, hz (nth li i)]
    rw [lin_cols (lf r)]
    refine Finset.sum_congr rfl fun j _ => ?_
    rw [show Fin.ofNat 6 (j : ℕ) = j from Fin.ext (Nat.mod_eq_of_lt j.2)]
  · show addSlice acc'.2 _ _ _ = addSlice acc.2 _ _ _
    rw [h3]
    rfl

theorem swap_asmLoop (phi : ℝ) (n : ℕ) (li : List ℝ) (ki : List Bool) (is : List ℕ) {acc acc' : (ℕ → ℕ → ℝ) × (ℕ → ℝ)}
    (h1 : Mixed (fun i => turn T (ki.getD i false)) acc.1 acc'.1) (h2 : Mixed (fun i => turn T' (ki.getD i false)) acc'.1 acc.1)
    (h3 : acc'.2 = acc.2) :
    Runs R R (fun p p' => Mixed (fun i => turn T (ki.getD i false)) p.1 p'.1 ∧ Mixed (fun i => turn T' (ki.getD i false)) p'.1 p.1 ∧
      p'.2 = p.2) (forLoop (asmBody sub phi n li ki) is acc) (forLoop (asmBody sub' phi n li ki) is acc') := by
  induction is generalizing acc acc' with
  | nil => exact Runs.pure ⟨h1, h2, h3⟩
  | cons b bs ih =>
    exact Runs.bind (swap_asmBody hR hs hB phi n li ki h1 h2 h3 b) fun p p' hp => ih hp.1 hp.2.1 hp.2.2

/-- Constants of the same fields. -/
def SameField (T : Mat6) (ki : List Bool) (C C' : List Vec6) : Prop :=
  C'.length = C.length ∧ ∀ i, C.getD i 0 = (turn T (ki.getD i false)).mulVec (C'.getD i 0)

theorem swap_asmSolve (phi : ℝ) (a : SegLists) :
    Runs R R (SameField T a.ki) (asmSolve sub phi a) (asmSolve sub' phi a) := by
  unfold asmSolve asmSolveBy
  refine Runs.bind (swap_asmLoop hR hs hB phi _ _ _ _ (fun r c => by simp) (fun r c => by simp) rfl) fun p p' hp => ?_
  obtain ⟨m1, m2, m3⟩ := hp
  refine Runs.read fun s s' h => ?_
  obtain ⟨h0, rfl⟩ := hR s s' h
  have hend : ∀ r : ℕ → ℝ, Runs R R (SameField T a.ki)
      (do let x ← Py.lift (npSolve (6 * a.li.length) p.1 (fun j => r j - p.2 j))
          return (List.range a.li.length).map fun i => fun j : Fin 6 => x (6 * i + j) : Py (List Vec6))
      (do let x ← Py.lift (npSolve (6 * a.li.length) p'.1 (fun j => r j - p'.2 j))
          return (List.range a.li.length).map fun i => fun j : Fin 6 => x (6 * i + j) : Py (List Vec6)) := fun r => by
    rw [m3]
    refine Runs.bind (Runs.lift (m1.solve m2 a.li.length _)) fun x y h => Runs.pure ⟨by simp, fun i => ?_⟩
    by_cases hi : i < a.li.length
    · have := h i hi
      simpa [List.getD_eq_getElem?_getD, hi] using this
    · simp [List.getD_eq_getElem?_getD, hi]
  dsimp only
  refine Runs.ite (Runs.bind (swap_bc hR hs _ _) fun b0 b0' h => ?_) ?_
  · obtain ⟨rfl, -⟩ := h
    refine Runs.bind (swap_bc hR hs _ _) fun b1 b1' h => ?_
    obtain ⟨rfl, -⟩ := h
    exact hend _
  · exact hend _

theorem swap_assembleWith (kind : SeqKind) (phi : ℝ) (a : SegLists) :
    Runs R R (fun o o' => o'.2 = o.2 ∧ SameField T o.2.ki o.1 o'.1 ∧ (a.li.length ≠ 1 → o.2 = a)) (assembleWith sub kind phi a)
      (assembleWith sub' kind phi a) := by
  have ha := fun a => swap_asmSolve hR hs hB phi a
  unfold assembleWith assembleBy
  refine Runs.ite (Runs.raise _) (Runs.ite (Runs.raise _) (Runs.read fun s s' h => ?_))
  obtain ⟨-, rfl⟩ := hR s s' h
  refine Runs.ite (Runs.raise _) ?_
  split
  · rename_i h1
    cases kind with
    | ndarray => exact Runs.raise _
    | list => exact Runs.bind (ha _) fun C C' h => Runs.pure ⟨rfl, h, fun h2 => absurd h1 h2⟩
  · exact Runs.bind (ha _) fun C C' h => Runs.pure ⟨rfl, h, fun _ => rfl⟩

end

end Weac
