import Verif.Props.RoundingSaw

/-!
# C92: rounding from the segments to the results
-/

namespace Weac

open Spec

namespace Spec

/-- Bound for the error of a state: `K` is the constant of the linear system, `ε` bounds errors of the coefficients,
`ε'` errors of the right-hand side and `ρ` the right-hand side, `e` is the error of one evaluation. -/
noncomputable def stateError (K B Q ρ ε ε' e : ℝ) : ℝ := K * (ε' + ε * ρ) + e * (6 * (B * (K * (ρ + ε'))) + Q)

end Spec

variable {u : ℝ} {fl : ℝ → ℝ} {lib : Libm} {m n : ℕ} {B phi Q F : ℝ} {a : SegLists} {s : Self}

/-! ## Magnitudes inside a segment -/

theorem forall₂_map_self {α β : Type} {R : β → β → Prop} {f g : α → β} (l : List α) (h : ∀ x ∈ l, R (f x) (g x)) :
    List.Forall₂ R (l.map f) (l.map g) := by
  induction l with
  | nil => exact .nil
  | cons x l ih => exact .cons (h x List.mem_cons_self) (ih fun y hy => h y (List.mem_cons_of_mem _ hy))

theorem forall₂_append {α : Type} {R : α → α → Prop} {a b c d : List α} (h : List.Forall₂ R a b) (h' : List.Forall₂ R c d) :
    List.Forall₂ R (a ++ c) (b ++ d) := by
  induction h with
  | nil => exact h'
  | cons h1 _ ih => exact .cons h1 ih

theorem bedScale_mono (e : Eigs) {y l : ℝ} (h0 : 0 ≤ y) (h1 : y ≤ l) (j : ℕ) (q : Fin 6) :
    (bedScale e y).getD j 0 q ≤ (bedScale e l).getD j 0 q := by
  have hc : ∀ m ∈ e.cx, (fun v w : Vec6 => ∀ q, v q ≤ w q) (fun i => (|(m.ev i).re| + |(m.ev i).im|) * (1 + |m.ew.im * y|))
      (fun i => (|(m.ev i).re| + |(m.ev i).im|) * (1 + |m.ew.im * l|)) := by
    intro m _ i
    show (|(m.ev i).re| + |(m.ev i).im|) * (1 + |m.ew.im * y|) ≤ (|(m.ev i).re| + |(m.ev i).im|) * (1 + |m.ew.im * l|)
    rw [abs_mul, abs_mul, abs_of_nonneg h0, abs_of_nonneg (h0.trans h1)]
    gcongr
  refine getD_forall₂ (R := fun v w : Vec6 => ∀ q, v q ≤ w q) (fun _ => le_rfl) ?_ j q
  exact forall₂_append (forall₂_append (forall₂_map_self _ fun m _ q => le_rfl) (forall₂_map_self _ hc)) (forall₂_map_self _ hc)

theorem freeScale_mono (hs : Stored s) {y l : ℝ} (h0 : 0 ≤ y) (h1 : y ≤ l) (q j : Fin 6) : freeScale s y q j ≤ freeScale s l q j := by
  have hA := hs.A11
  have hb : 0 ≤ |s.B11| / s.A11 := by positivity
  have p2 : y ^ 2 ≤ l ^ 2 := pow_le_pow_left₀ h0 h1 2
  have p3 : y ^ 3 ≤ l ^ 3 := pow_le_pow_left₀ h0 h1 3
  have c1 : 3 * |s.B11| / s.A11 * y ^ 2 ≤ 3 * |s.B11| / s.A11 * l ^ 2 := by gcongr
  have c2 : 6 * |s.B11| / s.A11 * y ≤ 6 * |s.B11| / s.A11 * l := by gcongr
  fin_cases q <;> fin_cases j <;> simp [freeScale] <;> linarith

theorem freeParticularScale_mono (hs : Stored s) {y l q p : ℝ} (h0 : 0 ≤ y) (h1 : y ≤ l) (hq : 0 ≤ q) (hp : 0 ≤ p) (i : Fin 6) :
    freeParticularScale s y q p i ≤ freeParticularScale s l q p i := by
  have hA := hs.A11
  have hk := hs.kA55
  have hl := h0.trans h1
  unfold freeParticularScale
  fin_cases i <;> simp <;> gcongr

theorem loadScale_nonneg {q : ℝ} (hq : 0 ≤ q) (phi : ℝ) : 0 ≤ loadScale q phi :=
  mul_nonneg hq (by have := abs_nonneg (phi * (Real.pi / 180)); linarith)

/-- Magnitudes of the terms of the state of a segment with constants up to `X`. -/
theorem stateScale_le (hs : Stored s) (hsc : SystemScale s phi a B Q F) {i : ℕ} (hi : i < a.li.length)
    {y : ℝ} (hy : y ∈ Set.Icc 0 (nth a.li i)) {C : Vec6} {X : ℝ} (hC : ∀ j, |C j| ≤ X) (q : Fin 6) :
    stateScale s y C phi (a.ki.getD i false) q ≤ 6 * (B * X) + Q := by
  have hw : 0 ≤ (s.slab.map fun l => l.rho * 1e-12 * s.g * l.h).sum := List.sum_nonneg fun x hx => by
    obtain ⟨l, hl, rfl⟩ := List.mem_map.1 hx
    have := (hs.valid l hl).rho
    have := (hs.valid l hl).h
    have := hs.g
    positivity
  have hX : 0 ≤ X := (abs_nonneg _).trans (hC 0)
  have part := hsc.part i hi _ (.inr rfl) q
  have col : ∀ j : Fin 6, (if a.ki.getD i false then (bedScale s.eigs y).getD j 0 q else freeScale s y q j) * |C j| ≤ B * X := by
    intro j
    have h1 : (if a.ki.getD i false then (bedScale s.eigs y).getD j 0 q else freeScale s y q j) ≤ B := by
      cases hk : a.ki.getD i false with
      | true => exact (bedScale_mono s.eigs hy.1 hy.2 j q).trans (hsc.bed i hi hk _ (.inr rfl) q j)
      | false => exact (freeScale_mono hs hy.1 hy.2 q j).trans (hsc.free i hi hk _ (.inr rfl) q j)
    have hB : 0 ≤ B := by
      cases hk : a.ki.getD i false with
      | true =>
        refine le_trans ?_ (hsc.bed i hi hk 0 (.inl rfl) 0 0)
        refine getD_forall₂ (R := fun v _ : Vec6 => ∀ q, 0 ≤ v q) (l' := bedScale s.eigs 0) (fun _ => le_rfl) ?_ 0 0
        refine forall₂_append (forall₂_append (forall₂_map_self _ fun m _ q => abs_nonneg _) (forall₂_map_self _ fun m _ q => ?_))
          (forall₂_map_self _ fun m _ q => ?_) <;> positivity
      | false =>
        refine le_trans ?_ (hsc.free i hi hk 0 (.inl rfl) 0 0)
        simp [freeScale]
    exact mul_le_mul h1 (hC j) (abs_nonneg _) hB
  unfold stateScale
  refine add_le_add ((Finset.sum_le_sum fun j _ => col j).trans (le_of_eq (by simp))) ?_
  cases hk : a.ki.getD i false with
  | true =>
    rw [hk, if_pos rfl] at part
    rw [if_pos rfl]
    exact part
  | false =>
    rw [hk, if_neg (by simp)] at part
    rw [if_neg (by simp)]
    exact (freeParticularScale_mono hs hy.1 hy.2 (loadScale_nonneg hw _) (loadScale_nonneg (abs_nonneg _) _) q).trans part

/-! ## States -/

/-- Like C71_backward, with a bound for the constants. -/
theorem backward_bounded (num : Numerics) (s : Self) (hb : BedOk s) (hc : ShearOk s) (hf : EigFresh num.eig s) (hv : NoFaceTouchdown s)
    (n : ℕ) {d : ℝ} (R : ℝ) (hd : 0 < d) :
    ∃ K, 0 < K ∧ ∀ (kind : SeqKind) (phi : ℝ) (a a' : SegLists) (s' : Self) (C : List Vec6),
      assembleAndSolve num kind phi a s = (.ok (C, a'), s') → a'.li.length = n →
      Anchored d R n (fun i => a'.ki.getD i false) (nth a'.li) →
      ∃ (M : ℕ → ℕ → ℝ) (r : ℕ → ℝ),
        (∀ solve, assembleAndSolveBy solve num kind phi a s =
          ((solve (6 * n) M r).map fun x => ((List.range n).map fun i (j : Fin 6) => x (6 * i + j), a'), s)) ∧
        ∀ (M' : ℕ → ℕ → ℝ) (r' : ℕ → ℝ) (δ δ' ρ : ℝ), K * δ ≤ 1 → (∀ i < 6 * n, ∀ j < 6 * n, |M' i j - M i j| ≤ δ) →
          (∀ i < 6 * n, |r' i - r i| ≤ δ') → (∀ i < 6 * n, |r i| ≤ ρ) →
          (∃ x, npSolve (6 * n) M' r' = .ok x) ∧
          ∀ x : ℕ → ℝ, (∀ i < 6 * n, ∑ j ∈ Finset.range (6 * n), M' i j * x j = r' i) →
            (∀ j < 6 * n, |x j| ≤ K * (ρ + δ')) ∧
            ∀ i < n, ∀ y ∈ Set.Icc 0 (nth a'.li i), ∀ q,
              |zsol s y (fun j => x (6 * i + j)) (nth a'.li i) phi (a'.ki.getD i false) q -
                zsol s y (C.getD i 0) (nth a'.li i) phi (a'.ki.getD i false) q| ≤ K * (δ' + δ * ρ) := by
  obtain ⟨K1, p1, h1⟩ := C71_backward num s hb hc hf hv n R hd
  obtain ⟨K2, p2, h2⟩ := C79_well_conditioned num s hb hc hf hv n R hd
  have hN : (0 : ℝ) ≤ ((6 * n : ℕ) : ℝ) := Nat.cast_nonneg _
  set L : ℝ := 2 * K2 * ((6 * n : ℕ) : ℝ) with hL
  have pL : 0 ≤ L := by positivity
  refine ⟨K1 + 2 * K2 + L, by positivity, fun kind phi a a' s' C hC hn ha => ?_⟩
  obtain ⟨M, r, e1, f1⟩ := h1 kind phi a a' s' C hC hn ha
  obtain ⟨M2, r2, e2, -, f2⟩ := h2 kind phi a a' s' C hC hn ha
  obtain ⟨rfl, rfl⟩ := system_unique e1 e2
  refine ⟨_, _, e1, fun M' r' δ δ' ρ hs hM hr hρ => ?_⟩
  rcases Nat.eq_zero_or_pos n with h0 | h0
  · subst h0
    refine ⟨npSolve_of_injective r' fun y hy i hi => absurd hi (by simp), fun x hx => ⟨fun j hj => absurd hj (by simp), fun i hi => absurd hi (by simp)⟩⟩
  have n1 : 0 ≤ δ := (abs_nonneg _).trans (hM 0 (by omega) 0 (by omega))
  have n2 : 0 ≤ δ' := (abs_nonneg _).trans (hr 0 (by omega))
  have n3 : 0 ≤ ρ := (abs_nonneg _).trans (hρ 0 (by omega))
  have q1 := mul_nonneg p1.le n1
  have q2 := mul_nonneg p2.le n1
  have q3 := mul_nonneg pL n1
  have s1 : K1 * δ ≤ 1 := by linarith
  have s2 : 2 * K2 * ((6 * n : ℕ) : ℝ) * δ ≤ 1 := by rw [← hL]; linarith
  obtain ⟨g1, g2⟩ := f1 M' r' δ δ' ρ s1 hM hr hρ
  refine ⟨g1, fun x hx => ⟨fun j hj => ?_, fun i hi y hy q => ?_⟩⟩
  · have := perturbed_bound f2 hM s2 (β := ρ + δ') (fun i hi => by
      rw [hx i hi]
      have a := hr i hi
      have b := hρ i hi
      have c := abs_sub_abs_le_abs_sub (r' i) (r2 i)
      linarith) j hj
    refine this.trans (mul_le_mul_of_nonneg_right ?_ (by linarith))
    linarith
  · refine (g2 x hx i hi y hy q).trans (mul_le_mul_of_nonneg_right ?_ ?_)
    · linarith
    · have := mul_nonneg n1 n3
      linarith

/-- C92, states of a skier system: from the segments to displacements, rotations and their derivatives at every point, with rounding
in the set-up of the linear system, a solver of backward error `δ`, `δ'`, and rounding in the evaluation. -/
theorem C92_skier (num : Numerics) (s : Self) (hb : BedOk s) (hc : ShearOk s) (hs : Stored s) (hski : 0 < s.lski)
    (hf : EigFresh num.eig s) (hv : NoFaceTouchdown s) (hsk : IsSkier s) (n : ℕ) {d : ℝ} (R : ℝ) (hd : 0 < d) :
    ∃ K, 0 < K ∧ ∀ (u : ℝ) (fl : ℝ → ℝ) (lib : Libm) (m : ℕ) (kind : SeqKind) (phi : ℝ) (a a' : SegLists) (s' : Self) (C : List Vec6)
      (B Q F δ δ' : ℝ), RoundOk u fl → LibmOk u m lib → assembleAndSolve num kind phi a s = (.ok (C, a'), s') → a'.li.length = n →
      Anchored d R n (fun i => a'.ki.getD i false) (nth a'.li) → SystemScale s phi a' B Q F →
      ((s.slab.length + 2 * m + 21 + n : ℕ) : ℝ) * u < 1 →
      let ε := δ + gamma u (2 * m + 10) * (rowNorm s 0 * B)
      let ε' := δ' + gamma u (s.slab.length + m + 21 + n) * rhsScale s n Q F
      K * ε ≤ 1 →
      ∀ (M' : ℕ → ℕ → ℝ) (r' : ℕ → ℝ),
        (∀ i < 6 * n, ∀ j < 6 * n, |M' i j - (asmFl fl lib s 0 phi a' n).1 i j| ≤ δ) →
        (∀ i < 6 * n, |r' i - fl (rhsFl fl lib s phi a' i - (asmFl fl lib s 0 phi a' n).2 i)| ≤ δ') →
        (∃ x, npSolve (6 * n) M' r' = .ok x) ∧
        ∀ x : ℕ → ℝ, (∀ i < 6 * n, ∑ j ∈ Finset.range (6 * n), M' i j * x j = r' i) →
          ∀ i < n, ∀ y ∈ Set.Icc 0 (nth a'.li i), ∀ q,
            |zsolFl fl lib s y (fun j => x (6 * i + j)) (nth a'.li i) phi (a'.ki.getD i false) q -
              zsol s y (C.getD i 0) (nth a'.li i) phi (a'.ki.getD i false) q| ≤
            stateError K B Q (rhsScale s n Q F) ε ε' (gamma u (s.slab.length + 2 * m + 17)) := by
  obtain ⟨K, hK, h1⟩ := backward_bounded num s hb hc hf hv n R hd
  refine ⟨K, hK, fun u fl lib m kind phi a a' s' C B Q F δ δ' h hl hC hn ha hsc hu => ?_⟩
  intro ε ε' hsm M' r' hM hr
  obtain ⟨M, r, e1, f1⟩ := h1 kind phi a a' s' C hC hn ha
  subst hn
  have le : ∀ {k : ℕ}, k ≤ s.slab.length + 2 * m + 21 + a'.li.length → (k : ℝ) * u < 1 := fun hk =>
    lt_of_le_of_lt (mul_le_mul_of_nonneg_right (Nat.cast_le.2 hk) h.nonneg) hu
  obtain ⟨M2, r2, e2, f2, f3, f4⟩ := C91_system h hl num s hs hski hf hv hsk hC ha.nonneg hsc (le (by omega)) (le (by omega))
  obtain ⟨rfl, rfl⟩ := system_unique e1 e2
  obtain ⟨g1, g2⟩ := f1 M' r' ε ε' (rhsScale s a'.li.length Q F) hsm
    (fun i hi j hj => (abs_sub_le _ _ _).trans (add_le_add (hM i hi j hj) (f2 i j)))
    (fun i hi => (abs_sub_le _ _ _).trans (add_le_add (hr i hi) (f4 i))) fun i _ => f3 i
  refine ⟨g1, fun x hx i hi y hy q => ?_⟩
  obtain ⟨b1, b2⟩ := g2 x hx
  have ev := C90_state h hl s hs hy.1 hy.2 (fun j => x (6 * i + j)) phi (a'.ki.getD i false) (le (by omega)) q
  have sc := stateScale_le hs hsc hi hy (C := fun j => x (6 * i + j)) (X := K * (rhsScale s a'.li.length Q F + ε'))
    (fun j => b1 _ (by have := j.2; omega)) q
  have g : 0 ≤ gamma u (s.slab.length + 2 * m + 17) := by
    unfold gamma
    have := le (k := s.slab.length + 2 * m + 17) (by omega)
    have := h.nonneg
    exact div_nonneg (by positivity) (by linarith)
  have := abs_sub_le (zsolFl fl lib s y (fun j => x (6 * i + j)) (nth a'.li i) phi (a'.ki.getD i false) q)
    (zsol s y (fun j => x (6 * i + j)) (nth a'.li i) phi (a'.ki.getD i false) q)
    (zsol s y (C.getD i 0) (nth a'.li i) phi (a'.ki.getD i false) q)
  have t1 := b2 i hi y hy q
  have t2 := mul_le_mul_of_nonneg_left sc g
  unfold stateError
  linarith

/-- C92, states of a saw test, with a spring `kR'` in place of the exact one in stage C. -/
theorem C92_saw (num : Numerics) (s : Self) (hb : BedOk s) (hc : ShearOk s) (hs : Stored s) (hski : 0 < s.lski)
    (hf : EigFresh num.eig s) (hpst : IsPst s) (kR : ℝ)
    (hk : s.mode = .C → substituteStiffness num.eig (s.a - s.td) true .rot s = (.ok kR, s)) (n : ℕ) {d : ℝ} (R : ℝ) (hd : 0 < d) :
    ∃ K, 0 < K ∧ ∀ (u : ℝ) (fl : ℝ → ℝ) (lib : Libm) (m : ℕ) (kR' : ℝ) (kind : SeqKind) (phi : ℝ) (a a' : SegLists) (s' : Self) (C : List Vec6)
      (B Q F δ δ' : ℝ), RoundOk u fl → LibmOk u m lib → assembleAndSolve num kind phi a s = (.ok (C, a'), s') → a'.li.length = n →
      Anchored d R n (fun i => a'.ki.getD i false) (nth a'.li) → SystemScale s phi a' B Q F →
      ((s.slab.length + 2 * m + 21 + n : ℕ) : ℝ) * u < 1 →
      let ε := δ + (gamma u (2 * m + 10) * (rowNorm s kR' * B) + |kR' - kR| * B)
      let ε' := δ' + (gamma u (s.slab.length + m + 21 + n) * sawScale s kR' n Q F + n * (|kR' - kR| * Q))
      K * ε ≤ 1 →
      ∀ (M' : ℕ → ℕ → ℝ) (r' : ℕ → ℝ),
        (∀ i < 6 * n, ∀ j < 6 * n, |M' i j - (asmFl fl lib s kR' phi a' n).1 i j| ≤ δ) →
        (∀ i < 6 * n, |r' i - fl (rhsSawFl fl lib s phi a' i - (asmFl fl lib s kR' phi a' n).2 i)| ≤ δ') →
        (∃ x, npSolve (6 * n) M' r' = .ok x) ∧
        ∀ x : ℕ → ℝ, (∀ i < 6 * n, ∑ j ∈ Finset.range (6 * n), M' i j * x j = r' i) →
          ∀ i < n, ∀ y ∈ Set.Icc 0 (nth a'.li i), ∀ q,
            |zsolFl fl lib s y (fun j => x (6 * i + j)) (nth a'.li i) phi (a'.ki.getD i false) q -
              zsol s y (C.getD i 0) (nth a'.li i) phi (a'.ki.getD i false) q| ≤
            stateError K B Q (sawScale s kR n Q F) ε ε' (gamma u (s.slab.length + 2 * m + 17)) := by
  have hv : NoFaceTouchdown s := fun hv => by
    rcases hpst with e | e <;> rcases hv with e' | e' <;> rw [e] at e' <;> exact absurd e' (by decide)
  obtain ⟨K, hK, h1⟩ := backward_bounded num s hb hc hf hv n R hd
  refine ⟨K, hK, fun u fl lib m kR' kind phi a a' s' C B Q F δ δ' h hl hC hn ha hsc hu => ?_⟩
  intro ε ε' hsm M' r' hM hr
  obtain ⟨M, r, e1, f1⟩ := h1 kind phi a a' s' C hC hn ha
  subst hn
  have le : ∀ {k : ℕ}, k ≤ s.slab.length + 2 * m + 21 + a'.li.length → (k : ℝ) * u < 1 := fun hk =>
    lt_of_le_of_lt (mul_le_mul_of_nonneg_right (Nat.cast_le.2 hk) h.nonneg) hu
  obtain ⟨M2, r2, e2, f2, f3, f4⟩ := C91_saw_system h hl num s hs hski hf hpst kR kR' hk hC ha.nonneg hsc (le (by omega)) (le (by omega))
  obtain ⟨rfl, rfl⟩ := system_unique e1 e2
  obtain ⟨g1, g2⟩ := f1 M' r' ε ε' (sawScale s kR a'.li.length Q F) hsm
    (fun i hi j hj => (abs_sub_le _ _ _).trans (add_le_add (hM i hi j hj) (f2 i j)))
    (fun i hi => (abs_sub_le _ _ _).trans (add_le_add (hr i hi) (f4 i))) fun i _ => f3 i
  refine ⟨g1, fun x hx i hi y hy q => ?_⟩
  obtain ⟨b1, b2⟩ := g2 x hx
  have ev := C90_state h hl s hs hy.1 hy.2 (fun j => x (6 * i + j)) phi (a'.ki.getD i false) (le (by omega)) q
  have sc := stateScale_le hs hsc hi hy (C := fun j => x (6 * i + j)) (X := K * (sawScale s kR a'.li.length Q F + ε'))
    (fun j => b1 _ (by have := j.2; omega)) q
  have g : 0 ≤ gamma u (s.slab.length + 2 * m + 17) := by
    unfold gamma
    have := le (k := s.slab.length + 2 * m + 17) (by omega)
    have := h.nonneg
    exact div_nonneg (by positivity) (by linarith)
  have := abs_sub_le (zsolFl fl lib s y (fun j => x (6 * i + j)) (nth a'.li i) phi (a'.ki.getD i false) q)
    (zsol s y (fun j => x (6 * i + j)) (nth a'.li i) phi (a'.ki.getD i false) q)
    (zsol s y (C.getD i 0) (nth a'.li i) phi (a'.ki.getD i false) q)
  have t1 := b2 i hi y hy q
  have t2 := mul_le_mul_of_nonneg_left sc g
  unfold stateError
  linarith

/-! ## Results -/

/-- C92, results: stresses, energy release rates and section forces computed in floating-point arithmetic from a state `Z'`
that is off by `D` in every component. `c` is the factor of the unit. -/
theorem C92_results (h : RoundOk u fl) (hu : ((18 : ℕ) : ℝ) * u < 1) (s : Self) (hs : Stored s) {Z Z' : Vec6} {D : ℝ}
    (hD : ∀ q, |Z' q - Z q| ≤ D) (c : ℝ) :
    let e := gamma u 18
    let w := |Z 2| + D
    let v := slipScale s fun q => |Z q| + D
    let dv := slipScale s fun _ => D
    |fsigFl fl s c Z' - c * fsig s Z| ≤ |c| * s.kn * (D + e * w) ∧
    |ftauFl fl s c Z' - c * ftau s Z| ≤ |c| * s.kt * (dv + e * v) ∧
    |fGiFl fl s c Z' - c * fGi s Z| ≤ |c| * s.kn / 2 * (2 * w * D + e * w ^ 2) ∧
    |fGiiFl fl s c Z' - c * fGii s Z| ≤ |c| * s.kt / 2 * (2 * v * dv + e * v ^ 2) ∧
    |fNFl fl s Z' - fN s Z| ≤ |s.A11| * (D + e * (|Z 1| + D)) + |s.B11| * (D + e * (|Z 5| + D)) ∧
    |fMFl fl s Z' - fM s Z| ≤ |s.B11| * (D + e * (|Z 1| + D)) + |s.D11| * (D + e * (|Z 5| + D)) ∧
    |fVFl fl s Z' - fV s Z| ≤ |s.kA55| * (2 * D + e * (|Z 3| + |Z 4| + 2 * D)) := by
  intro e w v dv
  have hD0 : 0 ≤ D := (abs_nonneg _).trans (hD 0)
  have he : 0 ≤ e := div_nonneg (mul_nonneg (Nat.cast_nonneg _) h.nonneg) (by linarith)
  have hZ : ∀ q, |Z' q| ≤ |Z q| + D := fun q => by
    have := abs_sub_abs_le_abs_sub (Z' q) (Z q)
    have := hD q
    linarith
  obtain ⟨a1, a2, a3, a4⟩ := C90_weak_layer h hu s hs Z' c
  have hu3 : ((3 : ℕ) : ℝ) * u < 1 := lt_of_le_of_lt (mul_le_mul_of_nonneg_right (by norm_num) h.nonneg) hu
  obtain ⟨-, -, b1, b2, b3⟩ := C90_section h hu3 s Z' 1 0
  have g3 : gamma u 3 ≤ e := by
    have := h.nonneg
    have h3 : (3 : ℝ) * u < 1 := by simpa using hu3
    have h18 : (18 : ℝ) * u < 1 := by simpa using hu
    show ((3 : ℕ) : ℝ) * u / (1 - ((3 : ℕ) : ℝ) * u) ≤ ((18 : ℕ) : ℝ) * u / (1 - ((18 : ℕ) : ℝ) * u)
    push_cast
    apply div_le_div₀ <;> linarith
  have hc := abs_nonneg c
  have hn := hs.kn
  have ht := hs.kt
  have hh := hs.h
  have htt := hs.t
  -- weak layer
  have w0 : 0 ≤ w := add_nonneg (abs_nonneg _) hD0
  have v0 : 0 ≤ v := by
    have := fun q => add_nonneg (abs_nonneg (Z q)) hD0
    show 0 ≤ (|Z 3| + D) * s.t / 2 + ((|Z 0| + D) + s.h / 2 * (|Z 4| + D))
    positivity
  have dv0 : 0 ≤ dv := by
    show 0 ≤ D * s.t / 2 + (D + s.h / 2 * D)
    positivity
  have hw2 : |Z' 2| ≤ w := hZ 2
  let slip : Vec6 → ℝ := fun Z => fdw Z * s.t / 2 - fu Z (s.h / 2)
  have sl : ∀ Y : Vec6, |slip Y| ≤ slipScale s fun q => |Y q| := fun Y => by
    show |Y 3 * s.t / 2 - (Y 0 + s.h / 2 * Y 4)| ≤ |Y 3| * s.t / 2 + (|Y 0| + s.h / 2 * |Y 4|)
    refine (abs_sub _ _).trans (add_le_add (le_of_eq ?_) ((abs_add_le _ _).trans (add_le_add le_rfl (le_of_eq ?_))))
    · rw [abs_div, abs_mul, abs_of_pos htt, abs_two]
    · rw [abs_mul, abs_of_pos (by linarith : 0 < s.h / 2)]
  have mono : ∀ {S S' : Vec6}, (∀ q, S q ≤ S' q) → slipScale s S ≤ slipScale s S' := fun {S S'} hS => by
    unfold slipScale
    have := hS 3
    have := hS 0
    have := hS 4
    gcongr
  have vZ' : slipScale s (fun q => |Z' q|) ≤ v := mono hZ
  have vZ : slipScale s (fun q => |Z q|) ≤ v := mono fun q => by linarith
  have dsl : |slip Z' - slip Z| ≤ dv := by
    have e1 : slip Z' - slip Z = slip (fun q => Z' q - Z q) := by
      show (Z' 3 * s.t / 2 - (Z' 0 + s.h / 2 * Z' 4)) - (Z 3 * s.t / 2 - (Z 0 + s.h / 2 * Z 4)) =
        (Z' 3 - Z 3) * s.t / 2 - ((Z' 0 - Z 0) + s.h / 2 * (Z' 4 - Z 4))
      ring
    rw [e1]
    exact (sl _).trans (mono hD)
  have sq : ∀ {x y b d : ℝ}, |x| ≤ b → |y| ≤ b → |x - y| ≤ d → |x ^ 2 - y ^ 2| ≤ 2 * b * d := fun {x y b d} hx hy hxy => by
    rw [sq_sub_sq, abs_mul]
    refine mul_le_mul ((abs_add_le _ _).trans (by linarith)) hxy (abs_nonneg _) (by have := abs_nonneg x; linarith)
  have tri : ∀ {x y z p q : ℝ}, |x - y| ≤ p → |y - z| ≤ q → |x - z| ≤ q + p := fun hp hq => by
    have := abs_sub_le _ _ _ |>.trans (add_le_add hp hq)
    linarith
  refine ⟨?_, ?_, ?_, ?_, ?_, ?_, ?_⟩
  · have t : |c * fsig s Z' - c * fsig s Z| ≤ |c| * s.kn * D := by
      rw [show c * fsig s Z' - c * fsig s Z = -(c * s.kn * (Z' 2 - Z 2)) by unfold fsig fw; ring, abs_neg, abs_mul, abs_mul, abs_of_pos hn]
      have := hD 2
      gcongr
    have t2 : |c * fsig s Z'| ≤ |c| * s.kn * w := by
      rw [show c * fsig s Z' = -(c * s.kn * Z' 2) by unfold fsig fw; ring, abs_neg, abs_mul, abs_mul, abs_of_pos hn]
      gcongr
    refine (tri (a1.trans (mul_le_mul_of_nonneg_left t2 he)) t).trans (le_of_eq (by ring))
  · have t : |c * ftau s Z' - c * ftau s Z| ≤ |c| * s.kt * dv := by
      rw [show c * ftau s Z' - c * ftau s Z = -(c * s.kt * (slip Z' - slip Z)) by simp only [ftau, slip]; ring, abs_neg, abs_mul, abs_mul,
        abs_of_pos ht]
      gcongr
    have t2 : |c| * s.kt * slipScale s (fun i => |Z' i|) ≤ |c| * s.kt * v := by gcongr
    refine (tri (a2.trans (mul_le_mul_of_nonneg_left t2 he)) t).trans (le_of_eq (by ring))
  · have ex : ∀ Y : Vec6, c * fGi s Y = c * (s.kn / 2) * Y 2 ^ 2 := fun Y => by
      unfold fGi fsig fw
      field_simp
    have t : |c * fGi s Z' - c * fGi s Z| ≤ |c| * s.kn / 2 * (2 * w * D) := by
      rw [ex, ex, ← mul_sub, abs_mul, abs_mul, abs_of_pos (by linarith : 0 < s.kn / 2), ← mul_div_assoc]
      have := sq hw2 (show |Z 2| ≤ w by simp only [w]; linarith) (hD 2)
      gcongr
    have t2 : |c * fGi s Z'| ≤ |c| * s.kn / 2 * w ^ 2 := by
      rw [ex, abs_mul, abs_mul, abs_of_pos (by linarith : 0 < s.kn / 2), ← mul_div_assoc, abs_pow]
      gcongr
    refine (tri (a3.trans (mul_le_mul_of_nonneg_left t2 he)) t).trans (le_of_eq (by ring))
  · have ex : ∀ Y : Vec6, c * fGii s Y = c * (s.kt / 2) * slip Y ^ 2 := fun Y => by
      simp only [fGii, ftau, slip]
      field_simp
    have t : |c * fGii s Z' - c * fGii s Z| ≤ |c| * s.kt / 2 * (2 * v * dv) := by
      rw [ex, ex, ← mul_sub, abs_mul, abs_mul, abs_of_pos (by linarith : 0 < s.kt / 2), ← mul_div_assoc]
      have := sq ((sl Z').trans vZ') ((sl Z).trans vZ) dsl
      gcongr
    have s0 : 0 ≤ slipScale s (fun i => |Z' i|) := (abs_nonneg _).trans (sl Z')
    have t2 : |c| * (s.kt * slipScale s fun i => |Z' i|) ^ 2 / (2 * s.kt) ≤ |c| * s.kt / 2 * v ^ 2 := by
      rw [show |c| * (s.kt * slipScale s fun i => |Z' i|) ^ 2 / (2 * s.kt) = |c| * s.kt / 2 * (slipScale s fun i => |Z' i|) ^ 2 by
        field_simp]
      gcongr
    refine (tri (a4.trans (mul_le_mul_of_nonneg_left t2 he)) t).trans (le_of_eq (by ring))
  · have t : |fN s Z' - fN s Z| ≤ |s.A11| * D + |s.B11| * D := by
      rw [show fN s Z' - fN s Z = s.A11 * (Z' 1 - Z 1) + s.B11 * (Z' 5 - Z 5) by unfold fN; ring]
      refine (abs_add_le _ _).trans ?_
      rw [abs_mul, abs_mul]
      have := hD 1
      have := hD 5
      gcongr
    have t2 : gamma u 3 * (|s.A11| * |Z' 1| + |s.B11| * |Z' 5|) ≤ e * (|s.A11| * (|Z 1| + D) + |s.B11| * (|Z 5| + D)) := by
      have := hZ 1
      have := hZ 5
      gcongr
    refine (tri (b1.trans t2) t).trans (le_of_eq (by ring))
  · have t : |fM s Z' - fM s Z| ≤ |s.B11| * D + |s.D11| * D := by
      rw [show fM s Z' - fM s Z = s.B11 * (Z' 1 - Z 1) + s.D11 * (Z' 5 - Z 5) by unfold fM; ring]
      refine (abs_add_le _ _).trans ?_
      rw [abs_mul, abs_mul]
      have := hD 1
      have := hD 5
      gcongr
    have t2 : gamma u 3 * (|s.B11| * |Z' 1| + |s.D11| * |Z' 5|) ≤ e * (|s.B11| * (|Z 1| + D) + |s.D11| * (|Z 5| + D)) := by
      have := hZ 1
      have := hZ 5
      gcongr
    refine (tri (b2.trans t2) t).trans (le_of_eq (by ring))
  · have t : |fV s Z' - fV s Z| ≤ |s.kA55| * (2 * D) := by
      rw [show fV s Z' - fV s Z = s.kA55 * ((Z' 3 - Z 3) + (Z' 4 - Z 4)) by unfold fV; ring, abs_mul]
      have := hD 3
      have := hD 4
      have := abs_add_le (Z' 3 - Z 3) (Z' 4 - Z 4)
      gcongr
      linarith
    have t2 : gamma u 3 * (|s.kA55| * (|Z' 3| + |Z' 4|)) ≤ e * (|s.kA55| * (|Z 3| + |Z 4| + 2 * D)) := by
      have : |Z' 3| + |Z' 4| ≤ |Z 3| + |Z 4| + 2 * D := by
        have := hZ 3
        have := hZ 4
        linarith
      exact mul_le_mul g3 (mul_le_mul_of_nonneg_left this (abs_nonneg _)) (by positivity) he
    refine (tri (b3.trans t2) t).trans (le_of_eq (by ring))

end Weac
