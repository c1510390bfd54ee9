import Verif.Model.Criterion

/-!
# Objects that differ in the list of layers only

Two slabs that weigh the same and have the same wedge at a vertical face are
told apart by no method that solves the beam: every method returns the same
value or exception and leaves objects that again differ in the layers only.
-/

namespace Weac

/-- The same weight per area and the same wedge. -/
structure Interchangeable (c d : List Layer) : Prop where
  weight : (d.map fun l => l.rho * l.h).sum = (c.map fun l => l.rho * l.h).sum
  wedge : ∀ phi, calcVerticalBcCenterOfGravity (d.map Layer.ply) phi = calcVerticalBcCenterOfGravity (c.map Layer.ply) phi

/-- `s'` is `s` with the layers `d` in place of `c`. -/
def Twin (c d : List Layer) (s s' : Self) : Prop := s.slab = c ∧ s' = { s with slab := d }

/-- Related values, or the same exception. -/
def ResRel {α : Type} (R : α → α → Prop) : Res α → Res α → Prop
  | .ok a, .ok b => R a b
  | .error e, .error f => e = f
  | _, _ => False

theorem ResRel.eq {α : Type} {a b : Res α} (h : ResRel (· = ·) a b) : a = b := by
  cases a <;> cases b <;> simp_all [ResRel]

theorem ResRel.of_eq {α : Type} {a b : Res α} (h : a = b) : ResRel (· = ·) a b := by
  subst h; cases a <;> simp [ResRel]

theorem ResRel.bind {α β : Type} {R : α → α → Prop} {Q : β → β → Prop} {a b : Res α} {f g : α → Res β}
    (h : ResRel R a b) (hf : ∀ x y, R x y → ResRel Q (f x) (g y)) : ResRel Q (a >>= f) (b >>= g) := by
  cases a <;> cases b <;> simp_all [ResRel, Bind.bind, Except.bind]

theorem ResRel.ite {α : Type} {R : α → α → Prop} {p : Prop} [Decidable p] {a b a' b' : Res α} (h : ResRel R a a')
    (h' : ResRel R b b') : ResRel R (if p then a else b) (if p then a' else b') := by
  split <;> assumption

theorem ResRel.mapM {α β : Type} {f g : α → Res β} (h : ∀ x, f x = g x) (l : List α) : l.mapM f = l.mapM g := by
  rw [show f = g from funext h]

section
variable (c d : List Layer)

/-- The method runs alike on two such objects. -/
def PyRel {α : Type} (R : α → α → Prop) (m m' : Py α) : Prop :=
  ∀ s s', Twin c d s s' → ResRel R (m s).1 (m' s').1 ∧ Twin c d (m s).2 (m' s').2

variable {c d} {α β : Type} {R : α → α → Prop} {Q : β → β → Prop}

theorem PyRel.pure {a b : α} (h : R a b) : PyRel c d R (Pure.pure a : Py α) (Pure.pure b) := fun _ _ hs => ⟨h, hs⟩

theorem PyRel.raise (e : PyErr) : PyRel c d R (Py.raise e : Py α) (Py.raise e) := fun _ _ hs => ⟨rfl, hs⟩

theorem PyRel.lift {a b : Res α} (h : ResRel R a b) : PyRel c d R (Py.lift a) (Py.lift b) := fun _ _ hs => ⟨h, hs⟩

theorem PyRel.get : PyRel c d (Twin c d) Py.get Py.get := fun _ _ hs => ⟨hs, hs⟩

theorem PyRel.modify {f : Self → Self} (h : ∀ s s', Twin c d s s' → Twin c d (f s) (f s')) :
    PyRel c d (· = ·) (Py.modify f) (Py.modify f) := fun _ _ hs => ⟨rfl, h _ _ hs⟩

theorem PyRel.bind {m m' : Py α} {f f' : α → Py β} (h : PyRel c d R m m') (hf : ∀ a b, R a b → PyRel c d Q (f a) (f' b)) :
    PyRel c d Q (m >>= f) (m' >>= f') := by
  intro s s' hs
  obtain ⟨h1, h2⟩ := h s s' hs
  show ResRel Q (Py.bind m f s).1 (Py.bind m' f' s').1 ∧ Twin c d (Py.bind m f s).2 (Py.bind m' f' s').2
  unfold Py.bind
  rcases hm : m s with ⟨r, t⟩
  rcases hm' : m' s' with ⟨r', t'⟩
  rw [hm, hm'] at h1 h2
  cases r with
  | error e =>
    cases r' with
    | error e' => exact ⟨h1, h2⟩
    | ok b => exact h1.elim
  | ok a =>
    cases r' with
    | error e' => exact h1.elim
    | ok b => exact hf a b h1 t t' h2

theorem PyRel.ite {p : Prop} [Decidable p] {a b a' b' : Py α} (h : PyRel c d R a a') (h' : PyRel c d R b b') :
    PyRel c d R (if p then a else b) (if p then a' else b') := by
  split <;> assumption

/-- Start with the object. -/
theorem PyRel.self {f f' : Self → Py β} (h : ∀ s, s.slab = c → PyRel c d Q (f s) (f' { s with slab := d })) :
    PyRel c d Q (Py.get >>= f) (Py.get >>= f') :=
  PyRel.bind PyRel.get fun s s' hs => by
    obtain ⟨h1, rfl⟩ := hs
    exact h s h1

/-! ## Methods -/

variable (hi : Interchangeable c d)
include hi

theorem twin_weightLoad {s s' : Self} (h : Twin c d s s') (phi : ℝ) : getWeightLoad s' phi = getWeightLoad s phi := by
  obtain ⟨rfl, rfl⟩ := h
  have e : ∀ l : List Layer, (l.map fun l => l.rho * 1e-12 * s.g * l.h).sum = 1e-12 * s.g * (l.map fun l => l.rho * l.h).sum := by
    intro l
    rw [← List.sum_map_mul_left]
    congr 1
    refine List.map_congr_left fun x _ => ?_
    ring
  unfold getWeightLoad
  simp only [e, hi.weight]

theorem twin_zp {s s' : Self} (h : Twin c d s s') (x phi : ℝ) (k : Bool) : zp s' x phi k = zp s x phi k := by
  have e := twin_weightLoad hi h phi
  obtain ⟨h0, rfl⟩ := h
  unfold zp
  rw [e]
  rfl

theorem twin_zsol {s s' : Self} (h : Twin c d s s') (x : ℝ) (C : Vec6) (l phi : ℝ) (k : Bool) :
    zsol s' x C l phi k = zsol s x C l phi k := by
  have e := twin_zp hi h x phi k
  obtain ⟨h0, rfl⟩ := h
  unfold zsol
  rw [e]
  rfl

theorem twin_calcQn {s s' : Self} (h : Twin c d s s') : calcQn s' = calcQn s := by
  have e := twin_weightLoad hi h s.phi
  obtain ⟨h0, rfl⟩ := h
  unfold calcQn
  rw [← e]
  rfl

theorem twin_calcQt {s s' : Self} (h : Twin c d s s') : calcQt s' = calcQt s := by
  have e := twin_weightLoad hi h s.phi
  obtain ⟨h0, rfl⟩ := h
  unfold calcQt
  rw [← e]
  rfl

theorem twin_vertical {s s' : Self} (h : Twin c d s s') (phi : ℝ) : verticalForces s' phi = verticalForces s phi := by
  obtain ⟨rfl, rfl⟩ := h
  unfold verticalForces
  simp only [hi.wedge]

theorem twin_rasterize {s s' : Self} (h : Twin c d s s') (phi : ℝ) (n : ℕ) (gs : List Seg) :
    rasterize s' phi n gs = rasterize s phi n gs := by
  have e : ∀ n t x p g l, segPts s' phi n t x p g l = segPts s phi n t x p g l := by
    intro n t x p g l
    unfold segPts
    simp only [twin_zsol hi h]
  have e2 : ∀ gs n t x p, rasterLoop s' phi n t x p gs = rasterLoop s phi n t x p gs := by
    intro gs
    induction gs with
    | nil => intros; rfl
    | cons g gs ih => intros; simp only [rasterLoop, e, ih]
  unfold rasterize
  simp only [e2]

omit hi in
theorem twin_eig (eig : EigSolver) {s s' : Self} (h : Twin c d s s') : Twin c d (calcEigensystem eig s) (calcEigensystem eig s') := by
  obtain ⟨rfl, rfl⟩ := h
  exact ⟨rfl, rfl⟩

omit hi in
theorem alike_bc {sub : Py ℝ} (hs : PyRel c d (· = ·) sub sub) (k : Bool) (pos : Pos) :
    PyRel c d (· = ·) (bc sub k pos) (bc sub k pos) := by
  unfold bc
  refine PyRel.self fun s h0 => ?_
  refine PyRel.ite (PyRel.ite (PyRel.pure rfl) ?_) (PyRel.ite (PyRel.pure rfl) (PyRel.ite (PyRel.pure rfl)
    (PyRel.ite (PyRel.pure rfl) (PyRel.raise _))))
  show PyRel c d (· = ·) (match s.mode, pos with | .A, _ => _ | .B, .r => _ | .B, .l => _ | .C, .r => _ | .C, .l => _ | _, _ => _)
    (match s.mode, pos with | .A, _ => _ | .B, .r => _ | .B, .l => _ | .C, .r => _ | .C, .l => _ | _, _ => _)
  cases s.mode <;> cases pos
  all_goals first
    | exact PyRel.pure rfl
    | exact PyRel.raise _
    | (refine PyRel.bind hs fun a b hab => PyRel.self fun s h0 => ?_
       subst hab
       exact PyRel.pure rfl)

omit hi in
theorem alike_eqs {sub : Py ℝ} (hs : PyRel c d (· = ·) sub sub) (k : Bool) (pos : Pos) :
    PyRel c d (· = ·) (eqs sub k pos) (eqs sub k pos) := by
  have hb := alike_bc hs k pos
  unfold eqs
  cases pos with
  | l =>
    refine PyRel.bind hb fun a b h => PyRel.bind hb fun a' b' h' => PyRel.bind hb fun a'' b'' h'' => PyRel.self fun s _ => ?_
    subst h h' h''
    exact PyRel.pure rfl
  | m => exact PyRel.self fun s _ => PyRel.pure rfl
  | r =>
    refine PyRel.self fun s _ => PyRel.bind hb fun a b h => PyRel.bind hb fun a' b' h' => PyRel.bind hb fun a'' b'' h'' => ?_
    subst h h' h''
    exact PyRel.pure rfl

theorem alike_asmBody {sub : Py ℝ} (hs : PyRel c d (· = ·) sub sub) (phi : ℝ) (n : ℕ) (li : List ℝ) (ki : List Bool)
    (acc : (ℕ → ℕ → ℝ) × (ℕ → ℝ)) (i : ℕ) :
    PyRel c d (· = ·) (asmBody sub phi n li ki acc i) (asmBody sub phi n li ki acc i) := by
  have he := alike_eqs hs (ki.getD i false) (posOf n i)
  unfold asmBody
  refine PyRel.self fun s h0 => PyRel.bind he fun f f' h => PyRel.self fun s1 h1 => PyRel.bind he fun g g' h' => ?_
  subst h h'
  have e : ∀ x k, zp { s1 with slab := d } x phi k = zp s1 x phi k := fun x k => twin_zp hi ⟨h1, rfl⟩ x phi k
  refine PyRel.ite (PyRel.raise _) (PyRel.pure ?_)
  simp only [e]
  rfl

omit hi in
theorem alike_forLoop {γ : Type} {body : α → γ → Py α} (h : ∀ a b, PyRel c d (· = ·) (body a b) (body a b)) (l : List γ) (a : α) :
    PyRel c d (· = ·) (forLoop body l a) (forLoop body l a) := by
  induction l generalizing a with
  | nil => exact PyRel.pure rfl
  | cons b bs ih =>
    refine PyRel.bind (h a b) fun x y hxy => ?_
    subst hxy
    exact ih x

theorem alike_asmSolve {sub : Py ℝ} (hs : PyRel c d (· = ·) sub sub) (phi : ℝ) (a : SegLists) :
    PyRel c d (· = ·) (asmSolve sub phi a) (asmSolve sub phi a) := by
  unfold asmSolve asmSolveBy
  refine PyRel.bind (alike_forLoop (alike_asmBody hi hs phi _ _ _) _ _) fun p q h => ?_
  subst h
  refine PyRel.self fun s h0 => ?_
  have ht : Twin c d s { s with slab := d } := ⟨h0, rfl⟩
  have ez : ∀ x k, zp { s with slab := d } x phi k = zp s x phi k := fun x k => twin_zp hi ht x phi k
  have ev := twin_vertical hi ht phi
  have et : ∀ n ki, rhsTouchdownStep { s with slab := d } n ki = rhsTouchdownStep s n ki := by
    intro n ki
    unfold rhsTouchdownStep
    rw [twin_calcQt hi ht]
  have es : ∀ mi, rhsSkiers { s with slab := d } phi mi = rhsSkiers s phi mi := fun mi => rfl
  have hend : ∀ r : ℕ → ℝ, PyRel c d (· = ·)
      (do let x ← Py.lift (npSolve (6 * a.li.length) p.1 (fun j => r j - p.2 j))
          return (List.range a.li.length).map fun i => fun j : Fin 6 => x (6 * i + j) : Py (List Vec6))
      (do let x ← Py.lift (npSolve (6 * a.li.length) p.1 (fun j => r j - p.2 j))
          return (List.range a.li.length).map fun i => fun j : Fin 6 => x (6 * i + j) : Py (List Vec6)) := fun r =>
    PyRel.bind (R := (· = ·)) (PyRel.lift (ResRel.of_eq rfl)) fun x y h => by
      subst h
      exact PyRel.pure rfl
  dsimp only
  simp only [ez, es, ev, et]
  refine PyRel.ite (PyRel.bind (alike_bc hs _ _) fun b0 b0' h => ?_) ?_
  · subst h
    refine PyRel.bind (alike_bc hs _ _) fun b1 b1' h => ?_
    subst h
    exact hend _
  · exact hend _

theorem alike_assembleWith {sub : Py ℝ} (hs : PyRel c d (· = ·) sub sub) (kind : SeqKind) (phi : ℝ) (a : SegLists) :
    PyRel c d (· = ·) (assembleWith sub kind phi a) (assembleWith sub kind phi a) := by
  have ha := fun a => alike_asmSolve hi hs phi a
  unfold assembleWith assembleBy
  refine PyRel.ite (PyRel.raise _) (PyRel.ite (PyRel.raise _) (PyRel.self fun s h0 => PyRel.ite (PyRel.raise _) (PyRel.ite ?_ ?_)))
  · cases kind with
    | ndarray => exact PyRel.raise _
    | list =>
      refine PyRel.bind (ha _) fun C C' h => ?_
      subst h
      exact PyRel.pure rfl
  · refine PyRel.bind (ha _) fun C C' h => ?_
    subst h
    exact PyRel.pure rfl

theorem alike_substitute (eig : EigSolver) (L : ℝ) (rested : Bool) (dof : Dof) :
    PyRel c d (· = ·) (substituteStiffness eig L rested dof) (substituteStiffness eig L rested dof) := by
  have he : PyRel c d (· = ·) (Py.modify (calcEigensystem eig)) (Py.modify (calcEigensystem eig)) :=
    PyRel.modify fun _ _ h => twin_eig eig h
  unfold substituteStiffness
  refine PyRel.self fun s0 h0 => PyRel.bind (R := (· = ·)) ?_ fun _ _ _ => PyRel.bind (R := (· = ·)) ?_ fun _ _ _ =>
    PyRel.bind (alike_assembleWith hi (PyRel.raise _) _ _ _) fun o o' h => PyRel.self fun s h1 => ?_
  · cases dof with
    | other => exact PyRel.pure rfl
    | _ => exact PyRel.modify fun _ _ h => by obtain ⟨rfl, rfl⟩ := h; exact ⟨rfl, rfl⟩
  · refine PyRel.ite (PyRel.bind (R := (· = ·)) (PyRel.modify fun _ _ h => ?_) fun _ _ _ => he) (PyRel.pure rfl)
    obtain ⟨rfl, rfl⟩ := h
    exact ⟨rfl, rfl⟩
  · subst h
    refine PyRel.bind (R := (· = ·)) (PyRel.lift (ResRel.of_eq (twin_rasterize hi ⟨h1, rfl⟩ _ _ _).symm)) fun p p' h => ?_
    subst h
    have hfin : ∀ k : ℝ, PyRel c d (· = ·)
        (do Py.modify fun s => { s with system := s0.system }
            (if rested then do
              Py.modify fun s => { s with kn := s0.kn, kt := s0.kt }
              Py.modify (calcEigensystem eig)
            else pure ())
            return k : Py ℝ)
        (do Py.modify fun s => { s with system := s0.system }
            (if rested then do
              Py.modify fun s => { s with kn := s0.kn, kt := s0.kt }
              Py.modify (calcEigensystem eig)
            else pure ())
            return k : Py ℝ) := fun k => by
      refine PyRel.bind (R := (· = ·)) (PyRel.modify fun _ _ h => ?_) fun _ _ _ => PyRel.bind (R := (· = ·))
        (PyRel.ite (PyRel.bind (R := (· = ·)) (PyRel.modify fun _ _ h => ?_) fun _ _ _ => he) (PyRel.pure rfl)) fun _ _ _ =>
          PyRel.pure rfl
      all_goals
        obtain ⟨rfl, rfl⟩ := h
        exact ⟨rfl, rfl⟩
    cases dof with
    | other => exact PyRel.raise _
    | _ => exact hfin _

theorem alike_spring (num : Numerics) :
    PyRel c d (· = ·) (do let s ← Py.get; substituteStiffness num.eig (s.a - s.td) true .rot : Py ℝ)
      (do let s ← Py.get; substituteStiffness num.eig (s.a - s.td) true .rot) :=
  PyRel.self fun _ _ => alike_substitute hi _ _ _ _

theorem alike_assemble (num : Numerics) (kind : SeqKind) (phi : ℝ) (a : SegLists) :
    PyRel c d (· = ·) (assembleAndSolve num kind phi a) (assembleAndSolve num kind phi a) :=
  alike_assembleWith hi (alike_spring hi num) kind phi a

/-! ## Touchdown -/

omit hi in
theorem alike_brentLoop (next : List (ℝ × ℝ) → ℝ ⊕ ℝ) {f : ℝ → Py ℝ} (hf : ∀ x, PyRel c d (· = ·) (f x) (f x)) (n : ℕ)
    (l : List (ℝ × ℝ)) : PyRel c d (· = ·) (brentLoop next f n l) (brentLoop next f n l) := by
  induction n generalizing l with
  | zero => exact PyRel.raise _
  | succ n ih =>
    unfold brentLoop
    cases next l with
    | inr r => exact PyRel.pure rfl
    | inl x =>
      refine PyRel.bind (hf x) fun y y' h => ?_
      subst h
      exact ih _

omit hi in
theorem alike_brentq (num : Numerics) {f : ℝ → Py ℝ} (hf : ∀ x, PyRel c d (· = ·) (f x) (f x)) (a b : ℝ) :
    PyRel c d (· = ·) (brentq num f a b) (brentq num f a b) := by
  unfold brentq
  refine PyRel.bind (hf a) fun y y' h => PyRel.bind (hf b) fun w w' h' => ?_
  subst h h'
  exact PyRel.ite (PyRel.pure rfl) (PyRel.ite (PyRel.pure rfl) (PyRel.ite (PyRel.raise _) (alike_brentLoop _ hf _ _)))

theorem alike_calcA1 (num : Numerics) : PyRel c d (· = ·) (calcA1 num) (calcA1 num) := by
  unfold calcA1
  refine PyRel.self fun s h0 => ?_
  rw [twin_calcQn hi ⟨h0, rfl⟩]
  refine alike_brentq num (fun x => ?_) _ _
  refine PyRel.bind (alike_substitute hi _ _ _ _) fun y y' h => PyRel.bind (alike_substitute hi _ _ _ _) fun w w' h' => ?_
  subst h h'
  exact PyRel.pure rfl

theorem alike_calcA2 (num : Numerics) : PyRel c d (· = ·) (calcA2 num) (calcA2 num) := by
  unfold calcA2
  refine PyRel.self fun s h0 => ?_
  rw [twin_calcQn hi ⟨h0, rfl⟩]
  refine alike_brentq num (fun x => ?_) _ _
  refine PyRel.bind (alike_substitute hi _ _ _ _) fun y y' h => PyRel.bind (alike_substitute hi _ _ _ _) fun w w' h' => ?_
  subst h h'
  exact PyRel.pure rfl

theorem alike_calcLC (num : Numerics) : PyRel c d (· = ·) (calcLC num) (calcLC num) := by
  unfold calcLC
  refine PyRel.self fun s h0 => ?_
  rw [twin_calcQn hi ⟨h0, rfl⟩]
  refine alike_brentq num (fun x => ?_) _ _
  refine PyRel.bind (alike_substitute hi _ _ _ _) fun y y' h => PyRel.bind (alike_substitute hi _ _ _ _) fun w w' h' =>
    PyRel.bind (alike_substitute hi _ _ _ _) fun v v' h'' => ?_
  subst h h' h''
  exact PyRel.pure rfl

theorem alike_touchdown (num : Numerics) (L a cf phi ratio : ℝ) :
    PyRel c d (· = ·) (calcTouchdownSystem num L a cf phi ratio) (calcTouchdownSystem num L a cf phi ratio) := by
  have set : ∀ f : Self → Self, (∀ s s', Twin c d s s' → Twin c d (f s) (f s')) →
      PyRel c d (· = ·) (Py.modify f) (Py.modify f) := fun f h => PyRel.modify h
  unfold calcTouchdownSystem calcTouchdownMode calcTouchdownLength
  refine PyRel.bind (R := (· = ·)) (PyRel.modify fun s s' h => ?_) fun _ _ _ => PyRel.bind (R := (· = ·))
    (PyRel.self fun s h0 => PyRel.ite (PyRel.bind (alike_calcA1 hi num) fun y y' h => PyRel.bind (alike_calcA2 hi num)
      fun w w' h' => PyRel.self fun s h1 => ?_) ?_) fun _ _ _ => PyRel.self fun s h0 => ?_
  · obtain ⟨rfl, rfl⟩ := h
    refine ⟨rfl, ?_⟩
    unfold setTouchdownAttributes setTc
    simp only
    rw [twin_calcQn hi (s := { s with L := L, a := a }) ⟨rfl, rfl⟩]
  · subst h h'
    refine PyRel.ite (PyRel.modify fun _ _ h => ?_) (PyRel.ite (PyRel.modify fun _ _ h => ?_) (PyRel.ite (PyRel.modify fun _ _ h => ?_)
      (PyRel.raise _)))
    all_goals
      obtain ⟨rfl, rfl⟩ := h
      exact ⟨rfl, rfl⟩
  · refine PyRel.modify fun _ _ h => ?_
    obtain ⟨rfl, rfl⟩ := h
    exact ⟨rfl, rfl⟩
  · show PyRel c d (· = ·) (match s.mode with | .A => _ | .B => _ | .C => _ | .unset => _)
      (match s.mode with | .A => _ | .B => _ | .C => _ | .unset => _)
    cases s.mode with
    | unset => exact PyRel.pure rfl
    | C =>
      refine PyRel.bind (alike_calcLC hi num) fun y y' h => ?_
      subst h
      refine PyRel.modify fun _ _ h => ?_
      obtain ⟨rfl, rfl⟩ := h
      exact ⟨rfl, rfl⟩
    | _ =>
      refine PyRel.modify fun _ _ h => ?_
      obtain ⟨rfl, rfl⟩ := h
      exact ⟨rfl, rfl⟩

theorem alike_segments (num : Numerics) (li mi : List ℝ) (ki k0 : List Bool) (L a m phi cf ratio : ℝ) :
    PyRel c d (· = ·) (calcSegments num li mi ki k0 L a m phi cf ratio) (calcSegments num li mi ki k0 L a m phi cf ratio) := by
  unfold calcSegments
  refine PyRel.self fun s h0 => PyRel.bind (R := (· = ·)) (PyRel.ite (alike_touchdown hi _ _ _ _ _ _) (PyRel.raise _)) fun _ _ _ =>
    PyRel.self fun s h1 => ?_
  exact PyRel.ite (PyRel.pure rfl) (PyRel.ite (PyRel.pure rfl) (PyRel.ite (PyRel.pure rfl) (PyRel.ite (PyRel.pure rfl)
    (PyRel.ite (PyRel.pure rfl) (PyRel.ite (PyRel.pure rfl) (PyRel.raise _))))))

end

end Weac
