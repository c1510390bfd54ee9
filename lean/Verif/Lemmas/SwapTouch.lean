import Verif.Lemmas.Swap

/-!
# Touchdown with another choice of eigenvectors
-/

namespace Weac

/-- Segments with the same field. -/
structure SegSame (T : Mat6) (g g' : Seg) : Prop where
  k : g'.k = g.k
  l : g'.l = g.l
  C : g.C = (turn T g.k).mulVec g'.C

section
variable {e e' : Eigs} {T T' : Mat6} (hB : Blend e e' T T') {s s' : Self} (hs : Swap e e' s s')
include hB hs

theorem swap_rasterize {gs gs' : List Seg} (hg : List.Forall₂ (SegSame T) gs gs') (phi : ℝ) (n : ℕ) :
    rasterize s' phi n gs' = rasterize s phi n gs := by
  have h1 : ∀ n t x p l {g g' : Seg}, SegSame T g g' → segPts s' phi n t x p g' l = segPts s phi n t x p g l := by
    intro n t x p l g g' h
    unfold segPts
    rw [h.k, h.l]
    simp only [hB.zsol hs h.C]
  have h2 : ∀ {gs gs' : List Seg}, List.Forall₂ (SegSame T) gs gs' → ∀ n t x p,
      rasterLoop s' phi n t x p gs' = rasterLoop s phi n t x p gs := by
    intro gs gs' h
    induction h with
    | nil => intros; rfl
    | cons h ht ih =>
      intro n t x p
      rw [rasterLoop, rasterLoop, h1 _ _ _ _ _ h, h.k, h.l, ih]
      congr 2
      cases ht <;> rfl
  have h3 : ∀ {gs gs' : List Seg}, List.Forall₂ (SegSame T) gs gs' → List.Forall₂ (SegSame T) (dropZero gs) (dropZero gs') := by
    intro gs gs' h
    unfold dropZero
    induction h with
    | nil => exact .nil
    | cons h ht ih =>
      simp only [List.map_cons, List.filter_cons, h.l]
      split
      · exact .cons ⟨h.k, rfl, h.C⟩ ih
      · exact ih
  have h4 : ∀ {gs gs' : List Seg}, List.Forall₂ (SegSame T) gs gs' → (gs'.map Seg.l).sum = (gs.map Seg.l).sum := by
    intro gs gs' h
    induction h with
    | nil => rfl
    | cons h ht ih => simp only [List.map_cons, List.sum_cons, h.l, ih]
  have h5 := h3 hg
  unfold rasterize
  generalize dropZero gs = a at h5
  generalize dropZero gs' = b at h5
  cases h5 with
  | nil => rfl
  | cons h ht =>
    show Except.ok _ = Except.ok _
    rw [h4 (.cons h ht), h2 (.cons h ht)]

end

/-- Result of `calc_eigensystem` for the system matrix `K`. -/
noncomputable def eigsOf (eig : EigSolver) (K : Mat6) : Eigs :=
  open Classical in
  { re := ((eig K).filter fun q => q.1.im = 0 ∧ q.1.re ≠ 0).map fun q =>
      ⟨q.1.re, fun i => (q.2 i).re, if 0 < q.1.re then -1 else 0⟩
    cx := ((eig K).filter fun q => 0 < q.1.im).map fun q =>
      ⟨q.1, q.2, if 0 < q.1.re ∨ (q.1.re = 0 ∧ 0 < q.1.im) then -1 else 0⟩ }

theorem calcEigensystem_eq (eig : EigSolver) (s : Self) :
    calcEigensystem eig s = { s with eigs := eigsOf eig (calcSystemMatrix s) } := rfl

/-- The foundation of the collapsed layer. -/
def rested (s : Self) : Self := { s with kn := s.ratio * s.kn, kt := s.ratio * s.kt }

/-- Objects with the system matrix `K`, and `Kr` for the collapsed layer whose
stiffness is `rr` times the given one, and with the eigensystems found by two solvers. -/
structure Peer (eig eig' : EigSolver) (K Kr : Mat6) (rr : ℝ) (s s' : Self) : Prop where
  eigs : s.eigs = eigsOf eig K
  swap : s' = { s with eigs := eigsOf eig' K }
  mat : calcSystemMatrix s = K
  rest : s.ratio = rr ∧ calcSystemMatrix (rested s) = Kr

theorem Peer.toSwap {eig eig' : EigSolver} {K Kr : Mat6} {rr : ℝ} {s s' : Self} (h : Peer eig eig' K Kr rr s s') :
    Swap (eigsOf eig K) (eigsOf eig' K) s s' := ⟨h.eigs, h.swap⟩

section
variable {eig eig' : EigSolver} {K Kr : Mat6} {rr : ℝ} {T T' Tr Tr' : Mat6} (hB : Blend (eigsOf eig K) (eigsOf eig' K) T T')
  (hBr : Blend (eigsOf eig Kr) (eigsOf eig' Kr) Tr Tr')
include hB hBr

/-- The part of `substitute_stiffness` after the object has been prepared. -/
theorem swap_substitute (L : ℝ) (res : Bool) (dof : Dof) :
    Runs (Peer eig eig' K Kr rr) (Peer eig eig' K Kr rr) (· = ·) (substituteStiffness eig L res dof)
      (substituteStiffness eig' L res dof) := by
  have ex : ∀ (f f' : Self → Self) (s s' : Self), Runs (fun t t' => t = s ∧ t' = s') (fun t t' => t = f s ∧ t' = f' s') (· = ·)
      (Py.modify f) (Py.modify f') := fun f f' s s' =>
    Runs.modify fun t t' h => by obtain ⟨rfl, rfl⟩ := h; exact ⟨rfl, rfl⟩
  have mid : ∀ {e e' : Eigs} {T T' : Mat6}, Blend e e' T T' → ∀ {s s' : Self}, Swap e e' s s' →
      ∀ {S : Self → Self → Prop} {f f' : ℝ → Py ℝ}, (∀ k, Runs (fun t t' => t = s ∧ t' = s') S (· = ·) (f k) (f' k)) → ∀ g : Vec6 → ℝ,
      Runs (fun t t' => t = s ∧ t' = s') S (· = ·)
        (do let out ← assembleWith noSub .ndarray 0 ⟨[L, 0], [0], [true, true]⟩
            let s ← Py.get
            let pts ← Py.lift (rasterize s 0 1 [⟨out.1.getD 0 0, true, L⟩, ⟨out.1.getD 1 0, true, 0⟩])
            f (g ((pts.map GridPt.z).getD 0 0)))
        (do let out ← assembleWith noSub .ndarray 0 ⟨[L, 0], [0], [true, true]⟩
            let s ← Py.get
            let pts ← Py.lift (rasterize s 0 1 [⟨out.1.getD 0 0, true, L⟩, ⟨out.1.getD 1 0, true, 0⟩])
            f' (g ((pts.map GridPt.z).getD 0 0))) := by
    intro e e' T T' hB s s' hs S f f' hf g
    refine Runs.bind (swap_assembleWith (R := fun t t' => t = s ∧ t' = s') (fun t t' h => by obtain ⟨rfl, rfl⟩ := h; exact hs)
      (Runs.raise _) hB _ _ _) fun o o' h => Runs.read fun t t' ht => ?_
    obtain ⟨rfl, rfl⟩ := ht
    obtain ⟨-, h1, h2⟩ := h
    rw [h2 (by simp)] at h1
    rw [swap_rasterize hB hs (gs := [⟨o.1.getD 0 0, true, L⟩, ⟨o.1.getD 1 0, true, 0⟩])
      (gs' := [⟨o'.1.getD 0 0, true, L⟩, ⟨o'.1.getD 1 0, true, 0⟩])
      (.cons ⟨rfl, rfl, h1.2 0⟩ (.cons ⟨rfl, rfl, h1.2 1⟩ .nil))]
    refine Runs.bind (P := (· = ·)) (Runs.lift (ResRel.of_eq rfl)) fun p p' h => ?_
    subst h
    exact hf _
  unfold substituteStiffness
  refine Runs.self fun s0 s0' h0 => ?_
  obtain ⟨p1, rfl, p3, p4⟩ := h0
  have fin : ∀ (sys : String) (k : ℝ), Runs (fun t t' => t = { s0 with system := sys } ∧ t' = { s0 with system := sys, eigs := eigsOf eig' K })
      (Peer eig eig' K Kr rr) (· = ·)
      ((Py.modify fun s => { s with system := s0.system }) >>= fun _ => (pure () : Py Unit) >>= fun _ => pure k)
      ((Py.modify fun s => { s with system := s0.system }) >>= fun _ => (pure () : Py Unit) >>= fun _ => pure k) := fun sys k =>
    Runs.bind (R' := Peer eig eig' K Kr rr) (P := (· = ·)) (Runs.modify fun t t' h => by
      obtain ⟨rfl, rfl⟩ := h; exact ⟨p1, rfl, p3, p4⟩) fun _ _ _ => Runs.bind (P := (· = ·)) (Runs.pure rfl) fun _ _ _ => Runs.pure rfl
  have finr : ∀ (sys : String) (k : ℝ), Runs (fun t t' => t = calcEigensystem eig { s0 with system := sys, kn := s0.ratio * s0.kn, kt := s0.ratio * s0.kt } ∧
        t' = calcEigensystem eig' { s0 with system := sys, kn := s0.ratio * s0.kn, kt := s0.ratio * s0.kt })
      (Peer eig eig' K Kr rr) (· = ·)
      (do Py.modify fun s => { s with system := s0.system }
          (do Py.modify fun s => { s with kn := s0.kn, kt := s0.kt }
              Py.modify (calcEigensystem eig) : Py Unit)
          return k) (do
          Py.modify fun s => { s with system := s0.system }
          (do Py.modify fun s => { s with kn := s0.kn, kt := s0.kt }
              Py.modify (calcEigensystem eig') : Py Unit)
          return k) := fun sys k =>
    Runs.bind (P := (· = ·)) (ex _ _ _ _) fun _ _ _ => Runs.bind (R' := Peer eig eig' K Kr rr) (P := (· = ·))
      (Runs.bind (P := (· = ·)) (ex _ _ _ _) fun _ _ _ => Runs.modify fun t t' h => by
        obtain ⟨rfl, rfl⟩ := h
        subst p3
        exact ⟨rfl, rfl, rfl, p4⟩) fun _ _ _ => Runs.pure rfl
  have pre : ∀ sys : String, Runs (fun t t' => t = { s0 with system := sys } ∧ t' = { s0 with system := sys, eigs := eigsOf eig' K })
      (fun t t' => t = calcEigensystem eig { s0 with system := sys, kn := s0.ratio * s0.kn, kt := s0.ratio * s0.kt } ∧
        t' = calcEigensystem eig' { s0 with system := sys, kn := s0.ratio * s0.kn, kt := s0.ratio * s0.kt }) (· = ·)
      (do Py.modify fun s => { s with kn := s.ratio * s.kn, kt := s.ratio * s.kt }
          Py.modify (calcEigensystem eig) : Py Unit)
      (do Py.modify fun s => { s with kn := s.ratio * s.kn, kt := s.ratio * s.kt }
          Py.modify (calcEigensystem eig') : Py Unit) := fun sys =>
    Runs.bind (P := (· = ·)) (ex _ _ _ _) fun _ _ _ => Runs.modify fun t t' h => by
      obtain ⟨rfl, rfl⟩ := h; exact ⟨rfl, rfl⟩
  have sw : ∀ sys : String, Swap (eigsOf eig Kr) (eigsOf eig' Kr)
      (calcEigensystem eig { s0 with system := sys, kn := s0.ratio * s0.kn, kt := s0.ratio * s0.kt })
      (calcEigensystem eig' { s0 with system := sys, kn := s0.ratio * s0.kn, kt := s0.ratio * s0.kt }) := fun sys => by
    obtain ⟨-, rfl⟩ := p4
    exact ⟨rfl, rfl⟩
  have sw0 : ∀ sys : String, Swap (eigsOf eig K) (eigsOf eig' K) { s0 with system := sys }
      { s0 with system := sys, eigs := eigsOf eig' K } := fun sys => ⟨p1, rfl⟩
  cases res with
  | true =>
    simp only [if_true]
    cases dof with
    | rot =>
      exact Runs.bind (P := (· = ·)) (ex _ _ _ _) fun _ _ _ => Runs.bind (pre "rot") fun _ _ _ =>
        mid hBr (sw "rot") (finr "rot") fun z => abs (1 / fpsi z)
    | trans =>
      exact Runs.bind (P := (· = ·)) (ex _ _ _ _) fun _ _ _ => Runs.bind (pre "trans") fun _ _ _ =>
        mid hBr (sw "trans") (finr "trans") fun z => abs (1 / fw z)
    | other =>
      exact Runs.bind (P := (· = ·)) (Runs.pure rfl) fun _ _ _ => Runs.bind (pre s0.system) fun _ _ _ =>
        mid hBr (sw s0.system) (f := fun _ => Py.raise .unboundLocalError) (f' := fun _ => Py.raise .unboundLocalError)
          (fun _ => Runs.raise _) fun z => abs (1 / fw z)
  | false =>
    simp only [Bool.false_eq_true, if_false]
    cases dof with
    | rot =>
      exact Runs.bind (P := (· = ·)) (ex _ _ _ _) fun _ _ _ => Runs.bind (P := (· = ·)) (Runs.pure rfl) fun _ _ _ =>
        mid hB (sw0 "rot") (fin "rot") fun z => abs (1 / fpsi z)
    | trans =>
      exact Runs.bind (P := (· = ·)) (ex _ _ _ _) fun _ _ _ => Runs.bind (P := (· = ·)) (Runs.pure rfl) fun _ _ _ =>
        mid hB (sw0 "trans") (fin "trans") fun z => abs (1 / fw z)
    | other =>
      exact Runs.bind (P := (· = ·)) (Runs.pure rfl) fun _ _ _ => Runs.bind (P := (· = ·)) (Runs.pure rfl) fun _ _ _ =>
        mid hB (sw0 s0.system) (f := fun _ => Py.raise .unboundLocalError) (f' := fun _ => Py.raise .unboundLocalError)
          (fun _ => Runs.raise _) fun z => abs (1 / fw z)

end

section
variable {num num' : Numerics} {K Kr : Mat6} {rr : ℝ} {T T' Tr Tr' : Mat6} (hB : Blend (eigsOf num.eig K) (eigsOf num'.eig K) T T')
  (hBr : Blend (eigsOf num.eig Kr) (eigsOf num'.eig Kr) Tr Tr')

local notation "PP" => Peer num.eig num'.eig K Kr rr

include hB hBr

theorem swap_spring : Runs PP PP (· = ·) (do let s ← Py.get; substituteStiffness num.eig (s.a - s.td) true .rot : Py ℝ)
      (do let s ← Py.get; substituteStiffness num'.eig (s.a - s.td) true .rot) :=
  Runs.read fun s s' h => by
    obtain ⟨-, rfl, -, -⟩ := h
    exact swap_substitute hB hBr _ _ _

theorem swap_assemble (kind : SeqKind) (phi : ℝ) (a : SegLists) :
    Runs PP PP (fun o o' => o'.2 = o.2 ∧ SameField T o.2.ki o.1 o'.1 ∧ (a.li.length ≠ 1 → o.2 = a)) (assembleAndSolve num kind phi a)
      (assembleAndSolve num' kind phi a) :=
  swap_assembleWith (fun _ _ h => h.toSwap) (swap_spring hB hBr) hB kind phi a

omit hB hBr in
theorem swap_brentLoop (next : List (ℝ × ℝ) → ℝ ⊕ ℝ) {f f' : ℝ → Py ℝ} (hf : ∀ x, Runs PP PP (· = ·) (f x) (f' x)) (n : ℕ)
    (l : List (ℝ × ℝ)) : Runs PP PP (· = ·) (brentLoop next f n l) (brentLoop next f' n l) := by
  induction n generalizing l with
  | zero => exact Runs.raise _
  | succ n ih =>
    unfold brentLoop
    cases next l with
    | inr r => exact Runs.pure rfl
    | inl x =>
      refine Runs.bind (hf x) fun y y' h => ?_
      subst h
      exact ih _

variable (hb : num'.brent = num.brent)
include hb

omit hB hBr in
theorem swap_brentq {f f' : ℝ → Py ℝ} (hf : ∀ x, Runs PP PP (· = ·) (f x) (f' x)) (a b : ℝ) :
    Runs PP PP (· = ·) (brentq num f a b) (brentq num' f' a b) := by
  unfold brentq
  rw [hb]
  refine Runs.bind (hf a) fun y y' h => Runs.bind (hf b) fun w w' h' => ?_
  subst h h'
  exact Runs.ite (Runs.pure rfl) (Runs.ite (Runs.pure rfl) (Runs.ite (Runs.raise _) (swap_brentLoop _ hf _ _)))

theorem swap_calcA1 : Runs PP PP (· = ·) (calcA1 num) (calcA1 num') := by
  unfold calcA1
  refine Runs.read fun s s' h => ?_
  obtain ⟨-, rfl, -, -⟩ := h
  refine swap_brentq hb (fun x => ?_) _ _
  refine Runs.bind (swap_substitute hB hBr _ _ _) fun y y' h => Runs.bind (swap_substitute hB hBr _ _ _) fun w w' h' => ?_
  subst h h'
  exact Runs.pure rfl

theorem swap_calcA2 : Runs PP PP (· = ·) (calcA2 num) (calcA2 num') := by
  unfold calcA2
  refine Runs.read fun s s' h => ?_
  obtain ⟨-, rfl, -, -⟩ := h
  refine swap_brentq hb (fun x => ?_) _ _
  refine Runs.bind (swap_substitute hB hBr _ _ _) fun y y' h => Runs.bind (swap_substitute hB hBr _ _ _) fun w w' h' => ?_
  subst h h'
  exact Runs.pure rfl

theorem swap_calcLC : Runs PP PP (· = ·) (calcLC num) (calcLC num') := by
  unfold calcLC
  refine Runs.read fun s s' h => ?_
  obtain ⟨-, rfl, -, -⟩ := h
  refine swap_brentq hb (fun x => ?_) _ _
  refine Runs.bind (swap_substitute hB hBr _ _ _) fun y y' h => Runs.bind (swap_substitute hB hBr _ _ _) fun w w' h' =>
    Runs.bind (swap_substitute hB hBr _ _ _) fun v v' h'' => ?_
  subst h h' h''
  exact Runs.pure rfl

omit hB hBr hb in
/-- A change of the attributes that no system matrix depends on. -/
theorem Peer.set {f : Self → Self} (h1 : ∀ s e, f { s with eigs := e } = { f s with eigs := e }) (h2 : ∀ s, (f s).eigs = s.eigs)
    (h3 : ∀ s, calcSystemMatrix (f s) = calcSystemMatrix s) (h4 : ∀ s, (f s).ratio = s.ratio ∧ calcSystemMatrix (rested (f s)) = calcSystemMatrix (rested s)) :
    Runs PP PP (· = ·) (Py.modify f) (Py.modify f) := Runs.modify fun s s' h => by
  obtain ⟨p1, rfl, p3, p4⟩ := h
  exact ⟨(h2 s).trans p1, h1 _ _, (h3 s).trans p3, (h4 s).1.trans p4.1, (h4 s).2.trans p4.2⟩

theorem swap_mode : Runs PP PP (· = ·) (calcTouchdownMode num) (calcTouchdownMode num') := by
  have set : ∀ m : Mode, Runs PP PP (· = ·) (Py.modify fun s => { s with mode := m }) (Py.modify fun s => { s with mode := m }) :=
    fun m => Peer.set (fun _ _ => rfl) (fun _ => rfl) (fun _ => rfl) (fun _ => ⟨rfl, rfl⟩)
  unfold calcTouchdownMode
  refine Runs.read fun s s' h => ?_
  obtain ⟨-, rfl, -, -⟩ := h
  refine Runs.ite (Runs.bind (swap_calcA1 hB hBr hb) fun y y' h => Runs.bind (swap_calcA2 hB hBr hb) fun w w' h' =>
    Runs.read fun s s' h => ?_) (set _)
  obtain ⟨-, rfl, -, -⟩ := h
  subst h h'
  exact Runs.ite (set _) (Runs.ite (set _) (Runs.ite (set _) (Runs.raise _)))

theorem swap_length : Runs PP PP (· = ·) (calcTouchdownLength num) (calcTouchdownLength num') := by
  unfold calcTouchdownLength
  refine Runs.read fun s s' h => ?_
  obtain ⟨-, rfl, -, -⟩ := h
  show Runs PP PP (· = ·) (match s.mode with | .A => _ | .B => _ | .C => _ | .unset => _)
      (match s.mode with | .A => _ | .B => _ | .C => _ | .unset => _)
  cases s.mode with
  | unset => exact Runs.pure rfl
  | C =>
    refine Runs.bind (swap_calcLC hB hBr hb) fun y y' h => ?_
    subst h
    exact Peer.set (fun _ _ => rfl) (fun _ => rfl) (fun _ => rfl) (fun _ => ⟨rfl, rfl⟩)
  | _ => exact Peer.set (fun _ _ => rfl) (fun _ => rfl) (fun _ => rfl) (fun _ => ⟨rfl, rfl⟩)

/-- Objects before the ratio of the stiffnesses is set. -/
structure Before (eig eig' : EigSolver) (K Kr : Mat6) (ratio : ℝ) (s s' : Self) : Prop where
  eigs : s.eigs = eigsOf eig K
  swap : s' = { s with eigs := eigsOf eig' K }
  mat : calcSystemMatrix s = K
  rest : calcSystemMatrix { s with kn := ratio * s.kn, kt := ratio * s.kt } = Kr

omit hB hBr hb in
theorem Peer.before {s s' : Self} (h : PP s s') : Before num.eig num'.eig K Kr rr s s' := by
  obtain ⟨p1, p2, p3, rfl, p5⟩ := h
  exact ⟨p1, p2, p3, p5⟩

theorem swap_touchdown (L a cf phi : ℝ) :
    Runs (Before num.eig num'.eig K Kr rr) PP (· = ·) (calcTouchdownSystem num L a cf phi rr)
      (calcTouchdownSystem num' L a cf phi rr) := by
  unfold calcTouchdownSystem
  refine Runs.bind (R' := PP) (P := (· = ·)) (Runs.modify fun s s' h => ?_) fun _ _ _ => Runs.bind (swap_mode hB hBr hb) fun _ _ _ =>
    swap_length hB hBr hb
  obtain ⟨p1, rfl, p3, p4⟩ := h
  exact ⟨p1, rfl, p3, rfl, p4⟩

theorem swap_segments (li mi : List ℝ) (ki k0 : List Bool) (L a m phi cf : ℝ) :
    Runs (Before num.eig num'.eig K Kr rr) PP (· = ·) (calcSegments num li mi ki k0 L a m phi cf rr)
      (calcSegments num' li mi ki k0 L a m phi cf rr) := by
  unfold calcSegments
  refine Runs.read fun s s' h => ?_
  obtain ⟨-, rfl, -, -⟩ := h
  refine Runs.bind (R' := PP) (P := (· = ·)) (Runs.ite (swap_touchdown hB hBr hb _ _ _ _) (Runs.raise _)) fun _ _ _ =>
    Runs.read fun s s' h => ?_
  obtain ⟨-, rfl, -, -⟩ := h
  exact Runs.ite (Runs.pure rfl) (Runs.ite (Runs.pure rfl) (Runs.ite (Runs.pure rfl) (Runs.ite (Runs.pure rfl)
    (Runs.ite (Runs.pure rfl) (Runs.ite (Runs.pure rfl) (Runs.raise _))))))

end

end Weac
