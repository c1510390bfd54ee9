import Verif.Model.Solution
import Verif.Props.Laminate

/-!
# C27: derived attributes depend on the latest properties only; constructors
-/

namespace Weac
open Spec

/-- Material properties entered by the user (directly stored attributes). -/
def Self.material (s : Self) : Weak × ℝ × List Layer × ℝ × ℝ × ℝ :=
  (s.weak, s.t, s.slab, s.h, s.zs, s.k)

/-- Derived attributes. -/
def Self.derived (s : Self) : ℝ × ℝ × ℝ × ℝ × ℝ × ℝ × ℝ × Eigs :=
  (s.kn, s.kt, s.A11, s.B11, s.D11, s.kA55, s.K0, s.eigs)

/-- Property setters of the public interface. -/
inductive Setter where
  | foundation (t E nu : ℝ) (update : Bool)
  | beam (layers : LayersArg) (C0 C1 nu : ℝ) (update : Bool)
  | surface (p : ℝ)

/-- Effect of a setter on the object, also when it raises. -/
noncomputable def Setter.run (eig : EigSolver) : Setter → Self → Self
  | .foundation t E nu u, s => setFoundationProperties eig t E nu u s
  | .beam l C0 C1 nu u, s => (setBeamProperties eig l C0 C1 nu u s).2
  | .surface p, s => setSurfaceLoad p s

/-- Effect of a sequence of setters. -/
noncomputable def runSetters (eig : EigSolver) (ops : List Setter) (s : Self) : Self :=
  ops.foldl (fun s op => op.run eig s) s

def Setter.isFoundation : Setter → Prop
  | .foundation .. => True
  | _ => False

def Setter.isBeam : Setter → Prop
  | .beam .. => True
  | _ => False

theorem fundamental_material (eig : EigSolver) (s : Self) :
    (calcFundamentalSystem eig s).material = s.material := rfl

theorem foundation_congr {s s' : Self} (h : s.material = s'.material) :
    (calcFoundationStiffness s).kn = (calcFoundationStiffness s').kn ∧
    (calcFoundationStiffness s).kt = (calcFoundationStiffness s').kt := by
  simp only [Self.material, Prod.mk.injEq] at h
  obtain ⟨h1, h2, h3, h4, h5, h6⟩ := h
  simp only [calcFoundationStiffness, h1, h2]
  trivial

theorem laminate_congr {s s' : Self} (h : s.material = s'.material) :
    (calcLaminateStiffnessMatrix s).A11 = (calcLaminateStiffnessMatrix s').A11 ∧
    (calcLaminateStiffnessMatrix s).B11 = (calcLaminateStiffnessMatrix s').B11 ∧
    (calcLaminateStiffnessMatrix s).D11 = (calcLaminateStiffnessMatrix s').D11 ∧
    (calcLaminateStiffnessMatrix s).kA55 = (calcLaminateStiffnessMatrix s').kA55 ∧
    (calcLaminateStiffnessMatrix s).K0 = (calcLaminateStiffnessMatrix s').K0 := by
  simp only [Self.material, Prod.mk.injEq] at h
  obtain ⟨h1, h2, h3, h4, h5, h6⟩ := h
  simp only [calcLaminateStiffnessMatrix, getPlyCoordinates, h3, h4, h6]
  trivial

theorem systemMatrix_congr {s s' : Self} (h : s.material = s'.material)
    (hk : s.kn = s'.kn ∧ s.kt = s'.kt)
    (hl : s.A11 = s'.A11 ∧ s.B11 = s'.B11 ∧ s.D11 = s'.D11 ∧ s.kA55 = s'.kA55 ∧ s.K0 = s'.K0) :
    calcSystemMatrix s = calcSystemMatrix s' := by
  simp only [Self.material, Prod.mk.injEq] at h
  obtain ⟨h1, h2, h3, h4, h5, h6⟩ := h
  obtain ⟨k1, k2⟩ := hk
  obtain ⟨l1, l2, l3, l4, l5⟩ := hl
  simp only [calcSystemMatrix, h2, h4, k1, k2, l1, l2, l3, l4, l5]

theorem eigs_congr (eig : EigSolver) {s s' : Self} (h : calcSystemMatrix s = calcSystemMatrix s') :
    (calcEigensystem eig s).eigs = (calcEigensystem eig s').eigs := by
  simp only [calcEigensystem, h]

/-- The derived attributes after `calc_fundamental_system` depend on the
material properties only. -/
theorem derived_congr (eig : EigSolver) {s s' : Self} (h : s.material = s'.material) :
    (calcFundamentalSystem eig s).derived = (calcFundamentalSystem eig s').derived := by
  have hf := fundamental_fields eig s
  have hf' := fundamental_fields eig s'
  obtain ⟨a1, a2, a3, a4, a5, a6, a7⟩ := hf
  obtain ⟨b1, b2, b3, b4, b5, b6, b7⟩ := hf'
  obtain ⟨c1, c2⟩ := foundation_congr h
  obtain ⟨d1, d2, d3, d4, d5⟩ := laminate_congr h
  have e : (calcFundamentalSystem eig s).eigs = (calcFundamentalSystem eig s').eigs := by
    apply eigs_congr
    apply systemMatrix_congr
    · exact h
    · exact ⟨a1.trans (c1.trans b1.symm), a2.trans (c2.trans b2.symm)⟩
    · exact ⟨a3.trans (d1.trans b3.symm), a4.trans (d2.trans b4.symm), a5.trans (d3.trans b5.symm),
        a6.trans (d4.trans b6.symm), a7.trans (d5.trans b7.symm)⟩
  simp only [Self.derived, a1, a2, a3, a4, a5, a6, a7, b1, b2, b3, b4, b5, b6, b7, c1, c2, d1, d2,
    d3, d4, d5, e]

/-- Recalculating twice changes nothing. -/
theorem C27_idempotent (eig : EigSolver) (s : Self) : Fresh eig (calcFundamentalSystem eig s) := by
  have h := derived_congr eig (fundamental_material eig s)
  unfold Fresh
  simp only [Self.derived, Prod.mk.injEq] at h
  obtain ⟨h1, h2, h3, h4, h5, h6, h7, h8⟩ := h
  generalize hr : calcFundamentalSystem eig s = r at *
  have key : ∀ q : Self, calcFundamentalSystem eig q = { q with
      kn := (calcFundamentalSystem eig q).kn, kt := (calcFundamentalSystem eig q).kt
      A11 := (calcFundamentalSystem eig q).A11, B11 := (calcFundamentalSystem eig q).B11
      D11 := (calcFundamentalSystem eig q).D11, kA55 := (calcFundamentalSystem eig q).kA55
      K0 := (calcFundamentalSystem eig q).K0, eigs := (calcFundamentalSystem eig q).eigs } :=
    fun _ => rfl
  rw [key r, h1, h2, h3, h4, h5, h6, h7, h8]

theorem weak_of_run (eig : EigSolver) (op : Setter) (h : ¬ op.isFoundation) (s : Self) :
    (op.run eig s).weak = s.weak ∧ (op.run eig s).t = s.t := by
  cases op with
  | foundation => exact absurd trivial h
  | surface => exact ⟨rfl, rfl⟩
  | beam l C0 C1 nu u =>
    simp only [Setter.run, setBeamProperties]
    split
    · split
      · exact ⟨rfl, rfl⟩
      · split
        · exact ⟨rfl, rfl⟩
        · cases u <;> exact ⟨rfl, rfl⟩
    · exact ⟨rfl, rfl⟩
    · cases u <;> exact ⟨rfl, rfl⟩

theorem weak_of_runSetters (eig : EigSolver) (ops : List Setter)
    (h : ∀ op ∈ ops, ¬ op.isFoundation) (s : Self) :
    (runSetters eig ops s).weak = s.weak ∧ (runSetters eig ops s).t = s.t := by
  induction ops generalizing s with
  | nil => exact ⟨rfl, rfl⟩
  | cons op ops ih =>
    have h1 := weak_of_run eig op (h op (by simp)) s
    have h2 := ih (fun o ho => h o (by simp [ho])) (op.run eig s)
    exact ⟨h2.1.trans h1.1, h2.2.trans h1.2⟩

/-- Slab attributes. -/
def Self.slabPart (s : Self) : List Layer × ℝ × ℝ × ℝ := (s.slab, s.h, s.zs, s.k)

theorem slab_of_run (eig : EigSolver) (op : Setter) (h : ¬ op.isBeam) (s : Self) :
    (op.run eig s).slabPart = s.slabPart := by
  cases op with
  | beam => exact absurd trivial h
  | surface => rfl
  | foundation t E nu u => cases u <;> rfl

theorem slab_of_runSetters (eig : EigSolver) (ops : List Setter)
    (h : ∀ op ∈ ops, ¬ op.isBeam) (s : Self) :
    (runSetters eig ops s).slabPart = s.slabPart := by
  induction ops generalizing s with
  | nil => rfl
  | cons op ops ih =>
    exact (ih (fun o ho => h o (by simp [ho])) (op.run eig s)).trans
      (slab_of_run eig op (h op (by simp)) s)

theorem runSetters_append (eig : EigSolver) (a b : List Setter) (s : Self) :
    runSetters eig (a ++ b) s = runSetters eig b (runSetters eig a s) := by
  simp [runSetters]

/-- A successful `set_beam_properties` overwrites the slab whatever it was. -/
theorem slab_of_beam (eig : EigSolver) (l : LayersArg) (C0 C1 nu : ℝ) (u u' : Bool) (s s' : Self)
    (hok : (setBeamProperties eig l C0 C1 nu u s).1 = .ok ()) :
    (setBeamProperties eig l C0 C1 nu u s).2.slabPart
      = (setBeamProperties eig l C0 C1 nu u' s').2.slabPart := by
  have key : ∀ (ls : List Ply) (E : List ℝ),
      (setSlab eig ls E nu u s).slabPart = (setSlab eig ls E nu u' s').slabPart := by
    intro ls E; cases u <;> cases u' <;> rfl
  cases l with
  | str str =>
    simp only [setBeamProperties] at hok ⊢
    cases hw : lastWord str with
    | none => simp [hw] at hok
    | some w =>
      simp only [hw] at hok
      cases hp : loadDummyProfile w with
      | error e => simp [hp] at hok
      | ok q => simp only [hp]; exact key _ _
  | rows ls =>
    cases ls with
    | nil => simp [setBeamProperties] at hok
    | cons a ls => exact key _ _

/-- Success of `set_beam_properties` does not depend on the object. -/
theorem beam_ok_congr (eig : EigSolver) (l : LayersArg) (C0 C1 nu : ℝ) (u u' : Bool) (s s' : Self) :
    (setBeamProperties eig l C0 C1 nu u s).1 = (setBeamProperties eig l C0 C1 nu u' s').1 := by
  cases l with
  | str str =>
    simp only [setBeamProperties]
    cases lastWord str with
    | none => rfl
    | some w => dsimp only; cases loadDummyProfile w <;> rfl
  | rows ls => cases ls <;> rfl

/-- After any sequence of setters and a final `calc_fundamental_system`, the
derived attributes are those of any other object (for example a new one) that
was given only the latest foundation and the latest beam properties. -/
theorem C27_latest_properties (eig : EigSolver) (ops : List Setter) (s fresh : Self)
    (pre post : List Setter) (t E nu : ℝ) (u : Bool)
    (hf : ops = pre ++ .foundation t E nu u :: post) (hpost : ∀ op ∈ post, ¬ op.isFoundation)
    (pre' post' : List Setter) (l : LayersArg) (C0 C1 nu' : ℝ) (u' : Bool)
    (hb : ops = pre' ++ .beam l C0 C1 nu' u' :: post') (hpost' : ∀ op ∈ post', ¬ op.isBeam)
    (hok : (setBeamProperties eig l C0 C1 nu' u' fresh).1 = .ok ()) :
    (calcFundamentalSystem eig (runSetters eig ops s)).derived
      = (calcFundamentalSystem eig (setFoundationProperties eig t E nu false
          (setBeamProperties eig l C0 C1 nu' false fresh).2)).derived := by
  apply derived_congr
  have h1 : (runSetters eig ops s).weak = ⟨nu, E⟩ ∧ (runSetters eig ops s).t = t := by
    rw [hf, runSetters_append]
    have := weak_of_runSetters eig post hpost
      (Setter.run eig (.foundation t E nu u) (runSetters eig pre s))
    refine ⟨this.1.trans ?_, this.2.trans ?_⟩ <;> cases u <;> rfl
  have h2 : (runSetters eig ops s).slabPart
      = (setBeamProperties eig l C0 C1 nu' false fresh).2.slabPart := by
    rw [hb, runSetters_append]
    refine (slab_of_runSetters eig post' hpost'
      (Setter.run eig (.beam l C0 C1 nu' u') (runSetters eig pre' s))).trans ?_
    exact slab_of_beam eig l C0 C1 nu' u' false _ _ ((beam_ok_congr eig l C0 C1 nu' u' u' _ fresh).trans hok)
  simp only [Self.slabPart, Prod.mk.injEq] at h2
  obtain ⟨h3, h4, h5, h6⟩ := h2
  simp only [Self.material, h1.1, h1.2, h3, h4, h5, h6, setFoundationProperties, Bool.false_eq_true,
    if_false]

/-- A last setter with `update=True` makes the separate recalculation
superfluous, and a surface load set later does not spoil it. -/
theorem C27_update_flag (eig : EigSolver) (s : Self) :
    (∀ t E nu, Fresh eig (setFoundationProperties eig t E nu true s)) ∧
    (∀ l C0 C1 nu, (setBeamProperties eig l C0 C1 nu true s).1 = .ok () →
      Fresh eig (setBeamProperties eig l C0 C1 nu true s).2) ∧
    (∀ p, Fresh eig s → Fresh eig (setSurfaceLoad p s)) := by
  refine ⟨fun t E nu => C27_idempotent eig _, ?_, ?_⟩
  · intro l C0 C1 nu hok
    cases l with
    | str str =>
      simp only [setBeamProperties] at hok ⊢
      cases hw : lastWord str with
      | none => simp [hw] at hok
      | some w =>
        simp only [hw] at hok
        cases hp : loadDummyProfile w with
        | error e => simp [hp] at hok
        | ok q => simp only [hp]; exact C27_idempotent eig _
    | rows ls =>
      cases ls with
      | nil => simp [setBeamProperties] at hok
      | cons a ls => exact C27_idempotent eig _
  · intro p h
    unfold Fresh at h ⊢
    have : calcFundamentalSystem eig (setSurfaceLoad p s)
        = setSurfaceLoad p (calcFundamentalSystem eig s) := rfl
    rw [this, h]

/-- A sequence in which every kind of setter occurs, some twice. -/
example (eig : EigSolver) (s fresh : Self) :
    (calcFundamentalSystem eig (runSetters eig
      [.beam (.rows demoPlies) 6.5 4.4 0.25 true, .foundation 20 0.3 0.2 false, .surface 3,
       .beam (.rows [⟨240, 200⟩]) 6.5 4.4 0.25 false, .foundation 30 0.25 0.25 true, .surface 5] s)).derived
      = (calcFundamentalSystem eig (setFoundationProperties eig 30 0.25 0.25 false
          (setBeamProperties eig (.rows [⟨240, 200⟩]) 6.5 4.4 0.25 false fresh).2)).derived :=
  C27_latest_properties eig _ s fresh
    [.beam (.rows demoPlies) 6.5 4.4 0.25 true, .foundation 20 0.3 0.2 false, .surface 3,
       .beam (.rows [⟨240, 200⟩]) 6.5 4.4 0.25 false] [.surface 5] 30 0.25 0.25 true (by simp)
    (by simp [Setter.isFoundation])
    [.beam (.rows demoPlies) 6.5 4.4 0.25 true, .foundation 20 0.3 0.2 false, .surface 3]
    [.foundation 30 0.25 0.25 true, .surface 5] (.rows [⟨240, 200⟩]) 6.5 4.4 0.25 false (by simp)
    (by simp [Setter.isBeam]) (by simp [setBeamProperties])

/-- Attributes that no property setter is concerned with. -/
def Self.settings (s : Self) : (Bool × ℝ × ℝ × ℝ × String × ℝ) × (Bool × ℝ × ℝ × ℝ × ℝ × Mode × ℝ) :=
  ((s.hasContact, s.g, s.lski, s.tol, s.system, s.phi), (s.touchdown, s.L, s.a, s.tc, s.ratio, s.mode, s.td))

/-- `op` sets the surface load. -/
def Setter.isSurface : Setter → Prop
  | .surface _ => True
  | _ => False

theorem settings_of_run (eig : EigSolver) (op : Setter) (s : Self) :
    (op.run eig s).settings = s.settings ∧ (¬ op.isSurface → (op.run eig s).p = s.p) := by
  cases op with
  | foundation t E nu u => cases u <;> exact ⟨rfl, fun _ => rfl⟩
  | surface p => exact ⟨rfl, fun h => absurd trivial h⟩
  | beam l C0 C1 nu u =>
    simp only [Setter.run, setBeamProperties]
    split
    · split
      · exact ⟨rfl, fun _ => rfl⟩
      · split
        · exact ⟨rfl, fun _ => rfl⟩
        · cases u <;> exact ⟨rfl, fun _ => rfl⟩
    · exact ⟨rfl, fun _ => rfl⟩
    · cases u <;> exact ⟨rfl, fun _ => rfl⟩

/-- The setters change nothing but the properties: system, touchdown state,
inclination and constants survive any sequence of them, as does the surface
load if none sets it. -/
theorem C27_settings (eig : EigSolver) (ops : List Setter) (s : Self) :
    (runSetters eig ops s).settings = s.settings ∧
    ((∀ op ∈ ops, ¬ op.isSurface) → (runSetters eig ops s).p = s.p) := by
  induction ops generalizing s with
  | nil => exact ⟨rfl, fun _ => rfl⟩
  | cons op ops ih =>
    have h1 := settings_of_run eig op s
    have h2 := ih (op.run eig s)
    exact ⟨h2.1.trans h1.1, fun h => (h2.2 fun o ho => h o (by simp [ho])).trans (h1.2 (h op (by simp)))⟩

/-- The surface load in force is the one set last. -/
theorem C27_latest_load (eig : EigSolver) (pre post : List Setter) (p : ℝ) (s : Self)
    (h : ∀ op ∈ post, ¬ op.isSurface) : (runSetters eig (pre ++ .surface p :: post) s).p = p := by
  rw [runSetters_append]
  exact (C27_settings eig post _).2 h

example (eig : EigSolver) (s : Self) : (runSetters eig
      [.surface 3, .beam (.rows [⟨240, 200⟩]) 6.5 4.4 0.25 false, .surface 5, .foundation 30 0.25 0.25 true] s).p = 5 :=
  C27_latest_load eig [.surface 3, .beam (.rows [⟨240, 200⟩]) 6.5 4.4 0.25 false] [.foundation 30 0.25 0.25 true] 5 s
    (by simp [Setter.isSurface])

/-! ## Constructors give well-formed objects -/

theorem SlabOk.congr {s s' : Self} (h : SlabOk s) (e : s'.slabPart = s.slabPart) : SlabOk s' := by
  simp only [Self.slabPart, Prod.mk.injEq] at e
  obtain ⟨e1, e2, e3, e4⟩ := e
  exact ⟨e1 ▸ h.ne, e1 ▸ h.valid, by rw [e1, e2]; exact h.h, by rw [e1, e3]; exact h.zs, e4 ▸ h.k⟩

/-- A user-entered layering yields a `Ready` object. -/
theorem layeredInit_ready (eig : EigSolver) (system : String) (ls : List Ply) (td : Bool)
    (hv : ValidPlies ls) :
    ∃ s, layeredInit eig system (.rows ls) td = .ok s ∧ Ready eig s ∧ s.system = system ∧
      s.touchdown = td ∧ s.hasContact = true ∧ s.p = 0 ∧ s.g = 9810 ∧ s.lski = 1000 ∧
      s.slab.map Layer.ply = ls := by
  obtain ⟨l, ls', rfl⟩ := List.exists_cons_of_ne_nil hv.1
  have hok := setBeam_slabOk eig (l :: ls') 6.5 4.4 0.25 (Self.init system td true) hv (by norm_num)
    (by norm_num) (by norm_num)
  refine ⟨_, rfl, ⟨?_, ?_, C27_idempotent eig _, ?_, ?_⟩, rfl, rfl, rfl, rfl, rfl, rfl, ?_⟩
  · exact hok.2.congr rfl
  · constructor <;> norm_num [calcFundamentalSystem, calcEigensystem, calcLaminateStiffnessMatrix,
      calcFoundationStiffness, setFoundationProperties]
  · show (0 : ℝ) < 9810; norm_num
  · show (0 : ℝ) < 1000; norm_num
  · show (List.zipWith (fun l e => (⟨l.rho, l.h, e, e / (2 * (1 + 0.25)), 0.25⟩ : Layer)) (l :: ls')
      ((l :: ls').map fun r => bergfeld r.rho 917 6.5 4.4)).map Layer.ply = l :: ls'
    generalize (l :: ls') = L
    induction L with
    | nil => rfl
    | cons a L ih => simp only [List.map_cons, List.zipWith_cons_cons, ih]; rfl

end Weac
