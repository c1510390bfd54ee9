import Verif.Props.Materials
import Verif.Props.FirmSlab
import Verif.Props.Scale

/-!
# C89 for the workflow of a user

Layering, weak layer, surface load, geometry, skier and slope vary continuously;
objects are built by the constructor and the setters.
-/

namespace Weac

variable {T : Type*} [TopologicalSpace T]

open Spec

theorem made (eig : EigSolver) (system : String) (td : Bool) (ls : List Ply) (hv : ValidPlies ls) (tw E nu p : ℝ) (ht : 0 < tw) (hE : 0 < E)
    (h1 : -1 < nu) (h2 : nu < 1) :
    ∃ s, layeredInit eig system (.rows ls) td = .ok s ∧
      MadeOf eig ls tw E nu p (setSurfaceLoad p (setFoundationProperties eig tw E nu true s)) ∧
      (setSurfaceLoad p (setFoundationProperties eig tw E nu true s)).system = system ∧
      (setSurfaceLoad p (setFoundationProperties eig tw E nu true s)).touchdown = td ∧
      (setSurfaceLoad p (setFoundationProperties eig tw E nu true s)).hasContact = true ∧
      (setSurfaceLoad p (setFoundationProperties eig tw E nu true s)).phi = 0 := by
  obtain ⟨s, k1, k2, k3, k4, k5, k6, k7, k8, -⟩ := layeredInit_ready eig system ls td hv
  obtain ⟨l, ls', rfl⟩ := List.exists_cons_of_ne_nil hv.1
  have hphi : s.phi = 0 := by
    injection k1 with k1
    rw [← k1]; rfl
  have hslab : s.slab = (l :: ls').map plyRow := by
    injection k1 with k1
    rw [← k1]
    have key : ∀ xs : List Ply, List.zipWith (fun l e => (⟨l.rho, l.h, e, e / (2 * (1 + 0.25)), 0.25⟩ : Layer)) xs
        (xs.map fun r => bergfeld r.rho 917 6.5 4.4) = xs.map plyRow := by
      intro xs
      induction xs with
      | nil => rfl
      | cons x xs ih => rw [List.map_cons, List.zipWith_cons_cons, ih, List.map_cons]; rfl
    exact key (l :: ls')
  have hready : Ready eig (setFoundationProperties eig tw E nu true s) :=
    ⟨k2.slab.congr rfl, ⟨ht, hE, h1, h2⟩, C27_idempotent eig _, k2.g, k2.lski⟩
  exact ⟨s, k1, ⟨hready.surface p, hslab, rfl, rfl, rfl, k7, k8⟩, k3, k4, k5, hphi⟩

theorem nth_continuous {l : T → List ℝ} {F : List (T → ℝ)} (hF : ∀ f ∈ F, Continuous f) (h : ∀ t, l t = F.map (· t)) (i : ℕ) :
    Continuous fun t => nth (l t) i := by
  by_cases hi : i < F.length
  · have : (fun t => nth (l t) i) = F[i] := by
      funext t
      rw [h, nth, List.getD_eq_getElem _ _ (by simpa using hi), List.getElem_map]
    rw [this]
    exact hF _ (List.getElem_mem _)
  · have : (fun t => nth (l t) i) = fun _ => 0 := by
      funext t
      rw [h, nth, List.getD_eq_default _ _ (by simpa using hi)]
    rw [this]
    exact continuous_const

/-- Segments that vary continuously. -/
structure SegDrift (g : T → Segments) (n : ℕ) (ki : List Bool) : Prop where
  len : ∀ t, (g t).li.length = n
  support : ∀ t, (g t).ki = ki
  lengths : ∀ i, Continuous fun t => nth (g t).li i
  weights : ∀ i, Continuous fun t => nth (g t).mi i
  two : n ≠ 1

theorem segDrift (num : Numerics) (system : String) (hs : system ∈ ["pst-", "-pst", "vpst-", "-vpst", "skier"]) {o : T → Self}
    (h1 : ∀ t, (o t).system = system) (h2 : ∀ t, (o t).touchdown = false) (h3 : ∀ t, (o t).hasContact = true)
    {L a m phi cf ratio : T → ℝ} (hL : Continuous L) (ha : Continuous a) (hm : Continuous m) :
    ∃ g n ki, (∀ t, calcSegments num [] [] [] [] (L t) (a t) (m t) (phi t) (cf t) (ratio t) (o t)
      = (.ok (g t), (o t).stage system .A (L t) (a t) (collapseHeight (o t) (cf t) (o t).phi) (a t) (phi t) (ratio t))) ∧
      SegDrift g n ki := by
  have run := fun t => calcSegments_off num [] [] [] [] (L t) (a t) (m t) (phi t) (cf t) (ratio t) (o t) (h3 t) (h2 t) (by
    rw [h1]
    simp only [List.mem_cons, List.not_mem_nil, or_false] at hs ⊢
    tauto)
  choose g hg using run
  have hg' := fun t => (calcSegments_ok (hg t)).2.2
  simp only [h1] at hg
  have hla : Continuous fun t => L t - a t := hL.sub ha
  have hw1 : ∀ i, Continuous fun _ : T => nth [(0 : ℝ)] i := fun i => continuous_const
  simp only [Self.stage, h1] at hg'
  simp only [List.mem_cons, List.not_mem_nil, or_false] at hs
  rcases hs with rfl | rfl | rfl | rfl | rfl <;>
    simp only [String.reduceEq, false_and, true_and, false_or, or_false] at hg'
  · refine ⟨g, 2, [true, false], hg, ?_⟩
    constructor <;> try simp only [hg']
    · simp
    · simp
    · exact nth_continuous (F := [fun t => L t - a t, a]) (by simp [hla, ha]) (by simp)
    · exact hw1
    · simp
  · refine ⟨g, 2, [false, true], hg, ?_⟩
    constructor <;> try simp only [hg']
    · simp
    · simp
    · exact nth_continuous (F := [a, fun t => L t - a t]) (by simp [hla, ha]) (by simp)
    · exact hw1
    · simp
  · refine ⟨g, 2, [true, false], hg, ?_⟩
    constructor <;> try simp only [hg']
    · simp
    · simp
    · exact nth_continuous (F := [fun t => L t - a t, a]) (by simp [hla, ha]) (by simp)
    · exact hw1
    · simp
  · refine ⟨g, 2, [false, true], hg, ?_⟩
    constructor <;> try simp only [hg']
    · simp
    · simp
    · exact nth_continuous (F := [a, fun t => L t - a t]) (by simp [hla, ha]) (by simp)
    · exact hw1
    · simp
  · refine ⟨g, 4, [true, false, false, true], hg, ?_⟩
    constructor <;> try simp only [hg']
    · simp
    · simp
    · exact nth_continuous (F := [fun t => (L t - a t) / 2, fun t => a t / 2, fun t => a t / 2, fun t => (L t - a t) / 2])
        (by simp [hla.div_const 2, ha.div_const 2]) (by simp)
    · exact nth_continuous (F := [fun _ => 0, m, fun _ => 0]) (by simp [hm, continuous_const]) (by simp)
    · simp

/-- What `o` is: built from layering, weak layer and surface load. -/
def Spec.Built (eig : EigSolver) (system : String) (td : Bool) (ls : List Ply) (tw E nu p : ℝ) (o : Self) : Prop :=
  ∃ s, layeredInit eig system (.rows ls) td = .ok s ∧ o = setSurfaceLoad p (setFoundationProperties eig tw E nu true s)

/-- An object built from the layering and put into some stage. -/
structure Staged (num : Numerics) (system : String) (td : Bool) (F : List (T → Ply)) (tw E nu p L a cf phi ratio : T → ℝ) (M : Mode)
    (o s : T → Self) : Prop where
  parts : ∀ t, MadeOf num.eig (F.map (· t)) (tw t) (E t) (nu t) (p t) (o t)
  name : ∀ t, (o t).system = system
  toggle : ∀ t, (o t).touchdown = td
  holds : ∀ t, (o t).hasContact = true
  level : ∀ t, (o t).phi = 0
  stage : ∀ t, s t = (o t).stage system M (L t) (a t) (collapseHeight (o t) (cf t) (o t).phi) (s t).td (phi t) (ratio t)

theorem built_made {num : Numerics} {system : String} {td : Bool} {ls : List Ply} (hv : ValidPlies ls) {tw E nu p : ℝ}
    (tw0 : 0 < tw) (E0 : 0 < E) (nu0 : -1 < nu) (nu1 : nu < 1) {o : Self} (ho : Built num.eig system td ls tw E nu p o) :
    MadeOf num.eig ls tw E nu p o ∧ o.system = system ∧ o.touchdown = td ∧ o.hasContact = true ∧ o.phi = 0 := by
  obtain ⟨s0, k1, k2⟩ := ho
  obtain ⟨s1, j1, j2⟩ := Weac.made num.eig system td ls hv tw E nu p tw0 E0 nu0 nu1
  rw [k1] at j1
  injection j1 with j1
  rw [k2, j1]
  exact j2

theorem staged_continuous (num : Numerics) (hE : ∀ K, EigOk K (num.eig K)) {system : String} {td : Bool}
    (hs : system ∈ ["pst-", "-pst", "vpst-", "-vpst", "skier"]) {F : List (T → Ply)} (hF : PliesDrift F)
    (hv : ∀ t, ValidPlies (F.map (· t))) {tw E nu p : T → ℝ} (htw : Continuous tw) (hEw : Continuous E) (hnu : Continuous nu)
    (hp : Continuous p) {L a phi cf ratio : T → ℝ} (ha : Continuous a) (hphi : Continuous phi)
    (hcf : Continuous cf) (hratio : Continuous ratio) (hslope : (∃ t, |phi t| ≥ 90) → ¬ (system = "vpst-" ∨ system = "-vpst"))
    {M : Mode} {o s : T → Self} (hst : Staged num system td F tw E nu p L a cf phi ratio M o s) (hM : M ≠ .unset)
    (hface : (system = "vpst-" ∨ system = "-vpst") → M ≠ .B ∧ M ≠ .C)
    (htd : Continuous fun t => (s t).td) (hdisc : ∀ t, (cubicOf (o t)).disc ≠ 0) (hshear : ∀ t, ShearOk (o t))
    (hrest : M = .C → ∀ t, RestOk num (s t)) {g : T → Segments} {n : ℕ} {ki : List Bool} (hseg : SegDrift g n ki)
    (hacc : ∀ t, Valid (s t) ⟨(g t).li, (g t).mi, (g t).ki⟩ ∧ Supported ⟨(g t).li, (g t).mi, (g t).ki⟩ ∧ (g t).li.length ≠ 1)
    (kind : SeqKind) :
    ∃ C : T → List Vec6, (∀ t, assembleAndSolve num kind (phi t) ⟨(g t).li, (g t).mi, (g t).ki⟩ (s t)
        = (.ok (C t, ⟨(g t).li, (g t).mi, (g t).ki⟩), s t)) ∧
      ∀ i, (∀ t, i < (g t).li.length) → ∀ x : T → ℝ, Continuous x →
        let Z := fun t => stateAt (s t) (phi t) (g t).li (g t).ki (fun i => (C t).getD i 0) i (x t)
        Continuous Z ∧ (Continuous fun t => fsig (s t) (Z t)) ∧ (Continuous fun t => ftau (s t) (Z t)) ∧
        (Continuous fun t => fN (s t) (Z t)) ∧ (Continuous fun t => fM (s t) (Z t)) ∧ Continuous fun t => fV (s t) (Z t) := by
  have hmd := hst.parts
  have hfr := fun t => (hmd t).ready.fresh.eigFresh
  have hbed := fun t => C13_discriminant num.eig (o t) (hmd t).ready.stiff (hfr t) (hE _) (hdisc t)
  obtain ⟨dz, dw⟩ := loads_drift hF hv hmd
  have hbeam := beam_drifts hF hv htw hEw hnu hmd
  have hpc : Continuous fun t => (o t).p := by simpa only [fun t => (hmd t).p] using hp
  have hgc : Continuous fun t => (o t).g := by simp only [fun t => (hmd t).g]; exact continuous_const
  have hlc : Continuous fun t => (o t).lski := by simp only [fun t => (hmd t).lski]; exact continuous_const
  have htc : Continuous fun t => collapseHeight (o t) (cf t) (o t).phi := by
    have h1 := hbeam.kn
    have h2 := hbeam.t
    simp only [Self.beam] at h1 h2
    have n1 : ∀ t, (o t).kn ≠ 0 := fun t => (hbed t).stiff.kn.ne'
    simp only [collapseHeight, Self.loads, getWeightLoad, getSurfaceLoad, hst.level]
    fun_prop (disch := assumption)
  generalize hd : (fun t => (s t).td) = d at htd
  have hsd : s = fun t => (o t).stage system M (L t) (a t) (collapseHeight (o t) (cf t) (o t).phi) (d t) (phi t) (ratio t) := by
    funext t
    rw [hst.stage t, ← hd]
  clear hst hd
  subst hsd
  have hfull : ∀ t, full ⟨(g t).li, (g t).mi, (g t).ki⟩ = ⟨(g t).li, (g t).mi, (g t).ki⟩ := fun t => by
    unfold full; rw [if_neg (hacc t).2.2]
  have hAlt : Alters (fun t => (o t).stage system M (L t) (a t) (collapseHeight (o t) (cf t) (o t).phi) (d t) (phi t) (ratio t)) phi
      (fun t => ⟨(g t).li, (g t).mi, (g t).ki⟩) n ki :=
    { system := fun t t' => rfl
      mode := fun t t' => rfl
      beam := hbeam
      zs := dz
      weight := dw
      surface := hpc
      g := hgc
      lski := hlc
      ski := fun t => (hmd t).ready.lski.ne'
      slope := hphi
      crack := ha
      td := htd
      tc := htc
      face := fun ⟨_, hf⟩ => show EndCond.Drifts fun t => faceForces (o t) (phi t) from
        face_drift hF hv hmd hphi fun t => by
          by_contra hn
          exact hslope ⟨t, not_lt.1 hn⟩ hf.symm
      len := hseg.len
      support := hseg.support
      angle := hphi
      lengths := hseg.lengths
      weights := hseg.weights }
  have hkinds : ∀ S : Self, S.system = system → IsPst S ∨ IsVpst S ∨ IsSkier S ∨ IsAux S := fun S hS => by
    unfold IsPst IsVpst IsSkier
    rw [hS]
    simp only [List.mem_cons, List.not_mem_nil, or_false] at hs
    tauto
  obtain ⟨C, h1, h2⟩ := C89_solution num kind hAlt hratio (fun t => (hbed t).stage _ _ _ _ _ _ _ _)
    (fun t => (hshear t).stage _ _ _ _ _ _ _ _) (fun t => (hfr t).stage _ _ _ _ _ _ _ _) (fun t => (hacc t).1) (.inr hseg.two)
    (fun t => hkinds _ rfl) (fun t hf => hface hf.symm) (fun t _ => hM) (fun t _ hm => hrest hm t) (fun t => (hacc t).2.1.held _)
  refine ⟨C, fun t => by rw [h1, hfull], fun i hi x hx => ?_⟩
  simpa only [hfull] using h2 i (fun t => by rw [hfull]; exact hi t) x hx

/-- C89, workflow without touchdown. Densities and thicknesses of all layers,
thickness, modulus and Poisson's ratio of the weak layer, surface load, length,
crack, skier and slope vary continuously. Then displacements, rotations, their
derivatives, weak-layer stresses and section forces at every position that varies
continuously do. -/
theorem C89_workflow (num : Numerics) (hE : ∀ K, EigOk K (num.eig K)) (hB : BrentOk num) (system : String)
    (hs : system ∈ ["pst-", "-pst", "vpst-", "-vpst", "skier"]) (F : List (T → Ply)) (hF : PliesDrift F)
    (hv : ∀ t, ValidPlies (F.map (· t))) (tw E nu p : T → ℝ) (htw : Continuous tw) (hEw : Continuous E) (hnu : Continuous nu)
    (hp : Continuous p) (tw0 : ∀ t, 0 < tw t) (E0 : ∀ t, 0 < E t) (nu0 : ∀ t, -1 < nu t) (nu1 : ∀ t, nu t < 1)
    (L a m phi cf ratio : T → ℝ) (hL : Continuous L) (ha : Continuous a) (hm : Continuous m) (hphi : Continuous phi)
    (hcf : Continuous cf) (hratio : Continuous ratio) (a0 : ∀ t, 0 ≤ a t) (aL : ∀ t, a t < L t) (hslope : ∀ t, |phi t| < 90)
    (o : T → Self) (ho : ∀ t, Built num.eig system false (F.map (· t)) (tw t) (E t) (nu t) (p t) (o t))
    (hdisc : ∀ t, (cubicOf (o t)).disc ≠ 0) (hshear : ∀ t, ShearOk (o t)) (kind : SeqKind) :
    ∃ (g : T → Segments) (s : T → Self) (C : T → List Vec6),
      (∀ t, calcSegments num [] [] [] [] (L t) (a t) (m t) (phi t) (cf t) (ratio t) (o t) = (.ok (g t), s t)) ∧
      (∀ t, assembleAndSolve num kind (phi t) ⟨(g t).li, (g t).mi, (g t).ki⟩ (s t)
        = (.ok (C t, ⟨(g t).li, (g t).mi, (g t).ki⟩), s t)) ∧
      ∀ i, (∀ t, i < (g t).li.length) → ∀ x : T → ℝ, Continuous x →
        let Z := fun t => stateAt (s t) (phi t) (g t).li (g t).ki (fun i => (C t).getD i 0) i (x t)
        Continuous Z ∧ (Continuous fun t => fsig (s t) (Z t)) ∧ (Continuous fun t => ftau (s t) (Z t)) ∧
        (Continuous fun t => fN (s t) (Z t)) ∧ (Continuous fun t => fM (s t) (Z t)) ∧ Continuous fun t => fV (s t) (Z t) := by
  have hmade := fun t => built_made (hv t) (tw0 t) (E0 t) (nu0 t) (nu1 t) (ho t)
  have hsys := fun t => (hmade t).2.1
  obtain ⟨g, n, ki, hg, hseg⟩ := segDrift num system hs hsys (fun t => (hmade t).2.2.1) (fun t => (hmade t).2.2.2.1)
    (phi := phi) (cf := cf) (ratio := ratio) hL ha hm
  have hacc := fun t => C22_accepted num hB [] [] [] [] (L t) (a t) (m t) (phi t) (cf t) (ratio t) (o t) _ (g t)
    (hmade t).1.ready.fresh.eigFresh (by rw [hsys]; rintro rfl; exact absurd hs (by decide)) (a0 t) (aL t) (hg t)
  obtain ⟨C, h1, h2⟩ := staged_continuous num hE hs hF hv htw hEw hnu hp ha hphi hcf hratio
    (fun ⟨t, h⟩ => absurd (hslope t) (not_lt.2 h)) (M := .A) (td := false) (L := L) (o := o)
    ⟨fun t => (hmade t).1, hsys, fun t => (hmade t).2.2.1, fun t => (hmade t).2.2.2.1, fun t => (hmade t).2.2.2.2, fun t => rfl⟩
    (by simp) (fun _ => by simp) ha hdisc hshear (fun h => by simp at h) hseg hacc kind
  exact ⟨g, _, C, hg, h1, h2⟩

/-- C89, workflow with touchdown, if the stage does not change. In stage C the
touchdown length that the root finder returns has to be continuous too, and the
slab to rest properly on the collapsed weak layer. -/
theorem C89_touchdown (num : Numerics) (hE : ∀ K, EigOk K (num.eig K)) (hB : BrentOk num) (system : String)
    (hs : system ∈ ["pst-", "-pst", "skier"]) (F : List (T → Ply)) (hF : PliesDrift F)
    (hv : ∀ t, ValidPlies (F.map (· t))) (tw E nu p : T → ℝ) (htw : Continuous tw) (hEw : Continuous E) (hnu : Continuous nu)
    (hp : Continuous p) (tw0 : ∀ t, 0 < tw t) (E0 : ∀ t, 0 < E t) (nu0 : ∀ t, -1 < nu t) (nu1 : ∀ t, nu t < 1)
    (L a m phi cf ratio : T → ℝ) (hL : Continuous L) (ha : Continuous a) (hm : Continuous m) (hphi : Continuous phi)
    (hcf : Continuous cf) (hratio : Continuous ratio) (a0 : ∀ t, 0 ≤ a t) (aL : ∀ t, a t < L t)
    (o : T → Self) (ho : ∀ t, Built num.eig system true (F.map (· t)) (tw t) (E t) (nu t) (p t) (o t))
    (hdisc : ∀ t, (cubicOf (o t)).disc ≠ 0) (hshear : ∀ t, ShearOk (o t)) (kind : SeqKind) (g : T → Segments) (s : T → Self)
    (hg : ∀ t, calcSegments num [] [] [] [] (L t) (a t) (m t) (phi t) (cf t) (ratio t) (o t) = (.ok (g t), s t))
    (M : Mode) (hM : ∀ t, (s t).mode = M)
    (hC : M = .C → (Continuous fun t => (s t).td) ∧
      ∀ t, 0 < ratio t ∧ (cubicOf (s t).scaled).disc ≠ 0 ∧ ratio t * (o t).kt * (o t).t ^ 2 < 16 * (o t).kA55) :
    ∃ C : T → List Vec6, (∀ t, assembleAndSolve num kind (phi t) ⟨(g t).li, (g t).mi, (g t).ki⟩ (s t)
        = (.ok (C t, ⟨(g t).li, (g t).mi, (g t).ki⟩), s t)) ∧
      ∀ i, (∀ t, i < (g t).li.length) → ∀ x : T → ℝ, Continuous x →
        let Z := fun t => stateAt (s t) (phi t) (g t).li (g t).ki (fun i => (C t).getD i 0) i (x t)
        Continuous Z ∧ (Continuous fun t => fsig (s t) (Z t)) ∧ (Continuous fun t => ftau (s t) (Z t)) ∧
        (Continuous fun t => fN (s t) (Z t)) ∧ (Continuous fun t => fM (s t) (Z t)) ∧ Continuous fun t => fV (s t) (Z t) := by
  have hmade := fun t => built_made (hv t) (tw0 t) (E0 t) (nu0 t) (nu1 t) (ho t)
  have hsys := fun t => (hmade t).2.1
  have hfr := fun t => (hmade t).1.ready.fresh.eigFresh
  have hs' : system ∈ ["pst-", "-pst", "vpst-", "-vpst", "skier"] := by
    simp only [List.mem_cons, List.not_mem_nil, or_false] at hs ⊢
    tauto
  have hnv : ¬ (system = "vpst-" ∨ system = "-vpst") := by
    rintro (rfl | rfl) <;> exact absurd hs (by decide)
  have hacc := fun t => C22_accepted num hB [] [] [] [] (L t) (a t) (m t) (phi t) (cf t) (ratio t) (o t) _ (g t) (hfr t)
    (by rw [hsys]; rintro rfl; exact absurd hs (by decide)) (a0 t) (aL t) (hg t)
  have hok := fun t => calcSegments_ok (hg t)
  have hframe := fun t => (C25_touchdown_system_frame num _ _ _ _ _ _ _ (hfr t) (hok t).2.1).1
  have htc := fun t => (C23_tc_of_previous_inclination num _ _ _ _ _ _ _ (hfr t) (hok t).2.1).1
  have hlen := fun t => C24_touchdown_length num hB (L t) _ _ _ _ (by linarith [a0 t, aL t]) _ _ (hfr t) (hok t).2.1
  have hmode : ∀ t, M ≠ .unset ∧ ((M = .A ∨ M = .B) ∧ (s t).td = a t ∨ M = .C ∧ 0 < (s t).td ∧ (s t).td < a t) := fun t => by
    have := hlen t
    rw [(hmade t).2.2.1, hM] at this
    rcases this with ⟨h, -⟩ | ⟨-, ⟨h, e⟩ | ⟨h, e⟩⟩
    · cases h
    · exact ⟨(by rintro rfl; rcases h with h | h <;> cases h), .inl ⟨h, e⟩⟩
    · exact ⟨(by rintro rfl; cases h), .inr ⟨h, e⟩⟩
  rcases isEmpty_or_nonempty T with hT | ⟨⟨t0⟩⟩
  · exact ⟨fun t => (hT.false t).elim, fun t => (hT.false t).elim, fun i _ x _ => ⟨continuous_of_discreteTopology,
      continuous_of_discreteTopology, continuous_of_discreteTopology, continuous_of_discreteTopology,
      continuous_of_discreteTopology, continuous_of_discreteTopology⟩⟩
  have htd : Continuous fun t => (s t).td := by
    by_cases hMC : M = .C
    · exact (hC hMC).1
    · have : (fun t => (s t).td) = a := funext fun t => ((hmode t).2.resolve_right fun h => hMC h.1).2
      rw [this]; exact ha
  have hstage : ∀ t, s t = (o t).stage system M (L t) (a t) (collapseHeight (o t) (cf t) (o t).phi) (s t).td (phi t) (ratio t) :=
    fun t => by rw [← htc t, ← hM t, ← hsys t]; exact hframe t
  have hsa : ∀ t, (s t).a = a t := fun t => by rw [hstage t]; rfl
  have hss : ∀ t, (s t).system = system := fun t => by rw [hstage t]; rfl
  have hstg : Staged num system true F tw E nu p L a cf phi ratio M o s :=
    ⟨fun t => (hmade t).1, hsys, fun t => (hmade t).2.2.1, fun t => (hmade t).2.2.2.1, fun t => (hmade t).2.2.2.2, hstage⟩
  have hseg : ∃ n ki, SegDrift g n ki := by
    have hg' := fun t => (hok t).2.2
    have hla : Continuous fun t => L t - a t := hL.sub ha
    have hw1 : ∀ i, Continuous fun _ : T => nth [(0 : ℝ)] i := fun i => continuous_const
    simp only [hss, hsa] at hg'
    simp only [List.mem_cons, List.not_mem_nil, or_false] at hs
    rcases hs with rfl | rfl | rfl <;> simp only [String.reduceEq, false_and, true_and, false_or, or_false] at hg'
    · refine ⟨2, [true, false], ?_⟩
      constructor <;> try simp only [hg']
      · simp
      · simp
      · exact nth_continuous (F := [fun t => L t - a t, fun t => (s t).td]) (by simp [hla, htd]) (by simp)
      · exact hw1
      · simp
    · refine ⟨2, [false, true], ?_⟩
      constructor <;> try simp only [hg']
      · simp
      · simp
      · exact nth_continuous (F := [fun t => (s t).td, fun t => L t - a t]) (by simp [hla, htd]) (by simp)
      · exact hw1
      · simp
    · refine ⟨4, [true, false, false, true], ?_⟩
      constructor <;> try simp only [hg']
      · simp
      · simp
      · exact nth_continuous (F := [fun t => (L t - a t) / 2, fun t => a t / 2, fun t => a t / 2, fun t => (L t - a t) / 2])
          (by simp [hla.div_const 2, ha.div_const 2]) (by simp)
      · exact nth_continuous (F := [fun _ => 0, m, fun _ => 0]) (by simp [hm, continuous_const]) (by simp)
      · simp
  obtain ⟨n, ki, hseg⟩ := hseg
  refine staged_continuous num hE hs' hF hv htw hEw hnu hp ha hphi hcf hratio (fun _ => hnv) hstg (hmode t0).1
    (fun h => absurd h hnv) htd hdisc hshear (fun hMC t => ?_) hseg hacc kind
  obtain ⟨r1, r2, r3⟩ := (hC hMC).2 t
  have e1 : (s t).ratio = ratio t := by rw [hstage t]; rfl
  have e2 : (s t).kt = (o t).kt := by rw [hstage t]; rfl
  have e3 : (s t).t = (o t).t := by rw [hstage t]; rfl
  have e4 : (s t).kA55 = (o t).kA55 := by rw [hstage t]; rfl
  refine restOk_of num (s t) (by rw [hstage t]; exact (hmade t).1.ready.stiff.stage _ _ _ _ _ _ _ _) (by rw [e1]; exact r1) ?_ (hE _)
    r2 (by rw [e1, e2, e3, e4]; exact r3)
  rw [hsa]
  rcases (hmode t).2 with ⟨h | h, -⟩ | ⟨-, -, h⟩
  · rw [hMC] at h; cases h
  · rw [hMC] at h; cases h
  · exact h

/-- The two conditions on the solution are met by slabs that are stiff and thick
compared with the weak layer. -/
theorem made_firm {eig : EigSolver} {ls : List Ply} {tw E p : ℝ} {s : Self} (h : MadeOf eig ls tw E 0.25 p s) (m : ℝ) (hm : 0 < m)
    (hfirm : ∀ q ∈ ls, m ≤ bergfeld q.rho 917 6.5 4.4) (hthin : 3 * tw ≤ total Ply.h ls) (hsoft : E / tw ≤ m / (6 * total Ply.h ls)) :
    (cubicOf s).disc ≠ 0 ∧ ShearOk s := by
  have hf : Firm m s := by
    constructor <;> intro l hl <;> rw [h.slab] at hl <;> obtain ⟨q, hq, rfl⟩ := List.mem_map.mp hl
    · exact hfirm q hq
    · norm_num [plyRow]
    · norm_num [plyRow]
  have k2 := h.ready
  have hh : s.h = total Ply.h ls := by
    rw [k2.slab.h, h.slab]
    simp [total, Function.comp_def, plyRow]
  obtain ⟨e1, e2, -⟩ := fundamental_fields eig s
  have hfr : calcFundamentalSystem eig s = s := k2.fresh
  rw [hfr] at e1 e2
  have ht : 0 < tw := by rw [← h.t]; exact k2.weak.t
  have hE : 0 < E := by
    have := k2.weak.E
    rw [h.weak] at this
    exact this
  simp only [calcFoundationStiffness, h.weak, h.t] at e1 e2
  have f1 : s.kn = 16 / 15 * (E / tw) := by rw [e1]; ring
  have f2 : s.kt = 2 / 5 * (E / tw) := by rw [e2]; ring
  have hs0 := k2.stiff.h
  rw [← hh] at hthin hsoft
  have hs1 : E / tw * s.h ≤ m / 6 := by
    calc E / tw * s.h ≤ m / (6 * s.h) * s.h := mul_le_mul_of_nonneg_right hsoft hs0.le
      _ = m / 6 := by field_simp
  constructor
  · refine firm_disc k2 hf hm (by rw [f1, f2]; ring) (by rw [h.t]; exact hthin) ?_
    rw [f1]
    linarith
  · unfold ShearOk
    have b1 := firm_A k2 hf
    rw [f2, (ready_sums k2 hf).2.2.2, h.t]
    have x1 : E / tw * tw ^ 2 ≤ m / 6 * tw := by
      have : E / tw * tw ^ 2 ≤ E / tw * (s.h * tw) :=
        mul_le_mul_of_nonneg_left (by nlinarith) (by positivity)
      nlinarith
    nlinarith [mul_pos hm hs0]

/-- C89 without conditions on the solution: slabs of any number of layers on a
weak layer that is at most a third as thick, has the default Poisson's ratio, and
whose stiffness `E / t` is at most a sixth of that of the softest layer over the
thickness of the slab. -/
theorem C89_firm (num : Numerics) (hE : ∀ K, EigOk K (num.eig K)) (hB : BrentOk num) (system : String)
    (hs : system ∈ ["pst-", "-pst", "vpst-", "-vpst", "skier"]) (F : List (T → Ply)) (hF : PliesDrift F)
    (hv : ∀ t, ValidPlies (F.map (· t))) (tw E p : T → ℝ) (htw : Continuous tw) (hEw : Continuous E)
    (hp : Continuous p) (tw0 : ∀ t, 0 < tw t) (E0 : ∀ t, 0 < E t) (b : T → ℝ) (b0 : ∀ t, 0 < b t)
    (hfirm : ∀ t, ∀ f ∈ F, b t ≤ bergfeld (f t).rho 917 6.5 4.4) (hthin : ∀ t, 3 * tw t ≤ total Ply.h (F.map (· t)))
    (hsoft : ∀ t, E t / tw t ≤ b t / (6 * total Ply.h (F.map (· t))))
    (L a m phi cf ratio : T → ℝ) (hL : Continuous L) (ha : Continuous a) (hm : Continuous m) (hphi : Continuous phi)
    (hcf : Continuous cf) (hratio : Continuous ratio) (a0 : ∀ t, 0 ≤ a t) (aL : ∀ t, a t < L t) (hslope : ∀ t, |phi t| < 90)
    (kind : SeqKind) :
    ∃ (o : T → Self) (g : T → Segments) (s : T → Self) (C : T → List Vec6),
      (∀ t, Built num.eig system false (F.map (· t)) (tw t) (E t) 0.25 (p t) (o t)) ∧
      (∀ t, calcSegments num [] [] [] [] (L t) (a t) (m t) (phi t) (cf t) (ratio t) (o t) = (.ok (g t), s t)) ∧
      (∀ t, assembleAndSolve num kind (phi t) ⟨(g t).li, (g t).mi, (g t).ki⟩ (s t)
        = (.ok (C t, ⟨(g t).li, (g t).mi, (g t).ki⟩), s t)) ∧
      ∀ i, (∀ t, i < (g t).li.length) → ∀ x : T → ℝ, Continuous x →
        let Z := fun t => stateAt (s t) (phi t) (g t).li (g t).ki (fun i => (C t).getD i 0) i (x t)
        Continuous Z ∧ (Continuous fun t => fsig (s t) (Z t)) ∧ (Continuous fun t => ftau (s t) (Z t)) ∧
        (Continuous fun t => fN (s t) (Z t)) ∧ (Continuous fun t => fM (s t) (Z t)) ∧ Continuous fun t => fV (s t) (Z t) := by
  have key := fun t => made num.eig system false (F.map (· t)) (hv t) (tw t) (E t) 0.25 (p t) (tw0 t) (E0 t) (by norm_num) (by norm_num)
  choose s0 h1 h2 using key
  have hok := fun t => made_firm (h2 t).1 (b t) (b0 t) (fun q hq => by
    obtain ⟨f, hf, rfl⟩ := List.mem_map.1 hq
    exact hfirm t f hf) (hthin t) (hsoft t)
  have hb : ∀ t, Built num.eig system false (F.map (· t)) (tw t) (E t) 0.25 (p t) _ := fun t => ⟨s0 t, h1 t, rfl⟩
  obtain ⟨g, s, C, k⟩ := C89_workflow num hE hB system hs F hF hv tw E (fun _ => 0.25) p htw hEw continuous_const hp tw0 E0
    (fun _ => by norm_num) (fun _ => by norm_num) L a m phi cf ratio hL ha hm hphi hcf hratio a0 aL hslope _ hb
    (fun t => (hok t).1) (fun t => (hok t).2) kind
  exact ⟨_, g, s, C, hb, k⟩

/-! ### A slab whose layers, weak layer, load, crack and slope vary -/

/-- Two layers: the upper one gets denser, the lower one thicker. -/
def settling : List (Set.Icc (0 : ℝ) 100 → Ply) := [fun t => ⟨320 + t, 100⟩, fun t => ⟨450, 50 + t⟩]

example : ∃ (o : Set.Icc (0 : ℝ) 100 → Self) (g : Set.Icc (0 : ℝ) 100 → Segments) (s : Set.Icc (0 : ℝ) 100 → Self)
    (C : Set.Icc (0 : ℝ) 100 → List Vec6),
    (∀ t : Set.Icc (0 : ℝ) 100, Built midNum.eig "vpst-" false [⟨320 + t, 100⟩, ⟨450, 50 + t⟩] (30 + t / 10) (0.25 + t / 2000) 0.25 (t / 1000) (o t)) ∧
    (∀ t : Set.Icc (0 : ℝ) 100, calcSegments midNum [] [] [] [] (2000 + t) (300 + t) 0 (t / 2) 0.5 1000 (o t) = (.ok (g t), s t)) ∧
    (∀ t : Set.Icc (0 : ℝ) 100, assembleAndSolve midNum .ndarray ((t : ℝ) / 2) ⟨(g t).li, (g t).mi, (g t).ki⟩ (s t)
      = (.ok (C t, ⟨(g t).li, (g t).mi, (g t).ki⟩), s t)) ∧
    Continuous fun t => fsig (s t) (stateAt (s t) ((t : ℝ) / 2) (g t).li (g t).ki (fun i => (C t).getD i 0) 0 (1000 + t)) := by
  have hc : Continuous fun t : Set.Icc (0 : ℝ) 100 => (t : ℝ) := continuous_subtype_val
  have h0 : ∀ t : Set.Icc (0 : ℝ) 100, 0 ≤ (t : ℝ) := fun t => t.2.1
  have h100 : ∀ t : Set.Icc (0 : ℝ) 100, (t : ℝ) ≤ 100 := fun t => t.2.2
  obtain ⟨o, g, s, C, k1, k2, k3, k4⟩ := C89_firm midNum stdEig_ok midNum_runs.inside "vpst-" (by decide) settling
    (by
      intro f hf
      simp only [settling, List.mem_cons, List.not_mem_nil, or_false] at hf
      rcases hf with rfl | rfl
      · exact ⟨continuous_const.add hc, continuous_const⟩
      · exact ⟨continuous_const, continuous_const.add hc⟩)
    (fun t => ⟨by simp [settling], fun q hq => by
      simp only [settling, List.map_cons, List.map_nil, List.mem_cons, List.not_mem_nil, or_false] at hq
      have := h0 t
      rcases hq with rfl | rfl
      · exact ⟨by simp only; linarith, by norm_num⟩
      · exact ⟨by norm_num, by simp only; linarith⟩⟩)
    (fun t => 30 + t / 10) (fun t => 0.25 + t / 2000) (fun t => t / 1000) (by fun_prop) (by fun_prop) (by fun_prop)
    (fun t => by have := h0 t; linarith) (fun t => by have := h0 t; norm_num; linarith) (fun _ => 45) (fun _ => by norm_num)
    (fun t f hf => by
      simp only [settling, List.mem_cons, List.not_mem_nil, or_false] at hf
      have := h0 t
      rcases hf with rfl | rfl
      · exact bergfeld_hard _ (by simp only; linarith)
      · exact bergfeld_hard _ (by norm_num))
    (fun t => by
      have := h0 t
      simp only [settling, List.map_cons, List.map_nil, total_cons, total_nil]
      linarith)
    (fun t => by
      have h1 := h0 t
      have h2 := h100 t
      simp only [settling, List.map_cons, List.map_nil, total_cons, total_nil]
      rw [div_le_div_iff₀ (by linarith) (by linarith)]
      norm_num
      nlinarith)
    (fun t => 2000 + t) (fun t => 300 + t) (fun _ => 0) (fun t => t / 2) (fun _ => 0.5) (fun _ => 1000) (by fun_prop) (by fun_prop)
    (by fun_prop) (by fun_prop) (by fun_prop) (by fun_prop) (fun t => by have := h0 t; linarith) (fun t => by linarith)
    (fun t => by
      have h1 := h0 t
      have h2 := h100 t
      rw [abs_lt]; constructor <;> linarith) .ndarray
  refine ⟨o, g, s, C, k1, k2, k3, (k4 0 (fun t => ?_) (fun t => 1000 + t) (by fun_prop)).2.1⟩
  obtain ⟨hv, -⟩ := assembleWith_valid (sub := spring midNum) (k3 t)
  have := hv.mi
  simp only at this
  omega

end Weac
