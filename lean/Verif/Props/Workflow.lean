import Verif.Props.TouchdownRuns
import Verif.Props.Profiles

/-!
# C38: the documented workflow

Constructor, `calc_segments`, `assemble_and_solve`.
-/

namespace Weac
open Spec

/-- Layers as documented: default, rows of positive densities and thicknesses
(list or array), or a string whose last word names a built-in profile. -/
def Spec.Documented : CtorLayers → Prop
  | .none => True
  | .rows l => ValidPlies l
  | .ndarray l => ValidPlies l
  | .str s => ∃ w, lastWord s = some w ∧ strLower w ∈ profileIds

def Spec.IsArray : CtorLayers → Prop
  | .ndarray _ => True
  | _ => False

theorem ready_of_slab (eig : EigSolver) (s0 : Self) (h : SlabOk s0) (hg : s0.g = 9810) (hl : s0.lski = 1000) (Ew : ℝ)
    (hE : 0 < Ew) : Ready eig (calcFundamentalSystem eig (setFoundationProperties eig 30 Ew 0.25 false s0)) := by
  refine ⟨h.congr rfl, ?_, C27_idempotent eig _, ?_, ?_⟩
  · refine ⟨?_, ?_, ?_, ?_⟩
    · show (0 : ℝ) < 30; norm_num
    · exact hE
    · show (-1 : ℝ) < 0.25; norm_num
    · show (0.25 : ℝ) < 1; norm_num
  · show 0 < s0.g; rw [hg]; norm_num
  · show 0 < s0.lski; rw [hl]; norm_num

theorem init_of_str (eig : EigSolver) (C0 C1 : ℝ) (str : String) (s0 : Self)
    (h : ∃ w, lastWord str = some w ∧ strLower w ∈ profileIds) :
    ∃ layers E, setBeamProperties eig (.str str) C0 C1 0.25 false s0 = (.ok (), setSlab eig layers E 0.25 false s0) ∧
      SlabOk (setSlab eig layers E 0.25 false s0) := by
  obtain ⟨w, h1, h2⟩ := h
  obtain ⟨⟨layers, E⟩, h3⟩ := (C39_known_ids w).1 h2
  obtain ⟨c1, c2, c3, c4⟩ := C39_consistent w layers E h3
  refine ⟨layers, E, ?_, setSlab_slabOk eig layers E 0.25 s0 ⟨c1, c3⟩ c4 c2 (by norm_num) (by norm_num)⟩
  simp only [setBeamProperties, h1, h3]

/-- C38, construction. `Layered` accepts every documented layering that is not a
numpy array, and the object is complete. -/
theorem C38_layered_init_partial (eig : EigSolver) (system : String) (layers : CtorLayers) (td : Bool)
    (hd : Documented layers) (ha : ¬ IsArray layers) :
    ∃ s, layeredInit eig system layers td = .ok s ∧ Ready eig s ∧ s.system = system ∧ s.touchdown = td ∧
      s.hasContact = true := by
  cases layers with
  | none =>
    obtain ⟨s, h1, h2, h3, h4, h5, -⟩ := layeredInit_ready eig system [⟨240, 200⟩] td ⟨by simp, by simp⟩
    exact ⟨s, h1, h2, h3, h4, h5⟩
  | rows l =>
    obtain ⟨s, h1, h2, h3, h4, h5, -⟩ := layeredInit_ready eig system l td hd
    exact ⟨s, h1, h2, h3, h4, h5⟩
  | ndarray l => exact absurd trivial ha
  | str str =>
    have hne : str ≠ "" := by
      rintro rfl
      obtain ⟨w, h, -⟩ := hd
      cases h
    obtain ⟨ls, E, h1, h2⟩ := init_of_str eig 6.5 4.4 str (Self.init system td true) hd
    have ht : (CtorLayers.str str).truthy = .ok true := by simp [CtorLayers.truthy, hne]
    refine ⟨_, ?_, ready_of_slab eig _ h2 rfl rfl 0.25 (by norm_num), rfl, rfl, rfl⟩
    unfold layeredInit
    rw [ht]
    show (do
      (setBeamProperties eig (.str str) 6.5 4.4 0.25 false (Self.init system td true)).1
      return calcFundamentalSystem eig (setFoundationProperties eig 30 0.25 0.25 false
        (setBeamProperties eig (.str str) 6.5 4.4 0.25 false (Self.init system td true)).2) : Res Self) = _
    rw [h1]
    rfl

/-- Violation: a numpy array of layers is never accepted by `Layered`. -/
theorem C38_array_violated (eig : EigSolver) (system : String) (l : List Ply) (td : Bool) (hd : Documented (.ndarray l)) :
    layeredInit eig system (.ndarray l) td = .error .valueError := by
  obtain ⟨a, l', rfl⟩ := List.exists_cons_of_ne_nil hd.1
  rfl

theorem calcSegments_off (num : Numerics) (li mi : List ℝ) (ki k0 : List Bool) (L a m phi cf ratio : ℝ) (s : Self)
    (hc : s.hasContact = true) (ht : s.touchdown = false)
    (hs : s.system ∈ ["pst-", "-pst", "vpst-", "-vpst", "skier", "skiers"]) :
    ∃ g, calcSegments num li mi ki k0 L a m phi cf ratio s
      = (.ok g, s.stage s.system .A L a (Spec.collapseHeight s cf s.phi) a phi ratio) := by
  unfold calcSegments
  rw [Py.get_bind, if_pos hc, Py.bind_of_ok (touchdownSystem_off num L a cf phi ratio s ht), Py.get_bind]
  have e : (s.stage s.system .A L a (Spec.collapseHeight s cf s.phi) a phi ratio).system = s.system := rfl
  rw [e]
  simp only [List.mem_cons, List.not_mem_nil, or_false] at hs
  rcases hs with h | h | h | h | h | h <;> rw [h] <;> simp only [String.reduceEq, if_true, if_false] <;> exact ⟨_, rfl⟩

/-- C38, solution step: segments built by `calc_segments` are solved, in every
stage. In stage C the slab rests on the collapsed layer, of which the stiffness
has to satisfy the same two conditions as that of the intact one. -/
theorem C38_segments_solved_partial (num : Numerics) (hE : ∀ K, EigOk K (num.eig K)) (hB : BrentOk num) (s s' : Self)
    (hr : Ready num.eig s) (hdisc : (cubicOf s).disc ≠ 0) (hc : ShearOk s)
    (li mi : List ℝ) (ki k0 : List Bool) (L a m phi cf ratio : ℝ) (ha : 0 ≤ a) (haL : a < L) (hsk : s.system ≠ "skiers")
    (g : Segments) (h : calcSegments num li mi ki k0 L a m phi cf ratio s = (.ok g, s'))
    (hC : s'.mode = .C → 0 < ratio ∧ (cubicOf s'.scaled).disc ≠ 0 ∧ ratio * s.kt * s.t ^ 2 < 16 * s.kA55) (kind : SeqKind) :
    ∃ C, assembleAndSolve num kind phi ⟨g.li, g.mi, g.ki⟩ s' = (.ok (C, ⟨g.li, g.mi, g.ki⟩), s') ∧
      C.length = g.li.length := by
  have hf : EigFresh num.eig s := hr.fresh.eigFresh
  obtain ⟨-, ht, hg⟩ := calcSegments_ok h
  have hfr := (C25_touchdown_system_frame num L a cf phi ratio s s' hf ht).1
  have hbed := C13_discriminant num.eig s hr.stiff hf (hE _) hdisc
  obtain ⟨hv, hsup, h1⟩ := C22_accepted num hB li mi ki k0 L a m phi cf ratio s s' g hf hsk ha haL h
  have hsys : IsPst s' ∨ IsVpst s' ∨ IsSkier s' ∨ IsAux s' := by
    rcases hg with ⟨c, -⟩ | ⟨c, -⟩ | ⟨c, -⟩ | ⟨c, -⟩ | ⟨c, -⟩ | ⟨c, -⟩
    · exact .inr (.inr (.inl (.inr c)))
    · exact .inl (.inl c)
    · exact .inl (.inr c)
    · exact .inr (.inl (.inr c))
    · exact .inr (.inl (.inl c))
    · exact .inr (.inr (.inl (.inl c)))
  have htd := C24_touchdown_length num hB L a cf phi ratio (by linarith) s s' hf ht
  have hmode : s'.mode ≠ .unset := by
    rcases htd with ⟨-, e, -⟩ | ⟨-, ⟨e | e, -⟩ | ⟨e, -⟩⟩ <;> rw [e] <;> simp
  have hb' : BedOk s' := by rw [hfr]; exact hbed.stage _ _ _ _ _ _ _ _
  have hc' : ShearOk s' := by rw [hfr]; exact hc.stage _ _ _ _ _ _ _ _
  have hf' : EigFresh num.eig s' := by rw [hfr]; exact hf.stage _ _ _ _ _ _ _ _
  have hrest : s'.mode = .C → RestOk num s' := by
    intro hm
    obtain ⟨r1, r2, r3⟩ := hC hm
    have e1 : s'.ratio = ratio := by rw [hfr]; rfl
    have e2 : s'.kt = s.kt := by rw [hfr]; rfl
    have e3 : s'.t = s.t := by rw [hfr]; rfl
    have e4 : s'.kA55 = s.kA55 := by rw [hfr]; rfl
    have e5 : s'.a = a := by rw [hfr]; rfl
    refine restOk_of num s' hb'.stiff (by rw [e1]; exact r1) ?_ (hE _) r2 (by rw [e1, e2, e3, e4]; exact r3)
    rw [e5]
    rcases htd with ⟨-, e, -⟩ | ⟨-, ⟨e | e, -⟩ | ⟨-, -, e⟩⟩
    · rw [hm] at e; cases e
    · rw [hm] at e; cases e
    · rw [hm] at e; cases e
    · exact e
  have hfull : full ⟨g.li, g.mi, g.ki⟩ = ⟨g.li, g.mi, g.ki⟩ := by
    unfold full; rw [if_neg h1]
  obtain ⟨C, k1, -⟩ := C18_unique_solution num kind phi ⟨g.li, g.mi, g.ki⟩ s' hb' hc' hf' hv (.inr h1) hsys
    (fun _ _ => hmode) (fun _ _ hm => hrest hm) hsup
  rw [hfull] at k1
  obtain ⟨-, -, k3⟩ := assembleWith_valid (sub := spring num) k1
  rw [hfull] at k3
  refine ⟨C, k1, ?_⟩
  have hdef := asmSolve_defined (spring_frame num s' hf') k3
  have h2l : 2 ≤ g.li.length := by
    have := hv.mi
    simp only at this
    omega
  rw [asmSolve_run h2l hdef] at k3
  simp only [Prod.mk.injEq, and_true] at k3
  cases hn : npSolve (6 * g.li.length) (matAt s' (valOf (spring num) s') g.li.length g.li g.ki g.li.length)
        (fun r => rhsFinal s' phi ⟨g.li, g.mi, g.ki⟩ r - vecAt s' (valOf (spring num) s') phi g.li.length g.li g.ki g.li.length r) with
  | error e => rw [hn] at k3; cases k3
  | ok x =>
    rw [hn] at k3
    injection k3 with k3
    rw [← k3]
    simp

/-- C38. Without touchdown every documented `Layered` object whose layering is
not an array runs through the whole workflow. -/
theorem C38_layered_workflow_partial (num : Numerics) (hE : ∀ K, EigOk K (num.eig K)) (hB : BrentOk num) (system : String)
    (hs : system ∈ ["pst-", "-pst", "vpst-", "-vpst", "skier"]) (layers : CtorLayers) (hd : Documented layers)
    (ha : ¬ IsArray layers) :
    ∃ s, layeredInit num.eig system layers false = .ok s ∧ ((cubicOf s).disc ≠ 0 → ShearOk s →
      ∀ (L a m phi cf ratio : ℝ) (kind : SeqKind), 0 ≤ a → a < L → ∃ g s' C,
        calcSegments num [] [] [] [] L a m phi cf ratio s = (.ok g, s') ∧
        assembleAndSolve num kind phi ⟨g.li, g.mi, g.ki⟩ s' = (.ok (C, ⟨g.li, g.mi, g.ki⟩), s') ∧
        C.length = g.li.length) := by
  obtain ⟨s, h1, h2, h3, h4, h5⟩ := C38_layered_init_partial num.eig system layers false hd ha
  refine ⟨s, h1, fun hdisc hc L a m phi cf ratio kind h0 hL => ?_⟩
  obtain ⟨g, hg⟩ := calcSegments_off num [] [] [] [] L a m phi cf ratio s h5 h4 (by
    rw [h3]
    simp only [List.mem_cons, List.not_mem_nil, or_false] at hs ⊢
    tauto)
  obtain ⟨C, k1, k2⟩ := C38_segments_solved_partial num hE hB s _ h2 hdisc hc [] [] [] [] L a m phi cf ratio h0 hL (by
    rw [h3]; rintro rfl; exact absurd hs (by decide)) g hg (fun h => by cases h) kind
  exact ⟨g, _, C, hg, k1, k2⟩

/-- C38, several skiers: the lists of the caller are used. -/
theorem C38_skiers_partial (num : Numerics) (hE : ∀ K, EigOk K (num.eig K)) (layers : CtorLayers) (hd : Documented layers)
    (ha : ¬ IsArray layers) :
    ∃ s, layeredInit num.eig "skiers" layers false = .ok s ∧ ((cubicOf s).disc ≠ 0 → ShearOk s →
      ∀ (li mi : List ℝ) (ki k0 : List Bool) (L a m phi cf ratio : ℝ), ki.length = li.length → mi.length + 1 = li.length →
        ki.head? = some true → ki.getLast? = some true → (∀ l ∈ li, 0 < l) → ∃ g s' C,
        calcSegments num li mi ki k0 L a m phi cf ratio s = (.ok g, s') ∧ g = ⟨li, mi, ki, k0⟩ ∧
        assembleAndSolve num .list phi ⟨li, mi, ki⟩ s' = (.ok (C, full ⟨li, mi, ki⟩), s')) := by
  obtain ⟨s, h1, h2, h3, h4, h5⟩ := C38_layered_init_partial num.eig "skiers" layers false hd ha
  refine ⟨s, h1, fun hdisc hc li mi ki k0 L a m phi cf ratio e1 e2 e3 e4 e5 => ?_⟩
  have hf : EigFresh num.eig s := h2.fresh.eigFresh
  obtain ⟨g, hg⟩ := calcSegments_off num li mi ki k0 L a m phi cf ratio s h5 h4 (by rw [h3]; decide)
  have hsk : IsSkier (s.stage s.system .A L a (Spec.collapseHeight s cf s.phi) a phi ratio) := .inr h3
  have hnp : ¬ IsPst (s.stage s.system .A L a (Spec.collapseHeight s cf s.phi) a phi ratio) := by
    rintro (h | h) <;> exact absurd (h.symm.trans h3) (by decide)
  have hki : true ∈ ki := List.mem_of_head? e3
  obtain ⟨C, k1, -⟩ := C18_unique_solution num .list phi ⟨li, mi, ki⟩ _
    ((C13_discriminant num.eig s h2.stiff hf (hE _) hdisc).stage _ _ _ _ _ _ _ _) (hc.stage _ _ _ _ _ _ _ _)
    (hf.stage _ _ _ _ _ _ _ _) ⟨hki, e1, e2, fun _ => ⟨e3, e4⟩⟩ (.inl rfl) (.inr (.inr (.inl hsk)))
    (fun h => absurd h hnp) (fun h => absurd h hnp) ⟨fun l hl => (e5 l hl).le, 0, by
      simp only
      rw [← e1]; exact List.length_pos_of_mem hki, by
      simp only
      cases ki with
      | nil => simp at hki
      | cons b ki => simpa using e3, by
      simp only
      cases li with
      | nil => simp at e2
      | cons l li => simpa [nth] using e5 l (by simp)⟩
  exact ⟨g, _, C, hg, C22_skiers num li mi ki k0 L a m phi cf ratio s _ g hf h3 hg, k1⟩

/-! ## `Inverse` -/

/-- C38, construction of `Inverse`: every documented layering except the default
is accepted. -/
theorem C38_inverse_init_partial (eig : EigSolver) (system : String) (layers : CtorLayers) (C0 C1 Ew : ℝ) (h0 : 0 < C0)
    (hw : 0 < Ew) (hd : Documented layers) (hn : layers ≠ .none) :
    ∃ s, inverseInit eig system layers C0 C1 Ew = .ok s ∧ Ready eig s ∧ s.system = system ∧ s.mode = .unset := by
  have hrows : ∀ l, ValidPlies l → ∃ s, (do
      (setBeamProperties eig (.rows l) C0 C1 0.25 false (Self.init system false false)).1
      return calcFundamentalSystem eig (setFoundationProperties eig 30 Ew 0.25 false
        (setBeamProperties eig (.rows l) C0 C1 0.25 false (Self.init system false false)).2) : Res Self) = .ok s ∧
      Ready eig s ∧ s.system = system ∧ s.mode = .unset := by
    intro l hl
    have hok := setBeam_slabOk eig l C0 C1 0.25 (Self.init system false false) hl h0 (by norm_num) (by norm_num)
    rw [hok.1]
    obtain ⟨a, l', rfl⟩ := List.exists_cons_of_ne_nil hl.1
    exact ⟨_, rfl, ready_of_slab eig _ hok.2 rfl rfl Ew hw, rfl, rfl⟩
  cases layers with
  | none => exact absurd rfl hn
  | rows l => exact hrows l hd
  | ndarray l => exact hrows l hd
  | str str =>
    obtain ⟨ls, E, h1, h2⟩ := init_of_str eig C0 C1 str (Self.init system false false) hd
    refine ⟨_, ?_, ready_of_slab eig _ h2 rfl rfl Ew hw, rfl, rfl⟩
    unfold inverseInit
    show (do
      (setBeamProperties eig (.str str) C0 C1 0.25 false (Self.init system false false)).1
      return calcFundamentalSystem eig (setFoundationProperties eig 30 Ew 0.25 false
        (setBeamProperties eig (.str str) C0 C1 0.25 false (Self.init system false false)).2) : Res Self) = _
    rw [h1]
    rfl

/-- Violation: `Inverse()` with default layers fails. -/
theorem C38_inverse_default_violated (eig : EigSolver) (system : String) (C0 C1 Ew : ℝ) :
    inverseInit eig system .none C0 C1 Ew = .error .indexError := rfl

theorem inverse_noContact (eig : EigSolver) (system : String) (layers : CtorLayers) (C0 C1 Ew : ℝ) (s : Self)
    (h : inverseInit eig system layers C0 C1 Ew = .ok s) : s.hasContact = false := by
  have hset : ∀ arg, (setBeamProperties eig arg C0 C1 0.25 false (Self.init system false false)).2.hasContact = false := by
    intro arg
    unfold setBeamProperties
    cases arg with
    | str str =>
      simp only
      cases lastWord str with
      | none => rfl
      | some w =>
        simp only
        cases loadDummyProfile w with
        | error e => rfl
        | ok q => rfl
    | rows l => cases l <;> rfl
  have hfin : ∀ arg, (do
      (setBeamProperties eig arg C0 C1 0.25 false (Self.init system false false)).1
      return calcFundamentalSystem eig (setFoundationProperties eig 30 Ew 0.25 false
        (setBeamProperties eig arg C0 C1 0.25 false (Self.init system false false)).2) : Res Self) = .ok s →
      s.hasContact = false := by
    intro arg h
    have := hset arg
    rcases h2 : setBeamProperties eig arg C0 C1 0.25 false (Self.init system false false) with ⟨e | u, s1⟩
    · rw [h2] at h; cases h
    · rw [h2] at h this
      injection h with h
      rw [← h]
      exact this
  cases layers with
  | none => cases h
  | rows l => exact hfin (.rows l) h
  | ndarray l => exact hfin (.rows l) h
  | str str => exact hfin (.str str) h

/-! ### What a constructed object remembers -/

/-- An object on which nothing but the constructor was called. -/
structure Spec.JustMade (system : String) (td contact : Bool) (Ew : ℝ) (s : Self) : Prop where
  system : s.system = system
  touchdown : s.touchdown = td
  contact : s.hasContact = contact
  load : s.p = 0
  physics : s.g = 9810 ∧ s.lski = 1000 ∧ s.tol = 1 / 1000
  weak : s.t = 30 ∧ s.weak = ⟨1 / 4, Ew⟩
  column : s.L = 0 ∧ s.a = 0 ∧ s.phi = 0
  touch : s.mode = .unset ∧ s.tc = 0 ∧ s.ratio = 0 ∧ s.td = 0

theorem constructed (eig : EigSolver) (system : String) (td contact : Bool) (C0 C1 Ew : ℝ) (arg : LayersArg) (s : Self)
    (h : (do
      (setBeamProperties eig arg C0 C1 0.25 false (Self.init system td contact)).1
      return calcFundamentalSystem eig (setFoundationProperties eig 30 Ew 0.25 false
        (setBeamProperties eig arg C0 C1 0.25 false (Self.init system td contact)).2) : Res Self) = .ok s) :
    JustMade system td contact Ew s := by
  have hset : ∃ k h z sl, (setBeamProperties eig arg C0 C1 0.25 false (Self.init system td contact)).2
      = { Self.init system td contact with k := k, h := h, zs := z, slab := sl } := by
    unfold setBeamProperties
    cases arg with
    | str str =>
      simp only
      cases lastWord str with
      | none => exact ⟨_, _, _, _, rfl⟩
      | some w =>
        simp only
        cases loadDummyProfile w with
        | error e => exact ⟨_, _, _, _, rfl⟩
        | ok q => exact ⟨_, _, _, _, rfl⟩
    | rows l => cases l <;> exact ⟨_, _, _, _, rfl⟩
  obtain ⟨k, hh, z, sl, e⟩ := hset
  rcases h2 : setBeamProperties eig arg C0 C1 0.25 false (Self.init system td contact) with ⟨x | u, s1⟩
  · rw [h2] at h; cases h
  · rw [h2] at h e
    injection h with h
    simp only at e
    rw [← h, e]
    refine ⟨rfl, rfl, rfl, rfl, ⟨rfl, rfl, ?_⟩, ⟨rfl, ?_⟩, ⟨rfl, rfl, rfl⟩, ⟨rfl, rfl, rfl, rfl⟩⟩
    · show (1e-3 : ℝ) = _
      norm_num
    · show (⟨0.25, Ew⟩ : Weak) = _
      norm_num

/-- C38: a constructor that returns leaves an object without load, crack, slope
and touchdown, on a weak layer of 30 mm. -/
theorem C38_constructed (eig : EigSolver) (system : String) (layers : CtorLayers) (td : Bool) (C0 C1 Ew : ℝ) (s : Self) :
    (layeredInit eig system layers td = .ok s → JustMade system td true (1 / 4) s) ∧
    (inverseInit eig system layers C0 C1 Ew = .ok s → JustMade system false false Ew s) := by
  constructor
  · intro h
    unfold layeredInit at h
    rcases hb : layers.truthy with e | b
    · rw [hb] at h; cases h
    · rw [hb] at h
      have := constructed eig system td true 6.5 4.4 0.25 _ s h
      rwa [show (0.25 : ℝ) = 1 / 4 by norm_num] at this
  · intro h
    cases layers with
    | none => cases h
    | rows l => exact constructed eig system false false C0 C1 Ew (.rows l) s h
    | ndarray l => exact constructed eig system false false C0 C1 Ew (.rows l) s h
    | str str => exact constructed eig system false false C0 C1 Ew (.str str) s h

example (eig : EigSolver) : (demo eig "pst-" true).ratio = 0 ∧ (demo eig "pst-" true).tol = 1 / 1000 :=
  have h := (C38_constructed eig "pst-" (.str "comp") true 0 0 0 _).1 (demo_init eig "pst-" true)
  ⟨h.touch.2.2.1, h.physics.2.2⟩

/-- Violation: no `Inverse` object can compute its segments. -/
theorem C38_inverse_segments_violated (num : Numerics) (system : String) (layers : CtorLayers) (C0 C1 Ew : ℝ) (s : Self)
    (h : inverseInit num.eig system layers C0 C1 Ew = .ok s) (li mi : List ℝ) (ki k0 : List Bool)
    (L a m phi cf ratio : ℝ) : calcSegments num li mi ki k0 L a m phi cf ratio s = (.error .attributeError, s) := by
  have := inverse_noContact num.eig system layers C0 C1 Ew s h
  unfold calcSegments
  rw [Py.get_bind, this]
  rfl

/-- Violation: with lists of its own, an `Inverse` PST with a crack at an end is
not solved either. -/
theorem C38_inverse_pst_violated (num : Numerics) (s : Self) (hf : EigFresh num.eig s) (hm : s.mode = .unset) (hp : IsPst s)
    (a : SegLists) (ho : OpenEnd (full a)) (kind : SeqKind) (phi : ℝ) (out : List Vec6 × SegLists) (s' : Self) :
    assembleAndSolve num kind phi a s ≠ (.ok out, s') := by
  intro h
  obtain ⟨C, a'⟩ := out
  have hfr := spring_frame num s hf
  obtain ⟨hV, h1, h2⟩ := assembleWith_valid (sub := spring num) h
  simp only [] at h1 h2
  subst h1
  have hdef := asmSolve_defined hfr h2
  have h2l := hV.listsOk.two
  rcases ho with ho | ho
  · have := (hdef 0 (by omega)).1 (by unfold posOf; rw [if_neg (by omega), if_pos rfl]; simp)
    obtain ⟨-, -, k⟩ := this
    rcases k hp ho with e | e | e <;> rw [hm] at e <;> cases e
  · have := (hdef ((full a).li.length - 1) (by omega)).1 (by unfold posOf; rw [if_pos (by omega)]; simp)
    obtain ⟨-, -, k⟩ := this
    rcases k hp ho with e | e | e <;> rw [hm] at e <;> cases e

/-! ## Concrete cases -/

example : Documented (.rows demoPlies) := demoPlies_valid

theorem demo_disc (system : String) (td : Bool) : (cubicOf (demo stdEig system td)).disc ≠ 0 := by
  obtain ⟨h1, h2, h3, h4, h5, h6, h7, h8, -⟩ := demo_fields stdEig system td
  have hK0 := (demo_ready stdEig system td).stiff.K0_eq
  rw [h3, h4, h5] at hK0
  have hM : calcSystemMatrix (demo stdEig system td) =
      !![0, 1, 0, 0, 0, 0; 1 / 334720, 0, 0, -3 / 66944, 5 / 16736, 0; 0, 0, 0, 1, 0, 0;
        0, 0, 1 / 39225, 0, 0, -1; 0, 0, 0, 0, 0, 1;
        69 / 669440000, 0, 0, 2469 / 26777600, 3483 / 33472000, 0] := by
    simp only [calcSystemMatrix, h1, h2, h3, h4, h5, h6, h7, h8, hK0]
    norm_num
  unfold Cubic.disc cubicOf
  rw [hM]
  simp only [Matrix.of_apply, Matrix.cons_val', Matrix.cons_val]
  norm_num

/-- All hypotheses hold for the profile `comp`, in every system. -/
theorem demo_workflow (system : String) (hs : system ∈ ["pst-", "-pst", "vpst-", "-vpst", "skier"]) :
    ∃ s g s' C, layeredInit midNum.eig system (.str "comp") false = .ok s ∧
      calcSegments midNum [] [] [] [] 1500 500 0 30 (1 / 2) 1000 s = (.ok g, s') ∧
      assembleAndSolve midNum .ndarray 30 ⟨g.li, g.mi, g.ki⟩ s' = (.ok (C, ⟨g.li, g.mi, g.ki⟩), s') := by
  obtain ⟨s, h1, h2⟩ := C38_layered_workflow_partial midNum stdEig_ok midNum_runs.inside system hs (.str "comp")
    ⟨"comp", rfl, by decide⟩ (fun h => h)
  have e : s = demo stdEig system false := by
    have := demo_init stdEig system false
    rw [show stdEig = midNum.eig from rfl, h1] at this
    injection this
  obtain ⟨g, s', C, k1, k2, -⟩ := h2 (by rw [e]; exact demo_disc _ _) (by rw [e]; exact demo_shear _ _ _) 1500 500 0 30 (1 / 2)
    1000 .ndarray (by norm_num) (by norm_num)
  exact ⟨s, g, s', C, h1, k1, k2⟩

/-- The whole workflow with touchdown, stage C. -/
example : ∃ g s' C, calcSegments midNum [] [] [] [] 2000 1800 0 0 (1 / 2) 1000 (demo stdEig "pst-" true) = (.ok g, s') ∧
    s'.mode = .C ∧ assembleAndSolve midNum .ndarray 0 ⟨g.li, g.mi, g.ki⟩ s' = (.ok (C, ⟨g.li, g.mi, g.ki⟩), s') := by
  obtain ⟨g, s', h1, h2⟩ := demo_segments 1800 (by norm_num) (by norm_num) (fun _ => by norm_num)
  have hm : s'.mode = .C := by rw [h2, if_neg (by norm_num)]
  obtain ⟨v1, v2, v3, v4, v5, v6, v7, v8, -, -, -, -, -, v14, -⟩ := demo_fields stdEig "pst-" true
  have hr := demo_ready stdEig "pst-" true
  have hfr := (C25_touchdown_system_frame midNum 2000 1800 (1 / 2) 0 1000 _ s' hr.fresh.eigFresh (calcSegments_ok h1).2.1).1
  obtain ⟨C, k1, -⟩ := C38_segments_solved_partial midNum stdEig_ok midNum_runs.inside _ s' hr (demo_disc _ _)
    (demo_shear _ _ _) [] [] [] [] 2000 1800 0 0 (1 / 2) 1000 (by norm_num) (by norm_num) (by rw [v14]; decide) g h1
    (fun _ => ⟨by norm_num, by
      have : (cubicOf s'.scaled).disc = (cubicOf (pstDemo .C s'.td).scaled).disc := by
        rw [hfr]; rfl
      rw [this]
      exact pstDemo_disc _ _, by rw [v2, v6, v8]; norm_num⟩) .ndarray
  exact ⟨g, s', C, h1, hm, k1⟩

/-- An `Inverse` PST whose crack reaches the right end. -/
example : ∃ s, inverseInit stdEig "pst-" (.rows demoPlies) 6 4.6 0.25 = .ok s ∧ EigFresh stdNum.eig s ∧ s.mode = .unset ∧
    IsPst s ∧ OpenEnd (full (pstLists 200)) := by
  obtain ⟨s, h1, h2, h3, h4⟩ := C38_inverse_init_partial stdEig "pst-" (.rows demoPlies) 6 4.6 0.25 (by norm_num)
    (by norm_num) demoPlies_valid (by simp)
  exact ⟨s, h1, h2.fresh.eigFresh, h4, .inl h3, by rw [pstLists_full]; right; rfl⟩

end Weac
