import Verif.Props.SmallAdvance
import Verif.Props.Workflow

/-!
# C65 from the constructor on

The user builds a `Layered` object for several skiers, calls `calc_segments` with
the lists of the beam, and solves; for the same beam cut ahead of the tips of a
crack below a skier, and after the crack has grown, they do the same on the same
object. All runs succeed, and the object is the same from the second call on.
-/

namespace Weac
open Spec Filter Topology

theorem calcSegments_skiers (num : Numerics) (li mi : List ℝ) (ki k0 : List Bool) (L a m phi cf ratio : ℝ) (s : Self)
    (hf : EigFresh num.eig s) (hc : s.hasContact = true) (ht : s.touchdown = false) (hs : s.system = "skiers") :
    calcSegments num li mi ki k0 L a m phi cf ratio s
      = (.ok ⟨li, mi, ki, k0⟩, s.stage s.system .A L a (collapseHeight s cf s.phi) a phi ratio) := by
  obtain ⟨g, hg⟩ := calcSegments_off num li mi ki k0 L a m phi cf ratio s hc ht (by rw [hs]; decide)
  rw [hg, C22_skiers num li mi ki k0 L a m phi cf ratio s _ g hf hs hg]

/-- C65, whole workflow for a crack below a skier. The mode I part of the energy
released per crack length tends to that of the differential energy release rate,
the mode II part to minus that. -/
theorem C65_workflow_partial (num : Numerics) (hE : ∀ K, EigOk K (num.eig K)) (layers : CtorLayers) (hd : Documented layers)
    (ha : ¬ IsArray layers) (quad : Quad) (hq : QuadOk quad 0) (kind : SeqKind) :
    ∃ s, layeredInit num.eig "skiers" layers false = .ok s ∧ ((cubicOf s).disc ≠ 0 → ShearOk s →
      ∀ (k0 : List Bool) (L a m phi cf ratio l1 c1 c2 l2 w D : ℝ), 0 ≤ c1 → 0 ≤ c2 → 0 < D → D < l1 → D ≤ l2 →
      let call := fun (b : SegLists) (o : Self) => calcSegments num b.li b.mi b.ki k0 L a m phi cf ratio o
      let solve := fun (b : SegLists) (o : Self) => assembleAndSolve num kind phi b o
      let beam : SegLists := ⟨[l1, c1, c2, l2], [0, w, 0], [true, false, false, true]⟩
      let before : ℝ → SegLists := fun d => ⟨[l1 - d, d, c1, c2, d, l2 - d], [0, 0, w, 0, 0], [true, true, false, false, true, true]⟩
      let after : ℝ → SegLists := fun d => ⟨[l1 - d, d, c1, c2, d, l2 - d], [0, 0, w, 0, 0], [true, false, false, false, false, true]⟩
      ∃ (s1 t : Self) (C : List Vec6) (C0 C1 : ℝ → List Vec6) (I II : ℝ → ℝ) (GI GII : ℝ),
        call beam s = (.ok ⟨beam.li, beam.mi, beam.ki, k0⟩, s1) ∧ call beam s1 = (.ok ⟨beam.li, beam.mi, beam.ki, k0⟩, t) ∧
        (∀ b : SegLists, call b t = (.ok ⟨b.li, b.mi, b.ki, k0⟩, t)) ∧
        solve beam t = (.ok (C, beam), t) ∧
        gdif t phi [⟨C.getD 0 0, true, l1⟩, ⟨C.getD 1 0, false, c1⟩, ⟨C.getD 2 0, false, c2⟩, ⟨C.getD 3 0, true, l2⟩] "kJ/m^2" true
          = .ok (GI + GII, GI, GII) ∧
        (∀ d ∈ Set.Ioc 0 D, solve (before d) t = (.ok (C0 d, before d), t) ∧ solve (after d) t = (.ok (C1 d, after d), t) ∧
          ginc quad t phi (advance (before d) (after d).ki (C0 d) (C1 d)) = some (I d + II d, I d, II d)) ∧
        Tendsto I (𝓝[>] 0) (𝓝 GI) ∧ Tendsto II (𝓝[>] 0) (𝓝 (-GII))) := by
  obtain ⟨s, h1, h2, h3, h4, h5⟩ := C38_layered_init_partial num.eig "skiers" layers false hd ha
  refine ⟨s, h1, fun hdisc hc k0 L a m phi cf ratio l1 c1 c2 l2 w D hc1 hc2 hD hD1 hD2 => ?_⟩
  intro call solve beam before after
  have hf : EigFresh num.eig s := h2.fresh.eigFresh
  have r1 := calcSegments_skiers num beam.li beam.mi beam.ki k0 L a m phi cf ratio s hf h5 h4 h3
  set s1 := s.stage s.system .A L a (collapseHeight s cf s.phi) a phi ratio with hs1
  have f1 : EigFresh num.eig s1 := hf.stage _ _ _ _ _ _ _ _
  have r2 := calcSegments_skiers num beam.li beam.mi beam.ki k0 L a m phi cf ratio s1 f1 h5 h4 h3
  set t := s1.stage s1.system .A L a (collapseHeight s1 cf s1.phi) a phi ratio with ht
  have ft : EigFresh num.eig t := f1.stage _ _ _ _ _ _ _ _
  have hbed : BedOk t := ((C13_discriminant num.eig s h2.stiff hf (hE _) hdisc).stage _ _ _ _ _ _ _ _).stage _ _ _ _ _ _ _ _
  have hsh : ShearOk t := (hc.stage _ _ _ _ _ _ _ _).stage _ _ _ _ _ _ _ _
  have hts : t.system = "skiers" := h3
  have hsk : IsSkier t := .inr hts
  have hnp : ¬ IsPst t := by
    rintro (h | h) <;> exact absurd (h.symm.trans hts) (by decide)
  have r3 : ∀ b : SegLists, call b t = (.ok ⟨b.li, b.mi, b.ki, k0⟩, t) := fun b =>
    calcSegments_skiers num b.li b.mi b.ki k0 L a m phi cf ratio t ft h5 h4 h3
  have sol : ∀ b : SegLists, b.ki.length = b.li.length → b.mi.length + 1 = b.li.length → b.li.length ≠ 1 → b.ki.head? = some true →
      b.ki.getLast? = some true → (∀ l ∈ b.li, 0 ≤ l) → 0 < nth b.li 0 → ∃ C, solve b t = (.ok (C, b), t) := by
    intro b e1 e2 e6 e3 e4 e5 e7
    have hki : true ∈ b.ki := List.mem_of_head? e3
    obtain ⟨C, k1, -⟩ := C18_unique_solution num kind phi b t hbed hsh ft ⟨hki, e1, e2, fun _ => ⟨e3, e4⟩⟩ (.inr e6)
      (.inr (.inr (.inl hsk))) (fun h => absurd h hnp) (fun h => absurd h hnp) ⟨e5, 0, by
        rw [← e1]; exact List.length_pos_of_mem hki, by
        cases hk : b.ki with
        | nil => rw [hk] at hki; simp at hki
        | cons x ki => rw [hk] at e3; simpa using e3, e7⟩
    refine ⟨C, ?_⟩
    have : full b = b := by unfold full; rw [if_neg e6]
    rwa [this] at k1
  have grow : ∀ (x : Bool) (d : ℝ), ∃ C, d ∈ Set.Icc 0 D → solve
      ⟨[l1 - d, d, c1, c2, d, l2 - d], [0, 0, w, 0, 0], [true, x, false, false, x, true]⟩ t
      = (.ok (C, ⟨[l1 - d, d, c1, c2, d, l2 - d], [0, 0, w, 0, 0], [true, x, false, false, x, true]⟩), t) := by
    intro x d
    by_cases hd : d ∈ Set.Icc 0 D
    · obtain ⟨C, k⟩ := sol ⟨[l1 - d, d, c1, c2, d, l2 - d], [0, 0, w, 0, 0], [true, x, false, false, x, true]⟩ rfl rfl (by simp) rfl rfl
        (by
          have d0 := hd.1
          have dD := hd.2
          intro y hy
          simp only [List.mem_cons, List.not_mem_nil, or_false] at hy
          rcases hy with rfl | rfl | rfl | rfl | rfl | rfl <;> linarith)
        (by
          have dD := hd.2
          simp only [nth, List.getD_cons_zero]
          linarith)
      exact ⟨C, fun _ => k⟩
    · exact ⟨[], fun h => absurd h hd⟩
  obtain ⟨C, hC⟩ := sol beam rfl rfl (by simp [beam]) rfl rfl
    (by
      intro y hy
      simp only [beam, List.mem_cons, List.not_mem_nil, or_false] at hy
      rcases hy with rfl | rfl | rfl | rfl <;> linarith)
    (by
      simp only [beam, nth, List.getD_cons_zero]
      linarith)
  choose C0 g0 using grow true
  choose C1 g1 using grow false
  obtain ⟨I, II, GI, GII, q1, q2, q3, q4⟩ := C65_centre_partial num quad hq kind kind kind t t hbed hsh ft hsk phi l1 c1 c2 l2 w D hc1 hc2 hD
    hD1.le hD2 C _ hC C0 C1 g0 g1
  exact ⟨s1, t, C, C0, C1, I, II, GI, GII, r1, r2, r3, hC, q1, fun d hd =>
    ⟨g0 d ⟨hd.1.le, hd.2⟩, g1 d ⟨hd.1.le, hd.2⟩, q2 d hd⟩, q3, q4⟩

/-- The profile `comp` on a slope of 30°, a crack of 0.3 m below a skier of 80 kg. -/
example (quad : Quad) (hq : QuadOk quad 0) : ∃ (t : Self) (C : List Vec6) (C0 C1 : ℝ → List Vec6) (I II : ℝ → ℝ) (GI GII : ℝ),
    (∃ s1, calcSegments stdNum [2000, 150, 150, 2000] [0, 80, 0] [true, false, false, true] [] 0 0 0 30 (1 / 2) 1000
        (demo stdEig "skiers" false) = (.ok ⟨[2000, 150, 150, 2000], [0, 80, 0], [true, false, false, true], []⟩, s1) ∧
      calcSegments stdNum [2000, 150, 150, 2000] [0, 80, 0] [true, false, false, true] [] 0 0 0 30 (1 / 2) 1000 s1
        = (.ok ⟨[2000, 150, 150, 2000], [0, 80, 0], [true, false, false, true], []⟩, t)) ∧
    gdif t 30 [⟨C.getD 0 0, true, 2000⟩, ⟨C.getD 1 0, false, 150⟩, ⟨C.getD 2 0, false, 150⟩, ⟨C.getD 3 0, true, 2000⟩] "kJ/m^2" true
      = .ok (GI + GII, GI, GII) ∧
    (∀ d ∈ Set.Ioc (0 : ℝ) 500, ginc quad t 30 (advance
      ⟨[2000 - d, d, 150, 150, d, 2000 - d], [0, 0, 80, 0, 0], [true, true, false, false, true, true]⟩
      [true, false, false, false, false, true] (C0 d) (C1 d)) = some (I d + II d, I d, II d)) ∧ Tendsto I (𝓝[>] 0) (𝓝 GI) := by
  obtain ⟨s, h1, H⟩ := C65_workflow_partial stdNum stdEig_ok (.str "comp") ⟨"comp", by decide, by decide⟩ (by simp [IsArray]) quad hq .list
  rw [show layeredInit stdNum.eig "skiers" (.str "comp") false = .ok (demo stdEig "skiers" false) from demo_init _ _ _] at h1
  injection h1 with h1
  subst h1
  obtain ⟨s1, t, C, C0, C1, I, II, GI, GII, e1, e2, -, -, e3, e4, e5, -⟩ := H (demo_disc _ _) (demo_shear _ _ _) [] 0 0 0 30 (1 / 2) 1000
    2000 150 150 2000 80 500 (by norm_num) (by norm_num) (by norm_num) (by norm_num) (by norm_num)
  exact ⟨t, C, C0, C1, I, II, GI, GII, ⟨s1, e1, e2⟩, e3, fun d hd => (e4 d hd).2.2, e5⟩

end Weac
