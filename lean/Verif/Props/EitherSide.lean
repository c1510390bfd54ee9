import Verif.Props.MirrorOutput
import Verif.Props.Cases

/-!
# C82: saw tests may be cut from either side

The whole computation of a saw test — touchdown stage and length, segments,
solution, energy release rates — for a cut from the right at inclination `phi`
is the mirror image of the one for a cut from the left at `-phi`.
-/

namespace Weac

/-- Segments in opposite order. -/
def Segments.mirror (g : Segments) : Segments := ⟨g.li.reverse, g.mi.reverse, g.ki.reverse, g.k0.reverse⟩

/-- The lists to be solved. -/
def Segments.lists (g : Segments) : SegLists := ⟨g.li, g.mi, g.ki⟩

open Spec

theorem calcQn_mirror (s : Self) : calcQn s.mirror = calcQn s := by
  simp [calcQn, Self.mirror, getWeightLoad, getSurfaceLoad, deg2rad]

theorem Self.mirror_mirror (s : Self) : s.mirror.mirror = s := by
  have : mirrorName (mirrorName s.system) = s.system := by
    unfold mirrorName
    split_ifs <;> simp_all
  simp only [Self.mirror, this, neg_neg]

theorem limits_mirror (num : Numerics) (s : Self) (hf : EigFresh num.eig s) :
    Same (calcA1 num) s s.mirror ∧ Same (calcA2 num) s s.mirror ∧ Same (calcLC num) s s.mirror := by
  have sub : ∀ l r d, d ≠ Dof.other → Same (substituteStiffness num.eig l r d) s s.mirror := fun l r d hd =>
    sub_same num.eig s hf l r d hd (mirrorName s.system) s.mode s.L s.a s.tc s.td (-s.phi)
  refine ⟨?_, ?_, ?_⟩
  · unfold calcA1
    refine Same.getBind (by rw [calcQn_mirror]; rfl) (brentq_same num _ _ _ _ _ fun x => ?_)
    unfold polyA1
    exact (sub _ _ _ (by simp)).bind fun _ => (sub _ _ _ (by simp)).bind fun _ => Same.pure _ _ _
  · unfold calcA2
    refine Same.getBind (by rw [calcQn_mirror]; rfl) (brentq_same num _ _ _ _ _ fun x => ?_)
    unfold polyA2
    exact (sub _ _ _ (by simp)).bind fun _ => (sub _ _ _ (by simp)).bind fun _ => Same.pure _ _ _
  · unfold calcLC
    refine Same.getBind (by rw [calcQn_mirror]; rfl) (brentq_same num _ _ _ _ _ fun x => ?_)
    unfold polyLC
    exact (sub _ _ _ (by simp)).bind fun _ => (sub _ _ _ (by simp)).bind fun _ => (sub _ _ _ (by simp)).bind fun _ =>
      Same.pure _ _ _

theorem mode_mirror {num : Numerics} {s t : Self} (hf : EigFresh num.eig s) (h : calcTouchdownMode num s = (.ok (), t)) :
    calcTouchdownMode num s.mirror = (.ok (), t.mirror) := by
  obtain ⟨l1, l2, -⟩ := limits_mirror num s hf
  rcases touchdownMode_ok hf h with ⟨ht, rfl⟩ | ⟨ht, a1, a2, r1, r2, hm⟩
  · exact (C24_stage_total num s.mirror).1 ht
  · have e := (C24_stage_total num s.mirror).2 a1 a2 ht (l1.run r1) (l2.run r2)
    rw [e]
    have ha : s.mirror.a = s.a := rfl
    rw [ha]
    rcases hm with ⟨c, rfl⟩ | ⟨c, c', rfl⟩ | ⟨c, c', rfl⟩
    · rw [if_pos c]; rfl
    · rw [if_neg (not_le.mpr c), if_pos c']; rfl
    · rw [if_neg (not_le.mpr c), if_neg (not_le.mpr c')]; rfl

theorem length_mirror {num : Numerics} {s t : Self} (hf : EigFresh num.eig s) (h : calcTouchdownLength num s = (.ok (), t)) :
    calcTouchdownLength num s.mirror = (.ok (), t.mirror) := by
  obtain ⟨-, -, l3⟩ := limits_mirror num s hf
  have hm : s.mirror.mode = s.mode := rfl
  unfold calcTouchdownLength
  rw [Py.get_bind, hm]
  rcases touchdownLength_ok hf h with ⟨m, rfl⟩ | ⟨m, rfl⟩ | ⟨m, l, p, rfl⟩
  · conv_lhs => rw [m]
    rfl
  · rcases m with m | m <;> (conv_lhs => rw [m]) <;> rfl
  · conv_lhs => rw [m]
    simp only
    rw [Py.bind_of_ok (l3.run p)]
    rfl

theorem system_mirror {num : Numerics} {L a cf phi ratio : ℝ} {s t : Self} (hf : EigFresh num.eig s)
    (h : calcTouchdownSystem num L a cf phi ratio s = (.ok (), t)) :
    calcTouchdownSystem num L a cf (-phi) ratio s.mirror = (.ok (), t.mirror) := by
  unfold calcTouchdownSystem at h ⊢
  rw [Py.modify_bind] at h ⊢
  obtain ⟨u, s1, h1, h2⟩ := Py.bind_ok.mp h
  have hf1 := setTouchdownAttributes_fresh hf L a cf phi ratio
  have e1 := C25_touchdown_mode_frame num _ s1 hf1 h1
  have hf2 : EigFresh num.eig s1 := by
    rw [e1]
    exact hf1.stage _ s1.mode _ _ _ _ _ _
  have e : setTouchdownAttributes L a cf (-phi) ratio s.mirror = (setTouchdownAttributes L a cf phi ratio s).mirror := by
    have : calcQn ({ s.mirror with L := L, a := a } : Self) = calcQn ({ s with L := L, a := a } : Self) :=
      calcQn_mirror ({ s with L := L, a := a } : Self)
    simp only [setTouchdownAttributes, setTc]
    rw [this]
    rfl
  rw [e]
  rw [Py.bind_of_ok (mode_mirror hf1 h1)]
  exact length_mirror hf2 h2

/-- C82, segments: `calc_segments` for the mirrored test succeeds exactly if it does
for the test itself, and returns the segments in opposite order, with the same
touchdown stage and length. -/
theorem C82_segments {num : Numerics} {li mi : List ℝ} {ki k0 : List Bool} {L a m phi cf ratio : ℝ} {s t : Self} {g : Segments}
    (hf : EigFresh num.eig s) (h : calcSegments num li mi ki k0 L a m phi cf ratio s = (.ok g, t)) :
    calcSegments num li.reverse mi.reverse ki.reverse k0.reverse L a m (-phi) cf ratio s.mirror = (.ok g.mirror, t.mirror) := by
  obtain ⟨hc, hs, hg⟩ := calcSegments_ok h
  have hs' := system_mirror hf hs
  unfold calcSegments
  rw [Py.get_bind, if_pos (show s.mirror.hasContact = true from hc), Py.bind_of_ok hs', Py.get_bind]
  have ha : t.mirror.a = t.a := rfl
  have htd : t.mirror.td = t.td := rfl
  rw [ha, htd]
  rcases hg with ⟨e, rfl⟩ | ⟨e, rfl⟩ | ⟨e, rfl⟩ | ⟨e, rfl⟩ | ⟨e, rfl⟩ | ⟨e, rfl⟩
  all_goals
    have en : t.mirror.system = mirrorName t.system := rfl
    rw [e] at en
    simp [en, mirrorName, Segments.mirror]

/-- C82, errors: no computation fails on one side only. -/
theorem C82_segments_iff (num : Numerics) (li mi : List ℝ) (ki k0 : List Bool) (L a m phi cf ratio : ℝ) (s : Self)
    (hf : EigFresh num.eig s) :
    (∃ g t, calcSegments num li.reverse mi.reverse ki.reverse k0.reverse L a m (-phi) cf ratio s.mirror = (.ok g, t)) ↔
      ∃ g t, calcSegments num li mi ki k0 L a m phi cf ratio s = (.ok g, t) := by
  constructor
  · rintro ⟨g, t, h⟩
    have := C82_segments hf.mirror h
    simp only [List.reverse_reverse, neg_neg, Self.mirror_mirror] at this
    exact ⟨_, _, this⟩
  · rintro ⟨g, t, h⟩
    exact ⟨_, _, C82_segments hf h⟩

/-- C82. A saw test cut from one side at inclination `phi` and from the other at
`-phi`: both are solved, the states are mirror images, and the energy release
rates are the same, in every touchdown stage. -/
theorem C82_either_side {num : Numerics} {li mi : List ℝ} {ki k0 : List Bool} {L a m phi cf ratio : ℝ} {s t : Self} {g : Segments}
    (hf : EigFresh num.eig s) (hb : BedOk s) (hc : ShearOk s) (hp : IsPst s) (hbr : BrentOk num)
    (ha0 : 0 ≤ a) (haL : a < L)
    (h : calcSegments num li mi ki k0 L a m phi cf ratio s = (.ok g, t)) (hr : t.mode = .C → RestOk num t)
    (kind kind' : SeqKind) :
    ∃ C C' g', calcSegments num li.reverse mi.reverse ki.reverse k0.reverse L a m (-phi) cf ratio s.mirror = (.ok g', t.mirror) ∧
      assembleAndSolve num kind phi g.lists t = (.ok (C, g.lists), t) ∧
      assembleAndSolve num kind' (-phi) g'.lists t.mirror = (.ok (C', g'.lists), t.mirror) ∧
      g'.lists = g.lists.mirror ∧
      (∀ i < 2, ∀ x, zsol t.mirror x (C'.getD i 0) (nth g'.li i) (-phi) (g'.ki.getD i false)
        = flip (zsol t (nth g.li (1 - i) - x) (C.getD (1 - i) 0) (nth g.li (1 - i)) phi (g.ki.getD (1 - i) false))) ∧
      ∀ unit, gdif t.mirror (-phi) (segsOf C' g'.lists) unit true = gdif t phi (segsOf C g.lists) unit true := by
  obtain ⟨-, hs, hg⟩ := calcSegments_ok h
  have hfr := (C25_touchdown_system_frame num L a cf phi ratio s t hf hs).1
  have hsys : t.system = s.system := by rw [hfr]; rfl
  have ha : t.a = a := by rw [hfr]; rfl
  have hft : EigFresh num.eig t := by rw [hfr]; exact hf.stage _ _ _ _ _ _ _ _
  have hbt : BedOk t := by rw [hfr]; exact hb.stage _ _ _ _ _ _ _ _
  have hct : ShearOk t := by rw [hfr]; exact hc
  have hpt : IsPst t := by unfold IsPst; rw [hsys]; exact hp
  have htd : 0 ≤ t.td := by
    rcases C24_touchdown_length num hbr L a cf phi ratio (ha0.trans_lt haL) s t hf hs with
      ⟨-, -, e⟩ | ⟨-, ⟨-, e⟩ | ⟨-, e, -⟩⟩
    · rw [e]; exact ha0
    · rw [e]; exact ha0
    · exact e.le
  have hm : t.mode ≠ .unset := by
    unfold calcTouchdownSystem at hs
    rw [Py.modify_bind] at hs
    obtain ⟨u, s1, h1, h2⟩ := Py.bind_ok.mp hs
    have hf1 := setTouchdownAttributes_fresh hf L a cf phi ratio
    have e1 := C25_touchdown_mode_frame num _ s1 hf1 h1
    have hf2 : EigFresh num.eig s1 := by
      rw [e1]
      exact hf1.stage _ s1.mode _ _ _ _ _ _
    have h0 : s1.mode ≠ .unset := by
      rcases touchdownMode_ok hf1 h1 with ⟨-, rfl⟩ | ⟨-, _, _, -, -, ⟨-, rfl⟩ | ⟨-, -, rfl⟩ | ⟨-, -, rfl⟩⟩ <;> simp
    rcases touchdownLength_ok hf2 h2 with ⟨-, rfl⟩ | ⟨-, rfl⟩ | ⟨-, l, -, rfl⟩ <;> exact h0
  have hli : g.lists = ⟨[L - a, t.td], [0], [true, false]⟩ ∨ g.lists = ⟨[t.td, L - a], [0], [false, true]⟩ := by
    rw [ha] at hg
    rcases hpt with e | e <;> rw [e] at hg <;> simp at hg <;> rw [hg] <;> simp [Segments.lists]
  have hn : NoFaceTouchdown t := fun hv => absurd hv (by
    rcases hpt with e | e <;> unfold IsVpst <;> rw [e] <;> decide)
  have hsup : Supported g.lists := by
    rcases hli with e | e <;> rw [e]
    · exact ⟨by simp [haL.le, htd], 0, by simp, by simp, by simpa [nth] using haL⟩
    · exact ⟨by simp [haL.le, htd], 1, by simp, by simp, by simpa [nth] using haL⟩
  have hv : Valid t g.lists := by
    have hfin : finiteSystem t.system := by unfold finiteSystem; rcases hpt with e | e <;> rw [e] <;> simp
    rcases hli with e | e <;> rw [e] <;> exact ⟨by simp, rfl, rfl, fun h => absurd hfin h⟩
  have hv' : Valid t.mirror g.lists.mirror := by
    have hfin : finiteSystem t.mirror.system := by
      unfold finiteSystem
      rcases (mirror_kinds t).1.2 hpt with e | e <;> rw [e] <;> simp
    rcases hli with e | e <;> rw [e] <;> exact ⟨by simp [SegLists.mirror], rfl, rfl, fun h => absurd hfin h⟩
  have hsup' : Supported g.lists.mirror := by
    rcases hli with e | e <;> rw [e]
    · exact ⟨by simp [SegLists.mirror, haL.le, htd], 1, by simp [SegLists.mirror], by simp [SegLists.mirror],
        by simpa [SegLists.mirror, nth] using haL⟩
    · exact ⟨by simp [SegLists.mirror, haL.le, htd], 0, by simp [SegLists.mirror], by simp [SegLists.mirror],
        by simpa [SegLists.mirror, nth] using haL⟩
  have two : g.lists.li.length = 2 := by rcases hli with e | e <;> rw [e] <;> rfl
  have hfull : full g.lists = g.lists := by unfold full; rw [if_neg (by omega)]
  have htw : g.mirror.lists = g.lists.mirror := rfl
  have hfull' : full g.lists.mirror = g.lists.mirror := by
    unfold full; rw [if_neg (by simp [SegLists.mirror, two])]
  obtain ⟨C, hC, -⟩ := C18_unique_solution num kind phi g.lists t hbt hct hft hv (.inr (by omega)) (.inl hpt) (fun _ _ => hm)
    (fun _ _ => hr) hsup
  obtain ⟨C', hC', -⟩ := C18_unique_solution num kind' (-phi) g.lists.mirror t.mirror hbt.mirror hct hft.mirror hv'
    (.inr (by simp [SegLists.mirror, two])) (.inl ((mirror_kinds t).1.2 hpt)) (fun _ _ => hm)
    (fun _ _ h => ⟨(hr h).td, (hr h).bed.stage "rot" t.mode t.L t.a t.tc t.td (-t.phi) t.ratio, (hr h).shear⟩) hsup'
  rw [hfull] at hC
  rw [hfull'] at hC'
  have key := C20_mirror num kind kind' phi g.lists _ _ t _ _ C C' hbt hct hft hn (.inl hpt) (fun _ _ => hr) hsup hC hC'
  refine ⟨C, C', g.mirror, C82_segments hf h, hC, hC', htw, ?_, fun unit => ?_⟩
  · intro i hi x
    have := key i (by omega) x
    rw [two] at this
    exact this
  · rw [htw]
    refine C72_gdif num kind kind' phi g.lists _ _ t _ _ C C' hbt hct hft hn (.inl hpt) (fun _ _ => hr) hsup hC hC' ?_ unit
    intro j _
    rcases hli with e | e <;> rw [e] <;> rcases j with _ | j <;> simp [nth]

/-- A saw test in a level column of 2 m of the profile `comp`, cut by 30 cm: the
energy release rates are those of the cut from the other end. -/
example : ∃ g t C C' g', calcSegments midNum [] [] [] [] 2000 300 0 0 (1 / 2) 1000 (demo stdEig "pst-" true) = (.ok g, t) ∧
    calcSegments midNum [] [] [] [] 2000 300 0 (-0) (1 / 2) 1000 (demo stdEig "pst-" true).mirror = (.ok g', t.mirror) ∧
    g'.li = [300, 1700] ∧
    assembleAndSolve midNum .list 0 g.lists t = (.ok (C, g.lists), t) ∧
    assembleAndSolve midNum .list (-0) g'.lists t.mirror = (.ok (C', g'.lists), t.mirror) ∧
    gdif t.mirror (-0) (segsOf C' g'.lists) "J/m^2" true = gdif t 0 (segsOf C g.lists) "J/m^2" true := by
  obtain ⟨g, t, h, hm⟩ := demo_segments 300 (by norm_num) (by norm_num) (fun h => absurd h (by norm_num))
  rw [if_pos (by norm_num)] at hm
  have hsys : (demo stdEig "pst-" true).system = "pst-" := (demo_fields stdEig "pst-" true).2.2.2.2.2.2.2.2.2.2.2.2.2.1
  have hf : EigFresh midNum.eig (demo stdEig "pst-" true) := (demo_ready stdEig "pst-" true).fresh.eigFresh
  have hs := (calcSegments_ok h).2.1
  have htd : t.td = 300 := (C22_segments midNum [] [] [] [] 2000 300 0 0 (1 / 2) 1000 _ t g hf (by rw [hsys]; decide) h).2.2.2.2.2.2.2
    (by rw [hm]; decide)
  obtain ⟨C, C', g', e1, e2, e3, e4, -, e6⟩ := C82_either_side hf (demo_bedOk _ _) (demo_shear _ _ _) (.inl hsys)
    midNum_runs.inside (by norm_num) (by norm_num) h (fun e => by rw [hm] at e; cases e) .list .list
  refine ⟨g, t, C, C', g', h, e1, ?_, e2, e3, e6 _⟩
  have hfr := (C25_touchdown_system_frame midNum 2000 300 (1 / 2) 0 1000 _ t hf hs).1
  have ts : t.system = "pst-" := by rw [hfr]; exact hsys
  have ta : t.a = 300 := by rw [hfr]; rfl
  have hg := (calcSegments_ok h).2.2
  rw [ts, ta, htd] at hg
  simp at hg
  have : g'.li = g.li.reverse := congrArg SegLists.li e4
  rw [this, hg]
  norm_num

end Weac
