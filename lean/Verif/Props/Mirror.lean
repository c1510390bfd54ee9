import Verif.Props.Symmetry

/-!
# C20: mirror symmetry
-/

namespace Weac
open Spec

/-- Reflection of a state at a plane normal to the beam axis: `u`, `psi` and the
slope of `w` change sign. -/
def flip (z : Vec6) : Vec6 := ![-z 0, z 1, z 2, -z 3, -z 4, z 5]

/-- Name of the mirrored system. -/
def mirrorName (sys : String) : String :=
  if sys = "pst-" then "-pst" else if sys = "-pst" then "pst-"
  else if sys = "vpst-" then "-vpst" else if sys = "-vpst" then "vpst-" else sys

/-- The mirrored object. -/
def Self.mirror (s : Self) : Self := { s with system := mirrorName s.system, phi := -s.phi }

/-- The mirrored segment lists. -/
def SegLists.mirror (a : SegLists) : SegLists := ⟨a.li.reverse, a.mi.reverse, a.ki.reverse⟩

theorem deg2rad_neg (phi : ℝ) : deg2rad (-phi) = -deg2rad phi := by simp [deg2rad]

theorem vbc_neg (slab : List Ply) (phi : ℝ) :
    calcVerticalBcCenterOfGravity slab (-phi) = (-(calcVerticalBcCenterOfGravity slab phi).1,
      (calcVerticalBcCenterOfGravity slab phi).2.1, -(calcVerticalBcCenterOfGravity slab phi).2.2) := by
  classical
  unfold calcVerticalBcCenterOfGravity
  simp only [deg2rad_neg, neg_eq_zero]
  split_ifs with h
  · simp
  · have hs : ∀ f : ℕ → ℝ, ∀ n, ((List.range n).map fun j => -f j).sum = -((List.range n).map f).sum := by
      intro f n
      induction (List.range n) with
      | nil => simp
      | cons b l ih => simp only [List.map_cons, List.sum_cons, ih]; ring
    have ht : Real.tan (-deg2rad phi / 2) = -Real.tan (deg2rad phi / 2) := by rw [neg_div, Real.tan_neg]
    simp only [Real.tan_neg, ht, mul_neg, neg_mul, hs, neg_div_neg_eq]

theorem loads_neg (s : Self) (phi : ℝ) : (s.loads (-phi)).qn = (s.loads phi).qn ∧ (s.loads (-phi)).pn = (s.loads phi).pn ∧
    (s.loads (-phi)).qt = -(s.loads phi).qt ∧ (s.loads (-phi)).pt = -(s.loads phi).pt := by
  simp only [Self.loads, getWeightLoad, getSurfaceLoad, deg2rad_neg, Real.cos_neg, Real.sin_neg]
  refine ⟨trivial, trivial, by ring, by ring⟩

theorem driveOf_mirror (s : Self) (phi : ℝ) (bed : Bool) :
    driveOf s.mirror (-phi) bed = (-(driveOf s phi bed).1, (driveOf s phi bed).2.1, -(driveOf s phi bed).2.2) := by
  have hl : s.mirror.loads (-phi) = s.loads (-phi) := rfl
  obtain ⟨h1, h2, h3, h4⟩ := loads_neg s phi
  simp only [driveOf, Beam.drive, hl, h1, h2, h3, h4]
  simp only [Self.mirror, Self.beam]
  refine Prod.ext (by simp; ring) (Prod.ext rfl ?_)
  split_ifs <;> simp <;> ring

theorem Spec.Driven.flip {b : Beam} {bed : Bool} {d : ℝ × ℝ × ℝ} {f : ℝ → Vec6} (h : Driven b bed d f) (l : ℝ) :
    Driven b bed (-d.1, d.2.1, -d.2.2) (fun x => Weac.flip (f (l - x))) := by
  intro x
  obtain ⟨dz, h1, h2⟩ := h (l - x)
  have h3 : HasDerivAt (fun y => f (l - y)) (-dz) x := by
    have := h1.scomp x ((hasDerivAt_id' x).const_sub l)
    exact this.congr_deriv (by simp)
  refine ⟨Weac.flip (-dz), ?_, ?_⟩
  · rw [hasDerivAt_pi] at h3 ⊢
    intro i
    fin_cases i
    · exact (h3 0).neg
    · exact h3 1
    · exact h3 2
    · exact (h3 3).neg
    · exact (h3 4).neg
    · exact h3 5
  · obtain ⟨⟨k0, k2, k4⟩, eN, eV, eM⟩ := h2
    have ht : b.tau (Weac.flip (f (l - x))) = -b.tau (f (l - x)) := by simp [Beam.tau, Weac.flip]; ring
    have hV : b.V (Weac.flip (f (l - x))) = -b.V (f (l - x)) := by simp [Beam.V, Weac.flip]; ring
    refine ⟨⟨?_, ?_, ?_⟩, ?_, ?_, ?_⟩
    · simp [Weac.flip, k0]
    · simp [Weac.flip, k2]
    · simp [Weac.flip, k4]
    · rw [ht]
      cases bed <;> simp [Weac.flip] at * <;> linarith
    · cases bed <;> simp [Weac.flip] at * <;> linarith
    · rw [ht, hV]
      cases bed <;> simp [Weac.flip] at * <;> linarith

theorem mirror_kinds (s : Self) : (IsPst s.mirror ↔ IsPst s) ∧ (IsVpst s.mirror ↔ IsVpst s) ∧
    (IsSkier s.mirror ↔ IsSkier s) ∧ (IsAux s.mirror ↔ IsAux s) := by
  have h : s.mirror.system = mirrorName s.system := rfl
  unfold IsPst IsVpst IsSkier IsAux
  rw [h]
  unfold mirrorName
  split_ifs with c1 c2 c3 c4 <;> simp_all

/-- The opposite end. -/
def Side.other : Side → Side
  | .left => .right
  | .right => .left

theorem endCond_mirror (s : Self) (hsys : IsPst s ∨ IsVpst s ∨ IsSkier s) (phi kR : ℝ) (e : Side) (k : Bool) (z : Vec6)
    (h : (endCond s phi kR e k).Holds s.beam z) :
    (endCond s.mirror (-phi) kR e.other k).Holds s.beam (flip z) := by
  obtain ⟨i1, i2, i3, i4⟩ := mirror_kinds s
  have fN : s.beam.N (flip z) = s.beam.N z := by simp [Beam.N, flip]
  have fM : s.beam.M (flip z) = s.beam.M z := by simp [Beam.M, flip]
  have fV : s.beam.V (flip z) = -s.beam.V z := by simp [Beam.V, flip]; ring
  unfold endCond at h ⊢
  by_cases c1 : IsPst s
  · rw [if_pos c1] at h
    rw [if_pos (i1.mpr c1)]
    cases k with
    | true =>
      simp only [if_true] at h ⊢
      obtain ⟨a, b, c⟩ := h
      exact ⟨by rw [fN, a], by rw [fM, b], by rw [fV, c, neg_zero]⟩
    | false =>
      simp only [Bool.false_eq_true, if_false] at h ⊢
      have hm : s.mirror.mode = s.mode := rfl
      have htc : s.mirror.tc = s.tc := rfl
      have ht : s.mirror.tangential = -s.tangential := by
        obtain ⟨-, -, h3, h4⟩ := loads_neg s s.phi
        have hl : s.mirror.loads s.mirror.phi = s.loads (-s.phi) := rfl
        simp only [Self.tangential, hl, h3, h4]; ring
      have hatd : s.mirror.a - s.mirror.td = s.a - s.td := rfl
      rw [hm, htc, ht, hatd]
      generalize s.mode = md at h ⊢
      rcases md with _ | _ | _ | _ <;> simp only [EndCond.Holds] at h ⊢
      · obtain ⟨a, b, c⟩ := h
        exact ⟨by rw [fN, a], by rw [fM, b], by rw [fV, c, neg_zero]⟩
      · obtain ⟨a, b, c⟩ := h
        exact ⟨by rw [fN, a], by rw [fM, b], by rw [fV, c, neg_zero]⟩
      · obtain ⟨a, b, c⟩ := h
        refine ⟨by rw [fN, a], ?_, by simpa [flip] using c⟩
        rw [fM]; simpa using b
      · obtain ⟨a, b, c⟩ := h
        refine ⟨?_, ?_, by simpa [flip] using c⟩
        · rw [fN, a]; cases e <;> simp [Side.sgn, Side.other]
        · rw [fM]
          have : flip z 4 = -z 4 := rfl
          rw [this]
          cases e <;> simp [Side.sgn, Side.other] at b ⊢ <;> linarith
  · rw [if_neg c1] at h
    rw [if_neg (fun hc => c1 (i1.mp hc))]
    by_cases c2 : IsVpst s
    · rw [if_pos c2] at h
      rw [if_pos (i2.mpr c2)]
      have hsl : s.mirror.slab = s.slab := rfl
      have hg : s.mirror.g = s.g := rfl
      unfold faceForces at h ⊢
      rw [hsl, hg, vbc_neg]
      simp only [deg2rad_neg, Real.sin_neg, Real.cos_neg]
      obtain ⟨a, b, c⟩ := h
      refine ⟨?_, ?_, ?_⟩
      · rw [fN, a]; ring
      · rw [fM, b]; ring
      · rw [fV, c]; ring
    · rw [if_neg c2] at h
      rw [if_neg (fun hc => c2 (i2.mp hc))]
      have c3 : IsSkier s := (hsys.resolve_left c1).resolve_left c2
      rw [if_pos c3] at h
      rw [if_pos (i3.mpr c3)]
      obtain ⟨a, b, c⟩ := h
      obtain ⟨h1, h2, h3, h4⟩ := loads_neg s phi
      simp only [Self.loads] at h1 h2 h3 h4
      have e0 : zp s.mirror 0 (-phi) true = flip (zp s 0 phi true) := by
        have w : ∀ p, getWeightLoad s.mirror p = getWeightLoad s p := fun _ => rfl
        have v : ∀ p, getSurfaceLoad s.mirror p = getSurfaceLoad s p := fun _ => rfl
        funext i
        fin_cases i <;> simp [zp, flip, w, v, h1, h2, h3, h4] <;> simp [Self.mirror] <;> ring
      rw [e0]
      exact ⟨by show -z 0 = -_; rw [a], by show z 2 = _; rw [b]; rfl, by show -z 4 = -_; rw [c]⟩

theorem transmission_mirror {b : Beam} {F : ℝ × ℝ × ℝ} {zl zr : Vec6} (h : Transmission b F zl zr) :
    Transmission b (-F.1, -F.2.1, F.2.2) (flip zr) (flip zl) := by
  obtain ⟨h1, h2, h3, h4, h5, h6⟩ := h
  simp only [Beam.N, Beam.M, Beam.V] at h4 h5 h6
  refine ⟨?_, ?_, ?_, ?_, ?_, ?_⟩ <;> simp [Beam.N, Beam.M, Beam.V, flip] <;> linarith

theorem nth_reverse (l : List ℝ) (i : ℕ) (h : i < l.length) : nth l.reverse i = nth l (l.length - 1 - i) := by
  rw [nth, nth, List.getD_eq_getElem _ _ (by simpa using h), List.getD_eq_getElem _ _ (by omega), List.getElem_reverse]

theorem getD_reverse (l : List Bool) (i : ℕ) (h : i < l.length) :
    l.reverse.getD i false = l.getD (l.length - 1 - i) false := by
  rw [List.getD_eq_getElem _ _ (by simpa using h), List.getD_eq_getElem _ _ (by omega), List.getElem_reverse]

theorem jump_mirror (s : Self) (ha : ¬ IsAux s) (phi : ℝ) (mi mi' : List ℝ) (i i' : ℕ) (h : nth mi' i' = nth mi i) :
    jump s.mirror (-phi) mi' i'
      = (-(jump s phi mi i).1, -(jump s phi mi i).2.1, (jump s phi mi i).2.2) := by
  have hk : ∀ m p, getSkierLoad s.mirror m p = getSkierLoad s m p := fun _ _ => rfl
  have hh : s.mirror.h = s.h := rfl
  unfold jump
  rw [if_neg ha, if_neg (fun hc => ha ((mirror_kinds s).2.2.2.mp hc)), h]
  simp only [hk, hh]
  simp only [getSkierLoad, deg2rad_neg, Real.cos_neg, Real.sin_neg]
  refine Prod.ext (by simp) (Prod.ext (by simp) rfl)

theorem BedOk.mirror {s : Self} (h : BedOk s) : BedOk s.mirror :=
  h.stage (mirrorName s.system) s.mode s.L s.a s.tc s.td (-s.phi) s.ratio

theorem EigFresh.mirror {eig : EigSolver} {s : Self} (h : EigFresh eig s) : EigFresh eig s.mirror :=
  h.stage (mirrorName s.system) s.mode s.L s.a s.tc s.td (-s.phi) s.ratio

theorem endCond_spring (s : Self) (phi kR kR' : ℝ) (e : Side) (k : Bool)
    (h : IsPst s → k = false → s.mode = .C → kR = kR') : endCond s phi kR e k = endCond s phi kR' e k := by
  unfold endCond
  by_cases c1 : IsPst s
  · simp only [if_pos c1]
    cases k with
    | true => rfl
    | false =>
      rcases hm : s.mode with _ | _ | _ | _ <;> simp only [Bool.false_eq_true, if_false]
      rw [h c1 rfl hm]
  · simp only [if_neg c1]

/-- The mirrored object has the same spring. -/
theorem spring_mirror (num : Numerics) (s : Self) (hf : EigFresh num.eig s) (h : RestOk num s) :
    valOf (spring num) s.mirror = valOf (spring num) s := by
  have hb' : BedOk (prep num.eig true .rot s.mirror) :=
    h.bed.stage "rot" s.mode s.L s.a s.tc s.td (-s.phi) s.ratio
  have hc' : ShearOk (prep num.eig true .rot s.mirror) := h.shear
  have key := C26_rotational_spring_load_independent num.eig (s.a - s.td) (sub_pos.mpr h.td) true s s.mirror hf
    hf.mirror h.bed hb' h.shear hc' ⟨s.zs, rfl⟩
  obtain ⟨k, hk⟩ := spring_ok num s hf h
  obtain ⟨k', hk'⟩ := spring_ok num s.mirror hf.mirror ⟨h.td, hb', hc'⟩
  rw [valOf_ok hk, valOf_ok hk']
  have e1 : substituteStiffness num.eig (s.a - s.td) true .rot s = (.ok k, s) := by
    have := hk; unfold spring at this; rwa [Py.get_bind] at this
  have e2 : substituteStiffness num.eig (s.a - s.td) true .rot s.mirror = (.ok k', s.mirror) := by
    have := hk'; unfold spring at this; rwa [Py.get_bind] at this
  rw [e1, e2] at key
  exact Except.ok.inj key

/-- C20. A PST or skier problem and its mirror image (segments in opposite
order, opposite inclination, crack on the other side) have mirrored solutions. -/
theorem C20_mirror (num : Numerics) (kind kind' : SeqKind) (phi : ℝ) (a a1 a2 : SegLists) (s s1 s2 : Self)
    (C C' : List Vec6) (hb : BedOk s) (hc : ShearOk s) (hf : EigFresh num.eig s) (hn : NoFaceTouchdown s)
    (hsys : IsPst s ∨ IsVpst s ∨ IsSkier s) (hsp : IsPst s → OpenEnd a → s.mode = .C → RestOk num s)
    (hsup : Supported a) (h : assembleAndSolve num kind phi a s = (.ok (C, a1), s1))
    (h' : assembleAndSolve num kind' (-phi) a.mirror s.mirror = (.ok (C', a2), s2)) :
    ∀ i < a.li.length, ∀ x,
      zsol s.mirror x (C'.getD i 0) (nth a.mirror.li i) (-phi) (a.mirror.ki.getD i false)
        = flip (zsol s (nth a.li (a.li.length - 1 - i) - x) (C.getD (a.li.length - 1 - i) 0)
            (nth a.li (a.li.length - 1 - i)) phi (a.ki.getD (a.li.length - 1 - i) false)) := by
  have ha : ¬ IsAux s := by
    unfold IsPst IsVpst IsSkier at hsys
    unfold IsAux
    rcases hsys with (h | h) | (h | h) | (h | h) <;> rw [h] <;> decide
  obtain ⟨i1, i2, i3, i4⟩ := mirror_kinds s
  have hn' : NoFaceTouchdown s.mirror := fun hv => hn (i2.mp hv)
  obtain ⟨hv, hm⟩ := solved_meets hf hn h
  obtain ⟨hv', hm'⟩ := solved_meets hf.mirror hn' h'
  have hki := hv.ki
  have hmi := hv.mi
  set n := a.li.length with hnl
  have hn0 : 0 < n := by omega
  have nB : a.mirror.li.length = n := by simp [SegLists.mirror, hnl]
  have bl : ∀ i < n, nth a.mirror.li i = nth a.li (n - 1 - i) := fun i hi => nth_reverse a.li i hi
  have bk : ∀ i < n, a.mirror.ki.getD i false = a.ki.getD (n - 1 - i) false := fun i hi => by
    have := getD_reverse a.ki i (by omega)
    rw [hki] at this
    exact this
  have bm : ∀ i, i + 1 < n → nth a.mirror.mi i = nth a.mi (n - 2 - i) := fun i hi => by
    have := nth_reverse a.mi i (by omega)
    rw [show a.mi.length - 1 - i = n - 2 - i by omega] at this
    exact this
  set Z := stateAt s phi a.li a.ki (fun i => C.getD i 0) with hZ
  have hdr := fun i => stateAt_driven s hb phi a.li a.ki (fun i => C.getD i 0) i
  have hsupB : Supported a.mirror := by
    refine ⟨fun l hl => hsup.nonneg l (by simpa [SegLists.mirror] using hl), ?_⟩
    obtain ⟨i, hi, hk, hp⟩ := hsup.bed
    refine ⟨n - 1 - i, by omega, ?_, ?_⟩
    · rw [bk _ (by omega), show n - 1 - (n - 1 - i) = i by omega]; exact hk
    · rw [bl _ (by omega), show n - 1 - (n - 1 - i) = i by omega]; exact hp
  obtain ⟨m1, m2, m3⟩ := hm
  have hkR : ∀ k, (OpenEnd a ∨ k = true) → ∀ e, endCond s.mirror (-phi) (valOf (spring num) s.mirror) e k
      = endCond s.mirror (-phi) (valOf (spring num) s) e k := by
    intro k hk e
    refine endCond_spring _ _ _ _ _ _ fun hp hkf hmC => ?_
    rcases hk with hk | hk
    · exact spring_mirror num s hf (hsp (i1.mp hp) hk hmC)
    · rw [hk] at hkf; simp at hkf
  have key := field_unique s.mirror hb.mirror hc (-phi) _ (spring_nonneg num s.mirror) a.mirror (hsupB.held _) _ hm'
    (fun i x => flip (Z (n - 1 - i) (nth a.li (n - 1 - i) - x))) (fun i hi => ?_) ⟨?_, ?_, ?_⟩
  · intro i hi x
    exact (key i (by omega) x).symm
  · rw [bk i (by omega), driveOf_mirror]
    exact (hdr (n - 1 - i)).flip (nth a.li (n - 1 - i))
  · rw [bk 0 hn0, hkR _ (by
      simp only [Nat.sub_zero]
      cases hk : a.ki.getD (n - 1) false with
      | true => exact .inr rfl
      | false => exact .inl (.inr hk))]
    simp only [Nat.sub_zero, sub_zero]
    exact endCond_mirror s hsys phi _ .right _ _ m2
  · rw [nB, bk (n - 1) (by omega), hkR _ (by
      simp only [Nat.sub_self]
      cases hk : a.ki.getD 0 false with
      | true => exact .inr rfl
      | false => exact .inl (.inl hk)), bl (n - 1) (by omega)]
    simp only [Nat.sub_self, sub_self]
    exact endCond_mirror s hsys phi _ .left _ _ m1
  · intro i hi
    rw [nB] at hi
    have t := m3 (n - 2 - i) (by omega)
    have e1 : n - 1 - i = n - 2 - i + 1 := by omega
    have e2 : n - 1 - (i + 1) = n - 2 - i := by omega
    rw [jump_mirror s ha phi a.mi a.mirror.mi (n - 2 - i) i (bm i hi)]
    simp only [bl i (by omega), e1, e2, sub_self, sub_zero]
    exact transmission_mirror t

/-- C20, stresses and energy release rates at mirrored positions. -/
theorem C20_mirror_stresses (num : Numerics) (kind kind' : SeqKind) (phi : ℝ) (a a1 a2 : SegLists) (s s1 s2 : Self)
    (C C' : List Vec6) (hb : BedOk s) (hc : ShearOk s) (hf : EigFresh num.eig s) (hn : NoFaceTouchdown s)
    (hsys : IsPst s ∨ IsVpst s ∨ IsSkier s) (hsp : IsPst s → OpenEnd a → s.mode = .C → RestOk num s)
    (hsup : Supported a) (h : assembleAndSolve num kind phi a s = (.ok (C, a1), s1))
    (h' : assembleAndSolve num kind' (-phi) a.mirror s.mirror = (.ok (C', a2), s2)) :
    ∀ i < a.li.length, ∀ x,
      let z' := zsol s.mirror x (C'.getD i 0) (nth a.mirror.li i) (-phi) (a.mirror.ki.getD i false)
      let z := zsol s (nth a.li (a.li.length - 1 - i) - x) (C.getD (a.li.length - 1 - i) 0)
            (nth a.li (a.li.length - 1 - i)) phi (a.ki.getD (a.li.length - 1 - i) false)
      fw z' = fw z ∧ fpsi z' = -fpsi z ∧ (∀ z0, fu z' z0 = -fu z z0) ∧ fsig s.mirror z' = fsig s z ∧
      ftau s.mirror z' = -ftau s z ∧ fGi s.mirror z' = fGi s z ∧ fGii s.mirror z' = fGii s z := by
  intro i hi x z' z
  have key : z' = flip z := C20_mirror num kind kind' phi a a1 a2 s s1 s2 C C' hb hc hf hn hsys hsp hsup h h' i hi x
  have ht : ftau s.mirror z' = -ftau s z := by
    rw [key]; simp [ftau, fdw, fu, fpsi, flip, Self.mirror]; ring
  have hs : fsig s.mirror z' = fsig s z := by rw [key]; rfl
  refine ⟨by rw [key]; rfl, by rw [key]; rfl, fun z0 => ?_, hs, ht, ?_, ?_⟩
  · rw [key]; simp [fu, fpsi, flip]; ring
  · simp only [fGi, hs]; rfl
  · simp only [fGii, ht, neg_sq]; rfl

/-- Mirror of the demonstration PST: also solved. -/
example (mode : Mode) (hm : mode ≠ .unset) (phi : ℝ) :
    ∃ C C', assembleAndSolve stdNum .list phi (pstLists 200) (pstDemo mode 200)
        = (.ok (C, pstLists 200), pstDemo mode 200) ∧
      assembleAndSolve stdNum .list (-phi) (pstLists 200).mirror (pstDemo mode 200).mirror
        = (.ok (C', (pstLists 200).mirror), (pstDemo mode 200).mirror) := by
  obtain ⟨C, hC, -⟩ := pstDemo_solved mode hm .list phi
  have hv : Valid (pstDemo mode 200).mirror (pstLists 200).mirror := by
    refine ⟨by simp [pstLists, SegLists.mirror], by simp [pstLists, SegLists.mirror],
      by simp [pstLists, SegLists.mirror], fun h => ?_⟩
    exact absurd (show finiteSystem "-pst" by decide) h
  have hR := pstDemo_rest mode
  obtain ⟨C', hC', -⟩ := C18_unique_solution stdNum .list (-phi) (pstLists 200).mirror (pstDemo mode 200).mirror
    (pstDemo_bedOk mode 200).mirror (show ShearOk (pstDemo mode 200) from pstDemo_shear mode 200) (pstDemo_fresh mode 200).mirror hv (.inl rfl)
    (.inl (.inr rfl)) (fun _ _ => hm)
    (fun _ _ _ => ⟨hR.td, hR.bed.stage "rot" mode 1500 500 6 200 (-0) 1000, hR.shear⟩)
    ⟨by simp [pstLists, SegLists.mirror], 1, by simp [pstLists, SegLists.mirror], by simp [pstLists, SegLists.mirror],
      by simp [pstLists, nth, SegLists.mirror]⟩
  have hfull : full (pstLists 200).mirror = (pstLists 200).mirror := by
    unfold full; rw [if_neg (by simp [pstLists, SegLists.mirror])]
  rw [hfull] at hC'
  exact ⟨C, C', hC, hC'⟩

end Weac
