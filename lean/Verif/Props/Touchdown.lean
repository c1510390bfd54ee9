import Verif.Lemmas.Congruence
import Verif.Props.ForceBalance

/-!
# C22, C23, C24: segments and touchdown stages
-/

namespace Weac
open Spec

/-! ## Calls with the same outcome on two objects -/

/-- A call that returns the same on both objects and, when it returns, leaves
both unchanged. -/
structure Same {α : Type} (m : Py α) (s s' : Self) : Prop where
  val : (m s').1 = (m s).1
  frame : Frame m s
  frame' : Frame m s'

theorem Same.pure {α : Type} (a : α) (s s' : Self) : Same (Pure.pure a : Py α) s s' :=
  ⟨rfl, Frame.pure _ _, Frame.pure _ _⟩

theorem Same.raise {α : Type} (e : PyErr) (s s' : Self) : Same (Py.raise e : Py α) s s' :=
  ⟨rfl, Frame.raise _ _, Frame.raise _ _⟩

theorem Same.bind {α β : Type} {m : Py α} {f : α → Py β} {s s' : Self} (hm : Same m s s')
    (hf : ∀ a, Same (f a) s s') : Same (m >>= f) s s' := by
  refine ⟨?_, hm.frame.bind fun a _ => (hf a).frame, hm.frame'.bind fun a _ => (hf a).frame'⟩
  have hv := hm.val
  rw [Py.bind_eq, Py.bind_eq]
  rcases h1 : m s with ⟨e | a, s1⟩ <;> rcases h2 : m s' with ⟨e' | a', s2⟩ <;> rw [h1, h2] at hv <;> simp only at hv
  · cases hv; rfl
  · cases hv
  · cases hv
  · cases hv
    have e1 := hm.frame _ _ h1
    have e2 := hm.frame' _ _ h2
    rw [e1, e2]
    exact (hf _).val

/-- A call that reads the object first. -/
theorem Same.getBind {α : Type} {f : Self → Py α} {s s' : Self} (h : f s' = f s) (hf : Same (f s) s s') :
    Same (Py.get >>= f) s s' := by
  refine ⟨?_, fun a t ht => ?_, fun a t ht => ?_⟩
  · rw [Py.get_bind, Py.get_bind, h]; exact hf.val
  · rw [Py.get_bind] at ht; exact hf.frame a t ht
  · rw [Py.get_bind, h] at ht; exact hf.frame' a t ht

theorem brentLoop_same (next : List (ℝ × ℝ) → ℝ ⊕ ℝ) (f : ℝ → Py ℝ) (s s' : Self) (hf : ∀ x, Same (f x) s s') :
    ∀ n hist, Same (brentLoop next f n hist) s s' := by
  intro n
  induction n with
  | zero => intro hist; exact Same.raise _ _ _
  | succ n ih =>
    intro hist
    unfold brentLoop
    rcases next hist with x | r
    · exact (hf x).bind fun y => ih _
    · exact Same.pure _ _ _

theorem brentq_same (num : Numerics) (f : ℝ → Py ℝ) (a b : ℝ) (s s' : Self) (hf : ∀ x, Same (f x) s s') :
    Same (brentq num f a b) s s' := by
  unfold brentq
  refine (hf a).bind fun fa => (hf b).bind fun fb => ?_
  split_ifs
  · exact Same.pure _ _ _
  · exact Same.pure _ _ _
  · exact Same.raise _ _ _
  · exact brentLoop_same _ _ _ _ hf _ _

theorem sub_same (eig : EigSolver) (s : Self) (hf : EigFresh eig s) (l : ℝ) (rested : Bool) (dof : Dof)
    (hd : dof ≠ .other) (sys : String) (mode : Mode) (L a tc td phi : ℝ) :
    Same (substituteStiffness eig l rested dof) s (s.stage sys mode L a tc td phi s.ratio) :=
  ⟨sub_congr eig l rested dof hd s sys mode L a tc td phi, subst_frame eig s hf l rested dof,
    subst_frame eig _ (hf.stage sys mode L a tc td phi s.ratio) l rested dof⟩

/-- The stage limits depend on neither the crack length nor earlier stages. -/
theorem limits_same (num : Numerics) (s : Self) (hf : EigFresh num.eig s) (mode : Mode) (a td : ℝ) :
    Same (calcA1 num) s (s.stage s.system mode s.L a s.tc td s.phi s.ratio) ∧
    Same (calcA2 num) s (s.stage s.system mode s.L a s.tc td s.phi s.ratio) := by
  have k1 : Same (brentq num (polyA1 num.eig (bsOf s) s.kA55 s.L s.tc (calcQn s)) (s.L / 1000) (999 / 1000 * s.L))
      s (s.stage s.system mode s.L a s.tc td s.phi s.ratio) := by
    refine brentq_same num _ _ _ _ _ fun x => ?_
    unfold polyA1
    exact (sub_same _ s hf _ _ _ (by simp) _ _ _ _ _ _ _).bind fun _ =>
      (sub_same _ s hf _ _ _ (by simp) _ _ _ _ _ _ _).bind fun _ => Same.pure _ _ _
  have k2 : Same (brentq num (polyA2 num.eig (bsOf s) s.kA55 s.L s.tc (calcQn s)) (s.L / 1000) (999 / 1000 * s.L))
      s (s.stage s.system mode s.L a s.tc td s.phi s.ratio) := by
    refine brentq_same num _ _ _ _ _ fun x => ?_
    unfold polyA2
    exact (sub_same _ s hf _ _ _ (by simp) _ _ _ _ _ _ _).bind fun _ =>
      (sub_same _ s hf _ _ _ (by simp) _ _ _ _ _ _ _).bind fun _ => Same.pure _ _ _
  constructor
  · unfold calcA1
    exact Same.getBind (by rfl) k1
  · unfold calcA2
    exact Same.getBind (by rfl) k2

theorem lC_same (num : Numerics) (s : Self) (hf : EigFresh num.eig s) (mode : Mode) (td : ℝ) :
    Same (calcLC num) s (s.stage s.system mode s.L s.a s.tc td s.phi s.ratio) := by
  have k1 : Same (brentq num (polyLC num.eig (bsOf s) s.kA55 s.L s.a s.tc (calcQn s)) (s.a / 1000)
      (999 / 1000 * s.a)) s (s.stage s.system mode s.L s.a s.tc td s.phi s.ratio) := by
    refine brentq_same num _ _ _ _ _ fun x => ?_
    unfold polyLC
    exact (sub_same _ s hf _ _ _ (by simp) _ _ _ _ _ _ _).bind fun _ =>
      (sub_same _ s hf _ _ _ (by simp) _ _ _ _ _ _ _).bind fun _ =>
      (sub_same _ s hf _ _ _ (by simp) _ _ _ _ _ _ _).bind fun _ => Same.pure _ _ _
  unfold calcLC
  exact Same.getBind (by rfl) k1

/-! ## C24 -/

/-- Contract of `scipy.optimize.brentq` used here: the result lies in the
bracket. -/
def BrentOk (num : Numerics) : Prop :=
  ∀ a b hist r, a ≤ b → num.brent a b hist = .inr r → a ≤ r ∧ r ≤ b

theorem brentLoop_bracket {num : Numerics} (hb : BrentOk num) {f : ℝ → Py ℝ} {a b : ℝ} (hab : a ≤ b) :
    ∀ {n : ℕ} {hist : List (ℝ × ℝ)} {s s' : Self} {r : ℝ},
      brentLoop (num.brent a b) f n hist s = (.ok r, s') → a ≤ r ∧ r ≤ b := by
  intro n
  induction n with
  | zero => intro hist s s' r h; simp [brentLoop] at h
  | succ n ih =>
    intro hist s s' r h
    unfold brentLoop at h
    rcases hn : num.brent a b hist with x | y
    · rw [hn] at h
      obtain ⟨y, s1, -, h2⟩ := Py.bind_ok.mp h
      exact ih h2
    · rw [hn] at h
      simp only [Py.pure_apply, Prod.mk.injEq, Except.ok.injEq] at h
      rw [← h.1]
      exact hb a b hist y hab hn

theorem brentq_bracket {num : Numerics} (hb : BrentOk num) {f : ℝ → Py ℝ} {a b : ℝ} (hab : a ≤ b) {s s' : Self} {r : ℝ}
    (h : brentq num f a b s = (.ok r, s')) : a ≤ r ∧ r ≤ b := by
  unfold brentq at h
  obtain ⟨fa, s1, -, h⟩ := Py.bind_ok.mp h
  obtain ⟨fb, s2, -, h⟩ := Py.bind_ok.mp h
  split_ifs at h
  · simp only [Py.pure_apply, Prod.mk.injEq, Except.ok.injEq] at h
    rw [← h.1]; exact ⟨le_refl _, hab⟩
  · simp only [Py.pure_apply, Prod.mk.injEq, Except.ok.injEq] at h
    rw [← h.1]; exact ⟨hab, le_refl _⟩
  · simp at h
  · exact brentLoop_bracket hb hab h

/-- Stages in their order. -/
def Mode.rank : Mode → ℕ
  | .unset => 0 | .A => 1 | .B => 2 | .C => 3

/-- C24, totality. With touchdown enabled the stage is assigned whenever the two
stage limits `a1`, `a2` can be computed; it is A up to `a1`, B between `a1` and
`a2`, C beyond both. With touchdown disabled it is A. -/
theorem C24_stage_total (num : Numerics) (s : Self) :
    (s.touchdown = false → calcTouchdownMode num s = (.ok (), { s with mode := .A })) ∧
    ∀ a1 a2, s.touchdown = true → calcA1 num s = (.ok a1, s) → calcA2 num s = (.ok a2, s) →
      calcTouchdownMode num s = (.ok (), { s with mode := if s.a ≤ a1 then .A else if s.a ≤ a2 then .B else .C }) := by
  constructor
  · intro ht
    unfold calcTouchdownMode
    rw [Py.get_bind, if_neg (by rw [ht]; simp)]
    rfl
  · intro a1 a2 ht h1 h2
    unfold calcTouchdownMode
    rw [Py.get_bind, if_pos ht, Py.bind_of_ok h1, Py.bind_of_ok h2, Py.get_bind]
    by_cases c1 : s.a ≤ a1
    · rw [if_pos c1, if_pos c1]; rfl
    rw [if_neg c1, if_neg c1]
    have c1' := not_le.mp c1
    by_cases c2 : s.a ≤ a2
    · rw [if_pos ⟨c1', c2⟩, if_pos c2]; rfl
    · rw [if_neg (fun h => c2 h.2), if_neg c2, if_pos (not_le.mp c2)]; rfl

/-- C24, order. Two runs that differ in the crack length (and in what earlier
calls left behind): the longer crack is never in an earlier stage. -/
theorem C24_stage_monotone (num : Numerics) (s s1 s2 : Self) (hf : EigFresh num.eig s) (mode : Mode) (a' td : ℝ)
    (ha : s.a ≤ a') (h1 : calcTouchdownMode num s = (.ok (), s1))
    (h2 : calcTouchdownMode num (s.stage s.system mode s.L a' s.tc td s.phi s.ratio) = (.ok (), s2)) :
    s1.mode ≠ .unset ∧ s1.mode.rank ≤ s2.mode.rank := by
  set s' := s.stage s.system mode s.L a' s.tc td s.phi s.ratio with hs'
  have hf' : EigFresh num.eig s' := hf.stage _ _ _ _ _ _ _ _
  obtain ⟨l1, l2⟩ := limits_same num s hf mode a' td
  have ht : s'.touchdown = s.touchdown := rfl
  have hA : s'.a = a' := rfl
  rcases touchdownMode_ok hf h1 with ⟨c1, e1⟩ | ⟨c1, a1, a2, p1, p2, hc⟩
  · rcases touchdownMode_ok hf' h2 with ⟨c2, e2⟩ | ⟨c2, -⟩
    · rw [e1, e2]; simp [Mode.rank]
    · rw [ht, c1] at c2; simp at c2
  · rcases touchdownMode_ok hf' h2 with ⟨c2, e2⟩ | ⟨c2, b1, b2, q1, q2, hd⟩
    · rw [ht, c1] at c2; simp at c2
    · have v1 := l1.val
      have v2 := l2.val
      rw [p1, q1] at v1
      rw [p2, q2] at v2
      simp only [Except.ok.injEq] at v1 v2
      rw [v1, v2, hA] at hd
      rcases hc with ⟨i1, e1⟩ | ⟨i1, i2, e1⟩ | ⟨i1, i2, e1⟩ <;>
        rcases hd with ⟨j1, e2⟩ | ⟨j1, j2, e2⟩ | ⟨j1, j2, e2⟩ <;> rw [e1, e2] <;>
        simp [Mode.rank] <;> linarith

/-- C24, touchdown length. After `calc_touchdown_system` the length of the
segment without support is the crack length in stages A and B, and lies strictly
between 0 and the crack length in stage C. -/
theorem C24_touchdown_length (num : Numerics) (hb : BrentOk num) (L a cf phi ratio : ℝ) (hL : 0 < L) (s s' : Self)
    (hf : EigFresh num.eig s) (h : calcTouchdownSystem num L a cf phi ratio s = (.ok (), s')) :
    (s.touchdown = false ∧ s'.mode = .A ∧ s'.td = a) ∨ (s.touchdown = true ∧
      ((s'.mode = .A ∨ s'.mode = .B) ∧ s'.td = a ∨ s'.mode = .C ∧ 0 < s'.td ∧ s'.td < a)) := by
  unfold calcTouchdownSystem at h
  rw [Py.modify_bind] at h
  have hf1 := setTouchdownAttributes_fresh hf L a cf phi ratio
  have e0 : setTouchdownAttributes L a cf phi ratio s
      = s.stage s.system s.mode L a (setTouchdownAttributes L a cf phi ratio s).tc s.td phi ratio := rfl
  generalize setTouchdownAttributes L a cf phi ratio s = s0 at *
  obtain ⟨u, s1, h1, h2⟩ := Py.bind_ok.mp h
  have t0 : s0.touchdown = s.touchdown := by rw [e0]; rfl
  have a0 : s0.a = a := by rw [e0]; rfl
  have L0 : s0.L = L := by rw [e0]; rfl
  have e1 := C25_touchdown_mode_frame num s0 s1 hf1 h1
  have hf2 : EigFresh num.eig s1 := by
    rw [e1]
    exact hf1.stage s0.system s1.mode s0.L s0.a s0.tc s0.td s0.phi s0.ratio
  have a1 : s1.a = a := by rw [e1]; exact a0
  have key : s1.mode ≠ .unset ∧ (s1.mode = .C → 0 < a) ∧ (s0.touchdown = false → s1.mode = .A) := by
    rcases touchdownMode_ok hf1 h1 with ⟨c1, e⟩ | ⟨c1, x1, x2, p1, p2, hc⟩
    · rw [e]; simp
    · have hbr : L / 1000 ≤ x2 := by
        have hq : brentq num (polyA2 num.eig (bsOf s0) s0.kA55 s0.L s0.tc (calcQn s0)) (s0.L / 1000)
          (999 / 1000 * s0.L) s0 = (.ok x2, s0) := p2
        rw [L0] at hq
        exact (brentq_bracket hb (by linarith) hq).1
      rw [a0] at hc
      rcases hc with ⟨i1, e⟩ | ⟨i1, i2, e⟩ | ⟨i1, i2, e⟩ <;> rw [e] <;> simp [c1]
      have : 0 < L / 1000 := by positivity
      linarith
  have tt : s.touchdown = true ∨ s.touchdown = false := by cases s.touchdown <;> simp
  rcases touchdownLength_ok hf2 h2 with ⟨m, -⟩ | ⟨m, e⟩ | ⟨m, l, p, e⟩
  · exact absurd m key.1
  · have m' : s'.mode = s1.mode := by rw [e]
    have d' : s'.td = a := by rw [e]; exact a1
    rcases tt with t | t
    · exact .inr ⟨t, .inl ⟨by rw [m']; exact m, d'⟩⟩
    · exact .inl ⟨t, by rw [m']; exact key.2.2 (t0.trans t), d'⟩
  · have m' : s'.mode = .C := by rw [e]; exact m
    have ha : 0 < a := key.2.1 m
    have hq : brentq num (polyLC num.eig (bsOf s1) s1.kA55 s1.L s1.a s1.tc (calcQn s1)) (s1.a / 1000)
        (999 / 1000 * s1.a) s1 = (.ok l, s1) := p
    rw [a1] at hq
    obtain ⟨b1, b2⟩ := brentq_bracket hb (by linarith) hq
    have d' : s'.td = l := by rw [e]
    rcases tt with t | t
    · refine .inr ⟨t, .inr ⟨m', ?_, ?_⟩⟩ <;> rw [d'] <;> linarith
    · have := key.2.2 (t0.trans t)
      rw [m] at this
      exact absurd this (by simp)

/-! ## C22 -/

/-- What `calc_segments` returns when it returns: the touchdown computation
succeeded and the lists are those of the system. -/
theorem calcSegments_ok {num : Numerics} {li mi : List ℝ} {ki k0 : List Bool} {L a m phi cf ratio : ℝ} {s s' : Self}
    {g : Segments} (h : calcSegments num li mi ki k0 L a m phi cf ratio s = (.ok g, s')) :
    s.hasContact = true ∧ calcTouchdownSystem num L a cf phi ratio s = (.ok (), s') ∧
    ((s'.system = "skiers" ∧ g = ⟨li, mi, ki, k0⟩) ∨
     (s'.system = "pst-" ∧ g = ⟨[L - s'.a, s'.td], [0], [true, false], [true, true]⟩) ∨
     (s'.system = "-pst" ∧ g = ⟨[s'.td, L - s'.a], [0], [false, true], [true, true]⟩) ∨
     (s'.system = "vpst-" ∧ g = ⟨[L - a, a], [0], [true, false], [true, true]⟩) ∨
     (s'.system = "-vpst" ∧ g = ⟨[a, L - a], [0], [false, true], [true, true]⟩) ∨
     (s'.system = "skier" ∧ g = ⟨[(L - s'.a) / 2, s'.a / 2, s'.a / 2, (L - s'.a) / 2], [0, m, 0],
        [true, false, false, true], [true, true, true, true]⟩)) := by
  unfold calcSegments at h
  rw [Py.get_bind] at h
  by_cases hc : s.hasContact = true
  swap
  · rw [if_neg hc] at h
    simp at h
  rw [if_pos hc] at h
  obtain ⟨u, s1, h1, h⟩ := Py.bind_ok.mp h
  rw [Py.get_bind] at h
  refine ⟨hc, ?_⟩
  split_ifs at h with c1 c2 c3 c4 c5 c6
  all_goals first
    | (simp only [Py.pure_apply, Prod.mk.injEq, Except.ok.injEq] at h
       obtain ⟨rfl, rfl⟩ := h
       refine ⟨h1, ?_⟩
       tauto)
    | (simp at h)

/-- Length without support among the segments. -/
def openLength (li : List ℝ) (ki : List Bool) : ℝ :=
  ((li.zip ki).map fun q => if q.2 then 0 else q.1).sum

/-- C22, shape and lengths. For every system built by `calc_segments` itself the
four lists fit together, everything is supported in the uncracked state, the
lengths add up to `L` with unsupported length `a`; a PST in stage C ends at the
touchdown point: total length `L - a + td`, unsupported length `td`. -/
theorem C22_segments (num : Numerics) (li mi : List ℝ) (ki k0 : List Bool) (L a m phi cf ratio : ℝ) (s s' : Self)
    (g : Segments) (hf : EigFresh num.eig s) (hsk : s.system ≠ "skiers")
    (h : calcSegments num li mi ki k0 L a m phi cf ratio s = (.ok g, s')) :
    g.ki.length = g.li.length ∧ g.k0.length = g.li.length ∧ g.mi.length + 1 = g.li.length ∧
    (∀ b ∈ g.k0, b = true) ∧ g.mi.sum = (if s.system = "skier" then m else 0) ∧
    g.li.sum = (if IsPst s then L - a + s'.td else L) ∧ openLength g.li g.ki = (if IsPst s then s'.td else a) ∧
    (s'.mode ≠ .C → s'.td = a) := by
  obtain ⟨-, ht, hg⟩ := calcSegments_ok h
  have hfr := (C25_touchdown_system_frame num L a cf phi ratio s s' hf ht).1
  have hsys : s'.system = s.system := by rw [hfr]; rfl
  have ha : s'.a = a := by rw [hfr]; rfl
  have htd : s'.mode ≠ .C → s'.td = a := by
    intro hm
    unfold calcTouchdownSystem at ht
    rw [Py.modify_bind] at ht
    obtain ⟨u, s1, h1, h2⟩ := Py.bind_ok.mp ht
    have hf1 := setTouchdownAttributes_fresh hf L a cf phi ratio
    have e1 := C25_touchdown_mode_frame num _ s1 hf1 h1
    have hf2 : EigFresh num.eig s1 := by
      rw [e1]
      exact hf1.stage _ s1.mode _ _ _ _ _ _
    rcases touchdownLength_ok hf2 h2 with ⟨m0, -⟩ | ⟨m0, e⟩ | ⟨m0, l, p, e⟩
    · exfalso
      rcases touchdownMode_ok hf1 h1 with ⟨-, e⟩ | ⟨-, x1, x2, -, -, ⟨-, e⟩ | ⟨-, -, e⟩ | ⟨-, -, e⟩⟩ <;>
        rw [e] at m0 <;> simp at m0
    · rw [e]; show s1.a = a; rw [e1]; rfl
    · exfalso; apply hm; rw [e]; exact m0
  have td' := htd
  rw [hsys, ha] at hg
  rcases hg with ⟨c, -⟩ | ⟨c, rfl⟩ | ⟨c, rfl⟩ | ⟨c, rfl⟩ | ⟨c, rfl⟩ | ⟨c, rfl⟩
  · exact absurd c hsk
  all_goals
    have hp : IsPst s ↔ (s.system = "pst-" ∨ s.system = "-pst") := Iff.rfl
    refine ⟨rfl, rfl, rfl, by simp, ?_, ?_, ?_, htd⟩ <;> simp [hp, c, openLength] <;> ring

/-- C22, user lists. For `skiers` the lists of the caller are returned. -/
theorem C22_skiers (num : Numerics) (li mi : List ℝ) (ki k0 : List Bool) (L a m phi cf ratio : ℝ) (s s' : Self)
    (g : Segments) (hf : EigFresh num.eig s) (hsk : s.system = "skiers")
    (h : calcSegments num li mi ki k0 L a m phi cf ratio s = (.ok g, s')) : g = ⟨li, mi, ki, k0⟩ := by
  obtain ⟨-, ht, hg⟩ := calcSegments_ok h
  have hfr := (C25_touchdown_system_frame num L a cf phi ratio s s' hf ht).1
  have hsys : s'.system = s.system := by rw [hfr]; rfl
  rw [hsys, hsk] at hg
  rcases hg with ⟨-, hg⟩ | ⟨c, -⟩ | ⟨c, -⟩ | ⟨c, -⟩ | ⟨c, -⟩ | ⟨c, -⟩
  · exact hg
  all_goals exact absurd c (by decide)

/-- C22, unknown systems. Once the touchdown computation is through, an unknown
system raises `ValueError`. -/
theorem C22_unknown_system (num : Numerics) (li mi : List ℝ) (ki k0 : List Bool) (L a m phi cf ratio : ℝ) (s s' : Self)
    (hf : EigFresh num.eig s) (hc : s.hasContact = true)
    (hs : s.system ∉ ["skiers", "skier", "pst-", "-pst", "vpst-", "-vpst"])
    (h : calcTouchdownSystem num L a cf phi ratio s = (.ok (), s')) :
    calcSegments num li mi ki k0 L a m phi cf ratio s = (.error .valueError, s') := by
  have hfr := (C25_touchdown_system_frame num L a cf phi ratio s s' hf h).1
  have hsys : s'.system = s.system := by rw [hfr]; rfl
  simp only [List.mem_cons, List.not_mem_nil, or_false, not_or] at hs
  obtain ⟨c1, c2, c3, c4, c5, c6⟩ := hs
  unfold calcSegments
  rw [Py.get_bind, if_pos hc, Py.bind_of_ok h, Py.get_bind, hsys, if_neg c1, if_neg c3, if_neg c4, if_neg c5,
    if_neg c6, if_neg c2]
  rfl

/-- C22, use. What `calc_segments` builds is accepted by `assemble_and_solve`:
the lists are valid for the system, and for `0 < a < L` they contain a supported
segment of positive length and no negative one. -/
theorem C22_accepted (num : Numerics) (hb : BrentOk num) (li mi : List ℝ) (ki k0 : List Bool) (L a m phi cf ratio : ℝ) (s s' : Self)
    (g : Segments) (hf : EigFresh num.eig s) (hsk : s.system ≠ "skiers") (ha : 0 ≤ a) (hL : a < L)
    (h : calcSegments num li mi ki k0 L a m phi cf ratio s = (.ok g, s')) :
    Valid s' ⟨g.li, g.mi, g.ki⟩ ∧ Supported ⟨g.li, g.mi, g.ki⟩ ∧ g.li.length ≠ 1 := by
  obtain ⟨-, ht, hg⟩ := calcSegments_ok h
  have hfr := (C25_touchdown_system_frame num L a cf phi ratio s s' hf ht).1
  have hsys : s'.system = s.system := by rw [hfr]; rfl
  have hsa : s'.a = a := by rw [hfr]; rfl
  have htd : 0 ≤ s'.td := by
    rcases C24_touchdown_length num hb L a cf phi ratio (by linarith) s s' hf ht with ⟨-, -, e⟩ |
      ⟨-, ⟨-, e⟩ | ⟨-, e, -⟩⟩
    · rw [e]; exact ha
    · rw [e]; exact ha
    · exact e.le
  rw [hsa] at hg
  have hfin : ∀ x, s'.system = x → finiteSystem x → finiteSystem s'.system := fun x h1 h2 => by rw [h1]; exact h2
  rcases hg with ⟨c, -⟩ | ⟨c, rfl⟩ | ⟨c, rfl⟩ | ⟨c, rfl⟩ | ⟨c, rfl⟩ | ⟨c, rfl⟩
  · exact absurd (hsys ▸ c) hsk
  · refine ⟨⟨by simp, rfl, rfl, fun hn => absurd (hfin _ c (by decide)) hn⟩, ⟨?_, 0, by simp, by simp, ?_⟩, by simp⟩
    · intro l hl; simp only [List.mem_cons, List.not_mem_nil, or_false] at hl
      rcases hl with rfl | rfl <;> linarith
    · simp [nth]; linarith
  · refine ⟨⟨by simp, rfl, rfl, fun hn => absurd (hfin _ c (by decide)) hn⟩, ⟨?_, 1, by simp, by simp, ?_⟩, by simp⟩
    · intro l hl; simp only [List.mem_cons, List.not_mem_nil, or_false] at hl
      rcases hl with rfl | rfl <;> linarith
    · simp [nth]; linarith
  · refine ⟨⟨by simp, rfl, rfl, fun hn => absurd (hfin _ c (by decide)) hn⟩, ⟨?_, 0, by simp, by simp, ?_⟩, by simp⟩
    · intro l hl; simp only [List.mem_cons, List.not_mem_nil, or_false] at hl
      rcases hl with rfl | rfl <;> linarith
    · simp [nth]; linarith
  · refine ⟨⟨by simp, rfl, rfl, fun hn => absurd (hfin _ c (by decide)) hn⟩, ⟨?_, 1, by simp, by simp, ?_⟩, by simp⟩
    · intro l hl; simp only [List.mem_cons, List.not_mem_nil, or_false] at hl
      rcases hl with rfl | rfl <;> linarith
    · simp [nth]; linarith
  · refine ⟨⟨by simp, rfl, rfl, fun _ => by simp⟩, ⟨?_, 0, by simp, by simp, ?_⟩, by simp⟩
    · intro l hl; simp only [List.mem_cons, List.not_mem_nil, or_false] at hl
      rcases hl with rfl | rfl | rfl | rfl <;> linarith
    · simp [nth]; linarith

/-- C24, order of the limits. Where the polynomial of `calc_a1` vanishes the
polynomial of `calc_a2` is negative: the crack length at which the slab touches
down is not yet the one at which it comes to rest flat. -/
theorem C24_limits_ordered (eig : EigSolver) (bs ss L tc qn x kR kN : ℝ) (s s' s1 : Self) (y : ℝ) (hx : 0 < x)
    (hbs : 0 < bs) (hss : 0 < ss) (hq : 0 < qn) (hkR : 0 < kR) (hkN : 0 < kN)
    (hR : substituteStiffness eig (L - x) false .rot s = (.ok kR, s))
    (hN : substituteStiffness eig (L - x) false .trans s = (.ok kN, s))
    (h1 : polyA1 eig bs ss L tc qn x s = (.ok 0, s')) (h2 : polyA2 eig bs ss L tc qn x s = (.ok y, s1)) : y < 0 := by
  unfold polyA1 at h1
  unfold polyA2 at h2
  rw [Py.bind_of_ok hR, Py.bind_of_ok hN] at h1 h2
  simp only [Py.pure_apply, Prod.mk.injEq, Except.ok.injEq] at h1 h2
  obtain ⟨h1, -⟩ := h1
  obtain ⟨h2, -⟩ := h2
  have ht : tc = qn * (1 / (8 * bs) * x ^ 4 + 1 / (2 * kR) * x ^ 3 + 1 / (2 * ss) * x ^ 2 + 1 / kN * x) := by
    have : tc / qn = 1 / (8 * bs) * x ^ 4 + 1 / (2 * kR) * x ^ 3 + 1 / (2 * ss) * x ^ 2 + 1 / kN * x := by
      rw [neg_div] at h1; linarith
    rw [div_eq_iff hq.ne'] at this
    rw [this]; ring
  have hy : y = -(qn * (8 * ss ^ 2 * kR * kN * x ^ 6 + 48 * bs * ss ^ 2 * kN * x ^ 5 + 24 * bs * ss * kR * kN * x ^ 4
      + 72 * bs ^ 2 * ss ^ 2 * kN / kR * x ^ 4 + 24 * bs * ss ^ 2 * kR * x ^ 3 + 72 * bs ^ 2 * ss * kN * x ^ 3
      + 72 * bs ^ 2 * ss ^ 2 * x ^ 2)) := by
    rw [← h2, ht]
    field_simp
    ring
  rw [hy, neg_lt_zero]
  positivity

/-! ## C23 -/

/-- Height of the collapsed weak layer above which the slab does not sink: the
share `cf` of the weak-layer thickness less the settlement under the load at
inclination `phi`. -/
noncomputable def Spec.collapseHeight (s : Self) (cf phi : ℝ) : ℝ :=
  cf * s.t - ((s.loads phi).qn + (s.loads phi).pn) / s.kn

/-- C23, what is used: `tc` belongs to the inclination of the previous call. -/
theorem C23_tc_of_previous_inclination (num : Numerics) (L a cf phi ratio : ℝ) (s s' : Self)
    (hf : EigFresh num.eig s) (h : calcTouchdownSystem num L a cf phi ratio s = (.ok (), s')) :
    s'.tc = Spec.collapseHeight s cf s.phi ∧ s'.phi = phi := by
  obtain ⟨h1, h2⟩ := C25_touchdown_system_frame num L a cf phi ratio s s' hf h
  exact ⟨h2, by rw [h1]; rfl⟩

theorem mode_congr (num : Numerics) (s : Self) (hf : EigFresh num.eig s) (mode : Mode) (td : ℝ) :
    (calcTouchdownMode num (s.stage s.system mode s.L s.a s.tc td s.phi s.ratio)).1 = (calcTouchdownMode num s).1 ∧
    ∀ s1, calcTouchdownMode num s = (.ok (), s1) → s1.mode ≠ .unset ∧
      calcTouchdownMode num (s.stage s.system mode s.L s.a s.tc td s.phi s.ratio)
        = (.ok (), s1.stage s1.system s1.mode s1.L s1.a s1.tc td s1.phi s1.ratio) := by
  set s' := s.stage s.system mode s.L s.a s.tc td s.phi s.ratio with hs'
  obtain ⟨l1, l2⟩ := limits_same num s hf mode s.a td
  rw [← hs'] at l1 l2
  have ht : s'.touchdown = s.touchdown := rfl
  have ha : s'.a = s.a := rfl
  by_cases c : s.touchdown = true
  swap
  · have c0 : s.touchdown = false := by simpa using c
    have e1 := (C24_stage_total num s).1 c0
    have e2 := (C24_stage_total num s').1 (ht.trans c0)
    rw [e1, e2]
    refine ⟨rfl, fun s1 h => ?_⟩
    simp only [Prod.mk.injEq, true_and] at h
    rw [← h]
    exact ⟨by simp, rfl⟩
  · have key : ∀ t : Self, t.touchdown = true → calcTouchdownMode num t
        = (calcA1 num >>= fun a1 => calcA2 num >>= fun a2 => Py.get >>= fun s =>
            if s.a ≤ a1 then Py.modify fun s => { s with mode := .A }
            else if a1 < s.a ∧ s.a ≤ a2 then Py.modify fun s => { s with mode := .B }
            else if a2 < s.a then Py.modify fun s => { s with mode := .C } else Py.raise .unboundLocalError) t := by
      intro t htt
      unfold calcTouchdownMode
      rw [Py.get_bind, if_pos htt]
    rcases h1 : calcA1 num s with ⟨e | a1, t⟩
    · rcases h1' : calcA1 num s' with ⟨e' | a1', t'⟩
      · have v := l1.val
        rw [h1, h1'] at v
        rw [key s c, key s' (ht.trans c), Py.bind_of_error h1, Py.bind_of_error h1']
        exact ⟨by cases v; rfl, fun s1 h => by simp at h⟩
      · have v := l1.val
        rw [h1, h1'] at v
        cases v
    · have v := l1.val
      rw [h1] at v
      have h1' : calcA1 num s' = (.ok a1, s') := by
        rcases h' : calcA1 num s' with ⟨e' | a1', t'⟩
        · rw [h'] at v; cases v
        · rw [h'] at v; cases v
          rw [l1.frame' _ _ h']
      have et := l1.frame _ _ h1
      subst et
      rcases h2 : calcA2 num t with ⟨e | a2, u⟩
      · rcases h2' : calcA2 num s' with ⟨e' | a2', t'⟩
        · have v := l2.val
          rw [h2, h2'] at v
          rw [key t c, key s' (ht.trans c), Py.bind_of_ok h1, Py.bind_of_ok h1', Py.bind_of_error h2, Py.bind_of_error h2']
          exact ⟨by cases v; rfl, fun s1 h => by simp at h⟩
        · have v := l2.val
          rw [h2, h2'] at v
          cases v
      · have v := l2.val
        rw [h2] at v
        have h2' : calcA2 num s' = (.ok a2, s') := by
          rcases h' : calcA2 num s' with ⟨e' | a2', t'⟩
          · rw [h'] at v; cases v
          · rw [h'] at v; cases v
            rw [l2.frame' _ _ h']
        have et := l2.frame _ _ h2
        subst et
        have e1 := (C24_stage_total num u).2 a1 a2 c h1 h2
        have e2 := (C24_stage_total num s').2 a1 a2 (ht.trans c) h1' h2'
        rw [e1, e2, ha]
        refine ⟨rfl, fun s1 h => ?_⟩
        simp only [Prod.mk.injEq, true_and] at h
        rw [← h]
        refine ⟨?_, rfl⟩
        show (if u.a ≤ a1 then Mode.A else if u.a ≤ a2 then Mode.B else Mode.C) ≠ Mode.unset
        split_ifs <;> simp

theorem length_congr (num : Numerics) (s : Self) (hf : EigFresh num.eig s) (hm : s.mode ≠ .unset) (td : ℝ) :
    (calcTouchdownLength num (s.stage s.system s.mode s.L s.a s.tc td s.phi s.ratio)).1 = (calcTouchdownLength num s).1 ∧
    ∀ s1, calcTouchdownLength num s = (.ok (), s1) →
      calcTouchdownLength num (s.stage s.system s.mode s.L s.a s.tc td s.phi s.ratio) = (.ok (), s1) := by
  have l1 := lC_same num s hf s.mode td
  set s' := s.stage s.system s.mode s.L s.a s.tc td s.phi s.ratio with hs'
  have hmm : s'.mode = s.mode := rfl
  unfold calcTouchdownLength
  rw [Py.get_bind, Py.get_bind, hmm]
  have hcase : s.mode = .A ∨ s.mode = .B ∨ s.mode = .C := by
    revert hm; generalize s.mode = md; rcases md <;> simp
  rcases hcase with c | c | c
  · simp only [c]
    refine ⟨rfl, fun s1 h => ?_⟩
    simp only [Py.modify_apply, Prod.mk.injEq, true_and] at h ⊢
    rw [← h, hs']; rfl
  · simp only [c]
    refine ⟨rfl, fun s1 h => ?_⟩
    simp only [Py.modify_apply, Prod.mk.injEq, true_and] at h ⊢
    rw [← h, hs']; rfl
  · simp only [c]
    rcases h1 : calcLC num s with ⟨e | l, t⟩
    · rcases h1' : calcLC num s' with ⟨e' | l', t'⟩
      · have v := l1.val
        rw [h1, h1'] at v
        rw [Py.bind_of_error h1, Py.bind_of_error h1']
        exact ⟨by cases v; rfl, fun s1 h => by simp at h⟩
      · have v := l1.val
        rw [h1, h1'] at v
        cases v
    · have v := l1.val
      rw [h1] at v
      have h1' : calcLC num s' = (.ok l, s') := by
        rcases h' : calcLC num s' with ⟨e' | a1', t'⟩
        · rw [h'] at v; cases v
        · rw [h'] at v; cases v
          rw [l1.frame' _ _ h']
      have et := l1.frame _ _ h1
      subst et
      rw [Py.bind_of_ok h1, Py.bind_of_ok h1']
      refine ⟨rfl, fun s1 h => ?_⟩
      simp only [Py.modify_apply, Prod.mk.injEq, true_and] at h ⊢
      rw [← h, hs']; rfl

/-- C23, part that holds. Two histories of the same object that end with the same
stored inclination: whatever else they left behind (stage, lengths, collapse
height, touchdown length, stiffness ratio), `calc_segments` returns the same
segments or raises the same exception, and the objects agree afterwards. Missing
for the full statement: histories that end with different inclinations, for
which it is false, see `C23_violated`. -/
theorem C23_history_partial (num : Numerics) (li mi : List ℝ) (ki k0 : List Bool) (L a m phi cf ratio : ℝ) (s : Self)
    (hf : EigFresh num.eig s) (mode : Mode) (L' a' tc' td' ratio' : ℝ) :
    let s' := s.stage s.system mode L' a' tc' td' s.phi ratio'
    (calcSegments num li mi ki k0 L a m phi cf ratio s').1 = (calcSegments num li mi ki k0 L a m phi cf ratio s).1 ∧
    ∀ g t, calcSegments num li mi ki k0 L a m phi cf ratio s = (.ok g, t) →
      calcSegments num li mi ki k0 L a m phi cf ratio s' = (.ok g, t) := by
  intro s'
  have htd : (calcTouchdownSystem num L a cf phi ratio s').1 = (calcTouchdownSystem num L a cf phi ratio s).1 ∧
      ∀ t, calcTouchdownSystem num L a cf phi ratio s = (.ok (), t) →
        calcTouchdownSystem num L a cf phi ratio s' = (.ok (), t) := by
    have hf0 := setTouchdownAttributes_fresh hf L a cf phi ratio
    unfold calcTouchdownSystem
    rw [Py.modify_bind, Py.modify_bind]
    have e0 : setTouchdownAttributes L a cf phi ratio s' = (setTouchdownAttributes L a cf phi ratio s).stage
        (setTouchdownAttributes L a cf phi ratio s).system mode (setTouchdownAttributes L a cf phi ratio s).L
        (setTouchdownAttributes L a cf phi ratio s).a (setTouchdownAttributes L a cf phi ratio s).tc td'
        (setTouchdownAttributes L a cf phi ratio s).phi (setTouchdownAttributes L a cf phi ratio s).ratio := rfl
    rw [e0]
    generalize setTouchdownAttributes L a cf phi ratio s = s0 at *
    obtain ⟨v, hv⟩ := mode_congr num s0 hf0 mode td'
    set s0' := s0.stage s0.system mode s0.L s0.a s0.tc td' s0.phi s0.ratio
    rcases h1 : calcTouchdownMode num s0 with ⟨e | u, s1⟩
    · rw [h1] at v
      rcases h1' : calcTouchdownMode num s0' with ⟨e' | u', s1'⟩
      · rw [h1'] at v
        rw [Py.bind_of_error h1, Py.bind_of_error h1']
        exact ⟨v, fun t h => by simp at h⟩
      · rw [h1'] at v; cases v
    · obtain ⟨hm, h1'⟩ := hv s1 h1
      have e1 := C25_touchdown_mode_frame num s0 s1 hf0 h1
      have hf1 : EigFresh num.eig s1 := by
        rw [e1]
        exact hf0.stage s0.system s1.mode s0.L s0.a s0.tc s0.td s0.phi s0.ratio
      rw [Py.bind_of_ok h1, Py.bind_of_ok h1']
      exact length_congr num s1 hf1 hm td'
  have hcc : s'.hasContact = s.hasContact := rfl
  unfold calcSegments
  rw [Py.get_bind, Py.get_bind, hcc]
  by_cases hc : s.hasContact = true
  swap
  · rw [if_neg hc]
    exact ⟨rfl, fun g t h => by simp at h⟩
  rw [if_pos hc]
  rcases h1 : calcTouchdownSystem num L a cf phi ratio s with ⟨e | u, s1⟩
  · have v := htd.1
    rw [h1] at v
    rcases h1' : calcTouchdownSystem num L a cf phi ratio s' with ⟨e' | u', s1'⟩
    · rw [h1'] at v
      rw [Py.bind_of_error h1, Py.bind_of_error h1']
      exact ⟨by cases v; rfl, fun g t h => by simp at h⟩
    · rw [h1'] at v; cases v
  · have h1' := htd.2 s1 h1
    rw [Py.bind_of_ok h1, Py.bind_of_ok h1']
    exact ⟨rfl, fun g t h => h⟩

/-- C23, repetition. The second of two identical calls uses the height that
belongs to its inclination, and from then on further identical calls change
nothing. -/
theorem C23_repeat (num : Numerics) (li mi : List ℝ) (ki k0 : List Bool) (L a m phi cf ratio : ℝ) (s s1 s2 : Self)
    (g1 g2 : Segments) (hf : EigFresh num.eig s) (h1 : calcSegments num li mi ki k0 L a m phi cf ratio s = (.ok g1, s1))
    (h2 : calcSegments num li mi ki k0 L a m phi cf ratio s1 = (.ok g2, s2)) :
    s2.tc = Spec.collapseHeight s cf phi ∧
    calcSegments num li mi ki k0 L a m phi cf ratio s2 = (.ok g2, s2) := by
  obtain ⟨-, t1, -⟩ := calcSegments_ok h1
  obtain ⟨-, t2, -⟩ := calcSegments_ok h2
  have f1 := (C25_touchdown_system_frame num L a cf phi ratio s s1 hf t1).1
  have hf1 : EigFresh num.eig s1 := by rw [f1]; exact hf.stage _ s1.mode _ _ _ _ _ _
  have f2 := (C25_touchdown_system_frame num L a cf phi ratio s1 s2 hf1 t2).1
  obtain ⟨c2, -⟩ := C23_tc_of_previous_inclination num L a cf phi ratio s1 s2 hf1 t2
  have hp : s1.phi = phi := by rw [f1]; rfl
  constructor
  · rw [c2, hp, f1]; rfl
  · have e : s2 = s1.stage s1.system s2.mode L a s2.tc s2.td s1.phi ratio := by rw [hp]; exact f2
    have := (C23_history_partial num li mi ki k0 L a m phi cf ratio s1 hf1 s2.mode L a s2.tc s2.td ratio).2 g2 s2 h2
    rw [← e] at this
    exact this

/-- Without touchdown the computation always succeeds. -/
theorem touchdownSystem_off (num : Numerics) (L a cf phi ratio : ℝ) (s : Self) (ht : s.touchdown = false) :
    calcTouchdownSystem num L a cf phi ratio s
      = (.ok (), s.stage s.system .A L a (Spec.collapseHeight s cf s.phi) a phi ratio) := by
  unfold calcTouchdownSystem
  rw [Py.modify_bind]
  have t0 : (setTouchdownAttributes L a cf phi ratio s).touchdown = false := ht
  rw [Py.bind_of_ok ((C24_stage_total num _).1 t0)]
  unfold calcTouchdownLength
  rw [Py.get_bind]
  rfl

/-- C23, without touchdown. Segments and stage depend on the arguments alone,
whatever the history; only the collapse height, which is not used then, keeps a
trace of it. -/
theorem C23_no_touchdown (num : Numerics) (li mi : List ℝ) (ki k0 : List Bool) (L a m phi cf ratio : ℝ) (s : Self)
    (ht : s.touchdown = false) (mode : Mode) (L' a' tc' td' phi' ratio' : ℝ) :
    let s' := s.stage s.system mode L' a' tc' td' phi' ratio'
    (calcSegments num li mi ki k0 L a m phi cf ratio s').1 = (calcSegments num li mi ki k0 L a m phi cf ratio s).1 ∧
    ∀ tc, { (calcSegments num li mi ki k0 L a m phi cf ratio s').2 with tc := tc }
      = if s.hasContact then { (calcSegments num li mi ki k0 L a m phi cf ratio s).2 with tc := tc }
        else { s' with tc := tc } := by
  intro s'
  have hcc : s'.hasContact = s.hasContact := rfl
  unfold calcSegments
  rw [Py.get_bind, Py.get_bind, hcc]
  by_cases hc : s.hasContact = true
  swap
  · rw [if_neg hc]
    exact ⟨rfl, fun tc => by rw [if_neg hc]; rfl⟩
  rw [if_pos hc, Py.bind_of_ok (touchdownSystem_off num L a cf phi ratio s ht),
    Py.bind_of_ok (touchdownSystem_off num L a cf phi ratio s' ht), Py.get_bind, Py.get_bind]
  have hs : (s'.stage s'.system .A L a (Spec.collapseHeight s' cf s'.phi) a phi ratio).system = s.system := rfl
  have hs2 : (s.stage s.system .A L a (Spec.collapseHeight s cf s.phi) a phi ratio).system = s.system := rfl
  simp only [hs, hs2]
  refine ⟨?_, fun tc => ?_⟩
  · split_ifs <;> rfl
  · rw [if_pos hc]
    split_ifs <;> rfl

end Weac
