import Verif.Props.OtherSolution
import Verif.Props.Coupled
import Verif.Props.TouchdownRuns

/-!
# Verdicts for any choice of the eigenvectors (C86)
-/

namespace Weac

open Spec

/-- Two runs with the same fields. -/
structure Skier.Peer (e e' : Eigs) (T : Mat6) (r r' : Skier) : Prop where
  swap : Swap e e' r.skier r'.skier
  field : SameField T r.segments.ki r.C r'.C
  rest : r' = { r with skier := r'.skier, C := r'.C }

/-- Two runs with the same fields, for some choice of eigenvectors. -/
def Skier.Same (r r' : Skier) : Prop := ∃ e e' T T', Blend e e' T T' ∧ Skier.Peer e e' T r r'

section
variable {num num' : Numerics} {K Kr : Mat6} {T T' Tr Tr' : Mat6} (hB : Blend (eigsOf num.eig K) (eigsOf num'.eig K) T T')
  (hBr : Blend (eigsOf num.eig Kr) (eigsOf num'.eig Kr) Tr Tr') (hb : num'.brent = num.brent)
include hB hBr hb

theorem swap_solveSkier (phi : ℝ) (li mi : List ℝ) (ki : List Bool) (case : CrackCase) :
    Runs (Before num.eig num'.eig K Kr 1000) (Peer num.eig num'.eig K Kr 1000) (Skier.Peer (eigsOf num.eig K) (eigsOf num'.eig K) T)
      (solveSkier num phi li mi ki case) (solveSkier num' phi li mi ki case) := by
  unfold solveSkier
  refine Runs.bind (swap_segments hB hBr hb _ _ _ _ _ _ _ _ _) fun g g' hg => ?_
  subst hg
  refine Runs.bind (swap_assemble hB hBr _ _ _) fun o o' ho => Runs.read fun s s' h => ?_
  obtain ⟨C, b⟩ := o
  obtain ⟨C', b'⟩ := o'
  obtain ⟨rfl, f, -⟩ := ho
  have h0 := h.toSwap
  have e := swap_rasterize hB h0 (same_segs f b'.li) phi 800
  dsimp only [Skier.segs]
  rw [e]
  refine Runs.bind (P := (· = ·)) (Runs.lift (ResRel.of_eq rfl)) fun p p' hp => ?_
  subst hp
  obtain ⟨h1, rfl⟩ := h0
  refine Runs.bind (P := (· = ·)) (Runs.lift (ResRel.of_eq rfl)) fun q q' hq => ?_
  subst hq
  refine Runs.bind (P := (· = ·)) (Runs.lift (ResRel.of_eq rfl)) fun q q' hq => ?_
  subst hq
  exact Runs.pure ⟨⟨h1, rfl⟩, f, rfl⟩

end

theorem Runs.res {α : Type} {R R' : Self → Self → Prop} {Q : α → α → Prop} {m m' : Py α} (h : Runs R R' Q m m') {s s' : Self} (hs : R s s') :
    ResRel Q (m s).1 (m' s').1 := by
  have := h s s' hs
  rcases hm : m s with ⟨r, t⟩
  rcases hm' : m' s' with ⟨r', t'⟩
  rw [hm, hm'] at this
  cases r <;> cases r'
  · exact this
  · exact this.elim
  · exact this.elim
  · exact this.1

/-- Sites with a valid slab and weak layer. -/
structure Sound (site : Site) : Prop where
  plies : ValidPlies site.profile
  t : 0 < site.t
  E : 0 < site.E

section
variable {num num' : Numerics} (h : Rivals num num')
include h

theorem other_createSkier {site : Site} (hs : Sound site) : ∃ e e' T T', Blend e e' T T' ∧ ∀ w li ki case,
    ResRel (Skier.Peer e e' T) (createSkierObject num site w li ki case) (createSkierObject num' site w li ki case) := by
  obtain ⟨s, h1, h2, -⟩ := siteObject_ready num.eig site hs.plies hs.t hs.E
  have h1' : siteObject num'.eig site = .ok (calcEigensystem num'.eig s) := by
    unfold siteObject at h1 ⊢
    rw [layered_other num.eig num'.eig]
    cases hl : layeredInit num.eig "skiers" (.rows site.profile) false with
    | error e => rw [hl] at h1; cases h1
    | ok v =>
      rw [hl] at h1
      cases h1
      rfl
  obtain ⟨⟨T, T', hB⟩, Tr, Tr', hBr⟩ := ready_blends h.one h.two h2 1000 (by norm_num)
  refine ⟨_, _, T, T', hB, fun w li ki case => ?_⟩
  unfold createSkierObject
  rw [h1, h1']
  show ResRel _ (skierWeights w li ki >>= fun mi => (solveSkier num site.phi li mi ki case s).1)
    (skierWeights w li ki >>= fun mi => (solveSkier num' site.phi li mi ki case (calcEigensystem num'.eig s)).1)
  refine ResRel.bind (ResRel.of_eq rfl) fun m m' hm => ?_
  subst hm
  exact (swap_solveSkier hB hBr h.brent site.phi li m ki case).res (ready_before h2 num'.eig 1000)

theorem other_create {site : Site} (hs : Sound site) (w : ℝ) (li : List ℝ) (ki : List Bool) (case : CrackCase) :
    ResRel Skier.Same (createSkierObject num site w li ki case) (createSkierObject num' site w li ki case) := by
  obtain ⟨e, e', T, T', hB, hc⟩ := other_createSkier h hs
  have := hc w li ki case
  revert this
  cases createSkierObject num site w li ki case <;> cases createSkierObject num' site w li ki case
  · exact id
  · exact id
  · exact id
  · exact fun hr => ⟨e, e', T, T', hB, hr⟩

omit h in
theorem other_distances (env : Env) {r r' : Skier} (hr : Skier.Same r r') : distances env r' = distances env r := by
  obtain ⟨_, _, _, _, _, hr⟩ := hr
  rw [hr.rest]
  rfl

omit h in
theorem segmentLoop_lt (x : ℝ) (ls : List ℝ) (i : ℕ) (c : ℝ) {j : ℤ} {y : ℝ} (hj : segmentLoop x i c ls = (j, some y)) :
    j.toNat < i + ls.length := by
  induction ls generalizing i c with
  | nil => simp [segmentLoop] at hj
  | cons l ls ih =>
    unfold segmentLoop at hj
    split at hj
    · simp only [Prod.mk.injEq] at hj
      rw [← hj.1]
      simp
    · have := ih _ _ hj
      simp only [List.length_cons]
      omega

omit h in
theorem findSegmentIndex_lt {li : List ℝ} {x : ℝ} {j : ℤ} {y : ℝ} (hj : findSegmentIndex li x = (j, some y)) : j.toNat < li.length := by
  unfold findSegmentIndex at hj
  split at hj
  · rename_i h1
    simp only [Prod.mk.injEq] at hj
    rw [← hj.1, h1]
    simp
  · have := segmentLoop_lt x li 0 0 hj
    omega

omit h in
theorem other_sigmaTau {e e' : Eigs} {T T' : Mat6} (hB : Blend e e' T T') {r r' : Skier} (hr : Skier.Peer e e' T r r') (li : List ℝ)
    (hk : ∀ i < li.length, r.segments.ki.getD i false = true) (phi x : ℝ) :
    calculateSigmaTau r'.skier r'.C li phi x = calculateSigmaTau r.skier r.C li phi x := by
  unfold calculateSigmaTau
  rcases hf : findSegmentIndex li x with ⟨i, _ | xi⟩
  · rfl
  · dsimp only
    have h1 := hr.field.2 i.toNat
    rw [hk _ (findSegmentIndex_lt hf)] at h1
    rw [hB.zsol hr.swap h1]
    obtain ⟨-, h2⟩ := hr.swap
    rw [h2]
    rfl

theorem other_brentq (f : ℝ → Res ℝ) (s s' : Self) (b : ℝ × ℝ) :
    (brentq num' (fun x => Py.lift (f x)) b.1 b.2 s').1 = (brentq num (fun x => Py.lift (f x)) b.1 b.2 s).1 := by
  have lift : ∀ x, Runs (fun _ _ => True) (fun _ _ => True) (· = ·) (Py.lift (f x)) (Py.lift (f x)) := fun x =>
    Runs.lift (ResRel.of_eq rfl)
  have key : ∀ (n : ℕ) (next : List (ℝ × ℝ) → ℝ ⊕ ℝ) (l : List (ℝ × ℝ)), Runs (fun _ _ => True) (fun _ _ => True) (· = ·)
      (brentLoop next (fun x => Py.lift (f x)) n l) (brentLoop next (fun x => Py.lift (f x)) n l) := by
    intro n next
    induction n with
    | zero => exact fun l => Runs.raise _
    | succ n ih =>
      intro l
      unfold brentLoop
      cases next l with
      | inr r => exact Runs.pure rfl
      | inl x =>
        refine Runs.bind (lift x) fun y y' hy => ?_
        subst hy
        exact ih _
  refine Runs.eq (R := fun _ _ => True) (R' := fun _ _ => True) ?_ trivial
  unfold brentq
  rw [h.brent]
  refine Runs.bind (lift b.1) fun y y' hy => Runs.bind (lift b.2) fun w w' hw => ?_
  subst hy hw
  exact Runs.ite (Runs.pure rfl) (Runs.ite (Runs.pure rfl) (Runs.ite (Runs.raise _) (key _ _ _)))

theorem other_rootIn (f : ℝ → Res ℝ) (s s' : Self) (b : ℝ × ℝ) : rootIn num' f s' b = rootIn num f s b := by
  unfold rootIn
  rw [other_brentq h f s s' b]

theorem other_findRoots {e e' : Eigs} {T T' : Mat6} (hB : Blend e e' T T') {r r' : Skier} (hr : Skier.Peer e e' T r r') (env : Env)
    (li : List ℝ) (hk : ∀ i < li.length, r.segments.ki.getD i false = true) (phi : ℝ) :
    findRoots num' env phi li r' = findRoots num env phi li r := by
  have e1 : rootFunction env r'.skier r'.C li phi = rootFunction env r.skier r.C li phi := by
    funext x
    unfold rootFunction
    rw [other_sigmaTau hB hr li hk]
  have e2 : rootIn num' (rootFunction env r.skier r.C li phi) r'.skier = rootIn num (rootFunction env r.skier r.C li phi) r.skier := by
    funext b
    exact other_rootIn h _ _ _ _
  have e3 : r'.x = r.x := by rw [hr.rest]
  unfold findRoots
  rw [other_distances env ⟨e, e', T, T', hB, hr⟩, e1, e2, e3]

theorem other_anticrack {site : Site} (hs : Sound site) (w : ℝ) (li : List ℝ) :
    findNewAnticrackLength num' site w li = findNewAnticrackLength num site w li := by
  obtain ⟨e, e', T, T', hB, hc⟩ := other_createSkier h hs
  refine (ResRel.eq ?_).symm
  have h1 := hc w [li.sum / 2, li.sum / 2] [true, true] .nocrack
  unfold findNewAnticrackLength
  dsimp only
  revert h1
  cases hr : createSkierObject num site w [li.sum / 2, li.sum / 2] [true, true] .nocrack with
  | error e =>
    cases createSkierObject num' site w [li.sum / 2, li.sum / 2] [true, true] .nocrack with
    | error e' => exact id
    | ok r' => exact fun h => h.elim
  | ok r =>
    cases createSkierObject num' site w [li.sum / 2, li.sum / 2] [true, true] .nocrack with
    | error e' => exact fun h => h.elim
    | ok r' =>
      intro h1
      obtain ⟨-, -, h2, -⟩ := create_shape hs.plies hs.t hs.E hr
      have hk : ∀ i < [li.sum / 2, li.sum / 2].length, r.segments.ki.getD i false = true := by
        intro i hi
        rw [h2]
        simp only [List.length_cons, List.length_nil] at hi
        interval_cases i <;> rfl
      refine ResRel.of_eq ?_
      show (distances site.env r >>= _) = (distances site.env r' >>= _)
      rw [other_distances _ ⟨e, e', T, T', hB, h1⟩, other_findRoots h hB h1 _ _ hk]

end

/-- The same trial for two choices of the eigenvectors. -/
def Trial.Same (p q : Trial) : Prop := Skier.Same p.run q.run ∧ q = { p with run := q.run }

section
variable {num num' : Numerics} (h : Rivals num num')
include h

theorem other_trial {site : Site} (ho : Sound site) (li : List ℝ) (ki : List Bool) (w : ℝ) :
    ResRel (Trial.Same) (trial num site li ki w) (trial num' site li ki w) := by
  unfold trial
  refine ResRel.bind (other_create h ho w _ _ _) fun r r' hr => ?_
  rw [other_distances _ hr]
  refine ResRel.bind (ResRel.of_eq rfl) fun x y e => ?_
  subst e
  refine ResRel.bind (ResRel.of_eq rfl) fun x y e => ?_
  subst e
  refine ResRel.bind (ResRel.of_eq rfl) fun x y e => ?_
  subst e
  exact ⟨hr, rfl⟩

end

section
variable {eval eval' : ℝ → Res Trial} (he : ∀ w, ResRel (Trial.Same) (eval w) (eval' w))
include he

theorem other_forceLoop (next : Trial → ℝ) (hn : ∀ p q, Trial.Same p q → next p = next q) (tol : ℝ) (n : ℕ) {p q : Trial}
    (h : Trial.Same p q) :
    ResRel (fun a b => Trial.Same a.1 b.1 ∧ a.2 = b.2) (forceLoop eval next tol n p) (forceLoop eval' next tol n q) := by
  induction n generalizing p q with
  | zero => exact ⟨h, rfl⟩
  | succ n ih =>
    unfold forceLoop
    have e : q.distMax = p.distMax := by rw [h.2]
    rw [e, ← hn p q h]
    refine ResRel.ite (ResRel.bind (he _) fun a b hab => ih hab) ⟨h, rfl⟩

theorem other_dampenedForce (k : ℝ) :
    ResRel (fun a b => Trial.Same a.1 b.1 ∧ a.2 = b.2) (dampenedForce eval k) (dampenedForce eval' k) := by
  unfold dampenedForce
  refine ResRel.bind (he 1) fun p q h => ?_
  have e : q.distMin = p.distMin := by rw [h.2]
  rw [e]
  refine ResRel.ite ⟨h, rfl⟩ (other_forceLoop he _ (fun p q h => ?_) _ _ h)
  rw [h.2]

theorem other_minForceDampened (k : ℕ) : ResRel (Trial.Same) (minForceDampened eval k) (minForceDampened eval' k) := by
  induction k with
  | zero =>
    unfold minForceDampened
    refine ResRel.bind (other_dampenedForce he _) fun a b h => ?_
    obtain ⟨a1, a2⟩ := a
    obtain ⟨b1, b2⟩ := b
    obtain ⟨⟨h1, h2⟩, h3⟩ := h
    simp only at h1 h2 h3
    subst h3
    cases a2 with
    | false => exact ⟨h1, h2⟩
    | true =>
      refine ⟨h1, ?_⟩
      rw [h2]
      rfl
  | succ k ih =>
    unfold minForceDampened
    refine ResRel.bind (other_dampenedForce he _) fun a b h => ?_
    obtain ⟨a1, a2⟩ := a
    obtain ⟨b1, b2⟩ := b
    obtain ⟨h1, h3⟩ := h
    simp only at h1 h3
    subst h3
    exact ResRel.ite ih h1

theorem other_minForce : ResRel (Trial.Same) (minForce eval) (minForce eval') := by
  unfold minForce
  refine ResRel.bind (he 1) fun p q h => ?_
  have e : q.distMin = p.distMin := by rw [h.2]
  rw [e]
  refine ResRel.ite h (ResRel.bind (other_forceLoop he _ (fun p q h => ?_) _ _ h) fun a b h => ?_)
  · rw [h.2]
  · obtain ⟨a1, a2⟩ := a
    obtain ⟨b1, b2⟩ := b
    obtain ⟨h1, h3⟩ := h
    simp only at h1 h3
    subst h3
    exact ResRel.ite (other_minForceDampened he 4) h1

end

/-! ## Coupled criterion -/

/-- The same return value for two choices of the eigenvectors. -/
def Outcome.Same (o o' : Outcome) : Prop := Skier.Same o.run o'.run ∧ o' = { o with run := o'.run }

/-- Cracked solution and energy of the last pass. -/
def LastSame : Option (Skier × Option ℝ) → Option (Skier × Option ℝ) → Prop
  | none, none => True
  | some p, some q => Skier.Same p.1 q.1 ∧ p.2 = q.2
  | _, _ => False

/-- The same search for two choices of the eigenvectors. -/
def Search.Same (st st' : Search) : Prop := LastSame st.last st'.last ∧ st' = { st with last := st'.last }

/-- The search goes on or ends alike. -/
def StepSame : Search ⊕ Outcome → Search ⊕ Outcome → Prop
  | .inl st, .inl st' => Search.Same st st'
  | .inr o, .inr o' => Outcome.Same o o'
  | _, _ => False

section
variable {st st' : Search}

theorem Search.Same.err (h : Search.Same st st') : st'.err = st.err := by
  obtain ⟨h1, h2⟩ := h
  unfold Search.err
  cases e : st.last with
  | none =>
    cases e' : st'.last with
    | none => rfl
    | some q => rw [e, e'] at h1; exact h1.elim
  | some p =>
    cases e' : st'.last with
    | none => rw [e, e'] at h1; exact h1.elim
    | some q =>
      rw [e, e'] at h1
      simp only [h1.2]

theorem other_searchLoop {pass pass' : Search → Res (Search ⊕ Outcome)}
    (hp : ∀ st st', Search.Same st st' → ResRel (StepSame) (pass st) (pass' st')) (m n : ℕ) (h : Search.Same st st') :
    ResRel (StepSame) (searchLoop pass m n st) (searchLoop pass' m n st') := by
  induction n generalizing st st' with
  | zero => exact h
  | succ n ih =>
    unfold searchLoop
    have e : st'.goesOn m = st.goesOn m := by
      unfold Search.goesOn
      rw [h.err, h.2]
    rw [e]
    refine ResRel.ite (ResRel.bind (hp _ _ h) fun a b hab => ?_) h
    cases a with
    | inl a =>
      cases b with
      | inl b => exact ih hab
      | inr b => exact hab.elim
    | inr a =>
      cases b with
      | inl b => exact hab.elim
      | inr b => exact hab

theorem other_outcome (h : Search.Same st st') (r : Bool) (w x : ℝ) (l : List ℝ) :
    ResRel (Outcome.Same) (st.outcome r w x l) (st'.outcome r w x l) := by
  obtain ⟨h1, h2⟩ := h
  unfold Search.outcome
  cases e : st.last with
  | none =>
    cases e' : st'.last with
    | none => exact rfl
    | some q => rw [e, e'] at h1; exact h1.elim
  | some p =>
    cases e' : st'.last with
    | none => rw [e, e'] at h1; exact h1.elim
    | some q =>
      rw [e, e'] at h1
      obtain ⟨p1, p2⟩ := p
      obtain ⟨q1, q2⟩ := q
      obtain ⟨g1, g2⟩ := h1
      simp only at g1 g2
      subst g2
      refine ⟨g1, ?_⟩
      rw [h2]

end

section
variable {num num' : Numerics} (h : Rivals num num')
include h

theorem other_energyCheck (quad : Quad) {site : Site} (ho : Sound site) (w : ℝ) (li : List ℝ)
    (ki : List Bool) :
    ResRel (fun a b => Skier.Same a.1 b.1 ∧ Skier.Same a.2.1 b.2.1 ∧ a.2.2 = b.2.2)
      (energyCheck num quad site w li ki) (energyCheck num' quad site w li ki) := by
  obtain ⟨e, e', T, T', hB, hc⟩ := other_createSkier h ho
  unfold energyCheck
  dsimp only
  have h0 := hc w li (List.replicate ki.length true) .nocrack
  have h1 := hc w li ki .crack
  revert h0 h1
  cases hr : createSkierObject num site w li (List.replicate ki.length true) .nocrack with
  | error e =>
    cases createSkierObject num' site w li (List.replicate ki.length true) .nocrack with
    | error e' => exact fun h _ => h
    | ok r' => exact fun h => h.elim
  | ok r =>
    cases createSkierObject num' site w li (List.replicate ki.length true) .nocrack with
    | error e' => exact fun h => h.elim
    | ok r' =>
      cases hc : createSkierObject num site w li ki .crack with
      | error e =>
        cases createSkierObject num' site w li ki .crack with
        | error e' => exact fun _ h => h
        | ok c' => exact fun _ h => h.elim
      | ok c =>
        cases createSkierObject num' site w li ki .crack with
        | error e' => exact fun _ h => h.elim
        | ok c' =>
          intro h0 h1
          have k0 : r.segments.ki = List.replicate ki.length true := by
            rw [(create_shape ho.plies ho.t ho.E hr).2.2.1]
            simp [CrackCase.support]
          have f0 := h0.field
          rw [k0] at f0
          have e1 : c'.segments = c.segments := by rw [h1.rest]
          refine ⟨⟨e, e', T, T', hB, h0⟩, ⟨e, e', T, T', hB, h1⟩, ?_⟩
          dsimp only
          rw [e1, swap_ginc hB h1.swap quad site.phi (same_incSegs f0 h1.field _)]

theorem other_trackPass (quad : Quad) {site : Site} (ho : Sound site) {st st' : Search}
    (hs : Search.Same st st') :
    ResRel (Search.Same) (trackPass num quad site st) (trackPass num' quad site st') := by
  obtain ⟨h1, h2⟩ := hs
  rw [h2]
  unfold trackPass
  refine ResRel.bind (other_energyCheck h quad ho _ _ _) fun a b hab => ?_
  obtain ⟨r, k, g⟩ := a
  obtain ⟨r', k', g'⟩ := b
  obtain ⟨e1, e2, e3⟩ := hab
  simp only at e1 e2 e3
  subst e3
  simp only
  rw [other_distances _ e1]
  refine ResRel.bind (ResRel.of_eq rfl) fun x y e => ?_
  subst e
  refine ResRel.bind (ResRel.of_eq rfl) fun x y e => ?_
  subst e
  refine ResRel.bind (ResRel.of_eq rfl) fun x y e => ?_
  subst e
  exact ⟨⟨e2, rfl⟩, rfl⟩

theorem other_nextCrack {site : Site} (ho : Sound site) (w : ℝ) {st st' : Search}
    (hs : Search.Same st st') :
    ResRel (Search.Same) (nextCrack num site w st) (nextCrack num' site w st') := by
  unfold nextCrack
  rw [hs.err, other_anticrack h ho]
  have e : st'.li = st.li := by rw [hs.2]
  rw [e]
  refine ResRel.ite (ResRel.bind (ResRel.of_eq rfl) fun x y e => ?_) hs
  subst e
  refine ⟨hs.1, ?_⟩
  rw [hs.2]

omit h in
theorem other_narrow {st st' : Search} (hs : Search.Same st st') (g : Option ℝ) :
    Search.Same (narrow st g) (narrow st' g) := by
  unfold narrow
  obtain ⟨h1, h2⟩ := hs
  split
  · exact ⟨h1, by rw [h2]⟩
  · exact ⟨h1, by rw [h2]⟩

theorem other_coupledPass (quad : Quad) {site : Site} (ho : Sound site) (w : ℝ) {st st' : Search}
    (hs : Search.Same st st') :
    ResRel (StepSame) (coupledPass num quad site w st) (coupledPass num' quad site w st') := by
  unfold coupledPass
  refine ResRel.bind (other_trackPass h quad ho hs) fun t t' ht => ?_
  have ht0 := ht
  obtain ⟨h1, h2⟩ := ht
  cases e : t.last with
  | none =>
    cases e' : t'.last with
    | none => exact rfl
    | some q => rw [e, e'] at h1; exact h1.elim
  | some p =>
    cases e' : t'.last with
    | none => rw [e, e'] at h1; exact h1.elim
    | some q =>
      rw [e, e'] at h1
      obtain ⟨p1, p2⟩ := p
      obtain ⟨q1, q2⟩ := q
      obtain ⟨g1, g2⟩ := h1
      simp only at g1 g2
      subst g2
      have ew : t'.weights = t.weights := by rw [h2]
      have hn := other_narrow ht0 p2
      have em : (narrow t' p2).minW = (narrow t p2).minW := by rw [hn.2]
      have eM : (narrow t' p2).maxW = (narrow t p2).maxW := by rw [hn.2]
      simp only [ht0.err, ew, em, eM]
      refine ResRel.ite ?_ (ResRel.bind (other_nextCrack h ho _ hn) fun a b hab => hab)
      refine ⟨g1, ?_⟩
      rw [h2]

theorem other_dampenedPass (quad : Quad) {site : Site} (ho : Sound site) (k w : ℝ) {st st' : Search}
    (hs : Search.Same st st') :
    ResRel (StepSame) (dampenedPass num quad site k w st) (dampenedPass num' quad site k w st') := by
  unfold dampenedPass
  refine ResRel.bind (other_trackPass h quad ho hs) fun t t' ht => ?_
  have ht0 : Search.Same
      { t with distMaxs := t.distMaxs.dropLast ++ [t.distMax], distMins := t.distMins.dropLast ++ [t.distMin] }
      { t' with distMaxs := t'.distMaxs.dropLast ++ [t'.distMax], distMins := t'.distMins.dropLast ++ [t'.distMin] } :=
    ⟨ht.1, by rw [ht.2]⟩
  revert ht0
  generalize ({ t with distMaxs := t.distMaxs.dropLast ++ [t.distMax], distMins := t.distMins.dropLast ++ [t.distMin] } : Search) = v
  generalize ({ t' with distMaxs := t'.distMaxs.dropLast ++ [t'.distMax], distMins := t'.distMins.dropLast ++ [t'.distMin] } : Search) = v'
  intro ht0
  obtain ⟨h1, h2⟩ := id ht0
  cases e : v.last with
  | none =>
    cases e' : v'.last with
    | none => simp only [e, e']; exact rfl
    | some q => rw [e, e'] at h1; exact h1.elim
  | some p =>
    cases e' : v'.last with
    | none => rw [e, e'] at h1; exact h1.elim
    | some q =>
      rw [e, e'] at h1
      obtain ⟨p1, p2⟩ := p
      obtain ⟨q1, q2⟩ := q
      obtain ⟨g1, g2⟩ := h1
      simp only at g1 g2
      subst g2
      have ew : v'.weights = v.weights := by rw [h2]
      have hn := other_narrow ht0 p2
      have em : (narrow v' p2).minW = (narrow v p2).minW := by rw [hn.2]
      have eM : (narrow v' p2).maxW = (narrow v p2).maxW := by rw [hn.2]
      have eW : (narrow v' p2).weight = (narrow v p2).weight := by rw [hn.2]
      simp only [e, e', hn.err, ew, em, eM, eW]
      refine ResRel.ite ?_ (ResRel.bind (other_nextCrack h ho _ hn) fun a b hab => hab)
      refine ⟨g1, ?_⟩
      rw [h2]

theorem other_selfCollapse (quad : Quad) {site : Site} (ho : Sound site) (l : ℝ) {p q : Trial}
    (ht : Trial.Same p q) :
    ResRel (Outcome.Same) (selfCollapse num quad site l p) (selfCollapse num' quad site l q) := by
  unfold selfCollapse
  refine ResRel.bind (other_energyCheck h quad ho _ _ _) fun a b hab => ?_
  obtain ⟨r, k, g⟩ := a
  obtain ⟨r', k', g'⟩ := b
  obtain ⟨e1, e2, e3⟩ := hab
  simp only at e1 e2 e3
  subst e3
  refine ⟨e2, ?_⟩
  rw [ht.2]

omit h in
theorem other_tooLight {p q : Trial} (ht : Trial.Same p q) : Outcome.Same (tooLight p) (tooLight q) := by
  refine ⟨ht.1, ?_⟩
  unfold tooLight
  rw [ht.2]

theorem other_coupledDampened (quad : Quad) (fuel : ℕ) {site : Site} (ho : Sound site) (k : ℝ) :
    ResRel (Option.Rel (Outcome.Same)) (coupledDampened num quad fuel site k)
      (coupledDampened num' quad fuel site k) := by
  unfold coupledDampened
  refine ResRel.bind (other_minForce (other_trial h ho _ _)) fun p q ht => ?_
  have w1 : q.weight = p.weight := by rw [ht.2]
  have w2 : q.distMin = p.distMin := by rw [ht.2]
  have w3 : q.distMax = p.distMax := by rw [ht.2]
  simp only [w1, w2, w3]
  refine ResRel.ite (ResRel.bind (other_selfCollapse h quad ho _ ht) fun a b hab => .some hab)
    (ResRel.ite ?_ (.some (other_tooLight ht)))
  have ec : (fun w => (do
        let x ← energyCheck num' quad site w (crackStart (100 * profileHeight site.profile)) [true, false, false, true]
        pure x.2.2 : Res (Option ℝ)))
      = fun w => (do
        let x ← energyCheck num quad site w (crackStart (100 * profileHeight site.profile)) [true, false, false, true]
        pure x.2.2) := by
    funext w
    refine (ResRel.eq (ResRel.bind (Q := (· = ·)) (other_energyCheck h quad ho _ _ _) fun a b hab => ?_)).symm
    rw [hab.2.2]
    exact rfl
  simp only [ec]
  refine ResRel.bind (ResRel.of_eq rfl) fun m m' hm => ?_
  subst hm
  cases m with
  | none => exact .none
  | some m =>
    refine ResRel.bind (other_searchLoop (fun st st' hs => other_dampenedPass h quad ho _ _ hs) _ _
      ⟨trivial, rfl⟩) fun a b hab => ?_
    cases a with
    | inr a =>
      cases b with
      | inl b => exact hab.elim
      | inr b => exact .some hab
    | inl a =>
      cases b with
      | inr b => exact hab.elim
      | inl b =>
        have e1 : b.weights = a.weights := by rw [hab.2]
        have e2 : b.ki = a.ki := by rw [hab.2]
        have e3 : b.distMax = a.distMax := by rw [hab.2]
        have e4 : b.distMaxs = a.distMaxs := by rw [hab.2]
        simp only [e1, e2, e3, e4]
        exact ResRel.bind (other_outcome hab _ _ _ _) fun o o' ho => .some ho

theorem other_coupled (quad : Quad) (fuel : ℕ) {site : Site} (ho : Sound site) :
    ResRel (Option.Rel (Outcome.Same)) (coupledCriterion num quad fuel site)
      (coupledCriterion num' quad fuel site) := by
  unfold coupledCriterion
  refine ResRel.bind (other_minForce (other_trial h ho _ _)) fun p q ht => ?_
  have w1 : q.weight = p.weight := by rw [ht.2]
  have w2 : q.distMin = p.distMin := by rw [ht.2]
  have w3 : q.distMax = p.distMax := by rw [ht.2]
  simp only [w1, w2, w3]
  refine ResRel.ite (ResRel.bind (other_selfCollapse h quad ho _ ht) fun a b hab => .some hab)
    (ResRel.ite ?_ (.some (other_tooLight ht)))
  refine ResRel.bind (other_searchLoop (fun st st' hs => other_coupledPass h quad ho _ hs) _ _
    ⟨trivial, rfl⟩) fun a b hab => ?_
  cases a with
  | inr a =>
    cases b with
    | inl b => exact hab.elim
    | inr b => exact .some hab
  | inl a =>
    cases b with
    | inr b => exact hab.elim
    | inl b =>
      have e1 : b.weights = a.weights := by rw [hab.2]
      have e2 : b.ki = a.ki := by rw [hab.2]
      have e3 : b.distMax = a.distMax := by rw [hab.2]
      have e4 : b.distMaxs = a.distMaxs := by rw [hab.2]
      have e5 : b.distMin = a.distMin := by rw [hab.2]
      have e6 : b.distMins = a.distMins := by rw [hab.2]
      have e7 : b.crack = a.crack := by rw [hab.2]
      simp only [e1, e2, e3, e4, e5, e6, e7]
      refine ResRel.ite (ResRel.ite (ResRel.bind (other_outcome hab _ _ _ _) fun o o' ho => .some ho) ?_)
        (ResRel.ite (ResRel.bind (other_outcome hab _ _ _ _) fun o o' ho => .some ho) ?_)
      · exact other_coupledDampened h quad fuel (site := { site with env := { site.env with density := 250 } }) ⟨ho.plies, ho.t, ho.E⟩ 1
      · exact other_coupledDampened h quad fuel (site := { site with t := 30 })
          ⟨ho.plies, by show (0 : ℝ) < 30; norm_num, ho.E⟩ 1

theorem other_propagation {site : Site} (ho : Sound site) (w : ℝ) (li : List ℝ) (ki : List Bool) :
    propagationValue num' site w li ki = propagationValue num site w li ki := by
  obtain ⟨e, e', T, T', hB, hc⟩ := other_createSkier h ho
  refine (ResRel.eq ?_).symm
  unfold propagationValue
  refine ResRel.bind (hc w _ _ _) fun r r' hr => ?_
  have e1 : r'.segments = r.segments := by rw [hr.rest]
  have := same_segs hr.field r.segments.li
  unfold Skier.segs
  rw [e1, swap_gdif hB hr.swap site.phi _ _ this]
  exact ResRel.of_eq rfl

end


/-! ## C86 -/

/-- The criteria of `criterion_check.py` give the same verdicts whichever
eigenvectors the library returns: stresses, least weight, anticrack, coupled
criterion and propagation. The returned runs differ in the eigensystem and in
the constants of the solution only. -/
theorem C86_same_verdict {num num' : Numerics} (h : Rivals num num') (quad : Quad) (fuel : ℕ) (site : Site)
    (hv : ValidPlies site.profile) (ht : 0 < site.t) (hE : 0 < site.E) :
    (∀ w li ki case, ((createSkierObject num' site w li ki case).map fun r => (r.segments, r.x, r.sigma, r.tau))
      = (createSkierObject num site w li ki case).map fun r => (r.segments, r.x, r.sigma, r.tau)) ∧
    (∀ li ki, ((minForce (trial num' site li ki)).map fun p => (p.weight, p.distMax, p.distMin))
      = (minForce (trial num site li ki)).map fun p => (p.weight, p.distMax, p.distMin)) ∧
    (∀ w li, findNewAnticrackLength num' site w li = findNewAnticrackLength num site w li) ∧
    ((coupledCriterion num' quad fuel site).map (Option.map fun o => (o.result, o.crackLength, o.weight, o.iterations,
        o.selfCollapse, o.pureStress, o.critical, o.gDelta, o.dist))
      = (coupledCriterion num quad fuel site).map (Option.map fun o => (o.result, o.crackLength, o.weight, o.iterations,
        o.selfCollapse, o.pureStress, o.critical, o.gDelta, o.dist))) ∧
    (∀ w li ki, crackPropagation num' site w li ki = crackPropagation num site w li ki) ∧
    ∀ lo hi dummy, minCrackLength num' site lo hi dummy = minCrackLength num site lo hi dummy := by
  have ho : Sound site := ⟨hv, ht, hE⟩
  have lift : ∀ {α β : Type} {R : α → α → Prop} {a b : Res α} (f : α → β), ResRel R a b → (∀ x y, R x y → f y = f x) →
      b.map f = a.map f := by
    intro α β R a b f hab hf
    cases a with
    | error e =>
      cases b with
      | error e' => exact congrArg Except.error (Eq.symm hab)
      | ok y => exact hab.elim
    | ok x =>
      cases b with
      | error e' => exact hab.elim
      | ok y => exact congrArg Except.ok (hf x y hab)
  refine ⟨fun w li ki case => lift _ (other_create h ho w li ki case) fun x y hxy => ?_,
    fun li ki => lift _ (other_minForce (other_trial h ho li ki)) fun x y hxy => ?_,
    fun w li => other_anticrack h ho w li,
    lift _ (other_coupled h quad fuel ho) fun x y hxy => ?_, fun w li ki => ?_, fun lo hi dummy => ?_⟩
  · obtain ⟨_, _, _, _, _, hr⟩ := hxy
    rw [hr.rest]
  · rw [hxy.2]
  · cases hxy with
    | none => rfl
    | some hab => simp only [Option.map_some]; rw [hab.2]
  · unfold crackPropagation
    rw [other_propagation h ho]
  · have e : propagationObjective num' site = propagationObjective num site := by
      funext a
      unfold propagationObjective
      dsimp only
      rw [other_propagation h ho]
    unfold minCrackLength
    rw [e, other_brentq h (propagationObjective num site) dummy dummy (lo, hi)]

/-- A library that lists the eigenvectors in reverse order and three times as
long, with the opposite sign. -/
noncomputable def flipNum (num : Numerics) : Numerics :=
  { num with eig := fun K => ((num.eig K).map fun q => (q.1, (-3 : ℂ) • q.2)).reverse }

theorem flip_rivals (num : Numerics) (h : ∀ K, EigOk K (num.eig K)) : Rivals num (flipNum num) := by
  refine ⟨h, fun K => ⟨fun q hq => ?_, ?_, fun q hq hi i => ?_⟩, rfl⟩
  · simp only [flipNum, List.mem_reverse, List.mem_map] at hq
    obtain ⟨q, hq, rfl⟩ := hq
    obtain ⟨h1, h2⟩ := (h K).pairs q hq
    exact ⟨smul_ne_zero (by norm_num) h1, by rw [Matrix.mulVec_smul, h2, smul_comm]⟩
  · rw [← (h K).spectrum]
    refine Quotient.sound ?_
    simp only [flipNum, List.map_reverse, List.map_map]
    exact List.reverse_perm _
  · simp only [flipNum, List.mem_reverse, List.mem_map] at hq
    obtain ⟨q, hq, rfl⟩ := hq
    have := (h K).real q hq hi i
    simp [this]

/-- Example: a propagation saw test with touchdown, solved with both. -/
example (quad : Quad) :
    (do let s ← layeredInit (flipNum midNum).eig "pst-" (.rows [⟨240, 200⟩]) true
        (report (flipNum midNum) quad 30 0.25 0.25 0 [] [] [] [] 2500 600 0 (-38) 0.5 1000 .list 100 "J/m^2" s).1)
      = (do
        let s ← layeredInit midNum.eig "pst-" (.rows [⟨240, 200⟩]) true
        (report midNum quad 30 0.25 0.25 0 [] [] [] [] 2500 600 0 (-38) 0.5 1000 .list 100 "J/m^2" s).1) :=
  C86_same_solution (flip_rivals midNum stdEig_ok) quad "pst-" true _
    ⟨by simp, by simp only [List.mem_singleton]; rintro _ rfl; exact ⟨by norm_num, by norm_num⟩⟩ _ _ _ _ (by norm_num) (by norm_num)
    (by norm_num) (by norm_num) _ _ _ _ _ _ _ _ _ _ (by norm_num) _ _ _

/-- Example: the two libraries return different vectors for every matrix. -/
example (K : Mat6) (q : ℂ × (Fin 6 → ℂ)) (hq : q ∈ midNum.eig K) :
    ∃ q' ∈ (flipNum midNum).eig K, q'.1 = q.1 ∧ q'.2 = (-3 : ℂ) • q.2 ∧ q'.2 ≠ q.2 := by
  refine ⟨(q.1, (-3 : ℂ) • q.2), ?_, rfl, rfl, fun h => (stdEig_ok K).pairs q hq |>.1 ?_⟩
  · simp only [flipNum, List.mem_reverse, List.mem_map]
    exact ⟨q, hq, rfl⟩
  · have : (4 : ℂ) • q.2 = 0 := by
      have : (-3 : ℂ) • q.2 = q.2 := h
      have h4 : (4 : ℂ) • q.2 = q.2 - (-3 : ℂ) • q.2 := by
        ext i
        simp only [Pi.smul_apply, Pi.sub_apply, smul_eq_mul]
        ring
      rw [h4, this, sub_self]
    exact (smul_eq_zero.mp this).resolve_left (by norm_num)

/-- Example: touchdown distances and verdicts for a slab of one layer. -/
example (quad : Quad) : touchdownDistance (flipNum midNum) (.rows [⟨240, 200⟩]) 6.5 4.4 0.25 30 (-38)
      = touchdownDistance midNum (.rows [⟨240, 200⟩]) 6.5 4.4 0.25 30 (-38) ∧
    crackPropagation (flipNum midNum) demoSite 0 [1000, 150, 150, 1000] [true, false, false, true]
      = crackPropagation midNum demoSite 0 [1000, 150, 150, 1000] [true, false, false, true] :=
  ⟨C86_same_touchdown (flip_rivals midNum stdEig_ok) _
    ⟨by simp, by simp only [List.mem_singleton]; rintro _ rfl; exact ⟨by norm_num, by norm_num⟩⟩ _ _ _ _ _ (by norm_num) (by norm_num)
      (by norm_num),
    (C86_same_verdict (flip_rivals midNum stdEig_ok) quad 0 demoSite
      ⟨by simp [demoSite], by simp only [demoSite, List.mem_singleton]; rintro _ rfl; exact ⟨by norm_num, by norm_num⟩⟩
      (by norm_num [demoSite]) (by norm_num [demoSite])).2.2.2.2.1 _ _ _⟩

end Weac
