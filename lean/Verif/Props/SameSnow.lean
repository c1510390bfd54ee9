import Verif.Lemmas.Snow
import Verif.Model.Distance
import Verif.Model.Potential

/-!
# C69: results depend on the density over depth, not on the list of layers

Two lists of layers describe the same snow if they are as thick and as dense
at every depth, for instance after cutting a layer in two.
-/

namespace Weac
open Spec

/-! ## Evaluation of a solution -/

section
variable {c d : List Layer} (hi : Interchangeable c d) {s s' : Self} (h : Twin c d s s')
include hi h

theorem twin_ginc (quad : Quad) (phi : ℝ) (gs : List IncSeg) : ginc quad s' phi gs = ginc quad s phi gs := by
  have e : ∀ da, gincStep quad s' phi da = gincStep quad s phi da := by
    intro da
    funext acc g
    unfold gincStep
    simp only [twin_zsol hi h]
    obtain ⟨-, rfl⟩ := h
    rfl
  unfold ginc
  simp only [e]

theorem twin_gdif (phi : ℝ) (gs : List Seg) (unit : String) (arr : Bool) : gdif s' phi gs unit arr = gdif s phi gs unit arr := by
  have e : tipRate s' phi gs unit = tipRate s phi gs unit := by
    funext i
    unfold tipRate
    simp only [twin_zsol hi h]
    obtain ⟨-, rfl⟩ := h
    rfl
  unfold gdif
  rw [e]

theorem twin_potential (phi L : ℝ) (n : ℕ) (gs : List Seg) : totalPotential s' phi L n gs = totalPotential s phi L n gs := by
  have e1 := twin_rasterize hi h phi n gs
  have e2 := twin_calcQn hi h
  have e3 := twin_calcQt hi h
  unfold totalPotential internalPotential externalPotential
  rw [e1, e2, e3]
  obtain ⟨-, rfl⟩ := h
  rfl

omit hi in
theorem twin_stresses (Z : Vec6) : fsig s' Z = fsig s Z ∧ ftau s' Z = ftau s Z ∧ fN s' Z = fN s Z ∧ fM s' Z = fM s Z ∧ fV s' Z = fV s Z := by
  obtain ⟨-, rfl⟩ := h
  exact ⟨rfl, rfl, rfl, rfl, rfl⟩

theorem twin_sigmaTau (C : List Vec6) (li : List ℝ) (phi x : ℝ) : calculateSigmaTau s' C li phi x = calculateSigmaTau s C li phi x := by
  unfold calculateSigmaTau
  simp only [twin_zsol hi h]
  obtain ⟨-, rfl⟩ := h
  rfl

end

/-! ## The criteria -/

section
variable {c d : List Layer}

/-- The same run for objects that differ in the layers only. -/
def Skier.Twin (c d : List Layer) (r r' : Skier) : Prop := r.skier.slab = c ∧ r' = { r with skier := { r.skier with slab := d } }

theorem alike_solveSkier (hi : Interchangeable c d) (num : Numerics) (phi : ℝ) (li mi : List ℝ) (ki : List Bool) (case : CrackCase) :
    PyRel c d (Skier.Twin c d) (solveSkier num phi li mi ki case) (solveSkier num phi li mi ki case) := by
  unfold solveSkier
  refine PyRel.bind (alike_segments hi _ _ _ _ _ _ _ _ _ _ _) fun g g' hg => ?_
  subst hg
  refine PyRel.bind (alike_assemble hi num _ _ _) fun o o' ho => ?_
  subst ho
  refine PyRel.self fun s h0 => ?_
  refine PyRel.bind (R := (· = ·)) (PyRel.lift (ResRel.of_eq (twin_rasterize hi ⟨h0, rfl⟩ _ _ _).symm)) fun p p' hp => ?_
  subst hp
  refine PyRel.bind (R := (· = ·)) (PyRel.lift (ResRel.of_eq rfl)) fun q q' hq => ?_
  subst hq
  refine PyRel.bind (R := (· = ·)) (PyRel.lift (ResRel.of_eq rfl)) fun q q' hq => ?_
  subst hq
  exact PyRel.pure ⟨h0, rfl⟩

theorem ResRel.left {α : Type} {R : α → α → Prop} {a b : Res α} (h : ResRel R a b) {x : α} (hx : a = .ok x) :
    ∃ y, b = .ok y ∧ R x y := by
  subst hx
  cases b with
  | ok y => exact ⟨y, rfl, h⟩
  | error e => exact h.elim

end

section
variable {ls ls' : List Ply} (h : SameSnow ls ls') (hv : ValidPlies ls) (hv' : ValidPlies ls')
include h hv hv'

local notation "U" => List.map (Ply.layer 6.5 4.4 0.25) ls
local notation "U'" => List.map (Ply.layer 6.5 4.4 0.25) ls'

theorem same_createSkier (num : Numerics) (site : Site) (hp : site.profile = ls) (w : ℝ) (li : List ℝ) (ki : List Bool)
    (case : CrackCase) :
    ResRel (Skier.Twin U U') (createSkierObject num site w li ki case)
      (createSkierObject num { site with profile := ls' } w li ki case) := by
  subst hp
  have hi := SameSnow.interchangeable h hv hv' 6.5 4.4 0.25
  unfold createSkierObject siteObject
  refine ResRel.bind (R := Twin (site.profile.map (Ply.layer 6.5 4.4 0.25)) U') (ResRel.bind (SameSnow.layered h hv hv' num.eig "skiers" false) fun s s' hs => ?_)
    fun s s' hs => ?_
  · exact SameSnow.foundation h hv hv' num.eig _ _ _ _ _ _ _ hs
  · refine ResRel.bind (ResRel.of_eq rfl) fun m m' hm => ?_
    subst hm
    exact (alike_solveSkier hi num site.phi li m ki case s s' hs).1

omit h hv hv' in
theorem same_distances (env : Env) {r r' : Skier} (hr : Skier.Twin U U' r r') : distances env r' = distances env r := by
  obtain ⟨-, rfl⟩ := hr
  rfl

theorem same_findRoots (num : Numerics) (env : Env) (phi : ℝ) (li : List ℝ) {r r' : Skier} (hr : Skier.Twin U U' r r') :
    findRoots num env phi li r' = findRoots num env phi li r := by
  have hi := SameSnow.interchangeable h hv hv' 6.5 4.4 0.25
  obtain ⟨h0, rfl⟩ := hr
  have e : ∀ C : List Vec6, rootFunction env { r.skier with slab := U' } C li phi = rootFunction env r.skier C li phi := by
    intro C
    funext x
    unfold rootFunction
    rw [twin_sigmaTau hi (s := r.skier) ⟨h0, rfl⟩]
  have e2 : ∀ f, rootIn num f { r.skier with slab := U' } = rootIn num f r.skier := by
    intro f
    funext b
    unfold rootIn
    have := ((alike_brentq (c := U) (d := U') num (f := fun x => Py.lift (f x)) (fun x => PyRel.lift (ResRel.of_eq rfl)) b.1 b.2)
      r.skier _ ⟨h0, rfl⟩).1.eq
    rw [this]
  unfold findRoots
  rw [same_distances (ls := ls) (ls' := ls') env ⟨h0, rfl⟩]
  simp only [e, e2]

theorem same_anticrack (num : Numerics) (site : Site) (hp : site.profile = ls) (w : ℝ) (li : List ℝ) :
    findNewAnticrackLength num { site with profile := ls' } w li = findNewAnticrackLength num site w li := by
  refine (ResRel.eq ?_).symm
  unfold findNewAnticrackLength
  refine ResRel.bind (same_createSkier h hv hv' num site hp w _ _ _) fun r r' hr => ?_
  rw [same_distances _ hr, same_findRoots h hv hv' num _ _ _ hr]
  exact ResRel.of_eq rfl

/-- The same trial for objects that differ in the layers only. -/
def Trial.Twin (c d : List Layer) (p q : Trial) : Prop := Skier.Twin c d p.run q.run ∧ q = { p with run := q.run }

theorem same_trial (num : Numerics) (site : Site) (hp : site.profile = ls) (li : List ℝ) (ki : List Bool) (w : ℝ) :
    ResRel (Trial.Twin U U') (trial num site li ki w) (trial num { site with profile := ls' } li ki w) := by
  unfold trial
  refine ResRel.bind (same_createSkier h hv hv' num site hp w _ _ _) fun r r' hr => ?_
  rw [same_distances _ hr]
  refine ResRel.bind (ResRel.of_eq rfl) fun x y e => ?_
  subst e
  refine ResRel.bind (ResRel.of_eq rfl) fun x y e => ?_
  subst e
  refine ResRel.bind (ResRel.of_eq rfl) fun x y e => ?_
  subst e
  exact ⟨hr, rfl⟩

end

section
variable {c d : List Layer} {eval eval' : ℝ → Res Trial} (he : ∀ w, ResRel (Trial.Twin c d) (eval w) (eval' w))
include he

theorem same_forceLoop (next : Trial → ℝ) (hn : ∀ p q, Trial.Twin c d p q → next p = next q) (tol : ℝ) (n : ℕ) {p q : Trial}
    (h : Trial.Twin c d p q) :
    ResRel (fun a b => Trial.Twin c d a.1 b.1 ∧ a.2 = b.2) (forceLoop eval next tol n p) (forceLoop eval' next tol n q) := by
  induction n generalizing p q with
  | zero => exact ⟨h, rfl⟩
  | succ n ih =>
    unfold forceLoop
    have e : q.distMax = p.distMax := by rw [h.2]
    rw [e, ← hn p q h]
    refine ResRel.ite (ResRel.bind (he _) fun a b hab => ih hab) ⟨h, rfl⟩

theorem same_dampenedForce (k : ℝ) :
    ResRel (fun a b => Trial.Twin c d a.1 b.1 ∧ a.2 = b.2) (dampenedForce eval k) (dampenedForce eval' k) := by
  unfold dampenedForce
  refine ResRel.bind (he 1) fun p q h => ?_
  have e : q.distMin = p.distMin := by rw [h.2]
  rw [e]
  refine ResRel.ite ⟨h, rfl⟩ (same_forceLoop he _ (fun p q h => ?_) _ _ h)
  rw [h.2]

theorem same_minForceDampened (k : ℕ) : ResRel (Trial.Twin c d) (minForceDampened eval k) (minForceDampened eval' k) := by
  induction k with
  | zero =>
    unfold minForceDampened
    refine ResRel.bind (same_dampenedForce he _) fun a b h => ?_
    obtain ⟨a1, a2⟩ := a
    obtain ⟨b1, b2⟩ := b
    obtain ⟨⟨h1, h2⟩, h3⟩ := h
    simp only at h1 h2 h3
    subst h3
    cases a2 with
    | false => exact ⟨h1, h2⟩
    | true =>
      refine ⟨h1, ?_⟩
      rw [h2]
      rfl
  | succ k ih =>
    unfold minForceDampened
    refine ResRel.bind (same_dampenedForce he _) fun a b h => ?_
    obtain ⟨a1, a2⟩ := a
    obtain ⟨b1, b2⟩ := b
    obtain ⟨h1, h3⟩ := h
    simp only at h1 h3
    subst h3
    exact ResRel.ite ih h1

theorem same_minForce : ResRel (Trial.Twin c d) (minForce eval) (minForce eval') := by
  unfold minForce
  refine ResRel.bind (he 1) fun p q h => ?_
  have e : q.distMin = p.distMin := by rw [h.2]
  rw [e]
  refine ResRel.ite h (ResRel.bind (same_forceLoop he _ (fun p q h => ?_) _ _ h) fun a b h => ?_)
  · rw [h.2]
  · obtain ⟨a1, a2⟩ := a
    obtain ⟨b1, b2⟩ := b
    obtain ⟨h1, h3⟩ := h
    simp only at h1 h3
    subst h3
    exact ResRel.ite (same_minForceDampened he 4) h1

end

/-! ## Coupled criterion -/

/-- The same return value for objects that differ in the layers only. -/
def Outcome.Twin (c d : List Layer) (o o' : Outcome) : Prop := Skier.Twin c d o.run o'.run ∧ o' = { o with run := o'.run }

/-- Cracked solution and energy of the last pass. -/
def LastTwin (c d : List Layer) : Option (Skier × Option ℝ) → Option (Skier × Option ℝ) → Prop
  | none, none => True
  | some p, some q => Skier.Twin c d p.1 q.1 ∧ p.2 = q.2
  | _, _ => False

/-- The same search for objects that differ in the layers only. -/
def Search.Twin (c d : List Layer) (st st' : Search) : Prop := LastTwin c d st.last st'.last ∧ st' = { st with last := st'.last }

/-- The search goes on or ends alike. -/
def StepTwin (c d : List Layer) : Search ⊕ Outcome → Search ⊕ Outcome → Prop
  | .inl st, .inl st' => Search.Twin c d st st'
  | .inr o, .inr o' => Outcome.Twin c d o o'
  | _, _ => False

section
variable {c d : List Layer} {st st' : Search}

theorem Search.Twin.err (h : Search.Twin c d st st') : st'.err = st.err := by
  obtain ⟨h1, h2⟩ := h
  unfold Search.err
  cases e : st.last with
  | none =>
    cases e' : st'.last with
    | none => rfl
    | some q => rw [e, e'] at h1; exact h1.elim
  | some p =>
    cases e' : st'.last with
    | none => rw [e, e'] at h1; exact h1.elim
    | some q =>
      rw [e, e'] at h1
      simp only [h1.2]

theorem same_searchLoop {pass pass' : Search → Res (Search ⊕ Outcome)}
    (hp : ∀ st st', Search.Twin c d st st' → ResRel (StepTwin c d) (pass st) (pass' st')) (m n : ℕ) (h : Search.Twin c d st st') :
    ResRel (StepTwin c d) (searchLoop pass m n st) (searchLoop pass' m n st') := by
  induction n generalizing st st' with
  | zero => exact h
  | succ n ih =>
    unfold searchLoop
    have e : st'.goesOn m = st.goesOn m := by
      unfold Search.goesOn
      rw [h.err, h.2]
    rw [e]
    refine ResRel.ite (ResRel.bind (hp _ _ h) fun a b hab => ?_) h
    cases a with
    | inl a =>
      cases b with
      | inl b => exact ih hab
      | inr b => exact hab.elim
    | inr a =>
      cases b with
      | inl b => exact hab.elim
      | inr b => exact hab

theorem same_outcome (h : Search.Twin c d st st') (r : Bool) (w x : ℝ) (l : List ℝ) :
    ResRel (Outcome.Twin c d) (st.outcome r w x l) (st'.outcome r w x l) := by
  obtain ⟨h1, h2⟩ := h
  unfold Search.outcome
  cases e : st.last with
  | none =>
    cases e' : st'.last with
    | none => exact rfl
    | some q => rw [e, e'] at h1; exact h1.elim
  | some p =>
    cases e' : st'.last with
    | none => rw [e, e'] at h1; exact h1.elim
    | some q =>
      rw [e, e'] at h1
      obtain ⟨p1, p2⟩ := p
      obtain ⟨q1, q2⟩ := q
      obtain ⟨g1, g2⟩ := h1
      simp only at g1 g2
      subst g2
      refine ⟨g1, ?_⟩
      rw [h2]

end

section
variable {ls ls' : List Ply} (h : SameSnow ls ls') (hv : ValidPlies ls) (hv' : ValidPlies ls')
include h hv hv'

local notation "U" => List.map (Ply.layer 6.5 4.4 0.25) ls
local notation "U'" => List.map (Ply.layer 6.5 4.4 0.25) ls'

theorem same_energyCheck (num : Numerics) (quad : Quad) (site : Site) (hp : site.profile = ls) (w : ℝ) (li : List ℝ)
    (ki : List Bool) :
    ResRel (fun a b => Skier.Twin U U' a.1 b.1 ∧ Skier.Twin U U' a.2.1 b.2.1 ∧ a.2.2 = b.2.2)
      (energyCheck num quad site w li ki) (energyCheck num quad { site with profile := ls' } w li ki) := by
  have hi := SameSnow.interchangeable h hv hv' 6.5 4.4 0.25
  unfold energyCheck
  refine ResRel.bind (same_createSkier h hv hv' num site hp w _ _ _) fun r r' hr =>
    ResRel.bind (same_createSkier h hv hv' num site hp w _ _ _) fun k k' hk => ⟨hr, hk, ?_⟩
  obtain ⟨r0, rfl⟩ := hr
  obtain ⟨k0, rfl⟩ := hk
  simp only
  rw [twin_ginc hi (s := k.skier) ⟨k0, rfl⟩]

theorem same_trackPass (num : Numerics) (quad : Quad) (site : Site) (hp : site.profile = ls) {st st' : Search}
    (hs : Search.Twin U U' st st') :
    ResRel (Search.Twin U U') (trackPass num quad site st) (trackPass num quad { site with profile := ls' } st') := by
  obtain ⟨h1, h2⟩ := hs
  rw [h2]
  unfold trackPass
  refine ResRel.bind (same_energyCheck h hv hv' num quad site hp _ _ _) fun a b hab => ?_
  obtain ⟨r, k, g⟩ := a
  obtain ⟨r', k', g'⟩ := b
  obtain ⟨e1, e2, e3⟩ := hab
  simp only at e1 e2 e3
  subst e3
  simp only
  rw [same_distances _ e1]
  refine ResRel.bind (ResRel.of_eq rfl) fun x y e => ?_
  subst e
  refine ResRel.bind (ResRel.of_eq rfl) fun x y e => ?_
  subst e
  refine ResRel.bind (ResRel.of_eq rfl) fun x y e => ?_
  subst e
  exact ⟨⟨e2, rfl⟩, rfl⟩

theorem same_nextCrack (num : Numerics) (site : Site) (hp : site.profile = ls) (w : ℝ) {st st' : Search}
    (hs : Search.Twin U U' st st') :
    ResRel (Search.Twin U U') (nextCrack num site w st) (nextCrack num { site with profile := ls' } w st') := by
  unfold nextCrack
  rw [hs.err, same_anticrack h hv hv' num site hp]
  have e : st'.li = st.li := by rw [hs.2]
  rw [e]
  refine ResRel.ite (ResRel.bind (ResRel.of_eq rfl) fun x y e => ?_) hs
  subst e
  refine ⟨hs.1, ?_⟩
  rw [hs.2]

omit h hv hv' in
theorem same_narrow {st st' : Search} (hs : Search.Twin U U' st st') (g : Option ℝ) :
    Search.Twin U U' (narrow st g) (narrow st' g) := by
  unfold narrow
  obtain ⟨h1, h2⟩ := hs
  split
  · exact ⟨h1, by rw [h2]⟩
  · exact ⟨h1, by rw [h2]⟩

theorem same_coupledPass (num : Numerics) (quad : Quad) (site : Site) (hp : site.profile = ls) (w : ℝ) {st st' : Search}
    (hs : Search.Twin U U' st st') :
    ResRel (StepTwin U U') (coupledPass num quad site w st) (coupledPass num quad { site with profile := ls' } w st') := by
  unfold coupledPass
  refine ResRel.bind (same_trackPass h hv hv' num quad site hp hs) fun t t' ht => ?_
  have ht0 := ht
  obtain ⟨h1, h2⟩ := ht
  cases e : t.last with
  | none =>
    cases e' : t'.last with
    | none => exact rfl
    | some q => rw [e, e'] at h1; exact h1.elim
  | some p =>
    cases e' : t'.last with
    | none => rw [e, e'] at h1; exact h1.elim
    | some q =>
      rw [e, e'] at h1
      obtain ⟨p1, p2⟩ := p
      obtain ⟨q1, q2⟩ := q
      obtain ⟨g1, g2⟩ := h1
      simp only at g1 g2
      subst g2
      have ew : t'.weights = t.weights := by rw [h2]
      have hn := same_narrow (ls := ls) (ls' := ls') ht0 p2
      have em : (narrow t' p2).minW = (narrow t p2).minW := by rw [hn.2]
      have eM : (narrow t' p2).maxW = (narrow t p2).maxW := by rw [hn.2]
      simp only [ht0.err, ew, em, eM]
      refine ResRel.ite ?_ (ResRel.bind (same_nextCrack h hv hv' num site hp _ hn) fun a b hab => hab)
      refine ⟨g1, ?_⟩
      rw [h2]

theorem same_dampenedPass (num : Numerics) (quad : Quad) (site : Site) (hp : site.profile = ls) (k w : ℝ) {st st' : Search}
    (hs : Search.Twin U U' st st') :
    ResRel (StepTwin U U') (dampenedPass num quad site k w st) (dampenedPass num quad { site with profile := ls' } k w st') := by
  unfold dampenedPass
  refine ResRel.bind (same_trackPass h hv hv' num quad site hp hs) fun t t' ht => ?_
  have ht0 : Search.Twin U U'
      { t with distMaxs := t.distMaxs.dropLast ++ [t.distMax], distMins := t.distMins.dropLast ++ [t.distMin] }
      { t' with distMaxs := t'.distMaxs.dropLast ++ [t'.distMax], distMins := t'.distMins.dropLast ++ [t'.distMin] } :=
    ⟨ht.1, by rw [ht.2]⟩
  revert ht0
  generalize ({ t with distMaxs := t.distMaxs.dropLast ++ [t.distMax], distMins := t.distMins.dropLast ++ [t.distMin] } : Search) = v
  generalize ({ t' with distMaxs := t'.distMaxs.dropLast ++ [t'.distMax], distMins := t'.distMins.dropLast ++ [t'.distMin] } : Search) = v'
  intro ht0
  obtain ⟨h1, h2⟩ := id ht0
  cases e : v.last with
  | none =>
    cases e' : v'.last with
    | none => simp only [e, e']; exact rfl
    | some q => rw [e, e'] at h1; exact h1.elim
  | some p =>
    cases e' : v'.last with
    | none => rw [e, e'] at h1; exact h1.elim
    | some q =>
      rw [e, e'] at h1
      obtain ⟨p1, p2⟩ := p
      obtain ⟨q1, q2⟩ := q
      obtain ⟨g1, g2⟩ := h1
      simp only at g1 g2
      subst g2
      have ew : v'.weights = v.weights := by rw [h2]
      have hn := same_narrow (ls := ls) (ls' := ls') ht0 p2
      have em : (narrow v' p2).minW = (narrow v p2).minW := by rw [hn.2]
      have eM : (narrow v' p2).maxW = (narrow v p2).maxW := by rw [hn.2]
      have eW : (narrow v' p2).weight = (narrow v p2).weight := by rw [hn.2]
      simp only [e, e', hn.err, ew, em, eM, eW]
      refine ResRel.ite ?_ (ResRel.bind (same_nextCrack h hv hv' num site hp _ hn) fun a b hab => hab)
      refine ⟨g1, ?_⟩
      rw [h2]

theorem same_selfCollapse (num : Numerics) (quad : Quad) (site : Site) (hp : site.profile = ls) (l : ℝ) {p q : Trial}
    (ht : Trial.Twin U U' p q) :
    ResRel (Outcome.Twin U U') (selfCollapse num quad site l p) (selfCollapse num quad { site with profile := ls' } l q) := by
  unfold selfCollapse
  refine ResRel.bind (same_energyCheck h hv hv' num quad site hp _ _ _) fun a b hab => ?_
  obtain ⟨r, k, g⟩ := a
  obtain ⟨r', k', g'⟩ := b
  obtain ⟨e1, e2, e3⟩ := hab
  simp only at e1 e2 e3
  subst e3
  refine ⟨e2, ?_⟩
  rw [ht.2]

omit h hv hv' in
theorem same_tooLight {p q : Trial} (ht : Trial.Twin U U' p q) : Outcome.Twin U U' (tooLight p) (tooLight q) := by
  refine ⟨ht.1, ?_⟩
  unfold tooLight
  rw [ht.2]

omit hv hv' in
theorem same_height : profileHeight ls' = profileHeight ls := h.thickness

theorem same_coupledDampened (num : Numerics) (quad : Quad) (fuel : ℕ) (site : Site) (hp : site.profile = ls) (k : ℝ) :
    ResRel (Option.Rel (Outcome.Twin U U')) (coupledDampened num quad fuel site k)
      (coupledDampened num quad fuel { site with profile := ls' } k) := by
  unfold coupledDampened
  have eh : profileHeight ls' = profileHeight site.profile := by rw [hp]; exact same_height h
  simp only [eh]
  refine ResRel.bind (same_minForce (same_trial h hv hv' num site hp _ _)) fun p q ht => ?_
  have w1 : q.weight = p.weight := by rw [ht.2]
  have w2 : q.distMin = p.distMin := by rw [ht.2]
  have w3 : q.distMax = p.distMax := by rw [ht.2]
  simp only [w1, w2, w3]
  refine ResRel.ite (ResRel.bind (same_selfCollapse h hv hv' num quad site hp _ ht) fun a b hab => .some hab)
    (ResRel.ite ?_ (.some (same_tooLight ht)))
  have ec : (fun w => (do
        let x ← energyCheck num quad { site with profile := ls' } w (crackStart (100 * profileHeight site.profile)) [true, false, false, true]
        pure x.2.2 : Res (Option ℝ)))
      = fun w => (do
        let x ← energyCheck num quad site w (crackStart (100 * profileHeight site.profile)) [true, false, false, true]
        pure x.2.2) := by
    funext w
    refine (ResRel.eq (ResRel.bind (Q := (· = ·)) (same_energyCheck h hv hv' num quad site hp _ _ _) fun a b hab => ?_)).symm
    rw [hab.2.2]
    exact rfl
  simp only [ec]
  refine ResRel.bind (ResRel.of_eq rfl) fun m m' hm => ?_
  subst hm
  cases m with
  | none => exact .none
  | some m =>
    refine ResRel.bind (same_searchLoop (c := U) (d := U') (fun st st' hs => same_dampenedPass h hv hv' num quad site hp _ _ hs) _ _
      ⟨trivial, rfl⟩) fun a b hab => ?_
    cases a with
    | inr a =>
      cases b with
      | inl b => exact hab.elim
      | inr b => exact .some hab
    | inl a =>
      cases b with
      | inr b => exact hab.elim
      | inl b =>
        have e1 : b.weights = a.weights := by rw [hab.2]
        have e2 : b.ki = a.ki := by rw [hab.2]
        have e3 : b.distMax = a.distMax := by rw [hab.2]
        have e4 : b.distMaxs = a.distMaxs := by rw [hab.2]
        simp only [e1, e2, e3, e4]
        exact ResRel.bind (same_outcome hab _ _ _ _) fun o o' ho => .some ho

theorem same_coupled (num : Numerics) (quad : Quad) (fuel : ℕ) (site : Site) (hp : site.profile = ls) :
    ResRel (Option.Rel (Outcome.Twin U U')) (coupledCriterion num quad fuel site)
      (coupledCriterion num quad fuel { site with profile := ls' }) := by
  unfold coupledCriterion
  have eh : profileHeight ls' = profileHeight site.profile := by rw [hp]; exact same_height h
  simp only [eh]
  refine ResRel.bind (same_minForce (same_trial h hv hv' num site hp _ _)) fun p q ht => ?_
  have w1 : q.weight = p.weight := by rw [ht.2]
  have w2 : q.distMin = p.distMin := by rw [ht.2]
  have w3 : q.distMax = p.distMax := by rw [ht.2]
  simp only [w1, w2, w3]
  refine ResRel.ite (ResRel.bind (same_selfCollapse h hv hv' num quad site hp _ ht) fun a b hab => .some hab)
    (ResRel.ite ?_ (.some (same_tooLight ht)))
  refine ResRel.bind (same_searchLoop (c := U) (d := U') (fun st st' hs => same_coupledPass h hv hv' num quad site hp _ hs) _ _
    ⟨trivial, rfl⟩) fun a b hab => ?_
  cases a with
  | inr a =>
    cases b with
    | inl b => exact hab.elim
    | inr b => exact .some hab
  | inl a =>
    cases b with
    | inr b => exact hab.elim
    | inl b =>
      have e1 : b.weights = a.weights := by rw [hab.2]
      have e2 : b.ki = a.ki := by rw [hab.2]
      have e3 : b.distMax = a.distMax := by rw [hab.2]
      have e4 : b.distMaxs = a.distMaxs := by rw [hab.2]
      have e5 : b.distMin = a.distMin := by rw [hab.2]
      have e6 : b.distMins = a.distMins := by rw [hab.2]
      have e7 : b.crack = a.crack := by rw [hab.2]
      simp only [e1, e2, e3, e4, e5, e6, e7]
      refine ResRel.ite (ResRel.ite (ResRel.bind (same_outcome hab _ _ _ _) fun o o' ho => .some ho) ?_)
        (ResRel.ite (ResRel.bind (same_outcome hab _ _ _ _) fun o o' ho => .some ho) ?_)
      · exact same_coupledDampened h hv hv' num quad fuel { site with env := { site.env with density := 250 } } hp 1
      · exact same_coupledDampened h hv hv' num quad fuel { site with t := 30 } hp 1

theorem same_propagation (num : Numerics) (site : Site) (hp : site.profile = ls) (w : ℝ) (li : List ℝ) (ki : List Bool) :
    propagationValue num { site with profile := ls' } w li ki = propagationValue num site w li ki := by
  have hi := SameSnow.interchangeable h hv hv' 6.5 4.4 0.25
  refine (ResRel.eq ?_).symm
  unfold propagationValue
  refine ResRel.bind (same_createSkier h hv hv' num site hp w _ _ _) fun r r' hr => ?_
  obtain ⟨h0, rfl⟩ := hr
  simp only
  rw [twin_gdif hi (s := r.skier) ⟨h0, rfl⟩]
  exact ResRel.of_eq rfl

end

/-! ## C69 -/

/-- The calls that a user makes on an object: properties of the weak layer,
load on the surface, segments, solution, grid. -/
noncomputable def session (num : Numerics) (t E nu p : ℝ) (li mi : List ℝ) (ki k0 : List Bool) (L a m phi cf ratio : ℝ)
    (cracked : Bool) (n : ℕ) : Py (List Vec6 × SegLists × List GridPt) := do
  Py.modify (setFoundationProperties num.eig t E nu true)
  Py.modify (setSurfaceLoad p)
  let g ← calcSegments num li mi ki k0 L a m phi cf ratio
  let (C, b) ← assembleAndSolve num .list phi ⟨g.li, g.mi, if cracked then g.ki else g.k0⟩
  let s ← Py.get
  let pts ← Py.lift (rasterize s phi n ((C.zip (b.ki.zip b.li)).map fun q => ⟨q.1, q.2.1, q.2.2⟩))
  return (C, b, pts)

/-- Objects for two layerings of the same snow agree in everything but the list
of layers, and so do all results: the constants, segments and grid of any
session, and the objects afterwards. -/
theorem C69_same_solution (num : Numerics) (system : String) (touchdown : Bool) {ls ls' : List Ply} (h : SameSnow ls ls')
    (hv : ValidPlies ls) (hv' : ValidPlies ls') (t E nu p : ℝ) (li mi : List ℝ) (ki k0 : List Bool)
    (L a m phi cf ratio : ℝ) (cracked : Bool) (n : ℕ) :
    ∃ s s', layeredInit num.eig system (.rows ls) touchdown = .ok s ∧
      layeredInit num.eig system (.rows ls') touchdown = .ok s' ∧ s' = { s with slab := s'.slab } ∧
      (session num t E nu p li mi ki k0 L a m phi cf ratio cracked n s').1
        = (session num t E nu p li mi ki k0 L a m phi cf ratio cracked n s).1 ∧
      (session num t E nu p li mi ki k0 L a m phi cf ratio cracked n s').2
        = { (session num t E nu p li mi ki k0 L a m phi cf ratio cracked n s).2 with slab := s'.slab } := by
  have hi := SameSnow.interchangeable h hv hv' 6.5 4.4 0.25
  have hl := SameSnow.layered h hv hv' num.eig system touchdown
  have hok : ∃ s, layeredInit num.eig system (.rows ls) touchdown = .ok s := by
    cases ls with
    | nil => exact absurd rfl hv.1
    | cons l ls => exact ⟨_, rfl⟩
  obtain ⟨s, hs⟩ := hok
  obtain ⟨s', hs', ht⟩ := hl.left hs
  have hrun : PyRel (ls.map (Ply.layer 6.5 4.4 0.25)) (ls'.map (Ply.layer 6.5 4.4 0.25)) (· = ·)
      (session num t E nu p li mi ki k0 L a m phi cf ratio cracked n)
      (session num t E nu p li mi ki k0 L a m phi cf ratio cracked n) := by
    unfold session
    refine PyRel.bind (R := (· = ·)) (PyRel.modify fun s s' hs => SameSnow.foundation h hv hv' num.eig _ _ _ _ _ _ _ hs) fun _ _ _ =>
      PyRel.bind (R := (· = ·)) (PyRel.modify fun s s' hs => ?_) fun _ _ _ =>
        PyRel.bind (alike_segments hi _ _ _ _ _ _ _ _ _ _ _) fun g g' hg => ?_
    · obtain ⟨h1, rfl⟩ := hs
      exact ⟨h1, rfl⟩
    subst hg
    refine PyRel.bind (alike_assemble hi num _ _ _) fun o o' ho => ?_
    subst ho
    refine PyRel.self fun s h0 => ?_
    refine PyRel.bind (R := (· = ·)) (PyRel.lift (ResRel.of_eq (twin_rasterize hi ⟨h0, rfl⟩ _ _ _).symm)) fun p p' hp => ?_
    subst hp
    exact PyRel.pure rfl
  obtain ⟨r1, r2⟩ := hrun s s' ht
  refine ⟨s, s', hs, hs', ?_, r1.eq.symm, ?_⟩
  · obtain ⟨-, rfl⟩ := ht
    rfl
  · obtain ⟨-, e⟩ := r2
    obtain ⟨-, rfl⟩ := ht
    rw [e]

/-- Evaluations of a solution on two such objects: states, stresses, section
forces, energy release rates and potentials agree. -/
theorem C69_same_evaluation {ls ls' : List Ply} (h : SameSnow ls ls') (hv : ValidPlies ls) (hv' : ValidPlies ls')
    (C0 C1 nu : ℝ) (eig : EigSolver) (s : Self) (quad : Quad) (phi : ℝ) :
    let p := (setBeamProperties eig (.rows ls) C0 C1 nu true s).2
    let q := (setBeamProperties eig (.rows ls') C0 C1 nu true s).2
    (∀ x C l k, zsol q x C l phi k = zsol p x C l phi k) ∧
    (∀ Z, fsig q Z = fsig p Z ∧ ftau q Z = ftau p Z ∧ fN q Z = fN p Z ∧ fM q Z = fM p Z ∧ fV q Z = fV p Z) ∧
    (∀ gs, ginc quad q phi gs = ginc quad p phi gs) ∧
    (∀ gs unit arr, gdif q phi gs unit arr = gdif p phi gs unit arr) ∧
    (∀ L n gs, totalPotential q phi L n gs = totalPotential p phi L n gs) := by
  intro p q
  have hi := SameSnow.interchangeable h hv hv' C0 C1 nu
  obtain ⟨-, -, ht⟩ := SameSnow.beam h hv hv' eig C0 C1 nu true s
  exact ⟨fun x C l k => twin_zsol hi ht x C l phi k, fun Z => twin_stresses ht Z, fun gs => twin_ginc hi ht quad phi gs,
    fun gs unit arr => twin_gdif hi ht phi gs unit arr, fun L n gs => twin_potential hi ht phi L n gs⟩

/-- `touchdown_distance` of the same snow. -/
theorem C69_same_touchdown (num : Numerics) {ls ls' : List Ply} (h : SameSnow ls ls') (hv : ValidPlies ls) (hv' : ValidPlies ls')
    (C0 C1 Ewl t phi : ℝ) :
    touchdownDistance num (.rows ls') C0 C1 Ewl t phi = touchdownDistance num (.rows ls) C0 C1 Ewl t phi := by
  have hi := SameSnow.interchangeable h hv hv' C0 C1 0.25
  have e : ∀ ls : List Ply, ls ≠ [] → CtorLayers.orDefault (.rows ls) = .ok (.rows ls) := by
    intro ls hne
    cases ls with
    | nil => exact absurd rfl hne
    | cons l ls => rfl
  refine (ResRel.eq ?_).symm
  unfold touchdownDistance
  rw [e ls hv.1, e ls' hv'.1]
  refine ResRel.bind (R := fun a b => a = .rows ls ∧ b = .rows ls') ⟨rfl, rfl⟩ fun x y hxy => ?_
  obtain ⟨rfl, rfl⟩ := hxy
  refine ResRel.bind (ResRel.of_eq rfl) fun s s' hs => ?_
  subst hs
  obtain ⟨b1, b2, ht⟩ := SameSnow.beam h hv hv' num.eig C0 C1 0.25 true (setFoundationProperties num.eig t Ewl 0.25 true s)
  simp only [b1, b2]
  refine ResRel.bind (R := (· = ·)) (ResRel.of_eq rfl) fun _ _ _ => ?_
  refine (PyRel.bind (alike_segments hi _ _ _ _ _ _ _ _ _ _ _) (fun g g' hg => PyRel.bind (alike_calcA1 hi num) fun x x' hx =>
    PyRel.bind (alike_calcA2 hi num) fun y y' hy => ?_) _ _ ht).1
  subst hx hy
  refine PyRel.bind (alike_segments hi _ _ _ _ _ _ _ _ _ _ _) fun _ _ _ => PyRel.bind (alike_calcLC hi num) fun z z' hz => ?_
  subst hz
  exact PyRel.pure rfl

/-- The criteria of `criterion_check.py` judge two layerings of the same snow
alike: distances, least weight, anticrack, coupled criterion and propagation.
The returned objects differ in the list of layers only. -/
theorem C69_same_verdict (num : Numerics) (quad : Quad) (fuel : ℕ) (site : Site) (ls' : List Ply) (h : SameSnow site.profile ls')
    (hv : ValidPlies site.profile) (hv' : ValidPlies ls') :
    let site' := { site with profile := ls' }
    (∀ w li ki case, ((createSkierObject num site' w li ki case).map fun r => (r.C, r.segments, r.x, r.sigma, r.tau))
      = (createSkierObject num site w li ki case).map fun r => (r.C, r.segments, r.x, r.sigma, r.tau)) ∧
    (∀ li ki, ((minForce (trial num site' li ki)).map fun p => (p.weight, p.distMax, p.distMin))
      = (minForce (trial num site li ki)).map fun p => (p.weight, p.distMax, p.distMin)) ∧
    (∀ w li, findNewAnticrackLength num site' w li = findNewAnticrackLength num site w li) ∧
    ((coupledCriterion num quad fuel site').map (Option.map fun o => (o.result, o.crackLength, o.weight, o.iterations,
        o.selfCollapse, o.pureStress, o.critical, o.gDelta, o.dist))
      = (coupledCriterion num quad fuel site).map (Option.map fun o => (o.result, o.crackLength, o.weight, o.iterations,
        o.selfCollapse, o.pureStress, o.critical, o.gDelta, o.dist))) ∧
    (∀ w li ki, crackPropagation num site' w li ki = crackPropagation num site w li ki) ∧
    ∀ lo hi dummy, minCrackLength num site' lo hi dummy = minCrackLength num site lo hi dummy := by
  intro site'
  have lift : ∀ {α β : Type} {R : α → α → Prop} {a b : Res α} (f : α → β), ResRel R a b → (∀ x y, R x y → f y = f x) →
      b.map f = a.map f := by
    intro α β R a b f hab hf
    cases a with
    | error e =>
      cases b with
      | error e' => exact congrArg Except.error (Eq.symm hab)
      | ok y => exact hab.elim
    | ok x =>
      cases b with
      | error e' => exact hab.elim
      | ok y => exact congrArg Except.ok (hf x y hab)
  refine ⟨fun w li ki case => lift _ (same_createSkier h hv hv' num site rfl w li ki case) fun x y hxy => ?_,
    fun li ki => lift _ (same_minForce (same_trial h hv hv' num site rfl li ki)) fun x y hxy => ?_,
    fun w li => same_anticrack h hv hv' num site rfl w li,
    lift _ (same_coupled h hv hv' num quad fuel site rfl) fun x y hxy => ?_, fun w li ki => ?_, fun lo hi dummy => ?_⟩
  · obtain ⟨-, rfl⟩ := hxy
    rfl
  · rw [hxy.2]
  · cases hxy with
    | none => rfl
    | some hab => simp only [Option.map_some]; rw [hab.2]
  · unfold crackPropagation
    rw [same_propagation h hv hv' num site rfl]
  · unfold minCrackLength propagationObjective
    have eh : profileHeight ls' = profileHeight site.profile := same_height h
    simp only [eh, site', same_propagation h hv hv' num site rfl]

/-- Cutting a layer at any depth changes no result of the criteria. -/
theorem C69_split (num : Numerics) (quad : Quad) (fuel : ℕ) (site : Site) (pre post : List Ply) (rho h1 h2 : ℝ) (p0 : 0 < rho)
    (p1 : 0 < h1) (p2 : 0 < h2) (hs : site.profile = pre ++ ⟨rho, h1 + h2⟩ :: post)
    (hv : ∀ l ∈ pre ++ post, 0 < l.rho ∧ 0 < l.h) :
    (coupledCriterion num quad fuel { site with profile := pre ++ ⟨rho, h1⟩ :: ⟨rho, h2⟩ :: post }).map
        (Option.map fun o => (o.result, o.crackLength, o.weight))
      = (coupledCriterion num quad fuel site).map (Option.map fun o => (o.result, o.crackLength, o.weight)) := by
  have hm : ∀ l ∈ pre, 0 < l.rho ∧ 0 < l.h := fun l hl => hv l (List.mem_append_left _ hl)
  have hn : ∀ l ∈ post, 0 < l.rho ∧ 0 < l.h := fun l hl => hv l (List.mem_append_right _ hl)
  have v1 : ValidPlies site.profile := by
    rw [hs]
    refine ⟨by simp, fun l hl => ?_⟩
    simp only [List.mem_append, List.mem_cons] at hl
    rcases hl with hl | rfl | hl
    · exact hm l hl
    · exact ⟨p0, by positivity⟩
    · exact hn l hl
  have v2 : ValidPlies (pre ++ ⟨rho, h1⟩ :: ⟨rho, h2⟩ :: post) := by
    refine ⟨by simp, fun l hl => ?_⟩
    simp only [List.mem_append, List.mem_cons] at hl
    rcases hl with hl | rfl | rfl | hl
    · exact hm l hl
    · exact ⟨p0, p1⟩
    · exact ⟨p0, p2⟩
    · exact hn l hl
  have hsn : SameSnow site.profile (pre ++ ⟨rho, h1⟩ :: ⟨rho, h2⟩ :: post) := by
    rw [hs]; exact SameSnow.split pre post rho h1 h2 p2.le
  obtain ⟨-, -, -, h4, -⟩ := C69_same_verdict num quad fuel site _ hsn v1 v2
  have := congrArg (Except.map (Option.map fun o : Bool × ℝ × ℝ × ℕ × Bool × Bool × ℝ × Option ℝ × ℝ => (o.1, o.2.1, o.2.2.1))) h4
  have e : ∀ r : Res (Option Outcome), Except.map (Option.map fun o : Bool × ℝ × ℝ × ℕ × Bool × Bool × ℝ × Option ℝ × ℝ =>
        (o.1, o.2.1, o.2.2.1)) (r.map (Option.map fun o => (o.result, o.crackLength, o.weight, o.iterations,
        o.selfCollapse, o.pureStress, o.critical, o.gDelta, o.dist)))
      = r.map (Option.map fun o => (o.result, o.crackLength, o.weight)) := by
    intro r
    rcases r with e | _ | o <;> rfl
  rw [e, e] at this
  exact this

/-- A slab of two layers, the lower one given in two parts, and the same slab
in one part each. -/
example : SameSnow [⟨180, 120⟩, ⟨270, 200⟩] [⟨180, 120⟩, ⟨270, 50⟩, ⟨270, 150⟩] ∧ ValidPlies [⟨180, 120⟩, ⟨270, 200⟩] ∧
    ValidPlies [⟨180, 120⟩, ⟨270, 50⟩, ⟨270, 150⟩] := by
  refine ⟨?_, ⟨by simp, ?_⟩, ⟨by simp, ?_⟩⟩
  · have := SameSnow.split [⟨180, 120⟩] [] 270 50 150 (by norm_num)
    norm_num at this
    exact this
  all_goals
    intro l hl
    simp only [List.mem_cons, List.not_mem_nil, or_false] at hl
    rcases hl with rfl | rfl | rfl <;> norm_num

/-- Not the same snow: the same weight, but the dense layer on top. -/
example : ¬ SameSnow [⟨180, 100⟩, ⟨270, 100⟩] [⟨270, 100⟩, ⟨180, 100⟩] := by
  intro h
  have := h.density 50 (by norm_num) (by simp [total]; norm_num)
  unfold Spec.density profile at this
  norm_num at this

end Weac
