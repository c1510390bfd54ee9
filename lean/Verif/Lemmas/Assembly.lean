import Mathlib.Algebra.BigOperators.Intervals
import Verif.Model.Solution
import Verif.Spec.Ends

/-!
# The assembly loop computes the boundary and transmission conditions

`bcFun`, `eqsFun` are the effect-free contents of `bc` and `eqs` when no
exception is raised.
-/

namespace Weac

open Spec

theorem Py.bind_eq {α β : Type} (m : Py α) (f : α → Py β) (s : Self) :
    (m >>= f) s = match m s with
      | (.ok a, s') => f a s'
      | (.error e, s') => (.error e, s') := rfl

theorem Py.bind_ok {α β : Type} {m : Py α} {f : α → Py β} {s s' : Self} {b : β} :
    (m >>= f) s = (.ok b, s') ↔ ∃ a s1, m s = (.ok a, s1) ∧ f a s1 = (.ok b, s') := by
  rw [Py.bind_eq]
  rcases h : m s with ⟨r, s1⟩
  cases r with
  | ok a =>
    constructor
    · intro h; exact ⟨a, s1, rfl, h⟩
    · rintro ⟨a', s1', h1, h2⟩
      cases h1; exact h2
  | error e =>
    constructor
    · intro h; cases h
    · rintro ⟨a', s1', h1, h2⟩
      cases h1

theorem Py.bind_of_ok {α β : Type} {m : Py α} {f : α → Py β} {s s1 : Self} {a : α}
    (h : m s = (.ok a, s1)) : (m >>= f) s = f a s1 := by
  rw [Py.bind_eq, h]

theorem Py.bind_of_error {α β : Type} {m : Py α} {f : α → Py β} {s s1 : Self} {e : PyErr}
    (h : m s = (.error e, s1)) : (m >>= f) s = (.error e, s1) := by
  rw [Py.bind_eq, h]

@[simp] theorem Py.pure_apply {α : Type} (a : α) (s : Self) : (Pure.pure a : Py α) s = (.ok a, s) := rfl
@[simp] theorem Py.get_apply (s : Self) : Py.get s = (.ok s, s) := rfl
@[simp] theorem Py.modify_apply (f : Self → Self) (s : Self) : Py.modify f s = (.ok (), f s) := rfl
@[simp] theorem Py.raise_apply {α : Type} (e : PyErr) (s : Self) : (Py.raise e : Py α) s = (.error e, s) := rfl
@[simp] theorem Py.lift_apply {α : Type} (r : Res α) (s : Self) : Py.lift r s = (r, s) := rfl
@[simp] theorem Py.get_bind {β : Type} (f : Self → Py β) (s : Self) : (Py.get >>= f) s = f s s := rfl
@[simp] theorem Py.pure_bind' {α β : Type} (a : α) (f : α → Py β) (s : Self) :
    ((Pure.pure a : Py α) >>= f) s = f a s := rfl
@[simp] theorem Py.modify_bind {β : Type} (g : Self → Self) (f : Unit → Py β) (s : Self) :
    (Py.modify g >>= f) s = f () (g s) := rfl
@[simp] theorem Py.raise_bind {α β : Type} (e : PyErr) (f : α → Py β) (s : Self) :
    ((Py.raise e : Py α) >>= f) s = (.error e, s) := rfl

theorem Py.bind_assoc {α β γ : Type} (m : Py α) (f : α → Py β) (g : β → Py γ) (s : Self) :
    ((m >>= f) >>= g) s = (m >>= fun a => f a >>= g) s := by
  simp only [Py.bind_eq]
  rcases m s with ⟨_ | _, _⟩ <;> rfl

/-- A call that does not change the object when it succeeds. -/
def Frame {α : Type} (m : Py α) (s : Self) : Prop := ∀ a s', m s = (.ok a, s') → s' = s

/-- The value of a call, 0 if it fails. -/
def valOf (m : Py ℝ) (s : Self) : ℝ :=
  match (m s).1 with
  | .ok a => a
  | .error _ => 0

theorem valOf_ok {m : Py ℝ} {s s' : Self} {a : ℝ} (h : m s = (.ok a, s')) : valOf m s = a := by
  simp [valOf, h]

/-- Boundary functional. -/
noncomputable def bcFun (s : Self) (kR : ℝ) (k : Bool) (pos : Pos) (z : Vec6) : Fin 3 → ℝ :=
  if IsPst s then
    if k then ![fN s z, fM s z, fV s z]
    else match s.mode, pos with
      | .B, _ => ![fN s z, fM s z, fw z]
      | .C, .l => ![fN s z, fM s z - kR * fpsi z, fw z]
      | .C, _ => ![fN s z, fM s z + kR * fpsi z, fw z]
      | _, _ => ![fN s z, fM s z, fV s z]
  else if IsSkier s then ![fu z 0, fw z, fpsi z]
  else ![fN s z, fM s z, fV s z]

/-- Whether `bc` needs the rotational spring. -/
def needsSpring (s : Self) (k : Bool) : Prop := IsPst s ∧ k = false ∧ s.mode = .C

theorem bc_ok {sub : Py ℝ} {s s' : Self} {k : Bool} {pos : Pos} {f : Vec6 → Fin 3 → ℝ}
    (hfr : Frame sub s) (h : bc sub k pos s = (.ok f, s')) :
    s' = s ∧ f = bcFun s (valOf sub s) k pos ∧ (IsPst s ∨ IsVpst s ∨ IsSkier s ∨ IsAux s) ∧
      (needsSpring s k → ∃ kR, sub s = (.ok kR, s)) ∧
      (IsPst s → k = false → s.mode = .A ∨ (pos ≠ .m ∧ (s.mode = .B ∨ s.mode = .C))) := by
  unfold bc at h
  rw [Py.get_bind] at h
  by_cases h1 : s.system = "pst-" ∨ s.system = "-pst"
  · have h1' : IsPst s := h1
    rw [if_pos h1] at h
    cases k with
    | true =>
      simp only [if_true, Py.pure_apply, Prod.mk.injEq] at h
      obtain ⟨h2, rfl⟩ := h
      cases h2
      refine ⟨rfl, ?_, .inl h1, fun hn => by simp [needsSpring] at hn, by simp⟩
      funext z
      simp [bcFun, h1']
    | false =>
      simp only [Bool.false_eq_true, if_false] at h
      rcases hm : s.mode with _ | _ | _ | _ <;> rw [hm] at h <;> rcases pos with _ | _ | _ <;>
        simp only [Py.pure_apply, Py.raise_apply, Prod.mk.injEq, reduceCtorEq, false_and] at h
      case A.l | A.m | A.r | B.l | B.r =>
        obtain ⟨h2, rfl⟩ := h
        cases h2
        refine ⟨rfl, ?_, .inl h1, fun hn => by simp [needsSpring, hm] at hn, by simp⟩
        funext z
        simp [bcFun, h1', hm]
      case C.l | C.r =>
        rw [Py.bind_ok] at h
        obtain ⟨kR, s1, hs1, h2⟩ := h
        have := hfr _ _ hs1
        subst this
        simp only [Py.get_bind, Py.pure_apply, Prod.mk.injEq] at h2
        obtain ⟨h2, rfl⟩ := h2
        cases h2
        refine ⟨rfl, ?_, .inl h1, fun _ => ⟨kR, hs1⟩, by simp⟩
        funext z
        simp [bcFun, h1', hm, valOf_ok hs1]
  · have h1' : ¬ IsPst s := h1
    rw [if_neg h1] at h
    by_cases h3 : s.system = "-vpst" ∨ s.system = "vpst-"
    · rw [if_pos h3] at h
      simp only [Py.pure_apply, Prod.mk.injEq] at h
      obtain ⟨h2, rfl⟩ := h
      cases h2
      refine ⟨rfl, ?_, .inr (.inl h3), fun hn => absurd hn.1 h1', fun hn => absurd hn h1'⟩
      have h4 : ¬ IsSkier s := by
        rcases h3 with h3 | h3 <;> simp [IsSkier, h3]
      funext z
      simp [bcFun, h1', h4]
    · rw [if_neg h3] at h
      by_cases h4 : s.system = "skier" ∨ s.system = "skiers"
      · have h4' : IsSkier s := h4
        rw [if_pos h4] at h
        simp only [Py.pure_apply, Prod.mk.injEq] at h
        obtain ⟨h2, rfl⟩ := h
        cases h2
        refine ⟨rfl, ?_, .inr (.inr (.inl h4)), fun hn => absurd hn.1 h1', fun hn => absurd hn h1'⟩
        funext z
        simp [bcFun, h1', h4']
      · have h4' : ¬ IsSkier s := h4
        rw [if_neg h4] at h
        by_cases h5 : s.system = "rot" ∨ s.system = "trans"
        · rw [if_pos h5] at h
          simp only [Py.pure_apply, Prod.mk.injEq] at h
          obtain ⟨h2, rfl⟩ := h
          cases h2
          refine ⟨rfl, ?_, .inr (.inr (.inr h5)), fun hn => absurd hn.1 h1', fun hn => absurd hn h1'⟩
          funext z
          simp [bcFun, h1', h4']
        · rw [if_neg h5] at h
          simp at h

/-- `bc` succeeds on every known system and stage. -/
theorem bc_run {sub : Py ℝ} {s : Self} {k : Bool} {pos : Pos} {kR : ℝ}
    (hsys : IsPst s ∨ IsVpst s ∨ IsSkier s ∨ IsAux s)
    (hmode : IsPst s → k = false → s.mode = .A ∨ (pos ≠ .m ∧ (s.mode = .B ∨ s.mode = .C)))
    (hsub : needsSpring s k → sub s = (.ok kR, s)) :
    bc sub k pos s = (.ok (bcFun s kR k pos), s) := by
  unfold bc
  rw [Py.get_bind]
  by_cases h1 : s.system = "pst-" ∨ s.system = "-pst"
  · have h1' : IsPst s := h1
    rw [if_pos h1]
    cases k with
    | true =>
      simp only [if_true, Py.pure_apply, Prod.mk.injEq, and_true]
      congr 1
      funext z
      simp [bcFun, h1']
    | false =>
      simp only [Bool.false_eq_true, if_false]
      have hm' := hmode h1 rfl
      rcases hm : s.mode with _ | _ | _ | _ <;> rw [hm] at hm' <;> rcases pos with _ | _ | _ <;>
        simp at hm'
      case A.l | A.m | A.r | B.l | B.r =>
        simp only [Py.pure_apply, Prod.mk.injEq, and_true]
        congr 1
        funext z
        simp [bcFun, h1', hm]
      case C.l | C.r =>
        have hs := hsub ⟨h1, rfl, hm⟩
        simp only [Py.bind_of_ok hs, Py.get_bind, Py.pure_apply, Prod.mk.injEq, and_true]
        congr 1
        funext z
        simp [bcFun, h1', hm]
  · have h1' : ¬ IsPst s := h1
    rw [if_neg h1]
    by_cases h3 : s.system = "-vpst" ∨ s.system = "vpst-"
    · rw [if_pos h3]
      have h4 : ¬ IsSkier s := by
        rcases h3 with h3 | h3 <;> simp [IsSkier, h3]
      simp only [Py.pure_apply, Prod.mk.injEq, and_true]
      congr 1
      funext z
      simp [bcFun, h1', h4]
    · rw [if_neg h3]
      by_cases h4 : s.system = "skier" ∨ s.system = "skiers"
      · have h4' : IsSkier s := h4
        rw [if_pos h4]
        simp only [Py.pure_apply, Prod.mk.injEq, and_true]
        congr 1
        funext z
        simp [bcFun, h1', h4']
      · have h4' : ¬ IsSkier s := h4
        rw [if_neg h4]
        have h5 : s.system = "rot" ∨ s.system = "trans" := by
          rcases hsys with h | h | h | h
          · exact absurd h h1'
          · exact absurd h h3
          · exact absurd h h4'
          · exact h
        rw [if_pos h5]
        simp only [Py.pure_apply, Prod.mk.injEq, and_true]
        congr 1
        funext z
        simp [bcFun, h1', h4']

/-- Contents of `eqs`. -/
noncomputable def eqsFun (s : Self) (kR : ℝ) (k : Bool) (pos : Pos) (zl zr : Vec6) : List ℝ :=
  match pos with
  | .l => [bcFun s kR k pos zl 0, bcFun s kR k pos zl 1, bcFun s kR k pos zl 2,
      fu zr 0, fw zr, fpsi zr, fN s zr, fM s zr, fV s zr]
  | .m => [-fu zl 0, -fw zl, -fpsi zl, -fN s zl, -fM s zl, -fV s zl,
      fu zr 0, fw zr, fpsi zr, fN s zr, fM s zr, fV s zr]
  | .r => [-fu zl 0, -fw zl, -fpsi zl, -fN s zl, -fM s zl, -fV s zl,
      bcFun s kR k pos zr 0, bcFun s kR k pos zr 1, bcFun s kR k pos zr 2]

/-- When `eqs` succeeds. -/
def EqsDefined (sub : Py ℝ) (s : Self) (k : Bool) (pos : Pos) : Prop :=
  pos ≠ .m → (IsPst s ∨ IsVpst s ∨ IsSkier s ∨ IsAux s) ∧
    (needsSpring s k → ∃ kR, sub s = (.ok kR, s)) ∧
    (IsPst s → k = false → s.mode = .A ∨ s.mode = .B ∨ s.mode = .C)

theorem eqs_ok {sub : Py ℝ} {s s' : Self} {k : Bool} {pos : Pos} {f : Vec6 → Vec6 → List ℝ}
    (hfr : Frame sub s) (h : eqs sub k pos s = (.ok f, s')) :
    s' = s ∧ f = eqsFun s (valOf sub s) k pos ∧ EqsDefined sub s k pos := by
  cases pos with
  | m =>
    simp only [eqs, Py.get_bind, Py.pure_apply, Prod.mk.injEq] at h
    obtain ⟨h2, rfl⟩ := h
    cases h2
    exact ⟨rfl, rfl, fun h => absurd rfl h⟩
  | l =>
    simp only [eqs] at h
    obtain ⟨b0, s0, h0, h⟩ := Py.bind_ok.mp h
    obtain ⟨rfl, rfl, hsys, hsp, hmode⟩ := bc_ok hfr h0
    obtain ⟨b1, s1, h1, h⟩ := Py.bind_ok.mp h
    obtain ⟨rfl, rfl, -⟩ := bc_ok hfr h1
    obtain ⟨b2, s2, h2, h⟩ := Py.bind_ok.mp h
    obtain ⟨rfl, rfl, -⟩ := bc_ok hfr h2
    simp only [Py.get_bind, Py.pure_apply, Prod.mk.injEq] at h
    obtain ⟨h3, rfl⟩ := h
    cases h3
    exact ⟨rfl, rfl, fun _ => ⟨hsys, hsp, fun a b => (hmode a b).imp id fun x => x.2⟩⟩
  | r =>
    simp only [eqs, Py.get_bind] at h
    obtain ⟨b0, s0, h0, h⟩ := Py.bind_ok.mp h
    obtain ⟨rfl, rfl, hsys, hsp, hmode⟩ := bc_ok hfr h0
    obtain ⟨b1, s1, h1, h⟩ := Py.bind_ok.mp h
    obtain ⟨rfl, rfl, -⟩ := bc_ok hfr h1
    obtain ⟨b2, s2, h2, h⟩ := Py.bind_ok.mp h
    obtain ⟨rfl, rfl, -⟩ := bc_ok hfr h2
    simp only [Py.pure_apply, Prod.mk.injEq] at h
    obtain ⟨h3, rfl⟩ := h
    cases h3
    exact ⟨rfl, rfl, fun _ => ⟨hsys, hsp, fun a b => (hmode a b).imp id fun x => x.2⟩⟩

theorem eqs_run {sub : Py ℝ} {s : Self} {k : Bool} {pos : Pos} (h : EqsDefined sub s k pos) :
    eqs sub k pos s = (.ok (eqsFun s (valOf sub s) k pos), s) := by
  cases pos with
  | m => rfl
  | l =>
    obtain ⟨hsys, hsp, hmode⟩ := h (by simp)
    have hb : bc sub k .l s = (.ok (bcFun s (valOf sub s) k .l), s) := by
      refine bc_run hsys (fun a b => (hmode a b).imp id fun x => ⟨by simp, x⟩) fun hn => ?_
      obtain ⟨kR, hk⟩ := hsp hn
      rw [valOf_ok hk, hk]
    simp only [eqs, Py.bind_of_ok hb, Py.get_bind]
    rfl
  | r =>
    obtain ⟨hsys, hsp, hmode⟩ := h (by simp)
    have hb : bc sub k .r s = (.ok (bcFun s (valOf sub s) k .r), s) := by
      refine bc_run hsys (fun a b => (hmode a b).imp id fun x => ⟨by simp, x⟩) fun hn => ?_
      obtain ⟨kR, hk⟩ := hsp hn
      rw [valOf_ok hk, hk]
    simp only [eqs, Py.bind_of_ok hb, Py.get_bind]
    rfl

/-! ## The loop -/

/-- First and one-past-last row of segment `i`. -/
def rowStart (i : ℕ) : ℕ := 6 * i - if i = 0 then 0 else 3
def rowStop (nS i : ℕ) : ℕ := 6 * i + if i + 1 = nS then 6 else 9

/-- Rows of segment `i` for end states `zl`, `zr`. -/
noncomputable def rowOf (s : Self) (kR : ℝ) (nS : ℕ) (ki : List Bool) (i r : ℕ) (zl zr : Vec6) : ℝ :=
  if rowStart i ≤ r ∧ r < rowStop nS i then
    (eqsFun s kR (ki.getD i false) (posOf nS i) zl zr).getD (r - rowStart i) 0
  else 0

/-- Column `j` of the complementary solution at `x` in segment `i`. -/
noncomputable def colOf (s : Self) (li : List ℝ) (ki : List Bool) (i : ℕ) (x : ℝ) (j : ℕ) : Vec6 :=
  fun q => zh s x (nth li i) (ki.getD i false) q (Fin.ofNat 6 j)

noncomputable def matAt (s : Self) (kR : ℝ) (nS : ℕ) (li : List ℝ) (ki : List Bool) (n r c : ℕ) : ℝ :=
  if c < 6 * n then
    rowOf s kR nS ki (c / 6) r (colOf s li ki (c / 6) 0 (c % 6)) (colOf s li ki (c / 6) (nth li (c / 6)) (c % 6))
  else 0

noncomputable def vecAt (s : Self) (kR phi : ℝ) (nS : ℕ) (li : List ℝ) (ki : List Bool) (n r : ℕ) : ℝ :=
  ∑ i ∈ Finset.range n, rowOf s kR nS ki i r (zp s 0 phi (ki.getD i false)) (zp s (nth li i) phi (ki.getD i false))

/-- When the loop body succeeds. -/
def SegDefined (sub : Py ℝ) (s : Self) (nS : ℕ) (li : List ℝ) (ki : List Bool) (i : ℕ) : Prop :=
  EqsDefined sub s (ki.getD i false) (posOf nS i) ∧
    (ki.getD i false = true → (zhBed s.eigs 0 (nth li i)).length = 6)

theorem asm_step (s : Self) (kR phi : ℝ) (nS : ℕ) (li : List ℝ) (ki : List Bool) (n : ℕ) :
    (writeBlock (matAt s kR nS li ki n) (6 * n - if n = 0 then 0 else 3) (6 * n + if n + 1 = nS then 6 else 9)
        (6 * n) (6 * (n + 1)) (fun r c : ℕ => (eqsFun s kR (ki.getD n false) (posOf nS n)
          (fun q => zh s 0 (nth li n) (ki.getD n false) q (Fin.ofNat 6 c))
          (fun q => zh s (nth li n) (nth li n) (ki.getD n false) q (Fin.ofNat 6 c))).getD r 0),
     addSlice (vecAt s kR phi nS li ki n) (6 * n - if n = 0 then 0 else 3) (6 * n + if n + 1 = nS then 6 else 9)
        (fun r : ℕ => (eqsFun s kR (ki.getD n false) (posOf nS n)
          (zp s 0 phi (ki.getD n false)) (zp s (nth li n) phi (ki.getD n false))).getD r 0))
    = (matAt s kR nS li ki (n + 1), vecAt s kR phi nS li ki (n + 1)) := by
  refine Prod.ext ?_ ?_
  · funext r c
    simp only [writeBlock, matAt]
    by_cases hc : c < 6 * n
    · rw [if_neg (by omega), if_pos hc, if_pos (by omega)]
    · by_cases hc2 : c < 6 * (n + 1)
      · rw [if_pos hc2]
        have e1 : c / 6 = n := by omega
        have e2 : c % 6 = c - 6 * n := by omega
        rw [e1, e2]
        unfold rowOf rowStart rowStop
        by_cases hr : (6 * n - if n = 0 then 0 else 3) ≤ r ∧ r < (6 * n + if n + 1 = nS then 6 else 9)
        · rw [if_pos ⟨hr.1, hr.2, by omega, hc2⟩, if_pos hr]
          rfl
        · rw [if_neg (fun h => hr ⟨h.1, h.2.1⟩), if_neg hc, if_neg hr]
      · rw [if_neg (by omega), if_neg hc, if_neg hc2]
  · funext r
    simp only [addSlice, vecAt, Finset.sum_range_succ]
    unfold rowOf rowStart rowStop
    by_cases hr : (6 * n - if n = 0 then 0 else 3) ≤ r ∧ r < (6 * n + if n + 1 = nS then 6 else 9)
    · rw [if_pos hr, if_pos hr]
    · rw [if_neg hr, if_neg hr, add_zero]

theorem asmBody_ok {sub : Py ℝ} {s s' : Self} {phi : ℝ} {nS : ℕ} {li : List ℝ} {ki : List Bool} {n : ℕ}
    {out : (ℕ → ℕ → ℝ) × (ℕ → ℝ)} (hfr : Frame sub s)
    (h : asmBody sub phi nS li ki (matAt s (valOf sub s) nS li ki n, vecAt s (valOf sub s) phi nS li ki n) n s
      = (.ok out, s')) :
    s' = s ∧ out = (matAt s (valOf sub s) nS li ki (n + 1), vecAt s (valOf sub s) phi nS li ki (n + 1)) ∧
      SegDefined sub s nS li ki n := by
  unfold asmBody at h
  simp only [Py.get_bind] at h
  obtain ⟨f, s1, h1, h⟩ := Py.bind_ok.mp h
  obtain ⟨rfl, rfl, hd⟩ := eqs_ok hfr h1
  simp only [Py.get_bind] at h
  obtain ⟨g, s2, h2, h⟩ := Py.bind_ok.mp h
  obtain ⟨rfl, rfl, -⟩ := eqs_ok hfr h2
  split at h
  · simp at h
  · rename_i hk
    simp only [Py.pure_apply, Prod.mk.injEq] at h
    obtain ⟨h3, rfl⟩ := h
    have h4 := Except.ok.inj h3
    rw [asm_step] at h4
    refine ⟨rfl, h4.symm, hd, fun hb => ?_⟩
    by_contra hne
    exact hk (by rw [hb]; simp [hne])

theorem asmBody_run {sub : Py ℝ} {s : Self} {phi : ℝ} {nS : ℕ} {li : List ℝ} {ki : List Bool} {n : ℕ}
    (h : SegDefined sub s nS li ki n) :
    asmBody sub phi nS li ki (matAt s (valOf sub s) nS li ki n, vecAt s (valOf sub s) phi nS li ki n) n s
      = (.ok (matAt s (valOf sub s) nS li ki (n + 1), vecAt s (valOf sub s) phi nS li ki (n + 1)), s) := by
  unfold asmBody
  simp only [Py.get_bind, Py.bind_of_ok (eqs_run h.1)]
  rw [if_neg]
  · rw [asm_step]; rfl
  · intro hk
    simp only [Bool.and_eq_true, bne_iff_ne, ne_eq] at hk
    exact hk.2 (h.2 hk.1)

theorem forLoop_append {α β : Type} (body : α → β → Py α) (l1 l2 : List β) (a : α) :
    forLoop body (l1 ++ l2) a = (forLoop body l1 a >>= fun a' => forLoop body l2 a') := by
  induction l1 generalizing a with
  | nil => rfl
  | cons b bs ih =>
    funext s
    simp only [List.cons_append, forLoop, ih]
    rw [Py.bind_eq, Py.bind_eq, Py.bind_eq]
    rcases body a b s with ⟨_ | _, _⟩ <;> rfl

theorem forLoop_singleton {α β : Type} (body : α → β → Py α) (b : β) (a : α) :
    forLoop body [b] a = body a b := by
  funext s
  simp only [forLoop]
  rw [Py.bind_eq]
  rcases body a b s with ⟨_ | _, _⟩ <;> rfl

theorem asmLoop_ok {sub : Py ℝ} {s s' : Self} {phi : ℝ} {nS : ℕ} {li : List ℝ} {ki : List Bool}
    {out : (ℕ → ℕ → ℝ) × (ℕ → ℝ)} (hfr : Frame sub s) (n : ℕ)
    (h : forLoop (asmBody sub phi nS li ki) (List.range n) ((fun _ _ => 0), (fun _ => 0)) s = (.ok out, s')) :
    s' = s ∧ out = (matAt s (valOf sub s) nS li ki n, vecAt s (valOf sub s) phi nS li ki n) ∧
      ∀ i < n, SegDefined sub s nS li ki i := by
  induction n generalizing out s' with
  | zero =>
    simp only [List.range_zero, forLoop, Py.pure_apply, Prod.mk.injEq] at h
    obtain ⟨h, rfl⟩ := h
    cases h
    refine ⟨rfl, ?_, by simp⟩
    refine Prod.ext ?_ ?_
    · funext r c; simp [matAt]
    · funext r; simp [vecAt]
  | succ n ih =>
    rw [List.range_succ, forLoop_append, Py.bind_ok] at h
    obtain ⟨a, s1, h1, h2⟩ := h
    obtain ⟨rfl, rfl, hd⟩ := ih h1
    rw [forLoop_singleton] at h2
    obtain ⟨rfl, rfl, hd2⟩ := asmBody_ok hfr h2
    refine ⟨rfl, rfl, fun i hi => ?_⟩
    rcases Nat.lt_succ_iff_lt_or_eq.mp hi with h | rfl
    · exact hd i h
    · exact hd2

theorem asmLoop_run {sub : Py ℝ} {s : Self} {phi : ℝ} {nS : ℕ} {li : List ℝ} {ki : List Bool} (n : ℕ)
    (h : ∀ i < n, SegDefined sub s nS li ki i) :
    forLoop (asmBody sub phi nS li ki) (List.range n) ((fun _ _ => 0), (fun _ => 0)) s
      = (.ok (matAt s (valOf sub s) nS li ki n, vecAt s (valOf sub s) phi nS li ki n), s) := by
  induction n with
  | zero =>
    simp only [List.range_zero, forLoop, Py.pure_apply, Prod.mk.injEq, and_true]
    congr 1
  | succ n ih =>
    rw [List.range_succ, forLoop_append, Py.bind_of_ok (ih fun i hi => h i (by omega)),
      forLoop_singleton, asmBody_run (h n (by omega))]

end Weac
