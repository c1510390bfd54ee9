import Verif.Props.Springs

/-!
# Substitute springs do not depend on system type and touchdown attributes
-/

namespace Weac
open Spec

section
variable (s : Self) (mode : Mode) (L a tc td phi ratio : ℝ)

/-- Abbreviation: other touchdown attributes, same system. -/
abbrev Self.retouch : Self := s.stage s.system mode L a tc td phi ratio

theorem aux_retouch {s : Self} (h : IsAux s) : IsAux (s.retouch mode L a tc td phi ratio) := h

theorem eqsDefined_aux {s : Self} (h : IsAux s) (k : Bool) (pos : Pos) : EqsDefined noSub s k pos := fun _ =>
  ⟨.inr (.inr (.inr h)), fun hn => absurd hn.1 (aux_not_pst h), fun hp => absurd hp (aux_not_pst h)⟩

theorem aux_not_skier {s : Self} (h : IsAux s) : ¬ IsSkier s := by
  unfold IsSkier
  rcases h with h | h <;> rw [h] <;> decide

theorem bcFun_aux {s : Self} (h : IsAux s) (kR : ℝ) (k : Bool) (pos : Pos) (z : Vec6) :
    bcFun s kR k pos z = ![fN s z, fM s z, fV s z] := by
  unfold bcFun
  rw [if_neg (aux_not_pst h), if_neg (aux_not_skier h)]

theorem eqsFun_retouch {s : Self} (h : IsAux s) (kR : ℝ) (k : Bool) (pos : Pos) :
    eqsFun (s.retouch mode L a tc td phi ratio) kR k pos = eqsFun s kR k pos := by
  funext zl zr
  cases pos <;> simp only [eqsFun, bcFun_aux h, bcFun_aux (aux_retouch mode L a tc td phi ratio h)] <;> rfl

theorem asmBody_retouch {s : Self} (h : IsAux s) (phi' : ℝ) (nS : ℕ) (li : List ℝ) (ki : List Bool)
    (acc : (ℕ → ℕ → ℝ) × (ℕ → ℝ)) (i : ℕ) :
    asmBody noSub phi' nS li ki acc i (s.retouch mode L a tc td phi ratio)
      = ((asmBody noSub phi' nS li ki acc i s).1, s.retouch mode L a tc td phi ratio) ∧
    (asmBody noSub phi' nS li ki acc i s).2 = s := by
  have h' := aux_retouch mode L a tc td phi ratio h
  have e1 := eqs_run (eqsDefined_aux h (ki.getD i false) (posOf nS i))
  have e2 := eqs_run (eqsDefined_aux h' (ki.getD i false) (posOf nS i))
  rw [eqsFun_retouch mode L a tc td phi ratio h] at e2
  unfold asmBody
  simp only [Py.get_bind, Py.bind_of_ok e1, Py.bind_of_ok e2]
  have hz : (s.retouch mode L a tc td phi ratio).eigs = s.eigs := rfl
  rw [hz]
  by_cases hk : (ki.getD i false && (zhBed s.eigs 0 (nth li i)).length != 6) = true
  · rw [if_pos hk, if_pos hk]
    exact ⟨rfl, rfl⟩
  · rw [if_neg hk, if_neg hk]
    exact ⟨rfl, rfl⟩

theorem forLoop_congr {α β : Type} (body : α → β → Py α) (s s' : Self)
    (h : ∀ a b, body a b s' = ((body a b s).1, s') ∧ (body a b s).2 = s) (l : List β) :
    ∀ a, forLoop body l a s' = ((forLoop body l a s).1, s') ∧ (forLoop body l a s).2 = s := by
  induction l with
  | nil => intro a; exact ⟨rfl, rfl⟩
  | cons b bs ih =>
    intro a
    obtain ⟨h1, h2⟩ := h a b
    simp only [forLoop, Py.bind_eq]
    rw [h1]
    rcases hb : body a b s with ⟨e | x, s1⟩
    · rw [hb] at h2
      exact ⟨rfl, h2⟩
    · rw [hb] at h2
      simp only at h2
      subst h2
      exact ih x

theorem asmSolve_retouch {s : Self} (h : IsAux s) (phi' : ℝ) (l : SegLists) :
    asmSolve noSub phi' l (s.retouch mode L a tc td phi ratio)
      = ((asmSolve noSub phi' l s).1, s.retouch mode L a tc td phi ratio) ∧ (asmSolve noSub phi' l s).2 = s := by
  have h' := aux_retouch mode L a tc td phi ratio h
  obtain ⟨e1, e2⟩ := forLoop_congr (asmBody noSub phi' l.li.length l.li l.ki) s (s.retouch mode L a tc td phi ratio)
    (fun x i => asmBody_retouch mode L a tc td phi ratio h phi' l.li.length l.li l.ki x i) (List.range l.li.length)
    ((fun _ _ => 0), (fun _ => 0))
  have n1 : ∀ t : Self, t.system = s.system → t.system ≠ "pst-" ∧ t.system ≠ "-pst" ∧ t.system ≠ "rested" := by
    intro t ht; rw [ht]
    rcases h with h | h <;> rw [h] <;> decide
  have b : ∀ t : Self, IsAux t → bc noSub false .m t = (.ok (fun z => ![fN t z, fM t z, fV t z]), t) := by
    intro t ht
    have p1 : ¬ (t.system = "pst-" ∨ t.system = "-pst") := aux_not_pst ht
    have p2 : ¬ (t.system = "-vpst" ∨ t.system = "vpst-") := aux_not_vpst ht
    have p3 : ¬ (t.system = "skier" ∨ t.system = "skiers") := aux_not_skier ht
    have p4 : (t.system = "rot" ∨ t.system = "trans") := ht
    unfold bc
    rw [Py.get_bind]
    simp only [if_neg p1, if_neg p2, if_neg p3, if_pos p4]
    rfl
  unfold asmSolve asmSolveBy
  simp only []
  rw [Py.bind_eq, Py.bind_eq, e1]
  rcases hl : forLoop (asmBody noSub phi' l.li.length l.li l.ki) (List.range l.li.length)
    ((fun _ _ => 0), (fun _ => 0)) s with ⟨e | x, s1⟩
  · rw [hl] at e2
    exact ⟨rfl, e2⟩
  · rw [hl] at e2
    simp only at e2
    subst e2
    simp only [Py.get_bind]
    have hs : (s1.retouch mode L a tc td phi ratio).system = s1.system := rfl
    simp only [hs, if_pos (n1 s1 rfl)]
    simp only [Py.bind_of_ok (b _ h), Py.bind_of_ok (b _ h'), Py.pure_bind']
    rcases h with h | h
    · have h6 : s1.system ≠ "trans" := by rw [h]; decide
      simp only [if_pos h, if_neg h6]
      simp only [Py.bind_eq, Py.lift_apply]
      rcases npSolve (6 * l.li.length) x.1 (fun r => (if r = 1 then 1 else 0) - x.2 r) with e | y
      · exact ⟨rfl, rfl⟩
      · exact ⟨rfl, rfl⟩
    · simp only [if_pos h]
      simp only [Py.bind_eq, Py.lift_apply]
      rcases npSolve (6 * l.li.length) x.1 (fun r => (if r = 2 then 1 else 0) - x.2 r) with e | y
      · exact ⟨rfl, rfl⟩
      · exact ⟨rfl, rfl⟩

theorem aux_assemble_retouch {s : Self} (h : IsAux s) (l : ℝ) :
    assembleWith noSub .ndarray 0 (auxLists l) (s.retouch mode L a tc td phi ratio)
      = ((assembleWith noSub .ndarray 0 (auxLists l) s).1, s.retouch mode L a tc td phi ratio) ∧
    (assembleWith noSub .ndarray 0 (auxLists l) s).2 = s := by
  have hk : SeqKind.ndarray = .list ∨ (auxLists l).li.length ≠ 1 := .inr (by simp [auxLists])
  rw [C17_accepts noSub .ndarray 0 _ s (aux_valid s h l) hk,
    C17_accepts noSub .ndarray 0 _ _ (aux_valid _ (aux_retouch mode L a tc td phi ratio h) l) hk]
  obtain ⟨e1, e2⟩ := asmSolve_retouch mode L a tc td phi ratio h 0 (full (auxLists l))
  rw [e1]
  exact ⟨rfl, e2⟩

end

theorem rasterize_congr {s s' : Self} (h : ∀ x C l phi k, zsol s' x C l phi k = zsol s x C l phi k) (phi : ℝ)
    (num : ℕ) (segs : List Seg) : rasterize s' phi num segs = rasterize s phi num segs := by
  have e : ∀ gs tot x0 prev, rasterLoop s' phi num tot x0 prev gs = rasterLoop s phi num tot x0 prev gs := by
    intro gs
    induction gs with
    | nil => intros; rfl
    | cons g gs ih =>
      intro tot x0 prev
      simp only [rasterLoop, ih, segPts, h]
  unfold rasterize
  split
  · rfl
  · rw [e]

theorem rasterize_stage (s : Self) (sys : String) (mode : Mode) (L a tc td phi ratio phi' : ℝ) (num : ℕ)
    (segs : List Seg) :
    rasterize (s.stage sys mode L a tc td phi ratio) phi' num segs = rasterize s phi' num segs :=
  rasterize_congr (s := s) (s' := s.stage sys mode L a tc td phi ratio) (fun _ _ _ _ _ => rfl) _ _ _

/-- Springs are the same for every touchdown stage, crack length, inclination
and system type. -/
theorem sub_congr (eig : EigSolver) (l : ℝ) (rested : Bool) (dof : Dof) (hd : dof ≠ .other) (s : Self) (sys : String)
    (mode : Mode) (L a tc td phi : ℝ) :
    (substituteStiffness eig l rested dof (s.stage sys mode L a tc td phi s.ratio)).1
      = (substituteStiffness eig l rested dof s).1 := by
  have key : ∀ t : Self, IsAux t → ∀ (post : Self → List Vec6 → Res (List GridPt))
      (hp : ∀ C, post (t.retouch mode L a tc td phi s.ratio) C = post t C) (g g' : List GridPt → Py ℝ)
      (hg : ∀ x u u', (g x u).1 = (g' x u').1),
      ((assembleWith noSub .ndarray 0 (auxLists l) >>= fun out => Py.get >>= fun u =>
        Py.lift (post u out.1) >>= g) (t.retouch mode L a tc td phi s.ratio)).1
      = ((assembleWith noSub .ndarray 0 (auxLists l) >>= fun out => Py.get >>= fun u =>
        Py.lift (post u out.1) >>= g') t).1 := by
    intro t ht post hp g g' hg
    obtain ⟨e1, e2⟩ := aux_assemble_retouch mode L a tc td phi s.ratio ht l
    rw [Py.bind_eq, Py.bind_eq, e1]
    rcases hl : assembleWith noSub .ndarray 0 (auxLists l) t with ⟨e | x, s1⟩
    · rfl
    · rw [hl] at e2
      simp only at e2
      subst e2
      simp only [Py.get_bind]
      rw [Py.bind_eq, Py.bind_eq, Py.lift_apply, Py.lift_apply, hp]
      rcases post s1 x.1 with e | y
      · rfl
      · exact hg _ _ _
  unfold substituteStiffness
  cases dof <;> cases rested <;>
    simp only [Py.get_bind, Py.bind_assoc, Py.modify_bind, Py.pure_bind', if_true, Bool.false_eq_true,
      if_false]
  case other.true | other.false => exact absurd rfl hd
  case rot.false =>
    exact key { s with system := "rot" } (.inl rfl)
      (fun u C => rasterize u 0 1 [⟨C.getD 0 0, true, l⟩, ⟨C.getD 1 0, true, 0⟩]) (fun _ => rasterize_stage _ _ _ _ _ _ _ _ _ _ _ _) _ _ (fun _ _ _ => rfl)
  case trans.false =>
    exact key { s with system := "trans" } (.inr rfl)
      (fun u C => rasterize u 0 1 [⟨C.getD 0 0, true, l⟩, ⟨C.getD 1 0, true, 0⟩]) (fun _ => rasterize_stage _ _ _ _ _ _ _ _ _ _ _ _) _ _ (fun _ _ _ => rfl)
  case rot.true =>
    exact key (calcEigensystem eig { s with system := "rot", kn := s.ratio * s.kn, kt := s.ratio * s.kt }) (.inl rfl)
      (fun u C => rasterize u 0 1 [⟨C.getD 0 0, true, l⟩, ⟨C.getD 1 0, true, 0⟩]) (fun _ => rasterize_stage _ _ _ _ _ _ _ _ _ _ _ _) _ _ (fun _ _ _ => rfl)
  case trans.true =>
    exact key (calcEigensystem eig { s with system := "trans", kn := s.ratio * s.kn, kt := s.ratio * s.kt }) (.inr rfl)
      (fun u C => rasterize u 0 1 [⟨C.getD 0 0, true, l⟩, ⟨C.getD 1 0, true, 0⟩]) (fun _ => rasterize_stage _ _ _ _ _ _ _ _ _ _ _ _) _ _ (fun _ _ _ => rfl)

end Weac
