import Verif.Props.Coupled

/-!
# Single steps of the searches: C46, C53, C54

The constants of Mede's curves, errors of the root search that are caught, the
doubling of the weight, and the weight that the dampened search tries next.
-/

namespace Weac

/-- C46: Mede's failure curves. The shear strength is greatest at the first pressure,
where it has the second value, and vanishes at the third pressure (kPa). -/
theorem C46_mede_curves {sample : String} {p c q : ℝ} (h : (sample, p, c, q) ∈
    [("s-RG1", 1.49, 3.53, 8.49), ("s-RG2", 0.19, 1.22, 2.52), ("s-FCDH", 0.17, 0.61, 1.62)]) :
    failureEnvelopeMede false sample p = .ok c ∧ failureEnvelopeMede false sample q = .ok 0 ∧
      ∀ sigma y, failureEnvelopeMede false sample sigma = .ok y → y ≤ c := by
  have key : ∀ (m : Mede) (sample : String), m.Pos → (∀ sigma, failureEnvelopeMede false sample sigma = .ok (
      if m.pT - m.p0 ≤ sigma ∧ sigma ≤ m.pT then m.tauT / m.p0 * sigma + (m.tauT - m.tauT * m.pT / m.p0)
      else if m.pT < sigma ∧ sigma ≤ m.pT + m.p0 then Real.sqrt (m.tauT ^ 2 - m.tauT ^ 2 / m.p0 ^ 2 * (sigma - m.pT) ^ 2)
      else 0)) → failureEnvelopeMede false sample m.pT = .ok m.tauT ∧ failureEnvelopeMede false sample (m.pT + m.p0) = .ok 0 ∧
      ∀ sigma y, failureEnvelopeMede false sample sigma = .ok y → y ≤ m.tauT := by
    intro m sample hm hf
    obtain ⟨h1, h2, h3⟩ := hm
    refine ⟨?_, ?_, ?_⟩
    · rw [hf, if_pos ⟨by linarith, le_rfl⟩]
      congr 1
      field_simp
      ring
    · rw [hf, if_neg (by intro h; linarith [h.2]), if_pos ⟨by linarith, le_rfl⟩]
      congr 1
      rw [Real.sqrt_eq_zero']
      have : m.tauT ^ 2 - m.tauT ^ 2 / m.p0 ^ 2 * (m.pT + m.p0 - m.pT) ^ 2 = 0 := by
        field_simp
        ring
      rw [this]
    · intro sigma y hy
      rw [hf] at hy
      injection hy with hy
      rw [← hy]
      split_ifs with a b
      · have : m.tauT / m.p0 * sigma + (m.tauT - m.tauT * m.pT / m.p0) = m.tauT - m.tauT / m.p0 * (m.pT - sigma) := by ring
        rw [this]
        have : 0 ≤ m.tauT / m.p0 * (m.pT - sigma) := mul_nonneg (by positivity) (by linarith [a.2])
        linarith
      · rw [Real.sqrt_le_left h2.le]
        have : 0 ≤ m.tauT ^ 2 / m.p0 ^ 2 * (sigma - m.pT) ^ 2 := by positivity
        linarith
      · exact h2.le
  obtain ⟨p1, p2, p3⟩ := mede_pos
  simp only [List.mem_cons, Prod.mk.injEq, List.not_mem_nil, or_false] at h
  rcases h with ⟨rfl, rfl, rfl, rfl⟩ | ⟨rfl, rfl, rfl, rfl⟩ | ⟨rfl, rfl, rfl, rfl⟩
  · have := key medeRG1 "s-RG1" p1 (fun _ => rfl)
    simp only [medeRG1] at this
    norm_num at this ⊢
    exact this
  · have := key medeRG2 "s-RG2" p2 (fun _ => rfl)
    simp only [medeRG2] at this
    norm_num at this ⊢
    exact this
  · have := key medeFCDH "s-FCDH" p3 (fun _ => rfl)
    simp only [medeFCDH] at this
    norm_num at this ⊢
    exact this

theorem mapM_error {α β : Type} (f : α → Res β) (P : PyErr → Prop) (hf : ∀ a e, f a = .error e → P e) :
    ∀ (l : List α) (e : PyErr), l.mapM f = .error e → P e := by
  intro l
  induction l with
  | nil => intro e h; cases h
  | cons a r ih =>
    intro e h
    rw [List.mapM_cons] at h
    cases h1 : f a with
    | error e' =>
      rw [h1] at h
      injection h with h
      subst h
      exact hf a e' h1
    | ok v =>
      rw [h1] at h
      cases h2 : r.mapM f with
      | error e' =>
        simp only [bind, Except.bind, h2] at h
        injection h with h
        subst h
        exact ih e' h2
      | ok w =>
        simp only [bind, Except.bind, h2] at h
        cases h

/-- C53: a root search that fails, or one over an interval without a change of sign, is
skipped; it does not end the search for the crack. -/
theorem C53_caught (num : Numerics) (env : Env) (phi : ℝ) (li : List ℝ) (r : Skier) (d : List ℝ) (hd : distances env r = .ok d)
    (e : PyErr) (h : findRoots num env phi li r = .error e) : e ≠ .valueError ∧ e ≠ .runtimeError := by
  unfold findRoots at h
  rw [hd] at h
  simp only [bind, Except.bind] at h
  split at h
  · rename_i e' he
    injection h with h
    subst h
    refine mapM_error _ (fun e => e ≠ .valueError ∧ e ≠ .runtimeError) ?_ _ _ he
    intro a e h
    unfold rootIn at h
    split at h
    · cases h
    · cases h
    · cases h
    · rename_i n1 n2 _
      injection h with h
      subst h
      exact ⟨fun c => by simp_all, fun c => by simp_all⟩
  · cases h

/-- C54: the upper weight found by doubling releases enough energy, all smaller
multiples tried before it do not. -/
theorem C54_doubled (check : ℝ → Res (Option ℝ)) (n : ℕ) (w W : ℝ) (h : doubleWeight check n w = .ok (some W)) :
    ∃ k g, 1 ≤ k ∧ k ≤ n ∧ W = 2 ^ k * w ∧ check W = .ok g ∧ below g 1 = false ∧
      ∀ j, 1 ≤ j → j < k → ∃ g, check (2 ^ j * w) = .ok g ∧ below g 1 = true := by
  induction n generalizing w with
  | zero => cases h
  | succ n ih =>
    unfold doubleWeight at h
    cases hc : check (w * 2) with
    | error e => rw [hc] at h; cases h
    | ok g =>
      rw [hc] at h
      simp only [bind, Except.bind] at h
      cases hb : below g 1 with
      | true =>
        rw [hb] at h
        obtain ⟨k, g', k1, k2, k3, k4, k5, k6⟩ := ih (w * 2) h
        refine ⟨k + 1, g', by omega, by omega, by rw [k3]; ring, k4, k5, ?_⟩
        intro j j1 j2
        by_cases hj : j = 1
        · subst hj
          exact ⟨g, by rw [pow_one, mul_comm]; exact hc, hb⟩
        · obtain ⟨g2, a, b⟩ := k6 (j - 1) (by omega) (by omega)
          refine ⟨g2, ?_, b⟩
          rw [← a]
          congr 1
          obtain ⟨i, rfl⟩ : ∃ i, j = i + 1 := ⟨j - 1, by omega⟩
          simp only [Nat.add_sub_cancel]
          ring
      | false =>
        rw [hb] at h
        simp only [Bool.false_eq_true, if_false, pure, Except.pure, Except.ok.injEq, Option.some.injEq] at h
        subst h
        refine ⟨1, g, le_rfl, by omega, by ring, hc, hb, ?_⟩
        intro j j1 j2
        omega

/-- Energy that grows like the weight: doubling from 3 ends at 12 if 10 suffices. -/
example : doubleWeight (fun w => .ok (some (w / 10))) 5 3 = .ok (some 12) := by
  have b1 : below (some ((3 : ℝ) * 2 / 10)) 1 = true := by simp [below]; norm_num
  have b2 : below (some ((3 : ℝ) * 2 * 2 / 10)) 1 = false := by simp [below]; norm_num
  rw [doubleWeight]
  simp only [bind, Except.bind]
  rw [if_pos b1, doubleWeight]
  simp only [bind, Except.bind]
  rw [if_neg (by rw [b2]; decide)]
  norm_num [pure, Except.pure]

/-- C54: the weight that the dampened search tries next. Far from the goal (error of at
least one half) it is the middle of the interval; close to the goal it goes beyond the
middle by a fraction `1/(dampening + 2)` of the relative step from the last weight. -/
theorem C54_next_weight (num : Numerics) (quad : Quad) (site : Site) (damp crit : ℝ) (hdamp : damp + 2 ≠ 0) (st st' : Search)
    (h : dampenedPass num quad site damp crit st = .ok (.inl st')) (c : Skier) (g : ℝ) (hl : st'.last = some (c, some g))
    (hg : 0.002 < |g - 1|) :
    let m := (st'.minW + st'.maxW) / 2
    (1 / 2 ≤ |g - 1| → st'.weight = m) ∧
    (|g - 1| < 1 / 2 → (st'.weight - m) * (damp + 2) = m * (m / st.weight - 1)) := by
  unfold dampenedPass at h
  simp only [bind, Except.bind] at h
  cases ht : trackPass num quad site st with
  | error e => simp [ht] at h
  | ok st1 =>
    obtain ⟨r, c1, g1, d, hi, lo, t1, t2, t3, t4, t5⟩ := trackPass_ok ht
    simp only [ht] at h
    have hlast : st1.last = some (c1, g1) := by rw [t5]
    have hw : st1.weight = st.weight := by rw [t5]
    rw [hlast] at h
    dsimp only at h
    by_cases hp : st1.weights.length = 1 ∧ above g1 1 = true
    · rw [if_pos hp] at h
      simp [pure, Except.pure] at h
    · rw [if_neg hp, narrow_fields] at h
      split at h
      · simp at h
      · rename_i st3 hn
        simp only [pure, Except.pure, Except.ok.injEq, Sum.inl.injEq] at h
        subst h
        have hl2 : ∀ (a b : ℝ), ({ st1 with distMaxs := st1.distMaxs.dropLast ++ [st1.distMax], distMins := st1.distMins.dropLast ++ [st1.distMin], last := some (c1, g1), minW := a, maxW := b } : Search).last = some (c1, g1) := fun _ _ => rfl
        rcases nextCrack_ok (hl2 _ _) hn with ⟨e1, a, li, ki, e2, e3⟩ | ⟨e1, e3⟩
        · subst e3
          simp only [Option.some.injEq, Prod.mk.injEq] at hl
          obtain ⟨rfl, rfl⟩ := hl
          have he : ∀ (a b : ℝ), below ({ st1 with distMaxs := st1.distMaxs.dropLast ++ [st1.distMax], distMins := st1.distMins.dropLast ++ [st1.distMin], last := some (c1, some g), minW := a, maxW := b } : Search).err 0.5 = decide (|g - 1| < 0.5) := fun _ _ => rfl
          dsimp only
          generalize ((if below (some g) 1 = true then st1.weight else st1.minW) +
            if below (some g) 1 = true then st1.maxW else st1.weight) / 2 = m
          rw [he, hw]
          norm_num
          constructor
          · intro h h'
            linarith
          · intro h
            rw [if_pos h]
            have : damp + 1 + 1 ≠ 0 := by convert hdamp using 1; ring
            field_simp
            ring
        · subst e3
          simp only [Option.some.injEq, Prod.mk.injEq] at hl
          obtain ⟨rfl, rfl⟩ := hl
          rw [above_err] at e1
          simp only [decide_eq_false_iff_not] at e1
          exact absurd hg e1

end Weac
