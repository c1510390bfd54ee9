import Verif.Props.Anticrack
import Verif.Props.Incremental

/-!
# C54: the coupled criterion
-/

namespace Weac

open Spec

/-! ## What a run of `create_skier_object` tells about the segments -/

/-- If `create_skier_object` returns for segments of nonnegative length, the last
one not of length zero, the beam has supported ends and a boundary at or beyond
the middle. -/
theorem create_beam {num : Numerics} {site : Site} (hs : SiteOk num site) {w : ℝ} {li : List ℝ} {ki : List Bool} {r : Skier}
    (h0 : ∀ l ∈ li, 0 ≤ l) (hl : nth li (li.length - 1) ≠ 0) (h : createSkierObject num site w li ki .crack = .ok r) :
    BeamOk li ki := by
  obtain ⟨s, k1, k2, k3, k4, k5, -⟩ := siteObject_ready num.eig site hs.plies hs.t hs.E
  unfold createSkierObject at h
  rw [k1] at h
  simp only [bind, Except.bind] at h
  have hne : li ≠ [] := by rintro rfl; simp [nth] at hl
  have hp : 0 < li.length := List.length_pos_iff.2 hne
  have hsum := List.sum_nonneg h0
  have hlast : 0 < nth li (li.length - 1) := by
    rw [nth_eq (by omega)] at hl ⊢
    exact lt_of_le_of_ne (h0 _ (List.getElem_mem _)) (Ne.symm hl)
  have hpos : 0 < li.sum := by
    rw [nth_eq (by omega)] at hlast
    exact lt_of_lt_of_le hlast (List.single_le_sum h0 _ (List.getElem_mem _))
  cases hw : skierWeights w li ki with
  | error e => rw [hw] at h; simp at h
  | ok mi =>
    rw [hw] at h
    simp only at h
    have hm : li.sum / 2 ≤ Spec.startOf li (li.length - 1) := by
      unfold skierWeights at hw
      simp only [bind, Except.bind] at hw
      split_ifs at hw with hki
      · obtain ⟨i, hi, h1, h2, h3⟩ := medianLoop_in (half := li.sum / 2) li 0 0 (by linarith) hne
        rw [zero_add] at h1
        by_cases hi' : i + 1 < li.length
        · exact h1.trans (startOf_mono h0 (by omega))
        · rw [if_neg hi'] at h3
          rw [h3] at hw
          simp at hw
    obtain ⟨g, hg⟩ := calcSegments_off num li mi ki (CrackCase.nocrack.support ki) 10000 0 0 0 0.5 1000 s k5 k4
      (by rw [k3]; decide)
    have hg' := C22_skiers num li mi ki _ 10000 0 0 0 0.5 1000 s _ g k2.fresh.eigFresh k3 hg
    subst hg'
    change calcSegments num li mi ki (CrackCase.nocrack.support ki) 10000 0 0 0 0.5 1000 s
      = (_, s.afterSegments) at hg
    unfold solveSkier at h
    rw [Py.bind_of_ok hg] at h
    by_cases hv : Valid s.afterSegments ⟨li, mi, ki⟩
    · have he := hv.ends (by rw [show s.afterSegments.system = s.system from rfl, k3]; decide)
      exact ⟨hv.ki, h0, hm, hlast, he.1, he.2⟩
    · have := C17_rejects (do
        let s ← Py.get
        substituteStiffness num.eig (s.a - s.td) true .rot) .ndarray site.phi _ _ hv
      dsimp only at h
      rw [Py.bind_of_error (m := assembleAndSolve num .ndarray site.phi ⟨li, mi, ki⟩) this] at h
      simp at h

/-- Constants and segments of the object that is returned. -/
theorem create_shape {num : Numerics} {site : Site} (hp : ValidPlies site.profile) (ht : 0 < site.t) (hE : 0 < site.E) {w : ℝ} {li : List ℝ} {ki : List Bool}
    {case : CrackCase} {r : Skier} (h : createSkierObject num site w li ki case = .ok r) :
    r.C.length = li.length ∧ r.segments.li = li ∧ r.segments.ki = case.support ki ∧ (case.support ki).length = li.length ∧
      (case.support ki).head? = some true ∧ (case.support ki).getLast? = some true := by
  obtain ⟨s, k1, k2, k3, k4, k5, -⟩ := siteObject_ready num.eig site hp ht hE
  have hf := k2.fresh.eigFresh
  unfold createSkierObject at h
  rw [k1] at h
  simp only [bind, Except.bind] at h
  cases hw : skierWeights w li ki with
  | error e => rw [hw] at h; simp at h
  | ok mi =>
    rw [hw] at h
    simp only at h
    obtain ⟨g, hg⟩ := calcSegments_off num li mi ki (CrackCase.nocrack.support ki) 10000 0 0 0 0.5 1000 s k5 k4
      (by rw [k3]; decide)
    have hg' := C22_skiers num li mi ki _ 10000 0 0 0 0.5 1000 s _ g hf k3 hg
    subst hg'
    change calcSegments num li mi ki (CrackCase.nocrack.support ki) 10000 0 0 0 0.5 1000 s
      = (_, s.afterSegments) at hg
    rcases hx : solveSkier num site.phi li mi ki case s with ⟨y, s2⟩
    rw [hx] at h
    simp only at h
    subst h
    unfold solveSkier at hx
    rw [Py.bind_of_ok hg] at hx
    obtain ⟨⟨C, a⟩, s3, h3, hx⟩ := Py.bind_ok.mp hx
    have h3 : assembleAndSolve num .ndarray site.phi ⟨li, mi, case.support ki⟩ s.afterSegments = (.ok (C, a), s3) := by
      cases case <;> exact h3
    have hnv : ¬ IsVpst s.afterSegments := by
      rintro (h | h) <;> exact absurd (h.symm.trans k3) (by decide)
    obtain ⟨hV, -, -⟩ := assembleWith_valid (sub := spring num) h3
    have hlen : (⟨li, mi, case.support ki⟩ : SegLists).li.length ≠ 1 := by
      intro hc
      have := C17_single_ndarray (spring num) site.phi _ _ hV hc
      have h3' : assembleWith (spring num) .ndarray site.phi ⟨li, mi, case.support ki⟩ s.afterSegments = (.ok (C, a), s3) := h3
      rw [this] at h3'
      simp at h3'
    obtain ⟨a1, a2, a3, -⟩ := C16_solution_meets_all_conditions num .ndarray site.phi _ _ _ _ C (hf.stage _ _ _ _ _ _ _ _)
      (fun h => absurd h hnv) h3
    have hfull : full ⟨li, mi, case.support ki⟩ = ⟨li, mi, case.support ki⟩ := by
      unfold full; rw [if_neg hlen]
    rw [hfull] at a2
    subst a2
    simp only [Py.get_bind] at hx
    obtain ⟨pts, s4, -, hx⟩ := Py.bind_ok.mp hx
    obtain ⟨⟨x, t⟩, s5, -, hx⟩ := Py.bind_ok.mp hx
    obtain ⟨⟨x', sg⟩, s6, -, hx⟩ := Py.bind_ok.mp hx
    simp only [Py.pure_apply, Prod.mk.injEq, Except.ok.injEq] at hx
    rw [← hx.1]
    have he := hV.ends (by rw [show s.afterSegments.system = s.system from rfl, k3]; decide)
    exact ⟨a3, rfl, rfl, hV.ki, he.1, he.2⟩

theorem create_parts {num : Numerics} {site : Site} (hs : SiteOk num site) {w : ℝ} {li : List ℝ} {ki : List Bool}
    {case : CrackCase} {r : Skier} (h : createSkierObject num site w li ki case = .ok r) :
    r.C.length = li.length ∧ r.segments.li = li ∧ r.segments.ki = case.support ki ∧ (case.support ki).length = li.length ∧
      (case.support ki).head? = some true ∧ (case.support ki).getLast? = some true :=
  create_shape hs.plies hs.t hs.E h

/-! ## Segments from arbitrary roots -/

theorem rootIn_inside {num : Numerics} (hb : BrentOk num) {f : ℝ → Res ℝ} {s : Self} {b : ℝ × ℝ} (hab : b.1 ≤ b.2) {x : ℝ}
    (h : rootIn num f s b = .ok (some x)) : b.1 ≤ x ∧ x ≤ b.2 := by
  unfold rootIn at h
  rcases hq : brentq num (fun x => Py.lift (f x)) b.1 b.2 s with ⟨_ | y, s'⟩
  · rename_i e
    rw [hq] at h
    cases e <;> simp at h
  · rw [hq] at h
    simp only [Except.ok.injEq, Option.some.injEq] at h
    subst h
    exact brentq_bracket hb hab hq

/-- Roots within their brackets are in order. -/
theorem roots_ordered {g : ℝ × ℝ → Res (Option ℝ)} (hg : ∀ b x, b.1 ≤ b.2 → g b = .ok (some x) → b.1 ≤ x ∧ x ≤ b.2) :
    ∀ (ps : List (ℝ × ℝ)) (p : ℝ × ℝ) (os : List (Option ℝ)), (p :: ps).Pairwise (fun a b => a.1 < b.1) →
      (transitions (p :: ps)).mapM g = .ok os →
      (reals os).Pairwise (· ≤ ·) ∧ (∀ x ∈ reals os, p.1 ≤ x) ∧ ∀ x ∈ reals os, ∃ q ∈ ps, x ≤ q.1 := by
  intro ps
  induction ps with
  | nil =>
    intro p os _ h
    simp only [transitions, List.mapM_nil, pure, Except.pure, Except.ok.injEq] at h
    subst h
    simp [reals]
  | cons q ps ih =>
    intro p os hp h
    have hpq : p.1 < q.1 := (List.pairwise_cons.1 hp).1 q (by simp)
    unfold transitions at h
    split_ifs at h with hs
    · obtain ⟨a1, a2, a3⟩ := ih q os (List.pairwise_cons.1 hp).2 h
      refine ⟨a1, fun x hx => hpq.le.trans (a2 x hx), fun x hx => ?_⟩
      obtain ⟨q', h1, h2⟩ := a3 x hx
      exact ⟨q', List.mem_cons_of_mem _ h1, h2⟩
    · rw [List.mapM_cons] at h
      simp only [bind, Except.bind] at h
      cases h1 : g (p.1, q.1) with
      | error e => rw [h1] at h; simp at h
      | ok o =>
        rw [h1] at h
        cases h2 : (transitions (q :: ps)).mapM g with
        | error e => simp [h2] at h
        | ok os' =>
          simp only [h2, pure, Except.pure, Except.ok.injEq] at h
          subst h
          obtain ⟨a1, a2, a3⟩ := ih q os' (List.pairwise_cons.1 hp).2 h2
          have a3' : ∀ x ∈ reals os', ∃ q' ∈ q :: ps, x ≤ q'.1 := fun x hx => by
            obtain ⟨q', h1, h2⟩ := a3 x hx
            exact ⟨q', List.mem_cons_of_mem _ h1, h2⟩
          cases o with
          | none =>
            have e : reals (none :: os') = reals os' := by simp [reals]
            rw [e]
            exact ⟨a1, fun x hx => hpq.le.trans (a2 x hx), a3'⟩
          | some y =>
            have e : reals (some y :: os') = y :: reals os' := by simp [reals]
            have hy := hg (p.1, q.1) y hpq.le h1
            rw [e]
            refine ⟨List.pairwise_cons.2 ⟨fun x hx => hy.2.trans (a2 x hx), a1⟩, ?_, ?_⟩
            · intro x hx
              rcases List.mem_cons.1 hx with rfl | hx
              · exact hy.1
              · exact hpq.le.trans (a2 x hx)
            · intro x hx
              rcases List.mem_cons.1 hx with rfl | hx
              · exact ⟨q, by simp, hy.2⟩
              · exact a3' x hx

theorem zip_ordered : ∀ {xs : List ℝ}, xs.Pairwise (· < ·) → ∀ vs : List ℝ, (xs.zip vs).Pairwise (fun a b => a.1 < b.1) := by
  intro xs
  induction xs with
  | nil => intro _ vs; simp
  | cons x xs ih =>
    intro h vs
    cases vs with
    | nil => simp
    | cons v vs =>
      rw [List.zip_cons_cons, List.pairwise_cons]
      refine ⟨fun q hq => ?_, ih (List.pairwise_cons.1 h).2 vs⟩
      exact (List.pairwise_cons.1 h).1 _ (List.of_mem_zip (show (q.1, q.2) ∈ _ from hq)).1

theorem diff_nonneg' (b : ℝ) (bs : List ℝ) : (b :: bs).Pairwise (· ≤ ·) → ∀ l ∈ diff (b :: bs), 0 ≤ l := by
  induction bs generalizing b with
  | nil => intro _ l hl; simp [diff] at hl
  | cons c bs ih =>
    intro hp l hl
    simp only [diff, List.mem_cons] at hl
    rcases hl with rfl | hl
    · have := (List.pairwise_cons.1 hp).1 c (by simp)
      linarith
    · exact ih c (List.pairwise_cons.1 hp).2 l hl

theorem crackLength_nonneg {li : List ℝ} (h0 : ∀ l ∈ li, 0 ≤ l) (ki : List Bool) : 0 ≤ crackLength li ki := by
  induction li generalizing ki with
  | nil => simp [crackLength]
  | cons l li ih =>
    cases ki with
    | nil => simp [crackLength]
    | cons k ki =>
      rw [crackLength_cons]
      have h1 := ih (fun x hx => h0 x (List.mem_cons_of_mem _ hx)) ki
      have h2 := h0 l (by simp)
      split_ifs <;> linarith

theorem crackLength_pos {li : List ℝ} (h0 : ∀ l ∈ li, 0 ≤ l) : ∀ (ki : List Bool) (j : ℕ), 0 < nth li j → ki[j]? = some false →
    0 < crackLength li ki := by
  induction li with
  | nil => intro ki j h; simp [nth] at h
  | cons l li ih =>
    intro ki j h1 h2
    cases ki with
    | nil => simp at h2
    | cons k ki =>
      rw [crackLength_cons]
      have h0' : ∀ x ∈ li, 0 ≤ x := fun x hx => h0 x (List.mem_cons_of_mem _ hx)
      cases j with
      | zero =>
        simp only [List.getElem?_cons_zero, Option.some.injEq] at h2
        subst h2
        have := crackLength_nonneg h0' ki
        simp [nth] at h1
        simp; linarith
      | succ j =>
        have := ih h0' ki j (by simpa [nth] using h1) (by simpa using h2)
        have h2 := h0 l (by simp)
        split_ifs <;> linarith

/-- Splitting keeps lengths nonnegative, marks nothing new as cracked, and does
not shorten the crack. -/
theorem split_shape {li li' : List ℝ} {ki ki' : List Bool} (h0 : ∀ l ∈ li, 0 ≤ l) (hk : ki.length = li.length)
    (h : splitAtMidpoint li ki = .ok (li', ki')) : (∀ l ∈ li', 0 ≤ l) ∧ ki'.length = li'.length ∧ (∀ k ∈ ki', k ∈ ki) ∧
      crackLength li ki ≤ crackLength li' ki' ∧ li.sum ≤ li'.sum := by
  by_cases hf : nth li 0 < li.sum / 2
  · obtain ⟨li2, ki2, c1, c2, c3, c4, c5, c6, c7⟩ := split_touches li ki hk h0 hf
    obtain ⟨i, hi, hlt, hle, c8⟩ := split_run li ki hk h0 hf
    rw [c1] at h c8
    injection h with h
    injection h with h1 h2
    subst h1 h2
    injection c8 with c8
    injection c8 with c8 c9
    refine ⟨c4, c2, ?_, c6.ge, c3.ge⟩
    intro k hk
    rw [c9] at hk
    simp only [List.mem_append, List.mem_cons, List.not_mem_nil, or_false] at hk
    rcases hk with ((hk | hk) | hk) | hk
    · exact List.mem_of_mem_take hk
    · rw [hk]; exact List.getElem_mem _
    · rw [hk]; exact List.getElem_mem _
    · exact List.mem_of_mem_drop hk
  · have hs := List.sum_nonneg h0
    cases li with
    | nil => simp [splitAtMidpoint, cumsum] at h
    | cons l ls =>
      cases ki with
      | nil => simp at hk
      | cons k ks =>
        rw [split_first (by simpa [nth] using not_lt.1 hf)] at h
        injection h with h
        injection h with h1 h2
        subst h1 h2
        refine ⟨?_, by simpa using hk, ?_, ?_, ?_⟩
        · intro x hx
          rcases List.mem_cons.1 hx with rfl | hx
          · linarith
          · exact h0 x hx
        · intro x hx
          rcases List.mem_cons.1 hx with rfl | hx
          · simp
          · exact hx
        · rw [crackLength_cons _ _ (l :: ls)]
          split_ifs <;> linarith
        · rw [List.sum_cons (a := (l :: ls).sum / 2)]
          linarith

theorem crack_fold_false (root : List Bool) (is : List ℕ) (hi : ∀ i ∈ is, 1 ≤ i) : ∀ (st : List Bool × Bool),
    (∀ j, st.1[j]? = some false → root.getD j false = true ∧ root.getD (j + 1) false = true) →
    (is.foldl (crackStep root) st).1.length = st.1.length ∧ ∀ j, (is.foldl (crackStep root) st).1[j]? = some false →
      root.getD j false = true ∧ root.getD (j + 1) false = true := by
  induction is with
  | nil => intro st h; exact ⟨rfl, h⟩
  | cons i is ih =>
    intro st h
    have hi1 := hi i (by simp)
    rw [List.foldl_cons]
    have hlen : (crackStep root st i).1.length = st.1.length := by
      unfold crackStep
      split_ifs <;> simp
    rw [← hlen]
    refine ih (fun x hx => hi x (List.mem_cons_of_mem _ hx)) _ ?_
    intro j hj
    unfold crackStep at hj
    split_ifs at hj with hc
    · rw [List.getElem?_set] at hj
      split_ifs at hj with h1 h2
      · subst h1
        rw [Bool.and_eq_true] at hc
        rw [show i - 1 + 1 = i by omega]
        exact ⟨hc.2, hc.1⟩
      · exact h j hj
    · exact h j hj

/-- Cracked stretches lie between two different roots. -/
theorem crackedBetween_false (bounds roots : List ℝ) : (crackedBetween bounds roots).length = bounds.length - 1 ∧
    ∀ j, (crackedBetween bounds roots)[j]? = some false → ∀ (hj : j + 1 < bounds.length), bounds[j] ≠ bounds[j + 1] := by
  unfold crackedBetween
  obtain ⟨h1, h2⟩ := crack_fold_false (isRoot bounds roots) (List.range' 1 ((isRoot bounds roots).length - 1))
    (by intro i hi; rw [List.mem_range'_1] at hi; exact hi.1) (List.replicate (bounds.length - 1) true, true) (by
      intro j hj
      rw [List.getElem?_replicate] at hj
      split_ifs at hj
      simp at hj)
  refine ⟨by rw [h1, List.length_replicate], ?_⟩
  intro j hj hlt he
  obtain ⟨a, b⟩ := h2 j hj
  have key : ∀ j, (isRoot bounds roots).getD j false = true → ∃ r ∈ roots, bounds.idxOf r = j := by
    intro j hj
    unfold isRoot at hj
    rw [foldl_set_iff (fun r => bounds.idxOf r)] at hj
    rcases hj with hj | ⟨-, hj⟩
    · rw [List.getD_eq_getElem?_getD, List.getElem?_replicate] at hj
      split_ifs at hj <;> simp at hj
    · exact hj
  obtain ⟨x, -, hx⟩ := key j a
  obtain ⟨y, -, hy⟩ := key (j + 1) b
  have ex : bounds[j] = x := by
    subst hx
    exact List.getElem_idxOf _
  have ey : bounds[j + 1] = y := by
    simp only [← hy]
    exact List.getElem_idxOf (by rw [hy]; exact hlt)
  rw [ex, ey] at he
  subst he
  omega

theorem diff_nth (b : ℝ) (bs : List ℝ) (j : ℕ) (hj : j < bs.length) :
    nth (diff (b :: bs)) j = (b :: bs)[j + 1]'(by simpa using hj) - (b :: bs)[j]'(by simp; omega) := by
  have h1 := diff_start b bs j hj.le
  have h2 := diff_start b bs (j + 1) hj
  rw [startOf_succ _ (by rw [diff_length]; exact hj)] at h2
  rw [nth_eq (by rw [diff_length]; exact hj), ← h1, ← h2]
  ring

/-- Segments from roots in order. -/
theorem anticrack_ok {total : ℝ} (hT : 0 < total) {out : Bool} {rs : List ℝ} (hs : rs.Pairwise (· ≤ ·)) (h0 : ∀ x ∈ rs, 0 ≤ x)
    (h1 : ∀ x ∈ rs, x ≤ total) {a : ℝ} {li : List ℝ} {ki : List Bool} (h : anticrack total out rs = .ok (a, li, ki)) :
    (∀ l ∈ li, 0 ≤ l) ∧ ki.length = li.length ∧ a = unsupported li ki ∧ total ≤ li.sum ∧ ((∀ k ∈ ki, k = true) ∨ 0 < a) := by
  unfold anticrack at h
  cases rs with
  | nil =>
    simp only [bind, Except.bind, pure, Except.pure, Except.ok.injEq, Prod.mk.injEq] at h
    obtain ⟨rfl, rfl, rfl⟩ := h
    refine ⟨?_, by split_ifs <;> rfl, unsupported_eq _ _, by simp, ?_⟩
    · intro l hl
      simp only [List.mem_cons, List.not_mem_nil, or_false, or_self] at hl
      rw [hl]; positivity
    · cases out
      · left; simp
      · right
        simp [crackLength]
        exact hT
  | cons r rs =>
    simp only [bind, Except.bind] at h
    cases hsp : splitAtMidpoint (diff (0 :: (r :: rs) ++ [total])) (crackedBetween (0 :: (r :: rs) ++ [total]) (r :: rs)) with
    | error e => rw [hsp] at h; simp at h
    | ok p =>
      simp only [hsp, pure, Except.pure, Except.ok.injEq, Prod.mk.injEq] at h
      obtain ⟨rfl, rfl, rfl⟩ := h
      obtain ⟨c1, c2⟩ := crackedBetween_false (0 :: (r :: rs) ++ [total]) (r :: rs)
      have hord : (0 :: ((r :: rs) ++ [total])).Pairwise (· ≤ ·) := by
        rw [List.pairwise_cons, List.pairwise_append]
        refine ⟨?_, hs, by simp, by simpa using h1⟩
        intro b hb
        rcases List.mem_append.1 hb with hb | hb
        · exact h0 b hb
        · rw [List.mem_singleton.1 hb]; exact hT.le
      have hnon := diff_nonneg' 0 ((r :: rs) ++ [total]) hord
      obtain ⟨d1, d2, d3, d4, d5⟩ := split_shape hnon (by
        simp only [List.cons_append] at c1 ⊢
        rw [c1, diff_length]; simp) hsp
      refine ⟨d1, d2, unsupported_eq _ _, ?_, ?_⟩
      · have := diff_sum 0 (r :: rs) total
        rw [sub_zero] at this
        rw [show diff (0 :: (r :: rs) ++ [total]) = diff (0 :: ((r :: rs) ++ [total])) from rfl] at this
        linarith
      · by_cases hall : ∀ k ∈ crackedBetween (0 :: (r :: rs) ++ [total]) (r :: rs), k = true
        · left
          exact fun k hk => hall k (d3 k hk)
        · right
          push Not at hall
          obtain ⟨k, hk, hkf⟩ := hall
          have hkf : k = false := by simpa using hkf
          subst hkf
          obtain ⟨j, hj, e⟩ := List.getElem_of_mem hk
          have hj' : j + 1 < (0 :: (r :: rs) ++ [total]).length := by omega
          have hne := c2 j (by rw [List.getElem?_eq_getElem hj, e]) hj'
          refine lt_of_lt_of_le (crackLength_pos hnon _ j ?_ (by rw [List.getElem?_eq_getElem hj, e])) d4
          rw [diff_nth _ _ _ (by simpa using hj')]
          have : (0 :: ((r :: rs) ++ [total]))[j]'(by simpa using Nat.lt_of_succ_lt hj') ≤ (0 :: ((r :: rs) ++ [total]))[j + 1]'hj' :=
            List.pairwise_iff_getElem.1 hord j (j + 1) _ _ (by omega)
          exact sub_pos.2 (lt_of_le_of_ne this hne)

/-- The segments that `find_new_anticrack_length` returns, for any run of a root
finder that stays within its brackets: no negative length, the crack length is
the length without support, and no crack has length zero. -/
theorem anticrack_shape (num : Numerics) (site : Site) (hs : SiteOk num site) (hb : BrentOk num) (w : ℝ) (li : List ℝ)
    (hT : 0 < li.sum) {a : ℝ} {li' : List ℝ} {ki' : List Bool} (h : findNewAnticrackLength num site w li = .ok (a, li', ki')) :
    (∀ l ∈ li', 0 ≤ l) ∧ ki'.length = li'.length ∧ a = unsupported li' ki' ∧ li.sum ≤ li'.sum ∧
      ((∀ k ∈ ki', k = true) ∨ 0 < a) := by
  obtain ⟨r, r1, r2⟩ := C50_solution_partial num site hs w _ _ (half_beam hT) .nocrack
  obtain ⟨xs, x1, x2, x3, -, x4, -⟩ := half_samples { site with env := {} } w _ (half_pos hT) (C46_adam 1 1 250 false)
    (r := r) ⟨r2.profile, r2.weak, r2.load, r2.stiff, r2.infinite, r2.lengths, r2.support, r2.weight, r2.constants, r2.meets,
      r2.unique, r2.samples⟩
  unfold findNewAnticrackLength at h
  simp only [bind, Except.bind, r1] at h
  cases hd : distances site.env r with
  | error e => simp [hd] at h
  | ok d =>
    rw [hd] at h
    cases hm : npMin d with
    | error e => simp [hm] at h
    | ok lo =>
      simp only [hm] at h
      cases hr : findRoots num site.env site.phi [li.sum / 2, li.sum / 2] r with
      | error e => simp [hr] at h
      | ok rs =>
        simp only [hr] at h
        suffices hrs : rs.Pairwise (· ≤ ·) ∧ (∀ x ∈ rs, 0 ≤ x) ∧ ∀ x ∈ rs, x ≤ li.sum from
          anticrack_ok hT hrs.1 hrs.2.1 hrs.2.2 h
        unfold findRoots at hr
        simp only [bind, Except.bind, hd] at hr
        have hx : (reals r.x).map (fun x => 10 * x) = xs := by
          rw [x4, show (fun x : ℝ => some (x / 10)) = some ∘ fun x => x / 10 from rfl, ← List.map_map, reals_some, List.map_map]
          conv_rhs => rw [← List.map_id xs]
          refine List.map_congr_left fun x _ => ?_
          simp only [Function.comp, id]
          ring
        rw [hx] at hr
        set g := rootIn num (rootFunction site.env r.skier r.C [li.sum / 2, li.sum / 2] site.phi) r.skier with hg
        cases hos : (transitions (xs.zip (d.map fun v => v - 1))).mapM g with
        | error e => simp [hos] at hr
        | ok os =>
          simp only [hos, pure, Except.pure, Except.ok.injEq] at hr
          subst hr
          cases hps : xs.zip (d.map fun v => v - 1) with
          | nil =>
            rw [hps] at hos
            simp only [transitions, List.mapM_nil, pure, Except.pure, Except.ok.injEq] at hos
            subst hos
            simp [reals]
          | cons p ps =>
            rw [hps] at hos
            have hmem : ∀ q ∈ p :: ps, q.1 ∈ xs := fun q hq => by
              rw [← hps] at hq
              exact (List.of_mem_zip (show (q.1, q.2) ∈ _ from hq)).1
            have hord : (p :: ps).Pairwise (fun a b => a.1 < b.1) := by
              rw [← hps]
              exact zip_ordered x3 _
            obtain ⟨a1, a2, a3⟩ := roots_ordered (fun b x hb1 hb2 => rootIn_inside hb hb1 hb2) ps p os hord hos
            have b1 : ∀ x ∈ xs, 0 ≤ x := by
              cases xs with
              | nil => simp
              | cons y ys =>
                simp only [List.head?_cons, Option.some.injEq] at x1
                subst x1
                intro x hx
                rcases List.mem_cons.1 hx with rfl | hx
                · exact le_rfl
                · exact ((List.pairwise_cons.1 x3).1 x hx).le
            have b2 : ∀ x ∈ xs, x ≤ li.sum := by
              obtain ⟨ys, rfl⟩ := List.getLast?_eq_some_iff.1 x2
              intro x hx
              rcases List.mem_append.1 hx with hx | hx
              · have := (List.pairwise_append.1 x3).2.2 x hx (li.sum / 2 + li.sum / 2) (by simp)
                linarith
              · rw [List.mem_singleton] at hx
                linarith
            refine ⟨a1, fun x hx => (b1 _ (hmem p (by simp))).trans (a2 x hx), fun x hx => ?_⟩
            obtain ⟨q, q1, q2⟩ := a3 x hx
            exact q2.trans (b2 _ (hmem q (List.mem_cons_of_mem _ q1)))

/-! ## Energy released by a crack -/

namespace Spec

/-- Sum over the unsupported segments, from the constants before and after
cracking. -/
noncomputable def overCrack (f : IncSeg → ℝ) (li : List ℝ) (ki : List Bool) (C0 C1 : List Vec6) : ℝ :=
  ((List.range li.length).map fun i =>
    if ki.getD i true then 0 else f ⟨C0.getD i 0, C1.getD i 0, nth li i, false, true⟩).sum

/-- `c` is the state of the slab under a skier of weight `w` with the weak layer
cracked below the segments that `ki` marks, and `g` says how the energy that this
crack releases compares with the toughness: with the state `r` before cracking,
`g` is the criterion for half the work of the stresses before on the
displacements after cracking, per length of the crack (J/m², while the work is
in N, up to an error `e` per segment). Without a crack `g` is zero. -/
def Released (e : ℝ) (site : Site) (w : ℝ) (li : List ℝ) (ki : List Bool) (c : Skier) (g : ℝ) : Prop :=
  ∃ r, SkierSolution site w li (List.replicate li.length true) r ∧ SkierSolution site w li ki c ∧
    ((∀ k ∈ ki, k = true) → g = 0) ∧
    (0 < unsupported li ki → ∃ I II, g = fractureToughnessCriterion (1000 * I) (1000 * II) ∧
      |I - overCrack (normalWork c.skier site.phi) li ki r.C c.C / (2 * unsupported li ki)|
        ≤ li.length * e / (2 * unsupported li ki) ∧
      |II + overCrack (shearWork c.skier site.phi) li ki r.C c.C / (2 * unsupported li ki)|
        ≤ li.length * e / (2 * unsupported li ki))

end Spec

theorem incSegs_filter : ∀ (n : ℕ) (C0 C1 : List Vec6) (li : List ℝ) (ki : List Bool), C0.length = n → C1.length = n → li.length = n →
    ki.length = n → ∀ f : IncSeg → ℝ,
      (((incSegs C0 C1 li ki (List.replicate n true)).filter fun g => g.k0 && !g.ki).map f).sum = overCrack f li ki C0 C1 ∧
      ((incSegs C0 C1 li ki (List.replicate n true)).filter fun g => g.k0 && !g.ki).length ≤ n := by
  intro n
  induction n with
  | zero =>
    intro C0 C1 li ki h0 h1 h2 h3 f
    obtain rfl := List.eq_nil_of_length_eq_zero h0
    obtain rfl := List.eq_nil_of_length_eq_zero h2
    simp [incSegs, overCrack]
  | succ n ih =>
    intro C0 C1 li ki h0 h1 h2 h3 f
    obtain ⟨a, C0, rfl⟩ := List.exists_cons_of_length_eq_add_one h0
    obtain ⟨b, C1, rfl⟩ := List.exists_cons_of_length_eq_add_one h1
    obtain ⟨l, li, rfl⟩ := List.exists_cons_of_length_eq_add_one h2
    obtain ⟨k, ki, rfl⟩ := List.exists_cons_of_length_eq_add_one h3
    obtain ⟨i1, i2⟩ := ih C0 C1 li ki (by simpa using h0) (by simpa using h1) (by simpa using h2) (by simpa using h3) f
    have e : incSegs (a :: C0) (b :: C1) (l :: li) (k :: ki) (List.replicate (n + 1) true)
        = ⟨a, b, l, k, true⟩ :: incSegs C0 C1 li ki (List.replicate n true) := by
      simp [incSegs, List.replicate_succ]
    have e2 : overCrack f (l :: li) (k :: ki) (a :: C0) (b :: C1)
        = (if k then 0 else f ⟨a, b, l, false, true⟩) + overCrack f li ki C0 C1 := by
      unfold overCrack
      rw [List.length_cons, List.range_succ_eq_map, List.map_cons, List.sum_cons, List.map_map]
      simp [nth, Function.comp_def]
    rw [e, e2]
    cases k with
    | true =>
      rw [List.filter_cons_of_neg (by simp)]
      exact ⟨by rw [i1]; simp, by omega⟩
    | false =>
      rw [List.filter_cons_of_pos (by simp)]
      refine ⟨?_, by simpa using i2⟩
      rw [List.map_cons, List.sum_cons, i1]
      simp

theorem overCrack_length (li : List ℝ) (ki : List Bool) (h : ki.length = li.length) (C0 C1 : List Vec6) :
    overCrack IncSeg.l li ki C0 C1 = unsupported li ki := by
  unfold overCrack unsupported
  induction li generalizing ki C0 C1 with
  | nil => simp
  | cons l li ih =>
    cases ki with
    | nil => simp at h
    | cons k ki =>
      rw [List.length_cons, List.range_succ_eq_map, List.map_cons, List.sum_cons, List.map_map]
      have := ih ki (by simpa using h) C0 C1
      simp only [nth, Function.comp_def, List.getD_cons_succ, List.getD_cons_zero, List.zipWith_cons_cons, List.sum_cons] at this ⊢
      rw [← this]

theorem unsupported_none {li : List ℝ} {ki : List Bool} (h : ∀ k ∈ ki, k = true) : unsupported li ki = 0 := by
  unfold unsupported
  induction li generalizing ki with
  | nil => simp
  | cons l li ih =>
    cases ki with
    | nil => simp
    | cons k ki =>
      rw [List.zipWith_cons_cons, List.sum_cons, ih fun x hx => h x (List.mem_cons_of_mem _ hx), h k (by simp)]
      simp

/-- The value of the energy check is a number. -/
theorem energy_value {num : Numerics} {quad : Quad} {site : Site} (hs : SiteOk num site) {w : ℝ} {li : List ℝ} {ki : List Bool}
    {r c : Skier} {g : Option ℝ} (h : energyCheck num quad site w li ki = .ok (r, c, g))
    (hc : (∀ k ∈ ki, k = true) ∨ 0 < unsupported li ki) : ∃ v, g = some v ∧ ((∀ k ∈ ki, k = true) → v = 0) := by
  unfold energyCheck at h
  simp only [bind, Except.bind] at h
  cases h1 : createSkierObject num site w li (List.replicate ki.length true) .nocrack with
  | error e => simp [h1] at h
  | ok r' =>
    cases h2 : createSkierObject num site w li ki .crack with
    | error e => simp [h1, h2] at h
    | ok c' =>
      simp only [h1, h2, pure, Except.pure, Except.ok.injEq, Prod.mk.injEq] at h
      obtain ⟨rfl, rfl, rfl⟩ := h
      obtain ⟨a1, a2, a3, a4, -⟩ := create_parts hs h1
      obtain ⟨b1, b2, b3, b4, -⟩ := create_parts hs h2
      change ki.length = li.length at b4
      rw [b2, b3, show CrackCase.crack.support ki = ki from rfl, b4]
      have hf := incSegs_filter li.length r'.C c'.C li ki a1 b1 rfl b4
      set segs := incSegs r'.C c'.C li ki (List.replicate li.length true) with hsegs
      by_cases hall : ∀ k ∈ ki, k = true
      · have := C31_no_advance quad c'.skier site.phi segs (by
          intro g hg hcr
          rw [hsegs] at hg
          unfold incSegs at hg
          obtain ⟨p, p1, p2⟩ := List.mem_map.1 hg
          have q := (List.of_mem_zip (show (p.1, p.2) ∈ _ from p1)).2
          have q := (List.of_mem_zip (show (p.2.1, p.2.2) ∈ _ from q)).2
          have q := (List.of_mem_zip (show (p.2.2.1, p.2.2.2) ∈ _ from q)).2
          have q := (List.of_mem_zip (show (p.2.2.2.1, p.2.2.2.2) ∈ _ from q)).1
          have := hall _ q
          rw [← p2] at hcr
          simp only [CrackAdvance] at hcr
          simp_all)
        have h0 : fractureToughnessCriterion 0 0 = 0 := (C47_basic 0 0).2.1.2 ⟨rfl, rfl⟩
        rw [this]
        exact ⟨0, by simp [h0], fun _ => rfl⟩
      · have hp : 0 < unsupported li ki := hc.resolve_left hall
        have ea := (hf IncSeg.l).1
        rw [overCrack_length li ki b4] at ea
        rw [ginc_some quad c'.skier site.phi segs (by rw [crackSegs, ea]; exact hp)]
        exact ⟨_, rfl, fun h => absurd h hall⟩

/-- The solution that the energy check returns. -/
theorem energy_parts {num : Numerics} {quad : Quad} {site : Site} (hs : SiteOk num site) {w : ℝ} {li : List ℝ} {ki : List Bool}
    {r c : Skier} {g : Option ℝ} (h : energyCheck num quad site w li ki = .ok (r, c, g)) :
    c.segments.li = li ∧ c.segments.ki = ki ∧ ki.any id = true := by
  unfold energyCheck at h
  simp only [bind, Except.bind] at h
  cases h1 : createSkierObject num site w li (List.replicate ki.length true) .nocrack with
  | error e => simp [h1] at h
  | ok r' =>
    cases h2 : createSkierObject num site w li ki .crack with
    | error e => simp [h1, h2] at h
    | ok c' =>
      simp only [h1, h2, pure, Except.pure, Except.ok.injEq, Prod.mk.injEq] at h
      obtain ⟨rfl, rfl, rfl⟩ := h
      obtain ⟨b1, b2, b3, b4, b5, -⟩ := create_parts hs h2
      refine ⟨b2, b3, ?_⟩
      change ki.head? = some true at b5
      cases ki with
      | nil => simp at b5
      | cons k ks =>
        simp only [List.head?_cons, Option.some.injEq] at b5
        simp [b5]

/-- The energy check of one pass. -/
theorem energy_released {num : Numerics} {quad : Quad} {e : ℝ} (hq : QuadOk quad e) (he : 0 ≤ e) {site : Site}
    (hs : SiteOk num site) {w : ℝ} {li : List ℝ} {ki : List Bool} {r c : Skier} {g : Option ℝ}
    (h : energyCheck num quad site w li ki = .ok (r, c, g)) (h0 : ∀ l ∈ li, 0 ≤ l) (hl : nth li (li.length - 1) ≠ 0)
    (hc : (∀ k ∈ ki, k = true) ∨ 0 < unsupported li ki) : ∃ v, g = some v ∧ Released e site w li ki c v := by
  unfold energyCheck at h
  simp only [bind, Except.bind] at h
  cases h1 : createSkierObject num site w li (List.replicate ki.length true) .nocrack with
  | error e => simp [h1] at h
  | ok r' =>
    cases h2 : createSkierObject num site w li ki .crack with
    | error e => simp [h1, h2] at h
    | ok c' =>
      simp only [h1, h2, pure, Except.pure, Except.ok.injEq, Prod.mk.injEq] at h
      obtain ⟨rfl, rfl, rfl⟩ := h
      have hb := create_beam hs h0 hl h2
      have hb0 : BeamOk li (List.replicate ki.length true) := CrackCase.support_ok .nocrack hb
      obtain ⟨x, x1, x2⟩ := C50_solution_partial num site hs w li _ hb0 .nocrack
      rw [h1] at x1
      injection x1 with x1
      subst x1
      obtain ⟨y, y1, y2⟩ := C50_solution_partial num site hs w li ki hb .crack
      rw [h2] at y1
      injection y1 with y1
      subst y1
      have hk := hb.len
      rw [show CrackCase.nocrack.support (List.replicate ki.length true) = List.replicate li.length true by
        simp [CrackCase.support, hk]] at x2
      change SkierSolution site w li ki c' at y2
      rw [y2.lengths, y2.support, hk]
      have hf := incSegs_filter li.length r'.C c'.C li ki x2.constants y2.constants rfl hk
      set segs := incSegs r'.C c'.C li ki (List.replicate li.length true) with hsegs
      rcases hc with hc | hc
      · have := C31_no_advance quad c'.skier site.phi segs (by
          intro g hg hcr
          rw [hsegs] at hg
          unfold incSegs at hg
          obtain ⟨p, p1, p2⟩ := List.mem_map.1 hg
          have q := (List.of_mem_zip (show (p.1, p.2) ∈ _ from p1)).2
          have q := (List.of_mem_zip (show (p.2.1, p.2.2) ∈ _ from q)).2
          have q := (List.of_mem_zip (show (p.2.2.1, p.2.2.2) ∈ _ from q)).2
          have q := (List.of_mem_zip (show (p.2.2.2.1, p.2.2.2.2) ∈ _ from q)).1
          have := hc _ q
          rw [← p2] at hcr
          simp only [CrackAdvance] at hcr
          simp_all)
        rw [this]
        refine ⟨0, ?_, r', x2, y2, fun _ => rfl, fun hp => ?_⟩
        · have : fractureToughnessCriterion 0 0 = 0 := (C47_basic 0 0).2.1.2 ⟨rfl, rfl⟩
          simp [this]
        · rw [unsupported_none hc] at hp
          exact absurd hp (lt_irrefl _)
      · have ea := (hf IncSeg.l).1
        rw [overCrack_length li ki hk] at ea
        have ht : c'.skier.t ≠ 0 := by rw [y2.weak.1]; exact hs.t.ne'
        obtain ⟨I, II, g1, g2, g3⟩ := C31_ginc_partial quad e hq c'.skier ht site.phi segs _ rfl _ ea.symm hc
        rw [g1]
        refine ⟨_, rfl, r', x2, y2, fun h => ?_, fun _ => ⟨I, II, rfl, ?_, ?_⟩⟩
        · rw [unsupported_none h] at hc
          exact absurd hc (lt_irrefl _)
        · rw [(hf (normalWork c'.skier site.phi)).1] at g2
          refine g2.trans ?_
          gcongr
          exact (hf IncSeg.l).2
        · rw [(hf (shearWork c'.skier site.phi)).1] at g3
          refine g3.trans ?_
          gcongr
          exact (hf IncSeg.l).2

/-! ## Passes of the search -/

/-- `abs(g_delta - 1)`. -/
noncomputable def errOf (g : Option ℝ) : Option ℝ := g.map fun v => |v - 1|

theorem err_some {st : Search} {c : Skier} {g : Option ℝ} (h : st.last = some (c, g)) : st.err = errOf g := by
  unfold Search.err
  rw [h]
  rfl

theorem trackPass_ok {num : Numerics} {quad : Quad} {site : Site} {st st' : Search} (h : trackPass num quad site st = .ok st') :
    ∃ r c g d hi lo, energyCheck num quad site st.weight st.li st.ki = .ok (r, c, g) ∧ distances site.env r = .ok d ∧
      npMax d = .ok hi ∧ npMin d = .ok lo ∧
      st' = { st with
        distMax := hi, distMin := lo, last := some (c, g)
        weights := st.weights ++ [st.weight], cracks := st.cracks ++ [st.crack], gValues := st.gValues ++ [g]
        distMaxs := st.distMaxs ++ [st.distMax], distMins := st.distMins ++ [st.distMin] } := by
  unfold trackPass at h
  simp only [bind, Except.bind] at h
  cases h1 : energyCheck num quad site st.weight st.li st.ki with
  | error e => simp [h1] at h
  | ok p =>
    obtain ⟨r, c, g⟩ := p
    simp only [h1] at h
    cases h2 : distances site.env r with
    | error e => simp [h2] at h
    | ok d =>
      simp only [h2] at h
      cases h3 : npMax d with
      | error e => simp [h3] at h
      | ok hi =>
        simp only [h3] at h
        cases h4 : npMin d with
        | error e => simp [h4] at h
        | ok lo =>
          simp only [h4, pure, Except.pure, Except.ok.injEq] at h
          exact ⟨r, c, g, d, hi, lo, rfl, h2, h3, h4, h.symm⟩

/-- What a pass does when it does not return. -/
structure Step (num : Numerics) (quad : Quad) (site : Site) (st st' : Search) (r c : Skier) (g : Option ℝ) (new : ℝ) :
    Prop where
  energy : energyCheck num quad site st.weight st.li st.ki = .ok (r, c, g)
  dist : ∃ d, distances site.env r = .ok d ∧ npMax d = .ok st'.distMax ∧ npMin d = .ok st'.distMin
  last : st'.last = some (c, g)
  weights : st'.weights = st.weights ++ [st.weight]
  cracks : st'.cracks = st.cracks ++ [st.crack]
  gValues : st'.gValues = st.gValues ++ [g]
  low : below g 1 = true → st'.minW = st.weight ∧ st'.maxW = st.maxW
  high : below g 1 = false → st'.minW = st.minW ∧ st'.maxW = st.weight
  on : above (errOf g) 0.002 = true → st'.weight = new ∧
    findNewAnticrackLength num site new st.li = .ok (st'.crack, st'.li, st'.ki)
  stop : above (errOf g) 0.002 = false → st'.weight = st.weight ∧ st'.crack = st.crack ∧ st'.li = st.li ∧ st'.ki = st.ki

theorem nextCrack_ok {num : Numerics} {site : Site} {w : ℝ} {st st' : Search} {c : Skier} {g : Option ℝ}
    (hl : st.last = some (c, g)) (h : nextCrack num site w st = .ok st') :
    (above (errOf g) 0.002 = true ∧ ∃ a li ki, findNewAnticrackLength num site w st.li = .ok (a, li, ki) ∧
      st' = { st with weight := w, crack := a, li := li, ki := ki }) ∨ (above (errOf g) 0.002 = false ∧ st' = st) := by
  unfold nextCrack at h
  rw [err_some hl] at h
  cases he : above (errOf g) 0.002 with
  | false =>
    rw [he] at h
    simp only [Bool.false_eq_true, if_false, pure, Except.pure, Except.ok.injEq] at h
    exact .inr ⟨rfl, h.symm⟩
  | true =>
    rw [he] at h
    simp only [if_true, bind, Except.bind] at h
    cases h1 : findNewAnticrackLength num site w st.li with
    | error e => simp [h1] at h
    | ok p =>
      obtain ⟨a, li, ki⟩ := p
      simp only [h1, pure, Except.pure, Except.ok.injEq] at h
      exact .inl ⟨rfl, a, li, ki, rfl, h.symm⟩

theorem narrow_fields (st : Search) (g : Option ℝ) : narrow st g = { st with
    minW := if below g 1 then st.weight else st.minW, maxW := if below g 1 then st.maxW else st.weight } := by
  unfold narrow
  split_ifs <;> rfl

theorem coupledPass_inl {num : Numerics} {quad : Quad} {site : Site} {crit : ℝ} {st st' : Search}
    (h : coupledPass num quad site crit st = .ok (.inl st')) : ∃ r c g, Step num quad site st st' r c g ((st'.minW + st'.maxW) / 2) ∧
      (st.weights = [] → above g 1 = false ∧ below (errOf g) 0.02 = false) := by
  unfold coupledPass at h
  simp only [bind, Except.bind] at h
  cases ht : trackPass num quad site st with
  | error e => simp [ht] at h
  | ok st1 =>
    obtain ⟨r, c, g, d, hi, lo, t1, t2, t3, t4, t5⟩ := trackPass_ok ht
    simp only [ht] at h
    have hlast : st1.last = some (c, g) := by rw [t5]
    have hweights : st1.weights = st.weights ++ [st.weight] := by rw [t5]
    rw [hlast] at h
    simp only [err_some hlast] at h
    split_ifs at h with hp
    · simp [pure, Except.pure] at h
    · cases hn : nextCrack num site (((narrow st1 g).minW + (narrow st1 g).maxW) / 2) (narrow st1 g) with
      | error e => simp [hn] at h
      | ok st2 =>
        simp only [hn, pure, Except.pure, Except.ok.injEq, Sum.inl.injEq] at h
        subst h
        rw [narrow_fields] at hn
        refine ⟨r, c, g, ?_, ?_⟩
        · have hl2 : (narrow st1 g).last = some (c, g) := by rw [narrow_fields]; exact hlast
          rw [narrow_fields] at hl2
          rcases nextCrack_ok hl2 hn with ⟨e1, a, li, ki, e2, e3⟩ | ⟨e1, e3⟩
          · subst e3 t5
            refine ⟨t1, ⟨d, t2, t3, t4⟩, rfl, rfl, rfl, rfl, ?_, ?_, fun _ => ⟨rfl, e2⟩, fun h => ?_⟩
            · intro hb; simp [hb]
            · intro hb; simp [hb]
            · rw [e1] at h; simp at h
          · subst e3 t5
            refine ⟨t1, ⟨d, t2, t3, t4⟩, rfl, rfl, rfl, rfl, ?_, ?_, fun h => ?_, fun _ => ⟨rfl, rfl, rfl, rfl⟩⟩
            · intro hb; simp [hb]
            · intro hb; simp [hb]
            · rw [e1] at h; simp at h
        · intro h0
          rw [hweights, h0] at hp
          simp only [List.nil_append, List.length_singleton, true_and, not_or, Bool.not_eq_true] at hp
          exact hp

theorem coupledPass_inr {num : Numerics} {quad : Quad} {site : Site} {crit : ℝ} {st : Search} {o : Outcome}
    (h : coupledPass num quad site crit st = .ok (.inr o)) : ∃ r c g d hi, st.weights = [] ∧
      (above g 1 = true ∨ below (errOf g) 0.02 = true) ∧ energyCheck num quad site st.weight st.li st.ki = .ok (r, c, g) ∧
      distances site.env r = .ok d ∧ npMax d = .ok hi ∧
      o = ⟨true, st.crack, st.weight, c, 1, st.weights ++ [st.weight], st.cracks ++ [st.crack], false, true, crit, g, hi,
        st.gValues ++ [g], st.distMaxs ++ [st.distMax]⟩ := by
  unfold coupledPass at h
  simp only [bind, Except.bind] at h
  cases ht : trackPass num quad site st with
  | error e => simp [ht] at h
  | ok st1 =>
    obtain ⟨r, c, g, d, hi, lo, t1, t2, t3, t4, t5⟩ := trackPass_ok ht
    simp only [ht] at h
    have hlast : st1.last = some (c, g) := by rw [t5]
    rw [hlast] at h
    simp only [err_some hlast] at h
    split_ifs at h with hp
    · simp only [pure, Except.pure, Except.ok.injEq, Sum.inr.injEq] at h
      subst t5
      refine ⟨r, c, g, d, hi, ?_, hp.2, t1, t2, t3, h.symm⟩
      have := hp.1
      simpa using this
    · cases hn : nextCrack num site (((narrow st1 g).minW + (narrow st1 g).maxW) / 2) (narrow st1 g) with
      | error e => simp [hn] at h
      | ok st2 => simp [hn, pure, Except.pure] at h

theorem searchLoop_inl {pass : Search → Res (Search ⊕ Outcome)} {maxIt : ℕ} (P : Search → Prop)
    (hstep : ∀ st st', P st → st.goesOn maxIt = true → pass st = .ok (.inl st') →
      P st' ∧ st'.weights.length = st.weights.length + 1) :
    ∀ (n : ℕ) (st st' : Search), maxIt < n + st.weights.length → P st → searchLoop pass maxIt n st = .ok (.inl st') →
      P st' ∧ st'.goesOn maxIt = false := by
  intro n
  induction n with
  | zero =>
    intro st st' hn hP h
    simp only [searchLoop, Except.ok.injEq, Sum.inl.injEq] at h
    subst h
    refine ⟨hP, ?_⟩
    unfold Search.goesOn
    have : ¬ st.weights.length < maxIt := by omega
    simp [this]
  | succ n ih =>
    intro st st' hn hP h
    unfold searchLoop at h
    cases hg : st.goesOn maxIt with
    | false =>
      rw [hg] at h
      simp only [Bool.false_eq_true, if_false, Except.ok.injEq, Sum.inl.injEq] at h
      subst h
      exact ⟨hP, hg⟩
    | true =>
      rw [hg] at h
      simp only [if_true, bind, Except.bind] at h
      cases hp : pass st with
      | error e => simp [hp] at h
      | ok x =>
        simp only [hp] at h
        cases x with
        | inr o => simp [pure, Except.pure] at h
        | inl st1 =>
          obtain ⟨h1, h2⟩ := hstep st st1 hP hg hp
          exact ih st1 st' (by omega) h1 h

theorem searchLoop_inr {pass : Search → Res (Search ⊕ Outcome)} {maxIt : ℕ} (P : Search → Prop)
    (hstep : ∀ st st', P st → st.goesOn maxIt = true → pass st = .ok (.inl st') → P st') :
    ∀ (n : ℕ) (st : Search) (o : Outcome), P st → searchLoop pass maxIt n st = .ok (.inr o) →
      ∃ st', P st' ∧ pass st' = .ok (.inr o) := by
  intro n
  induction n with
  | zero => intro st o _ h; simp [searchLoop] at h
  | succ n ih =>
    intro st o hP h
    unfold searchLoop at h
    cases hg : st.goesOn maxIt with
    | false => rw [hg] at h; simp at h
    | true =>
      rw [hg] at h
      simp only [if_true, bind, Except.bind] at h
      cases hp : pass st with
      | error e => simp [hp] at h
      | ok x =>
        simp only [hp] at h
        cases x with
        | inr o' =>
          simp only [pure, Except.pure, Except.ok.injEq, Sum.inr.injEq] at h
          subst h
          exact ⟨st, hP, hp⟩
        | inl st1 => exact ih st1 o (hstep st st1 hP hg hp) h

/-! ## The search as a whole -/

/-- Sound segments. -/
structure Segs (a : ℝ) (li : List ℝ) (ki : List Bool) : Prop where
  nonneg : ∀ l ∈ li, 0 ≤ l
  sum : 0 < li.sum
  crack : a = unsupported li ki
  pos : (∀ k ∈ ki, k = true) ∨ 0 < a

theorem segs_of_crack {num : Numerics} {site : Site} (hs : SiteOk num site) (hb : BrentOk num) {w : ℝ} {li : List ℝ}
    (hT : 0 < li.sum) {a : ℝ} {li' : List ℝ} {ki' : List Bool} (h : findNewAnticrackLength num site w li = .ok (a, li', ki')) :
    Segs a li' ki' := by
  obtain ⟨h1, -, h2, h3, h4⟩ := anticrack_shape num site hs hb w li hT h
  exact ⟨h1, by linarith, h2, h4⟩

/-- What the last pass did. -/
structure Last (num : Numerics) (quad : Quad) (site : Site) (st : Search) (w a : ℝ) (li : List ℝ) (ki : List Bool)
    (r c : Skier) (v : ℝ) : Prop where
  energy : energyCheck num quad site w li ki = .ok (r, c, some v)
  segs : Segs a li ki
  zero : (∀ k ∈ ki, k = true) → v = 0
  dist : ∃ d, distances site.env r = .ok d ∧ npMax d = .ok st.distMax ∧ npMin d = .ok st.distMin
  last : st.last = some (c, some v)
  hist : ∃ ws cs gs, st.weights = ws ++ [w] ∧ st.cracks = cs ++ [a] ∧ st.gValues = gs ++ [some v]
  stop : |v - 1| ≤ 0.002 → st.weight = w ∧ st.crack = a ∧ st.li = li ∧ st.ki = ki

theorem above_err (v : ℝ) : above (errOf (some v)) 0.002 = decide (0.002 < |v - 1|) := by
  simp [above, errOf]

theorem below_one (v : ℝ) : below (some v) 1 = decide (v < 1) := by simp [below]

theorem step_last {num : Numerics} {quad : Quad} {site : Site} (hs : SiteOk num site) (hb : BrentOk num) {st st' : Search}
    {r c : Skier} {g : Option ℝ} {new : ℝ} (hseg : Segs st.crack st.li st.ki) (h : Step num quad site st st' r c g new) :
    ∃ v, g = some v ∧ Last num quad site st' st.weight st.crack st.li st.ki r c v ∧ Segs st'.crack st'.li st'.ki ∧
      (0.002 < |v - 1| → st'.weight = new ∧ findNewAnticrackLength num site new st.li = .ok (st'.crack, st'.li, st'.ki)) ∧
      (v < 1 → st'.minW = st.weight ∧ st'.maxW = st.maxW) ∧ (1 ≤ v → st'.minW = st.minW ∧ st'.maxW = st.weight) := by
  obtain ⟨v, rfl, hv⟩ := energy_value hs h.energy (by rw [← hseg.crack]; exact hseg.pos)
  have hon : 0.002 < |v - 1| → _ := fun hv => h.on (by rw [above_err]; simpa using hv)
  have hstop : |v - 1| ≤ 0.002 → _ := fun hv => h.stop (by rw [above_err]; simpa using hv)
  refine ⟨v, rfl, ⟨h.energy, hseg, hv, h.dist, h.last, ⟨_, _, _, h.weights, h.cracks, h.gValues⟩, hstop⟩, ?_, hon, ?_, ?_⟩
  · by_cases hc : 0.002 < |v - 1|
    · exact segs_of_crack hs hb hseg.sum (hon hc).2
    · obtain ⟨-, e1, e2, e3⟩ := hstop (not_lt.1 hc)
      rw [e1, e2, e3]
      exact hseg
  · exact fun hv => h.low (by rw [below_one]; simpa using hv)
  · exact fun hv => h.high (by rw [below_one]; simpa using hv)

/-- Every weight tried so far lies outside the open interval, on the side that its
energy tells. -/
def Sorted (ws : List ℝ) (gs : List (Option ℝ)) (lo hi : ℝ) : Prop :=
  ws.length = gs.length ∧ ∀ (i : ℕ) (w : ℝ) (g : Option ℝ), ws[i]? = some w → gs[i]? = some g →
    ∃ v, g = some v ∧ (v < 1 → w ≤ lo) ∧ (1 ≤ v → hi ≤ w)

theorem Sorted.snoc {ws : List ℝ} {gs : List (Option ℝ)} {lo hi lo' hi' w v : ℝ} (h : Sorted ws gs lo hi) (h1 : lo ≤ lo')
    (h2 : hi' ≤ hi) (h3 : v < 1 → w ≤ lo') (h4 : 1 ≤ v → hi' ≤ w) : Sorted (ws ++ [w]) (gs ++ [some v]) lo' hi' := by
  refine ⟨by simp [h.1], ?_⟩
  intro i x y hx hy
  by_cases hi : i < ws.length
  · rw [List.getElem?_append_left hi] at hx
    rw [List.getElem?_append_left (by rw [← h.1]; exact hi)] at hy
    obtain ⟨v, e, a, b⟩ := h.2 i x y hx hy
    exact ⟨v, e, fun hv => (a hv).trans h1, fun hv => h2.trans (b hv)⟩
  · have hi' : i = ws.length := by
      by_contra hne
      rw [List.getElem?_eq_none (by simp; omega)] at hx
      simp at hx
    subst hi'
    rw [List.getElem?_append_right le_rfl] at hx
    rw [h.1, List.getElem?_append_right le_rfl] at hy
    simp only [Nat.sub_self, List.getElem?_cons_zero, Option.some.injEq] at hx hy
    subst hx hy
    exact ⟨v, rfl, h3, h4⟩

/-- The weights tried are not within the bracket. -/
theorem Sorted.outside {ws : List ℝ} {gs : List (Option ℝ)} {lo hi w : ℝ} (h : Sorted ws gs lo hi) (hw : w ∈ ws) :
    w ≤ lo ∨ hi ≤ w := by
  obtain ⟨i, hi, e⟩ := List.getElem_of_mem hw
  have h1 : ws[i]? = some w := by rw [List.getElem?_eq_getElem hi, e]
  obtain ⟨v, -, a, b⟩ := h.2 i w _ h1 (List.getElem?_eq_getElem (by rw [← h.1]; exact hi))
  rcases lt_or_ge v 1 with hv | hv
  · exact .inl (a hv)
  · exact .inr (b hv)

/-- Invariant of the search for a beam of some length and a critical weight. -/
structure Inv (num : Numerics) (quad : Quad) (site : Site) (crit length : ℝ) (st : Search) : Prop where
  segs : Segs st.crack st.li st.ki
  sorted : Sorted st.weights st.gValues st.minW st.maxW
  count : st.cracks.length = st.weights.length
  start : st.weights = [] → st.weight = crit * 1.005 ∧ st.minW = crit ∧ st.maxW = 5 * (crit * 1.005) ∧ st.crack = 1 ∧
    st.li = crackStart length ∧ st.ki = [true, false, false, true] ∧ st.cracks = [] ∧ st.last = none
  later : st.weights ≠ [] → ∃ w a li ki r c v, Last num quad site st w a li ki r c v ∧ (w = st.minW ∨ w = st.maxW) ∧
    (0.002 < |v - 1| → st.weight = (st.minW + st.maxW) / 2 ∧ findNewAnticrackLength num site st.weight li
      = .ok (st.crack, st.li, st.ki)) ∧
    (st.weights.length = 1 → v ≤ 0.98) ∧
    (st.weights.length ≠ 1 → ∃ li0, findNewAnticrackLength num site w li0 = .ok (a, li, ki)) ∧
    crit * 1.005 ≤ st.minW ∧ st.maxW ≤ 5 * (crit * 1.005) ∧ st.maxW - st.minW = 4 * (crit * 1.005) / 2 ^ (st.weights.length - 1)

theorem crackStart_segs {length : ℝ} (h : 1 ≤ length) : Segs 1 (crackStart length) [true, false, false, true] := by
  refine ⟨?_, ?_, ?_, .inr one_pos⟩
  · intro l hl
    simp only [crackStart, List.mem_cons, List.not_mem_nil, or_false] at hl
    rcases hl with rfl | rfl | rfl | rfl <;> linarith
  · simp [crackStart]; linarith
  · simp [unsupported, crackStart]; norm_num

theorem inv_step {num : Numerics} {quad : Quad} {site : Site} (hs : SiteOk num site) (hb : BrentOk num) {crit length : ℝ}
    (hc : 0 < crit) {st st' : Search} (hI : Inv num quad site crit length st) (hg : st.goesOn 25 = true)
    (h : coupledPass num quad site crit st = .ok (.inl st')) :
    Inv num quad site crit length st' ∧ st'.weights.length = st.weights.length + 1 := by
  obtain ⟨r, c, g, hstep, hfirst⟩ := coupledPass_inl h
  obtain ⟨v, rfl, hl, hseg, hon, hlow, hhigh⟩ := step_last hs hb hI.segs hstep
  have hw := hstep.weights
  have hgv := hstep.gValues
  have hlen : st'.weights.length = st.weights.length + 1 := by rw [hw]; simp
  refine ⟨?_, hlen⟩
  by_cases h0 : st.weights = []
  · obtain ⟨s1, s2, s3, s4, s5, s6, s7, s8⟩ := hI.start h0
    obtain ⟨f1, f2⟩ := hfirst h0
    have hv : v ≤ 0.98 := by
      simp only [above, Option.any_some, decide_eq_false_iff_not, not_lt] at f1
      simp only [below, errOf, Option.map_some, Option.any_some, decide_eq_false_iff_not, not_lt] at f2
      rw [abs_of_nonpos (by linarith)] at f2
      norm_num at f2 ⊢
      linarith
    obtain ⟨m1, m2⟩ := hlow (by norm_num at hv; linarith)
    refine ⟨hseg, ?_, by rw [hstep.cracks, hlen, List.length_append, hI.count]; rfl, fun hn => ?_, fun _ => ?_⟩
    · rw [hw, hgv]
      refine hI.sorted.snoc ?_ ?_ (fun _ => m1.ge) (fun h => by norm_num at hv; linarith)
      · rw [m1, s1, s2]; linarith
      · rw [m2]
    · rw [hn] at hlen; simp at hlen
    · refine ⟨_, _, _, _, r, c, v, hl, .inl m1.symm, fun hv => ?_, fun _ => hv, fun hn => ?_, ?_, ?_, ?_⟩
      · obtain ⟨a, b⟩ := hon hv
        exact ⟨a, by rw [a]; exact b⟩
      · rw [hlen, h0] at hn; simp at hn
      · rw [m1, s1]
      · rw [m2, s3]
      · rw [m1, m2, s1, s3, hlen, h0]; simp; ring
  · obtain ⟨w, a, li, ki, r0, c0, v0, l1, l2, l3, l4, l5, l6, l7, l8⟩ := hI.later h0
    have hv0 : 0.002 < |v0 - 1| := by
      unfold Search.goesOn at hg
      rw [err_some l1.last, above_err] at hg
      simp only [Bool.and_eq_true, decide_eq_true_eq] at hg
      exact hg.1.1
    obtain ⟨n1, n2⟩ := l3 hv0
    have hpos : 0 < st.weights.length := List.length_pos_iff.2 h0
    have hwid : 0 < st.maxW - st.minW := by rw [l8]; positivity
    have hpow : (2 : ℝ) ^ (st'.weights.length - 1) = 2 * 2 ^ (st.weights.length - 1) := by
      rw [hlen, show st.weights.length + 1 - 1 = (st.weights.length - 1) + 1 by omega, pow_succ]; ring
    have hb : st.minW ≤ st'.minW ∧ st'.maxW ≤ st.maxW ∧ (st.weight = st'.minW ∨ st.weight = st'.maxW) ∧
        (v < 1 → st.weight ≤ st'.minW) ∧ (1 ≤ v → st'.maxW ≤ st.weight) ∧ st'.maxW - st'.minW = (st.maxW - st.minW) / 2 := by
      rcases lt_or_ge v 1 with hv | hv
      · obtain ⟨m1, m2⟩ := hlow hv
        refine ⟨by rw [m1, n1]; linarith, m2.le, .inl m1.symm, fun _ => m1.ge, fun h => absurd h (not_le.2 hv), ?_⟩
        rw [m1, m2, n1]; ring
      · obtain ⟨m1, m2⟩ := hhigh hv
        refine ⟨m1.ge, by rw [m2, n1]; linarith, .inr m2.symm, fun h => absurd h (not_lt.2 hv), fun _ => m2.le, ?_⟩
        rw [m1, m2, n1]; ring
    obtain ⟨b1, b2, b3, b4, b5, b6⟩ := hb
    refine ⟨hseg, ?_, by rw [hstep.cracks, hlen, List.length_append, hI.count]; rfl, fun hn => ?_, fun _ => ?_⟩
    · rw [hw, hgv]
      exact hI.sorted.snoc b1 b2 b4 b5
    · rw [hn] at hlen; simp at hlen
    · refine ⟨_, _, _, _, r, c, v, hl, b3, fun hv => ?_, fun hn => ?_, fun _ => ⟨li, n2⟩, l6.trans b1, b2.trans l7, ?_⟩
      · obtain ⟨a, b⟩ := hon hv
        exact ⟨a, by rw [a]; exact b⟩
      · omega
      · rw [b6, l8, hpow]
        field_simp

namespace Spec

/-- What is returned is one state: the solution `run` is that of the slab under
a skier of the returned weight with the weak layer cracked as its segments say,
the returned crack length is the length of these cracks and not zero, and `v`
compares the energy that the crack releases with the toughness. Weight, crack
length and `v` are also what the histories end with. -/
structure OneState (e : ℝ) (site : Site) (o : Outcome) (v : ℝ) : Prop where
  value : o.gDelta = some v
  crack : o.crackLength = unsupported o.run.segments.li o.run.segments.ki
  pos : 0 < o.crackLength
  released : nth o.run.segments.li (o.run.segments.li.length - 1) ≠ 0 →
    Released e site o.weight o.run.segments.li o.run.segments.ki o.run v
  weights : o.weights.getLast? = some o.weight
  cracks : o.cracks.getLast? = some o.crackLength
  values : o.gValues.getLast? = some (some v)
  iterations : o.weights.length = o.iterations ∧ o.cracks.length = o.iterations ∧ o.gValues.length = o.iterations

end Spec

/-- The state after the loop when the energy meets the toughness. -/
theorem last_state {num : Numerics} {quad : Quad} {e : ℝ} (hq : QuadOk quad e) (he : 0 ≤ e) {site : Site} (hs : SiteOk num site)
    {st : Search} {w a : ℝ} {li : List ℝ} {ki : List Bool} {r c : Skier} {v : ℝ} (hl : Last num quad site st w a li ki r c v)
    (h1 : st.cracks.length = st.weights.length) (h2 : st.weights.length = st.gValues.length) (hv : |v - 1| ≤ 0.002)
    {res : Bool} {crit dist : ℝ} {dists : List ℝ} {o : Outcome} (ho : st.outcome res crit dist dists = .ok o) :
    OneState e site o v ∧ o.weight = w ∧ o.crackLength = a ∧ o.run = c ∧ li = c.segments.li ∧ ki = c.segments.ki ∧
      o.result = res ∧ o.selfCollapse = false ∧ o.pureStress = false ∧ o.critical = crit ∧ o.weights = st.weights ∧
      o.gValues = st.gValues := by
  obtain ⟨s1, s2, s3, s4⟩ := hl.stop hv
  obtain ⟨ws, cs, gs, g1, g2, g3⟩ := hl.hist
  unfold Search.outcome at ho
  rw [hl.last] at ho
  simp only [Except.ok.injEq] at ho
  subst ho
  obtain ⟨p1, p2, p3⟩ := energy_parts hs hl.energy
  have hpos : 0 < a := hl.segs.pos.resolve_left fun h => by
    have := hl.zero h
    rw [this] at hv
    norm_num at hv
  refine ⟨⟨rfl, ?_, ?_, fun hn => ?_, ?_, ?_, ?_, rfl, h1, h2.symm⟩, s1, s2, rfl, p1.symm, p2.symm, rfl, rfl, rfl, rfl, rfl, rfl⟩
  · simp only [p1, p2, s2]
    exact hl.segs.crack
  · simp only [s2]; exact hpos
  · simp only [p1, p2, s1] at hn ⊢
    obtain ⟨v', e1, e2⟩ := energy_released hq he hs hl.energy hl.segs.nonneg hn (by rw [← hl.segs.crack]; exact hl.segs.pos)
    simp only [Option.some.injEq] at e1
    subst e1
    exact e2
  · simp only [g1, s1, List.getLast?_concat]
  · simp only [g2, s2, List.getLast?_concat]
  · simp only [g3, List.getLast?_concat]

theorem start_goes {st : Search} (h1 : st.last = none) (h2 : st.weights = []) (h3 : st.ki = [true, false, false, true]) {n : ℕ}
    (hn : 0 < n) : st.goesOn n = true := by
  unfold Search.goesOn Search.err above
  rw [h1, h2, h3]
  simp [hn]
  norm_num

/-- A slab of length `L` with the skier in the middle of it, and segments that are
the same seen from either side. -/
def Spec.Centred (L : ℝ) (li : List ℝ) : Prop := li.sum = L ∧ li.reverse = li

theorem crackStart_centred (L : ℝ) : Centred L (crackStart L) := by
  constructor
  · simp [crackStart]; ring
  · rfl

/-- The state of the first pass. -/
theorem first_state {num : Numerics} {quad : Quad} {e : ℝ} (hq : QuadOk quad e) (he : 0 ≤ e) {site : Site} (hs : SiteOk num site)
    {length w : ℝ} (hL : 1 ≤ length) {r c : Skier} {g : Option ℝ}
    (h : energyCheck num quad site w (crackStart length) [true, false, false, true] = .ok (r, c, g)) {crit hi : ℝ} {ds : List ℝ} :
    ∃ v, g = some v ∧ OneState e site ⟨true, 1, w, c, 1, [w], [1], false, true, crit, g, hi, [g], ds⟩ v ∧
      Centred length c.segments.li := by
  have hseg := crackStart_segs hL
  obtain ⟨v, rfl, hv⟩ := energy_value hs h (by rw [← hseg.crack]; exact hseg.pos)
  obtain ⟨p1, p2, p3⟩ := energy_parts hs h
  refine ⟨v, rfl, ⟨rfl, ?_, one_pos, fun hn => ?_, rfl, rfl, rfl, rfl, rfl, rfl⟩, by rw [p1]; exact crackStart_centred _⟩
  · simp only [p1, p2]; exact hseg.crack
  · simp only [p1, p2] at hn ⊢
    obtain ⟨v', e1, e2⟩ := energy_released hq he hs h hseg.nonneg hn (by rw [← hseg.crack]; exact hseg.pos)
    simp only [Option.some.injEq] at e1
    subst e1
    exact e2

/-! ## The dampened search -/

theorem dampenedPass_cases {num : Numerics} {quad : Quad} {site : Site} {damp crit : ℝ} {st : Search} {x : Search ⊕ Outcome}
    (h : dampenedPass num quad site damp crit st = .ok x) : ∃ st1 c g ds ms, trackPass num quad site st = .ok st1 ∧
      st1.last = some (c, g) ∧
      ((st1.weights.length = 1 ∧ above g 1 = true) ∧ x = .inr ⟨true, st1.crack, st1.weight, c, 1, st1.weights, st1.cracks, false,
          true, crit, g, st1.distMax, st1.gValues, ds⟩ ∨
        ¬ (st1.weights.length = 1 ∧ above g 1 = true) ∧ ∃ new st3,
          nextCrack num site new (narrow { st1 with distMaxs := ds, distMins := ms } g) = .ok st3 ∧ x = .inl st3) := by
  unfold dampenedPass at h
  simp only [bind, Except.bind] at h
  cases ht : trackPass num quad site st with
  | error e => simp [ht] at h
  | ok st1 =>
    obtain ⟨r, c, g, d, hi, lo, t1, t2, t3, t4, t5⟩ := trackPass_ok ht
    simp only [ht] at h
    have hlast : st1.last = some (c, g) := by rw [t5]
    rw [hlast] at h
    dsimp only at h
    refine ⟨st1, c, g, st1.distMaxs.dropLast ++ [st1.distMax], st1.distMins.dropLast ++ [st1.distMin], rfl, hlast, ?_⟩
    by_cases hp : st1.weights.length = 1 ∧ above g 1 = true
    · rw [if_pos hp] at h
      simp only [pure, Except.pure, Except.ok.injEq] at h
      exact .inl ⟨hp, h.symm⟩
    · rw [if_neg hp] at h
      split at h
      · simp at h
      · rename_i st3 hn
        simp only [pure, Except.pure, Except.ok.injEq] at h
        rw [← hlast] at hn
        exact .inr ⟨hp, _, st3, hn, h.symm⟩

theorem dampenedPass_inl {num : Numerics} {quad : Quad} {site : Site} {damp crit : ℝ} {st st' : Search}
    (h : dampenedPass num quad site damp crit st = .ok (.inl st')) : ∃ r c g new, Step num quad site st st' r c g new ∧
      (st.weights = [] → above g 1 = false) := by
  obtain ⟨st1, c', g', ds, ms, ht, hlast, ⟨-, hx⟩ | ⟨hp, new, st3, hn, hx⟩⟩ := dampenedPass_cases h
  · simp at hx
  · simp only [Sum.inl.injEq] at hx
    subst hx
    obtain ⟨r, c, g, d, hi, lo, t1, t2, t3, t4, t5⟩ := trackPass_ok ht
    have hlast' : st1.last = some (c, g) := by rw [t5]
    rw [hlast] at hlast'
    simp only [Option.some.injEq, Prod.mk.injEq] at hlast'
    obtain ⟨rfl, rfl⟩ := hlast'
    have hweights : st1.weights = st.weights ++ [st.weight] := by rw [t5]
    have hl2 : (narrow { st1 with distMaxs := ds, distMins := ms } g').last = some (c', g') := by
      rw [narrow_fields]; exact hlast
    rw [narrow_fields] at hn hl2
    refine ⟨r, c', g', new, ?_, ?_⟩
    · rcases nextCrack_ok hl2 hn with ⟨e1, a, li, ki, e2, e3⟩ | ⟨e1, e3⟩
      · subst e3 t5
        refine ⟨t1, ⟨d, t2, t3, t4⟩, rfl, rfl, rfl, rfl, ?_, ?_, fun _ => ⟨rfl, e2⟩, fun h => ?_⟩
        · intro hb; simp [hb]
        · intro hb; simp [hb]
        · rw [e1] at h; simp at h
      · subst e3 t5
        refine ⟨t1, ⟨d, t2, t3, t4⟩, rfl, rfl, rfl, rfl, ?_, ?_, fun h => ?_, fun _ => ⟨rfl, rfl, rfl, rfl⟩⟩
        · intro hb; simp [hb]
        · intro hb; simp [hb]
        · rw [e1] at h; simp at h
    · intro h0
      rw [hweights, h0] at hp
      simpa using hp

theorem dampenedPass_inr {num : Numerics} {quad : Quad} {site : Site} {damp crit : ℝ} {st : Search} {o : Outcome}
    (h : dampenedPass num quad site damp crit st = .ok (.inr o)) : ∃ r c g hi ds, st.weights = [] ∧ above g 1 = true ∧
      energyCheck num quad site st.weight st.li st.ki = .ok (r, c, g) ∧
      o = ⟨true, st.crack, st.weight, c, 1, st.weights ++ [st.weight], st.cracks ++ [st.crack], false, true, crit, g, hi,
        st.gValues ++ [g], ds⟩ := by
  obtain ⟨st1, c', g', ds, ms, ht, hlast, ⟨hp, hx⟩ | ⟨hp, new, st3, hn, hx⟩⟩ := dampenedPass_cases h
  · simp only [Sum.inr.injEq] at hx
    obtain ⟨r, c, g, d, hi, lo, t1, t2, t3, t4, t5⟩ := trackPass_ok ht
    have hlast' : st1.last = some (c, g) := by rw [t5]
    rw [hlast] at hlast'
    simp only [Option.some.injEq, Prod.mk.injEq] at hlast'
    obtain ⟨rfl, rfl⟩ := hlast'
    subst t5
    refine ⟨r, c', g', hi, _, ?_, hp.2, t1, hx⟩
    have := hp.1
    simpa using this
  · simp at hx

/-- Invariant of the dampened search. -/
structure InvD (num : Numerics) (quad : Quad) (site : Site) (crit length : ℝ) (st : Search) : Prop where
  segs : Segs st.crack st.li st.ki
  count : st.cracks.length = st.weights.length ∧ st.weights.length = st.gValues.length
  start : st.weights = [] → st.weight = crit * 1.005 ∧ st.crack = 1 ∧ st.li = crackStart length ∧
    st.ki = [true, false, false, true] ∧ st.last = none
  later : st.weights ≠ [] → ∃ w a li ki r c v, Last num quad site st w a li ki r c v ∧
    (0.002 < |v - 1| → findNewAnticrackLength num site st.weight li = .ok (st.crack, st.li, st.ki)) ∧
    (st.weights.length = 1 → v ≤ 1 ∧ w = crit * 1.005 ∧ a = 1 ∧ li = crackStart length) ∧
    (st.weights.length ≠ 1 → ∃ li0, findNewAnticrackLength num site w li0 = .ok (a, li, ki))

theorem invD_step {num : Numerics} {quad : Quad} {site : Site} (hs : SiteOk num site) (hb : BrentOk num) {damp crit length : ℝ}
    {st st' : Search} {n : ℕ} (hI : InvD num quad site crit length st) (hg : st.goesOn n = true)
    (h : dampenedPass num quad site damp crit st = .ok (.inl st')) :
    InvD num quad site crit length st' ∧ st'.weights.length = st.weights.length + 1 := by
  obtain ⟨r, c, g, new, hstep, hfirst⟩ := dampenedPass_inl h
  obtain ⟨v, rfl, hl, hseg, hon, -, -⟩ := step_last hs hb hI.segs hstep
  have hw := hstep.weights
  have hlen : st'.weights.length = st.weights.length + 1 := by rw [hw]; simp
  refine ⟨⟨hseg, ⟨by rw [hstep.cracks, hlen, List.length_append, hI.count.1]; rfl,
    by rw [hstep.gValues, hlen, List.length_append, hI.count.2]; rfl⟩, fun hn => ?_, fun _ => ?_⟩, hlen⟩
  · rw [hn] at hlen; simp at hlen
  · refine ⟨_, _, _, _, r, c, v, hl, fun hv => ?_, fun hn => ?_, fun hn => ?_⟩
    · obtain ⟨a, b⟩ := hon hv
      rw [a]; exact b
    · have h0 : st.weights = [] := List.eq_nil_of_length_eq_zero (by omega)
      obtain ⟨s1, s2, s3, -⟩ := hI.start h0
      refine ⟨?_, s1, s2, s3⟩
      have := hfirst h0
      simpa [above] using this
    · have h0 : st.weights ≠ [] := by rintro h0; rw [hlen, h0] at hn; simp at hn
      obtain ⟨w, a, li, ki, r0, c0, v0, l1, l3, -⟩ := hI.later h0
      refine ⟨li, l3 ?_⟩
      unfold Search.goesOn at hg
      rw [err_some l1.last, above_err] at hg
      simp only [Bool.and_eq_true, decide_eq_true_eq] at hg
      exact hg.1.1

/-- What the dampened version returns. -/
theorem dampened_cases {num : Numerics} {quad : Quad} {e : ℝ} (hq : QuadOk quad e) (he : 0 ≤ e) {site : Site} (hs : SiteOk num site)
    (hb : BrentOk num) (hH : 1 ≤ 100 * profileHeight site.profile) {fuel : ℕ} {damp : ℝ} {o : Outcome}
    (h : coupledDampened num quad fuel site damp = .ok (some o)) :
    ∃ p, minForce (trial num site [100 * profileHeight site.profile / 2, 0, 0, 100 * profileHeight site.profile / 2]
        [true, true, true, true]) = .ok p ∧ (o.selfCollapse = true ∧ 1 < p.distMin ∧
        selfCollapse num quad site (100 * profileHeight site.profile) p = .ok o ∨
      o.selfCollapse = false ∧ p.distMin ≤ 1 ∧ (p.weight < 1 ∧ o = tooLight p ∨ 1 ≤ p.weight ∧ o.critical = p.weight ∧
        (o.result = true → ∃ v, OneState e site o v ∧
          (o.pureStress = true → 1 < v) ∧ (o.pureStress = false → |v - 1| ≤ 0.002) ∧
          (o.iterations = 1 ∧ o.weight = p.weight * 1.005 ∧ o.crackLength = 1 ∧
              Centred (100 * profileHeight site.profile) o.run.segments.li ∨
            ∃ li0, findNewAnticrackLength num site o.weight li0 = .ok (o.crackLength, o.run.segments.li, o.run.segments.ki))))) := by
  unfold coupledDampened at h
  simp only [bind, Except.bind] at h
  generalize hL : 100 * profileHeight site.profile = L at *
  cases hm : minForce (trial num site [L / 2, 0, 0, L / 2] [true, true, true, true]) with
  | error e => rw [hm] at h; simp at h
  | ok p =>
    rw [hm] at h
    simp only at h
    refine ⟨p, rfl, ?_⟩
    by_cases hd : 1 < p.distMin
    · rw [if_pos hd] at h
      cases hc : selfCollapse num quad site L p with
      | error e => rw [hc] at h; simp at h
      | ok o' =>
        rw [hc] at h
        simp only [pure, Except.pure, Except.ok.injEq, Option.some.injEq] at h
        subst h
        refine .inl ⟨?_, hd, rfl⟩
        unfold selfCollapse at hc
        simp only [bind, Except.bind] at hc
        split at hc
        · simp at hc
        · simp only [pure, Except.pure, Except.ok.injEq] at hc
          rw [← hc]
    · rw [if_neg hd] at h
      by_cases hw : 1 ≤ p.weight
      · rw [if_pos hw] at h
        split at h
        · simp at h
        · rename_i res hres
          cases res with
          | none => simp [pure, Except.pure] at h
          | some maxW =>
            dsimp only at h
            set st0 : Search := ⟨p.weight * 1.005, p.weight, maxW, 1, crackStart L, [true, false, false, true], p.distMax, p.distMin,
              none, [], [], [], [], []⟩ with hst0
            have hI0 : InvD num quad site p.weight L st0 :=
              ⟨crackStart_segs hH, ⟨rfl, rfl⟩, fun _ => ⟨rfl, rfl, rfl, rfl, rfl⟩, fun hn => absurd rfl hn⟩
            have hstep := fun st st' (hI : InvD num quad site p.weight L st) (hg : st.goesOn 50 = true) h =>
              invD_step (damp := damp) (st' := st') hs hb hI hg h
            cases hl : searchLoop (dampenedPass num quad site damp p.weight) 50 51 st0 with
            | error e => rw [hl] at h; simp at h
            | ok x =>
              rw [hl] at h
              cases x with
              | inr o' =>
                simp only [pure, Except.pure, Except.ok.injEq, Option.some.injEq] at h
                subst h
                obtain ⟨st, hI, hp⟩ := searchLoop_inr _ (fun st st' a b c => (hstep st st' a b c).1) _ _ _ hI0 hl
                obtain ⟨r, c, g, hi, ds, q1, q2, q3, q4⟩ := dampenedPass_inr hp
                obtain ⟨s1, s2, s3, s4, -⟩ := hI.start q1
                have c1 : st.cracks = [] := List.eq_nil_of_length_eq_zero (by rw [hI.count.1, q1]; rfl)
                have c2 : st.gValues = [] := List.eq_nil_of_length_eq_zero (by rw [← hI.count.2, q1]; rfl)
                rw [q1, c1, c2, s2] at q4
                simp only [List.nil_append] at q4
                rw [s3, s4] at q3
                obtain ⟨v, v1, v2, v3⟩ := first_state hq he hs hH q3 (crit := p.weight) (hi := hi) (ds := ds)
                subst q4
                refine .inr ⟨rfl, not_lt.1 hd, .inr ⟨hw, rfl, fun _ => ⟨v, v2, fun _ => ?_, fun hf => by simp at hf,
                  .inl ⟨rfl, s1, rfl, v3⟩⟩⟩⟩
                rw [v1] at q2
                simpa [above] using q2
              | inl st =>
                dsimp only at h
                obtain ⟨hI, hg⟩ := searchLoop_inl _ hstep 51 _ _ (by simp [hst0]) hI0 hl
                have h0 : st.weights ≠ [] := fun h0 => by
                  obtain ⟨-, -, -, s4, s5⟩ := hI.start h0
                  rw [start_goes s5 h0 s4 (by norm_num)] at hg
                  simp at hg
                obtain ⟨w, a, li, ki, r, c, v, l1, l2, l3, l4⟩ := hI.later h0
                cases ho : st.outcome (decide (st.weights.length < 50) && st.ki.any id) p.weight st.distMax st.distMaxs with
                | error e => rw [ho] at h; simp at h
                | ok o' =>
                  rw [ho] at h
                  simp only [pure, Except.pure, Except.ok.injEq, Option.some.injEq] at h
                  subst h
                  have hfields : o'.selfCollapse = false ∧ o'.critical = p.weight ∧
                      o'.result = (decide (st.weights.length < 50) && st.ki.any id) := by
                    unfold Search.outcome at ho
                    rw [l1.last] at ho
                    simp only [Except.ok.injEq] at ho
                    rw [← ho]
                    exact ⟨rfl, rfl, rfl⟩
                  refine .inr ⟨hfields.1, not_lt.1 hd, .inr ⟨hw, hfields.2.1, fun hr => ?_⟩⟩
                  rw [hfields.2.2] at hr
                  unfold Search.goesOn at hg
                  rw [err_some l1.last, above_err, Bool.and_assoc, hr, Bool.and_true, decide_eq_false_iff_not, not_lt] at hg
                  obtain ⟨k1, k2, k3, k4, k5, k6, -, -, k7, -⟩ := last_state hq he hs l1 hI.count.1 hI.count.2 hg ho
                  refine ⟨v, k1, fun ht => by rw [k7] at ht; simp at ht, fun _ => hg, ?_⟩
                  by_cases h1 : st.weights.length = 1
                  · obtain ⟨-, m1, m2, m3⟩ := l3 h1
                    refine .inl ⟨?_, by rw [k2, m1], by rw [k3, m2], by rw [k4, ← k5, m3]; exact crackStart_centred _⟩
                    unfold Search.outcome at ho
                    rw [l1.last] at ho
                    simp only [Except.ok.injEq] at ho
                    rw [← ho]
                    exact h1
                  · right
                    rw [k2, k3, k4, ← k5, ← k6]
                    exact l4 h1
      · rw [if_neg hw] at h
        simp only [pure, Except.pure, Except.ok.injEq, Option.some.injEq] at h
        subst h
        exact .inr ⟨rfl, not_lt.1 hd, .inl ⟨not_le.1 hw, rfl⟩⟩

/-! ## The search -/

/-- The search ended since all of the weak layer is cracked at the next weight:
what is returned belongs to two weights. -/
structure TwoStates (e : ℝ) (site : Site) (o : Outcome) (w v : ℝ) : Prop where
  value : o.gDelta = some v
  off : 0.002 < |v - 1|
  weights : o.weights.getLast? = some w
  fresh : o.weight ∉ o.weights
  released : nth o.run.segments.li (o.run.segments.li.length - 1) ≠ 0 →
    Released e site w o.run.segments.li o.run.segments.ki o.run v
  supported : true ∈ o.run.segments.ki
  crack : o.run.segments.li.sum ≤ o.crackLength

theorem unsupported_all {li : List ℝ} {ki : List Bool} (hk : ki.length = li.length) (h : ∀ k ∈ ki, k = false) :
    unsupported li ki = li.sum := by
  unfold unsupported
  induction li generalizing ki with
  | nil => simp
  | cons l li ih =>
    cases ki with
    | nil => simp at hk
    | cons k ki =>
      rw [List.zipWith_cons_cons, List.sum_cons, List.sum_cons, ih (by simpa using hk) fun x hx => h x (List.mem_cons_of_mem _ hx),
        h k (by simp)]
      simp

/-- What the search returns. -/
theorem coupled_cases {num : Numerics} {quad : Quad} {e : ℝ} (hq : QuadOk quad e) (he : 0 ≤ e) {site : Site} (hs : SiteOk num site)
    (hb : BrentOk num) (hH : 1 ≤ 1000 * profileHeight site.profile) {fuel : ℕ} {o : Outcome}
    (h : coupledCriterion num quad fuel site = .ok (some o)) :
    ∃ p, minForce (trial num site [1000 * profileHeight site.profile / 2, 0, 0, 1000 * profileHeight site.profile / 2]
        [true, true, true, true]) = .ok p ∧ (o.selfCollapse = true ∧ 1 < p.distMin ∧
        selfCollapse num quad site (1000 * profileHeight site.profile) p = .ok o ∨
      p.distMin ≤ 1 ∧ (p.weight < 1 ∧ o = tooLight p ∨ 1 ≤ p.weight ∧
        (o.result = true ∧ o.selfCollapse = false ∧ o.pureStress = true ∧ o.critical = p.weight ∧ (∃ v, OneState e site o v ∧
            (1 < v ∨ |v - 1| < 0.02) ∧ o.iterations = 1 ∧ o.weight = p.weight * 1.005 ∧ o.crackLength = 1 ∧
            Centred (1000 * profileHeight site.profile) o.run.segments.li) ∨
          o.result = true ∧ o.selfCollapse = false ∧ o.pureStress = false ∧ o.critical = p.weight ∧ (∃ v, OneState e site o v ∧
            |v - 1| ≤ 0.002 ∧
            (∃ li0, findNewAnticrackLength num site o.weight li0 = .ok (o.crackLength, o.run.segments.li, o.run.segments.ki)) ∧
            p.weight * 1.005 ≤ o.weight ∧ o.weight ≤ 5 * (p.weight * 1.005) ∧
            ∀ (i : ℕ) w g, o.weights[i]? = some w → o.gValues[i]? = some g →
              ∃ x, g = some x ∧ (x < 1 → w ≤ o.weight) ∧ (1 ≤ x → o.weight ≤ w)) ∨
          o.result = true ∧ o.selfCollapse = false ∧ o.pureStress = false ∧ o.critical = p.weight ∧
            (∃ w v, TwoStates e site o w v) ∨
          coupledDampened num quad fuel { site with t := 30 } 1 = .ok (some o)))) := by
  unfold coupledCriterion at h
  simp only [bind, Except.bind] at h
  generalize hL : 1000 * profileHeight site.profile = L at *
  cases hm : minForce (trial num site [L / 2, 0, 0, L / 2] [true, true, true, true]) with
  | error e => rw [hm] at h; simp at h
  | ok p =>
    rw [hm] at h
    simp only at h
    refine ⟨p, rfl, ?_⟩
    by_cases hd : 1 < p.distMin
    · rw [if_pos hd] at h
      cases hc : selfCollapse num quad site L p with
      | error e => rw [hc] at h; simp at h
      | ok o' =>
        rw [hc] at h
        simp only [pure, Except.pure, Except.ok.injEq, Option.some.injEq] at h
        subst h
        refine .inl ⟨?_, hd, rfl⟩
        unfold selfCollapse at hc
        simp only [bind, Except.bind] at hc
        split at hc
        · simp at hc
        · simp only [pure, Except.pure, Except.ok.injEq] at hc
          rw [← hc]
    · rw [if_neg hd] at h
      by_cases hw : 1 ≤ p.weight
      · rw [if_pos hw] at h
        refine .inr ⟨not_lt.1 hd, .inr ⟨hw, ?_⟩⟩
        set st0 : Search := ⟨p.weight * 1.005, p.weight, 5 * (p.weight * 1.005), 1, crackStart L, [true, false, false, true],
          p.distMax, p.distMin, none, [], [], [], [], []⟩ with hst0
        have hI0 : Inv num quad site p.weight L st0 :=
          ⟨crackStart_segs hH, ⟨rfl, fun i w g hi => by simp [hst0] at hi⟩, rfl,
            fun _ => ⟨rfl, rfl, rfl, rfl, rfl, rfl, rfl, rfl⟩, fun hn => absurd rfl hn⟩
        have hpw : 0 < p.weight := by linarith
        have hstep := fun st st' (hI : Inv num quad site p.weight L st) (hg : st.goesOn 25 = true) h =>
          inv_step (st' := st') hs hb hpw hI hg h
        cases hl : searchLoop (coupledPass num quad site p.weight) 25 26 st0 with
        | error e => rw [hl] at h; simp at h
        | ok x =>
          rw [hl] at h
          cases x with
          | inr o' =>
            simp only [pure, Except.pure, Except.ok.injEq, Option.some.injEq] at h
            subst h
            obtain ⟨st, hI, hp⟩ := searchLoop_inr _ (fun st st' a b c => (hstep st st' a b c).1) _ _ _ hI0 hl
            obtain ⟨r, c, g, d, hi, q1, q2, q3, -, -, q4⟩ := coupledPass_inr hp
            obtain ⟨s1, -, -, s2, s3, s4, c1, -⟩ := hI.start q1
            have c2 : st.gValues = [] := List.eq_nil_of_length_eq_zero (by rw [← hI.sorted.1, q1]; rfl)
            rw [q1, c1, c2, s2] at q4
            simp only [List.nil_append] at q4
            rw [s3, s4] at q3
            obtain ⟨v, v1, v2, v3⟩ := first_state hq he hs hH q3 (crit := p.weight) (hi := hi) (ds := st.distMaxs ++ [st.distMax])
            subst q4
            refine .inl ⟨rfl, rfl, rfl, rfl, v, v2, ?_, rfl, s1, rfl, v3⟩
            rw [v1] at q2
            simpa [above, below, errOf] using q2
          | inl st =>
            dsimp only at h
            obtain ⟨hI, hg⟩ := searchLoop_inl _ hstep 26 _ _ (by simp [hst0]) hI0 hl
            have h0 : st.weights ≠ [] := fun h0 => by
              obtain ⟨-, -, -, -, -, s4, -, s5⟩ := hI.start h0
              rw [start_goes s5 h0 s4 (by norm_num)] at hg
              simp at hg
            obtain ⟨w, a, li, ki, r, c, v, l1, l2, l3, l4, l5, l6, l7, l8⟩ := hI.later h0
            have hwid : 0 < st.maxW - st.minW := by rw [l8]; positivity
            by_cases hc : st.weights.length < 25 ∧ st.ki.any id = true
            · rw [if_pos hc] at h
              unfold Search.goesOn at hg
              rw [err_some l1.last, above_err, hc.2, Bool.and_true, decide_eq_true hc.1, Bool.and_true, decide_eq_false_iff_not,
                not_lt] at hg
              have hpos : 0 < st.crack := by
                rw [(l1.stop hg).2.1]
                refine l1.segs.pos.resolve_left fun h => ?_
                have := l1.zero h
                rw [this] at hg
                norm_num at hg
              rw [if_pos hpos] at h
              cases ho : st.outcome true p.weight st.distMax st.distMaxs with
              | error e => rw [ho] at h; simp at h
              | ok o' =>
                rw [ho] at h
                simp only [pure, Except.pure, Except.ok.injEq, Option.some.injEq] at h
                subst h
                obtain ⟨k1, k2, k3, k4, k5, k6, k7, k8, k9, k10, k11, k12⟩ := last_state hq he hs l1 hI.count hI.sorted.1 hg ho
                refine .inr (.inl ⟨k7, k8, k9, k10, v, k1, hg, ?_, ?_, ?_, ?_⟩)
                · have h1 : st.weights.length ≠ 1 := fun h1 => by
                    have := l4 h1
                    rw [abs_le] at hg
                    norm_num at this hg
                    linarith
                  obtain ⟨li0, h2⟩ := l5 h1
                  exact ⟨li0, by rw [k2, k3, k4, ← k5, ← k6]; exact h2⟩
                · rw [k2]; rcases l2 with h | h <;> rw [h] <;> linarith
                · rw [k2]; rcases l2 with h | h <;> rw [h] <;> linarith
                · rw [k11, k12, k2]
                  intro i x g hx hg
                  obtain ⟨y, y1, y2, y3⟩ := hI.sorted.2 i x g hx hg
                  refine ⟨y, y1, fun hy => (y2 hy).trans ?_, fun hy => le_trans ?_ (y3 hy)⟩
                  · rcases l2 with h | h <;> rw [h]; linarith
                  · rcases l2 with h | h <;> rw [h]; linarith
            · rw [if_neg hc] at h
              by_cases hk : st.ki.any id = true
              · rw [if_neg (by simp [hk])] at h
                exact .inr (.inr (.inr h))
              · rw [if_pos hk] at h
                cases ho : st.outcome true p.weight st.distMin st.distMins with
                | error e => rw [ho] at h; simp at h
                | ok o' =>
                  rw [ho] at h
                  simp only [pure, Except.pure, Except.ok.injEq, Option.some.injEq] at h
                  subst h
                  unfold Search.outcome at ho
                  rw [l1.last] at ho
                  simp only [Except.ok.injEq] at ho
                  subst ho
                  obtain ⟨p1, p2, p3⟩ := energy_parts hs l1.energy
                  have hv : 0.002 < |v - 1| := by
                    by_contra hv
                    rw [(l1.stop (not_lt.1 hv)).2.2.2] at hk
                    exact hk p3
                  obtain ⟨m1, m2⟩ := l3 hv
                  obtain ⟨n1, n2, n3, n4, -⟩ := anticrack_shape num site hs hb _ _ l1.segs.sum m2
                  obtain ⟨ws, cs, gs, g1, -, -⟩ := l1.hist
                  refine .inr (.inr (.inl ⟨rfl, rfl, rfl, rfl, w, v, rfl, hv, ?_, ?_, fun hn => ?_, ?_, ?_⟩))
                  · simp only [g1, List.getLast?_concat]
                  · intro hmem
                    have := hI.sorted.outside hmem
                    dsimp only at this
                    rw [m1] at this
                    rcases this with h | h <;> linarith
                  · simp only [p1, p2] at hn ⊢
                    obtain ⟨v', e1, e2⟩ := energy_released hq he hs l1.energy l1.segs.nonneg hn
                      (by rw [← l1.segs.crack]; exact l1.segs.pos)
                    simp only [Option.some.injEq] at e1
                    subst e1
                    exact e2
                  · simp only [p2]
                    obtain ⟨k, k1, k2⟩ := List.any_eq_true.1 p3
                    have : k = true := k2
                    rwa [this] at k1
                  · simp only [p1]
                    rw [n3, unsupported_all n2 fun k hk' => ?_]
                    · exact n4
                    · cases k with
                      | false => rfl
                      | true => exact absurd (List.any_eq_true.2 ⟨true, hk', rfl⟩) hk
      · rw [if_neg hw] at h
        simp only [pure, Except.pure, Except.ok.injEq, Option.some.injEq] at h
        subst h
        exact .inr ⟨not_lt.1 hd, .inl ⟨not_le.1 hw, rfl⟩⟩

end Weac
