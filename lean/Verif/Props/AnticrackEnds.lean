import Mathlib.Topology.Order.IntermediateValue
import Verif.Props.PropagationDemo

/-!
# C53: where the crack ends
-/

namespace Weac
open Spec

/-- Contract of the root finder for intervals up to the length `W`: if the
function has opposite signs at the ends, it returns a point of the interval
within `δ` of a change of sign. -/
def Spec.BrentFinds (num : Numerics) (W δ : ℝ) : Prop :=
  ∀ (f : ℝ → Py ℝ) (F : ℝ → ℝ) (a b : ℝ) (s : Self), a < b → b - a ≤ W →
    (∀ x, a ≤ x → x ≤ b → f x s = (.ok (F x), s)) → F a * F b < 0 →
    ∃ r, brentq num f a b s = (.ok r, s) ∧ a ≤ r ∧ r ≤ b ∧
      ∃ p q, a ≤ p ∧ p ≤ b ∧ a ≤ q ∧ q ≤ b ∧ F p * F q ≤ 0 ∧ |p - r| ≤ δ ∧ |q - r| ≤ δ

theorem bisectNum_finds {δ : ℝ} (hδ : 0 ≤ δ) {W : ℝ} (hW : W ≤ δ * 2 ^ 99) : BrentFinds (bisectNum δ) W δ := by
  intro f F a b s hab hW' hf hs
  have hsound := bisectNum_sound hδ
  have hr : ∃ r, brentq (bisectNum δ) f a b s = (.ok r, s) := by
    unfold brentq
    rw [Py.bind_of_ok (hf a le_rfl hab.le), Py.bind_of_ok (hf b hab.le le_rfl)]
    have h1 : F a ≠ 0 := fun e => by rw [e, zero_mul] at hs; exact lt_irrefl _ hs
    have h2 : F b ≠ 0 := fun e => by rw [e, mul_zero] at hs; exact lt_irrefl _ hs
    rw [if_neg h1, if_neg h2, if_neg (not_lt.mpr hs.le)]
    refine bisect_ends (F := F) hf 99 _ ⟨(a, F a), (b, F b), ⟨by simp, by simp, hs.le, le_rfl, hab.le, hab.le, le_rfl⟩, ?_⟩
    rw [abs_sub_comm, abs_of_nonneg (by simpa using hab.le)]
    linarith
  obtain ⟨r, hr⟩ := hr
  obtain ⟨r1, r2⟩ := brentq_bracket hsound.inside hab.le hr
  refine ⟨r, hr, r1, r2, ?_⟩
  unfold brentq at hr
  rw [Py.bind_of_ok (hf a le_rfl hab.le), Py.bind_of_ok (hf b hab.le le_rfl)] at hr
  have h1 : F a ≠ 0 := fun e => by rw [e, zero_mul] at hs; exact lt_irrefl _ hs
  have h2 : F b ≠ 0 := fun e => by rw [e, mul_zero] at hs; exact lt_irrefl _ hs
  rw [if_neg h1, if_neg h2, if_neg (not_lt.mpr hs.le)] at hr
  refine brentLoop_near hsound.near hsound.query hab.le hf ?_ ⟨(a, F a), by simp, (b, F b), by simp, hs.le⟩ hr
  intro p hp
  simp only [List.mem_cons, List.not_mem_nil, or_false] at hp
  rcases hp with rfl | rfl
  · exact ⟨le_rfl, hab.le, rfl⟩
  · exact ⟨hab.le, le_rfl, rfl⟩

/-- The verdict at every grid point holds within `ε` of it. -/
def Spec.Margin (D : ℝ → ℝ → ℝ) (r : Skier) (phi T : ℝ) (d : List ℝ) (ε : ℝ) : Prop :=
  ∀ (n : ℕ) (x v y : ℝ), r.x[n]? = some (some x) → d[n]? = some v → 0 ≤ y → y ≤ T → |y - 10 * x| ≤ ε →
    (v < 1 → distLine D r phi (T / 2) y < 1) ∧ (1 < v → 1 < distLine D r phi (T / 2) y)

theorem continuous_distOf {D : ℝ → ℝ → ℝ} (hc : Continuous fun p : ℝ × ℝ => D p.1 p.2) (r : Skier) (phi m : ℝ) (j : ℕ) :
    Continuous fun x => distOf D r.skier (half r phi m j x) := by
  have hz : Continuous fun x => half r phi m j x := continuous_zsol _ _ _ _ _
  have hi : ∀ i, Continuous fun x => half r phi m j x i := fun i => (continuous_apply i).comp hz
  unfold distOf Beam.tau
  refine hc.comp (Continuous.prodMk ?_ ?_)
  · exact continuous_const.mul (continuous_const.mul (hi 2)).neg
  · exact continuous_const.mul (continuous_const.mul (((hi 0).add (continuous_const.mul (hi 4))).sub (continuous_const.mul (hi 3))))

/-- Between a point inside and a point outside the envelope on the same side of
the load the envelope is reached. -/
theorem line_reached {D : ℝ → ℝ → ℝ} (hc : Continuous fun p : ℝ × ℝ => D p.1 p.2) (r : Skier) (phi m p q : ℝ)
    (hpq : (p ≤ m ∧ q ≤ m) ∨ (m < p ∧ m < q)) (h : (distLine D r phi m p - 1) * (distLine D r phi m q - 1) ≤ 0) :
    ∃ c ∈ Set.uIcc p q, distLine D r phi m c = 1 := by
  have key : ∃ g : ℝ → ℝ, Continuous g ∧ ∀ c ∈ Set.uIcc p q, distLine D r phi m c = g c := by
    rcases hpq with ⟨h1, h2⟩ | ⟨h1, h2⟩
    · refine ⟨_, continuous_distOf hc r phi m 0, fun c hcc => ?_⟩
      unfold distLine
      rw [if_pos (hcc.2.trans (max_le h1 h2))]
    · refine ⟨fun x => distOf D r.skier (half r phi m 1 (x - m)),
        (continuous_distOf hc r phi m 1).comp (continuous_id.sub continuous_const), fun c hcc => ?_⟩
      unfold distLine
      rw [if_neg (not_le.2 (lt_of_lt_of_le (lt_min h1 h2) hcc.1))]
  obtain ⟨g, g1, g2⟩ := key
  have e1 := g2 p Set.left_mem_uIcc
  have e2 := g2 q Set.right_mem_uIcc
  rw [e1, e2] at h
  have hm : (1 : ℝ) ∈ Set.uIcc (g p) (g q) := by
    rw [Set.mem_uIcc]
    by_contra hn
    push Not at hn
    rcases lt_trichotomy (g p) 1 with h1 | h1 | h1
    · have := hn.1 h1.le
      nlinarith
    · have := hn.1 h1.le
      have := hn.2
      rw [h1] at this
      rcases le_or_gt (g q) 1 with h2 | h2
      · exact absurd (this h2) (lt_irrefl _)
      · linarith
    · have := hn.2
      rcases le_or_gt (g q) 1 with h2 | h2
      · linarith [this h2]
      · nlinarith
  obtain ⟨c, hcc, hv⟩ := intermediate_value_uIcc g1.continuousOn hm
  exact ⟨c, hcc, by rw [g2 c hcc, hv]⟩

/-- C53 for a root finder of the accuracy `δ`, if the ends of the beam are
inside the envelope, the verdict at every grid point holds within `2 δ`, and
some grid point up to the middle is outside if any is. In addition to
`C53_crack_partial`: where supported and unsupported segments meet, the stresses
reach the envelope within `δ`. -/
theorem C53_ends_partial (num : Numerics) (site : Site) (hs : SiteOk num site) {δ : ℝ} (li : List ℝ) (hT : 0 < li.sum)
    (hδ : 0 ≤ δ) (hb : BrentFinds num li.sum δ)
    {D : ℝ → ℝ → ℝ} (hD : ∀ a b, stressEnvelope site.env a b = .ok (D a b)) (hsym : ∀ a b, D a (-b) = D a b)
    (hc : Continuous fun p : ℝ × ℝ => D p.1 p.2) (w : ℝ)
    {r : Skier} {d : List ℝ} (hr : createSkierObject num site w [li.sum / 2, li.sum / 2] [true, true] .nocrack = .ok r)
    (hd : distances site.env r = .ok d) (hon : ∀ v ∈ d, v ≠ 1) (hfirst : ∀ v ∈ d.head?, v < 1)
    (hlast : ∀ v ∈ d.getLast?, v < 1) (hmar : Margin D r site.phi li.sum d (2 * δ))
    (hleft : (∃ v ∈ d, 1 < v) → ∃ (n : ℕ) (x v : ℝ), r.x[n]? = some (some x) ∧ d[n]? = some v ∧ 1 < v ∧ 10 * x ≤ li.sum / 2) :
    ∃ a li' ki', findNewAnticrackLength num site w li = .ok (a, li', ki') ∧ ki'.length = li'.length ∧ li'.sum = li.sum ∧
      (∀ l ∈ li', 0 ≤ l) ∧ (∃ i, i < li'.length ∧ startOf li' (i + 1) = li.sum / 2) ∧ a = unsupported li' ki' ∧
      (∀ x, 0 ≤ x → x ≤ li.sum → Touches li' ki' x true → Touches li' ki' x false →
        ∃ c, 0 ≤ c ∧ c ≤ li.sum ∧ |c - x| ≤ δ ∧ distLine D r site.phi (li.sum / 2) c = 1) ∧
      ∀ (n : ℕ) (x v : ℝ), r.x[n]? = some (some x) → d[n]? = some v →
        (1 < v → Touches li' ki' (10 * x) false ∧ ¬ Touches li' ki' (10 * x) true) ∧
        (v < 1 → Touches li' ki' (10 * x) true ∧ ¬ Touches li' ki' (10 * x) false) := by
  have hm : 0 < li.sum / 2 := by positivity
  obtain ⟨r', r1, r2⟩ := C50_solution_partial num site hs w [li.sum / 2, li.sum / 2] [true, true] (half_beam hT) .nocrack
  rw [hr] at r1
  injection r1 with r1
  subst r1
  obtain ⟨xs, h1, h2, h3, h4, h5, h6⟩ := half_samples site w (li.sum / 2) hm hD r2
  rw [hd] at h6
  injection h6 with h6
  have hval : ∀ (n : ℕ) (x : ℝ), r.x[n]? = some (some x) →
      ∃ v, d[n]? = some v ∧ v ≠ 1 ∧ v = distGrid D r site.phi (li.sum / 2) (10 * x) := by
    intro n x hx
    rw [h5, List.getElem?_map] at hx
    obtain ⟨y, hy, hy'⟩ := Option.map_eq_some_iff.1 hx
    have e : d[n]? = some (distGrid D r site.phi (li.sum / 2) y) := by rw [h6, List.getElem?_map, hy]; rfl
    simp only [Option.some.injEq] at hy'
    have : 10 * x = y := by rw [← hy']; ring
    exact ⟨_, e, hon _ (List.mem_of_getElem? e), by rw [this]⟩
  have hx0 : ∀ (n : ℕ) (x : ℝ), r.x[n]? = some (some x) → 0 ≤ 10 * x := by
    intro n x hx
    rw [h5, List.getElem?_map] at hx
    obtain ⟨y, hy, hy'⟩ := Option.map_eq_some_iff.1 hx
    simp only [Option.some.injEq] at hy'
    have hy := List.mem_of_getElem? hy
    have : 10 * x = y := by rw [← hy']; ring
    rw [this]
    cases xs with
    | nil => simp at hy
    | cons a as =>
      simp only [List.head?_cons, Option.some.injEq] at h1
      subst h1
      rcases List.mem_cons.1 hy with rfl | hy
      · exact le_rfl
      · exact ((List.pairwise_cons.1 h3).1 y hy).le
  -- near a grid point all points have its verdict
  have hnear : ∀ (n : ℕ) (x p q : ℝ), r.x[n]? = some (some x) → 0 ≤ p → p ≤ li.sum → 0 ≤ q → q ≤ li.sum →
      |p - 10 * x| ≤ 2 * δ → |q - 10 * x| ≤ 2 * δ →
      0 < (distLine D r site.phi (li.sum / 2) p - 1) * (distLine D r site.phi (li.sum / 2) q - 1) := by
    intro n x p q hx p0 p1 q0 q1 hp hq
    obtain ⟨v, v1, v2, -⟩ := hval n x hx
    have a := hmar n x v p hx v1 p0 p1 hp
    have b := hmar n x v q hx v1 q0 q1 hq
    rcases lt_or_gt_of_ne v2 with h | h
    · exact mul_pos_of_neg_of_neg (by linarith [a.1 h]) (by linarith [b.1 h])
    · exact mul_pos (by linarith [a.2 h]) (by linarith [b.2 h])
  obtain ⟨nm, hnm, hget⟩ := List.getElem_of_mem h4
  have hxm : r.x[nm]? = some (some (li.sum / 2 / 10)) := by
    rw [h5, List.getElem?_map, List.getElem?_eq_getElem hnm, hget]; rfl
  have hten : 10 * (li.sum / 2 / 10) = li.sum / 2 := by ring
  refine crack_core num site hs hD w li hT hr hd hon hfirst hlast
    (Q := fun x => ∃ c, 0 ≤ c ∧ c ≤ li.sum ∧ |c - x| ≤ δ ∧ distLine D r site.phi (li.sum / 2) c = 1)
    (fun n n' x x' hx hx' hlt hle hneg => ?_) ?_ hleft
  · have h0 := hx0 n x hx
    have hlift : ∀ y, 10 * x ≤ y → y ≤ 10 * x' →
        Py.lift (rootFunction site.env r.skier r.C [li.sum / 2, li.sum / 2] site.phi y) r.skier
          = (.ok (distLine D r site.phi (li.sum / 2) y - 1), r.skier) := by
      intro y _ hy
      rw [root_line site (li.sum / 2) hD hsym r y (by linarith)]
      rfl
    obtain ⟨y, y1, y2, y3, p, q, p1, p2, q1, q2, hs0, hp, hq⟩ := hb
      (fun y => Py.lift (rootFunction site.env r.skier r.C [li.sum / 2, li.sum / 2] site.phi y))
      (fun y => distLine D r site.phi (li.sum / 2) y - 1) (10 * x) (10 * x') r.skier (by linarith) (by linarith) hlift hneg
    have hne : ∀ (n : ℕ) (x : ℝ), r.x[n]? = some (some x) → y ≠ 10 * x := by
      intro n x hx e
      rw [e] at hp hq
      exact absurd hs0 (not_le.2 (hnear n x p q hx (by linarith) (by linarith) (by linarith) (by linarith) (by linarith)
        (by linarith)))
    refine ⟨y, by unfold rootIn; rw [y1], ⟨lt_of_le_of_ne y2 (hne n x hx).symm, lt_of_le_of_ne y3 (hne n' x' hx')⟩, ?_⟩
    have hside : (p ≤ li.sum / 2 ∧ q ≤ li.sum / 2) ∨ (li.sum / 2 < p ∧ li.sum / 2 < q) := by
      by_contra hc'
      have hd2 : |p - q| ≤ 2 * δ := by
        rw [show p - q = (p - y) - (q - y) by ring]
        exact (abs_sub _ _).trans (by linarith)
      have hpm : |p - li.sum / 2| ≤ 2 * δ ∧ |q - li.sum / 2| ≤ 2 * δ := by
        rw [abs_le] at hd2
        rcases le_or_gt p (li.sum / 2) with a | a <;> rcases le_or_gt q (li.sum / 2) with b | b
        · exact absurd (.inl ⟨a, b⟩) hc'
        · constructor <;> rw [abs_le] <;> constructor <;> linarith
        · constructor <;> rw [abs_le] <;> constructor <;> linarith
        · exact absurd (.inr ⟨a, b⟩) hc'
      exact absurd hs0 (not_le.2 (hnear nm _ p q hxm (by linarith) (by linarith) (by linarith) (by linarith)
        (by rw [hten]; exact hpm.1) (by rw [hten]; exact hpm.2)))
    obtain ⟨c, c1, c2⟩ := line_reached hc r site.phi (li.sum / 2) p q hside hs0
    have hcp := Set.uIcc_subset_Icc (a₂ := 10 * x) (b₂ := 10 * x') ⟨p1, p2⟩ ⟨q1, q2⟩ c1
    have hcy := Set.uIcc_subset_Icc (a₂ := y - δ) (b₂ := y + δ) (show p ∈ _ by rw [abs_le] at hp; constructor <;> linarith)
      (show q ∈ _ by rw [abs_le] at hq; constructor <;> linarith) c1
    exact ⟨c, by linarith [hcp.1], by linarith [hcp.2], by rw [abs_le]; constructor <;> linarith [hcy.1, hcy.2], c2⟩
  · obtain ⟨v, v1, v2, v3⟩ := hval nm _ hxm
    rw [hten] at v3
    have hr0 : distGrid D r site.phi (li.sum / 2) (li.sum / 2) = distOf D r.skier (half r site.phi (li.sum / 2) 1 0) := by
      unfold distGrid
      rw [if_neg (lt_irrefl _), sub_self]
    have hl0 : distLine D r site.phi (li.sum / 2) (li.sum / 2) = distOf D r.skier (half r site.phi (li.sum / 2) 0 (li.sum / 2)) := by
      unfold distLine
      rw [if_pos le_rfl]
    have := hmar nm _ v (li.sum / 2) hxm v1 hm.le (by linarith) (by rw [hten, sub_self, abs_zero]; linarith)
    rw [hl0, v3, hr0] at this
    rw [v3, hr0] at v2
    rcases lt_or_gt_of_ne v2 with h | h
    · exact mul_pos_of_neg_of_neg (by linarith [this.1 h]) (by linarith)
    · exact mul_pos (by linarith [this.2 h]) (by linarith)

end Weac
