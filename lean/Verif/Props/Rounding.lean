import Verif.Model.Rounded
import Verif.Lemmas.Rounding
import Verif.Props.Laminate
import Verif.Props.Segments
import Verif.Props.Skier

/-!
# C88: rounding errors in the set-up of the slab

The set-up in floating point (`Verif.Model.Rounded`) against the set-up in exact
arithmetic. Errors are multiples of `gamma u k = k u / (1 - k u)`, where `k` counts
the operations that a value passes through.
-/

namespace Weac

open Spec

variable {u : ℝ} {fl : ℝ → ℝ}

/-! ### Sums -/

theorem rel_foldl (h : RoundOk u fl) {ι : Type} {k : ℕ} (f f' : ι → ℝ) :
    ∀ (is : List ι) (j : ℕ) (a a' : ℝ), k ≤ j → 0 ≤ a → (∀ i ∈ is, 0 ≤ f i) → (∀ i ∈ is, Rel u k (f i) (f' i)) → Rel u j a a' →
      Rel u (j + is.length) (a + (is.map f).sum) ((is.map f').foldl (fun a x => fl (a + x)) a') := by
  intro is
  induction is with
  | nil => intro j a a' _ _ _ _ hr; simpa using hr
  | cons i is ih =>
    intro j a a' hk ha hf hr ht
    have h1 := h.rel_fl (h.rel_add ha (hf i (by simp)) ht (h.rel_mono (hr i (by simp)) hk))
    have := ih (j + 1) (a + f i) (fl (a' + f' i)) (by omega) (add_nonneg ha (hf i (by simp))) (fun i hi => hf i (by simp [hi]))
      (fun i hi => hr i (by simp [hi])) h1
    simp only [List.map_cons, List.sum_cons, List.foldl_cons, List.length_cons]
    rw [show j + (is.length + 1) = j + 1 + is.length by ring, ← add_assoc]
    exact this

theorem rel_sum (h : RoundOk u fl) {ι : Type} {k : ℕ} (f f' : ι → ℝ) (is : List ι) (hf : ∀ i ∈ is, 0 ≤ f i)
    (hr : ∀ i ∈ is, Rel u k (f i) (f' i)) : Rel u (k + is.length) (is.map f).sum (flSum fl (is.map f')) := by
  have := rel_foldl h f f' is k 0 0 le_rfl le_rfl hf hr (h.rel_mono (Rel.refl u 0) (Nat.zero_le k))
  rwa [zero_add] at this

theorem err_foldl (h : RoundOk u fl) {ι : Type} {k : ℕ} (b f f' : ι → ℝ) :
    ∀ (is : List ι) (j : ℕ) (B a a' : ℝ), k ≤ j → (∀ i ∈ is, Err u k (b i) (f i) (f' i)) → Err u j B a a' →
      Err u (j + is.length) (B + (is.map b).sum) (a + (is.map f).sum) ((is.map f').foldl (fun a x => fl (a + x)) a') := by
  intro is
  induction is with
  | nil => intro j B a a' _ _ hr; simpa using hr
  | cons i is ih =>
    intro j B a a' hk hr ht
    have h1 := h.err_fl (ht.add (h.err_mono (hr i (by simp)) hk le_rfl))
    have := ih (j + 1) (B + b i) (a + f i) (fl (a' + f' i)) (by omega) (fun i hi => hr i (by simp [hi])) h1
    simp only [List.map_cons, List.sum_cons, List.foldl_cons, List.length_cons]
    rw [show j + (is.length + 1) = j + 1 + is.length by ring, ← add_assoc, ← add_assoc]
    exact this

theorem err_zero (u : ℝ) (k : ℕ) : Err u k 0 0 0 := ⟨by simp, by simp⟩

theorem err_sum (h : RoundOk u fl) {ι : Type} {k : ℕ} (b f f' : ι → ℝ) (is : List ι)
    (hr : ∀ i ∈ is, Err u k (b i) (f i) (f' i)) : Err u (k + is.length) (is.map b).sum (is.map f).sum (flSum fl (is.map f')) := by
  have := err_foldl h b f f' is k 0 0 0 le_rfl hr (err_zero u k)
  rwa [zero_add, zero_add] at this

theorem rel_flSum (h : RoundOk u fl) (l : List ℝ) (hl : ∀ x ∈ l, 0 ≤ x) : Rel u l.length l.sum (flSum fl l) := by
  have := rel_sum h (k := 0) id id l hl (fun x _ => Rel.refl u x)
  simpa using this

theorem fl_zero (h : RoundOk u fl) : fl 0 = 0 := by
  have := h.close 0
  rw [abs_zero, mul_zero, sub_zero] at this
  exact abs_nonpos_iff.1 this

theorem list_range (l : List ℝ) : l = (List.range l.length).map (nth l) := by
  refine List.ext_getElem (by simp) fun i h1 h2 => ?_
  simp [nth_eq h1]

theorem zipWith_nth (f : ℝ → ℝ → ℝ) {n : ℕ} (a : ℕ → ℝ) {d : List ℝ} (hd : d.length = n) :
    List.zipWith f ((List.range n).map a) d = (List.range n).map fun i => f (a i) (nth d i) := by
  refine List.ext_getElem (by simp [hd]) fun i h1 h2 => ?_
  simp only [List.getElem_zipWith, List.getElem_map, List.getElem_range]
  rw [nth_eq]

theorem zipWith_lists (f : ℝ → ℝ → ℝ) {n : ℕ} {d r : List ℝ} (hd : d.length = n) (hr : r.length = n) :
    List.zipWith f d r = (List.range n).map fun i => f (nth d i) (nth r i) := by
  conv_lhs => rw [list_range d, hd]
  exact zipWith_nth f _ hr

theorem take_sum_le (l : List ℝ) (hl : ∀ x ∈ l, 0 ≤ x) (j : ℕ) : (l.take j).sum ≤ l.sum := by
  have := congrArg List.sum (List.take_append_drop j l)
  rw [List.sum_append] at this
  have := List.sum_nonneg (l := l.drop j) fun x hx => hl x (List.mem_of_mem_drop hx)
  linarith

theorem take_sum_nonneg (l : List ℝ) (hl : ∀ x ∈ l, 0 ≤ x) (j : ℕ) : 0 ≤ (l.take j).sum :=
  List.sum_nonneg fun x hx => hl x (List.mem_of_mem_take hx)

/-! ### Thickness and centre of gravity -/

theorem cog_rounded (h : RoundOk u fl) (ls : List Ply) (hv : ValidPlies ls) :
    Rel u ls.length (calcCenterOfGravity ls).1 (calcCenterOfGravityFl fl ls).1 ∧
    Err u (3 * ls.length + 11) (3 / 2 * (calcCenterOfGravity ls).1) (calcCenterOfGravity ls).2 (calcCenterOfGravityFl fl ls).2 := by
  set n := ls.length with hn
  set d : List ℝ := (ls.map fun l => l.h).reverse with hd
  set r : List ℝ := (ls.map fun l => (1e-12 : ℝ) * l.rho).reverse with hr
  set r' : List ℝ := (ls.map fun l => fl (fl 1e-12 * l.rho)).reverse with hr'
  have ld : d.length = n := by simp [hd, hn]
  have lr : r.length = n := by simp [hr, hn]
  have lr' : r'.length = n := by simp [hr', hn]
  have pd : ∀ x ∈ d, 0 < x := by
    intro x hx
    rw [hd, List.mem_reverse, List.mem_map] at hx
    obtain ⟨l, hl, rfl⟩ := hx
    exact (hv.2 l hl).2
  have pd0 : ∀ x ∈ d, 0 ≤ x := fun x hx => (pd x hx).le
  have dpos : ∀ i ∈ List.range n, 0 < nth d i := by
    intro i hi
    rw [nth_eq (by rw [ld]; exact List.mem_range.1 hi)]
    exact pd _ (List.getElem_mem _)
  have rpos : ∀ i ∈ List.range n, 0 < nth r i ∧ Rel u 2 (nth r i) (nth r' i) := by
    intro i hi
    have hi := List.mem_range.1 hi
    rw [nth_eq (show i < r.length by omega), nth_eq (show i < r'.length by omega)]
    simp only [hr, hr', List.getElem_reverse, List.getElem_map]
    have hp := (hv.2 _ (List.getElem_mem (l := ls) (n := (ls.map fun l => (1e-12 : ℝ) * l.rho).length - 1 - i)
      (by simp only [List.length_map]; omega))).1
    simp only [List.length_map] at hp ⊢
    refine ⟨by positivity, ?_⟩
    exact h.rel_fl (h.rel_mul (h.rel_fl (Rel.refl u _)) (Rel.refl u _))
  have H0 := take_sum_nonneg d pd0
  have Hle := take_sum_le d pd0
  have hH : Rel u n d.sum (flSum fl d) := by simpa [ld] using rel_flSum h d pd0
  have hS : 0 ≤ d.sum := List.sum_nonneg pd0
  have e1 : calcCenterOfGravity ls = (d.sum, ((List.range n).map fun i => (d.sum / 2 - (d.take i).sum - nth d i / 2) * nth d i * nth r i).sum
      / ((List.range n).map fun i => nth d i * nth r i).sum) := by
    simp only [calcCenterOfGravity, ← hn, ← hd, ← hr]
    rw [zipWith_nth _ _ ld, zipWith_nth _ _ lr, zipWith_lists _ ld lr]
  have e2 : calcCenterOfGravityFl fl ls = (flSum fl d,
      fl (flSum fl ((List.range n).map fun i => fl (fl (fl (fl (fl (flSum fl d / 2) - flSum fl (d.take i)) - fl (nth d i / 2)) * nth d i) * nth r' i))
      / flSum fl ((List.range n).map fun i => fl (nth d i * nth r' i)))) := by
    simp only [calcCenterOfGravityFl, ← hn, ← hd, ← hr']
    rw [zipWith_nth _ _ ld, zipWith_nth _ _ lr', zipWith_lists _ ld lr']
  rw [e1, e2]
  refine ⟨hH, ?_⟩
  have den : Rel u (3 + n) ((List.range n).map fun i => nth d i * nth r i).sum (flSum fl ((List.range n).map fun i => fl (nth d i * nth r' i))) := by
    have := rel_sum h (k := 3) (fun i => nth d i * nth r i) (fun i => fl (nth d i * nth r' i)) (List.range n)
      (fun i hi => mul_nonneg (dpos i hi).le (rpos i hi).1.le)
      (fun i hi => by simpa using h.rel_fl (h.rel_mul (Rel.refl u (nth d i)) (rpos i hi).2))
    rwa [List.length_range] at this
  have dp : 0 < ((List.range n).map fun i => nth d i * nth r i).sum := by
    refine List.sum_pos _ ?_ ?_
    · intro x hx
      obtain ⟨i, hi, rfl⟩ := List.mem_map.1 hx
      exact mul_pos (dpos i hi) (rpos i hi).1
    · have : 0 < n := List.length_pos_iff.2 hv.1
      intro h0
      simp only [List.map_eq_nil_iff, List.range_eq_nil] at h0
      omega
  have zi : ∀ i ∈ List.range n, Err u (n + 3) (3 / 2 * d.sum) (d.sum / 2 - (d.take i).sum - nth d i / 2)
      (fl (fl (fl (flSum fl d / 2) - flSum fl (d.take i)) - fl (nth d i / 2))) := by
    intro i hi
    have hi' := List.mem_range.1 hi
    have a1 : Err u (n + 1) (d.sum / 2) (d.sum / 2) (fl (flSum fl d / 2)) := by
      have := h.rel_fl (h.rel_div hH (Rel.refl u 2))
      exact h.err_of_rel (by positivity) this
    have a2 : Err u (n + 1) (d.take i).sum (d.take i).sum (flSum fl (d.take i)) := by
      have := rel_flSum h (d.take i) (fun x hx => pd0 x (List.mem_of_mem_take hx))
      exact h.err_of_rel (H0 i) (h.rel_mono this (by simp; omega))
    have a3 : Err u (n + 2) (nth d i / 2) (nth d i / 2) (fl (nth d i / 2)) := by
      have := h.rel_fl (Rel.refl u (nth d i / 2))
      exact h.err_of_rel (by have := dpos i hi; positivity) (h.rel_mono this (by omega))
    refine h.err_mono (h.err_fl ((h.err_fl (a1.sub a2)).sub a3)) le_rfl ?_
    have b := Hle (i + 1)
    have b' := H0 i
    rw [List.take_add_one, List.sum_append, List.getElem?_eq_getElem (by omega)] at b
    simp only [Option.toList_some, List.sum_cons, List.sum_nil, add_zero] at b
    rw [← nth_eq] at b
    have := dpos i hi
    linarith
  have num : Err u (2 * n + 7) (3 / 2 * d.sum * ((List.range n).map fun i => nth d i * nth r i).sum)
      ((List.range n).map fun i => (d.sum / 2 - (d.take i).sum - nth d i / 2) * nth d i * nth r i).sum
      (flSum fl ((List.range n).map fun i => fl (fl (fl (fl (fl (flSum fl d / 2) - flSum fl (d.take i)) - fl (nth d i / 2)) * nth d i) * nth r' i))) := by
    have := err_sum h (k := n + 7) (fun i => 3 / 2 * d.sum * (nth d i * nth r i)) (fun i => (d.sum / 2 - (d.take i).sum - nth d i / 2) * nth d i * nth r i)
      (fun i => fl (fl (fl (fl (fl (flSum fl d / 2) - flSum fl (d.take i)) - fl (nth d i / 2)) * nth d i) * nth r' i)) (List.range n)
      (fun i hi => by
        have := h.err_fl (h.err_mul (h.err_fl (h.err_mul (zi i hi) (h.err_of_rel (dpos i hi).le (Rel.refl u _))))
          (h.err_of_rel (rpos i hi).1.le (rpos i hi).2))
        rw [mul_assoc] at this
        exact this)
    rw [List.length_range, List.sum_map_mul_left] at this
    exact h.err_mono this (by omega) le_rfl
  have := h.err_fl (h.err_div num dp den)
  refine h.err_mono this (by omega) (le_of_eq ?_)
  field_simp

/-- C88. The computed thickness and centre of gravity. -/
theorem C88_center_of_gravity (h : RoundOk u fl) (ls : List Ply) (hv : ValidPlies ls) (hu : ((3 * ls.length + 11 : ℕ) : ℝ) * u < 1) :
    |(calcCenterOfGravityFl fl ls).1 - total Ply.h ls| ≤ gamma u ls.length * total Ply.h ls ∧
    |(calcCenterOfGravityFl fl ls).2 - (calcCenterOfGravity ls).2| ≤ gamma u (3 * ls.length + 11) * (3 / 2 * total Ply.h ls) := by
  obtain ⟨h1, h2⟩ := cog_rounded h ls hv
  have hp : 0 ≤ total Ply.h ls := by
    refine List.sum_nonneg fun x hx => ?_
    obtain ⟨l, hl, rfl⟩ := List.mem_map.1 hx
    exact (hv.2 l hl).2.le
  rw [cog_fst] at h1 h2
  refine ⟨h.err_bound (h.err_of_rel hp h1) (lt_of_le_of_lt ?_ hu), h.err_bound h2 hu⟩
  exact mul_le_mul_of_nonneg_right (by exact_mod_cast (by omega)) h.nonneg

/-- C88, weight: the line load of the slab. -/
theorem C88_weight (h : RoundOk u fl) (g : ℝ) (hg : 0 ≤ g) (slab : List Layer) (hs : ∀ l ∈ slab, l.Valid)
    (hu : ((slab.length + 4 : ℕ) : ℝ) * u < 1) :
    |lineLoadFl fl g slab - (slab.map fun l => l.rho * 1e-12 * g * l.h).sum|
      ≤ gamma u (slab.length + 4) * (slab.map fun l => l.rho * 1e-12 * g * l.h).sum := by
  have hp : ∀ l ∈ slab, 0 ≤ l.rho * 1e-12 * g * l.h := fun l hl => by
    have := (hs l hl).rho
    have := (hs l hl).h
    positivity
  have := rel_sum h (k := 4) (fun l : Layer => l.rho * 1e-12 * g * l.h) (fun l => fl (fl (fl (l.rho * fl 1e-12) * g) * l.h)) slab hp
    (fun l _ => h.rel_fl (h.rel_mul (h.rel_fl (h.rel_mul (h.rel_fl (h.rel_mul (Rel.refl u _) (h.rel_fl (Rel.refl u _)))) (Rel.refl u _))) (Rel.refl u _)))
  rw [add_comm] at this
  refine h.err_bound (h.err_of_rel (List.sum_nonneg fun x hx => ?_) this) hu
  obtain ⟨l, hl, rfl⟩ := List.mem_map.1 hx
  exact hp l hl

/-! ### Moduli -/

theorem rel_plane (h : RoundOk u fl) {nu : ℝ} (hn : nu ^ 2 ≤ 1 / 2) : Rel u 2 (1 - nu ^ 2) (fl (1 - fl (nu ^ 2))) := by
  refine h.rel_fl ?_
  rw [h.rel_iff (by linarith), pow_one]
  have hc := abs_le.1 (h.close (nu ^ 2))
  rw [abs_of_nonneg (sq_nonneg nu)] at hc
  have hu := h.nonneg
  have h1 := h.lt
  have a : u * nu ^ 2 ≤ u * (1 - nu ^ 2) := mul_le_mul_of_nonneg_left (by linarith) hu
  constructor
  · nlinarith [hc.2]
  · have b : 1 - fl (nu ^ 2) ≤ (1 - nu ^ 2) * (1 + u) := by nlinarith [hc.1]
    calc (1 - fl (nu ^ 2)) * (1 - u) ≤ (1 - nu ^ 2) * (1 + u) * (1 - u) := mul_le_mul_of_nonneg_right b (by linarith)
      _ ≤ 1 - nu ^ 2 := by nlinarith [mul_nonneg (show 0 ≤ 1 - nu ^ 2 by linarith) (sq_nonneg u)]

/-- C88, weak layer: the foundation stiffnesses. -/
theorem C88_foundation (h : RoundOk u fl) (s : Self) (hs : WeakOk s) (hn : s.weak.nu ^ 2 ≤ 1 / 2) (hu : ((4 : ℕ) : ℝ) * u < 1) :
    |(foundationFl fl s.weak s.t).1 - (calcFoundationStiffness s).kn| ≤ gamma u 4 * (calcFoundationStiffness s).kn ∧
    |(foundationFl fl s.weak s.t).2 - (calcFoundationStiffness s).kt| ≤ gamma u 4 * (calcFoundationStiffness s).kt := by
  have ht := hs.t
  have hE := hs.E
  have h1 := hs.nu_lo
  have p : 0 < 1 - s.weak.nu ^ 2 := by linarith
  have q : 0 < 1 + s.weak.nu := by linarith
  constructor
  · refine h.err_bound (h.err_of_rel ?_ ?_) hu
    · simp only [calcFoundationStiffness]; positivity
    · exact h.rel_fl (h.rel_div (h.rel_fl (h.rel_div (Rel.refl u _) (rel_plane h hn))) (Rel.refl u _))
  · refine h.err_bound (h.err_of_rel ?_ ?_) hu
    · simp only [calcFoundationStiffness]; positivity
    · exact h.rel_fl (h.rel_div (h.rel_fl (h.rel_div (Rel.refl u _) (h.rel_fl (h.rel_mul (Rel.refl u _) (h.rel_fl (Rel.refl u _)))))) (Rel.refl u _))

theorem bergfeld_rounded (h : RoundOk u fl) {pow : ℝ → ℝ → ℝ} {m N : ℕ} (hp : PowOk u m pow) {rho rho0 C0 C1 : ℝ} (hr : 0 < rho) (hr0 : 0 < rho0)
    (h0 : 0 ≤ C1) (hN : C1 ≤ N) : Rel u (N + m + 2) (bergfeld rho rho0 C0 C1) (bergfeldFl fl pow rho rho0 C0 C1) := by
  have a : Rel u 1 (rho / rho0) (fl (rho / rho0)) := h.rel_fl (Rel.refl u _)
  have b := h.rel_rpow (div_pos hr hr0) a h0 hN
  rw [one_mul] at b
  have c : Rel u (N + m) ((rho / rho0) ^ C1) (pow (fl (rho / rho0)) C1) := by
    obtain ⟨θ, h1, h2, e⟩ := b
    obtain ⟨η, g1, g2, f⟩ := hp (fl (rho / rho0)) C1 (h.rel_pos (div_pos hr hr0) a)
    have := h.rel_mul (x := (rho / rho0) ^ C1) ⟨θ, h1, h2, rfl⟩ (y := 1) ⟨η, g1, g2, rfl⟩
    rw [mul_one, one_mul, ← e, ← f] at this
    exact this
  have := h.rel_fl (h.rel_mul (h.rel_fl (Rel.refl u (C0 * 1e3))) c)
  exact h.rel_mono this (by omega)

/-- C88, Young's modulus of a layer from its density. -/
theorem C88_modulus (h : RoundOk u fl) {pow : ℝ → ℝ → ℝ} {m N : ℕ} (hp : PowOk u m pow) {rho rho0 C0 C1 : ℝ} (hr : 0 < rho) (hr0 : 0 < rho0)
    (hC : 0 ≤ C0) (h0 : 0 ≤ C1) (hN : C1 ≤ N) (hu : ((N + m + 2 : ℕ) : ℝ) * u < 1) :
    |bergfeldFl fl pow rho rho0 C0 C1 - bergfeld rho rho0 C0 C1| ≤ gamma u (N + m + 2) * bergfeld rho rho0 C0 C1 := by
  refine h.err_bound (h.err_of_rel ?_ (bergfeld_rounded h hp hr hr0 h0 hN)) hu
  unfold bergfeld
  have := div_pos hr hr0
  positivity

/-! ### Stiffnesses -/

/-- A computed row of the slab. -/
structure RowOk (u : ℝ) (kE kG : ℕ) (l l' : Layer) : Prop where
  rho : l'.rho = l.rho
  h : l'.h = l.h
  nu : l'.nu = l.nu
  E : Rel u kE l.E l'.E
  G : Rel u kG l.G l'.G

theorem ply_rounded (h : RoundOk u fl) (s : Self) (hs : SlabOk s) {H : ℝ} (hH : Rel u s.slab.length s.h H) {slab' : List Layer}
    (hsl : slab'.map (fun l => l.h) = s.slab.map fun l => l.h) :
    (plyCoordinatesFl fl H slab').length = s.slab.length + 1 ∧ ∀ i ≤ s.slab.length,
      Err u (s.slab.length + 2) (3 / 2 * s.h) (nth (getPlyCoordinates s) i) (nth (plyCoordinatesFl fl H slab') i) := by
  set n := s.slab.length with hn
  set d := s.slab.map fun l => l.h with hd
  have ld : d.length = n := by simp [hd, hn]
  have pd : ∀ x ∈ d, 0 ≤ x := by
    intro x hx
    obtain ⟨l, hl, rfl⟩ := List.mem_map.1 hx
    exact (hs.valid l hl).h.le
  have hh : s.h = d.sum := hs.h
  refine ⟨by simp [plyCoordinatesFl, flCumsum, hsl, ld], fun i hi => ?_⟩
  have e1 : nth (getPlyCoordinates s) i = (d.take i).sum - s.h / 2 := by
    have : i < (cumsum ((0 : ℝ) :: d)).length := by simp [cumsum, ld]; omega
    have a := nth_cumsum (li := (0 : ℝ) :: d) (i := i) (by simp [ld]; omega)
    rw [nth_eq this] at a
    unfold getPlyCoordinates
    rw [← hd, nth_eq (by simpa using this), List.getElem_map, a]
    simp [startOf]
  have e2 : nth (plyCoordinatesFl fl H slab') i = fl (flSum fl (d.take i) - fl (H / 2)) := by
    unfold plyCoordinatesFl
    rw [hsl, nth_eq (by simp [flCumsum, ld]; omega)]
    simp [flCumsum, flSum, fl_zero h]
  rw [e1, e2]
  have a2 : Err u (n + 1) (d.take i).sum (d.take i).sum (flSum fl (d.take i)) := by
    have := rel_flSum h (d.take i) (fun x hx => pd x (List.mem_of_mem_take hx))
    exact h.err_of_rel (take_sum_nonneg d pd i) (h.rel_mono this (by simp; omega))
  have h0 : 0 ≤ s.h := by rw [hh]; exact List.sum_nonneg pd
  have a1 : Err u (n + 1) (s.h / 2) (s.h / 2) (fl (H / 2)) :=
    h.err_of_rel (by positivity) (h.rel_fl (h.rel_div hH (Rel.refl u 2)))
  refine h.err_mono (h.err_fl (a2.sub a1)) le_rfl ?_
  have := take_sum_le d pd i
  linarith

theorem foldl_four {ι : Type} (F : ℝ → ι → ℝ) (G : ℝ → ι → ℝ) (K : ℝ → ι → ℝ) (L : ℝ → ι → ℝ) (is : List ι) (a b c d : ℝ) :
    is.foldl (fun (acc : ℝ × ℝ × ℝ × ℝ) i => (F acc.1 i, G acc.2.1 i, K acc.2.2.1 i, L acc.2.2.2 i)) (a, b, c, d)
      = (is.foldl F a, is.foldl G b, is.foldl K c, is.foldl L d) := by
  induction is generalizing a b c d with
  | nil => rfl
  | cons i is ih => simp only [List.foldl_cons]; exact ih _ _ _ _

theorem foldl_add (f : ℕ → ℝ) (is : List ℕ) (a : ℝ) : is.foldl (fun a i => a + f i) a = a + (is.map f).sum := by
  induction is generalizing a with
  | nil => simp
  | cons i is ih => simp only [List.foldl_cons, List.map_cons, List.sum_cons]; rw [ih]; ring

/-- The stiffnesses of a slab whose rows are accurate to `kE` and `kG` roundings. -/
theorem laminate_rounded (h : RoundOk u fl) (s : Self) (hs : SlabOk s) (hnu : ∀ l ∈ s.slab, l.nu ^ 2 ≤ 1 / 2) {kE kG : ℕ} {H : ℝ}
    (hH : Rel u s.slab.length s.h H) {slab' : List Layer} (hr : List.Forall₂ (RowOk u kE kG) s.slab slab') :
    let n := s.slab.length
    let x := calcLaminateStiffnessMatrix s
    let y := laminateFl fl H slab'
    let E := (s.slab.map fun l => l.E / (1 - l.nu ^ 2)).sum
    let G := (s.slab.map fun l => l.G).sum
    Err u (2 * n + kE + 7) (3 * s.h * E) x.A11 y.1 ∧
    Err u (3 * n + kE + 11) (9 / 4 * s.h ^ 2 * E) x.B11 y.2.1 ∧
    Err u (4 * n + kE + 14) (9 / 4 * s.h ^ 3 * E) x.D11 y.2.2.1 ∧
    Err u (2 * n + kG + 6) (5 / 2 * s.h * G) x.kA55 y.2.2.2 := by
  intro n x y E G
  have hsl : slab'.map (fun l => l.h) = s.slab.map fun l => l.h := by
    clear x y E G hH hnu hs n
    revert hr
    generalize s.slab = sl
    intro hr
    induction hr with
    | nil => rfl
    | cons a _ ih => simp only [List.map_cons, a.h, ih]
  obtain ⟨lz, hz⟩ := ply_rounded h s hs hH hsl
  have lz0 := (C05_ply_coordinates s hs).1
  have hlen : slab'.length = n := by rw [← hr.length_eq]
  set z := getPlyCoordinates s
  set z' := plyCoordinatesFl fl H slab'
  set d0 : Layer := ⟨0, 0, 0, 0, 0⟩ with hd0
  have h0 : 0 ≤ s.h := by
    rw [hs.h]
    refine List.sum_nonneg fun x hx => ?_
    obtain ⟨l, hl, rfl⟩ := List.mem_map.1 hx
    exact (hs.valid l hl).h.le
  have row : ∀ i ∈ List.range n, RowOk u kE kG (s.slab.getD i d0) (slab'.getD i d0) ∧ (s.slab.getD i d0).Valid ∧ (s.slab.getD i d0).nu ^ 2 ≤ 1 / 2 := by
    intro i hi
    have hi := List.mem_range.1 hi
    rw [List.getD_eq_getElem _ _ hi, List.getD_eq_getElem _ _ (by omega)]
    exact ⟨(List.forall₂_iff_get.1 hr).2 i hi (by omega), hs.valid _ (List.getElem_mem _), hnu _ (List.getElem_mem _)⟩
  have dz : ∀ i ∈ List.range n, Err u (n + 3) (3 * s.h) (nth z (i + 1) - nth z i) (fl (nth z' (i + 1) - nth z' i)) := by
    intro i hi
    have hi := List.mem_range.1 hi
    refine h.err_mono (h.err_fl ((hz (i + 1) (by omega)).sub (hz i (by omega)))) le_rfl (le_of_eq (by ring))
  have dz2 : ∀ i ∈ List.range n, Err u (2 * n + 6) (9 / 2 * s.h ^ 2) (nth z (i + 1) ^ 2 - nth z i ^ 2)
      (fl (fl (nth z' (i + 1) ^ 2) - fl (nth z' i ^ 2))) := by
    intro i hi
    have hi := List.mem_range.1 hi
    refine h.err_mono (h.err_fl ((h.err_fl (h.err_sq (hz (i + 1) (by omega)))).sub (h.err_fl (h.err_sq (hz i (by omega))))))
      (by omega) (le_of_eq (by ring))
  have dz3 : ∀ i ∈ List.range n, Err u (3 * n + 8) (27 / 4 * s.h ^ 3) (nth z (i + 1) ^ 3 - nth z i ^ 3)
      (fl (fl (nth z' (i + 1) ^ 3) - fl (nth z' i ^ 3))) := by
    intro i hi
    have hi := List.mem_range.1 hi
    refine h.err_mono (h.err_fl ((h.err_fl (h.err_cube (hz (i + 1) (by omega)))).sub (h.err_fl (h.err_cube (hz i (by omega))))))
      (by omega) (le_of_eq (by ring))
  have sumE : E = ((List.range n).map fun i => (s.slab.getD i d0).E / (1 - (s.slab.getD i d0).nu ^ 2)).sum := by
    have : s.slab = (List.range n).map fun i => s.slab.getD i d0 := by
      refine List.ext_getElem (by simp [n]) fun i h1 h2 => ?_
      rw [List.getElem_map, List.getElem_range, List.getD_eq_getElem _ _ h1]
    show (s.slab.map fun l => l.E / (1 - l.nu ^ 2)).sum = _
    conv_lhs => rw [this]
    rw [List.map_map]
    rfl
  have sumG : G = ((List.range n).map fun i => (s.slab.getD i d0).G).sum := by
    have : s.slab = (List.range n).map fun i => s.slab.getD i d0 := by
      refine List.ext_getElem (by simp [n]) fun i h1 h2 => ?_
      rw [List.getElem_map, List.getElem_range, List.getD_eq_getElem _ _ h1]
    show (s.slab.map fun l => l.G).sum = _
    conv_lhs => rw [this]
    rw [List.map_map]
    rfl
  have ex : calcLaminateStiffnessMatrix s = { s with
      A11 := ((List.range n).map fun i => (s.slab.getD i d0).E / (1 - (s.slab.getD i d0).nu ^ 2) * (nth z (i + 1) - nth z i)).sum
      B11 := ((List.range n).map fun i => 1 / 2 * (s.slab.getD i d0).E / (1 - (s.slab.getD i d0).nu ^ 2) * (nth z (i + 1) ^ 2 - nth z i ^ 2)).sum
      D11 := ((List.range n).map fun i => 1 / 3 * (s.slab.getD i d0).E / (1 - (s.slab.getD i d0).nu ^ 2) * (nth z (i + 1) ^ 3 - nth z i ^ 3)).sum
      kA55 := ((List.range n).map fun i => 5 / 6 * (s.slab.getD i d0).G * (nth z (i + 1) - nth z i)).sum
      K0 := (calcLaminateStiffnessMatrix s).K0 } := by
    have q1 := foldl_four (ι := ℕ)
      (fun a i => a + (s.slab.getD i d0).E / (1 - (s.slab.getD i d0).nu ^ 2) * (nth z (i + 1) - nth z i))
      (fun a i => a + 1 / 2 * (s.slab.getD i d0).E / (1 - (s.slab.getD i d0).nu ^ 2) * (nth z (i + 1) ^ 2 - nth z i ^ 2))
      (fun a i => a + 1 / 3 * (s.slab.getD i d0).E / (1 - (s.slab.getD i d0).nu ^ 2) * (nth z (i + 1) ^ 3 - nth z i ^ 3))
      (fun a i => a + s.k * (s.slab.getD i d0).G * (nth z (i + 1) - nth z i)) (List.range (z.length - 1)) 0 0 0 0
    have q2 : (List.range (z.length - 1)).foldl (laminateStep s.k z s.slab) (0, 0, 0, 0) = _ := q1
    simp only [foldl_add, zero_add] at q2
    rw [lz0, Nat.add_sub_cancel, hs.k] at q2
    simp only [calcLaminateStiffnessMatrix]
    rw [show getPlyCoordinates s = z from rfl, lz0, Nat.add_sub_cancel, hs.k, q2]
  have q := foldl_four (ι := ℕ)
      (fun a i => fl (a + fl (fl ((slab'.getD i d0).E / fl (1 - fl ((slab'.getD i d0).nu ^ 2))) * fl (nth z' (i + 1) - nth z' i))))
      (fun a i => fl (a + fl (fl (fl (1 / 2 * (slab'.getD i d0).E) / fl (1 - fl ((slab'.getD i d0).nu ^ 2)))
        * fl (fl (nth z' (i + 1) ^ 2) - fl (nth z' i ^ 2)))))
      (fun a i => fl (a + fl (fl (fl (fl (1 / 3) * (slab'.getD i d0).E) / fl (1 - fl ((slab'.getD i d0).nu ^ 2)))
        * fl (fl (nth z' (i + 1) ^ 3) - fl (nth z' i ^ 3)))))
      (fun a i => fl (a + fl (fl (fl (5 / 6) * (slab'.getD i d0).G) * fl (nth z' (i + 1) - nth z' i)))) (List.range (z'.length - 1)) 0 0 0 0
  have ey : y = _ := q
  rw [lz, Nat.add_sub_cancel] at ey
  have conv : ∀ (N : ℕ) (f : ℕ → ℝ), (List.range N).foldl (fun a i => fl (a + f i)) 0 = flSum fl ((List.range N).map f) := by
    intro N f
    unfold flSum
    rw [List.foldl_map]
  simp only [x]
  rw [ex, ey]
  simp only [conv]
  refine ⟨?_, ?_, ?_, ?_⟩
  · have := err_sum h (k := n + kE + 7) (fun i => 3 * s.h * ((s.slab.getD i d0).E / (1 - (s.slab.getD i d0).nu ^ 2))) _
      (fun i => fl (fl ((slab'.getD i d0).E / fl (1 - fl ((slab'.getD i d0).nu ^ 2))) * fl (nth z' (i + 1) - nth z' i))) (List.range n)
      (fun i hi => by
        obtain ⟨ro, va, nu⟩ := row i hi
        rw [ro.nu]
        have a := h.err_of_rel (div_pos va.E va.plane).le (h.rel_fl (h.rel_div ro.E (rel_plane h nu)))
        exact h.err_mono (h.err_fl (h.err_mul a (dz i hi))) (by omega) (le_of_eq (mul_comm _ _)))
    rw [List.length_range, List.sum_map_mul_left, ← sumE] at this
    exact h.err_mono this (by omega) le_rfl
  · have := err_sum h (k := 2 * n + kE + 11) (fun i => 9 / 4 * s.h ^ 2 * ((s.slab.getD i d0).E / (1 - (s.slab.getD i d0).nu ^ 2))) _
      (fun i => fl (fl (fl (1 / 2 * (slab'.getD i d0).E) / fl (1 - fl ((slab'.getD i d0).nu ^ 2)))
        * fl (fl (nth z' (i + 1) ^ 2) - fl (nth z' i ^ 2)))) (List.range n)
      (fun i hi => by
        obtain ⟨ro, va, nu⟩ := row i hi
        rw [ro.nu]
        have a := h.err_of_rel (div_pos (mul_pos one_half_pos va.E) va.plane).le
          (h.rel_fl (h.rel_div (h.rel_fl (h.rel_mul (Rel.refl u (1 / 2)) ro.E)) (rel_plane h nu)))
        exact h.err_mono (h.err_fl (h.err_mul a (dz2 i hi))) (by omega) (le_of_eq (by ring)))
    rw [List.length_range, List.sum_map_mul_left, ← sumE] at this
    exact h.err_mono this (by omega) le_rfl
  · have := err_sum h (k := 3 * n + kE + 14) (fun i => 9 / 4 * s.h ^ 3 * ((s.slab.getD i d0).E / (1 - (s.slab.getD i d0).nu ^ 2))) _
      (fun i => fl (fl (fl (fl (1 / 3) * (slab'.getD i d0).E) / fl (1 - fl ((slab'.getD i d0).nu ^ 2)))
        * fl (fl (nth z' (i + 1) ^ 3) - fl (nth z' i ^ 3)))) (List.range n)
      (fun i hi => by
        obtain ⟨ro, va, nu⟩ := row i hi
        rw [ro.nu]
        have a := h.err_of_rel (div_pos (mul_pos (by norm_num : (0 : ℝ) < 1 / 3) va.E) va.plane).le
          (h.rel_fl (h.rel_div (h.rel_fl (h.rel_mul (h.rel_fl (Rel.refl u (1 / 3))) ro.E)) (rel_plane h nu)))
        exact h.err_mono (h.err_fl (h.err_mul a (dz3 i hi))) (by omega) (le_of_eq (by ring)))
    rw [List.length_range, List.sum_map_mul_left, ← sumE] at this
    exact h.err_mono this (by omega) le_rfl
  · have := err_sum h (k := n + kG + 6) (fun i => 5 / 2 * s.h * (s.slab.getD i d0).G) _
      (fun i => fl (fl (fl (5 / 6) * (slab'.getD i d0).G) * fl (nth z' (i + 1) - nth z' i))) (List.range n)
      (fun i hi => by
        obtain ⟨ro, va, nu⟩ := row i hi
        have a := h.err_of_rel (mul_pos (by norm_num : (0 : ℝ) < 5 / 6) va.G).le (h.rel_fl (h.rel_mul (h.rel_fl (Rel.refl u (5 / 6))) ro.G))
        exact h.err_mono (h.err_fl (h.err_mul a (dz i hi))) (by omega) (le_of_eq (by ring)))
    rw [List.length_range, List.sum_map_mul_left, ← sumG] at this
    exact h.err_mono this (by omega) le_rfl

theorem slab_rounded (h : RoundOk u fl) {pow : ℝ → ℝ → ℝ} {m N : ℕ} (hp : PowOk u m pow) (eig : EigSolver) (s : Self) (ls : List Ply) (hv : ValidPlies ls)
    {C0 C1 nu : ℝ} (h0 : 0 ≤ C1) (hN : C1 ≤ N) :
    List.Forall₂ (RowOk u (N + m + 2) (N + m + 5)) (setBeamProperties eig (.rows ls) C0 C1 nu false s).2.slab (slabFl fl pow ls C0 C1 nu) := by
  have e : (setBeamProperties eig (.rows ls) C0 C1 nu false s).2.slab
      = ls.map fun l => ⟨l.rho, l.h, bergfeld l.rho 917 C0 C1, bergfeld l.rho 917 C0 C1 / (2 * (1 + nu)), nu⟩ := by
    obtain ⟨l, ls, rfl⟩ := List.exists_cons_of_ne_nil hv.1
    simp only [setBeamProperties, setSlab, Bool.false_eq_true, if_false]
    rw [List.zipWith_map_right, List.zipWith_self]
  rw [e, slabFl, List.forall₂_map_left_iff, List.forall₂_map_right_iff, List.forall₂_same]
  intro l hl
  have hr := (hv.2 l hl).1
  have a := bergfeld_rounded h hp (rho0 := 917) (C0 := C0) hr (by norm_num) h0 hN
  refine ⟨rfl, rfl, rfl, a, ?_⟩
  have b := h.rel_fl (h.rel_div a (h.rel_fl (h.rel_mul (Rel.refl u 2) (h.rel_fl (Rel.refl u (1 + nu))))))
  exact h.rel_mono b (by omega)

theorem setup_rounded (h : RoundOk u fl) {pow : ℝ → ℝ → ℝ} {m N : ℕ} (hp : PowOk u m pow) (eig : EigSolver) (s0 : Self) (ls : List Ply)
    (hv : ValidPlies ls) {C0 C1 nu : ℝ} (hC : 0 < C0) (h0 : 0 ≤ C1) (hN : C1 ≤ N) (hnu : nu ^ 2 ≤ 1 / 2) :
    let s := (setBeamProperties eig (.rows ls) C0 C1 nu false s0).2
    let x := calcLaminateStiffnessMatrix s
    let y := laminateFl fl (calcCenterOfGravityFl fl ls).1 (slabFl fl pow ls C0 C1 nu)
    let E := (s.slab.map fun l => l.E / (1 - l.nu ^ 2)).sum
    let G := (s.slab.map fun l => l.G).sum
    Err u (2 * ls.length + (N + m + 2) + 7) (3 * s.h * E) x.A11 y.1 ∧
    Err u (3 * ls.length + (N + m + 2) + 11) (9 / 4 * s.h ^ 2 * E) x.B11 y.2.1 ∧
    Err u (4 * ls.length + (N + m + 2) + 14) (9 / 4 * s.h ^ 3 * E) x.D11 y.2.2.1 ∧
    Err u (2 * ls.length + (N + m + 5) + 6) (5 / 2 * s.h * G) x.kA55 y.2.2.2 := by
  intro s x y E G
  have lo : -1 < nu := by nlinarith
  have hi : nu < 1 := by nlinarith
  have hs : SlabOk s := (setBeam_slabOk eig ls C0 C1 nu s0 hv hC lo hi).2
  have hr := slab_rounded h hp eig s0 ls hv (C0 := C0) (nu := nu) h0 hN
  have hlen : s.slab.length = ls.length := by
    have := hr.length_eq
    simpa [slabFl] using this
  have hH : s.h = (calcCenterOfGravity ls).1 := by
    obtain ⟨l, ls, rfl⟩ := List.exists_cons_of_ne_nil hv.1
    rfl
  have hnus : ∀ l ∈ s.slab, l.nu ^ 2 ≤ 1 / 2 := by
    have e : ∀ (a b : List Layer), List.Forall₂ (RowOk u (N + m + 2) (N + m + 5)) a b → (∀ l ∈ b, l.nu ^ 2 ≤ 1 / 2) → ∀ l ∈ a, l.nu ^ 2 ≤ 1 / 2 := by
      intro a b hab
      induction hab with
      | nil => simp
      | cons r _ ih =>
        intro hb l hl
        rcases List.mem_cons.1 hl with rfl | hl
        · rw [← r.nu]; exact hb _ (by simp)
        · exact ih (fun l hl => hb l (by simp [hl])) l hl
    refine e _ _ hr fun l hl => ?_
    simp only [slabFl, List.mem_map] at hl
    obtain ⟨q, -, rfl⟩ := hl
    exact hnu
  have key := laminate_rounded h s hs hnus (H := (calcCenterOfGravityFl fl ls).1) (by rw [hlen, hH]; exact (cog_rounded h ls hv).1) hr
  rw [hlen] at key
  exact key

/-- C88, stiffnesses: what `set_beam_properties` and the calculation of the laminate
stiffnesses yield in floating point, for layers given as rows, and how far it is from
the exact stiffnesses. -/
theorem C88_stiffness (h : RoundOk u fl) {pow : ℝ → ℝ → ℝ} {m N : ℕ} (hp : PowOk u m pow) (eig : EigSolver) (s0 : Self) (ls : List Ply)
    (hv : ValidPlies ls) {C0 C1 nu : ℝ} (hC : 0 < C0) (h0 : 0 ≤ C1) (hN : C1 ≤ N) (hnu : nu ^ 2 ≤ 1 / 2)
    (hu : ((4 * ls.length + N + m + 16 : ℕ) : ℝ) * u < 1) :
    let s := (setBeamProperties eig (.rows ls) C0 C1 nu false s0).2
    let x := calcLaminateStiffnessMatrix s
    let y := laminateFl fl (calcCenterOfGravityFl fl ls).1 (slabFl fl pow ls C0 C1 nu)
    let E := (s.slab.map fun l => l.E / (1 - l.nu ^ 2)).sum
    let G := (s.slab.map fun l => l.G).sum
    let e := gamma u (4 * ls.length + N + m + 16)
    |y.1 - x.A11| ≤ e * (3 * s.h * E) ∧ |y.2.1 - x.B11| ≤ e * (9 / 4 * s.h ^ 2 * E) ∧
    |y.2.2.1 - x.D11| ≤ e * (9 / 4 * s.h ^ 3 * E) ∧ |y.2.2.2 - x.kA55| ≤ e * (5 / 2 * s.h * G) := by
  intro s x y E G e
  obtain ⟨k1, k2, k3, k4⟩ := setup_rounded h hp eig s0 ls hv hC h0 hN hnu
  exact ⟨h.err_bound (h.err_mono k1 (by omega) le_rfl) hu, h.err_bound (h.err_mono k2 (by omega) le_rfl) hu,
    h.err_bound (h.err_mono k3 (by omega) le_rfl) hu, h.err_bound (h.err_mono k4 (by omega) le_rfl) hu⟩

/-- C88, the determinant `K0`, by which the code divides: its error, so that the
computed one is negative too unless the slab is close to singular. -/
theorem C88_determinant (h : RoundOk u fl) {pow : ℝ → ℝ → ℝ} {m N : ℕ} (hp : PowOk u m pow) (eig : EigSolver) (s0 : Self) (ls : List Ply)
    (hv : ValidPlies ls) {C0 C1 nu : ℝ} (hC : 0 < C0) (h0 : 0 ≤ C1) (hN : C1 ≤ N) (hnu : nu ^ 2 ≤ 1 / 2)
    (hu : ((6 * ls.length + 2 * N + 2 * m + 28 : ℕ) : ℝ) * u < 1) :
    let s := (setBeamProperties eig (.rows ls) C0 C1 nu false s0).2
    let y := laminateFl fl (calcCenterOfGravityFl fl ls).1 (slabFl fl pow ls C0 C1 nu)
    let E := (s.slab.map fun l => l.E / (1 - l.nu ^ 2)).sum
    |determinantFl fl y.1 y.2.1 y.2.2.1 - (calcLaminateStiffnessMatrix s).K0|
      ≤ gamma u (6 * ls.length + 2 * N + 2 * m + 28) * (189 / 16 * s.h ^ 4 * E ^ 2) := by
  intro s y E
  obtain ⟨k1, k2, k3, -⟩ := setup_rounded h hp eig s0 ls hv hC h0 hN hnu
  have b2 := h.err_fl (h.err_sq k2)
  have ad := h.err_fl (h.err_mul k1 k3)
  have d := h.err_fl ((h.err_mono b2 (m := 6 * ls.length + 2 * N + 2 * m + 27) (by omega) le_rfl).sub (h.err_mono ad (by omega) le_rfl))
  have e : (calcLaminateStiffnessMatrix s).K0 = (calcLaminateStiffnessMatrix s).B11 ^ 2
      - (calcLaminateStiffnessMatrix s).A11 * (calcLaminateStiffnessMatrix s).D11 := rfl
  rw [e]
  exact h.err_bound (h.err_mono d le_rfl (le_of_eq (by ring))) hu

/-- A rounding in double precision that is always off by the unit roundoff. -/
noncomputable def offFl (x : ℝ) : ℝ := x * (1 + 2⁻¹ ^ 53)

theorem offFl_ok : RoundOk (2⁻¹ ^ 53) offFl := by
  refine ⟨by positivity, by norm_num, fun x => ?_⟩
  have e : offFl x - x = 2⁻¹ ^ 53 * x := by unfold offFl; ring
  rw [e, abs_mul, abs_of_nonneg (by positivity)]

/-- The demonstration slab of three layers, 250 mm thick: the computed thickness and
centre of gravity are accurate to 10⁻¹² mm, but not exact. -/
example : |(calcCenterOfGravityFl offFl demoPlies).1 - 250| ≤ 1e-12 ∧ (calcCenterOfGravityFl offFl demoPlies).1 ≠ 250 ∧
    |(calcCenterOfGravityFl offFl demoPlies).2 - (calcCenterOfGravity demoPlies).2| ≤ 1e-12 := by
  have t : total Ply.h demoPlies = 250 := by norm_num [total, demoPlies]
  have key := C88_center_of_gravity offFl_ok demoPlies demoPlies_valid (by norm_num [demoPlies])
  rw [t] at key
  refine ⟨key.1.trans ?_, ?_, key.2.trans ?_⟩
  · norm_num [demoPlies, gamma]
  · norm_num [calcCenterOfGravityFl, demoPlies, flSum, offFl]
  · norm_num [demoPlies, gamma]

theorem rpow_ok (u : ℝ) : PowOk u 0 fun x y => x ^ y := fun x y _ => Rel.refl u (x ^ y)

/-- Its modulus, stiffnesses, determinant and weight, and the default weak layer. -/
example (eig : EigSolver) (s : Self) (hs : WeakOk s) (hn : s.weak.nu = 0.25) :
    |bergfeldFl offFl (fun x y => x ^ y) 180 - bergfeld 180| ≤ 1e-15 * bergfeld 180 ∧
    |(foundationFl offFl s.weak s.t).1 - (calcFoundationStiffness s).kn| ≤ 1e-15 * (calcFoundationStiffness s).kn ∧
    (let s := (setBeamProperties eig (.rows demoPlies) 6.5 4.4 0.25 false s).2
    let y := laminateFl offFl (calcCenterOfGravityFl offFl demoPlies).1 (slabFl offFl (fun x y => x ^ y) demoPlies 6.5 4.4 0.25)
    let E := (s.slab.map fun l => l.E / (1 - l.nu ^ 2)).sum
    |y.1 - (calcLaminateStiffnessMatrix s).A11| ≤ 4e-15 * (3 * s.h * E) ∧
    |determinantFl offFl y.1 y.2.1 y.2.2.1 - (calcLaminateStiffnessMatrix s).K0| ≤ 1e-14 * (189 / 16 * s.h ^ 4 * E ^ 2)) := by
  have b0 : 0 ≤ bergfeld 180 := by unfold bergfeld; positivity
  refine ⟨?_, ?_, ?_⟩
  · refine (C88_modulus offFl_ok (rpow_ok _) (N := 5) (by norm_num) (by norm_num) (by norm_num) (by norm_num) (by norm_num) (by norm_num)).trans
      (mul_le_mul_of_nonneg_right (by norm_num [gamma]) b0)
  · refine (C88_foundation offFl_ok s hs (by rw [hn]; norm_num) (by norm_num)).1.trans (mul_le_mul_of_nonneg_right (by norm_num [gamma]) ?_)
    have := hs.t
    have := hs.E
    simp only [calcFoundationStiffness, hn]
    positivity
  · intro s' y E
    have hs' := (setBeam_slabOk eig demoPlies 6.5 4.4 0.25 s demoPlies_valid (by norm_num) (by norm_num) (by norm_num)).2
    have hh : 0 ≤ s'.h := by
      rw [hs'.h]
      refine List.sum_nonneg fun x hx => ?_
      obtain ⟨l, hl, rfl⟩ := List.mem_map.1 hx
      exact (hs'.valid l hl).h.le
    have hE : 0 ≤ E := by
      refine List.sum_nonneg fun x hx => ?_
      obtain ⟨l, hl, rfl⟩ := List.mem_map.1 hx
      exact (div_pos (hs'.valid l hl).E (hs'.valid l hl).plane).le
    refine ⟨(C88_stiffness offFl_ok (rpow_ok _) (N := 5) eig s demoPlies demoPlies_valid (by norm_num) (by norm_num) (by norm_num) (by norm_num)
      (by norm_num [demoPlies])).1.trans (mul_le_mul_of_nonneg_right (by norm_num [gamma, demoPlies]) (by positivity)), ?_⟩
    exact (C88_determinant offFl_ok (rpow_ok _) (N := 5) eig s demoPlies demoPlies_valid (by norm_num) (by norm_num) (by norm_num) (by norm_num)
      (by norm_num [demoPlies])).trans (mul_le_mul_of_nonneg_right (by norm_num [gamma, demoPlies]) (by positivity))

example : |lineLoadFl offFl 9810 [⟨200, 300, 5, 2, 0.25⟩] - ([⟨200, 300, 5, 2, 0.25⟩] : List Layer).foldr (fun l q => l.rho * 1e-12 * 9810 * l.h + q) 0|
    ≤ 1e-15 := by
  have := C88_weight offFl_ok 9810 (by norm_num) [⟨200, 300, 5, 2, 0.25⟩]
    (by simp only [List.mem_singleton, forall_eq]; constructor <;> norm_num) (by norm_num)
  refine (le_of_eq ?_).trans (this.trans ?_)
  · norm_num
  · norm_num [gamma]

end Weac
