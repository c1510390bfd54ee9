import Verif.Model.RoundedSystem
import Verif.Props.RoundingFields
import Verif.Props.Backward

/-!
# C91: rounding in the set-up of the linear system
-/

namespace Weac

open Spec

namespace Spec

/-- Bounds for the magnitudes of the numbers from which the linear system is made: complementary
solution (`B`) and particular solution (`Q`) at the ends of the segments, and loads of the skiers (`F`). -/
structure SystemScale (s : Self) (phi : ℝ) (a : SegLists) (B Q F : ℝ) : Prop where
  bed : ∀ i < a.li.length, a.ki.getD i false = true → ∀ x, x = 0 ∨ x = nth a.li i → ∀ q j : Fin 6, (bedScale s.eigs x).getD j 0 q ≤ B
  free : ∀ i < a.li.length, a.ki.getD i false = false → ∀ x, x = 0 ∨ x = nth a.li i → ∀ q j : Fin 6, freeScale s x q j ≤ B
  part : ∀ i < a.li.length, ∀ x, x = 0 ∨ x = nth a.li i → ∀ q : Fin 6,
    (if a.ki.getD i false then
      particularScale s (loadScale (s.slab.map fun l => l.rho * 1e-12 * s.g * l.h).sum phi) (loadScale |s.p| phi) q
    else freeParticularScale s x (loadScale (s.slab.map fun l => l.rho * 1e-12 * s.g * l.h).sum phi) (loadScale |s.p| phi) q) ≤ Q
  load : ∀ m ∈ a.mi, loadScale (1e-3 * |m| * s.g / s.lski) phi ≤ F
  nonneg : 0 ≤ F

end Spec

variable {u : ℝ} {fl : ℝ → ℝ} {lib : Libm} {m k n : ℕ} {B : ℝ}

/-! ## Conditions -/

section

variable (h : RoundOk u fl) (s : Self) (kR : ℝ) {z z' : Vec6} (hz : ∀ q, Err u k B (z q) (z' q))
include h hz

/-- Entries of the conditions. -/
theorem entry_rounded :
    Err u (k + 4) (rowNorm s kR * B) (fu z 0) (fuFl fl 1 z' 0) ∧
    Err u (k + 4) (rowNorm s kR * B) (fw z) (fwFl fl 1 z') ∧
    Err u (k + 4) (rowNorm s kR * B) (fpsi z) (z' 4) ∧
    Err u (k + 4) (rowNorm s kR * B) (fN s z) (fNFl fl s z') ∧
    Err u (k + 4) (rowNorm s kR * B) (fM s z) (fMFl fl s z') ∧
    Err u (k + 4) (rowNorm s kR * B) (fV s z) (fVFl fl s z') ∧
    Err u (k + 4) (rowNorm s kR * B) (fM s z + kR * fpsi z) (fl (fMFl fl s z' + fl (kR * z' 4))) ∧
    Err u (k + 4) (rowNorm s kR * B) (fM s z - kR * fpsi z) (fl (fMFl fl s z' - fl (kR * z' 4))) := by
  have hB : 0 ≤ B := (abs_nonneg _).trans (hz 0).1
  have a := abs_nonneg s.A11
  have b := abs_nonneg s.B11
  have d := abs_nonneg s.D11
  have e := abs_nonneg s.kA55
  have f := abs_nonneg kR
  have R : rowNorm s kR = 1 + (|s.A11| + 2 * |s.B11| + |s.D11| + 2 * |s.kA55|) + |kR| := rfl
  have le : ∀ {c : ℝ}, c ≤ rowNorm s kR → c * B ≤ rowNorm s kR * B := fun hc => mul_le_mul_of_nonneg_right hc hB
  have hz' : ∀ q, Err u k ((fun _ => B : Vec6) q) (z q) (z' q) := hz
  have hu := horizontal_rounded h hz' 1 (Err.refl u 0)
  have hw := disp_rounded h hz' 1
  obtain ⟨hN, hM, hV⟩ := section_rounded h s hz'
  rw [one_mul] at hu hw
  have hk := h.err_fl (h.err_mul (Err.refl u kR) (hz 4))
  have hk' := h.err_mono (m := k + 2) hk (by omega) le_rfl
  refine ⟨h.err_mono hu (by omega) ?_, h.err_mono hw (by omega) ?_, h.err_mono (hz 4) (by omega) ?_, h.err_mono hN (by omega) ?_,
    h.err_mono hM (by omega) ?_, h.err_mono hV (by omega) ?_, h.err_mono (h.err_fl (hM.add hk')) (by omega) ?_,
    h.err_mono (h.err_fl (hM.sub hk')) (by omega) ?_⟩
  · have := le (c := 1) (by rw [R]; linarith)
    simpa using this
  · have := le (c := 1) (by rw [R]; linarith)
    simpa using this
  · have := le (c := 1) (by rw [R]; linarith)
    simpa using this
  · have := le (c := |s.A11| + |s.B11|) (by rw [R]; linarith)
    linarith
  · have := le (c := |s.B11| + |s.D11|) (by rw [R]; linarith)
    linarith
  · have := le (c := 2 * |s.kA55|) (by rw [R]; linarith)
    linarith
  · have := le (c := |s.B11| + |s.D11| + |kR|) (by rw [R]; linarith)
    linarith
  · have := le (c := |s.B11| + |s.D11| + |kR|) (by rw [R]; linarith)
    linarith

theorem bc_rounded (b : Bool) (pos : Pos) (t : Fin 3) :
    Err u (k + 4) (rowNorm s kR * B) (bcFun s kR b pos z t) (bcFl fl s kR b pos z' t) := by
  obtain ⟨hu, hw, hp, hN, hM, hV, h1, h2⟩ := entry_rounded h s kR hz
  unfold bcFun bcFl
  by_cases c1 : IsPst s
  · have c1' : s.system = "pst-" ∨ s.system = "-pst" := c1
    rw [if_pos c1, if_pos c1']
    cases b with
    | true => fin_cases t <;> first | exact hN | exact hM | exact hV
    | false =>
      rcases hm : s.mode with _ | _ | _ | _ <;> cases pos <;> fin_cases t <;>
        first | exact hN | exact hM | exact hV | exact hw | exact h1 | exact h2
  · have c1' : ¬ (s.system = "pst-" ∨ s.system = "-pst") := c1
    rw [if_neg c1, if_neg c1']
    by_cases c2 : IsSkier s
    · have c2' : s.system = "skier" ∨ s.system = "skiers" := c2
      rw [if_pos c2, if_pos c2']
      fin_cases t <;> first | exact hu | exact hw | exact hp
    · have c2' : ¬ (s.system = "skier" ∨ s.system = "skiers") := c2
      rw [if_neg c2, if_neg c2']
      fin_cases t <;> first | exact hN | exact hM | exact hV

end

theorem getD_forall₂ {α : Type} {R : α → α → Prop} {d : α} (hd : R d d) {l l' : List α} (h : List.Forall₂ R l l') (r : ℕ) :
    R (l.getD r d) (l'.getD r d) := by
  induction h generalizing r with
  | nil => simpa using hd
  | cons h1 _ ih =>
    cases r with
    | zero => simpa using h1
    | succ r => simpa using ih r

/-- Rows of the linear system. -/
theorem eqs_rounded (h : RoundOk u fl) (s : Self) (kR : ℝ) (b : Bool) (pos : Pos) {zl zr zl' zr' : Vec6}
    (hl : ∀ q, Err u k B (zl q) (zl' q)) (hr : ∀ q, Err u k B (zr q) (zr' q)) (r : ℕ) :
    Err u (k + 4) (rowNorm s kR * B) ((eqsFun s kR b pos zl zr).getD r 0) ((eqsFl fl s kR b pos zl' zr').getD r 0) := by
  have hB : 0 ≤ rowNorm s kR * B := mul_nonneg (rowNorm_pos s kR).le ((abs_nonneg _).trans (hl 0).1)
  have h0 : Err u (k + 4) (rowNorm s kR * B) 0 0 := by
    have := Err.refl u 0
    rw [abs_zero] at this
    exact h.err_mono this (by omega) hB
  obtain ⟨lu, lw, lp, lN, lM, lV, -, -⟩ := entry_rounded h s kR hl
  obtain ⟨ru, rw', rp, rN, rM, rV, -, -⟩ := entry_rounded h s kR hr
  have bl := bc_rounded h s kR hl b pos
  have br := bc_rounded h s kR hr b pos
  refine getD_forall₂ (R := Err u (k + 4) (rowNorm s kR * B)) h0 ?_ r
  cases pos with
  | l => exact .cons (bl 0) (.cons (bl 1) (.cons (bl 2) (.cons ru (.cons rw' (.cons rp (.cons rN (.cons rM (.cons rV .nil))))))))
  | m => exact .cons (err_neg lu) (.cons (err_neg lw) (.cons (err_neg lp) (.cons (err_neg lN) (.cons (err_neg lM) (.cons (err_neg lV)
      (.cons ru (.cons rw' (.cons rp (.cons rN (.cons rM (.cons rV .nil)))))))))))
  | r => exact .cons (err_neg lu) (.cons (err_neg lw) (.cons (err_neg lp) (.cons (err_neg lN) (.cons (err_neg lM) (.cons (err_neg lV)
      (.cons (br 0) (.cons (br 1) (.cons (br 2) .nil))))))))

/-! ## Assembly -/

variable {phi Q F : ℝ} {a : SegLists} {s : Self}

theorem column_rounded (h : RoundOk u fl) (hl : LibmOk u m lib) (hs : Stored s) (hsc : SystemScale s phi a B Q F)
    (hp : ∀ i < a.li.length, 0 ≤ nth a.li i) {i : ℕ} (hi : i < a.li.length) {x : ℝ} (hx : x = 0 ∨ x = nth a.li i) {c : ℕ} (hc : c < 6) (q : Fin 6) :
    Err u (2 * m + 6) B (zh s x (nth a.li i) (a.ki.getD i false) q (Fin.ofNat 6 c))
      (zhColFl fl lib s x (nth a.li i) (a.ki.getD i false) c q) := by
  have h0 : 0 ≤ x := by
    rcases hx with rfl | rfl
    · exact le_rfl
    · exact hp i hi
  have h1 : x ≤ nth a.li i := by
    rcases hx with rfl | rfl
    · exact hp i hi
    · exact le_rfl
  obtain ⟨j, rfl⟩ : ∃ j : Fin 6, c = j := ⟨⟨c, hc⟩, rfl⟩
  have e : Fin.ofNat 6 (j : ℕ) = j := Fin.ext (Nat.mod_eq_of_lt j.2)
  rw [e]
  unfold zhColFl
  cases hk : a.ki.getD i false with
  | true => exact h.err_mono (complementary_rounded h hl s hs h0 h1 q j) le_rfl (hsc.bed i hi hk x hx q j)
  | false =>
    rw [e]
    exact h.err_mono (free_rounded h s hs h0 q j) (by omega) (hsc.free i hi hk x hx q j)

theorem zp_rounded (h : RoundOk u fl) (hl : LibmOk u m lib) (hs : Stored s) (hsc : SystemScale s phi a B Q F)
    (hp : ∀ i < a.li.length, 0 ≤ nth a.li i) {i : ℕ} (hi : i < a.li.length) {x : ℝ} (hx : x = 0 ∨ x = nth a.li i) (q : Fin 6) :
    Err u (s.slab.length + m + 16) Q (zp s x phi (a.ki.getD i false) q) (zpFl fl lib s x phi (a.ki.getD i false) q) := by
  have h0 : 0 ≤ x := by
    rcases hx with rfl | rfl
    · exact le_rfl
    · exact hp i hi
  have hq := hsc.part i hi x hx q
  unfold zpFl
  cases hk : a.ki.getD i false with
  | true =>
    rw [hk, if_pos rfl] at hq
    exact h.err_mono (particular_rounded h hl s hs x phi q) le_rfl hq
  | false =>
    rw [hk, if_neg (by simp)] at hq
    exact h.err_mono (free_particular_rounded h hl s hs h0 phi q) le_rfl hq

/-- Matrix and particular part of the linear system. -/
theorem assembly_rounded (h : RoundOk u fl) (hl : LibmOk u m lib) (hs : Stored s) (hsc : SystemScale s phi a B Q F)
    (hp : ∀ i < a.li.length, 0 ≤ nth a.li i) (hB : 0 ≤ B) (kR : ℝ) (n : ℕ) (hn : n ≤ a.li.length) :
    (∀ r c, Err u (2 * m + 10) (rowNorm s kR * B) (matAt s kR a.li.length a.li a.ki n r c) ((asmFl fl lib s kR phi a n).1 r c)) ∧
    ∀ r, Err u (s.slab.length + m + 20 + n) (n * (rowNorm s kR * Q)) (vecAt s kR phi a.li.length a.li a.ki n r)
      ((asmFl fl lib s kR phi a n).2 r) := by
  have zero : ∀ {k : ℕ} {c : ℝ}, 0 ≤ c → Err u k c 0 0 := fun hc => by
    have := Err.refl u 0
    rw [abs_zero] at this
    exact h.err_mono this (by omega) hc
  have hP := (rowNorm_pos s kR).le
  induction n with
  | zero =>
    refine ⟨fun r c => ?_, fun r => ?_⟩
    · simpa [matAt, asmFl] using zero (k := 2 * m + 10) (mul_nonneg hP hB)
    · simpa [vecAt, asmFl] using zero (k := s.slab.length + m + 20) le_rfl
  | succ n ih =>
    obtain ⟨ih1, ih2⟩ := ih (by omega)
    have hi : n < a.li.length := by omega
    have step := asm_step s kR phi a.li.length a.li a.ki n
    rw [Prod.mk.injEq] at step
    obtain ⟨st1, st2⟩ := step
    have fold : asmFl fl lib s kR phi a (n + 1) = asmBodyFl fl lib s kR phi a (asmFl fl lib s kR phi a n) n := by
      unfold asmFl
      rw [List.range_succ, List.foldl_append]
      rfl
    rw [fold, ← st1, ← st2]
    have hQ : 0 ≤ Q := (abs_nonneg _).trans (zp_rounded h hl hs hsc hp hi (.inl rfl) 0).1
    have hPQ := mul_nonneg hP hQ
    refine ⟨fun r c => ?_, fun r => ?_⟩
    · simp only [asmBodyFl, writeBlock]
      generalize (6 * n - if n = 0 then 0 else 3) = i0
      generalize (6 * n + if n + 1 = a.li.length then 6 else 9) = i1
      split_ifs with hb
      · have hc : c - 6 * n < 6 := by omega
        exact h.err_mono (eqs_rounded h s kR _ _ (fun q => column_rounded h hl hs hsc hp hi (.inl rfl) hc q)
          (fun q => column_rounded h hl hs hsc hp hi (.inr rfl) hc q) _) (by omega) le_rfl
      · exact ih1 r c
    · simp only [asmBodyFl, addSlice]
      generalize (6 * n - if n = 0 then 0 else 3) = i0
      generalize (6 * n + if n + 1 = a.li.length then 6 else 9) = i1
      have e : ((n + 1 : ℕ) : ℝ) * (rowNorm s kR * Q) = n * (rowNorm s kR * Q) + rowNorm s kR * Q := by push_cast; ring
      rw [e]
      split_ifs with hb
      · have := eqs_rounded h s kR (a.ki.getD n false) (posOf a.li.length n) (fun q => zp_rounded h hl hs hsc hp hi (.inl rfl) q)
          (fun q => zp_rounded h hl hs hsc hp hi (.inr rfl) q)
          (r - i0)
        exact h.err_mono (h.err_fl ((ih2 r).add (h.err_mono (m := s.slab.length + m + 20 + n) this (by omega) le_rfl))) (by omega) le_rfl
      · exact h.err_mono (ih2 r) (by omega) (by linarith)

/-! ## Right-hand side of skier systems -/

theorem write3_rounded {D : ℝ} {v v' : ℕ → ℝ} {r0 : ℕ} {x y w x' y' w' : ℝ} (hv : ∀ r, Err u k D (v r) (v' r)) (hx : Err u k D x x')
    (hy : Err u k D y y') (hw : Err u k D w w') (r : ℕ) : Err u k D (write3 v r0 x y w r) (write3 v' r0 x' y' w' r) := by
  unfold write3
  split_ifs
  · exact hx
  · exact hy
  · exact hw
  · exact hv r

theorem skiers_rounded (h : RoundOk u fl) (hl : LibmOk u m lib) (hs : Stored s) (hski : 0 < s.lski) (hsc : SystemScale s phi a B Q F)
    (r : ℕ) :
    Err u (s.slab.length + m + 20) ((1 + s.h / 2) * F) (rhsSkiers s phi a.mi r)
      (a.mi.zipIdx.foldl (fun rhs q =>
        let F := skierLoadFl fl lib s q.1 phi
        write3 rhs (6 * (q.2 + 1)) F.2 (fl (fl (-F.2 * s.h) / 2)) F.1) (fun _ => 0) r) := by
  have hF := hsc.nonneg
  have hh := hs.h
  have hD : 0 ≤ (1 + s.h / 2) * F := by positivity
  have hFD : F ≤ (1 + s.h / 2) * F := by nlinarith [mul_nonneg hh.le hF]
  have key : ∀ (l : List (ℝ × ℕ)) (v v' : ℕ → ℝ), (∀ q ∈ l, loadScale (1e-3 * |q.1| * s.g / s.lski) phi ≤ F) →
      (∀ r, Err u (s.slab.length + m + 20) ((1 + s.h / 2) * F) (v r) (v' r)) → ∀ r,
      Err u (s.slab.length + m + 20) ((1 + s.h / 2) * F)
        (l.foldl (fun rhs q =>
          let F := getSkierLoad s q.1 phi
          write3 rhs (6 * (q.2 + 1)) F.2 (-F.2 * s.h / 2) F.1) v r)
        (l.foldl (fun rhs q =>
          let F := skierLoadFl fl lib s q.1 phi
          write3 rhs (6 * (q.2 + 1)) F.2 (fl (fl (-F.2 * s.h) / 2)) F.1) v' r) := by
    intro l
    induction l with
    | nil => exact fun v v' _ hv r => hv r
    | cons q l ih =>
      intro v v' hq hv r
      rw [List.foldl_cons, List.foldl_cons]
      refine ih _ _ (fun q' h' => hq q' (List.mem_cons_of_mem _ h')) (fun r => ?_) r
      have w := hq q List.mem_cons_self
      have P : Err u 4 (1e-3 * |q.1| * s.g / s.lski) (1e-3 * q.1 * s.g / s.lski) (fl (fl (fl (fl 1e-3 * q.1) * s.g) / s.lski)) := by
        have := h.rel_err (h.rel_fl (h.rel_div (h.rel_fl (h.rel_mul (h.rel_fl (h.rel_mul (h.rel_fl (Rel.refl u (1e-3 : ℝ))) (Rel.refl u q.1)))
          (Rel.refl u s.g))) (Rel.refl u s.lski)))
        refine h.err_mono this (by omega) (le_of_eq ?_)
        rw [abs_div, abs_mul, abs_mul, abs_of_nonneg hs.g, abs_of_pos hski, abs_of_nonneg (by norm_num : (0 : ℝ) ≤ 1e-3)]
      obtain ⟨c1, c2⟩ := load_rounded h hl phi P
      have c3 := h.err_fl (h.err_div (h.err_fl (h.err_mul (err_neg c2) (h.err_of_rel hh.le (Rel.refl u s.h)))) two_pos (Rel.refl u 2))
      refine write3_rounded hv (h.err_mono c2 (by omega) (w.trans hFD)) (h.err_mono c3 (by omega) ?_)
        (h.err_mono c1 (by omega) (w.trans hFD)) r
      have := mul_le_mul_of_nonneg_right w hh.le
      linarith
  refine key _ _ _ (fun q hq => hsc.load q.1 ?_) (fun _ => ?_) r
  · obtain ⟨-, -, e⟩ := List.mem_zipIdx hq
    rw [e]
    exact List.getElem_mem _
  · have := Err.refl u 0
    rw [abs_zero] at this
    exact h.err_mono this (by omega) hD

/-- The right-hand side of skier systems. -/
theorem rhsFinal_skier {s : Self} (hsk : IsSkier s) (phi : ℝ) (a : SegLists) (hl : ListsOk s a) :
    rhsFinal s phi a =
      let v0 := bcFun s 0 false .m (zp s 0 phi (a.ki.getD 0 false))
      let v1 := bcFun s 0 false .m (zp s (nth a.li (a.li.length - 1)) phi (a.ki.getD (a.li.length - 1) false))
      write3 (write3 (rhsSkiers s phi a.mi) 0 (v0 0) (v0 1) (v0 2)) (6 * a.li.length - 3) (v1 0) (v1 1) (v1 2) := by
  have h0 := hl.skier0 hsk
  have h1 := hl.skier1 hsk
  unfold rhsFinal
  simp only [tdFold s a.li.length hl.two, h0, h1, tdData, if_true, write3?]
  rcases hsk with e | e <;> simp [e]

theorem rhs_rounded (h : RoundOk u fl) (hl : LibmOk u m lib) (hs : Stored s) (hski : 0 < s.lski) (hsc : SystemScale s phi a B Q F)
    (hp : ∀ i < a.li.length, 0 ≤ nth a.li i) (hsk : IsSkier s) (hlo : ListsOk s a) (kR : ℝ) (r : ℕ) :
    Err u (s.slab.length + m + 20) ((1 + s.h / 2) * F + rowNorm s kR * Q) (rhsFinal s phi a r) (rhsFl fl lib s phi a r) := by
  have h2 := hlo.two
  have hF := hsc.nonneg
  have hh := hs.h
  have z0 := fun q => zp_rounded h hl hs hsc hp (i := 0) (by omega) (.inl rfl) q
  have z1 := fun q => zp_rounded h hl hs hsc hp (i := a.li.length - 1) (by omega) (.inr rfl) q
  have hQ : 0 ≤ Q := (abs_nonneg _).trans (z0 0).1
  have b0 := bc_rounded h s 0 z0 false .m
  have b1 := bc_rounded h s 0 z1 false .m
  have hR : rowNorm s 0 * Q ≤ rowNorm s kR * Q := by
    refine mul_le_mul_of_nonneg_right ?_ hQ
    unfold rowNorm
    have := abs_nonneg kR
    rw [abs_zero]
    linarith
  have hD : 0 ≤ (1 + s.h / 2) * F := by positivity
  have hP := mul_nonneg (rowNorm_pos s kR).le hQ
  have w : ∀ {x x'}, Err u (s.slab.length + m + 16 + 4) (rowNorm s 0 * Q) x x' →
      Err u (s.slab.length + m + 20) ((1 + s.h / 2) * F + rowNorm s kR * Q) x x' := fun e => h.err_mono e (by omega) (by linarith)
  rw [rhsFinal_skier hsk phi a hlo]
  unfold rhsFl
  refine write3_rounded (write3_rounded (fun r => ?_) (w (b0 0)) (w (b0 1)) (w (b0 2))) (w (b1 0)) (w (b1 1)) (w (b1 2)) r
  exact h.err_mono (skiers_rounded h hl hs hski hsc r) le_rfl (by linarith)

/-! ## The linear system of a run -/

/-- The spring matters in stage C of a saw test only. -/
theorem matAt_spring {sub : Py ℝ} {s : Self} {kR : ℝ} (hk : IsPst s → s.mode = .C → sub s = (.ok kR, s)) (nS : ℕ) (li : List ℝ) (ki : List Bool)
    (n : ℕ) : matAt s (valOf sub s) nS li ki n = matAt s kR nS li ki n ∧
      ∀ phi, vecAt s (valOf sub s) phi nS li ki n = vecAt s kR phi nS li ki n := by
  have hb : bcFun s (valOf sub s) = bcFun s kR := by
    funext k pos z
    unfold bcFun
    by_cases h1 : IsPst s
    · rw [if_pos h1, if_pos h1]
      cases k with
      | true => rfl
      | false =>
        rcases hm : s.mode with _ | _ | _ | _
        · rfl
        · rfl
        · rfl
        · rw [valOf_ok (hk h1 hm)]
    · rw [if_neg h1, if_neg h1]
  have he : eqsFun s (valOf sub s) = eqsFun s kR := by
    funext k pos zl zr
    unfold eqsFun
    rw [hb]
  have hr : rowOf s (valOf sub s) = rowOf s kR := by
    funext nS ki i r zl zr
    unfold rowOf
    rw [he]
  unfold matAt vecAt
  rw [hr]
  exact ⟨rfl, fun _ => rfl⟩

/-- C91, matrix: the coefficients of the linear system that `assemble_and_solve` passes to the solver
are computed with an error of a few roundings of the largest terms in them. For all systems; in stage C of
a saw test with the spring `kR` found before. -/
theorem C91_matrix (h : RoundOk u fl) (hl : LibmOk u m lib) (num : Numerics) (s : Self) (hs : Stored s) (hf : EigFresh num.eig s)
    (hv : NoFaceTouchdown s) (kR : ℝ) (hk : IsPst s → s.mode = .C → substituteStiffness num.eig (s.a - s.td) true .rot s = (.ok kR, s))
    {kind : SeqKind} {phi : ℝ} {a a' : SegLists} {s' : Self} {C : List Vec6}
    (hC : assembleAndSolve num kind phi a s = (.ok (C, a'), s')) (hp : ∀ i < a'.li.length, 0 ≤ nth a'.li i) {B Q F : ℝ}
    (hsc : SystemScale s phi a' B Q F) (hu : ((2 * m + 10 : ℕ) : ℝ) * u < 1) :
    ∃ (M : ℕ → ℕ → ℝ) (r : ℕ → ℝ),
      (∀ solve, assembleAndSolveBy solve num kind phi a s =
        ((solve (6 * a'.li.length) M r).map fun x => ((List.range a'.li.length).map fun i (j : Fin 6) => x (6 * i + j), a'), s)) ∧
      ∀ i j, |(asmFl fl lib s kR phi a' a'.li.length).1 i j - M i j| ≤ gamma u (2 * m + 10) * (rowNorm s kR * B) := by
  obtain ⟨rfl, hlo, hsys, hm, hsol⟩ := system_of_run hf hv hC
  have h2 := hlo.two
  have hB : 0 ≤ B := (abs_nonneg _).trans (column_rounded h hl hs hsc hp (i := 0) (by omega) (.inl rfl) (c := 0) (by omega) 0).1
  have hk' : IsPst s → s.mode = .C → spring num s = (.ok kR, s) := fun p q => by
    unfold spring
    rw [Py.get_bind]
    exact hk p q
  refine ⟨_, _, hsol, fun i j => ?_⟩
  rw [(matAt_spring hk' _ _ _ _).1]
  exact h.err_bound ((assembly_rounded h hl hs hsc hp hB kR _ le_rfl).1 i j) hu

namespace Spec

/-- Magnitude of the right-hand side of the linear system of a skier system. -/
noncomputable def rhsScale (s : Self) (n : ℕ) (Q F : ℝ) : ℝ := (1 + s.h / 2) * F + (n + 1) * (rowNorm s 0 * Q)

end Spec

/-- C91, linear system of a skier system: coefficients and right-hand side are computed with an error of
a few roundings of the largest terms. -/
theorem C91_system (h : RoundOk u fl) (hl : LibmOk u m lib) (num : Numerics) (s : Self) (hs : Stored s) (hski : 0 < s.lski)
    (hf : EigFresh num.eig s) (hv : NoFaceTouchdown s) (hsk : IsSkier s)
    {kind : SeqKind} {phi : ℝ} {a a' : SegLists} {s' : Self} {C : List Vec6}
    (hC : assembleAndSolve num kind phi a s = (.ok (C, a'), s')) (hp : ∀ i < a'.li.length, 0 ≤ nth a'.li i) {B Q F : ℝ}
    (hsc : SystemScale s phi a' B Q F) (hu : ((2 * m + 10 : ℕ) : ℝ) * u < 1)
    (hu' : ((s.slab.length + m + 21 + a'.li.length : ℕ) : ℝ) * u < 1) :
    ∃ (M : ℕ → ℕ → ℝ) (r : ℕ → ℝ),
      (∀ solve, assembleAndSolveBy solve num kind phi a s =
        ((solve (6 * a'.li.length) M r).map fun x => ((List.range a'.li.length).map fun i (j : Fin 6) => x (6 * i + j), a'), s)) ∧
      (∀ i j, |(asmFl fl lib s 0 phi a' a'.li.length).1 i j - M i j| ≤ gamma u (2 * m + 10) * (rowNorm s 0 * B)) ∧
      (∀ i, |r i| ≤ rhsScale s a'.li.length Q F) ∧
      ∀ i, |fl (rhsFl fl lib s phi a' i - (asmFl fl lib s 0 phi a' a'.li.length).2 i) - r i| ≤
        gamma u (s.slab.length + m + 21 + a'.li.length) * rhsScale s a'.li.length Q F := by
  obtain ⟨rfl, hlo, hsys, hm, hsol⟩ := system_of_run hf hv hC
  have h2 := hlo.two
  have hB : 0 ≤ B := (abs_nonneg _).trans (column_rounded h hl hs hsc hp (i := 0) (by omega) (.inl rfl) (c := 0) (by omega) 0).1
  have hk : IsPst s → s.mode = .C → spring num s = (.ok 0, s) := fun hq => by
    rcases hsk with e | e <;> rcases hq with e' | e' <;> rw [e] at e' <;> exact absurd e' (by decide)
  have as := assembly_rounded h hl hs hsc hp hB 0 _ le_rfl
  have er : ∀ i, Err u (s.slab.length + m + 20 + (full a).li.length) (rhsScale s (full a).li.length Q F)
      (rhsFinal s phi (full a) i - vecAt s (valOf (spring num) s) phi (full a).li.length (full a).li (full a).ki (full a).li.length i)
      (rhsFl fl lib s phi (full a) i - (asmFl fl lib s 0 phi (full a) (full a).li.length).2 i) := by
    intro i
    rw [(matAt_spring hk _ _ _ _).2]
    have := (h.err_mono (m := s.slab.length + m + 20 + (full a).li.length)
      (rhs_rounded h hl hs hski hsc hp hsk hlo 0 i) (by omega) le_rfl).sub (as.2 i)
    refine h.err_mono this le_rfl (le_of_eq ?_)
    unfold rhsScale
    ring
  refine ⟨_, _, hsol, fun i j => ?_, fun i => (er i).1, fun i => ?_⟩
  · rw [(matAt_spring hk _ _ _ _).1]
    exact h.err_bound (as.1 i j) hu
  · exact h.err_bound (h.err_mono (h.err_fl (er i)) (by omega) le_rfl) hu'

/-- C91, solution: the fields that follow from the linear system set up in floating-point arithmetic and
solved by a backward stable method (one that solves a system with coefficients changed by `δ` and a right-hand side
changed by `δ'` at most) differ from the exact ones by a multiple of `u`, `δ` and `δ'`. The constant `K` is the same for all
inclinations, weights and lengths of the supported segments. -/
theorem C91_solution (num : Numerics) (s : Self) (hb : BedOk s) (hc : ShearOk s) (hs : Stored s) (hski : 0 < s.lski)
    (hf : EigFresh num.eig s) (hv : NoFaceTouchdown s) (hsk : IsSkier s) (n : ℕ) {d : ℝ} (R : ℝ) (hd : 0 < d) :
    ∃ K, 0 < K ∧ ∀ (u : ℝ) (fl : ℝ → ℝ) (lib : Libm) (m : ℕ) (kind : SeqKind) (phi : ℝ) (a a' : SegLists) (s' : Self) (C : List Vec6)
      (B Q F δ δ' : ℝ), RoundOk u fl → LibmOk u m lib → assembleAndSolve num kind phi a s = (.ok (C, a'), s') → a'.li.length = n →
      Anchored d R n (fun i => a'.ki.getD i false) (nth a'.li) → SystemScale s phi a' B Q F → ((2 * m + 10 : ℕ) : ℝ) * u < 1 →
      ((s.slab.length + m + 21 + n : ℕ) : ℝ) * u < 1 → K * (δ + gamma u (2 * m + 10) * (rowNorm s 0 * B)) ≤ 1 →
      ∀ (M' : ℕ → ℕ → ℝ) (r' : ℕ → ℝ),
        (∀ i < 6 * n, ∀ j < 6 * n, |M' i j - (asmFl fl lib s 0 phi a' n).1 i j| ≤ δ) →
        (∀ i < 6 * n, |r' i - fl (rhsFl fl lib s phi a' i - (asmFl fl lib s 0 phi a' n).2 i)| ≤ δ') →
        (∃ x, npSolve (6 * n) M' r' = .ok x) ∧
        ∀ x : ℕ → ℝ, (∀ i < 6 * n, ∑ j ∈ Finset.range (6 * n), M' i j * x j = r' i) →
          ∀ i < n, ∀ y ∈ Set.Icc 0 (nth a'.li i), ∀ q,
            |zsol s y (fun j => x (6 * i + j)) (nth a'.li i) phi (a'.ki.getD i false) q -
              zsol s y (C.getD i 0) (nth a'.li i) phi (a'.ki.getD i false) q| ≤
            K * (δ' + gamma u (s.slab.length + m + 21 + n) * rhsScale s n Q F +
              (δ + gamma u (2 * m + 10) * (rowNorm s 0 * B)) * rhsScale s n Q F) := by
  obtain ⟨K, hK, h1⟩ := C71_backward num s hb hc hf hv n R hd
  refine ⟨K, hK, fun u fl lib m kind phi a a' s' C B Q F δ δ' h hl hC hn ha hsc hu hu' hsm M' r' hM hr => ?_⟩
  obtain ⟨M, r, e1, f1⟩ := h1 kind phi a a' s' C hC hn ha
  subst hn
  obtain ⟨M2, r2, e2, f2, f3, f4⟩ := C91_system h hl num s hs hski hf hv hsk hC ha.nonneg hsc hu hu'
  obtain ⟨rfl, rfl⟩ := system_unique e1 e2
  refine f1 M' r' _ _ _ hsm (fun i hi j hj => ?_) (fun i hi => ?_) fun i _ => f3 i
  · exact (abs_sub_le _ _ _).trans (add_le_add (hM i hi j hj) (f2 i j))
  · exact (abs_sub_le _ _ _).trans (add_le_add (hr i hi) (f4 i))

end Weac
