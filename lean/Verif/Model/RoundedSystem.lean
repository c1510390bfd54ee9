import Verif.Model.RoundedFields
import Verif.Model.Solution

/-!
# Set-up of the linear system in floating point

The matrix for all systems and the right-hand side for skier systems and saw tests, once more, with
every arithmetic operation followed by a rounding `fl`, in the order of the code. The rotational
spring `kR` is the number found. Changes of sign are exact.
-/

namespace Weac

section

variable (fl : ℝ → ℝ) (lib : Libm)

/-- `bc`, `weac/mixins.py` 824-889, where it is defined. -/
noncomputable def bcFl (s : Self) (kR : ℝ) (k : Bool) (pos : Pos) (z : Vec6) : Fin 3 → ℝ :=
  if s.system = "pst-" ∨ s.system = "-pst" then
    if k then ![fNFl fl s z, fMFl fl s z, fVFl fl s z]
    else match s.mode, pos with
      | .B, _ => ![fNFl fl s z, fMFl fl s z, fwFl fl 1 z]
      | .C, .l => ![fNFl fl s z, fl (fMFl fl s z - fl (kR * z 4)), fwFl fl 1 z]
      | .C, _ => ![fNFl fl s z, fl (fMFl fl s z + fl (kR * z 4)), fwFl fl 1 z]
      | _, _ => ![fNFl fl s z, fMFl fl s z, fVFl fl s z]
  else if s.system = "skier" ∨ s.system = "skiers" then ![fuFl fl 1 z 0, fwFl fl 1 z, z 4]
  else ![fNFl fl s z, fMFl fl s z, fVFl fl s z]

/-- `eqs`, `weac/mixins.py` 891-971. -/
noncomputable def eqsFl (s : Self) (kR : ℝ) (k : Bool) (pos : Pos) (zl zr : Vec6) : List ℝ :=
  match pos with
  | .l => [bcFl fl s kR k pos zl 0, bcFl fl s kR k pos zl 1, bcFl fl s kR k pos zl 2,
      fuFl fl 1 zr 0, fwFl fl 1 zr, zr 4, fNFl fl s zr, fMFl fl s zr, fVFl fl s zr]
  | .m => [-fuFl fl 1 zl 0, -fwFl fl 1 zl, -zl 4, -fNFl fl s zl, -fMFl fl s zl, -fVFl fl s zl,
      fuFl fl 1 zr 0, fwFl fl 1 zr, zr 4, fNFl fl s zr, fMFl fl s zr, fVFl fl s zr]
  | .r => [-fuFl fl 1 zl 0, -fwFl fl 1 zl, -zl 4, -fNFl fl s zl, -fMFl fl s zl, -fVFl fl s zl,
      bcFl fl s kR k pos zr 0, bcFl fl s kR k pos zr 1, bcFl fl s kR k pos zr 2]

/-- `zh(x, l, bed)`, column `j`, `weac/eigensystem.py` 480-525. -/
noncomputable def zhColFl (s : Self) (x l : ℝ) (bed : Bool) (j : ℕ) : Vec6 := fun q =>
  if bed then (zhBedFl fl lib s.eigs x l).getD j 0 q else zhFreeFl fl s x q (Fin.ofNat 6 j)

/-- `zp(x, phi, bed)`, `weac/eigensystem.py` 527-585. -/
noncomputable def zpFl (s : Self) (x phi : ℝ) (bed : Bool) : Vec6 :=
  if bed then zpBedFl fl lib s phi else zpFreeFl fl lib s x phi

/-- Body of the assembly loop, `weac/mixins.py` 1170-1188. -/
noncomputable def asmBodyFl (s : Self) (kR phi : ℝ) (a : SegLists) (acc : (ℕ → ℕ → ℝ) × (ℕ → ℝ)) (i : ℕ) :
    (ℕ → ℕ → ℝ) × (ℕ → ℝ) :=
  let l := nth a.li i
  let k := a.ki.getD i false
  let pos := posOf a.li.length i
  let zhi := fun r c : ℕ => (eqsFl fl s kR k pos (zhColFl fl lib s 0 l k c) (zhColFl fl lib s l l k c)).getD r 0
  let zpi := fun r : ℕ => (eqsFl fl s kR k pos (zpFl fl lib s 0 phi k) (zpFl fl lib s l phi k)).getD r 0
  let start := 6 * i - if i = 0 then 0 else 3
  let stop := 6 * i + if i + 1 = a.li.length then 6 else 9
  (writeBlock acc.1 start stop (6 * i) (6 * (i + 1)) zhi,
    fun r => if start ≤ r ∧ r < stop then fl (acc.2 r + zpi (r - start)) else acc.2 r)

/-- `zh0` and `zp0`, `weac/mixins.py` 1163-1188. -/
noncomputable def asmFl (s : Self) (kR phi : ℝ) (a : SegLists) (n : ℕ) : (ℕ → ℕ → ℝ) × (ℕ → ℝ) :=
  (List.range n).foldl (asmBodyFl fl lib s kR phi a) ((fun _ _ => 0), (fun _ => 0))

/-- `rhs` of skier systems, `weac/mixins.py` 1190-1199. The later parts leave it as it is, because the
outer segments are supported. -/
noncomputable def rhsFl (s : Self) (phi : ℝ) (a : SegLists) : ℕ → ℝ :=
  let nS := a.li.length
  let rhs := a.mi.zipIdx.foldl (fun rhs q =>
    let F := skierLoadFl fl lib s q.1 phi
    write3 rhs (6 * (q.2 + 1)) F.2 (fl (fl (-F.2 * s.h) / 2)) F.1) (fun _ => 0)
  let v0 := bcFl fl s 0 false .m (zpFl fl lib s 0 phi (a.ki.getD 0 false))
  let v1 := bcFl fl s 0 false .m (zpFl fl lib s (nth a.li (nS - 1)) phi (a.ki.getD (nS - 1) false))
  write3 (write3 rhs 0 (v0 0) (v0 1) (v0 2)) (6 * nS - 3) (v1 0) (v1 1) (v1 2)

/-- `calc_qt`, `weac/mixins.py` 567-576. -/
noncomputable def calcQtFl (s : Self) : ℝ := fl ((weightLoadFl fl lib s s.phi).2 + (surfaceLoadFl fl lib s s.phi).2)

/-- Touchdown part of the right-hand side, one pass of the loop `weac/mixins.py` 1217-1232. -/
noncomputable def rhsTouchdownStepFl (s : Self) (nS : ℕ) (ki : List Bool) (rhs : ℕ → ℝ) (i : ℕ) : ℕ → ℝ :=
  let k := ki.getD i false
  let rhs := if !k && s.mode = .B then
      let rhs := if i = 0 then write3 rhs 0 0 0 s.tc else rhs
      if i + 1 = nS then write3 rhs (6 * nS - 3) 0 0 s.tc else rhs
    else rhs
  if !k && s.mode = .C then
    let N := fl (calcQtFl fl lib s * fl (s.a - s.td))
    let rhs := if i = 0 then write3 rhs 0 (-N) 0 s.tc else rhs
    if i + 1 = nS then write3 rhs (6 * nS - 3) N 0 s.tc else rhs
  else rhs

/-- `rhs` of saw tests with faces normal to the slope, `weac/mixins.py` 1190-1195 and 1217-1232. -/
noncomputable def rhsSawFl (s : Self) (phi : ℝ) (a : SegLists) : ℕ → ℝ :=
  (List.range a.li.length).foldl (rhsTouchdownStepFl fl lib s a.li.length a.ki) (a.mi.zipIdx.foldl (fun rhs q =>
    let F := skierLoadFl fl lib s q.1 phi
    write3 rhs (6 * (q.2 + 1)) F.2 (fl (fl (-F.2 * s.h) / 2)) F.1) (fun _ => 0))

end

end Weac
