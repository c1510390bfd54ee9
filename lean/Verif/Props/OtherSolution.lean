import Verif.Props.OtherEigenvectors

/-!
# Results for any choice of the eigenvectors (C86)
-/

namespace Weac

open Spec

/-- What a user obtains from an object: weak layer and surface load are set,
segments computed, the cracked and the uncracked system solved; returned are
the segments, the grids of both solutions, the differential and incremental
energy release rates, the potential, and the object without its eigensystem. -/
noncomputable def report (num : Numerics) (quad : Quad) (t E nu p : ℝ) (li mi : List ℝ) (ki k0 : List Bool)
    (L a m phi cf ratio : ℝ) (kind : SeqKind) (n : ℕ) (unit : String) :
    Py (SegLists × SegLists × List GridPt × List GridPt × Res (ℝ × ℝ × ℝ) × Option (ℝ × ℝ × ℝ) × Res ℝ × Self) := do
  Py.modify (setFoundationProperties num.eig t E nu true)
  Py.modify (setSurfaceLoad p)
  let g ← calcSegments num li mi ki k0 L a m phi cf ratio
  let (C1, b1) ← assembleAndSolve num kind phi ⟨g.li, g.mi, g.ki⟩
  let (C0, b0) ← assembleAndSolve num kind phi ⟨g.li, g.mi, g.k0⟩
  let s ← Py.get
  let g1 : List Seg := (C1.zip (b1.ki.zip b1.li)).map fun q => ⟨q.1, q.2.1, q.2.2⟩
  let g0 : List Seg := (C0.zip (b0.ki.zip b0.li)).map fun q => ⟨q.1, q.2.1, q.2.2⟩
  let pts1 ← Py.lift (rasterize s phi n g1)
  let pts0 ← Py.lift (rasterize s phi n g0)
  return (b1, b0, pts1, pts0, gdif s phi g1 unit true, ginc quad s phi (incSegs C0 C1 b1.li b1.ki b0.ki),
    totalPotential s phi L n g1, { s with eigs := ⟨[], []⟩ })

/-- Two numerical libraries that differ in the eigenvectors they return. -/
structure Rivals (num num' : Numerics) : Prop where
  one : ∀ K, EigOk K (num.eig K)
  two : ∀ K, EigOk K (num'.eig K)
  brent : num'.brent = num.brent

theorem Runs.eq {α : Type} {R R' : Self → Self → Prop} {m m' : Py α} (h : Runs R R' (· = ·) m m') {s s' : Self} (hs : R s s') :
    (m' s').1 = (m s).1 := by
  have := h s s' hs
  rcases hm : m s with ⟨r, t⟩
  rcases hm' : m' s' with ⟨r', t'⟩
  rw [hm, hm'] at this
  cases r <;> cases r'
  · exact congrArg Except.error this.symm
  · exact this.elim
  · exact this.elim
  · exact congrArg Except.ok this.1.symm

section
variable {num num' : Numerics} {K Kr : Mat6} {rr : ℝ} {T T' Tr Tr' : Mat6} (hB : Blend (eigsOf num.eig K) (eigsOf num'.eig K) T T')
  (hBr : Blend (eigsOf num.eig Kr) (eigsOf num'.eig Kr) Tr Tr') (hb : num'.brent = num.brent)
include hB hBr hb

theorem swap_report (quad : Quad) (li mi : List ℝ) (ki k0 : List Bool) (L a m phi cf : ℝ) (kind : SeqKind) (n : ℕ) (unit : String) :
    Runs (Before num.eig num'.eig K Kr rr) (Peer num.eig num'.eig K Kr rr) (· = ·)
      (do let g ← calcSegments num li mi ki k0 L a m phi cf rr
          let (C1, b1) ← assembleAndSolve num kind phi ⟨g.li, g.mi, g.ki⟩
          let (C0, b0) ← assembleAndSolve num kind phi ⟨g.li, g.mi, g.k0⟩
          let s ← Py.get
          let g1 : List Seg := (C1.zip (b1.ki.zip b1.li)).map fun q => ⟨q.1, q.2.1, q.2.2⟩
          let g0 : List Seg := (C0.zip (b0.ki.zip b0.li)).map fun q => ⟨q.1, q.2.1, q.2.2⟩
          let pts1 ← Py.lift (rasterize s phi n g1)
          let pts0 ← Py.lift (rasterize s phi n g0)
          return (b1, b0, pts1, pts0, gdif s phi g1 unit true, ginc quad s phi (incSegs C0 C1 b1.li b1.ki b0.ki),
            totalPotential s phi L n g1, { s with eigs := ⟨[], []⟩ }))
      (do let g ← calcSegments num' li mi ki k0 L a m phi cf rr
          let (C1, b1) ← assembleAndSolve num' kind phi ⟨g.li, g.mi, g.ki⟩
          let (C0, b0) ← assembleAndSolve num' kind phi ⟨g.li, g.mi, g.k0⟩
          let s ← Py.get
          let g1 : List Seg := (C1.zip (b1.ki.zip b1.li)).map fun q => ⟨q.1, q.2.1, q.2.2⟩
          let g0 : List Seg := (C0.zip (b0.ki.zip b0.li)).map fun q => ⟨q.1, q.2.1, q.2.2⟩
          let pts1 ← Py.lift (rasterize s phi n g1)
          let pts0 ← Py.lift (rasterize s phi n g0)
          return (b1, b0, pts1, pts0, gdif s phi g1 unit true, ginc quad s phi (incSegs C0 C1 b1.li b1.ki b0.ki),
            totalPotential s phi L n g1, { s with eigs := ⟨[], []⟩ })) := by
  refine Runs.bind (swap_segments hB hBr hb _ _ _ _ _ _ _ _ _) fun g g' hg => ?_
  subst hg
  refine Runs.bind (swap_assemble hB hBr _ _ _) fun o o' ho => Runs.bind (swap_assemble hB hBr _ _ _) fun q q' hq =>
    Runs.read fun s s' h => ?_
  obtain ⟨C1, b1⟩ := o
  obtain ⟨C1', b1'⟩ := o'
  obtain ⟨C0, b0⟩ := q
  obtain ⟨C0', b0'⟩ := q'
  obtain ⟨rfl, f1, -⟩ := ho
  obtain ⟨rfl, f0, -⟩ := hq
  have h0 := h.toSwap
  have s1 := same_segs f1 b1'.li
  have s0 := same_segs f0 b0'.li
  dsimp only
  rw [swap_rasterize hB h0 s1, swap_rasterize hB h0 s0]
  refine Runs.bind (P := (· = ·)) (Runs.lift (ResRel.of_eq rfl)) fun p p' hp => ?_
  subst hp
  refine Runs.bind (P := (· = ·)) (Runs.lift (ResRel.of_eq rfl)) fun p p' hp => ?_
  subst hp
  rw [swap_gdif hB h0 phi unit true s1, swap_ginc hB h0 quad phi (same_incSegs f0 f1 b1'.li), swap_potential hB h0 phi L n s1]
  obtain ⟨-, rfl⟩ := h0
  exact Runs.pure rfl

theorem swap_calls (phi : ℝ) (hr : rr = 1000) :
    Runs (Before num.eig num'.eig K Kr rr) (Peer num.eig num'.eig K Kr rr) (· = ·) (touchdownCalls num phi) (touchdownCalls num' phi) := by
  subst hr
  unfold touchdownCalls
  refine Runs.bind (swap_segments hB hBr hb _ _ _ _ _ _ _ _ _) fun g g' hg => Runs.bind (swap_calcA1 hB hBr hb) fun x x' hx =>
    Runs.bind (swap_calcA2 hB hBr hb) fun y y' hy => ?_
  subst hx hy
  refine Runs.bind ((swap_segments hB hBr hb _ _ _ _ _ _ _ _ _).mono (fun _ _ h => h.before) (fun _ _ h => h) fun _ _ h => h)
    fun _ _ _ => Runs.bind (swap_calcLC hB hBr hb) fun z z' hz => ?_
  subst hz
  exact Runs.pure rfl

end

/-- The results of a calculation do not depend on which eigenvectors the
library returns, in which order and how scaled: segments, displacements,
energy release rates, potential, touchdown and all other attributes of the
object are equal, and so is the exception if there is one. -/
theorem C86_same_solution {num num' : Numerics} (h : Rivals num num') (quad : Quad) (system : String) (touchdown : Bool)
    (ls : List Ply) (hv : ValidPlies ls) (t E nu p : ℝ) (ht : 0 < t) (hE : 0 < E) (hn : -1 < nu) (hn' : nu < 1)
    (li mi : List ℝ) (ki k0 : List Bool) (L a m phi cf ratio : ℝ) (h0 : 0 < ratio) (kind : SeqKind) (n : ℕ) (unit : String) :
    (do let s ← layeredInit num'.eig system (.rows ls) touchdown
        (report num' quad t E nu p li mi ki k0 L a m phi cf ratio kind n unit s).1)
      = (do
        let s ← layeredInit num.eig system (.rows ls) touchdown
        (report num quad t E nu p li mi ki k0 L a m phi cf ratio kind n unit s).1) := by
  obtain ⟨s, hs, hr, -⟩ := layeredInit_ready num.eig system ls touchdown hv
  rw [layered_other num.eig num'.eig, hs]
  show (report num' quad t E nu p li mi ki k0 L a m phi cf ratio kind n unit (calcEigensystem num'.eig s)).1
    = (report num quad t E nu p li mi ki k0 L a m phi cf ratio kind n unit s).1
  have hr1 : Ready num.eig (setSurfaceLoad p (setFoundationProperties num.eig t E nu true s)) := by
    have := weak_ready num.eig s hr t E nu ht hE hn hn'
    exact ⟨this.slab.congr rfl, ⟨ht, hE, hn, hn'⟩, (show calcFundamentalSystem num.eig (setSurfaceLoad p _) = _ from
      (rfl : _ = setSurfaceLoad p (calcFundamentalSystem num.eig (setFoundationProperties num.eig t E nu true s))).trans
        (congrArg (setSurfaceLoad p) this.fresh)), this.g, this.lski⟩
  obtain ⟨⟨T, T', hB⟩, Tr, Tr', hBr⟩ := ready_blends h.one h.two hr1 ratio h0
  exact Runs.eq (swap_report hB hBr h.brent quad li mi ki k0 L a m phi cf kind n unit) (ready_before hr1 num'.eig ratio)

theorem beam_other (eig eig' : EigSolver) (l : Ply) (ls : List Ply) (C0 C1 nu : ℝ) (s : Self) (e : Eigs) :
    (setBeamProperties eig' (.rows (l :: ls)) C0 C1 nu true { s with eigs := e }).2
      = calcEigensystem eig' (setBeamProperties eig (.rows (l :: ls)) C0 C1 nu true s).2 := rfl

/-- The distances of `touchdown_distance` do not depend on them either. -/
theorem C86_same_touchdown {num num' : Numerics} (h : Rivals num num') (ls : List Ply) (hv : ValidPlies ls) (C0 C1 Ewl t phi : ℝ)
    (hC : 0 < C0) (hE : 0 < Ewl) (ht : 0 < t) :
    touchdownDistance num' (.rows ls) C0 C1 Ewl t phi = touchdownDistance num (.rows ls) C0 C1 Ewl t phi := by
  obtain ⟨l, ls', rfl⟩ := List.exists_cons_of_ne_nil hv.1
  obtain ⟨s, hs, hr, -⟩ := layeredInit_ready num.eig "pst-" [⟨240, 200⟩] true
    ⟨by simp, by simp only [List.mem_singleton]; rintro _ rfl; exact ⟨by norm_num, by norm_num⟩⟩
  have hs' : layeredInit num.eig "pst-" .none true = .ok s := hs
  have e2 : ∀ (num : Numerics) (s : Self), layeredInit num.eig "pst-" .none true = .ok s →
      touchdownDistance num (.rows (l :: ls')) C0 C1 Ewl t phi = (touchdownCalls num phi
        (setBeamProperties num.eig (.rows (l :: ls')) C0 C1 0.25 true (setFoundationProperties num.eig t Ewl 0.25 true s)).2).1 := by
    intro num s hs
    unfold touchdownDistance
    rw [hs]
    rfl
  rw [e2 num s hs', e2 num' (calcEigensystem num'.eig s) (by rw [layered_other num.eig num'.eig, hs']; rfl), calcEigensystem_eq,
    foundation_other num.eig num'.eig, calcEigensystem_eq, beam_other num.eig num'.eig]
  have hok := setBeam_slabOk num.eig (l :: ls') C0 C1 0.25 (setFoundationProperties num.eig t Ewl 0.25 true s) hv hC (by norm_num) (by norm_num)
  have hr1 : Ready num.eig (setBeamProperties num.eig (.rows (l :: ls')) C0 C1 0.25 true (setFoundationProperties num.eig t Ewl 0.25 true s)).2 :=
    ⟨hok.2.congr rfl, ⟨ht, hE, by show (-1 : ℝ) < 0.25; norm_num, by show (0.25 : ℝ) < 1; norm_num⟩, C27_idempotent num.eig _, hr.g, hr.lski⟩
  obtain ⟨⟨T, T', hB⟩, Tr, Tr', hBr⟩ := ready_blends h.one h.two hr1 1000 (by norm_num)
  exact Runs.eq (swap_calls hB hBr h.brent phi rfl) (ready_before hr1 num'.eig 1000)

end Weac
