import Verif.Props.Lifecycle
import Mathlib.Data.List.SplitBy

/-!
# C39: built-in profiles
-/

namespace Weac
open Spec

/-- The ids of the built-in profiles. -/
def Spec.profileIds : List String :=
  ["a", "b", "c", "d", "e", "f", "h", "soft", "medium", "hard", "comp"]

/-- Two strings that differ in the case of letters only. -/
def Spec.SameUpToCase (a b : String) : Prop :=
  List.Forall₂ (fun c d : Char => c = d ∨ c = d.toUpper ∨ c.toUpper = d) a.toList b.toList

theorem toLower_toUpper (c : Char) : c.toUpper.toLower = c.toLower := by
  by_cases h : 'a'.val ≤ c.val ∧ c.val ≤ 'z'.val
  · have h1 : 97 ≤ c.toNat := h.1
    have h2 : c.toNat ≤ 122 := h.2
    have e : c = Char.ofNat c.toNat := (Char.ofNat_toNat c).symm
    generalize c.toNat = n at e h1 h2
    subst e
    clear h
    interval_cases n <;> rfl
  · have : c.toUpper = c := by unfold Char.toUpper; rw [dif_neg h]
    rw [this]

/-- C39, case. Ids that differ in the case of letters only load the same profile. -/
theorem C39_case_insensitive (a b : String) (h : SameUpToCase a b) : loadDummyProfile a = loadDummyProfile b := by
  have : strLower a = strLower b := by
    unfold strLower
    congr 1
    unfold SameUpToCase at h
    generalize a.toList = l at h
    generalize b.toList = m at h
    induction h with
    | nil => rfl
    | cons h _ ih =>
      rw [List.map_cons, List.map_cons, ih]
      rcases h with rfl | rfl | rfl
      · rfl
      · rw [toLower_toUpper]
      · rw [toLower_toUpper]
  unfold loadDummyProfile
  rw [this]

theorem database_ids : profileDatabase.map Prod.fst = profileIds := rfl

theorem lookup_isSome {β : Type} (l : List (String × β)) (k : String) :
    (l.lookup k).isSome ↔ k ∈ l.map Prod.fst := by
  induction l with
  | nil => simp
  | cons a l ih =>
    rw [List.lookup_cons]
    by_cases h : k = a.1
    · simp [h]
    · rw [show (k == a.1) = false from by simpa using h]
      simp [h, ih]

theorem mem_of_lookup {β : Type} {l : List (String × β)} {k : String} {b : β} (h : l.lookup k = some b) :
    (k, b) ∈ l := by
  induction l with
  | nil => simp at h
  | cons a l ih =>
    rw [List.lookup_cons] at h
    by_cases hk : k = a.1
    · simp only [hk, beq_self_eq_true] at h
      simp only [Option.some.injEq] at h
      subst h
      simp [hk]
    · rw [show (k == a.1) = false from by simpa using hk] at h
      exact List.mem_cons_of_mem _ (ih h)

/-- C39, domain. A profile is returned exactly for the listed ids (in any
case); every other string raises ValueError. -/
theorem C39_known_ids (id : String) :
    (strLower id ∈ profileIds → ∃ r, loadDummyProfile id = .ok r) ∧
    (strLower id ∉ profileIds → loadDummyProfile id = .error .valueError) := by
  rw [← database_ids, ← lookup_isSome]
  unfold loadDummyProfile
  cases h : profileDatabase.lookup (strLower id) with
  | none => simp
  | some r => simp

/-- C39, content. Layers and moduli are as many, and all entries are positive. -/
theorem C39_consistent (id : String) (layers : List Ply) (E : List ℝ) (h : loadDummyProfile id = .ok (layers, E)) :
    layers ≠ [] ∧ E.length = layers.length ∧ (∀ p ∈ layers, 0 < p.rho ∧ 0 < p.h) ∧ ∀ e ∈ E, 0 < e := by
  unfold loadDummyProfile at h
  cases hl : profileDatabase.lookup (strLower id) with
  | none => rw [hl] at h; simp at h
  | some r =>
    rw [hl] at h
    simp only [Except.ok.injEq, Prod.mk.injEq] at h
    obtain ⟨rfl, rfl⟩ := h
    have hm := mem_of_lookup hl
    have : r ≠ [] ∧ ∀ x ∈ r, 0 < x.1 ∧ 0 < x.2.1 ∧ 0 < x.2.2 := by
      simp only [profileDatabase, List.mem_cons, Prod.mk.injEq, List.not_mem_nil, or_false] at hm
      rcases hm with ⟨-, rfl⟩ | ⟨-, rfl⟩ | ⟨-, rfl⟩ | ⟨-, rfl⟩ | ⟨-, rfl⟩ | ⟨-, rfl⟩ | ⟨-, rfl⟩ | ⟨-, rfl⟩ | ⟨-, rfl⟩ |
        ⟨-, rfl⟩ | ⟨-, rfl⟩ <;> refine ⟨by simp, ?_⟩ <;> norm_num [profSoft, profMedium, profHard]
    refine ⟨by simpa using this.1, by simp, ?_, ?_⟩
    · intro p hp
      rw [List.mem_map] at hp
      obtain ⟨x, hx, rfl⟩ := hp
      exact ⟨(this.2 x hx).1, (this.2 x hx).2.1⟩
    · intro e he
      rw [List.mem_map] at he
      obtain ⟨x, hx, rfl⟩ := he
      exact (this.2 x hx).2.2

theorem load_of (id : String) (r : List (ℝ × ℝ × ℝ)) (h : strLower id = id) (hr : profileDatabase.lookup id = some r) :
    loadDummyProfile id = .ok (r.map fun r => ⟨r.1, r.2.1⟩, r.map fun r => r.2.2) := by
  unfold loadDummyProfile
  rw [h, hr]

/-- C39, relations between the profiles: reversed orders, symmetric and
homogeneous slabs, equal thickness, and stiffness increasing with density. -/
theorem C39_profiles :
    (∀ a b, (a, b) ∈ [("a", "b"), ("e", "f"), ("c", "c"), ("d", "d"), ("h", "medium"), ("soft", "soft"), ("hard", "hard")] →
      ∃ layers E, loadDummyProfile a = .ok (layers, E) ∧ loadDummyProfile b = .ok (layers.reverse, E.reverse)) ∧
    (∀ id ∈ profileIds, id ≠ "comp" → ∃ layers E, loadDummyProfile id = .ok (layers, E) ∧ layers.length = 3 ∧
      ∀ p ∈ layers, p.h = 120) ∧
    (∀ id layers E, loadDummyProfile id = .ok (layers, E) →
      ∀ x ∈ layers.zip E, ∀ y ∈ layers.zip E, x.1.rho < y.1.rho ↔ x.2 < y.2) := by
  have hlow : ∀ id ∈ profileIds, strLower id = id := by decide
  refine ⟨?_, ?_, ?_⟩
  · intro a b h
    simp only [List.mem_cons, Prod.mk.injEq, List.not_mem_nil, or_false] at h
    rcases h with ⟨rfl, rfl⟩ | ⟨rfl, rfl⟩ | ⟨rfl, rfl⟩ | ⟨rfl, rfl⟩ | ⟨rfl, rfl⟩ | ⟨rfl, rfl⟩ | ⟨rfl, rfl⟩ <;>
      exact ⟨_, _, load_of _ _ (hlow _ (by decide)) rfl, (load_of _ _ (hlow _ (by decide)) rfl).trans (by simp)⟩
  · intro id h hc
    simp only [profileIds, List.mem_cons, List.not_mem_nil, or_false] at h
    rcases h with rfl | rfl | rfl | rfl | rfl | rfl | rfl | rfl | rfl | rfl | rfl
    all_goals first
      | exact absurd rfl hc
      | exact ⟨_, _, load_of _ _ (hlow _ (by decide)) rfl, rfl, by simp [profSoft, profMedium, profHard]⟩
  · intro id layers E h
    unfold loadDummyProfile at h
    cases hl : profileDatabase.lookup (strLower id) with
    | none => rw [hl] at h; simp at h
    | some r =>
      rw [hl] at h
      simp only [Except.ok.injEq, Prod.mk.injEq] at h
      obtain ⟨rfl, rfl⟩ := h
      have hm := mem_of_lookup hl
      rw [List.zip_map']
      have key : ∀ x ∈ r, ∀ y ∈ r, x.1 < y.1 ↔ x.2.2 < y.2.2 := by
        have k3 : ∀ x y : ℝ × ℝ × ℝ, (x = profSoft ∨ x = profMedium ∨ x = profHard) →
            (y = profSoft ∨ y = profMedium ∨ y = profHard) → (x.1 < y.1 ↔ x.2.2 < y.2.2) := by
          rintro x y (rfl | rfl | rfl) (rfl | rfl | rfl) <;> norm_num [profSoft, profMedium, profHard]
        intro x hx y hy
        by_cases hc : r = [(240, 200, 5.23)]
        · rw [hc, List.mem_singleton] at hx hy
          rw [hx, hy]
          simp
        · have : ∀ z ∈ r, z = profSoft ∨ z = profMedium ∨ z = profHard := by
            intro z hz
            simp only [profileDatabase, List.mem_cons, Prod.mk.injEq, List.not_mem_nil, or_false] at hm
            rcases hm with ⟨-, rfl⟩ | ⟨-, rfl⟩ | ⟨-, rfl⟩ | ⟨-, rfl⟩ | ⟨-, rfl⟩ | ⟨-, rfl⟩ | ⟨-, rfl⟩ | ⟨-, rfl⟩ | ⟨-, rfl⟩ |
              ⟨-, rfl⟩ | ⟨-, rfl⟩ <;> first | exact absurd rfl hc | (simp at hz; tauto)
          exact k3 x y (this x hx) (this y hy)
      intro x hx y hy
      rw [List.mem_map] at hx hy
      obtain ⟨x', hx', rfl⟩ := hx
      obtain ⟨y', hy', rfl⟩ := hy
      exact key x' hx' y' hy'

/-! ## The word that selects the profile -/

theorem splitBy_space (l : List Char) (b : Bool) (hn : l ≠ []) (h : ∀ c ∈ l, pySpace c = b) :
    l.splitBy (fun a b => pySpace a == pySpace b) = [l] := by
  apply List.splitBy_of_isChain hn
  have : IsTrans Char fun x y => (pySpace x == pySpace y) = true :=
    ⟨fun a b c h1 h2 => by simp only [beq_iff_eq] at *; exact h1.trans h2⟩
  rw [List.isChain_iff_pairwise, List.pairwise_iff_forall_sublist]
  intro x y hxy
  have := hxy.subset
  simp [h x (this (by simp)), h y (this (by simp))]

/-- C39, word. In `… word …` with blanks only behind the word and a blank (or
nothing) before it, the word selects the profile. -/
theorem lastWord_eq (pre word post : List Char) (hw : word ≠ []) (hws : ∀ c ∈ word, pySpace c = false)
    (hpost : ∀ c ∈ post, pySpace c = true) (hpre : ∀ c ∈ pre.getLast?, pySpace c = true) :
    lastWord (String.ofList (pre ++ word ++ post)) = some (String.ofList word) := by
  unfold lastWord
  rw [String.toList_ofList]
  have e1 : (pre ++ word ++ post).splitBy (fun a b => pySpace a == pySpace b)
      = (pre ++ word).splitBy (fun a b => pySpace a == pySpace b) ++ post.splitBy (fun a b => pySpace a == pySpace b) := by
    apply List.splitBy_append
    intro x hx y hy
    have h1 : x ∈ word := by
      rw [List.getLast?_append_of_ne_nil _ hw] at hx
      exact List.mem_of_getLast? hx
    simp [hws x h1, hpost y (List.mem_of_mem_head? hy)]
  have e2 : (pre ++ word).splitBy (fun a b => pySpace a == pySpace b)
      = pre.splitBy (fun a b => pySpace a == pySpace b) ++ [word] := by
    rw [← splitBy_space word false hw hws]
    apply List.splitBy_append
    intro x hx y hy
    simp [hpre x hx, hws y (List.mem_of_mem_head? hy)]
  have e3 : (post.splitBy (fun a b => pySpace a == pySpace b)).filter (fun w => !(w.all pySpace)) = [] := by
    by_cases hp : post = []
    · rw [hp]; rfl
    · rw [splitBy_space post true hp hpost, List.filter_cons_of_neg, List.filter_nil]
      simpa using hpost
  rw [e1, e2, List.filter_append, List.filter_append, e3, List.append_nil, List.filter_cons_of_pos, List.filter_nil,
    List.getLast?_concat]
  · rfl
  · obtain ⟨c, l, rfl⟩ := List.exists_cons_of_ne_nil hw
    simp [hws c (List.mem_cons_self ..)]

theorem lastWord_blank (l : List Char) (h : ∀ c ∈ l, pySpace c = true) : lastWord (String.ofList l) = none := by
  unfold lastWord
  rw [String.toList_ofList]
  by_cases hp : l = []
  · rw [hp]; rfl
  · rw [splitBy_space l true hp h, List.filter_cons_of_neg, List.filter_nil]
    · rfl
    · simpa using h

/-- The whitespace characters of Unicode that Python's `str.split` separates at:
tab, the line and page breaks, the four separators of ASCII, space, next line,
and the spaces and separators of the other blocks. -/
def Spec.whitespace : List Nat :=
  [9, 10, 11, 12, 13, 28, 29, 30, 31, 32, 133, 160, 5760, 8192, 8193, 8194, 8195, 8196, 8197, 8198, 8199, 8200, 8201, 8202,
    8232, 8233, 8239, 8287, 12288]

/-- C39, separators. -/
theorem C39_separators (c : Char) : pySpace c = true ↔ c.toNat ∈ Spec.whitespace := by
  generalize hn : c.toNat = n
  simp only [pySpace, hn, Spec.whitespace, List.mem_cons, List.not_mem_nil, or_false, Bool.or_eq_true, Bool.and_eq_true,
    decide_eq_true_eq]
  omega

theorem pySpace_false (c : Char) : pySpace c = false ↔ c.toNat ∉ Spec.whitespace := by
  rw [← C39_separators, Bool.not_eq_true]

/-- C39, strings. A string argument of `set_beam_properties` is looked up by
its last whitespace-separated word; a blank string raises IndexError and an
unknown word ValueError, both without touching the object. -/
theorem C39_last_word (eig : EigSolver) (C0 C1 nu : ℝ) (u : Bool) (s : Self) (pre word post : List Char)
    (hw : word ≠ []) (hws : ∀ c ∈ word, c.toNat ∉ Spec.whitespace)
    (hpost : ∀ c ∈ post, c.toNat ∈ Spec.whitespace) (hpre : ∀ c ∈ pre.getLast?, c.toNat ∈ Spec.whitespace) :
    (∀ layers E, loadDummyProfile (String.ofList word) = .ok (layers, E) →
      setBeamProperties eig (.str (String.ofList (pre ++ word ++ post))) C0 C1 nu u s
        = (.ok (), setSlab eig layers E nu u s)) ∧
    (strLower (String.ofList word) ∉ profileIds →
      setBeamProperties eig (.str (String.ofList (pre ++ word ++ post))) C0 C1 nu u s = (.error .valueError, s)) := by
  simp only [setBeamProperties, lastWord_eq pre word post hw (fun c h => (pySpace_false c).2 (hws c h))
    (fun c h => (C39_separators c).2 (hpost c h)) (fun c h => (C39_separators c).2 (hpre c h))]
  refine ⟨fun layers E h => by rw [h], fun h => by rw [(C39_known_ids _).2 h]⟩

theorem C39_blank (eig : EigSolver) (C0 C1 nu : ℝ) (u : Bool) (s : Self) (l : List Char)
    (h : ∀ c ∈ l, c.toNat ∈ Spec.whitespace) :
    setBeamProperties eig (.str (String.ofList l)) C0 C1 nu u s = (.error .indexError, s) := by
  simp only [setBeamProperties, lastWord_blank l fun c hc => (C39_separators c).2 (h c hc)]

/-- A string naming a profile makes a well-formed slab, with the moduli of the
database instead of those of the parametrisation. -/
theorem C39_slab (eig : EigSolver) (str : String) (C0 C1 nu : ℝ) (s : Self) (h1 : -1 < nu) (h2 : nu < 1)
    (h : (setBeamProperties eig (.str str) C0 C1 nu false s).1 = .ok ()) :
    SlabOk (setBeamProperties eig (.str str) C0 C1 nu false s).2 ∧
    ∃ w layers E, lastWord str = some w ∧ loadDummyProfile w = .ok (layers, E) ∧
      (setBeamProperties eig (.str str) C0 C1 nu false s).2.slab.map Layer.ply = layers ∧
      (setBeamProperties eig (.str str) C0 C1 nu false s).2.slab.map Layer.E = E := by
  unfold setBeamProperties at h ⊢
  cases hw : lastWord str with
  | none => simp [hw] at h
  | some w =>
    simp only [hw] at h ⊢
    cases hp : loadDummyProfile w with
    | error e => simp [hp] at h
    | ok q =>
      obtain ⟨layers, E⟩ := q
      obtain ⟨c1, c2, c3, c4⟩ := C39_consistent w layers E hp
      simp only
      refine ⟨setSlab_slabOk eig layers E nu s ⟨c1, c3⟩ c4 c2 h1 h2, w, layers, E, rfl, hp, ?_, ?_⟩
      · show (List.zipWith (fun l e => (⟨l.rho, l.h, e, e / (2 * (1 + nu)), nu⟩ : Layer)) layers E).map Layer.ply = layers
        clear hp c1 c3 c4 h hw
        induction layers generalizing E with
        | nil => simp
        | cons a L ih =>
          cases E with
          | nil => simp at c2
          | cons e E =>
            simp only [List.length_cons, Nat.add_right_cancel_iff] at c2
            simp only [List.zipWith_cons_cons, List.map_cons, ih E c2]; rfl
      · show (List.zipWith (fun l e => (⟨l.rho, l.h, e, e / (2 * (1 + nu)), nu⟩ : Layer)) layers E).map Layer.E = E
        clear hp c1 c3 c4 h hw
        induction layers generalizing E with
        | nil => cases E with
          | nil => rfl
          | cons e E => simp at c2
        | cons a L ih =>
          cases E with
          | nil => simp at c2
          | cons e E =>
            simp only [List.length_cons, Nat.add_right_cancel_iff] at c2
            simp only [List.zipWith_cons_cons, List.map_cons, ih E c2]

/-- Concrete cases. -/
example : SameUpToCase "SoFt" "soft" := by
  have h1 : ("SoFt" : String).toList = ['S', 'o', 'F', 't'] := rfl
  have h2 : ("soft" : String).toList = ['s', 'o', 'f', 't'] := rfl
  rw [SameUpToCase, h1, h2]
  refine .cons (.inr (.inl (by decide))) (.cons (.inl rfl) (.cons (.inr (.inl (by decide))) (.cons (.inl rfl) .nil)))

example : loadDummyProfile "D" = .ok ([⟨180, 120⟩, ⟨350, 120⟩, ⟨180, 120⟩], [5, 93.8, 5]) := by
  have : strLower "D" = "d" := rfl
  simp [loadDummyProfile, this, profileDatabase, List.lookup, profSoft, profHard]

example : loadDummyProfile "g" = .error .valueError :=
  (C39_known_ids "g").2 (by decide)

example (eig : EigSolver) (s : Self) :
    setBeamProperties eig (.str (String.ofList ("profile no ".toList ++ "comp".toList ++ " \n".toList))) 6.5 4.4 0.25 false s
      = (.ok (), setSlab eig [⟨240, 200⟩] [5.23] 0.25 false s) :=
  (C39_last_word eig 6.5 4.4 0.25 false s "profile no ".toList "comp".toList " \n".toList (by decide) (by decide) (by decide)
    (by decide)).1 _ _ (by
      have : strLower "comp" = "comp" := by rfl
      simp [loadDummyProfile, this, profileDatabase, List.lookup])

end Weac
