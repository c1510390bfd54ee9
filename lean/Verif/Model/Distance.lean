import Verif.Model.Solution

/-!
# `touchdown_distance`, `weac/tools.py` 261-333
-/

namespace Weac

/-- Argument of `set_beam_properties` after `layers if layers else [[240, 200]]`,
`weac/tools.py` 302-308. -/
def CtorLayers.orDefault (layers : CtorLayers) : Res LayersArg := do
  let b ← layers.truthy
  return if b then
      match layers with
      | .rows l => .rows l
      | .ndarray l => .rows l
      | .str s => .str s
      | .none => .rows [⟨240, 200⟩]
    else .rows [⟨240, 200⟩]

/-- The calls on the object after its properties are set, `weac/tools.py`
319-333. Arguments of `calc_segments` that are not passed have their default
values (`weac/mixins.py` 973-985). -/
noncomputable def touchdownCalls (num : Numerics) (phi : ℝ) : Py (ℝ × ℝ × ℝ) := do
  let _ ← calcSegments num [] [] [] [] 1e5 0 0 phi 0.5 1000
  let first ← calcA1 num
  let full ← calcA2 num
  let _ ← calcSegments num [] [] [] [] 1e5 (5 * first) 0 phi 0.5 1000
  let steady ← calcLC num
  return (first, full, steady)

/-- `touchdown_distance`, `weac/tools.py` 261-333. -/
noncomputable def touchdownDistance (num : Numerics) (layers : CtorLayers) (C0 C1 Ewl t phi : ℝ) : Res (ℝ × ℝ × ℝ) := do
  let arg ← layers.orDefault
  let s0 ← layeredInit num.eig "pst-" .none true
  let s1 := setFoundationProperties num.eig t Ewl 0.25 true s0
  let r := setBeamProperties num.eig arg C0 C1 0.25 true s1
  r.1
  (touchdownCalls num phi r.2).1

end Weac
