import Verif.Scen.Model

/-!
# The lane of a position (src/dg_commons/sim/scenarios/utils.py:51-65)

The lanelet network is the parameter `Network` of `Scen/Model`.
-/

namespace Verif
namespace Scen

open Maps

/-- `DgLanelet.from_commonroad_lanelet`, maps/lanes.py:87-93. -/
noncomputable def fromLanelet (m : Merged) : Except Err (List CtrPoint) := fromVertices m.left m.right m.center

/-- `dglane_from_position`, utils.py:51-65: the lanelets at the position, one of them, one of the merged lanelets that
start with it. Lanelets that are found exist in the network. -/
noncomputable def laneOfPosition (net : Network) (p : ℝ × ℝ) (initSel succSel : Int) : Except Err (List CtrPoint) :=
  let ids := net.findByPosition p
  if ids.length = 0 then .error .assertion
  else match pyGet ids initSel with
    | .error e => .error e
    | .ok i => match pyGet (net.merged i) succSel with
      | .error e => .error e
      | .ok m => fromLanelet m

end Scen
end Verif
