import Verif.Maps.Lanes

/-!
# The outline of a lane (lane_profile in maps/lanes.py)
-/

namespace Verif
namespace Maps

/-- `np.linspace(0, stop, num=num)`. -/
noncomputable def linspace (stop : ℝ) (num : Nat) : List ℝ :=
  if num = 1 then [0] else (List.range num).map fun (k : Nat) => k * (stop / ((num : ℝ) - 1))

/-- `boundsAt` for each of the values. -/
noncomputable def boundsAll (cps : List CtrPoint) : List ℝ → Except Err (List ((ℝ × ℝ) × (ℝ × ℝ)))
  | [] => .ok []
  | b :: bs => match boundsAt cps b with
    | .error e => .error e
    | .ok p => match boundsAll cps bs with
      | .error e => .error e
      | .ok ps => .ok (p :: ps)

/-- `lane_profile`, lanes.py:321-337, for a non-negative number of points per segment; without control points
`linspace` is asked for a negative number of points and raises `ValueError`. The cache is in `Misc/Cache.lean`: lanes
are not changed here after they have been built. -/
noncomputable def laneProfile (cps : List CtrPoint) (pointsPerSegment : Nat) : Except Err (List (ℝ × ℝ)) :=
  if cps = [] ∧ 0 < pointsPerSegment then .error .value
  else
    match boundsAll cps (linspace ((cps.length - 1 : Nat) : ℝ) ((cps.length - 1) * pointsPerSegment)) with
    | .error e => .error e
    | .ok bs => .ok (bs.map Prod.fst ++ (bs.map Prod.snd).reverse)

end Maps
end Verif
