import Verif.Coll.Mesh

/-!
# Outlines of rockets, spaceships, spacecraft and pedestrians
(sim/models/rocket_structures.py, spaceship_structures.py, spacecraft_structures.py, pedestrian.py)

An outline is given by the set of its points; `unary_union` is the union of sets. What shapely does to find the
boundary of a union is not modelled.
-/

namespace Verif
namespace Coll

/-- `RocketGeometry`, rocket_structures.py:27-49, without mass, inertia, restitution and colour. -/
structure RocketGeom where
  wHalf : ℝ
  lc : ℝ
  lf : ℝ
  lm : ℝ
  lr : ℝ
  l : ℝ
  ltHalf : ℝ
  wtHalf : ℝ
  fMax : ℝ

/-- `RocketGeometry.default` with all keyword arguments, rocket_structures.py:51-80. -/
def RocketGeom.default (wHalf lc lf lm lr _l ltHalf wtHalf fMax : ℝ) : RocketGeom :=
  { wHalf := wHalf, lc := lc, lf := lf, lm := lm, lr := lr, l := lr + lm + lf + lc, ltHalf := ltHalf,
    wtHalf := wtHalf, fMax := fMax }

/-- The values of the keyword arguments of `RocketGeometry.default`, rocket_structures.py:56-64. -/
noncomputable def defaultRocket : RocketGeom :=
  RocketGeom.default (1 / 5) (3 / 10) (1 / 20) (1 / 4) (3 / 10) (9 / 10) (1 / 5) (1 / 100) 2

/-- `RocketGeometry.width`, rocket_structures.py:82-84. -/
def RocketGeom.width (g : RocketGeom) : ℝ := g.wHalf * 2

/-- `body` of the outline, rocket_structures.py:92-100. -/
def RocketGeom.body (g : RocketGeom) : List (ℝ × ℝ) :=
  [(-g.lr, g.wHalf), (g.lf + g.lm, g.wHalf), (g.lf + g.lm, -g.wHalf), (-g.lr, -g.wHalf), (-g.lr, g.wHalf)]

/-- `header` of the outline, rocket_structures.py:101-108. -/
def RocketGeom.header (g : RocketGeom) : List (ℝ × ℝ) :=
  [(g.lf + g.lm, g.wHalf), (g.lf + g.lm + g.lc, 0), (g.lf + g.lm, -g.wHalf), (g.lf + g.lm, g.wHalf)]

/-- `RocketGeometry.outline`, rocket_structures.py:86-110. -/
def RocketGeom.shape (g : RocketGeom) : Set (ℝ × ℝ) := region g.body ∪ region g.header

/-- `SpaceshipGeometry`, spaceship_structures.py:24-42, likewise. -/
structure SpaceshipGeom where
  wHalf : ℝ
  lc : ℝ
  lf : ℝ
  lr : ℝ
  ltHalf : ℝ
  wtHalf : ℝ
  fMax : ℝ

/-- `SpaceshipGeometry.default`, spaceship_structures.py:44-69. -/
noncomputable def defaultSpaceship : SpaceshipGeom := ⟨2 / 5, 4 / 5, 1 / 2, 1, 3 / 10, 1 / 20, 3⟩

/-- `SpaceshipGeometry.width`, spaceship_structures.py:71-73. -/
def SpaceshipGeom.width (g : SpaceshipGeom) : ℝ := g.wHalf * 2

/-- `SpaceshipGeometry.l`, spaceship_structures.py:75-78. -/
def SpaceshipGeom.l (g : SpaceshipGeom) : ℝ := g.lf + g.lr + g.lc

/-- `body`, spaceship_structures.py:86-94. -/
def SpaceshipGeom.body (g : SpaceshipGeom) : List (ℝ × ℝ) :=
  [(-g.lr, g.wHalf), (g.lf, g.wHalf), (g.lf, -g.wHalf), (-g.lr, -g.wHalf), (-g.lr, g.wHalf)]

/-- `header`, spaceship_structures.py:95-102. -/
def SpaceshipGeom.header (g : SpaceshipGeom) : List (ℝ × ℝ) :=
  [(g.lf, g.wHalf), (g.lf + g.lc, 0), (g.lf, -g.wHalf), (g.lf, g.wHalf)]

/-- `SpaceshipGeometry.outline`, spaceship_structures.py:80-104. -/
def SpaceshipGeom.shape (g : SpaceshipGeom) : Set (ℝ × ℝ) := region g.body ∪ region g.header

/-- `affinity.scale(geo, fx, fy)` for a geometry whose bounding box is centred at the origin. -/
def scaleRing (fx fy : ℝ) (ring : List (ℝ × ℝ)) : List (ℝ × ℝ) := ring.map fun p => (fx * p.1, fy * p.2)

/-- `SpacecraftGeometry`, spacecraft_structures.py:22-32, likewise. -/
structure SpacecraftGeom where
  wHalf : ℝ
  lf : ℝ
  lr : ℝ

/-- `__post_init__`, spacecraft_structures.py:34-35. -/
noncomputable def SpacecraftGeom.mk? (wHalf lf lr : ℝ) : Except Err SpacecraftGeom :=
  open Classical in if lf < lr then .ok ⟨wHalf, lf, lr⟩ else .error .assertion

/-- The default spacecraft, spacecraft_structures.py:37-55. -/
noncomputable def defaultSpacecraft : SpacecraftGeom := ⟨1, 2, 3⟩

/-- `SpacecraftGeometry.width`, spacecraft_structures.py:57-59. -/
def SpacecraftGeom.width (g : SpacecraftGeom) : ℝ := g.wHalf * 2

/-- `rect` of the outline, spacecraft_structures.py:69-77. -/
noncomputable def SpacecraftGeom.rect (g : SpacecraftGeom) : List (ℝ × ℝ) :=
  [(-g.lr, g.wHalf), (-g.lr, -g.wHalf), (1 / 1000, -g.wHalf), (1 / 1000, g.wHalf), (-g.lr, g.wHalf)]

/-- `ellipse` of the outline, spacecraft_structures.py:67-68. -/
noncomputable def SpacecraftGeom.ellipse (g : SpacecraftGeom) : List (ℝ × ℝ) :=
  scaleRing (g.lf / g.wHalf) 1 (circleRing g.wHalf)

/-- `SpacecraftGeometry.outline`, spacecraft_structures.py:61-79. For negative half widths, for which shapely's
circle is empty, this is not the outline. -/
noncomputable def SpacecraftGeom.shape (g : SpacecraftGeom) : Except Err (Set (ℝ × ℝ)) :=
  open Classical in
  if g.wHalf = 0 then .error .zeroDiv else .ok (region g.ellipse ∪ region g.rect)

/-- `PedestrianGeometry.outline`, pedestrian.py:24-28. -/
noncomputable def pedestrianRing : List (ℝ × ℝ) := scaleRing 1 (3 / 2) (circleRing (1 / 2))

/-- `DiffDriveGeometry.width` and `length`, diff_drive_structures.py:54-60. -/
def diffDriveWidth (radius : ℝ) : ℝ := radius * 2

end Coll
end Verif
