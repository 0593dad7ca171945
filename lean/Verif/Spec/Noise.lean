/-!
# Vocabulary for gradient noise

Unbounded integer arithmetic, independent of the model.
-/

namespace Firefly.Spec

/-- Linear interpolation from `a` to `b` by `(1 + f) / 256`, rounded towards `a`. -/
def lerp (a b : Int) (f : Nat) : Int :=
  if a < b then a + (b - a) * (1 + f) / 256 else a - (a - b) * (1 + f) / 256

/-- Contribution of a tile corner with gradient `g` at the point whose offset from that corner
is `(dx, dy)` 256ths of a tile: the scalar product, rounded down. -/
def contribution (dx dy : Int) (g : Int × Int) : Int := (dx * g.1 + dy * g.2) / 256

/-- Limit a number to 0..255. -/
def clampByte (v : Int) : Int := max 0 (min 255 v)

end Firefly.Spec
