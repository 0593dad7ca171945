import Verif.Model.FastLED

/-! # Geometry and noise (lib/math/Math.cpp, lib/math/Perlin.hpp) -/

namespace Firefly

/-- `GetPosOnCircle`, lib/math/Math.cpp:6-12: angle and radius, each stored in a `uint8_t`.
`led_count * 32` is an `int`; the product with 1000 is a `uint32_t`, which cannot overflow
here. -/
def getPosOnCircle (count index : U8) : Except Fault (U8 × U8) :=
  if count = 0 then .error .divByZero
  else .ok (BitVec.ofNat 8 (index.toNat * 255 / count.toNat),
    BitVec.ofNat 8 (count.toNat * 32 * 1000 / 6283))

/-- `MirrorIndex`, lib/math/Math.cpp:14-24: new index and new count. -/
def mirrorIndex (index count : U8) : Except Fault (U8 × U8) :=
  if count = 0 then .error .divByZero
  else
    let index : U8 := index % count
    let newCount : U8 := BitVec.ofNat 8 ((count.toNat + 1) / 2)
    let index : U8 := if newCount ≤ index then count - index - 1 else index
    .ok (index, newCount)

/-- `tileHash`, lib/math/Perlin.hpp:9. -/
def tileHash (x y : U32) : U16 := (x + y * 7919).setWidth 16

/-- FastLED `random16_set_seed`: overwrites the state of the generator. Called at
lib/math/Perlin.hpp:25, 29, 33 and 37. -/
def randomSetSeed (_old seed : U16) : U16 := seed

/-- Two draws after `random16_set_seed(tileHash(x, y))`, lib/math/Perlin.hpp:25-39: the
gradient vector of a tile corner (two `int8_t`), and the generator state left behind. -/
def cornerVector (F : FastLED) (x y : U32) (rng : U16) : (Int × Int) × U16 :=
  let a := F.random8 (randomSetSeed rng (tileHash x y))
  let b := F.random8 a.2
  ((a.1.toInt, b.1.toInt), b.2)

/-- `perlinNoise`, lib/math/Perlin.hpp:12-63: the noise value and the generator state left
behind; `rng` is the state at the call.  With `resolution` = 8 the shifts by `8 - resolution`
are by 0.  The dot products are `int32_t` expressions (`>>` of a negative number rounds down,
as all supported compilers do) stored in an `int16_t`. -/
def perlinNoise (F : FastLED) (x y : U32) (rng : U16) : U8 × U16 :=
  let ix := x >>> 8
  let iy := y >>> 8
  let fx : U16 := (x - (ix <<< 8)).setWidth 16
  let fy : U16 := (y - (iy <<< 8)).setWidth 16
  let aa := cornerVector F ix iy rng
  let ab := cornerVector F ix (iy + 1) aa.2
  let ba := cornerVector F (ix + 1) iy ab.2
  let bb := cornerVector F (ix + 1) (iy + 1) ba.2
  let dx : Int := fx.toNat
  let dy : Int := fy.toNat
  let aaDot : U16 := BitVec.ofInt 16 ((dx * aa.1.1 + dy * aa.1.2) / 256)
  let abDot : U16 := BitVec.ofInt 16 ((dx * ab.1.1 + (-256 + dy) * ab.1.2) / 256)
  let baDot : U16 := BitVec.ofInt 16 (((-256 + dx) * ba.1.1 + dy * ba.1.2) / 256)
  let bbDot : U16 := BitVec.ofInt 16 (((-256 + dx) * bb.1.1 + (-256 + dy) * bb.1.2) / 256)
  let ex := F.ease8InOutApprox (fx.setWidth 8)
  let ey := F.ease8InOutApprox (fy.setWidth 8)
  let val := F.lerp15by8 (F.lerp15by8 aaDot baDot ex) (F.lerp15by8 abDot bbDot ex) ey
  let val := val * 4
  let val := val + 128
  let val : U16 := if 256 ≤ val.toInt then 255 else if val.toInt < 0 then 0 else val
  (val.setWidth 8, bb.2)

/-- `perlinNoisePolar`, lib/math/Perlin.hpp:69-75.  The `int` divisions truncate towards
zero; the offsets are converted to `uint32_t` by the additions. -/
def perlinNoisePolar (F : FastLED) (x y : U32) (angle magnitude : U8) (rng : U16) : U8 × U16 :=
  let xo : Int := (((F.cos8 angle).toNat : Int) - 128) * magnitude.toNat
  let yo : Int := (((F.sin8 angle).toNat : Int) - 128) * magnitude.toNat
  perlinNoise F (x + BitVec.ofInt 32 (xo.tdiv 128)) (y + BitVec.ofInt 32 (yo.tdiv 127)) rng

end Firefly
