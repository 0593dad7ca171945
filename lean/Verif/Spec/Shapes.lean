import Verif.Spec.Motion

/-! # Specification vocabulary for the spark and the Rorschach effect -/

namespace Firefly.Spec
open Firefly

/-- The spark: a head of two LEDs and a fading tail. -/
def sparkTail : List Nat := [255, 255, 128, 96, 48, 32, 24, 16]

/-- How far the spark on a strip of `n` coordinates has come on its way up (`n + 8` steps in 3 s)
and down (the same again). -/
def sparkStep (n ms : Nat) : Nat := ms * (n + 8) / 3000 % (2 * (n + 8))

/-- How far coordinate `x` is below the upper end of the spark.  Round a circle the spark turns
once in 3 s, towards the lower coordinates. -/
def sparkPlace (strip : Strip) (led ms : Nat) : Int :=
  let n := coordinates strip
  let x := coordinate strip led
  if strip.flagEnabled .circular then ((ms * n / 3000 + x) % n : Nat)
  else if sparkStep n ms ≤ n + 8 then (sparkStep n ms : Int) - x
  else (2 * (n + 8) - sparkStep n ms : Int) - x

/-- The value of an LED.  On the way up the head is the upper end of the spark, on the way down
the lower end, seven coordinates further. -/
def sparkValue (strip : Strip) (led ms : Nat) : Nat :=
  let place := sparkPlace strip led ms
  let behind : Int :=
    if strip.flagEnabled .circular ∨ sparkStep (coordinates strip) ms ≤ coordinates strip + 8
    then place else 7 - place
  if 0 ≤ behind then sparkTail.getD behind.toNat 0 else 0

/-- Distance of an LED from the middle of the strip. -/
def fromMiddle (strip : Strip) (led : Nat) : Nat :=
  ((led : Int) - (strip.count.toNat / 2 : Nat)).natAbs

/-- Where an LED at distance `d` from the middle reads the noise at time `ms` (with the random
phase of the device added): both coordinates advance by one every 8 ms and fall by 32 and by 4
per LED, except that all LEDs but the middle one read it 2^21 and 2^18 further on. -/
def rorschachPlace (d ms : Nat) : Int × Int :=
  if d = 0 then ((ms / 8 : Nat), (ms / 8 : Nat))
  else ((ms / 8 : Nat) - 32 * d + 2 ^ 21, (ms / 8 : Nat) - 4 * d + 2 ^ 18)

/-- The noise field at a point (see C69; the coordinates count modulo 2^32, and the state of the
random generator does not matter). -/
def noiseAt (F : FastLED) (p : Int × Int) : Nat :=
  (perlinNoise F (BitVec.ofInt 32 p.1) (BitVec.ofInt 32 p.2) 0).1.toNat

/-- Where the flames of an LED are read at time `ms` (with the random phase of the device added):
two points of the noise field, one moving by one unit every 8 ms, the other, far away, every 2 ms.
On a straight strip an LED is 20 units (for the second point 10) further than the previous one.
Round a circle the points lie on a circle of 5.09 units per LED around the moving point; the second
half of a mirrored circle reads the first point 6789 units aside. -/
def flamePlaces (F : FastLED) (strip : Strip) (led ms : Nat) : (Int × Int) × (Int × Int) :=
  let x := coordinate strip led
  let n := coordinates strip
  if strip.flagEnabled .circular then
    let angle : U8 := BitVec.ofNat 8 (255 * x / n)
    let radius : Int := (n * 32000 / 6283 % 256 : Nat)
    let right : Int := (((F.cos8 angle).toNat : Int) - 128) * radius
    let up : Int := (((F.sin8 angle).toNat : Int) - 128) * radius
    let aside : Int :=
      if strip.flagEnabled .mirrored ∧ strip.count.toNat / 2 < led then 6789 else 0
    (((ms / 8 : Nat) + right.tdiv 128, aside + up.tdiv 127),
     ((ms / 2 : Nat) + 1234567 + right.tdiv 128, up.tdiv 127))
  else ((20 * x, (ms / 8 : Nat)), (10 * x + 1234, (ms / 2 : Nat) + 1234567))

/-- The colours of the flames, from the coldest to the hottest. -/
def flameColours : Palette := [⟨0, 255, 8⟩, ⟨23, 249, 45⟩, ⟨30, 246, 113⟩, ⟨35, 200, 192⟩]

end Firefly.Spec
