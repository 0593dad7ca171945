import Verif.Spec.Effects

/-! # Specification vocabulary for the moving patterns -/

namespace Firefly.Spec
open Firefly

/-- The period in ms after which the picture of an effect repeats exactly, with the factor by
which the effect multiplies the clock before anything else: the repetition is promised only
while that product does not overflow 32 bits.  The noise effects never repeat. -/
def period (strip : Strip) : Effect → Option (Nat × Nat)
  | .control | .dark => some (1, 1)
  | .colorCycle | .contrastBumps | .rainbow => some (4096, 1)
  | .rainbowBumps => some (20480, 1)
  | .stopLight => some (16384, 1)
  | .swingingLights => some (5000, 1)
  | .displayColorPalette => some (131072, 1)
  | .police => some (336000, 1)
  | .simpleBlink s => some (Nat.lcm (3 * s.toNat) 262144, 1)
  | .firefly _ => some (491520000, 1)
  | .pride =>
    if strip.flagEnabled .tiny then some (192 * strip.count.toNat, 2)
    else some (384 * strip.count.toNat, 1)
  | .spark => some (768000, coordinates strip + if strip.flagEnabled .circular then 0 else 8)
  | .fire _ | .lightning | .rorschach _ => none

/-- Where light `i` of `n` swinging lights is, from 0 (one end) to 65534 (the other): the lights
swing like a sine with a period of 5000 ms, evenly spread over that period. -/
def swingPlace (F : FastLED) (n i ms : Nat) : Int :=
  (F.sin16 (BitVec.ofNat 16 (i * 65535 / n + ms % 5000 * 65535 / 5000))).toInt + 32767

/-- The value a light of value `v` has at a distance: full at the light itself, falling
linearly to nothing at a fifth of the strip. -/
def swingValue (v distance : Nat) : Nat :=
  if distance < 13107 then (13107 - distance) * v / 13107 else 0

/-- The place of an LED on the same scale; a tiny strip that is not circular is a single place,
the beginning. -/
def swingLed (strip : Strip) (led : Nat) : Nat :=
  if strip.flagEnabled .tiny ∧ ¬ strip.flagEnabled .circular then 0
  else coordinate strip led * 65535 / coordinates strip

/-- What light `i` contributes to a colour component (`part`) of an LED. -/
def swingPart (F : FastLED) (p : Palette) (part : CRGB → U8) (strip : Strip) (led ms i : Nat) :
    Nat :=
  let c := p.getD i ⟨0, 0, 0⟩
  let distance := (swingPlace F p.length i ms - swingLed strip led).natAbs
  (part (F.hsv2rgb { c with v := BitVec.ofNat 8 (swingValue c.v.toNat distance) })).toNat

/-- The clock of a firefly with offset `o` at network time `ms`.  In the first 20 s of every
minute the fireflies come together, in the second they are together, in the third they drift
apart again; those with an offset below 256 run behind, the others ahead. -/
def fireflyClock (o ms : Nat) : Int :=
  let into := ms % 20000
  let shift : Nat :=
    if ms / 20000 % 3 = 0 then o * (20000 - into) / 20000
    else if ms / 20000 % 3 = 1 then 0
    else o * into / 20000
  if o < 256 then (ms : Int) - shift else ms + shift

/-- The offset that counts for an LED: on the controller it depends on the LED, elsewhere it is
the device's own. -/
def fireflyOffset (strip : Strip) (own led : Nat) : Nat :=
  if strip.flagEnabled .controller then 2258 * 2 ^ led % 512 else own

/-- The brightness of a firefly by its own clock: each 1024 ms it glows for 512 ms with the first
half of a sine and is dark for 512 ms. -/
def fireflyGlow (F : FastLED) (clock : Int) : Nat :=
  let phase := (clock % 1024).toNat
  if phase < 512 then (F.sin16 (BitVec.ofNat 16 (64 * phase))).toNat / 256 else 0

/-- The height of a bump at a phase of 0..255: the first half of a sine, then nothing. -/
def bump (F : FastLED) (phase : Nat) : Nat :=
  if phase < 128 then (F.sin16 (BitVec.ofNat 16 (256 * phase))).toNat / 128 else 0

/-- How far along the pattern of the bumps an LED is: `step` per LED, or once round a circular
strip. -/
def bumpOffset (strip : Strip) (step led : Nat) : Nat :=
  if strip.flagEnabled .circular then coordinate strip led * 255 / coordinates strip
  else coordinate strip led * step % 256

/-- The lamps of a police car. -/
inductive Siren where
  | red
  | blue
  | off
  deriving DecidableEq, Repr

/-- What they look like. -/
def Siren.colour : Siren → CRGB
  | .red => ⟨255, 0, 0⟩
  | .blue => ⟨0, 0, 255⟩
  | .off => ⟨0, 0, 0⟩

/-- A light of a given speed is on in the first half of every 64 units ... -/
def sirenCycle (speed ms : Nat) : Bool := ms / speed % 64 < 32
/-- ... and flashes: on in the first half of every 8 units. -/
def sirenFlash (speed ms : Nat) : Bool := ms / speed % 8 < 4

/-- A light of two halves, of which `first` tells whether LED is in the one lit first. -/
def sirenHalf (lamp : Siren) (first cycle : Bool) : Siren := if first = cycle then lamp else .off

/-- What the police effect shows.  On the controller: a red third and a blue third.  On a tiny
mirrored strip: one half red, the other blue, alternating.  On other tiny strips: all LEDs red
and blue in turn.  Elsewhere: a red light of two halves of 7 LEDs at the beginning and a blue one
of 13 LEDs (6 and 7) at the end. -/
def siren (strip : Strip) (led ms : Nat) : Siren :=
  let n := strip.count.toNat
  if strip.flagEnabled .controller then
    let tenth := ms / 100 % 10
    if tenth % 2 = 1 then .off
    else if tenth < 4 then (if led < n / 3 then .red else .off)
    else (if 2 * n / 3 ≤ led then .blue else .off)
  else if strip.flagEnabled .tiny then
    if strip.flagEnabled .mirrored then
      if n / 2 ≤ led then (if sirenCycle 15 ms && sirenFlash 15 ms then .red else .off)
      else (if !sirenCycle 15 ms && sirenFlash 14 ms then .blue else .off)
    else if !sirenFlash 15 ms then .off
    else if sirenCycle 15 ms then .red else .blue
  else
    let l := coordinate strip led
    let c := coordinates strip
    if sirenFlash 15 ms && decide (l < 14) then sirenHalf .red (decide (l < 7)) (sirenCycle 15 ms)
    else if sirenFlash 14 ms && decide (c < l + 14) then
      sirenHalf .blue (decide (c < l + 7)) (sirenCycle 14 ms)
    else .off

end Firefly.Spec
