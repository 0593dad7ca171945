/-!
# Common vocabulary of the model

C++ unsigned integers are bit vectors (wrapping arithmetic, unsigned order).  Signed narrow
integers are bit vectors read through `BitVec.toInt`.  Undefined behaviour and failed
assertions are explicit outcomes (`Fault`) of functions returning `Except Fault α`.
-/

namespace Firefly

/-- `uint8_t` / `int8_t` (two's complement). The fixed-width integers of `<stdint.h>`, used
throughout, e.g. lib/radio/Radio.hpp:14-60. -/
abbrev U8 := BitVec 8
/-- `uint16_t` / `int16_t` (two's complement). The fixed-width integers of `<stdint.h>`, used
throughout, e.g. lib/radio/Radio.hpp:14-60. -/
abbrev U16 := BitVec 16
/-- `uint32_t` / `int32_t` (two's complement). The fixed-width integers of `<stdint.h>`, used
throughout, e.g. src/generic/RadioStateMachine.cpp:242-262. -/
abbrev U32 := BitVec 32

/-- The ways in which an operation of the code can go wrong.  `assertFail` is a controlled abort
of the host build (`#ifndef ARDUINO assert(...)`); the others are C++ undefined behaviour.
Assertions: lib/radio/Radio.cpp:18-81, lib/led_manager/LedManager.cpp:66 and 140. -/
inductive Fault where
  | assertFail
  | divByZero
  | outOfBounds
  | badShift
  deriving DecidableEq, Repr

deriving instance DecidableEq for Except

/-- The two build flavours: the host build (`#ifndef ARDUINO`: asserts compiled in, the
`random`/`millis` replacements of lib/types/Types.cpp:3-14) and the Arduino build. -/
inductive Platform where
  | host
  | arduino
  deriving DecidableEq, Repr

/-- An endless supply of results of the C library `rand()`.  Theorems quantify over all supplies,
so nothing is assumed about the generator. Calls: src/generic/RadioStateMachine.cpp:127 and 225,
lib/types/Types.cpp:4-6. -/
abbrev Rand := Nat → Nat

/-- Draw one number. One call of `rand()`, as in src/generic/RadioStateMachine.cpp:127. -/
def Rand.draw (r : Rand) : Nat × Rand := (r 0, fun n => r (n + 1))

/-- Assertion compiled in only on the host (`#ifndef ARDUINO assert(c); #endif`). As in
lib/radio/Radio.cpp:18-19. -/
def hostAssert (plat : Platform) (c : Bool) : Except Fault Unit :=
  match plat with
  | .host => if c then .ok () else .error .assertFail
  | .arduino => .ok ()

/-- `random(min, max)`.

Host: lib/types/Types.cpp:6, `min + (rand() % max)` returned as `uint16_t`
(undefined for `max = 0`).

Arduino: the core's `random(howsmall, howbig)` (not in the repository, part of the trusted
base): `howsmall` if `howsmall >= howbig`, else `howsmall + random() % (howbig - howsmall)`;
all callers in the repository store the result in 16 bits or fewer. -/
def randomRange (plat : Platform) (lo hi : U16) (r : Rand) : Except Fault (U16 × Rand) :=
  match plat with
  | .host =>
    if hi = 0 then .error .divByZero
    else .ok (BitVec.ofNat 16 (lo.toNat + r.draw.1 % hi.toNat), r.draw.2)
  | .arduino =>
    if hi ≤ lo then .ok (lo, r)
    else .ok (BitVec.ofNat 16 (lo.toNat + r.draw.1 % (hi.toNat - lo.toNat)), r.draw.2)

end Firefly
