import Verif.Model.Basic

/-! # Start-up and main loop of the boards: bootloader entry, watchdog, analog buttons -/

namespace Firefly

/-! ## Bootloader entry of the controller (src/devices/controller/controller.cpp:400-435) -/

namespace Boot

/-- `kEpochTimer`, src/devices/controller/controller.cpp:401. -/
def kEpochTimer : Nat := 1451606400
/-- `kEpochReset`, src/devices/controller/controller.cpp:402. -/
def kEpochReset : Nat := 1441606400

/-- `rtc.getEpoch()`.  The real-time clock, which keeps running across CPU resets, is modelled as
the number `t` of milliseconds since 1970 (STM32RTC is not in the repository). Called at
src/devices/controller/controller.cpp:425. -/
def epoch (t : Nat) : Nat := t / 1000
/-- `rtc.getSubSeconds()`: milliseconds within the second. Called at
src/devices/controller/controller.cpp:424. -/
def subSeconds (t : Nat) : Nat := t % 1000

/-- What `setup()` does with the CPU. src/devices/controller/controller.cpp:425-435. -/
inductive Outcome where
  /-- carries on with the application -/
  | application
  /-- `NVIC_SystemReset()` -/
  | softReset
  /-- `JumpToBootloader()` -/
  | bootloader
  deriving DecidableEq, Repr

/-- The clock part of `setup`, src/devices/controller/controller.cpp:419-435, and the clock
value it leaves.  `t` is the clock when the sub-seconds are read (line 424); the epoch is read
`lag.1` ms later (line 425) and, if it is read again (line 429), `lag.2` ms after that.  `sub` is
the sub-second value left by `setEpoch` alone (it depends on the library version, so it is an
input; `setSubSeconds(0)` follows on the application path). -/
def setup (t : Nat) (lag : Nat × Nat) (sub : Fin 1000) : Outcome × Nat :=
  if epoch (t + lag.1) = kEpochTimer ∧ 100 < subSeconds t then
    (.softReset, kEpochReset * 1000 + sub)
  else if epoch (t + lag.1 + lag.2) = kEpochReset then (.bootloader, kEpochTimer * 1000 + sub)
  else (.application, kEpochTimer * 1000)

/-- Why the CPU starts: power is applied, and the clock has some value; or the CPU is reset (by
the reset pin, or by `NVIC_SystemReset`), `dt` ms after the clock part of the previous `setup`.
Not from /repo (the surroundings of src/devices/controller/controller.cpp:404-435). -/
inductive Cause where
  | power (t : Nat)
  | reset (dt : Nat)

/-- One start of the CPU. One execution of src/devices/controller/controller.cpp:404-435. -/
structure Start where
  cause : Cause
  lag : Nat × Nat
  sub : Fin 1000
  outcome : Outcome

/-- The clock at the beginning of a start, given the clock left by the previous one. The value
`rtc` is read with at src/devices/controller/controller.cpp:424-425. -/
def Cause.clock (prev : Nat) : Cause → Nat
  | .power t => t
  | .reset dt => prev + dt

/-- Histories of starts, newest first, and the clock left by the newest.  The first start is a
power-up (the clock before it is irrelevant). Not from /repo: repeated execution of
src/devices/controller/controller.cpp:404-435. -/
inductive Hist : List Start → Nat → Prop
  | first (t : Nat) (lag : Nat × Nat) (sub : Fin 1000) :
      Hist [⟨.power t, lag, sub, (setup t lag sub).1⟩] (setup t lag sub).2
  | next {l t} (c : Cause) (lag : Nat × Nat) (sub : Fin 1000) : Hist l t →
      Hist (⟨c, lag, sub, (setup (c.clock t) lag sub).1⟩ :: l) (setup (c.clock t) lag sub).2

end Boot

/-! ## Watchdog of the node (src/devices/node/node.cpp) -/

namespace Watchdog

/-- The watchdog part of `loop`, src/devices/node/node.cpp:157-161: whether the watchdog is fed,
and the new `watchdog_counter`. -/
def step (counter : U8) : Bool × U8 :=
  let fed : Bool := decide (5 < counter)
  let counter := if fed then 0 else counter
  (fed, counter + 1)

/-- `watchdog_counter` at the start of iteration `n` (0 is the first);
src/devices/node/node.cpp:143. -/
def counter : Nat → U8
  | 0 => 0
  | n + 1 => (step (counter n)).2

/-- Whether iteration `n` feeds the watchdog. src/devices/node/node.cpp:157-158. -/
def fed (n : Nat) : Bool := (step (counter n)).1

end Watchdog

/-! ## Analog buttons (src/devices/controller/analog-button.{h,cpp}) -/

namespace AnalogButton

/-- `kSwitch1Threshold` … `kSwitch3Threshold`, src/devices/controller/analog-button.h:29-31. -/
def kSwitch1Threshold : U16 := 346 / 2
/-- src/devices/controller/analog-button.h:30. -/
def kSwitch2Threshold : U16 := (346 + 678) / 2
/-- src/devices/controller/analog-button.h:31. -/
def kSwitch3Threshold : U16 := (678 + 1023) / 2

/-- The members written by `Tick`, src/devices/controller/analog-button.h:21-25. -/
structure State where
  prev : Nat
  pressed1 : Bool
  pressed2 : Bool
  pressed3 : Bool
  deriving DecidableEq, Repr

/-- The initial values of the members, src/devices/controller/analog-button.h:21-25. -/
def init : State := ⟨0, false, false, false⟩

/-- `AnalogButton::ReadAnalog`, src/devices/controller/analog-button.cpp:35-42. -/
def readAnalog (input : U16) : Nat :=
  if input < kSwitch1Threshold then 1
  else if input < kSwitch2Threshold then 2
  else if input < kSwitch3Threshold then 3
  else 0

/-- `AnalogButton::Tick`, src/devices/controller/analog-button.cpp:10-27.  `input` and `stable`
are `analog_filter_.GetFilteredValue()` and `analog_filter_.Stable(kStableThreshold)` after
`analog_filter_.Run()` (the filter library is not in the repository). -/
def tick (s : State) (input : U16) (stable : Bool) : State :=
  let state := readAnalog input
  if state ≠ s.prev ∧ stable then
    ⟨state, decide (state = 1), decide (state = 2), decide (state = 3)⟩
  else ⟨s.prev, false, false, false⟩

/-- The state after the first `n` ticks. Repeated calls of
src/devices/controller/analog-button.cpp:10-27. -/
def run (inp : Nat → U16 × Bool) : Nat → State
  | 0 => init
  | n + 1 => tick (run inp n) (inp n).1 (inp n).2

/-- `Button1Pressed` … `Button3Pressed`, src/devices/controller/analog-button.cpp:29-33. -/
def State.pressed (s : State) (b : Nat) : Bool :=
  if b = 1 then s.pressed1 else if b = 2 then s.pressed2 else if b = 3 then s.pressed3 else false

end AnalogButton
end Firefly
