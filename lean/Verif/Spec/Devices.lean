import Verif.Model.Battery
import Verif.Model.Boot
import Verif.Model.Flash
import Verif.Model.Dmx

/-! # Specification vocabulary for the device programs (src/devices) -/

namespace Firefly.Spec
open Battery

/-- The battery was reported low at iteration `j` or later up to `n`, and no reading since then
exceeded the resume threshold. -/
def LowSince (k : Kind) (inp : Nat → Input) (n : Nat) : Prop :=
  ∃ j, j < n ∧ (inp j).expired ∧ (inp j).value < rawReading k.lowCutoff ∧
    ∀ i, j ≤ i → i < n → (inp i).expired → (inp i).value ≤ rawReading k.resume

/-! ## Bootloader entry -/

/-- At power-up the clock shows neither of the two seconds the code uses as markers, when the code
reads it (it was without power; it starts at its default date). -/
def FreshPowerUps (l : List Boot.Start) : Prop :=
  ∀ s ∈ l, ∀ t, s.cause = .power t → ∀ x, t ≤ x → x ≤ t + s.lag.1 + s.lag.2 →
    x / 1000 ≠ 1451606400 ∧ x / 1000 ≠ 1441606400

/-- The restart after the software reset, up to the readings of the clock, takes less than eleven
days (10⁹ ms). -/
def PromptSoftResets (l : List Boot.Start) : Prop :=
  ∀ l₀ s s' l₁ dt, l = l₀ ++ s :: s' :: l₁ → s.cause = .reset dt → s'.outcome = .softReset →
    dt + s.lag.1 + s.lag.2 < 1000000000

/-- A reset `dt` ms after the start `s` is within the arming window: more than 100 ms and less
than one second after a normal start; after a start that went to the bootloader, whose clock
was left at `s.sub` ms, the window is shifted by that amount. -/
def InArmingWindow (s : Boot.Start) (dt : Nat) : Prop :=
  match s.outcome with
  | .application => 100 < dt ∧ dt < 1000
  | .bootloader => 100 < s.sub + dt ∧ s.sub + dt < 1000
  | .softReset => False

/-! ## Watchdog -/

/-- Time since the most recent feeding at the start of iteration `n`, if iteration `i` takes
`dur i`, the watchdog is fed at time 0, and `fed i` says whether iteration `i` feeds it.  The
feeding may be at any moment of its iteration; the earliest, its beginning, is assumed. -/
def sinceFed (dur : Nat → Nat) (fed : Nat → Bool) : Nat → Nat
  | 0 => 0
  | n + 1 => if fed n then dur n else sinceFed dur fed n + dur n

/-! ## Analog buttons -/

/-- The button whose range contains a reading (10 bits): the three buttons and the released
state divide the range at the midpoints between 0, 346, 678 and 1023. -/
def buttonOf (x : U16) : Option Nat :=
  if x.toNat < 173 then some 1
  else if x.toNat < 512 then some 2
  else if x.toNat < 850 then some 3
  else none

/-- `m` is the last tick before `n` with a stable reading. -/
def LastStable (inp : Nat → U16 × Bool) (n m : Nat) : Prop :=
  (inp m).2 = true ∧ ∀ i, m < i → i < n → (inp i).2 = false

/-! ## DMX gateway -/

/-- The colour read in the iteration before `n` (black before the first). -/
def previousColour (inp : Nat → Dmx.Input) : Nat → CRGB
  | 0 => ⟨0, 0, 0⟩
  | n + 1 => (inp n).colour

/-- Number of transmissions in the iterations before `n`. -/
def transmissions (sent : Nat → Option Packet) : Nat → Nat
  | 0 => 0
  | n + 1 => transmissions sent n + if (sent n).isSome then 1 else 0

/-- `m` is the last iteration before `n` that transmitted. -/
def LastTransmission (sent : Nat → Option Packet) (n m : Nat) : Prop :=
  m < n ∧ (sent m).isSome ∧ ∀ i, m < i → i < n → sent i = none

end Firefly.Spec
