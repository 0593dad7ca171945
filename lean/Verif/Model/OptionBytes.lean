import Verif.Model.Basic

/-! # The boot option (src/devices/fancy-node/fancy-node.cc, src/devices/controller/controller.cpp)

Both boards set or clear one bit of the option bytes of the processor when they start. The processor is not in
the repository; its documented behaviour (STM32G0, RM0444, embedded flash) is modelled as follows. The option
bytes are non-volatile. `OPTR` is a register that is loaded with them when power comes on. Writing it, and
starting a programming, has no effect unless the flash and the options were unlocked by their two keys each, in
order; a wrong key keeps them locked until the next reset. Programming stores `OPTR` in the option bytes, at
once. After a reset without loss of power `OPTR` may have kept its value or may be loaded again. -/

namespace Firefly
namespace OptionBytes

/-- What a lock has seen: nothing, its first key, both keys, or a wrong key. The documented behaviour of `KEYR`
and `OPTKEYR`, written at src/devices/fancy-node/fancy-node.cc:116-119. -/
inductive Lock where
  | closed
  | half
  | opened
  | blocked
  deriving DecidableEq, Repr

/-- The processor, as far as the code at src/devices/fancy-node/fancy-node.cc:114-131 uses it. `programmed` counts
the programmings, which wear the memory out. -/
structure Cpu where
  stored : U32
  optr : U32
  flash : Lock
  option : Lock
  programmed : Nat
  deriving DecidableEq, Repr

/-- A key is written to a lock that expects `k₁` and then `k₂`. Documented behaviour, see the head of the file
(src/devices/fancy-node/fancy-node.cc:115). -/
def Lock.key (k₁ k₂ : U32) (l : Lock) (k : U32) : Lock :=
  match l with
  | .closed => if k = k₁ then .half else .blocked
  | .half => if k = k₂ then .opened else .blocked
  | .opened => .blocked
  | .blocked => .blocked

/-- The accesses to the flash controller that the code makes. The busy-waits
(src/devices/fancy-node/fancy-node.cc:121-122, 129-130) end by themselves and are left out. -/
inductive Access where
  | keyr (k : U32)
  | optkeyr (k : U32)
  | clear (mask : U32)
  | set (mask : U32)
  | start
  deriving DecidableEq, Repr

/-- What an access does. Documented behaviour (see the head of the file) of the registers used at
src/devices/fancy-node/fancy-node.cc:116-128 and src/devices/controller/controller.cpp:447-458; the options can
only be unlocked while the flash is. -/
def Access.run (c : Cpu) : Access → Cpu
  | .keyr k => { c with flash := c.flash.key 0x45670123 0xCDEF89AB k }
  | .optkeyr k =>
    if c.flash = .opened then { c with option := c.option.key 0x08192A3B 0x4C5D6E7F k }
    else { c with option := .blocked }
  | .clear mask => if c.option = .opened then { c with optr := c.optr &&& ~~~mask } else c
  | .set mask => if c.option = .opened then { c with optr := c.optr ||| mask } else c
  | .start =>
    if c.option = .opened then { c with stored := c.optr, programmed := c.programmed + 1 } else c

/-- The two programs. src/devices/fancy-node/fancy-node.cc, src/devices/controller/controller.cpp. -/
inductive Firmware where
  | fancyNode
  | controller
  deriving DecidableEq, Repr

/-- The accesses `setup` makes when it finds `optr`; `mask` is `FLASH_OPTR_nBOOT_SEL`, defined by the vendor's
header. src/devices/fancy-node/fancy-node.cc:114-131, src/devices/controller/controller.cpp:445-460. -/
def setup (mask : U32) (optr : U32) : Firmware → List Access
  | .fancyNode =>
    if optr &&& mask ≠ 0 then
      [.keyr 0x45670123, .keyr 0xCDEF89AB, .optkeyr 0x08192A3B, .optkeyr 0x4C5D6E7F, .clear mask, .start]
    else []
  | .controller =>
    if ¬ (optr &&& mask ≠ 0) then
      [.keyr 0x45670123, .keyr 0xCDEF89AB, .optkeyr 0x08192A3B, .optkeyr 0x4C5D6E7F, .set mask, .start]
    else []

/-- Why the processor starts: power came on, or it was reset without loss of power, with `OPTR` kept or
loaded again. Not from /repo; see src/devices/controller/controller.cpp:404-435 for resets. -/
inductive Cause where
  | power
  | reset (kept : Bool)
  deriving DecidableEq, Repr

/-- The processor when it starts: locked again. Documented behaviour, see the head of the file; it precedes
src/devices/fancy-node/fancy-node.cc:112. -/
def Cause.wake (c : Cpu) : Cause → Cpu
  | .power => { c with optr := c.stored, flash := .closed, option := .closed }
  | .reset kept =>
    { c with optr := if kept then c.optr else c.stored, flash := .closed, option := .closed }

/-- One start: its cause, the program that is in the memory, and how many of its accesses are made before power
fails or a reset comes (`none`: all). src/devices/fancy-node/fancy-node.cc:112-131,
src/devices/controller/controller.cpp:404-460. -/
structure Start where
  cause : Cause
  firmware : Firmware
  cut : Option Nat
  deriving DecidableEq, Repr

/-- The processor after a start. src/devices/fancy-node/fancy-node.cc:112-131,
src/devices/controller/controller.cpp:404-460. -/
def Start.run (mask : U32) (c : Cpu) (s : Start) : Cpu :=
  let c := s.cause.wake c
  let accesses := setup mask c.optr s.firmware
  let accesses := match s.cut with
    | none => accesses
    | some n => accesses.take n
  accesses.foldl Access.run c

/-- A new board, with any option bytes. Before the first execution of
src/devices/fancy-node/fancy-node.cc:112. -/
def Cpu.new (stored : U32) : Cpu := ⟨stored, stored, .closed, .closed, 0⟩

/-- The processor after the starts `h`, newest first. Repeated executions of
src/devices/fancy-node/fancy-node.cc:112-131 and src/devices/controller/controller.cpp:404-460. -/
def life (mask stored : U32) : List Start → Cpu
  | [] => Cpu.new stored
  | s :: h => s.run mask (life mask stored h)

end OptionBytes
end Firefly
