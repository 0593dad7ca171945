import Verif.Model.Basic

/-! # Device descriptions (lib/device) -/

namespace Firefly

/-- `enum StripFlag`, lib/device/StripDescription.hpp:7-16. -/
inductive StripFlag where
  | tiny | bright | dim | off | circular | mirrored | reversed | controller
  deriving DecidableEq, Repr

/-- The values of the enumerators, lib/device/StripDescription.hpp:8-15. -/
def StripFlag.value : StripFlag → U8
  | .tiny => 1
  | .bright => 2
  | .dim => 64
  | .off => 128
  | .circular => 4
  | .mirrored => 8
  | .reversed => 16
  | .controller => 32

/-- `class StripDescription`, lib/device/StripDescription.hpp:18-28. -/
structure Strip where
  count : U8
  flags : U8
  deriving DecidableEq, Repr

namespace Strip

/-- `StripDescription::StripDescription`, lib/device/StripDescription.cpp:6-10: the flags are
or-ed together as `int`s starting from 0 and stored in a `uint8_t` (all values fit). -/
def new (count : U8) (flags : List StripFlag) : Strip :=
  { count, flags := flags.foldl (fun acc f => acc ||| f.value) 0 }

/-- `StripDescription::FlagEnabled`, lib/device/StripDescription.cpp:12-14. -/
def flagEnabled (s : Strip) (f : StripFlag) : Bool := s.flags &&& f.value == f.value

end Strip

/-- `class DeviceDescription`, lib/device/DeviceDescription.hpp:15-37 (`check_value` belongs to
the flash format, see Model/Flash.lean). -/
structure Device where
  milliamps : U32
  strips : List Strip
  deriving DecidableEq, Repr

/-- `DeviceDescription::GetLedCount`, lib/device/DeviceDescription.cpp:11-17: summed in a
`uint16_t`, returned as a `uint8_t`. -/
def Device.getLedCount (d : Device) : U8 :=
  (d.strips.foldl (fun (acc : U16) s => acc + s.count.setWidth 16) 0).setWidth 8

namespace Devices

/-- `RF_BOARD_MA_SUPPORTED`, lib/device/Devices.hpp:9. -/
def rfBoardMaSupported : U32 := 2400 - 50

/-- `SimpleRfBoardDescription`, lib/device/Devices.hpp:11-17. -/
def simple (count : U8) (flags : List StripFlag) : Device :=
  ⟨rfBoardMaSupported, [Strip.new count flags]⟩

open StripFlag in
/-- The catalogue of devices, lib/device/Devices.hpp:19-81. -/
def catalogue : List (String × Device) := [
  ("bike", simple 30 [bright]),
  ("ben_s_bike", simple 28 [bright]),
  ("will_bike", simple 63 [bright]),
  ("scarf", simple 46 []),
  ("lantern", simple 5 [tiny]),
  ("puck", simple 12 [tiny, circular]),
  ("two_side_puck", simple 24 [tiny, circular, mirrored]),
  ("rainbow_cloak", ⟨rfBoardMaSupported, [Strip.new 11 [tiny, circular], Strip.new 94 [],
    Strip.new 11 [tiny, circular, reversed]]⟩),
  ("backpack_tail", simple 11 []),
  ("dan_jacket", simple 60 []),
  ("will_jacket", simple 56 []),
  ("will_bike_front", simple 27 [circular]),
  ("will_top_hat", simple 50 [circular]),
  ("bike_front", simple 18 [circular]),
  ("hex_light", simple 12 [circular, tiny]),
  ("half_matrix_panel", ⟨rfBoardMaSupported, [Strip.new 16 [], Strip.new 16 [reversed],
    Strip.new 16 [], Strip.new 16 [reversed], Strip.new 16 [], Strip.new 16 [reversed],
    Strip.new 16 [], Strip.new 16 [reversed]]⟩),
  ("backpack_rope", ⟨rfBoardMaSupported, [Strip.new 96 [dim], Strip.new 96 [dim, reversed]]⟩),
  ("ufo", ⟨rfBoardMaSupported, [Strip.new 12 [circular], Strip.new 16 [circular],
    Strip.new 12 [bright, circular], Strip.new 52 [dim, circular]]⟩),
  ("brooke_bike", ⟨rfBoardMaSupported, [Strip.new 15 [circular], Strip.new 19 [],
    Strip.new 16 [circular], Strip.new 33 [bright]]⟩),
  ("ross_backpack", ⟨rfBoardMaSupported, [Strip.new 13 [reversed], Strip.new 12 [],
    Strip.new 13 [reversed], Strip.new 12 []]⟩),
  ("whatever", simple 18 [circular])]

end Devices

end Firefly
