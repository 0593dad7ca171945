import Verif.Model.StateMachine

/-! # When the random numbers are seeded -/

namespace Firefly

/-- Power-up of a device. Its state machine is constructed first (src/devices/node/node.cpp:25,
src/devices/controller/controller.cpp:67, src/devices/trellis/trellis.ino:49), with the numbers `lib`
that the C library gives when nobody has seeded it. Then the LED manager is constructed
(node.cpp:78-90, controller.cpp:68, trellis.ino:51), and with it the firefly effect, which seeds the
numbers from an analog pin (lib/effect/FireflyEffect.cpp:5-10): from then on they are `seeded`.
`randomSeed` belongs to the Arduino core, which is not in the repository; `seeded` may be anything. -/
def powerUp (t₀ : U32) (lib seeded : Rand) (junk junk' : PType × Vector U8 58) : Node :=
  { Node.init t₀ lib junk junk' with rand := seeded }

end Firefly
