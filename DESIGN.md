# Formal model of candykingdom/firefly2 in Lean 4

## Layout

* `properties.jsonl` – the properties, in English.
* `lean/Verif/Model/*` – the model, function by function, each definition citing the source lines it models.
* `lean/Verif/Spec/*` – small specifications used in the theorem statements.
* `lean/Verif/Lemmas/*` – helper lemmas.
* `lean/Verif/Props/*` – the property theorems, each with a concrete case that meets its hypotheses.
* `MANIFEST.json` – property → theorem names and status.
* `seeded/LOG.jsonl` – experiments with wrong programs.

## Modelling conventions

* C++ unsigned integers of width n are `BitVec n` (`U8`, `U16`, `U32`); arithmetic wraps.
  Signed narrow integers are `BitVec n` read through `toInt`. Where C++ promotes to `int`, the
  model computes in `Int`/`Nat` and narrows explicitly where the C++ stores.
* Undefined behaviour and failed asserts are distinct outcomes: functions return
  `Except Fault α` with `Fault = assertFail | divByZero | outOfBounds | badShift`.
* Two build flavours: `Platform.host` (asserts enabled, `std::rand`-style `random`) and
  `Platform.arduino` (asserts compiled out, Arduino `random`).
* Randomness is an arbitrary stream of draws carried in the state; theorems quantify over it.
* Time is an input of every operation. `millis()` is constant within one radio tick, except in
  `Model/Clocked` (C154, C162), where every call has a value of its own; within a
  frame it may differ from LED to LED (`Frame.now`).
* Histories are lists of events or inductively defined runs; no theorem bounds their length.
* Where a property is false of the code, the English statement says so in a "(Refuted …)" clause,
  and the theorems prove both the part that holds and the failure.

## Trusted base

* **Lean's kernel** and its three standard axioms `propext`, `Classical.choice`, `Quot.sound`.
  The last section lists the axioms of each theorem. There are no other axioms, no `sorry`, no
  `native_decide`, no `bv_decide`. `decide +kernel` is used for closed finite facts (tables of
  palettes, the device catalogue, concrete examples); the kernel evaluates those itself.
* **The reading of the source**: each model definition cites the lines it models and names its
  simplifications. Nothing relates the C++ to the model mechanically.
* **FastLED** is not in the repository. The model takes it as a structure of functions
  (`Model/FastLED.lean`): sine and wave functions, `scale8`, `qadd8`, `lerp16by16`, `hsv2rgb`, the
  16-bit generator. Theorems hold for every such structure; the few that need a law of FastLED
  (for example `lerp16by16` stays between its ends) state it as a hypothesis
  (`FastLED.Lawful`), and `FastLED.reference` is a computable instance that satisfies all laws,
  so the hypotheses are not vacuous.
* **RadioHead, SPI, EEPROM/flash and option bytes, ADC, watchdog hardware** are represented by their documented
  effect: a frame is a list of bytes, erased flash is all ones, a program operation clears bits,
  an ADC reading is an arbitrary number.
* **Memory**: `vector::operator[]` and raw arrays are lists with an explicit bounds check that
  yields `outOfBounds`. Heap exhaustion, stack depth and alignment are not modelled.

## Modelled

| Source | Model |
|---|---|
| lib/radio/Radio.{hpp,cpp}, lib/types/Types.* | `Model/Packet`, `Model/Basic` |
| src/generic/NetworkManager.* | `Model/NetworkManager`, `Model/Mesh` |
| src/arduino/RadioHeadRadio.* | `Model/RadioHead` |
| src/generic/RadioStateMachine.* | `Model/StateMachine`, `Model/Clocked`, `Model/Seed` |
| lib/color/ColorPalette.* | `Model/Color` |
| lib/math/Math.*, Perlin.hpp | `Model/Math` |
| lib/device/* | `Model/Device`, `Spec/Devices` (catalogue) |
| lib/effect/* (all effects) | `Model/Effects` |
| lib/led_manager/*, src/arduino/FastLedManager.* | `Model/LedManager` |
| lib/battery/Battery.hpp, battery code of node, fancy-node and controller | `Model/Battery` |
| watchdog and bootloader code of node and controller, src/devices/controller/analog-button.*, buttons.* | `Model/Boot` |
| the boot option in `setup` of fancy-node and controller | `Model/OptionBytes` |
| src/devices/dmx/dmx.cpp | `Model/Dmx` |
| device description storage of node and fancy-node | `Model/Flash` |
| src/devices/controller/controller.cpp, leds.*, buttons.* | `Model/Controller` |
| src/devices/node/node.cpp, src/devices/fancy-node/fancy-node.cc (loops) | `Model/Board` |
| src/devices/trellis/trellis.ino | `Model/Trellis` |
| src/devices/remote/remote.ino | `Model/Button` |
| src/devices/range_test/range_test.cc | `Model/RangeTest` |
| lib/fake-radio/FakeRadio.cpp, lib/fake-led-manager/FakeLedManager.cpp | `Model/Fakes`, `Model/LedManager` |
| lib/simulator | `Model/Simulator` |
| test/FakeNetwork.*, test/RadioIntegrationTest.hpp | `Model/FakeNetwork` |
| networks of devices on the real radio (not in /repo) | `Model/HwNet` |
| installations of LED boards and other devices (not in /repo) | `Model/LightNet` |

## Not modelled

* lib/debug, the window library of the simulator and the tests other than the network they
  share: they are not part of what runs on a device.
* `hueToTrellisColor` and `keyIndexToHue` of the trellis, which nothing calls (the former lacks its `return`, so calling it would be undefined).
* Serial output, the hardware library of the key pad (its keys and lights are inputs and outputs), timing of `delay()` except
  in the start-up animation.
* C++ object lifetime beyond the LED manager's destructor (C83).

## Properties

One row per property: what is modelled, how it is proved, the outcome. "Refuted in part" means that the English statement names situations in which the claim fails, and that both the claim and the failure are theorems.

| Property | Model | Proof | Outcome |
|---|---|---|---|
| C01 Heartbeat time round-trips | `Model/Packet`: the 58-byte payload as a vector, the writers and readers byte by byte | computation on bytes; one lemma joins four bytes to a 32-bit word | proved |
| C02 Set-effect fields round-trip | `Model/Packet`: the 58-byte payload as a vector, the writers and readers byte by byte | computation on bytes; one lemma joins four bytes to a 32-bit word | proved |
| C03 Control fields round-trip | `Model/Packet`: the 58-byte payload as a vector, the writers and readers byte by byte | computation on bytes; one lemma joins four bytes to a 32-bit word | proved |
| C04 Packet equality is payload equality | `Model/Packet`: `operator==` | `memcmp` loop shown equal to equality of the first `length` bytes; reflexivity, symmetry, transitivity follow | proved |
| C05 Delivery is exactly 'id not among the last five recorded' | `Model/NetworkManager`: the circular buffer of five ids | refinement of the buffer to "last five of the history", by induction over histories | proved |
| C06 Every delivered packet is re-broadcast exactly once and unchanged; nothing else is | `Model/NetworkManager`: the circular buffer of five ids | refinement of the buffer to "last five of the history", by induction over histories | proved |
| C07 A duplicate id needs five intervening ids | `Model/NetworkManager`: the circular buffer of five ids | refinement of the buffer to "last five of the history", by induction over histories | proved |
| C08 A node never reacts to its own packet | `Model/NetworkManager`: the circular buffer of five ids | refinement of the buffer to "last five of the history", by induction over histories | proved |
| C09 Flooding terminates for up to five outstanding ids | `Model/Mesh`: n nodes, an arbitrary neighbour relation, an "air" of transmissions, arbitrary schedules of originate, hear, lose | invariants over reachable network states; C10 additionally a path argument | proved |
| C10 Flooding reaches every connected node | `Model/Mesh`: n nodes, an arbitrary neighbour relation, an "air" of transmissions, arbitrary schedules of originate, hear, lose | invariants over reachable network states; C10 additionally a path argument | proved |
| C11 Every flood of finitely many packets dies out | `Model/Mesh` | an infinite run of two nodes with six ids built from a two-step cycle | proved, refuted in part |
| C12 Originated ids are never mistaken for 'already seen' by a fresh node | `Model/NetworkManager.send` with both `random` functions | arithmetic on the range; a witness for the host | proved, refuted in part |
| C13 Radio framing round-trips | `Model/RadioHead`: frames as byte lists, buffer sizes explicit, out-of-range access a fault | list computation; the refutations hold for every packet of the named kind | proved |
| C14 Radio framing stays inside its buffers | `Model/RadioHead`: frames as byte lists, buffer sizes explicit, out-of-range access a fault | list computation; the refutations hold for every packet of the named kind | proved, refuted in part |
| C15 A relayed packet keeps its payload on hardware | `Model/RadioHead`: frames as byte lists, buffer sizes explicit, out-of-range access a fault | list computation; the refutations hold for every packet of the named kind | proved, refuted in part |
| C16 Master claims reach their peers on hardware | `Model/RadioHead`: frames as byte lists, buffer sizes explicit, out-of-range access a fault | list computation; the refutations hold for every packet of the named kind | proved, refuted in part |
| C17 No take-over before five seconds of silence | `Model/StateMachine`: one radio tick, timers as 32-bit deadlines | case lemmas per event, then induction over histories of events (`Spec/History`) | proved |
| C18 Take-over after seven seconds of silence | `Model/StateMachine`: one radio tick, timers as 32-bit deadlines | case lemmas per event, then induction over histories of events (`Spec/History`) | proved |
| C19 Regular heartbeats keep a slave a slave | `Model/StateMachine`: one radio tick, timers as 32-bit deadlines | case lemmas per event, then induction over histories of events (`Spec/History`) | proved |
| C20 Master heartbeat cadence | `Model/StateMachine`: one radio tick, timers as 32-bit deadlines | case lemmas per event, then induction over histories of events (`Spec/History`) | proved |
| C21 Only a claim or a lost election demotes a master | `Model/StateMachine`: one radio tick, timers as 32-bit deadlines | case lemmas per event, then induction over histories of events (`Spec/History`) | proved |
| C22 Two masters resolve to exactly one | `Model/StateMachine`, two and n nodes exchanging one heartbeat and all claims | induction over the list of nodes | proved |
| C23 A heartbeat heard by all leaves at most one other claimant per exchange and can leave none | `Model/StateMachine`, two and n nodes exchanging one heartbeat and all claims | induction over the list of nodes | proved |
| C24 Clock synchronisation is exact and wrap-safe | `Model/StateMachine`: clock offset | modular arithmetic, induction over histories | proved |
| C25 Network time only jumps on a heartbeat heard as slave | `Model/StateMachine`: clock offset | modular arithmetic, induction over histories | proved |
| C26 All slaves of a heartbeat agree with the sender | `Model/StateMachine`: clock offset | modular arithmetic, induction over histories | proved |
| C27 The displayed effect is the most recent instruction | `Model/StateMachine`: current instruction, `SetEffect` | induction over histories; C41 over n nodes | proved |
| C28 Randomly chosen effect and palette are in range and are what is broadcast | `Model/StateMachine`: current instruction, `SetEffect` | induction over histories; C41 over n nodes | proved |
| C29 A requested effect is held for the requested time | `Model/StateMachine`: rotation and repetition timers | invariants from the arming event up to the deadline; witnesses for the refuted boundary cases | proved |
| C30 After a requested effect the rotation resumes | `Model/StateMachine`: rotation and repetition timers | invariants from the arming event up to the deadline; witnesses for the refuted boundary cases | proved, refuted in part |
| C31 A new master keeps the rotation cadence | `Model/StateMachine`: rotation and repetition timers | invariants from the arming event up to the deadline; witnesses for the refuted boundary cases | proved, refuted in part |
| C32 Hearing the same effect again is not a change | `Model/StateMachine`: rotation and repetition timers | invariants from the arming event up to the deadline; witnesses for the refuted boundary cases | proved, refuted in part |
| C33 Arbitrary radio input never faults the Arduino build | `Model/StateMachine` on both builds with packets of arbitrary bytes | every operation shown total on Arduino; an exact abort condition for the host | proved |
| C34 The host build aborts exactly on malformed or mismatched packets | `Model/StateMachine` on both builds with packets of arbitrary bytes | every operation shown total on Arduino; an exact abort condition for the host | proved |
| C35 Bounded work per tick | `Model/StateMachine`: one radio tick, timers as 32-bit deadlines | case lemmas per event, then induction over histories of events (`Spec/History`) | proved |
| C36 A pending timer is never lost | `Model/StateMachine`: one radio tick, timers as 32-bit deadlines | case lemmas per event, then induction over histories of events (`Spec/History`) | proved |
| C37 Timers work at all clock values | `Model/StateMachine`: timers | arithmetic without wrap; constructed failures at the wrap and a starving flood | proved, refuted in part |
| C38 Local SetEffect takes effect at once and is announced | `Model/StateMachine`: current instruction, `SetEffect` | induction over histories; C41 over n nodes | proved |
| C39 A colour request holds for its delay | `Model/StateMachine`: current instruction, `SetEffect` | induction over histories; C41 over n nodes | proved, refuted in part |
| C40 Master repeats the current instruction every two seconds | `Model/StateMachine`: rotation and repetition timers | invariants from the arming event up to the deadline; witnesses for the refuted boundary cases | proved |
| C41 All nodes converge to the broadcast instruction | `Model/StateMachine`: current instruction, `SetEffect` | induction over histories; C41 over n nodes | proved |
| C42 A packet flood starves the timers | `Model/StateMachine`: timers | arithmetic without wrap; constructed failures at the wrap and a starving flood | proved, refuted in part |
| C43 Palette lookup wraps | `Model/Color`: palettes with `lerp16by16` as a parameter under its contract | arithmetic; refutations by concrete palettes | proved |
| C44 Gradient lookup is total for palettes of up to 255 colours | `Model/Color`: palettes with `lerp16by16` as a parameter under its contract | arithmetic; refutations by concrete palettes | proved |
| C45 Gradient hits its colours exactly | `Model/Color`: palettes with `lerp16by16` as a parameter under its contract | arithmetic; refutations by concrete palettes | proved |
| C46 Gradient saturation and value stay between the two neighbouring colours | `Model/Color`: palettes with `lerp16by16` as a parameter under its contract | arithmetic; refutations by concrete palettes | proved |
| C47 Gradient hue takes the shorter way round | `Model/Color`: palettes with `lerp16by16` as a parameter under its contract | arithmetic; refutations by concrete palettes | proved, refuted in part |
| C48 A wrapping gradient closes | `Model/Color`: palettes with `lerp16by16` as a parameter under its contract | arithmetic; refutations by concrete palettes | proved, refuted in part |
| C49 Mirroring is symmetric and in range | `Model/Math` | arithmetic; range of the noise intermediates by interval reasoning | proved |
| C50 Circle position | `Model/Math` | arithmetic; range of the noise intermediates by interval reasoning | proved, refuted in part |
| C51 Strip flags are exactly the ones listed | `Model/Device` | bit lemmas, induction over lists; the catalogue is a finite table checked by the kernel | proved |
| C52 LED count is the sum of the strips | `Model/Device` | bit lemmas, induction over lists; the catalogue is a finite table checked by the kernel | proved, refuted in part |
| C53 Every LED is written exactly once per frame with its own colour | `Model/LedManager.runEffect` over an abstract LED output | loop invariant: written prefix = specified colours of the first k LEDs | proved |
| C54 Frame rendering stays inside the LED buffer | `Model/LedManager.runEffect` over an abstract LED output | loop invariant: written prefix = specified colours of the first k LEDs | proved, refuted in part |
| C55 The effect registry round-trips | `Model/LedManager`: effect registry | refinement of the index vectors to the list of registrations, by induction over `AddEffect` calls | proved |
| C56 Effect lookup is total on Arduino | `Model/LedManager`: effect registry | refinement of the index vectors to the list of registrations, by induction over `AddEffect` calls | proved |
| C57 The shipped registry | `Model/LedManager`: effect registry | refinement of the index vectors to the list of registrations, by induction over `AddEffect` calls | proved |
| C58 Effects are total on valid input | `Model/Effects` and `Model/LedManager` | case analysis per effect, arithmetic; C60 also independence of the generator state | proved |
| C59 A radio packet cannot make rendering read outside the palette table | `Model/Effects` and `Model/LedManager` | case analysis per effect, arithmetic; C60 also independence of the generator state | proved, refuted in part |
| C60 Synchronised nodes show the same picture | `Model/Effects` and `Model/LedManager` | case analysis per effect, arithmetic; C60 also independence of the generator state | proved |
| C61 Stop light shows exactly one phase, in the right order | `Model/Effects`, FastLED a parameter with recorded laws | per-effect arithmetic over all times and LED positions | proved |
| C62 Blink duty cycle | `Model/Effects`, FastLED a parameter with recorded laws | per-effect arithmetic over all times and LED positions | proved |
| C63 Spark lights at most eight neighbouring LEDs | `Model/Effects`, FastLED a parameter with recorded laws | per-effect arithmetic over all times and LED positions | proved |
| C64 Fireflies synchronise | `Model/Effects`, FastLED a parameter with recorded laws | per-effect arithmetic over all times and LED positions | proved |
| C65 Brightness limits on strips not marked bright | `Model/Effects`, FastLED a parameter with recorded laws | per-effect arithmetic over all times and LED positions | proved, refuted in part |
| C66 Contrast bumps never go dark | `Model/Effects`, FastLED a parameter with recorded laws | per-effect arithmetic over all times and LED positions | proved |
| C67 Rorschach is symmetric | `Model/Effects`, FastLED a parameter with recorded laws | per-effect arithmetic over all times and LED positions | proved |
| C68 Pride fades between neighbouring stripe colours | `Model/Effects`, FastLED a parameter with recorded laws | per-effect arithmetic over all times and LED positions | proved, refuted in part |
| C69 Noise stays in range and ignores the random generator's state | `Model/Math` | arithmetic; range of the noise intermediates by interval reasoning | proved |
| C70 Threshold sine stays in range | `Model/Effects`, FastLED a parameter with recorded laws | per-effect arithmetic over all times and LED positions | proved |
| C71 Mirrored strips render symmetrically | `Model/Effects`, FastLED a parameter with recorded laws | per-effect arithmetic over all times and LED positions | proved |
| C72 Colour instruction | `Model/Effects`, FastLED a parameter with recorded laws | per-effect arithmetic over all times and LED positions | proved |
| C73 Controller selections stay valid and navigation is cyclic | `Model/Controller`: the whole loop of the hand-held controller | invariants over runs of `loop`; refinement of its radio part to the network state machine | proved |
| C74 What the controller broadcasts is what it displays | `Model/Controller`: the whole loop of the hand-held controller | invariants over runs of `loop`; refinement of its radio part to the network state machine | proved, refuted in part |
| C75 Controller LED layout | `Model/Controller`: the whole loop of the hand-held controller | invariants over runs of `loop`; refinement of its radio part to the network state machine | proved |
| C76 Low-battery hysteresis | `Model/Battery`; `Spec/Sleep` | invariant over reading sequences; arithmetic; for the programs, the history of readings determines whether they sleep | proved |
| C77 Battery gauge | `Model/Battery`; `Spec/Sleep` | invariant over reading sequences; arithmetic; for the programs, the history of readings determines whether they sleep | proved, refuted in part |
| C78 DMX gateway never loses a colour change | `Model/Dmx` | induction over loop iterations | proved, refuted in part |
| C79 Stored device description survives power loss and is not worn out | `Model/Flash`: the sequence of erase and program operations with a crash after any prefix | induction over the prefix | proved, refuted in part |
| C80 Bootloader entry needs a deliberate double reset | `Model/Boot`: bootloader entry, watchdog, buttons | invariants over histories | proved |
| C81 Watchdog is fed regularly | `Model/Boot`: bootloader entry, watchdog, buttons | invariants over histories | proved |
| C82 Analog buttons report edges exactly | `Model/Boot`: bootloader entry, watchdog, buttons | invariants over histories | proved |
| C83 Tear-down frees every effect once | `Model/LedManager`: effect registry | refinement of the index vectors to the list of registrations, by induction over `AddEffect` calls | proved, refuted in part |
| C84 Start-up animation | `Model/LedManager.FastLedManager.startup` | loop invariants; arithmetic for the duration | proved, refuted in part |
| C85 Controller colour mode | `Model/Controller`: the whole loop of the hand-held controller | invariants over runs of `loop`; refinement of its radio part to the network state machine | proved |
| C86 Controller palette mode | `Model/Controller`: the whole loop of the hand-held controller | invariants over runs of `loop`; refinement of its radio part to the network state machine | proved, refuted in part |
| C87 Controller lamps | `Model/Controller`: the whole loop of the hand-held controller | invariants over runs of `loop`; refinement of its radio part to the network state machine | proved, refuted in part |
| C88 Controller status lights | `Model/Controller`: the whole loop of the hand-held controller | invariants over runs of `loop`; refinement of its radio part to the network state machine | proved |
| C89 Controller effect display | `Model/Controller`: the whole loop of the hand-held controller | invariants over runs of `loop`; refinement of its radio part to the network state machine | proved |
| C90 A controller low on battery is silent | `Model/Controller`: the whole loop of the hand-held controller | invariants over runs of `loop`; refinement of its radio part to the network state machine | proved, refuted in part |
| C91 The controller program is free of undefined behaviour | `Model/Controller`: the whole loop of the hand-held controller | invariants over runs of `loop`; refinement of its radio part to the network state machine | proved |
| C92 The controller is a network device | `Model/Controller`: the whole loop of the hand-held controller | invariants over runs of `loop`; refinement of its radio part to the network state machine | proved |
| C93 The LED boards are network devices | `Model/Board`: the loops of node.cpp and fancy-node.cc on the real radio, LEDs and battery | refinement of the radio part to the network state machine; invariants over runs of `loop`; the rendering theorems of C54-C58 | proved |
| C94 Harmless radio traffic never brings a board down | `Model/Board`: the loops of node.cpp and fancy-node.cc on the real radio, LEDs and battery | refinement of the radio part to the network state machine; invariants over runs of `loop`; the rendering theorems of C54-C58 | proved, refuted in part |
| C95 A board shows its current instruction | `Model/Board`: the loops of node.cpp and fancy-node.cc on the real radio, LEDs and battery | refinement of the radio part to the network state machine; invariants over runs of `loop`; the rendering theorems of C54-C58 | proved |
| C96 A fancy node low on battery | `Model/Board`: the loops of node.cpp and fancy-node.cc on the real radio, LEDs and battery | refinement of the radio part to the network state machine; invariants over runs of `loop`; the rendering theorems of C54-C58 | proved |
| C97 On the hardware only direct neighbours are heard | `Model/HwNet`: any number of devices exchanging frames, any topology, schedule and loss | network invariant (every frame on the air encodes a transmission, every reception decodes such a frame), induction over histories; an explicit unbounded execution for the refutation | proved |
| C98 On the hardware an instruction travels one hop | `Model/HwNet`: any number of devices exchanging frames, any topology, schedule and loss | network invariant (every frame on the air encodes a transmission, every reception decodes such a frame), induction over histories; an explicit unbounded execution for the refutation | proved |
| C99 Two masters in reach on the hardware | `Model/HwNet`: any number of devices exchanging frames, any topology, schedule and loss | network invariant (every frame on the air encodes a transmission, every reception decodes such a frame), induction over histories; an explicit unbounded execution for the refutation | proved, refuted in part |
| C100 Effects repeat | `Model/Effects`: the clock arithmetic of all effects | the effect depends on the clock only through quantities shown to agree after one period; witnesses for the overflow | proved, refuted in part |
| C101 Swinging lights | `Model/Effects`: one function per effect; `Spec/Motion`: the patterns in unbounded arithmetic | case analysis on strip flags, wrap-around arithmetic reduced to natural numbers, induction over the lights of a palette, gradient theorems C43-C47 | proved |
| C102 Lightning is bright or dark | `Model/Effects`: one function per effect; `Spec/Motion`: the patterns in unbounded arithmetic | case analysis on strip flags, wrap-around arithmetic reduced to natural numbers, induction over the lights of a palette, gradient theorems C43-C47 | proved |
| C103 The rainbow travels | `Model/Effects`: one function per effect; `Spec/Motion`: the patterns in unbounded arithmetic | case analysis on strip flags, wrap-around arithmetic reduced to natural numbers, induction over the lights of a palette, gradient theorems C43-C47 | proved |
| C104 Palette display | `Model/Effects`: one function per effect; `Spec/Motion`: the patterns in unbounded arithmetic | case analysis on strip flags, wrap-around arithmetic reduced to natural numbers, induction over the lights of a palette, gradient theorems C43-C47 | proved |
| C105 Fire is red to yellow | `Model/Effects`: one function per effect; `Spec/Motion`: the patterns in unbounded arithmetic | case analysis on strip flags, wrap-around arithmetic reduced to natural numbers, induction over the lights of a palette, gradient theorems C43-C47 | proved |
| C106 Fireflies glow half of the time | `Model/Effects`: one function per effect; `Spec/Motion`: the patterns in unbounded arithmetic | case analysis on strip flags, wrap-around arithmetic reduced to natural numbers, induction over the lights of a palette, gradient theorems C43-C47 | proved |
| C107 Bumps | `Model/Effects`: one function per effect; `Spec/Motion`: the patterns in unbounded arithmetic | case analysis on strip flags, wrap-around arithmetic reduced to natural numbers, induction over the lights of a palette, gradient theorems C43-C47 | proved |
| C108 Police lights | `Model/Effects`: one function per effect; `Spec/Motion`: the patterns in unbounded arithmetic | case analysis on strip flags, wrap-around arithmetic reduced to natural numbers, induction over the lights of a palette, gradient theorems C43-C47 | proved |
| C109 Colour cycle | `Model/Effects`: one function per effect; `Spec/Motion`: the patterns in unbounded arithmetic | case analysis on strip flags, wrap-around arithmetic reduced to natural numbers, induction over the lights of a palette, gradient theorems C43-C47 | proved |
| C110 A settled network keeps its master | `Model/HwNet`: steps of a network from a state with one master and a quiet air; `Spec/Stability` | invariant over the steps (roles, air, receptions since that state), with C17-C19 for the slaves and C97-C99 for what can be heard; C24 for the clocks | proved |
| C111 In a settled network the clocks agree | `Model/HwNet`: steps of a network from a state with one master and a quiet air; `Spec/Stability` | invariant over the steps (roles, air, receptions since that state), with C17-C19 for the slaves and C97-C99 for what can be heard; C24 for the clocks | proved |
| C112 In a settled network the master directs the show | `Model/HwNet`: steps of a network from a state with one master and a quiet air; `Spec/Stability` | invariant over the steps (roles, air, receptions since that state), with C17-C19 for the slaves and C97-C99 for what can be heard; C24 for the clocks | proved |
| C113 The shape of the spark | `Model/Effects`, `Model/Math`; `Spec/Shapes`: the patterns in unbounded arithmetic | wrap-around arithmetic reduced to natural numbers; a witness for the seam in the middle | proved |
| C114 The Rorschach pattern | `Model/Effects`, `Model/Math`; `Spec/Shapes`: the patterns in unbounded arithmetic | wrap-around arithmetic reduced to natural numbers; a witness for the seam in the middle | proved, refuted in part |
| C115 An installation is a network of boards | `Model/LightNet`: any number of boards and other devices; `Spec/Show` | simulation of each iteration of a board by steps of the network; then C110-C112 for what a slave knows, C95 for what a board shows and the rendering theorems for equal pictures | proved |
| C116 In a settled installation the LEDs follow the master | `Model/LightNet`: any number of boards and other devices; `Spec/Show` | simulation of each iteration of a board by steps of the network; then C110-C112 for what a slave knows, C95 for what a board shows and the rendering theorems for equal pictures | proved |
| C117 Boards of the same kind show the same | `Model/LightNet`: any number of boards and other devices; `Spec/Show` | simulation of each iteration of a board by steps of the network; then C110-C112 for what a slave knows, C95 for what a board shows and the rendering theorems for equal pictures | proved |
| C118 A lost master is replaced | `Model/HwNet`, `Spec/Recovery`: steps of a network none of whose running devices is master | without a promotion all running devices stay slaves, so no heartbeat is sent and none is heard (C97); then the time-out of C17 | proved |
| C119 A colour chosen on the controller appears on the boards | `Model/Controller`, `Model/Dmx`, `Model/RadioHead`, `Model/Board`; `Spec/Remote` | composition: what the remote control transmits (C74, C78, C85, C86), the encoding and decoding of frames (C13), what a node does with a new instruction (C27) and what a board shows (C95) | proved |
| C120 An effect or palette chosen on the controller appears on the boards | `Model/Controller`, `Model/Dmx`, `Model/RadioHead`, `Model/Board`; `Spec/Remote` | composition: what the remote control transmits (C74, C78, C85, C86), the encoding and decoding of frames (C13), what a node does with a new instruction (C27) and what a board shows (C95) | proved |
| C121 A colour on the DMX bus appears on the boards | `Model/Controller`, `Model/Dmx`, `Model/RadioHead`, `Model/Board`; `Spec/Remote` | composition: what the remote control transmits (C74, C78, C85, C86), the encoding and decoding of frames (C13), what a node does with a new instruction (C27) and what a board shows (C95) | proved |
| C122 The flames | `Model/Effects`, `Spec/Shapes`: the two places of the noise field an LED reads | the 32-bit coordinates are the given integers modulo 2^32 in each of the four layouts | proved, refuted in part |
| C123 The noise is smooth | `Model/Math`; `Spec/Smooth`: the easing curve of the library rises by at most 2 per step (proved of the reference library) | interpolation is Lipschitz up to rounding; at the border of a tile the easing curve has reached its end, and the corners of the next tile have the same hash, also after the wrap since the hash has 16 bits | proved |
| C124 The pages of the key pad | `Model/Trellis`: the loop and the key handler of the pad; `Spec/Trellis` | refinement of the radio part to the network state machine, invariants over runs of `loop`; composition with C13, C27 and C95 for the boards; witnesses for the refutations | proved, refuted in part |
| C125 The keys of the key pad | `Model/Trellis`: the loop and the key handler of the pad; `Spec/Trellis` | refinement of the radio part to the network state machine, invariants over runs of `loop`; composition with C13, C27 and C95 for the boards; witnesses for the refutations | proved, refuted in part |
| C126 What is chosen on the key pad appears on the boards | `Model/Trellis`: the loop and the key handler of the pad; `Spec/Trellis` | refinement of the radio part to the network state machine, invariants over runs of `loop`; composition with C13, C27 and C95 for the boards; witnesses for the refutations | proved |
| C127 What the keys of the key pad show | `Model/Trellis`: the loop and the key handler of the pad; `Spec/Trellis` | refinement of the radio part to the network state machine, invariants over runs of `loop`; composition with C13, C27 and C95 for the boards; witnesses for the refutations | proved, refuted in part |
| C128 Which frames a device takes for new | `Model/StateMachine`, `Model/Board`; `Spec/Memory` | invariant over histories: the memory of the mesh layer represents the ids of what was sent | proved |
| C129 The one-button remote | `Model/Button`, `Model/RangeTest`; `Spec/RangeTest` | induction over the iterations; C128 and C95 for the boards | proved, refuted in part |
| C130 The range tester | `Model/Button`, `Model/RangeTest`; `Spec/RangeTest` | induction over the iterations; C128 and C95 for the boards | proved |
| C131 The test radio | `Model/Fakes`; `Spec/Fakes` | induction over sequences of calls; C128 for the state machine, C54 and C83 for the LEDs | proved, refuted in part |
| C132 The test LEDs | `Model/Fakes`; `Spec/Fakes` | induction over sequences of calls; C128 for the state machine, C54 and C83 for the LEDs | proved |
| C133 Wiring does not change the picture | `Model/Effects`, `Model/LedManager`, `Model/Device`; `Spec/Wiring` | case analysis over the effects; the four layouts by checking all pairs of LEDs of the table | proved |
| C134 Each palette keeps its colours | `Model/Effects`, `Model/Color`; `Spec/Themes` | C46 and C47 for the gradients; the table by checking all pairs of neighbouring colours and all hues | proved |
| C135 The test network distributes packets | `Model/FakeNetwork`; `Spec/FakeNetwork` | induction over the loop of Tick (the devices are independent within one); equality of everything but the staged packets, by induction over the calls | proved |
| C136 Helpers of the integration tests that do nothing | `Model/FakeNetwork`; `Spec/FakeNetwork` | induction over the loop of Tick (the devices are independent within one); equality of everything but the staged packets, by induction over the calls | proved, refuted in part |
| C137 The test network elects one master | `Model/FakeNetwork`; `Spec/FakeNetwork` (`Course`, `OnlyMaster`) | invariants for the phases of the run (nobody master; contest, in which each Tick removes a claim from the queue; one master, where each slave hears a heartbeat before its timeout), with a count of the packets waiting; refutation by computing 40 Ticks | proved, refuted in part |
| C138 What the election tests check, for all random numbers | `Model/FakeNetwork`; `Spec/FakeNetwork` (`Course`, `OnlyMaster`) | invariants for the phases of the run (nobody master; contest, in which each Tick removes a claim from the queue; one master, where each slave hears a heartbeat before its timeout), with a count of the packets waiting; refutation by computing 40 Ticks | proved |
| C139 Three lost heartbeats in a row do no harm | `Model/HwNet`, `Model/StateMachine`; `Spec/Timeline` | induction over the steps with the time of the last heartbeat sent and of the last sign heard; the heartbeat timer bounds the distance of heartbeats by 1001 + D; refutation by computing a run of three devices | proved, refuted in part |
| C140 Clocks agree within the latency | `Model/HwNet`, `Model/StateMachine`; `Spec/Timeline` | induction over the steps with the time of the last heartbeat sent and of the last sign heard; the heartbeat timer bounds the distance of heartbeats by 1001 + D; refutation by computing a run of three devices | proved |
| C141 The test network never aborts | `Model/FakeNetwork`; `Spec/FakeNetwork` (`Regular`) | an invariant of the network (every packet waiting is regular, every device knows 27 effects and 22 palettes) over all calls | proved |
| C142 Everybody follows the master in bounded time | `Model/HwNet`, `Model/StateMachine`; `Spec/Timeline` (`Steady`, `OneOf`, `Recent`) | three quiet iterations of a master whose repetition is due contain a repetition, whatever happens in between; so K repetitions in K (2003 + 3 D) ms; the last instruction heard was sent by the master, after the moment | proved |
| C143 The simulator | `Model/Simulator`; `Spec/Simulator` | arithmetic; induction over the rounds of the loop with C109 and the frame lemmas of C54 | proved |
| C144 A network without a master settles | the network of C91 in real time; `Spec/Settling` | induction over the steps: no other device turned master so far, hence the first one was not demoted (heartbeats come from masters only), hence it sends heartbeats at most 1001 + D ms apart, hence nobody else waits 5000 ms without a sign of it | proved, refuted in part |
| C145 Every board shows the master's picture in bounded time | the network of C91 in real time, with the board model as one device; `Spec/Show`, `Spec/Timeline` | combines C142 (what the device follows), C140 (its clock) and the LED theorem of one board; the concrete case follows the board and the device of the network step by step | proved |
| C146 Devices of the test network may be reset | `Model/FakeNetwork`; `Spec/FakeReset` (`Resets`, `ResetCourse`) | invariants for four phases (no master, claims in contest, a fresh master, a firm one), with a count of the packets that can still prolong the timeout of a slave: each packet number passes each device once; the spacing of the resets makes that count run out | proved |
| C147 The test network agrees on the effect | `Model/FakeNetwork`; `Spec/FakeAgree` (`SameOrder`) | the invariant of C137 extended by the way of one instruction (due, waiting in the radio of the master, on its way, heard by all); the number of packets that can be taken before it bounds the delay; the change timer by induction over the Ticks; a run of hours by induction with ever larger packet numbers | proved, refuted in part |
| C148 Packet loss in the test network | `Model/FakeNetwork`; `Spec/FakeLoss` (`LossCourse`, `AnyCourse`, `LostOn`, `Beats`) | the invariant of C146 for a firm master without what depends on delivery: the count of packets that can still be sent shrinks with every packet taken, heard or not; deadlines of slaves by a history of heartbeats and resets; the deaf device by induction over the Ticks from the bound on its deadline | proved, refuted in part |
| C149 The test network recovers from several masters | `Model/FakeNetwork`; `Spec/FakeHeal` (`HealCourse`, `TellsEffect`) | an invariant for networks with any number of masters (a packet on its way is news to all but its sender or still to be passed on by a shrinking number of devices); a measure for the contest of claims, by which each claim heard removes a master or replaces the claim by a better one; then the invariant of a single master | proved, refuted in part |
| C150 The palette display shows the listed colours | `Model/Effects`, `Model/Color`; `Spec/Gallery` (`paletteColours`) | the gradient depends on FastLED only by an interpolation whose result is laid down; at the positions in question the interpolation has not yet left the colour, checked for each of the 22 palettes; times, strips and packets by proof | proved |
| C151 The shipped devices | `Model/Device`; `Spec/Gallery` (`shipped`) | comparison of the two tables, flag by flag | proved |
| C152 How soon a change of effect is followed, and what the effect tests see | `Model/FakeNetwork`; `Spec/FakeNetwork`, `Spec/FakeAgree` | the way of one packet through the network as in C147, from a quiet moment; the timetable of the master by induction over the Ticks (heartbeats and repetitions coincide with a change only after half an hour); a network whose master was reset stays silent until a deadline | proved, refuted in part |
| C153 Where a choice has to be entered | `Model/HwNet`; `Spec/Timeline`, `Spec/Chosen` (`LastOnMaster`, `LastByRadio`, `heldFor`) | the rotation timer of the master holds its instruction until the time named (as in C29); then C142; for a choice heard by radio the packet has length 0, so the frames of its repetitions have no payload and are dropped by every receiver | proved, refuted in part |
| C154 The timing promises survive a clock that advances during a tick | `Model/Clocked` (a reading for each call of `millis()` in `RadioTick`); `Spec/Clocked` | complete case analysis of a tick; a packet other than a heartbeat heard by a slave makes at most one reading matter, so `Model/StateMachine` is reused; invariants of the heartbeat timer by induction over the history | proved |
| C155 A second master does not last | `Model/StateMachine` (Arduino build); `Spec/Odds`: draws as a finite uniform space, an adaptive adversary that chooses each step from the earlier draws | an injection from the draws that win an election into those that lose it; the sum over outcomes of 2 to the number of heartbeats survived never grows; Markov bound | proved |
| C156 A new packet is seldom taken for an old one | `Model/NetworkManager`, `Model/StateMachine` (Arduino build); `Spec/Odds`: `missed` counts the packets an adaptive adversary sends that are not heard | at most five of the ids are in the cache whatever the state; linearity of the mean over the steps by induction; Markov bound | proved |
| C157 The rotation of effects is fair | `Model/StateMachine` (Arduino build) with the draws of `Spec/Odds` | whether the tick changes the effect does not depend on the draws; the two draws modulo the counts are uniform and independent | proved |
| C158 Two slaves seldom take over at the same time | `Model/StateMachine` (Arduino build); `Spec/Odds`: devices on a common clock | the timer set on hearing the packet is exact; for a pair fix all other draws and count a window of residues; union bound over pairs | proved |
| C159 The first time-out after power-up is the same on all devices | `Model/Seed`: construction order of state machine and LED manager; `Model/StateMachine` | the timer set by the constructor is kept as long as nothing is heard, by induction over the history | proved, refuted in part |
| C160 When the master falls silent, one slave takes over | `Model/StateMachine` (Arduino build), n devices; `Spec/Silence`: timed schedules with bounded gaps | invariant before and after the take-over (nothing on the air; then only packets the new master remembers), by induction over the schedule; the odds from C158 | proved |
| C161 An election between two masters is a nearly fair coin | `Model/StateMachine` (Arduino build), `Model/Random`; `Spec/Duel`: a heartbeat and its answer | case analysis of the three ticks gives who is master as a function of the two numbers drawn; then counting over all pairs of numbers | proved |
| C162 Rotation and repetition on a clock that advances while the code runs | `Model/Clocked`: one reading per call of millis(); `Spec/ClockedRotation` | case analysis of a tick with separate readings; the timers lie between deadlines counted from the beginning and the end of the step; induction over the undisturbed history | proved, refuted in part |
| C163 What a device does when its clock wraps around | `Model/StateMachine` with 32-bit times and no assumption on the clock; `Spec/Wrap` | a deadline beyond the end of the count is a small number, so it counts as past until the wrap-around; induction over the silent ticks keeps the timer small; a timer that is 0 or not reached stays so | proved, refuted in part |
| C164 The picture when the network clock wraps around | `Model/Effects` at times `n mod 2^32` for unbounded `n` | from C100 by induction on the number of periods; one witness of a jump per remaining effect | proved, refuted in part |
| C165 A slave that is kept informed seldom takes over | `Op.step` with supplied draws, `Spec.missed`, a plan with `KeptInformed` | a row of missed signs of life weighs 5^(4-c) * 65533^c; the expected weight grows by at most 5^4 per sign of life; while the row is shorter than four the time-out is not due (`Lemmas/Informed`) | proved |
| C166 Floods of a few packets almost always reach everyone | `Model/Mesh` with the draws of the originated ids (`Spec.DrawnFlood`) | the ids are distinct for all but the stated share of draws (union bound over pairs); then C10 | proved |
| C167 The boot option of the processor settles and is written at most once | `Model/OptionBytes`: locks, register and option bytes of the processor as documented; the accesses of `setup`; interruption after any of them | case analysis of one start; invariants over histories of starts | proved |
| C168 Gradients change gradually | palette gradient and effects as in `Model/Color` and `Model/Effects` | the gradient is the polygon through its (unrolled) colours up to rounding; the polygon is Lipschitz | proved |
| C169 Switching on a board | `setup` of both LED boards as a sequence of frames with durations (`Model/Setup`) | evaluation of `setup` on top of C84; the armed time-out is followed through the first iterations of `loop` | proved, refuted in part |
| C170 Switching on the controller | `setup` of the controller as a sequence of frames with durations (`Model/ControllerSetup`) | evaluation of `setup`; the armed time-out is followed through the first iterations of `loop` | proved, refuted in part |
| C171 How often an LED flashes | the effects as they are, asked for their colour at the times of any sequence of frames | between two frames of which the first is dark and the second lit a round counter must advance; induction over the frames | proved |
| C172 From power-on to the common picture | the network of C91 in real time from a state without a master; `Spec/Settling`, `Spec/Timeline`, `Spec/Show` | C144 gives that one device leads from the moment it turned master and all others are slaves; the arguments of C142, C140 and C145 are carried out with that instead of a settled network | proved |
| C173 Odds in a network of any number of devices | the networked device of C01 ff, n of them, in rounds with the draws of each device and of the sender of the packet; `Spec/Crowd` | for one device a weight (131066/65543)^beats of the outcomes in which it stayed master does not grow on average; the outcomes of a network are split into those of one device and the draws of the others; union bound over the devices | proved |
| C174 Several masters become one | the rounds of C173; `Spec/Winnow` | a heartbeat that reaches all other masters leaves on average at most 65543/131066 of the masters but one, so that number times (131066/65543)^rounds does not grow on average, nor does it plus a charge for each such round; a master that is reached by no heartbeat and no claim stays one | proved |
| C175 A network settles on one master | the rounds of C173; `Spec/Settle` | the potential of C165 (weight of the row of missed signs plus that of the signs still to come) at the level of the network, with a row of 0 while the device is a master; a master that yields has a time-out of at least 5000 ms; then C174 and the union bound | proved |
| C176 The rotation shows all effects | the device and its draws as in C155; `Spec/Variety` | a weight ((E*P)/B)^changes of the outcomes in which no pair of the set came up does not grow on average: C157 for the step in which the effect is changed; union bound over the effects or pairs | proved |
| C177 How much a device transmits | the networked device of C01 ff; `Spec/Traffic` | each step transmits at most what its cause allows; own heartbeats are more than 1000 ms apart (C20), take-overs more than 5000 ms; repetitions and choices are bounded by induction over the steps with the deadlines of their timers | proved |
| C178 How busy the channel is | the network of C97 ff; `Spec/Channel` | only transmissions with a payload are heard; slaves make such only on request; so slaves hear at most what the master transmits and the requests; the master is bounded by C177 and hears only requests; sum over the devices | proved |
| C179 The network time survives changes of master | the network of C97 ff on the common time of C142 ff; `Spec/Handover` | invariant by induction over the rounds: masters are at most A + T L behind, also when each heartbeat was sent, other devices in tune L more; a heartbeat heard carries the network time of a master at most L ms before | proved |
| C180 The show keeps its pace, and devices look alike | as C179; the effects and gradients of C168 | C179 at two moments or for two devices; gradients change gradually (C168), for any number of 16 ms steps | proved |
| C181 An installation does not bring itself down | the installation of C115 ff; `Spec/Unbroken` | invariant by induction over the steps of the network: the instruction of every device is bare or complete and names one of 22 palettes, and so does every frame on the air; boards then never fault by C94; the controller by induction over its iterations | proved, refuted in part |

## Findings about the code

The refuted clauses, in one place.

* C11: with six ids in flight two neighbours can re-broadcast for ever.
* C12: the host `random` can yield id 0, which a fresh node ignores.
* C14: a received frame of 62 to 64 bytes overflows the payload.
* C15, C16: on hardware the receive path leaves the length 0, so relays carry no payload and are dropped; claims never arrive.
* C23: a heartbeat among several masters can leave none.
* C30, C31: a delay of 0, or becoming master exactly 60000 ms after the last change, stops the rotation for the reign.
* C32: effect numbers from 128 on count as changed on every repetition (signed byte).
* C37: timers fail when the 32-bit clock wraps; a deadline of exactly 0 disables the timer.
* C39: `SetEffect` with a control packet uses the red channel as the delay (Arduino) or aborts (host).
* C42: a packet in every tick starves all timers.
* C44, C47, C48: division by zero from 256 colours; the longer arc at hue distance 127; a wrapping gradient closes only up to 17 colours.
* C50: the circle radius wraps from 51 LEDs.
* C52, C54: LED counts above 255 wrap and then frames write outside the buffer.
* C59: a palette index of 22 or more from the network reads outside the palette table.
* C65: two effects exceed the brightness limit on some strips.
* C68: the first pride stripe fades from the fourth colour.
* C74, C86, C87, C90: controller: after palette or colour mode a broadcast can carry the wrong effect; lamps of the right buttons follow the left ones; the low-battery light stays on after recovery in a direct mode.
* C77: above full the battery gauge shows red.
* C78: the DMX repetition can pause when the clock wraps.
* C79: an erase torn half-way can leave a description that passes the check.
* C83: from 257 slots on the destructor deletes an effect twice.
* C94: one well-formed frame with a palette number of 22 or more crashes every slave in reach.
* C97, C98, C99: on the hardware nothing travels more than one hop, and two masters in reach can stay masters.
* C114: the middle LED of the Rorschach pattern reads the noise far away from its neighbours.
* C122: the first LED of the second half of a mirrored circle burns like its neighbour.
* C124, C125, C127: key pad: paging to the left works only if the number of pages divides 256; while it follows a colour its keys transmit the delay and the green part as effect and palette, and showing effects reads outside the palette table if the green part is 22 or more.
* C129: all frames of the one-button remote have number 0, which fresh boards ignore, and each board ignores until it has transmitted five others.
* C131, C136: the test radio presents the staged packet again after five transmissions; `TransmitPacket` of the test network reaches nobody, and `resetMaster` looks only at the first device.
* C137: devices that draw the same packet numbers both stay master.
* C139: a fourth lost heartbeat in a row makes a second master.
* C147: until its first change of effect the master's `GetEffectIndex` says 0 while it and all others follow effect 1; the test `setEffectIndex` compares the devices 3 ms after a change, when nothing guarantees that they agree.
* C148: whether `stableWithMildPacketLoss` succeeds depends on the random numbers; the numbers can be such that every device is master.
* C149: the radio keeps only the last packet, so a master that claims and tells the effect in the same Tick loses its claim, and two masters may go on side by side; a master that is told the effect by another stops changing it, and may stay the only master, with the show stuck.
* C137: a master elected more than a minute after the last change of effect tells a new effect two Ticks later, which may overwrite its claim; whether `stableWhenNodesDropOut` succeeds depends on the random numbers.
* C152: `changesEffectWhenMasterNotStable` fails for all random numbers with which its first device becomes master (unless a packet happens to be on its way); otherwise it resets nothing and passes only if the master happens not to choose effect 1.
* C153: a choice entered on a device other than the master is followed by the master but not repeated to anybody: its repetitions are empty frames. Devices that did not hear the device on which it was entered never follow it.
* C155, C156, C158: the odds presuppose that the devices draw independently. The only seed is two readings of the unconnected pin A0, taken when the firefly effect is constructed; two devices with equal readings draw the same numbers.
* C159: the state machine draws its first time-out before the firefly effect seeds the random numbers, so devices that are switched on together all time out at the same moment.
* C162: the case in which a new master never rotates (C31) does not need a clock that stands still: it happens whenever the one reading from which the rest of the 60 s is computed is 60000 ms after the last change seen.
* C163: `TimerExpired` compares deadlines with `<` instead of by difference. In the last minute before millis() wraps around a master changes the effect in nearly every tick, in the last second it sends a heartbeat in every tick, and slaves take over right after they heard a heartbeat. A heartbeat armed in the wrong millisecond silences a master for 49.7 days.
* C167: if a fancy node or controller is reset between the change of the option register and its programming, the next start can find the register already right and skip the programming; the bit is then wrong until power is next applied.
* C169: the first time-out runs from power-up, not from the end of the start-up animation. A board of 210 LEDs or more (or of 150, such as the backpack rope, if a button is held at start) may take over before it has listened at all.
* C170: a controller switched on with its first left button held spends 7 s in `setup`, longer than any first time-out, and so takes over before it has listened, unless a heartbeat happens to wait in its radio; and then its clock is late by as long as that has waited.

## Axioms per theorem

Printed by `#print axioms`. No theorem depends on anything but Lean's three standard axioms.

* no axioms: `dark_is_black`, `evenDraws_demo`, `getColor_empty`, `node_never_sleeps`, `thresholds`.
* `propext`: `destructor_double_free`, `gauge_shown_twenty_seconds`, `gradient_need_not_close`, `gradient_small`, `host_originates_ignored_id`, `lookup_empty`, `mirror_empty`, `no_button_at_start`, `noise_ignores_generator`, `receive_nothing`, `reference_steady`, `stored_device_same_memory`, `variety_fixed`.
* `Quot.sound`: `startup_without_leds`.
* `Quot.sound`, `propext`: `backpack_halves_repeat`, `battery_hysteresis`, `board_led`, `board_sleeps_iff`, `boot_option_demo`, `boot_option_reset`, `button_edges`, `button_frames`, `catalogue_current`, `catalogue_in_buffer`, `catalogue_ledCount`, `catalogue_starts`, `circle_angle`, `circle_angle_monotone`, `cloak_rings_mirror`, `colour_cycle_gradient`, `colour_cycle_pulse`, `colour_depends_on_instruction_only`, `control_defined`, `control_shows_colour`, `controller_without_radio`, `dark_shows_black`, `delivered_iff_not_recent`, `demo_course`, `destructor_frees_once`, `dim_same_picture`, `dmx_first_packet_ignored`, `dmx_packet`, `duplicate_needs_five`, `effect_total`, `every_colour_has_a_position`, `fake_clear_effects`, `fake_global_colour`, `fake_radio_in_bounds`, `fake_radio_sends`, `fake_tick_hears`, `fire_pattern`, `fire_seam`, `fireflies_in_sync`, `firefly_controller_odd`, `firefly_controller_shift`, `firefly_glows`, `first_takeover_demo`, `flag_enabled_iff_listed`, `flicker_demo`, `fresh_relay_rebroadcasts`, `gauge_needs_button`, `getColor_wraps`, `gradient_closes`, `gradient_faults_iff`, `gradient_hits_colours`, `gradient_hue_tie_takes_longer_arc`, `gradient_total`, `heal_demo_course`, `heal_needs_silence`, `informed_crowd_demo`, `informed_slave_demo`, `interrupted_erasure_accepted`, `keypad_colour_faults`, `keypad_left_wraps`, `lamps_colour_mode`, `lamps_effect_mode`, `lamps_palette_mode`, `late_election_two_masters`, `ledCount_can_be_wrong`, `ledCount_mod`, `lightning_flashes`, `lookup_host`, `lookup_total_arduino`, `loss_demo_course`, `low_battery`, `low_battery_silent`, `main_led_beyond`, `main_led_write`, `matrix_rows_alike`, `mirror_distance_to_nearer_end`, `mirror_identity`, `mirror_symmetric`, `mirrored_effects_symmetric`, `network_heard_was_sent`, `no_flapping_within_band`, `nodes_show_same_picture`, `originated_id_fresh`, `own_packet_ignored`, `paced_demo`, `paced_of_standing_clock`, `paced_repetition_demo`, `palette_after_colour`, `palette_display_first`, `palette_display_gradient`, `palette_out_of_range`, `powerUp_run`, `power_up_runs_application`, `pride_stripes`, `pride_stripes_tiny`, `rainbow_position`, `rainbow_pulse`, `rainbow_still`, `rainbow_travels`, `range_dark`, `range_frames`, `range_never_faults`, `range_shows`, `range_silent`, `read_in_bounds_iff`, `read_overflows`, `registry_roundtrip`, `relay_exactly_once`, `repetition_ends`, `reset_after_application`, `reset_demo_course`, `reset_master_first_only`, `reset_master_misses`, `reversed_same_picture`, `right_lamp_wrong`, `rope_halves_alike`, `rorschach_exceeds_limit`, `rorschach_seam`, `rorschach_symmetric`, `rotation_fair_demo`, `same_effect_is_no_change`, `same_numbers_two_masters`, `second_master_odds_demo`, `second_write_is_free`, `seldom_missed_demo`, `selection_cycle`, `send_never_faults`, `setup_duration`, `setup_outlasts_timeout_iff`, `setup_with_radio`, `setup_without_radio`, `several_masters_demo`, `shipped_devices`, `shipped_registry`, `shipped_setup`, `shown_colour_unique`, `shut_down_once`, `simple_device`, `simulator_global_colour`, `simulator_pulses`, `spoil_demo_course`, `startup_duration`, `startup_frames`, `status_leds`, `stopLight_order`, `stored_device_not_self_contained`, `strip_count`, `strobes_only_on_request`, `takeover_demo`, `theme_excludes`, `tiny_rainbow_exceeds_limit`, `transmit_does_nothing`, `transmit_then_tick`, `unsound_call_brings_down`, `variety_demo`, `variety_draws`, `winnow_demo`, `wiring_irrelevant`, `wrap_flood_demo`, `wrap_jumps`, `wrap_unseen_effects`.
* `Classical.choice`, `Quot.sound`, `propext`: `all_converge`, `all_effects_come_up`, `all_masters_can_resign`, `all_pairs_come_up`, `always_a_master`, `arduino_never_faults`, `at_most_one_master`, `bad_palette_crashes`, `blink_colour`, `blink_duty`, `board_feeds_watchdog`, `board_is_a_node`, `board_never_faults`, `board_reads_frames`, `board_shows_instruction`, `board_takes_new`, `boot_option_rest`, `boot_option_settles`, `boot_option_wear`, `bootloader_needs_double_reset`, `bounded_tick`, `bounded_work`, `broadcast_after_palette_mode`, `broadcast_before_selection`, `broadcast_sends_selection`, `button_ignored`, `button_shown`, `channel_bound`, `channel_demo`, `choice_by_radio_demo`, `choice_by_radio_not_passed_on`, `choice_on_master_demo`, `choice_on_master_followed`, `circle_radius_iff`, `clocks_agree_within`, `cold_start_demo`, `cold_start_settles`, `colour_button`, `colour_button_effect_number`, `colour_cycle_apart`, `colour_cycle_gradual`, `colour_display`, `colour_request_held_for_red_seconds`, `contested_excess`, `contested_mean`, `contrast_bumps_pattern`, `contrast_never_dark`, `control_roundtrip`, `controller_colour_shown`, `controller_effect_shown`, `controller_inputs`, `controller_is_a_node`, `controller_listens_first`, `controller_never_faults`, `controller_palette_shown`, `controller_runs`, `controller_sleeps_iff`, `controller_sound`, `controller_untouched`, `controller_with_radio`, `current_effect_index`, `current_instruction`, `dark_leds`, `deaf_becomes_master`, `demoted_iff`, `devices_look_alike`, `dmx_change_transmitted`, `dmx_colour_shown`, `dmx_first`, `dmx_frame`, `dmx_repeats`, `dmx_silent_for_weeks`, `dmx_stalls_after_wrap`, `dmx_without_radio`, `due_timer_is_not_lost`, `due_timer_is_served`, `duel_decided_odds`, `duel_demo`, `duel_fair`, `duel_listener_odds`, `duel_proper`, `duel_sender_odds`, `effect_display`, `effects_repeat`, `election_exact`, `empty_packet_never_received`, `everybody_follows`, `everybody_shows`, `everybody_shows_demo`, `fake_device_collects`, `fake_device_runs`, `fake_frame_stays_in_buffer`, `fake_leds_read`, `fake_radio_receives`, `fake_staged_again`, `fake_staged_once`, `fake_takes_staged`, `fire_colours`, `firefly_flashes`, `firefly_glow`, `firefly_shift_is_smooth`, `first_master_clocks`, `first_master_followed`, `first_master_shown`, `first_master_shown_demo`, `first_master_stays`, `first_takeover`, `first_takeover_together`, `first_takes_over`, `flood_bounded`, `flood_can_run_forever`, `flood_can_starve`, `flood_no_repeat`, `flood_odds`, `flood_odds_demo`, `flood_reaches_all`, `flood_starves_timers`, `follow_demo`, `four_losses_two_masters`, `frame_defined`, `frame_stays_in_buffer`, `frame_writes_each_led_once`, `framing_layout`, `framing_roundtrip`, `fresh_choice_in_range`, `gauge_above_full_is_red`, `gauge_monotone`, `gauge_value`, `gradient_gradual`, `gradient_gradual_round`, `gradient_hue_on_shorter_arc`, `gradient_saturation_value_between`, `handover_demo`, `heal_can_stop_rotation`, `heal_has_master`, `heal_heard_by_all`, `heal_one_master`, `heard_by_now`, `heartbeat_answer`, `heartbeat_roundtrip`, `heartbeats_apart`, `held_controller_demo`, `held_controller_takes_over`, `host_aborts_iff`, `host_originated_id_range`, `hw_claim_never_heard`, `hw_claim_never_received`, `hw_demoted_only_by_heartbeat`, `hw_hears_neighbours_only`, `hw_instruction_one_hop`, `hw_two_masters_forever`, `informed_crowd_odds`, `informed_slave_odds`, `installation_is_network`, `installation_never_faults`, `instruction_persists`, `keypad_after_colour`, `keypad_dark_key`, `keypad_effect_key`, `keypad_effect_place`, `keypad_effect_shown`, `keypad_inputs`, `keypad_is_a_node`, `keypad_lamps`, `keypad_never_faults`, `keypad_pages`, `keypad_palette_key`, `keypad_palette_place`, `keypad_palette_shown`, `keypad_shows_effects`, `keypad_shows_palettes`, `keypad_silent`, `keypad_sound`, `known_frame_ignored`, `large_board_takes_over`, `late_board_takes_over`, `ledCount_is_sum_iff`, `local_setEffect`, `long_courses_exist`, `loss_falls_quiet`, `loss_keeps_master`, `lost_master_replaced`, `low_battery_board`, `low_battery_light_stays`, `many_masters_resolve`, `master_heartbeat_due`, `mild_loss_can_split`, `network_boots`, `network_changes_rarely`, `network_device_boots`, `network_follows_at_once`, `network_follows_master`, `network_follows_soon`, `network_harmless`, `network_index_differs`, `network_master_appears`, `network_never_aborts`, `network_one_master`, `network_quiet`, `network_same_index`, `network_tick`, `network_time_kept`, `network_time_only_jumps_on_heartbeat`, `network_time_pace`, `network_times_agree`, `network_times_close`, `no_takeover_before_silence`, `noise_exact`, `noise_far`, `noise_smooth`, `one_takes_over_demo`, `one_takes_over_odds`, `other_fault`, `own_change_is_fresh_choice`, `own_heartbeat_time`, `pace_demo`, `paced_choice_held`, `paced_heartbeat_due`, `paced_heartbeat_time`, `paced_heartbeats_apart`, `paced_local_held`, `paced_promoted_after_silence`, `paced_promoted_only_after_silence`, `paced_repetition_due`, `paced_repetitions_apart`, `paced_request_held`, `paced_slave_follows_sender`, `paced_sync`, `paced_takeover_cadence`, `paced_takeover_may_stop`, `paced_time_kept`, `packetEq_iff`, `packetEq_ignores_tail`, `packetEq_illegal`, `packetEq_refl`, `packetEq_symm`, `packetEq_trans`, `palette_button`, `palette_display`, `palette_gallery`, `palette_keeps_theme`, `panel_places`, `police_pattern`, `power_loss_safe`, `power_on_demo`, `pride_first_stripe_fades_from_fourth`, `promotions_apart`, `rainbow_apart`, `rainbow_bumps_flashes`, `rainbow_bumps_pattern`, `rainbow_gradual`, `rainbow_neighbours`, `rainbows_complete`, `range_shown`, `raw_reading_robust`, `read_after_write`, `regular_signs_keep_slave`, `reinit_only`, `relay_loses_payload`, `repeat_of_large_effect_counts_as_change`, `repeats_keep_cadence`, `repeats_within_three_ticks`, `repetition_due`, `repetitions_apart`, `requested_effect_held_then_rotates`, `reset_master_lost`, `reset_master_replaced`, `reset_one_master`, `reset_others_keeps_master`, `reset_recovers`, `role_changes_in_ticks_only`, `rope_takes_over`, `rorschach_pattern`, `rorschach_smooth`, `rotation_fair`, `rotation_reaches`, `second_master_odds`, `seldom_missed`, `seldom_missed_any`, `selection_step`, `selection_valid`, `send_in_bounds_iff`, `setEffect_roundtrip`, `settle_any`, `settle_forty`, `settled_clock`, `settled_instruction`, `settled_same_show`, `settled_same_show_as_master`, `settled_show`, `settled_show_master`, `settles_on_one_master`, `several_masters_become_one`, `several_masters_odds`, `shipped_frame_total`, `simulator_layout`, `slave_traffic`, `slaves_agree_with_sender`, `sole_master_stable`, `soon_courses_exist`, `spark_flashes`, `spark_pattern`, `spark_window`, `spark_window_circular`, `stale_heartbeat`, `steady_lights`, `stopLight_icon`, `stopLight_lamps`, `stopLight_tiny`, `strobe_every_flash`, `strobe_flashes`, `swinging_lights_dark`, `swinging_lights_sum`, `sync_exact`, `take_over_odds`, `takeover_after_silence`, `takeover_keeps_cadence`, `takeover_odds`, `takeover_time`, `takeover_uniform`, `takes_for_new`, `test_changes_effect`, `test_changes_effect_fails`, `test_elects_one_master`, `test_elects_one_master_run`, `test_set_effect_index`, `test_stable_over_time`, `test_stable_over_time_run`, `theme_tight`, `three_losses_demo`, `three_losses_do_no_harm`, `thresholdSin_monotone`, `thresholdSin_value`, `thresholdSin_zero_iff`, `timer_at_wrap`, `timer_exact`, `timer_reported_iff`, `too_many_effects_abort`, `traffic_bound`, `traffic_demo`, `traffic_rate`, `two_masters_odds`, `two_masters_resolve`, `unheard_first_master`, `unknown_type_is_inert`, `value_limits`, `variety_ten`, `watchdog_fed_every_seven`, `watchdog_never_fires`, `watchdog_schedule`, `winnow_any`, `winnow_mean`, `winnow_twenty`, `wrap_choice_flood`, `wrap_deaf_slave`, `wrap_false_alarm`, `wrap_heartbeat_flood`, `wrap_rotation_resumes`, `wrap_rotation_stops`, `wrap_silent_master`, `wrap_unseen`, `zero_delay_stops_rotation`, `zero_ignored`.
