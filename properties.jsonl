{"id": "C01", "title": "Heartbeat time round-trips", "statement": "Writing any 32-bit network time into a heartbeat packet and reading it back yields exactly that time; the packet is a 4-byte HEARTBEAT with the time most significant byte first, and the packet id is untouched.", "quantifier": "every uint32 time and every prior packet content", "why_tests_cant": "2^32 times times every prior packet content cannot be enumerated", "anchors": ["lib/radio/Radio.cpp: RadioPacket::writeHeartbeat, readTimeFromHeartbeat"]}
{"id": "C02", "title": "Set-effect fields round-trip", "statement": "Writing an (effect, delay, palette) triple into a set-effect packet and reading the three fields back yields the same three bytes, with no cross-talk between fields.", "quantifier": "every triple of bytes and every prior packet content", "why_tests_cant": "2^24 triples times every prior packet content", "anchors": ["lib/radio/Radio.cpp: writeSetEffect, readEffectIndexFromSetEffect, readDelayFromSetEffect, readPaletteIndexFromSetEffect"]}
{"id": "C03", "title": "Control fields round-trip", "statement": "Writing a (delay, colour) pair into a control packet and reading delay and colour back yields the same delay and the same red, green and blue bytes.", "quantifier": "every delay byte and 24-bit colour and every prior packet content", "why_tests_cant": "2^32 combinations times every prior packet content", "anchors": ["lib/radio/Radio.cpp: writeControl, readDelayFromSetControl, readRgbFromSetControl"]}
{"id": "C04", "title": "Packet equality is payload equality", "statement": "For packets whose length is legal, == is an equivalence relation that holds exactly when id, type, length and the first `length` bytes agree; bytes beyond the length never matter. A packet with an illegal length is equal to nothing, not even itself.", "quantifier": "all pairs and triples of packets", "why_tests_cant": "the space of 58-byte packets cannot be sampled meaningfully", "anchors": ["lib/radio/Radio.hpp: operator==(RadioPacket, RadioPacket)"]}
{"id": "C05", "title": "Delivery is exactly 'id not among the last five recorded'", "statement": "After any history of sends and receives, an available packet is delivered to the application if and only if its id is not among the five ids most recently recorded (sent by this node or delivered to it), where a fresh node counts as having recorded id 0 five times.", "quantifier": "every history of send and receive operations of any length, every packet", "why_tests_cant": "unbounded histories", "anchors": ["src/generic/NetworkManager.cpp: NetworkManager::receive, send, AddToRecentIdsCache"]}
{"id": "C06", "title": "Every delivered packet is re-broadcast exactly once and unchanged; nothing else is", "statement": "A receive that delivers a packet transmits exactly that packet (id, type, length and payload) once; a receive that delivers nothing (no packet, or a duplicate) transmits nothing and records nothing.", "quantifier": "every node state and every incoming packet", "why_tests_cant": "all states and packets", "anchors": ["src/generic/NetworkManager.cpp: NetworkManager::receive"]}
{"id": "C07", "title": "A duplicate id needs five intervening ids", "statement": "If one node delivers (or sends) an id and later delivers the same id again, then at least five other recordings happened in between.", "quantifier": "every history and every pair of positions in it", "why_tests_cant": "unbounded histories", "anchors": ["src/generic/NetworkManager.cpp: receive, send, AddToRecentIdsCache"]}
{"id": "C08", "title": "A node never reacts to its own packet", "statement": "A packet originated by a node and echoed back to it by any number of neighbours is ignored as long as fewer than five other ids have been recorded since.", "quantifier": "every history after the send", "why_tests_cant": "unbounded echo schedules", "anchors": ["src/generic/NetworkManager.cpp: send, receive"]}
{"id": "C09", "title": "Flooding terminates for up to five outstanding ids", "statement": "In a mesh of any number of nodes with arbitrary topology, loss, duplication, delay and reordering, if at most five packets, with distinct ids, are ever originated then no node ever transmits the same id twice, so the total number of transmissions is at most the number of originated packets times the number of nodes.", "quantifier": "every number of nodes and every schedule of originations and deliveries", "why_tests_cant": "unbounded number of nodes and schedules", "anchors": ["src/generic/NetworkManager.cpp: receive, send"]}
{"id": "C10", "title": "Flooding reaches every connected node", "statement": "In a mesh in which at most five packets, with distinct non-zero ids, are originated and no transmission is lost, once nothing is in the air any more every other node connected to the originator has delivered the packet exactly once.", "quantifier": "every topology, every lossless schedule", "why_tests_cant": "every graph and every interleaving", "anchors": ["src/generic/NetworkManager.cpp: receive, send"]}
{"id": "C11", "title": "Every flood of finitely many packets dies out", "statement": "Finitely many originated packets cause only finitely many transmissions in any mesh. (Refuted: with six ids in flight two neighbouring nodes can keep re-broadcasting for ever.)", "quantifier": "every finite set of originated packets and every schedule", "why_tests_cant": "needs an infinite schedule", "anchors": ["src/generic/NetworkManager.cpp: receive, AddToRecentIdsCache", "src/generic/NetworkManager.hpp: kRecentIdsCacheSize"]}
{"id": "C12", "title": "Originated ids are never mistaken for 'already seen' by a fresh node", "statement": "The id put on every originated packet is in [2, 65534], so a freshly booted neighbour (whose history is five times id 0) delivers it. (True for the Arduino random(); refuted for the host random(), which can yield id 0.)", "quantifier": "every random draw", "why_tests_cant": "2^31 draws; the failing draw is one in 65535", "anchors": ["src/generic/NetworkManager.cpp: send", "lib/types/Types.cpp: random(min,max)"]}
{"id": "C13", "title": "Radio framing round-trips", "statement": "On hardware, a packet with a non-empty payload that fits the radio, when transmitted and received without corruption, is received with the same id, type and payload bytes, for every id (big-endian) and payload length 1..58.", "quantifier": "every packet with 1 <= length <= 58", "why_tests_cant": "all packets", "anchors": ["src/arduino/RadioHeadRadio.cpp: RadioHeadRadio::sendPacket, readPacket"]}
{"id": "C14", "title": "Radio framing stays inside its buffers", "statement": "Transmitting a packet of length <= 58 and receiving any frame of at most 61 bytes never accesses memory outside the frame buffer or the packet payload. (Frames of 62..64 bytes, which the receive buffer admits, overflow the payload.)", "quantifier": "every packet, every received frame", "why_tests_cant": "all frames; the failing lengths need a non-conforming transmitter", "anchors": ["src/arduino/RadioHeadRadio.cpp: sendPacket, readPacket", "src/arduino/RadioHeadRadio.hpp: kMaxFifoSizePacketSize, kFrontPacketPadding"]}
{"id": "C15", "title": "A relayed packet keeps its payload on hardware", "statement": "A packet received from the real radio and re-broadcast by the mesh layer is received by the next hop with the same payload. (Refuted: the receive path never sets the length, so the relay transmits a bare 3-byte header and the next hop discards it.)", "quantifier": "every packet and every relay", "why_tests_cant": "needs two radios and a relay", "anchors": ["src/arduino/RadioHeadRadio.cpp: readPacket (no write of dataLength)", "src/generic/NetworkManager.cpp: receive"]}
{"id": "C16", "title": "Master claims reach their peers on hardware", "statement": "A CLAIM_MASTER packet transmitted by one node is delivered to a node that hears the transmission. (Refuted: claims have an empty payload and the receive path drops every frame without payload.)", "quantifier": "every claim", "why_tests_cant": "needs two radios", "anchors": ["src/arduino/RadioHeadRadio.cpp: readPacket", "src/generic/RadioStateMachine.cpp: PerformMasterElection"]}
{"id": "C17", "title": "No take-over before five seconds of silence", "statement": "A slave turns master only if strictly more than 5000 ms passed since it booted, was last demoted, or last heard a heartbeat or a claim.", "quantifier": "every history of ticks and packets, every random draw, clocks not wrapping", "why_tests_cant": "unbounded histories and all draws", "anchors": ["src/generic/RadioStateMachine.cpp: handleSlaveEvent, beginSlave, SetTimer, TimerExpired"]}
{"id": "C18", "title": "Take-over after seven seconds of silence", "statement": "A slave that has not heard a heartbeat or claim for 7000 ms turns master at its first radio tick without an incoming new packet, and announces itself with a heartbeat in the same tick.", "quantifier": "every history, every draw, clocks not wrapping", "why_tests_cant": "unbounded histories and all draws", "anchors": ["src/generic/RadioStateMachine.cpp: handleSlaveEvent, beginMaster"]}
{"id": "C19", "title": "Regular heartbeats keep a slave a slave", "statement": "A slave that hears a heartbeat or claim at least every 5000 ms never turns master.", "quantifier": "every history in which the gaps are at most 5000 ms", "why_tests_cant": "unbounded histories", "anchors": ["src/generic/RadioStateMachine.cpp: handleSlaveEvent"]}
{"id": "C20", "title": "Master heartbeat cadence", "statement": "A master sends a heartbeat at the first radio tick without a new packet that is more than 1000 ms after its previous one, and never less than 1000 ms after its previous one within one reign.", "quantifier": "every history, clocks not wrapping", "why_tests_cant": "unbounded histories", "anchors": ["src/generic/RadioStateMachine.cpp: handleMasterEvent, SendHeartbeat, beginMaster"]}
{"id": "C21", "title": "Only a claim or a lost election demotes a master", "statement": "A master stays master unless it hears a claim, or hears a heartbeat and draws an election number not larger than the heartbeat's packet id; in those cases it is a slave immediately afterwards.", "quantifier": "every state, packet, draw", "why_tests_cant": "all draws and packets", "anchors": ["src/generic/RadioStateMachine.cpp: handleMasterEvent, PerformMasterElection"]}
{"id": "C22", "title": "Two masters resolve to exactly one", "statement": "When a heartbeat of one master reaches another and every resulting claim is delivered, exactly one of the two is master afterwards, for every outcome of the random election numbers.", "quantifier": "every pair of master states, every draw, every packet id", "why_tests_cant": "all draws and states", "anchors": ["src/generic/RadioStateMachine.cpp: PerformMasterElection, handleMasterEvent"]}
{"id": "C23", "title": "A heartbeat heard by all leaves at most one other claimant per exchange and can leave none", "statement": "With any number of masters, after one heartbeat is heard by all others and all resulting claims are delivered in order to everyone, at most one master remains. (At least one master is not guaranteed: witness.)", "quantifier": "every number of nodes, every vector of draws", "why_tests_cant": "unbounded node count", "anchors": ["src/generic/RadioStateMachine.cpp: PerformMasterElection, handleMasterEvent"]}
{"id": "C24", "title": "Clock synchronisation is exact and wrap-safe", "statement": "After a slave handles a heartbeat carrying time T at local time m, its network time at every later local time m' is T + (m' - m) modulo 2^32, including across wrap-around of either clock.", "quantifier": "every T, m, m' in uint32", "why_tests_cant": "2^96 combinations", "anchors": ["src/generic/RadioStateMachine.cpp: handleSlaveEvent, GetNetworkMillis"]}
{"id": "C25", "title": "Network time only jumps on a heartbeat heard as slave", "statement": "No other event (timers, promotion, demotion, claims, effects, local SetEffect) changes the difference between network time and local time.", "quantifier": "every history", "why_tests_cant": "unbounded histories", "anchors": ["src/generic/RadioStateMachine.cpp: RadioTick and handlers"]}
{"id": "C26", "title": "All slaves of a heartbeat agree with the sender", "statement": "A heartbeat sent by a node and handled by any other node (as slave) at the same instant makes the two network clocks equal for ever after, whatever their local clocks, as long as neither hears another heartbeat.", "quantifier": "every pair of local clocks and offsets", "why_tests_cant": "all clock values", "anchors": ["src/generic/RadioStateMachine.cpp: SendHeartbeat, handleSlaveEvent, GetNetworkMillis", "lib/radio/Radio.cpp: writeHeartbeat"]}
{"id": "C27", "title": "The displayed effect is the most recent instruction", "statement": "After any history the current set-effect packet is the most recent of: the boot default, the latest delivered SET_EFFECT or SET_CONTROL, the latest local SetEffect, the latest effect the node itself chose as master.", "quantifier": "every history", "why_tests_cant": "unbounded histories", "anchors": ["src/generic/RadioStateMachine.cpp: GetSetEffect, SetEffect, handleSlaveEvent, handleMasterEvent"]}
{"id": "C28", "title": "Randomly chosen effect and palette are in range and are what is broadcast", "statement": "Whenever a master changes the effect on its own, the effect is below the configured number of effects, the palette below the number of palettes, the delay is 0, the packet transmitted carries exactly that choice and the node itself adopts it.", "quantifier": "every draw, every configured count >= 1", "why_tests_cant": "all draws and counts", "anchors": ["src/generic/RadioStateMachine.cpp: handleMasterEvent (TimerChangeEffect)"]}
{"id": "C29", "title": "A requested effect is held for the requested time", "statement": "After a master handles SET_EFFECT or SET_CONTROL with delay d >= 1 at time t, it does not change the effect on its own before t + 1000*d, whatever else it hears except other SET_EFFECT/SET_CONTROL packets and re-elections.", "quantifier": "every history after the request, clocks not wrapping", "why_tests_cant": "unbounded histories", "anchors": ["src/generic/RadioStateMachine.cpp: handleMasterEvent, SetTimer"]}
{"id": "C30", "title": "After a requested effect the rotation resumes", "statement": "After a master handles SET_EFFECT or SET_CONTROL with any delay, it eventually changes the effect again. (True for d >= 1; refuted for d = 0, where the rotation stops for the rest of the reign.)", "quantifier": "every delay byte and every later history", "why_tests_cant": "needs unbounded waiting", "anchors": ["src/generic/RadioStateMachine.cpp: handleMasterEvent, SetTimer"]}
{"id": "C31", "title": "A new master keeps the rotation cadence", "statement": "A node that becomes master schedules the next effect change 60 s after the last change it saw (immediately if that is overdue). (Refuted at exactly 60000 ms, where the rotation is disabled.)", "quantifier": "every time of last change and take-over time", "why_tests_cant": "the failing case is a single millisecond", "anchors": ["src/generic/RadioStateMachine.cpp: beginMaster"]}
{"id": "C32", "title": "Hearing the same effect again is not a change", "statement": "A slave hearing a repeat of the current effect and palette keeps the time of the last change. (True for effect numbers below 128; refuted from 128 on because of a signed byte.)", "quantifier": "every history of repeats, every effect number", "why_tests_cant": "all effect numbers and histories", "anchors": ["src/generic/RadioStateMachine.cpp: handleSlaveEvent", "src/generic/RadioStateMachine.hpp: effect_index_"]}
{"id": "C33", "title": "Arbitrary radio input never faults the Arduino build", "statement": "For any sequence of arbitrary packets (any type byte, any length byte, any payload), ticks and times, no operation of the Arduino-build networking core faults (no undefined operation, no division by zero); a packet of unknown type changes nothing except the duplicate filter and is re-broadcast.", "quantifier": "every packet sequence", "why_tests_cant": "all byte strings and histories", "anchors": ["src/generic/RadioStateMachine.cpp: RadioTick, handleSlaveEvent, handleMasterEvent"]}
{"id": "C34", "title": "The host build aborts exactly on malformed or mismatched packets", "statement": "In the assert-enabled build a tick aborts if and only if the delivered packet has a length that does not fit its type (heartbeat lengths are only looked at by slaves, control lengths only by masters), or a SET_EFFECT repeats, to a slave, the current effect number (below 128) while the current instruction is not a well-formed SET_EFFECT. The only other fault is a master choosing an effect with a configured count of 0.", "quantifier": "every state and packet", "why_tests_cant": "all states", "anchors": ["src/generic/RadioStateMachine.cpp: handleSlaveEvent, handleMasterEvent", "lib/radio/Radio.cpp: asserts in the readers"]}
{"id": "C35", "title": "Bounded work per tick", "statement": "Each radio tick handles at most one packet or one timer, transmits at most two packets (the relayed one and a claim; at most one without a packet), and leaves the node fully in slave or master state.", "quantifier": "every state and packet", "why_tests_cant": "all states", "anchors": ["src/generic/RadioStateMachine.cpp: RadioTick, Tick"]}
{"id": "C36", "title": "A pending timer is never lost", "statement": "A due timer stays due until it is handled: radio traffic can delay it but not cancel it, except that heartbeats and claims re-arm the slave timeout and SET packets re-arm the rotation.", "quantifier": "every history", "why_tests_cant": "unbounded histories", "anchors": ["src/generic/RadioStateMachine.cpp: RadioTick, TimerExpired, SetTimer"]}
{"id": "C37", "title": "Timers work at all clock values", "statement": "A timer armed at any local time with delay d >= 1 becomes due once more than d ms have passed and not earlier. (True while the 32-bit clock does not wrap; refuted across wrap-around, including a timer that becomes disabled for ever when its deadline is exactly 2^32.)", "quantifier": "every clock value and delay", "why_tests_cant": "49.7 days of uptime", "anchors": ["src/generic/RadioStateMachine.cpp: SetTimer, TimerExpired"]}
{"id": "C38", "title": "Local SetEffect takes effect at once and is announced", "statement": "SetEffect with a set-effect packet makes it the current instruction, transmits it with a fresh id, and holds it for its delay (60 s if 0).", "quantifier": "every packet and state", "why_tests_cant": "all states", "anchors": ["src/generic/RadioStateMachine.cpp: SetEffect"]}
{"id": "C39", "title": "A colour request holds for its delay", "statement": "SetEffect with a control packet holds the colour for the requested delay. (Refuted on Arduino: the red channel is used as the delay; the host build aborts.)", "quantifier": "every control packet", "why_tests_cant": "all packets", "anchors": ["src/generic/RadioStateMachine.cpp: SetEffect", "src/devices/controller/controller.cpp: RunColorMode"]}
{"id": "C40", "title": "Master repeats the current instruction every two seconds", "statement": "A master retransmits the current instruction at the first idle radio tick (no packet, no earlier timer due) more than 2000 ms after the previous repetition.", "quantifier": "every history, clocks not wrapping", "why_tests_cant": "unbounded histories", "anchors": ["src/generic/RadioStateMachine.cpp: handleMasterEvent (TimerBroadcastEffect)"]}
{"id": "C41", "title": "All nodes converge to the broadcast instruction", "statement": "Once a set-effect or control transmission is handled by every node of any size network, all nodes hold the same instruction (same type, length and payload).", "quantifier": "every number of nodes, every prior states (slave or master)", "why_tests_cant": "unbounded node count", "anchors": ["src/generic/RadioStateMachine.cpp: handleSlaveEvent, handleMasterEvent"]}
{"id": "C42", "title": "A packet flood starves the timers", "statement": "A master always eventually sends its next heartbeat. (Refuted: if a new packet arrives in every radio tick no timer is ever served; proved when at least one radio tick in the interval sees no new packet.)", "quantifier": "every history", "why_tests_cant": "needs unbounded histories", "anchors": ["src/generic/RadioStateMachine.cpp: RadioTick"]}
{"id": "C43", "title": "Palette lookup wraps", "statement": "GetColor(i) of a non-empty palette returns entry i mod size for every byte i; on an empty palette it is undefined.", "quantifier": "every palette of any size, every index", "why_tests_cant": "unbounded palettes", "anchors": ["lib/color/ColorPalette.cpp: GetColor"]}
{"id": "C44", "title": "Gradient lookup is total for palettes of up to 255 colours", "statement": "GetGradient is defined for every position, both wrap modes and every palette of 0..255 colours; it is black for an empty and constant for a one-colour palette. (From 256 colours it can divide by zero.)", "quantifier": "every palette size and 16-bit position", "why_tests_cant": "all sizes, positions and colours", "anchors": ["lib/color/ColorPalette.cpp: GetGradient"]}
{"id": "C45", "title": "Gradient hits its colours exactly", "statement": "At each multiple i of the colour spacing below the number of colours the gradient returns colour i exactly.", "quantifier": "every palette of 2..255 colours, every i", "why_tests_cant": "all palettes", "anchors": ["lib/color/ColorPalette.cpp: GetGradient"]}
{"id": "C46", "title": "Gradient saturation and value stay between the two neighbouring colours", "statement": "For every position, saturation and value lie between those of the two colours that enclose the position.", "quantifier": "every palette, position", "why_tests_cant": "all palettes", "anchors": ["lib/color/ColorPalette.cpp: GetGradient"]}
{"id": "C47", "title": "Gradient hue takes the shorter way round", "statement": "For every position the hue lies on the shorter of the two arcs of the 255-step colour wheel between the neighbouring hues. (Refuted only for hues exactly 127 apart, where it takes the arc of 128 steps instead of the one of 127.)", "quantifier": "every palette, position", "why_tests_cant": "all palettes", "anchors": ["lib/color/ColorPalette.cpp: GetGradient"]}
{"id": "C48", "title": "A wrapping gradient closes", "statement": "The colour at the maximal position equals the colour at position 0, where hue 255 counts as hue 0. (True for palettes of up to 17 colours; refuted for 18.)", "quantifier": "every palette", "why_tests_cant": "all palettes; breaks only for large ones", "anchors": ["lib/color/ColorPalette.cpp: GetGradient", "lib/color/ColorPalette.hpp: doc comment"]}
{"id": "C49", "title": "Mirroring is symmetric and in range", "statement": "MirrorIndex maps any index on a strip of n >= 1 LEDs into [0, ceil(n/2)), gives the same result for i and n-1-i, is the identity on the first half, and sets the count to ceil(n/2).", "quantifier": "every index byte and every count 1..255", "why_tests_cant": "65k pairs is testable only by exhaustive enumeration; the theorem is for all", "anchors": ["lib/math/Math.cpp: MirrorIndex"]}
{"id": "C50", "title": "Circle position", "statement": "For a strip of n LEDs the angle is below 255, monotone in the index and 0 at LED 0; the radius is n*32/(2 pi) in integer arithmetic. (The radius is correct up to 50 LEDs; refuted from 51, where it wraps.)", "quantifier": "every index and count", "why_tests_cant": "all pairs", "anchors": ["lib/math/Math.cpp: GetPosOnCircle"]}
{"id": "C51", "title": "Strip flags are exactly the ones listed", "statement": "FlagEnabled(f) holds iff f is one of the flags given at construction, for any list of flags in any order with repetitions.", "quantifier": "every list of flags", "why_tests_cant": "unbounded lists", "anchors": ["lib/device/StripDescription.hpp: StripDescription, FlagEnabled"]}
{"id": "C52", "title": "LED count is the sum of the strips", "statement": "GetLedCount is the sum of the strip lengths. Every shipped device limits its LEDs to 2350 mA; a simple device of n LEDs is one strip of n LEDs. (True up to 255 in total, hence for every shipped device; refuted beyond.)", "quantifier": "every list of strips", "why_tests_cant": "unbounded lists", "anchors": ["lib/device/DeviceDescription.cpp: GetLedCount"]}
{"id": "C53", "title": "Every LED is written exactly once per frame with its own colour", "statement": "RunEffect writes each LED of the device once, in order, with the colour the current effect computes for that LED's position on its strip, positions counted from the far end on Reversed strips, black on Off strips, one eighth brightness on Dim strips, and then pushes the frame once.", "quantifier": "every device with at most 255 LEDs, every effect, time and packet", "why_tests_cant": "unbounded device layouts", "anchors": ["lib/led_manager/LedManager.cpp: RunEffect"]}
{"id": "C54", "title": "Frame rendering stays inside the LED buffer", "statement": "RunEffect never writes outside the LED buffer. (True for devices with at most 255 LEDs, which includes every device in the catalogue; refuted beyond.)", "quantifier": "every device", "why_tests_cant": "unbounded device layouts", "anchors": ["lib/led_manager/LedManager.cpp: RunEffect", "lib/device/DeviceDescription.cpp: GetLedCount", "src/arduino/FastLedManager.cpp: SetLed", "lib/device/Devices.hpp"]}
{"id": "C55", "title": "The effect registry round-trips", "statement": "After any sequence of AddEffect calls with at most 255 slots in total, looking up the index reported for the k-th distinct effect yields that effect (random ones first, in order of registration, then the others), an effect with proportion q occupies exactly q of the random slots, and the counts are the sums.", "quantifier": "every sequence of registrations", "why_tests_cant": "unbounded registration sequences", "anchors": ["lib/led_manager/LedManager.cpp: AddEffect, GetEffect, UniqueEffectNumberToIndex, GetNumEffects, GetNumUniqueEffects"]}
{"id": "C56", "title": "Effect lookup is total on Arduino", "statement": "GetEffect of any byte is defined on Arduino whenever at least one effect is registered, agrees with the registry below the total and wraps modulo the total above it; in the host build it aborts exactly at and above the total.", "quantifier": "every index byte and registry", "why_tests_cant": "all", "anchors": ["lib/led_manager/LedManager.cpp: GetEffect"]}
{"id": "C57", "title": "The shipped registry", "statement": "The shipped registry has 27 random slots and 35 in total; a random choice never selects a non-random effect (blinkers, stop light, palette display, dark); the last slots are the palette display and the dark effect.", "quantifier": "every random choice", "why_tests_cant": "finite table lifted to every draw", "anchors": ["lib/led_manager/LedManager.cpp: LedManager::LedManager"]}
{"id": "C58", "title": "Effects are total on valid input", "statement": "Every shipped effect computes a colour without undefined behaviour for every LED index below the strip length (1..255), every time, every flag set without the controller flag, and every packet naming an existing palette.", "quantifier": "every index, time, strip, packet", "why_tests_cant": "2^32 times, all strips", "anchors": ["lib/effect/*.cpp: GetRGB"]}
{"id": "C59", "title": "A radio packet cannot make rendering read outside the palette table", "statement": "Rendering a frame for any received SET_EFFECT packet is defined. (Refuted: a palette index of 22 or more is used unchecked.)", "quantifier": "every received packet", "why_tests_cant": "all packets", "anchors": ["lib/effect/Effect.hpp: palettes", "lib/effect/*.cpp: GetRGB", "src/generic/RadioStateMachine.cpp: handleSlaveEvent"]}
{"id": "C60", "title": "Synchronised nodes show the same picture", "statement": "For every effect except the ones with a per-device random phase, the colour depends only on LED index, network time, strip and the instruction's payload: never on the packet id, the node, or the state of the random generator.", "quantifier": "every pair of nodes, every time", "why_tests_cant": "all times and histories of the random generator", "anchors": ["lib/effect/*.cpp: GetRGB", "lib/math/Perlin.hpp"]}
{"id": "C61", "title": "Stop light shows exactly one phase, in the right order", "statement": "At every time exactly one of red, amber and green is active; over each 8-unit cycle amber is active 1/8, red 3/8 and green 4/8, amber being followed by red and red by green. On the controller the effect is an icon that stands still.", "quantifier": "every time", "why_tests_cant": "2^32 times", "anchors": ["lib/effect/StopLightEffect.cpp"]}
{"id": "C62", "title": "Blink duty cycle", "statement": "A blink effect with period parameter s is on exactly in the first third of each 3s ms cycle and black otherwise; while it is on it shows the palette's gradient, advancing by 23 of 65536 every 4 ms, with its value (half of it on strips without the Bright flag), so that it is clearly visible.", "quantifier": "every time and every s >= 1", "why_tests_cant": "all times and parameters", "anchors": ["lib/effect/SimpleBlinkEffect.cpp"]}
{"id": "C63", "title": "Spark lights at most eight neighbouring LEDs", "statement": "On a non-circular strip the spark effect lights exactly the LEDs within one window of eight neighbouring positions at any time (distances from the nearer end on mirrored strips), on a circular strip eight neighbours on the circle; all other LEDs are black.", "quantifier": "every time, strip length", "why_tests_cant": "all times and strips", "anchors": ["lib/effect/SparkEffect.cpp"]}
{"id": "C64", "title": "Fireflies synchronise", "statement": "During the synchronised phase the firefly effect does not depend on the device's random offset; in all phases the time shift is at most the offset, and it changes by at most one millisecond between consecutive milliseconds. The glow is the positive half of a sine of period 1024 ms at the shifted time, in the palette's hue and saturation at the network time.", "quantifier": "every time and offset", "why_tests_cant": "all times and offsets", "anchors": ["lib/effect/FireflyEffect.cpp"]}
{"id": "C65", "title": "Brightness limits on strips not marked bright", "statement": "On a strip without the Bright flag each effect's HSV value stays within the effect's limit: colour cycle 170 (palettes of one colour) or 127, rainbow 128 or 170, palette display and blinkers 127, Rorschach 127, contrast 223, firefly 127, fire 192. (Refuted for palettes of one colour under the rainbow effect on Tiny strips and under the Rorschach effect, which use up to the full value.)", "quantifier": "every time, index, palette", "why_tests_cant": "all times", "anchors": ["lib/effect/*.cpp: GetRGB"]}
{"id": "C66", "title": "Contrast bumps never go dark", "statement": "The contrast effect's HSV value is 64 or between 96 and 223 at all times.", "quantifier": "every time, index, palette with full-value colours", "why_tests_cant": "all times", "anchors": ["lib/effect/ContrastBumpsEffect.cpp"]}
{"id": "C67", "title": "Rorschach is symmetric", "statement": "LEDs at equal distance from the centre of the strip show the same colour under the Rorschach effect.", "quantifier": "every time, strip, distance", "why_tests_cant": "all times", "anchors": ["lib/effect/RorschachEffect.cpp"]}
{"id": "C68", "title": "Pride fades between neighbouring stripe colours", "statement": "Within the fade zone at the start of each stripe the colour is a blend of the previous and the current stripe's colour. (Refuted for the first stripe, which fades from the fourth colour.)", "quantifier": "every time, index, strip", "why_tests_cant": "all times", "anchors": ["lib/effect/PrideEffect.cpp"]}
{"id": "C69", "title": "Noise stays in range and ignores the random generator's state", "statement": "Perlin noise never overflows its 16-bit intermediates, equals the clamped scaled interpolation of the four corner contributions, and does not depend on the random generator's state at call time.", "quantifier": "every coordinate, every random generator", "why_tests_cant": "all coordinates and generators", "anchors": ["lib/math/Perlin.hpp: perlinNoise"]}
{"id": "C70", "title": "Threshold sine stays in range", "statement": "GetThresholdSin is defined and between 0 and 255 for every angle and threshold, 0 exactly when the scaled sine does not exceed the threshold, and monotone in the sine.", "quantifier": "every angle and threshold", "why_tests_cant": "all", "anchors": ["lib/effect/Effect.cpp: GetThresholdSin"]}
{"id": "C71", "title": "Mirrored strips render symmetrically", "statement": "On a Mirrored strip the effects that support mirroring (both bump effects, spark, swinging lights, fire on non-circular strips, police on strips neither tiny nor on the controller) show the same colour at i and n-1-i.", "quantifier": "every effect that mirrors, index, time", "why_tests_cant": "all times", "anchors": ["lib/effect/*.cpp", "lib/math/Math.cpp: MirrorIndex"]}
{"id": "C72", "title": "Colour instruction", "statement": "While the current instruction is a control packet every LED shows exactly its colour (an eighth on Dim strips, black on Off strips), and every LED is black under the dark effect.", "quantifier": "every packet, time, index", "why_tests_cant": "all", "anchors": ["lib/effect/ControlEffect.cpp", "lib/effect/DarkEffect.cpp", "lib/led_manager/LedManager.cpp: GetCurrentEffect"]}
{"id": "C73", "title": "Controller selections stay valid and navigation is cyclic", "statement": "After any sequence of button presses the selected effect and palette exist; stepping forward n times returns to the start and a step back undoes a step forward.", "quantifier": "every press sequence", "why_tests_cant": "unbounded sequences", "anchors": ["src/devices/controller/controller.cpp: RunEffectMode"]}
{"id": "C74", "title": "What the controller broadcasts is what it displays", "statement": "In effect mode the broadcast button transmits the effect and palette currently selected, for 60 seconds, under the number that boards of every build look up as that effect. (Refuted directly after palette mode, where it transmits effect 0 with palette 13 for one second, and before the first iteration in effect mode, where it transmits an empty heartbeat packet.)", "quantifier": "every press sequence", "why_tests_cant": "unbounded sequences", "anchors": ["src/devices/controller/controller.cpp: RunEffectMode"]}
{"id": "C75", "title": "Controller LED layout", "statement": "SetMainLed maps the 36 main LEDs injectively to physical LEDs that are neither status nor button LEDs.", "quantifier": "every main index 0..35", "why_tests_cant": "finite table", "anchors": ["src/devices/controller/leds.cc: SetMainLed"]}
{"id": "C76", "title": "Low-battery hysteresis", "statement": "Once the battery is low the device stays in low-battery mode until the voltage exceeds the resume threshold, and never enters it above the low threshold; no reading sequence makes it flap within the band. An iteration of the controller (fancy node) is skipped exactly if the start-up time is over, a reading taken after it was below 3.4 V (3.6 V), and none since was above 3.85 V.", "quantifier": "every sequence of readings", "why_tests_cant": "unbounded sequences", "anchors": ["lib/battery/Battery.hpp", "src/devices/controller/controller.cpp: loop"]}
{"id": "C77", "title": "Battery gauge", "statement": "The displayed hue grows with the voltage from red at empty to green at full. (Refuted above full, where it shows red.)", "quantifier": "every reading", "why_tests_cant": "all readings", "anchors": ["src/devices/controller/controller.cpp: battery display", "src/devices/fancy-node/fancy-node.cc"]}
{"id": "C78", "title": "DMX gateway never loses a colour change", "statement": "Every change of the DMX colour is transmitted at the next loop, unchanged colours are repeated after 1000 ms, and transmitted packets carry the colour read. (Refuted at the wrap of the millisecond clock, where repetition of an unchanged colour can stop for up to 49 days; and the very first transmission carries id 0, which freshly started boards ignore.)", "quantifier": "every sequence of colours and times", "why_tests_cant": "unbounded sequences", "anchors": ["src/devices/dmx/dmx.cpp: loop"]}
{"id": "C79", "title": "Stored device description survives power loss and is not worn out", "statement": "After writing, reading returns the current description; a second write of the same description does not touch the storage; power loss at any point between the erase and program steps of the write leaves the old content, the built-in fallback, or the complete new description. (Refuted: the stored bytes hold heap pointers of the strip table, so a stored description is only usable by a run whose heap has the same content at the same addresses; and an erase that is itself interrupted half-way can leave content that is accepted.)", "quantifier": "every storage content and crash point", "why_tests_cant": "every crash point", "anchors": ["src/devices/node/node.cpp: ReadDeviceFromFlash, WriteDeviceToFlash", "src/devices/fancy-node/fancy-node.cc"]}
{"id": "C80", "title": "Bootloader entry needs a deliberate double reset", "statement": "For every sequence of power-ups and resets, the controller enters the bootloader only as result of a reset during its arming window, never at a plain power-up.", "quantifier": "every reset schedule, and every delay between the readings of the clock", "why_tests_cant": "every crash/reset point", "anchors": ["src/devices/controller/controller.cpp: setup"]}
{"id": "C81", "title": "Watchdog is fed regularly", "statement": "The node feeds its watchdog at least once every seven main-loop iterations, for ever.", "quantifier": "every number of iterations", "why_tests_cant": "unbounded", "anchors": ["src/devices/node/node.cpp: loop"]}
{"id": "C82", "title": "Analog buttons report edges exactly", "statement": "A press is reported exactly at the iterations in which the thresholded, debounced reading becomes that button after being something else; nothing else is reported.", "quantifier": "every sequence of readings", "why_tests_cant": "unbounded sequences", "anchors": ["src/devices/controller/analog-button.cpp"]}
{"id": "C83", "title": "Tear-down frees every effect once", "statement": "Destroying a LED manager deletes each registered effect exactly once, for every sequence of registrations of at most 255 slots. (Refuted from 257 slots on Arduino, where an effect is deleted twice and another never.)", "quantifier": "every sequence of registrations", "why_tests_cant": "unbounded registration sequences", "anchors": ["lib/led_manager/LedManager.cpp: ~LedManager, AddEffect"]}
{"id": "C84", "title": "Start-up animation", "statement": "On every device whose LED count is not 0 the start-up animation stays inside the LED buffer, shows one white LED running to the end and back with a hue sweep between, takes 2 n max(500/n, n/30+1) + 256 (n/30+1) ms, less than seven seconds, and leaves all LEDs dark. (Refuted for a count of 0, including the wrapped count of 256 LEDs: division by zero.)", "quantifier": "every device", "why_tests_cant": "unbounded device layouts", "anchors": ["src/arduino/FastLedManager.cpp: PlayStartupAnimation, SetLed"]}
{"id": "C85", "title": "Controller colour mode", "statement": "In colour mode the columns beside each side button show that button's colour and a press transmits a control packet of 60 seconds with exactly the displayed colour; without a press only the radio tick transmits.", "quantifier": "every run and input", "why_tests_cant": "unbounded histories", "anchors": ["src/devices/controller/controller.cpp: RunColorMode"]}
{"id": "C86", "title": "Controller palette mode", "statement": "In palette mode the columns beside each side button show that button's palette and a press transmits, for 60 seconds, that palette with the effect currently running in the network. (Refuted after a press in colour mode, where the number 60, the delay of the colour packet, is transmitted as the effect.)", "quantifier": "every run and input", "why_tests_cant": "unbounded histories", "anchors": ["src/devices/controller/controller.cpp: RunPaletteMode"]}
{"id": "C87", "title": "Controller lamps", "statement": "The lamp of the first side button pressed on its side is bright, all other lamps in use are dimmed, and lamps of unused buttons are off. (Refuted for the middle right lamp in effect mode and the middle and bottom right lamps in colour mode, which follow the left buttons.)", "quantifier": "every run and input", "why_tests_cant": "all button combinations and histories", "anchors": ["src/devices/controller/controller.cpp: RunEffectMode, RunColorMode, RunPaletteMode", "src/devices/controller/buttons.cc"]}
{"id": "C88", "title": "Controller status lights", "statement": "In effect mode the left status LED is red for a slave and green for the master, the right one is blue exactly while the broadcast timer runs; the middle one is never lit in any mode.", "quantifier": "every run and input", "why_tests_cant": "unbounded histories", "anchors": ["src/devices/controller/controller.cpp: RunEffectMode"]}
{"id": "C89", "title": "Controller effect display", "statement": "In effect mode the top row shows the selected effect at network time, the middle row the selected palette, and the bottom row is dark whatever was displayed before.", "quantifier": "every run and input", "why_tests_cant": "unbounded histories", "anchors": ["src/devices/controller/controller.cpp: RunEffectMode, loop"]}
{"id": "C90", "title": "A controller low on battery is silent", "statement": "While suspended for low battery the controller neither receives nor transmits nor changes its selection or its network state, all LEDs are dark but a dim red left status LED. (On recovery in a direct mode the red light stays on: the claim that it goes off is refuted.)", "quantifier": "every run and input", "why_tests_cant": "unbounded histories", "anchors": ["src/devices/controller/controller.cpp: loop, LowBatteryMode"]}
{"id": "C91", "title": "The controller program is free of undefined behaviour", "statement": "No sequence of presses, switch positions, battery readings, packets and times makes the controller program, on its board and with the shipped effects, read out of bounds, divide by zero or shift too far.", "quantifier": "every run and input", "why_tests_cant": "unbounded histories", "anchors": ["src/devices/controller/controller.cpp: loop"]}
{"id": "C92", "title": "The controller is a network device", "statement": "Seen from the radio every run of the controller program is a run of the network state machine, so all network properties hold for it. In that run it hears only what the radio offered in iterations not skipped for low battery, and gets a local instruction only when the broadcast button (effect mode) or a side button (colour and palette mode) was pressed; a controller nobody touches gets none.", "quantifier": "every run", "why_tests_cant": "unbounded histories", "anchors": ["src/devices/controller/controller.cpp: loop"]}
{"id": "C93", "title": "The LED boards are network devices", "statement": "Seen from the radio every run of the node and fancy-node programs is a run of the network state machine from power-up: what it receives are exactly the id, type and payload of frames the radio driver offered (frames of up to three bytes are nothing), it gets no local instructions, and the frames handed to the driver are, in order, the encodings of the packets it sent.", "quantifier": "every run, frame and memory content", "why_tests_cant": "unbounded histories", "anchors": ["src/devices/node/node.cpp: loop", "src/devices/fancy-node/fancy-node.cc: loop", "src/arduino/RadioHeadRadio.cpp: readPacket, sendPacket"]}
{"id": "C94", "title": "Harmless radio traffic never brings a board down", "statement": "A board with the shipped effects and 1 to 255 LEDs (at most 32 on a strip marked controller) never runs into undefined behaviour as long as received frames have at most 61 bytes and set-effect frames name an existing palette. (Refuted for other traffic: one well-formed set-effect frame naming an effect that uses a palette, and a palette that does not exist, makes rendering undefined on every slave that takes it for new, whatever happened before.)", "quantifier": "every run, device, clock, battery reading, random stream and frame", "why_tests_cant": "unbounded histories; all frames", "anchors": ["src/devices/node/node.cpp: loop", "src/devices/fancy-node/fancy-node.cc: loop", "src/arduino/RadioHeadRadio.cpp: readPacket, sendPacket", "lib/led_manager/LedManager.cpp: RunEffect"]}
{"id": "C95", "title": "A board shows its current instruction", "statement": "After every iteration that is not skipped because of the battery the LEDs of a board show, in order, the picture of the current instruction at network time; on the fancy node the LED of the board itself shows the battery gauge for 20 seconds (if a reading was taken at boot) and nothing afterwards and is left alone by the effects unless the device has exactly one LED.", "quantifier": "every run and device", "why_tests_cant": "unbounded histories and layouts", "anchors": ["src/devices/node/node.cpp: loop", "src/devices/fancy-node/fancy-node.cc: loop", "src/arduino/FastLedManager.cpp: SetLed, WriteOutLeds"]}
{"id": "C96", "title": "A fancy node low on battery", "statement": "On shutting down for low battery all LEDs go dark but the first two, which turn dim red; while suspended the board keeps showing that and neither receives nor transmits nor changes its network state.", "quantifier": "every run and device", "why_tests_cant": "unbounded histories", "anchors": ["src/devices/fancy-node/fancy-node.cc: loop, LowBatteryMode"]}
{"id": "C97", "title": "On the hardware only direct neighbours are heard", "statement": "In every network of devices on the real radio, with any topology, schedule, loss, delay and repetition, whatever a device hears was composed (not relayed) by a direct neighbour and has the id, type and payload of the original: the relaying of C07 does not extend the range.", "quantifier": "every topology, number of devices, schedule and loss pattern", "why_tests_cant": "unbounded networks and schedules", "anchors": ["src/arduino/RadioHeadRadio.cpp: readPacket, sendPacket", "src/generic/NetworkManager.cpp: receive"]}
{"id": "C98", "title": "On the hardware an instruction travels one hop", "statement": "In every such network the instruction a device follows is the boot default, one given to it locally or of its own choice, or one that a direct neighbour authored in that sense: a master that takes over an instruction does not pass it on.", "quantifier": "every topology, number of devices, schedule and loss pattern", "why_tests_cant": "unbounded networks and schedules", "anchors": ["src/arduino/RadioHeadRadio.cpp: readPacket, sendPacket", "src/generic/RadioStateMachine.cpp: handleMasterEvent, SetEffect"]}
{"id": "C99", "title": "Two masters in reach on the hardware", "statement": "In every such network no device ever hears a claim, so a master becomes slave exactly when it hears a heartbeat whose id is at least the number it draws. (Refuted: that two masters in reach of each other resolve to one. They can stay masters through any number of mutually heard heartbeats.)", "quantifier": "every topology, number of devices, schedule and loss pattern", "why_tests_cant": "unbounded networks and schedules", "anchors": ["src/arduino/RadioHeadRadio.cpp: readPacket, sendPacket", "src/generic/RadioStateMachine.cpp: PerformMasterElection"]}
{"id": "C100", "title": "Effects repeat", "statement": "After its period (colour cycle, rainbow and contrast bumps 4096 ms, rainbow bumps 20480, stop light 16384, swinging lights 5000, palette display 131072, police 336000, firefly 491520000, pride 384 ms per LED or 192 on tiny strips, blinkers the least common multiple of 3 speed and 262144, spark 768000) an effect shows exactly the same picture again, on every strip and for every instruction. (Refuted for the spark and, on tiny strips, pride once the clock times their internal factor exceeds 32 bits: the picture jumps.)", "quantifier": "every strip, LED, instruction and time", "why_tests_cant": "all clock values, including 49 days of running time", "anchors": ["lib/effect/*.cpp: GetRGB"]}
{"id": "C101", "title": "Swinging lights", "statement": "The swinging-lights effect shows one light per palette colour, each swinging like a sine with a period of 5 s, evenly spread in phase; an LED shows the saturating sum of the lights, each fading linearly to nothing at a fifth of the strip, so an LED a fifth or more away from all lights is black.", "quantifier": "every strip, LED, palette and time", "why_tests_cant": "all positions and clock values", "anchors": ["lib/effect/SwingingLights.cpp: GetRGB"]}
{"id": "C102", "title": "Lightning is bright or dark", "statement": "Under the lightning effect an LED is lit exactly where the noise exceeds 160, with the noise as its brightness, so an LED that is lit has a brightness of at least 161 and all others are black.", "quantifier": "every strip, LED, palette and time", "why_tests_cant": "all positions and clock values", "anchors": ["lib/effect/LightningEffect.cpp: GetRGB"]}
{"id": "C103", "title": "The rainbow travels", "statement": "On a strip that is not tiny the rainbow is the palette's gradient moving along the strip by one LED every 128 ms, whatever the palette: what LED i + k shows now, LED i shows 128 k ms later. For palettes of two or more colours its brightness is 255 on bright strips and 128 on others. A palette of one colour gives that colour in the brightness of a wave of 4096 ms (limited to two thirds unless the strip is bright) that travels likewise; on a tiny strip it stands still at the palette's own brightness, also if the strip is not bright.", "quantifier": "every strip, LED, palette and time", "why_tests_cant": "all positions and clock values", "anchors": ["lib/effect/RainbowEffect.cpp: GetRGB"]}
{"id": "C104", "title": "Palette display", "statement": "The palette display shows the gradient of the palette once along the strip, LED i of n at i/n of the way beginning with the first colour, and stands still, except on strips with fewer LEDs than a palette of at most four colours has colours, where all LEDs run through the gradient together.", "quantifier": "every strip, LED, palette and time", "why_tests_cant": "all strip lengths and clock values", "anchors": ["lib/effect/DisplayColorPaletteEffect.cpp: GetRGB"]}
{"id": "C105", "title": "Fire is red to yellow", "statement": "The fire effect shows only hues up to 35 of 255, saturations of at least 200 and brightnesses from 8 to 192.", "quantifier": "every strip, LED, random phase and time", "why_tests_cant": "all noise values", "anchors": ["lib/effect/FireEffect.cpp: GetRGB"]}
{"id": "C106", "title": "Fireflies glow half of the time", "statement": "A firefly glows with half a sine during the first 512 ms of each 1024 ms of its own clock and is dark during the rest. Its clock is the network time shifted by its offset, fully at the beginning of a minute, not at all in the middle 20 s, with linear changes between. On the controller (of up to 32 LEDs) only even LEDs glow, each with an offset of its own.", "quantifier": "every strip, LED, offset below 512 and time", "why_tests_cant": "all clock values", "anchors": ["lib/effect/FireflyEffect.cpp: GetRGB"]}
{"id": "C107", "title": "Bumps", "statement": "Rainbow bumps show the gradient moving by 1/256 of the palette each 10 ms with the brightness of a bump (half a sine, then dark) moving by 1/256 of its length each 16 ms. Contrast bumps show the gradient at brightness 64 outside such a bump and, inside it, the gradient a quarter of a turn ahead at 96 plus half the height of the bump.", "quantifier": "every strip, LED, palette and time", "why_tests_cant": "all positions and clock values", "anchors": ["lib/effect/RainbowBumpsEffect.cpp: GetRGB", "lib/effect/ContrastBumpsEffect.cpp: GetRGB"]}
{"id": "C108", "title": "Police lights", "statement": "The police effect shows only red, blue and black. On a long strip the first 14 LEDs are a red light of two halves that take turns flashing, the last 13 a blue one, at slightly different speeds; on tiny strips and on the controller red and blue alternate.", "quantifier": "every strip, LED and time", "why_tests_cant": "all positions and clock values", "anchors": ["lib/effect/PoliceEffect.cpp: GetRGB"]}
{"id": "C109", "title": "Colour cycle", "statement": "Under the colour cycle all LEDs show the same: the palette's gradient once in 4096 ms (halved unless bright), or for a palette of one colour that colour pulsing with a wave of 4096 ms (limited to two thirds unless bright).", "quantifier": "every strip, LED, palette and time", "why_tests_cant": "all clock values", "anchors": ["lib/effect/ColorCycleEffect.cpp: GetRGB"]}
{"id": "C110", "title": "A settled network keeps its master", "statement": "Once exactly one device of a network on the real radio is master and nothing sent earlier is on the air any more, it stays the only master for as long as every other device keeps hearing a heartbeat at least every 5000 ms, whatever else is sent, lost, delayed or repeated, whatever is entered on the devices, and for any topology.", "quantifier": "every topology, number of devices, schedule, loss pattern and input", "why_tests_cant": "unbounded networks and schedules", "anchors": ["src/generic/RadioStateMachine.cpp: RadioTick, handleSlaveEvent, handleMasterEvent", "src/arduino/RadioHeadRadio.cpp: readPacket, sendPacket"]}
{"id": "C111", "title": "In a settled network the clocks agree", "statement": "In such a network the network time of every slave that has heard the master is the master's, later by exactly the time between the master's sending of the last heartbeat heard and its hearing, for as long as the slave hears no other.", "quantifier": "every topology, number of devices, schedule, loss pattern, input and time", "why_tests_cant": "unbounded networks and schedules", "anchors": ["src/generic/RadioStateMachine.cpp: RadioTick, handleSlaveEvent, handleMasterEvent", "src/generic/RadioStateMachine.cpp: GetNetworkMillis"]}
{"id": "C112", "title": "In a settled network the master directs the show", "statement": "In such a network the instruction a slave heard last is one the master itself followed when sending it, or one entered locally on a neighbouring device; nothing else, in particular no relayed or made-up instruction, is taken up.", "quantifier": "every topology, number of devices, schedule, loss pattern and input", "why_tests_cant": "unbounded networks and schedules", "anchors": ["src/generic/RadioStateMachine.cpp: RadioTick, handleSlaveEvent, handleMasterEvent", "src/generic/RadioStateMachine.cpp: SetEffect"]}
{"id": "C113", "title": "The shape of the spark", "statement": "The spark is a head of two LEDs at full brightness and a tail of six that fade (128, 96, 48, 32, 24, 16 of 255); it runs up a strip of n LEDs in n + 8 steps of 3000/(n+8) ms, turns, and comes down head first in the same time; round a circular strip it turns once in 3 s. Its colours are the palette's gradient, moving on by 1/256 every 24 ms and by 14/256 per LED. This holds while the clock times n + 8 fits 32 bits.", "quantifier": "every strip, LED, palette and time", "why_tests_cant": "all positions and clock values", "anchors": ["lib/effect/SparkEffect.cpp: GetRGB", "lib/effect/SparkEffect.hpp: brightnesses"]}
{"id": "C114", "title": "The Rorschach pattern", "statement": "The Rorschach effect shows a noise field read at a point that falls back by 32 and 4 units per LED from the middle of the strip and moves on by one unit each 8 ms: as brightness for a palette of one colour, otherwise as position in the palette's gradient from end to end (at half brightness unless the strip is bright). (Refuted for the middle LED, which reads the field 2^21 and 2^18 units away and can be dark between two bright neighbours.)", "quantifier": "every strip, LED, palette, random phase and time", "why_tests_cant": "all positions and clock values", "anchors": ["lib/effect/RorschachEffect.cpp: GetRGB", "lib/math/Perlin.hpp: perlinNoise"]}
{"id": "C115", "title": "An installation is a network of boards", "statement": "Whatever happens in an installation of LED boards (each running the node or fancy-node program with its LEDs, battery and radio) and other radio devices is, seen from the radio, something that can happen in a network of radio devices, with the same frames on the air; and what each board does is a run of its own program. So all properties of networks and all properties of boards hold together in an installation.", "quantifier": "every installation, topology, schedule, loss pattern and input", "why_tests_cant": "unbounded networks and schedules", "anchors": ["src/devices/node/node.cpp: loop", "src/devices/fancy-node/fancy-node.cc: loop", "lib/led_manager/LedManager.cpp: RunEffect", "src/generic/RadioStateMachine.cpp: Tick, GetNetworkMillis"]}
{"id": "C116", "title": "In a settled installation the LEDs follow the master", "statement": "In an installation with a single master that everybody keeps hearing, the LEDs of a board that has heard a heartbeat and an instruction show the picture of an instruction the master followed (or that was entered on a neighbouring device), at the master's network time: an LED computed d ms after the last heartbeat was heard has the colour for the network time the master has d ms after sending it. This holds for devices of up to 255 LEDs if only complete instructions are entered.", "quantifier": "every installation, topology, schedule, loss pattern, layout and input", "why_tests_cant": "unbounded networks and schedules", "anchors": ["src/devices/node/node.cpp: loop", "src/devices/fancy-node/fancy-node.cc: loop", "lib/led_manager/LedManager.cpp: RunEffect", "src/generic/RadioStateMachine.cpp: Tick, GetNetworkMillis"]}
{"id": "C117", "title": "Boards of the same kind show the same", "statement": "In such an installation, while the master keeps its instruction and nothing is entered, two boards of the same layout that have both heard a heartbeat and the instruction show the same colour on each LED computed at the same time after the respective heartbeats; and so does the master itself if it is such a board. Excepted are the effects with a random phase (fire, fireflies, Rorschach).", "quantifier": "every installation, topology, schedule, loss pattern, layout and input", "why_tests_cant": "unbounded networks and schedules", "anchors": ["src/devices/node/node.cpp: loop", "src/devices/fancy-node/fancy-node.cc: loop", "lib/led_manager/LedManager.cpp: RunEffect", "src/generic/RadioStateMachine.cpp: Tick, GetNetworkMillis"]}
{"id": "C118", "title": "A lost master is replaced", "statement": "When no master is running any more in a network on the real radio and everything sent earlier is gone, a new master emerges whatever the topology, schedule and losses: by the time some device listens and hears nothing new, 7000 ms after the last sign of a master it had, that device or another has turned master.", "quantifier": "every topology, number of devices, schedule, loss pattern and input", "why_tests_cant": "unbounded networks and schedules", "anchors": ["src/generic/RadioStateMachine.cpp: RadioTick, handleSlaveEvent, beginMaster", "src/arduino/RadioHeadRadio.cpp: readPacket, sendPacket"]}
{"id": "C119", "title": "A colour chosen on the controller appears on the boards", "statement": "A press of a side button in colour mode puts a frame on the air; after the iteration in which a board receives it and takes it for new, and no other instruction after it, every LED of the board shows exactly the colour the controller displays next to the button (an eighth on dim strips, nothing on strips marked off), whether the board is slave or master, of any layout up to 255 LEDs, whatever both did before.", "quantifier": "every history of controller and board, every button, layout, clock and memory content", "why_tests_cant": "unbounded histories and layouts", "anchors": ["src/devices/controller/controller.cpp: RunColorMode, RunPaletteMode, RunEffectMode", "src/arduino/RadioHeadRadio.cpp: sendPacket, readPacket", "src/devices/node/node.cpp: loop", "lib/led_manager/LedManager.cpp: RunEffect"]}
{"id": "C120", "title": "An effect or palette chosen on the controller appears on the boards", "statement": "Likewise the broadcast button in effect mode makes every board with the shipped effects that receives the frame show the selected effect with the selected palette (provided the controller has not been in palette mode since it was last in effect mode), and a side button in palette mode makes it show the button's palette with the effect that has the number of the one the controller follows.", "quantifier": "every history of controller and board, every selection, layout, clock and memory content", "why_tests_cant": "unbounded histories and layouts", "anchors": ["src/devices/controller/controller.cpp: RunColorMode, RunPaletteMode, RunEffectMode", "src/arduino/RadioHeadRadio.cpp: sendPacket, readPacket", "src/devices/node/node.cpp: loop", "lib/led_manager/LedManager.cpp: RunEffect"]}
{"id": "C121", "title": "A colour on the DMX bus appears on the boards", "statement": "Whenever the DMX gateway transmits, every board that receives the frame and takes it for new shows on all its LEDs the colour the gateway just read from the bus.", "quantifier": "every input of the gateway, history of the board and layout", "why_tests_cant": "unbounded histories and layouts", "anchors": ["src/devices/dmx/dmx.cpp: loop", "src/arduino/RadioHeadRadio.cpp: sendPacket, readPacket", "src/devices/node/node.cpp: loop", "lib/led_manager/LedManager.cpp: RunEffect"]}
{"id": "C122", "title": "The flames", "statement": "Under the fire effect an LED shows the colour of a black-red-orange-yellow gradient at a heat that is three parts the noise field at a point moving by one unit every 8 ms and one part at another moving every 2 ms; neighbouring LEDs of a straight strip are 20 and 10 units apart, those of a circular one lie on circles of 5.09 units per LED. (Refuted: that the two halves of a mirrored circle burn independently. With an even number of LEDs the first LED of the second half shows the same as its neighbour.)", "quantifier": "every strip, LED, random phase and time", "why_tests_cant": "all positions and clock values", "anchors": ["lib/effect/FireEffect.cpp: GetRGB", "lib/math/Perlin.hpp: perlinNoise, perlinNoisePolar"]}
{"id": "C123", "title": "The noise is smooth", "statement": "The noise field differs by at most 28 of 255 between neighbouring points in either direction, also across the border of a tile and where the 32-bit coordinates wrap, so between points a and b units apart by at most 28 (a + b). In consequence the brightness of the Rorschach pattern of a one-colour palette changes by at most 56 within 8 ms.", "quantifier": "every pair of points, strip, LED and time", "why_tests_cant": "2^64 points", "anchors": ["lib/math/Perlin.hpp: perlinNoise, tileHash", "lib/effect/RorschachEffect.cpp: GetRGB"]}
{"id": "C124", "title": "The pages of the key pad", "statement": "What the key pad offers depends only on the key events since power-up: it starts with the first page of palettes; two keys choose between palettes and effects, two walk cyclically through the two pages of twelve keys of the list on offer, and each list remembers its page. Each of the 22 palettes and 19 registered effects is on exactly one page and key: only that key, on that page, orders it (the swinging lights are registered twice). Seen from the radio the pad is a device like any other, which is given a local instruction (always for 60 s) only when a choosing key or the palette key is pressed. (Refuted for other numbers of effects: the left key on the first page leads to the last page only if the number of pages divides 256.)", "quantifier": "every sequence of key events, received packets and clock values", "why_tests_cant": "unbounded histories", "anchors": ["src/devices/trellis/trellis.ino: trellisHandler, positive_mod8, keyIndexToEffectIndex, keyIndexToPaletteIndex"]}
{"id": "C125", "title": "The keys of the key pad", "statement": "While the pad follows an effect instruction, a palette key transmits, twice, the current effect with the palette of the key for 60 s (the palette display if the current effect is the dark one), an effect key the effect of the key with the current palette, and the palette key pressed while palettes are offered turns everything dark; keys without an item, releases and the paging keys transmit nothing. (Refuted while it follows a colour: the delay of the colour is taken for the number of an effect and its green part for that of a palette.)", "quantifier": "every history, key and clock value", "why_tests_cant": "unbounded histories", "anchors": ["src/devices/trellis/trellis.ino: trellisHandler", "src/generic/RadioStateMachine.cpp: SetEffect"]}
{"id": "C126", "title": "What is chosen on the key pad appears on the boards", "statement": "After a choosing key, every board with the shipped effects that receives either of the two frames, and takes it for new and no other instruction after it, shows the chosen effect with the palette the pad follows, or the chosen palette with the effect the pad follows, at the board's network time.", "quantifier": "every history of pad and board, every key, layout, clock and memory content", "why_tests_cant": "unbounded histories and layouts", "anchors": ["src/devices/trellis/trellis.ino: trellisHandler", "src/arduino/RadioHeadRadio.cpp: sendPacket, readPacket", "src/devices/node/node.cpp: loop", "lib/led_manager/LedManager.cpp: RunEffect"]}
{"id": "C127", "title": "What the keys of the key pad show", "statement": "After every iteration each choosing key shows, at half brightness, what a board of one LED would show for its palette (under the palette display) or its effect (with the current palette) at the pad's network time, keys without an item are dark, and the keys of the bottom row are lit according to whether they are held. The pad never runs into undefined behaviour as long as the palettes of the instructions it hears exist. (Refuted when it hears a colour: if the green part is 22 or more, it reads outside the palette table while showing effects.)", "quantifier": "every history, key, clock value and random state", "why_tests_cant": "unbounded histories", "anchors": ["src/devices/trellis/trellis.ino: loop, runChooseEffect, runChooseColor, rgbToTrellisColor"]}
{"id": "C128", "title": "Which frames a device takes for new", "statement": "A device takes a packet it receives for new exactly if its number is not among the numbers of the last five packets the device itself transmitted since power-up (relays included), with number 0 counted for those missing; on the air: a board compares the first two bytes of the frame with those of the last five frames it put on the air. A frame that is not new is as good as none: the iteration is the same without it.", "quantifier": "every history of a device or board and every packet or frame", "why_tests_cant": "unbounded histories", "anchors": ["src/generic/NetworkManager.cpp: receive, send, AddToRecentIdsCache", "src/generic/RadioStateMachine.cpp: RadioTick", "src/devices/node/node.cpp: loop"]}
{"id": "C129", "title": "The one-button remote", "statement": "Each time the remote finds its button pressed it transmits one frame, and every board with the shipped effects that takes it for new shows the contrast bumps. (Refuted that pressing it always works: all its frames have number 0, so boards that have transmitted fewer than five frames since power-up ignore them, and so do boards that have such a frame among the last five they transmitted.)", "quantifier": "every sequence of button readings, every history of a board", "why_tests_cant": "unbounded histories", "anchors": ["src/devices/remote/remote.ino: loop", "src/arduino/RadioHeadRadio.cpp: sendPacket, readPacket", "src/devices/node/node.cpp: loop", "lib/led_manager/LedManager.cpp: RunEffect"]}
{"id": "C130", "title": "The range tester", "statement": "The range tester transmits one frame per iteration, always the same (the colour cycle with palette 4 for 10 s, number 0, with the same consequences for boards as those of the remote), shows a received signal of -120 to 0 dBm at once as a hue from red to aqua in steps of one per dBm, keeps it for as long as nothing else is received and no iteration ends more than 500 ms after the reception, is dark from then on until the next reception, and is dark as long as it has received nothing. It goes on for ever unless it receives a frame of more than 61 bytes.", "quantifier": "every history of receptions and clock values", "why_tests_cant": "unbounded histories", "anchors": ["src/devices/range_test/range_test.cc: loop", "src/arduino/RadioHeadRadio.cpp: readPacket, sendPacket, LastRssi"]}
{"id": "C131", "title": "The test radio", "statement": "On the host test radio, a program reads the staged packet with the unused part of its payload cleared, every time it asks, until another packet is staged or the packet is withdrawn (staging writes inside of the payload only, whatever the length field says); a packet that the test rewrites in place is read as rewritten; before any staging nothing is read. A test collects the last packet transmitted since it last collected one, or nothing. A state machine on this radio goes through a run of a device like any other, and takes the staged packet up once: after that it ignores it until it has transmitted five more packets. (Refuted that it takes it up only once for good: after five more transmissions it takes the packet up again.)", "quantifier": "every sequence of calls, every random supply and clock", "why_tests_cant": "unbounded sequences of calls", "anchors": ["lib/fake-radio/FakeRadio.cpp: readPacket, sendPacket, setReceivedPacket, getSentPacket", "src/generic/NetworkManager.cpp: receive, send"]}
{"id": "C132", "title": "The test LEDs", "statement": "With at most 255 LEDs, after a frame GetLed of the host LED manager returns for every LED exactly the colour the LED shows, and aborts for LEDs the device does not have; SetGlobalColor colours every LED; ClearEffects deletes every registered effect exactly once and leaves a manager on which only the effects registered afterwards are found.", "quantifier": "every device with at most 255 LEDs, every effect, instruction, time and random state; every list of registrations with at most 255 slots", "why_tests_cant": "all devices, effects and registries", "anchors": ["lib/fake-led-manager/FakeLedManager.cpp: GetLed, SetGlobalColor, SetLed, ClearEffects, PublicAddEffect", "lib/led_manager/LedManager.cpp: RunEffect, AddEffect"]}
{"id": "C133", "title": "Wiring does not change the picture", "statement": "What an effect computes for a position depends on the strip only by its length and its flags tiny, bright, circular, mirrored and controller. A strip wired from its far end shows the same picture as one wired from its near end (LED i of one shows what LED n-1-i of the other shows), and a strip marked dim shows the same picture at an eighth of each colour. On the shipped devices: the matrix panel, eight rows of sixteen wired in one snaking line, shows the same picture in all rows column by column; the two halves of the folded rope are alike LED by LED; the rings at the two ends of the cloak are mirror images; the second half of the backpack repeats the first.", "quantifier": "every effect, instruction, time, position, pair of strips and random state; every LED of the four devices", "why_tests_cant": "2^32 times, all strips, all packets", "anchors": ["lib/led_manager/LedManager.cpp: RunEffect", "lib/effect/*.cpp: GetRGB", "lib/device/Devices.hpp: half_matrix_panel, backpack_rope, rainbow_cloak, ross_backpack"]}
{"id": "C134", "title": "Each palette keeps its colours", "statement": "Each of the 22 palettes stands for a range of hues and saturations (a table: the eight plain colours, warm, cool, fire and so on). Whatever the time, LED and strip, each of the ten effects that show colours of the palette shows only black and colours within that range, in any brightness. The range is not too wide: the palette has colours with its first and last hue and with its lowest and highest saturation, and the rainbow palettes have each of the 255 hues.", "quantifier": "every palette, effect, LED, time, strip, random state", "why_tests_cant": "2^32 times, all strips", "anchors": ["lib/effect/Effect.cpp: palettes", "lib/color/ColorPalette.cpp: GetGradient, GetColor", "lib/effect/*.cpp: GetRGB"]}
{"id": "C135", "title": "The test network distributes packets", "statement": "In a Tick of the network of the integration tests, with any number of devices, every device runs its own Tick hearing the packet the network took last (unused payload cleared), unless packet loss is on and the device draws a multiple of it; then the network takes at most one packet, that of the first device in whose radio one waits, which is the last one that device transmitted. Every packet heard was transmitted by a device.", "quantifier": "every number of devices, state, loss setting and random draws", "why_tests_cant": "unbounded networks and histories", "anchors": ["test/FakeNetwork.cpp: Tick, TransmitPacket, reinitNode", "test/RadioIntegrationTest.hpp: getNumMasters, runTicks, resetMaster"]}
{"id": "C136", "title": "Helpers of the integration tests that do nothing", "statement": "(Refuted that a packet given to TransmitPacket is heard: whatever a test does, leaving out all its calls of TransmitPacket changes no device, no packet on its way and no abort.) (Refuted that resetMaster resets the masters: it resets the first device if that is a master and nothing otherwise; a reachable network whose only master is another device is left as it is.) reinitNode makes the device it names anew, a slave that remembers nothing and gives a master 5 to 7 s, and changes nothing else, not even what waits in the radio of that device.", "quantifier": "every sequence of calls of a test, every state of the network", "why_tests_cant": "unbounded sequences of calls", "anchors": ["test/FakeNetwork.cpp: Tick, TransmitPacket, reinitNode", "test/RadioIntegrationTest.hpp: getNumMasters, runTicks, resetMaster"]}
{"id": "C137", "title": "The test network elects one master", "statement": "In the network of the integration tests with up to 99 devices and no packet loss, a master appears at the latest in the first Tick after 7000 ms on the clock (the clock may be advanced at will until then, up to 50 s); if the clock runs at a millisecond per Tick from its appearance on, the network is never without a master again, and n Ticks later exactly one device is master, the same one for ever. This assumes that no device draws a packet number in use at that moment. (Refuted without this assumption: two devices that draw the same numbers both become master, and both still are 40 Ticks later.) (Refuted also if the first master appears after more than a minute: it tells a new effect at once, which may overwrite a claim, and two masters stay, in a concrete network of three for 39 Ticks.)", "quantifier": "every number of devices up to 99, all random numbers without collisions, every length of the run up to 49 days", "why_tests_cant": "unbounded runs, all random numbers", "anchors": ["test/RadioStateIntegrationTest.cpp: electsOneMaster, stableOverTime", "test/FakeNetwork.cpp: Tick", "src/generic/RadioStateMachine.cpp: RadioTick, handleSlaveEvent, handleMasterEvent, beginMaster"]}
{"id": "C138", "title": "What the election tests check, for all random numbers", "statement": "The integration tests electsOneMaster and stableOverTime pass for all random numbers without collisions: after a Tick, one 4995 ms later and 2010 more a millisecond apart there is one master; and with Ticks a millisecond apart there is, from the 7001st on and for as long as one likes, one master, always the same.", "quantifier": "all random numbers without collisions, every length of the run up to 49 days", "why_tests_cant": "the tests run with one seed and for 10 s", "anchors": ["test/RadioStateIntegrationTest.cpp: electsOneMaster, stableOverTime", "test/FakeNetwork.cpp: Tick", "src/generic/RadioStateMachine.cpp: RadioTick, handleSlaveEvent, handleMasterEvent, beginMaster"]}
{"id": "C139", "title": "Three lost heartbeats in a row do no harm", "statement": "In a network on the real radio with a single master that everybody has just heard: if the master finds time for its own business at least once in D ms, and every other device hears at least one of any four heartbeats within L ms of the last of the four, where 4 (1001 + D) + L is at most 5000, then the master stays the only master, whatever the topology, the number of devices, the relaying and the starting times of their clocks. (Refuted for four in a row: a network in which the others miss a fourth heartbeat gets a second master.)", "quantifier": "every topology, number of devices, schedule, loss pattern, offset of clocks, number of steps", "why_tests_cant": "unbounded networks and schedules, timing", "anchors": ["src/generic/RadioStateMachine.cpp: RadioTick, handleSlaveEvent, handleMasterEvent, sendHeartbeat", "src/arduino/RadioHeadRadio.cpp: readPacket, sendPacket"]}
{"id": "C140", "title": "Clocks agree within the latency", "statement": "In such a network, if no heartbeat is heard more than L' ms after it was sent, the network time of every device that has heard one is at every moment behind that of the master by at most L' ms, and by the same amount until it hears the next.", "quantifier": "every topology, number of devices, schedule, loss pattern, offset of clocks, moment", "why_tests_cant": "unbounded networks and schedules, timing", "anchors": ["src/generic/RadioStateMachine.cpp: RadioTick, handleSlaveEvent, handleMasterEvent, sendHeartbeat", "src/arduino/RadioHeadRadio.cpp: readPacket, sendPacket"]}
{"id": "C141", "title": "The test network never aborts", "statement": "A network of the integration tests of any size can be made whatever the random numbers, and whatever calls a test makes, in any order and number, no call aborts: no assertion of the host build fails and no remainder by zero is taken. Every packet the devices transmit is a heartbeat of four bytes, a claim, or an instruction of three bytes for one of the 27 effects and 22 palettes, and each device shows such an effect and palette.", "quantifier": "every number of devices, sequence of calls and random numbers", "why_tests_cant": "unbounded sequences of calls", "anchors": ["test/FakeNetwork.cpp: Tick, TransmitPacket, reinitNode", "test/RadioIntegrationTest.hpp: getNumMasters, runTicks, resetMaster"]}
{"id": "C142", "title": "Everybody follows the master in bounded time", "statement": "In a network on the real radio as in C139, suppose that from some moment on nobody enters an instruction on any device and the master keeps following one instruction. A device that hears at least one of any K repetitions of the master's instruction, and hears no instruction more than L' ms after it was sent, follows that instruction at every moment later than 2 L' + K (2003 + 3 D) ms after that moment, whatever it and its neighbours were told before.", "quantifier": "every topology, number of devices, schedule, loss pattern, offset of clocks, instruction and moment", "why_tests_cant": "unbounded networks and schedules, timing", "anchors": ["src/generic/RadioStateMachine.cpp: RadioTick, handleSlaveEvent, handleMasterEvent, sendHeartbeat", "src/arduino/RadioHeadRadio.cpp: readPacket, sendPacket"]}
{"id": "C143", "title": "The simulator", "statement": "In the window of the simulator the frames of the LEDs lie within the initial size, for any number of LEDs, and no two overlap; SetGlobalColor colours every LED. However long the window stays open and whatever the clock says, the simulator never fails; its state machine, which is never run, stays a slave that transmits nothing and keeps its first instruction, so after every frame all twenty LEDs show the same red, pulsing once in 4096 ms, at the time measured at the end of the frame before (zero for the first).", "quantifier": "every number of LEDs; every sequence of clock readings and random states, every initial content of memory", "why_tests_cant": "unbounded runs", "anchors": ["lib/simulator/Simulator.cpp: main", "lib/simulator/SimulatorLedManager.hpp: SetGlobalColor, SetLed, SetLedPositions, GetInitialSize"]}
{"id": "C144", "title": "A network without a master settles", "statement": "In a network on the real radio in which no master is running (after power-on, or because the master died), let device m be the first to turn master. If nobody else does so in the next G ms, every device that does anything later has heard a master (or was switched on) since then, m finds time for its own business at least once in D ms, and of any four of its heartbeats every other device hears at least one at most L ms after the last, with 4 * (1001 + D) + L at most 5000, then no other device turns master, ever, and m stays master; if all devices were slaves, m is the only master from then on. Devices may be switched on late or die. (Refuted that the first master always stays the only one: a device that does not hear of it in time becomes a second master.)", "quantifier": "all numbers of devices, topologies, random numbers, schedules, losses and delays within the bounds, without bound on time (up to the 49 days of the clocks)", "why_tests_cant": "The property concerns every moment of an unbounded run of any number of devices", "anchors": ["src/generic/RadioStateMachine.cpp: RadioTick, handleSlaveEvent, handleMasterEvent, sendHeartbeat", "src/arduino/RadioHeadRadio.cpp: readPacket, sendPacket"]}
{"id": "C145", "title": "Every board shows the master's picture in bounded time", "statement": "In a network on the real radio as in C139, C140 and C142, let one device be an LED board whose last iteration ended later than 2 L' + K (2003 + 3 D) ms after the moment from which the master keeps following one complete instruction, and later than 5000 ms after the start. Each of its LEDs then has the colour that instruction prescribes for that strip and LED (as in C95) at the network time the master had at most L' ms before the LED was computed, the same delay for all LEDs, whatever the board was told before.", "quantifier": "every topology, number of devices, schedule, loss pattern, offset of clocks, instruction, device with at most 255 LEDs, LED and moment", "why_tests_cant": "unbounded networks and schedules, timing, every instruction and LED", "anchors": ["src/generic/RadioStateMachine.cpp: RadioTick, handleSlaveEvent, handleMasterEvent, sendHeartbeat", "src/arduino/RadioHeadRadio.cpp: readPacket, sendPacket", "lib/led_manager/LedManager.cpp: RunEffect", "src/devices/node/node.cpp: loop"]}
{"id": "C146", "title": "Devices of the test network may be reset", "statement": "In the network of the integration tests with up to 42 devices and no packet loss, let a test reset any devices, as often as it likes, but only when there was one master and no reset in the last 10 n + 3 Ticks. Resets of other devices leave the one master in office; the network loses its master only when that is reset. Then a master appears at the latest in the first Tick more than 7001 + 4 n ms later, n Ticks after its appearance there is exactly one master, and so there is until the next reset. The clock runs a millisecond per Tick while there is a master or a packet on its way, and as one likes otherwise; the network is without a master only in the first 50 s of the clock, and no device draws a packet number in use.", "quantifier": "every number of devices up to 42, every set and sequence of resets, all random numbers without collisions, every length of the run up to 49 days", "why_tests_cant": "unbounded runs and sequences of resets, all random numbers", "anchors": ["test/RadioStateIntegrationTest.cpp: relectsMasterIfMasterDisappears", "test/FakeNetwork.cpp: reinitNode, Tick", "src/generic/RadioStateMachine.cpp: RadioTick, handleSlaveEvent, handleMasterEvent, beginMaster"]}
{"id": "C147", "title": "The test network agrees on the effect", "statement": "In the network of the integration tests with up to 99 devices and no packet loss, with the clock at a millisecond per Tick from the appearance of the first master on: the one master changes its instruction at most in the Ticks in which the clock reaches a multiple of 60001 ms; 7 n + 2005 Ticks after the appearance every device follows the master's instruction (the same effect, delay and palette), except in the first 6 n + 2004 ms after a change; and from the first change on GetEffectIndex returns the same on all devices at these times. This assumes that no device draws a packet number in use. (Refuted that GetEffectIndex agrees before the first change: all devices follow effect 1, which the slaves report, but the master reports 0.)", "quantifier": "every number of devices up to 99, all random numbers without collisions, every moment of a run of up to 49 days", "why_tests_cant": "unbounded runs, all random numbers; the test setEffectIndex looks at one moment with one seed", "anchors": ["test/RadioStateIntegrationTest.cpp: setEffectIndex", "test/FakeNetwork.cpp: Tick", "src/generic/RadioStateMachine.cpp: RadioStateMachine, handleMasterEvent, handleSlaveEvent, GetEffectIndex, GetSetEffect"]}
{"id": "C148", "title": "Packet loss in the test network", "statement": "In the network of the integration tests with up to 42 devices, let there be one master after Ticks without loss, and not just since the last Tick. From then on let anything be lost: the test sets any loss before any Tick and any random numbers are drawn; and let the test reset any other devices, only not within 10 n + 3 Ticks of another reset. As long as each of the other devices has passed on a heartbeat or was reset in the last 5 s, that master stays the only master, and in any 10 n + 3 Ticks there is one after which no packet is on its way. On the other hand, in any course of events a device to which everything is lost for 7 s is master then. (Refuted that the test stableWithMildPacketLoss succeeds for all random numbers: if all numbers drawn for the losses are multiples of 100 then, whatever network the constructor made, every device is master after 7 s and as long as this goes on.)", "quantifier": "every number of devices (up to 42, resp. 99), every pattern of losses in every Tick, every random number, every sequence of resets so spaced, every number of Ticks", "why_tests_cant": "the tests setPacketLoss(100) with one fixed seed and allow a number of bad Ticks; that losses alone never depose the master, or make the devices send for ever, is a statement about all loss patterns", "anchors": ["test/RadioStateIntegrationTest.cpp: stableWithMildPacketLoss, stableWithMildPacketLossAndNodesDropping", "test/FakeNetwork.cpp: Tick, setPacketLoss, reinitNode", "src/generic/RadioStateMachine.cpp: RadioTick, handleSlaveEvent, handleMasterEvent"]}
{"id": "C149", "title": "The test network recovers from several masters", "statement": "In the network of the integration tests, let anything happen first: any losses, resets and jumps of the clock. Then let no packet be on its way, and from then on nothing be lost or reset and the clock run at a millisecond per Tick, with no device drawing a packet number in use. With up to 99 devices there is a master 7 s later, and from the first one on there always is; a packet on its way that some device does not know was sent by a master and is known to no other device. With up to 30 devices, however many masters there are: when a heartbeat is heard and no device tells the effect of its own accord in the next (n + 1)(n + 2) Ticks, there is exactly one master after that, the same one for ever. (Refuted without that silence: a claim may be overwritten in the radio by the effect told in the same Tick, and then both are still masters 13 Ticks later. Refuted that all is well once there is one master: it may be one that was told the effect by another master, and then it never changes the effect again as long as it runs undisturbed.)", "quantifier": "every number of devices up to 99 (30), every history before, any set of masters, all random numbers without collisions, every length of the run up to 49 days", "why_tests_cant": "unbounded histories, all random numbers", "anchors": ["test/FakeNetwork.cpp: Tick, setPacketLoss, reinitNode", "test/RadioStateIntegrationTest.cpp: stableWithMildPacketLoss, relectsMasterIfMasterDisappears", "src/generic/RadioStateMachine.cpp: handleMasterEvent, handleSlaveEvent, beginMaster"]}
{"id": "C150", "title": "The palette display shows the listed colours", "statement": "Told to display a palette, a strip whose number of LEDs is a multiple m of the number of colours of the palette shows at its LEDs 0, m, 2m and so on exactly the colours listed for that palette in a table of the 22 palettes (hue, saturation and value), in their order, at all times; at half their value unless the strip is bright.", "quantifier": "every palette, time, strip of a fitting length, platform and random state", "why_tests_cant": "2^32 times, all strips, all palettes", "anchors": ["lib/effect/DisplayColorPaletteEffect.cpp: GetRGB", "lib/effect/Effect.cpp: palettes", "lib/color/ColorPalette.cpp: GetGradient"]}
{"id": "C151", "title": "The shipped devices", "statement": "The device descriptions shipped are those of a table: each has the listed strips in their order, with the listed numbers of LEDs, and FlagEnabled answers yes for exactly the flags listed.", "quantifier": "every shipped device, strip and flag", "why_tests_cant": "a table to compare with, flag by flag", "anchors": ["lib/device/Devices.hpp", "lib/device/StripDescription.cpp: FlagEnabled"]}
{"id": "C152", "title": "How soon a change of effect is followed, and what the effect tests see", "statement": "In the network of the integration tests as in C147: if no packet is on its way when the master changes the effect, every device follows after one more Tick, until the next change; if the master transmits nothing in the n + 1 Ticks after the change, every device follows after these. For the first half hour no packet is on its way except in the 3 n + 1 ms after the first master appeared and the 2 n ms after each change and after each multiple of 1001 ms and of 2001 ms since the first master appeared. The test setEffectIndex finds all effects 0 after its first Tick, and all effects equal at its end if no packet was on its way just before the third change. The test changesEffectWhenMasterNotStable, if its first device is not master, finds effect 1 before, resets nothing, and finds afterwards the effect the master chose at 60.001 s. (Refuted that it shows a change of effect when the master is reset: if its first device is master and no packet is on its way, it finds 0 before and 0 after, so it fails for all random numbers.)", "quantifier": "every number of devices up to 99, all random numbers without collisions, every moment; for the tests the five devices they have", "why_tests_cant": "the tests run with one seed, chosen so that they pass", "anchors": ["test/RadioStateIntegrationTest.cpp: setEffectIndex, changesEffectWhenMasterNotStable", "test/FakeNetwork.cpp: Tick", "src/generic/RadioStateMachine.cpp: handleMasterEvent, GetEffectIndex, SetEffect"]}
{"id": "C153", "title": "Where a choice has to be entered", "statement": "In a network on the real radio as in C142: if the last choice of all was entered on the master, then the master follows it until its time is over (the seconds it names, a minute if it names none), and so does every device that hears at least one of any K repetitions, from 1 + 2 L' + K (2003 + 3 D) ms after the entry on. (Refuted for choices entered on another device: the master that hears such a choice follows it for the time it names, for ever if it names none, but for all that time no other device hears any instruction, however well it hears the master, so a device that missed the choice goes on with what it followed before.)", "quantifier": "every topology, number of devices, schedule, loss pattern, offset of clocks, choice and moment", "why_tests_cant": "unbounded networks and schedules, timing", "anchors": ["src/generic/RadioStateMachine.cpp: RadioTick, handleSlaveEvent, handleMasterEvent, sendHeartbeat", "src/arduino/RadioHeadRadio.cpp: readPacket, sendPacket", "src/generic/RadioStateMachine.cpp: SetEffect"]}
{"id": "C154", "title": "The timing promises survive a clock that advances during a tick", "statement": "Every call of millis() in a radio tick may return a later value than the one before. Still: a slave becomes master only if the tick begins more than 5000 ms after power-on and after the beginning of every step in which it heard a heartbeat or claim or resigned; a slave that hears nothing new in a tick that begins 7000 ms after power-on and after the end of every such step becomes master in it; heartbeats that a device sends of its own begin more than 1000 ms apart; a master that hears nothing new in a tick that begins more than 1000 ms after the end of each step in which it sent a heartbeat sends one in it. A heartbeat says the network time that its sender shows at a moment within the step; a slave that hears one shows the time it says, counted from a moment within its own step, so that it shows what the sender shows, later by the time between the two moments; nothing else changes the network time. If the readings of a tick are equal the tick is the one that the other properties speak of.", "quantifier": "every build, history of calls, random numbers, sequence of clock readings that never goes back and stays clear of the wrap-around", "why_tests_cant": "all interleavings of the clock with the code, unbounded histories", "anchors": ["src/generic/RadioStateMachine.cpp: RadioTick, TimerExpired, SetTimer, handleSlaveEvent, handleMasterEvent, beginMaster, beginSlave, SendHeartbeat, GetNetworkMillis"]}
{"id": "C155", "title": "A second master does not last", "statement": "If random numbers are uniform and independent, then of all outcomes at most one in 2^N is such that a master hears N heartbeats of other masters and is still the master after each of them. This holds whatever else happens to the device in between, and however the moments at which it hears the heartbeats, and what they say, are chosen from what was drawn before. (C99 shows that some outcome keeps two masters for any N.)", "quantifier": "every history of a device on hardware that made it a master, number of steps, number N, choice of what happens in each step given all earlier draws; the odds are counted over all draws", "why_tests_cant": "the claim is about all outcomes of arbitrarily many random draws", "anchors": ["src/generic/RadioStateMachine.cpp: PerformMasterElection, handleMasterEvent", "src/generic/NetworkManager.cpp: send"]}
{"id": "C156", "title": "A new packet is seldom taken for an old one", "statement": "If packet ids are drawn uniformly and independently, then the mean number of packets, among those that reach a device in n steps, which it takes for ones it already knows is at most 5n/65533, and the share of the outcomes in which it takes any packet for an old one is at most 5n/65533. This holds whatever else happens to the device, and however the packets, and the moments at which they come, are chosen from what was drawn before.", "quantifier": "every history of a device on hardware, number of steps, choice of what happens in each step given all earlier draws; the odds are counted over all draws", "why_tests_cant": "the claim is about all outcomes of arbitrarily many random draws", "anchors": ["src/generic/NetworkManager.cpp: send, receive", "src/generic/NetworkManager.hpp: kRecentIdsCacheSize"]}
{"id": "C157", "title": "The rotation of effects is fair", "statement": "If random numbers are uniform and independent: when a master changes the effect of its own accord, the effect and the palette it changes to are uniform over the effects and palettes it knows, and independent: the share of the outcomes in which it goes on with a pair in a given set is the share of the pairs that are in the set. The pair that was shown before does not matter.", "quantifier": "every history of a device on hardware, time, counts of effects and palettes (not zero), set of pairs; the odds are counted over all draws", "why_tests_cant": "the claim is about all outcomes of the random draws in every state of the device", "anchors": ["src/generic/RadioStateMachine.cpp: handleMasterEvent"]}
{"id": "C158", "title": "Two slaves seldom take over at the same time", "statement": "If random numbers are uniform and independent between devices: a slave that hears a heartbeat or a claim, and then nothing more, turns master when it runs later than 5000 + r ms after that, where r is uniform over 0 to 1999, and it stays as it is before. Of n such slaves, which may have been switched on, and hear their last packet, at different times, two have these moments within d ms of each other in at most n(n-1)/2 * (2d+1)/2000 of the outcomes.", "quantifier": "every number of devices, history of each, moments at which they were switched on and heard their last packet (clear of the wrap-around of the clock), distance d; the odds are counted over all draws", "why_tests_cant": "the claim is about any number of devices and all outcomes of their draws", "anchors": ["src/generic/RadioStateMachine.cpp: beginSlave, handleSlaveEvent, TimerExpired", "src/generic/RadioStateMachine.hpp: kSlaveNoPacketTimeout, kSlaveNoPacketRandom"]}
{"id": "C159", "title": "The first time-out after power-up is the same on all devices", "statement": "The time-out with which a device starts is drawn when its state machine is constructed, before anything has seeded the random numbers. So for each time of power-up there is one moment, 5 to 7 seconds later, at which every device that has heard nothing turns master when it next runs, whatever its seed; any number of devices that are switched on together and do not hear each other before that are all masters then. (Refuted: that the random part of the time-out keeps devices apart that are switched on at the same time.)", "quantifier": "every time of power-up (clear of the wrap-around of the clock), sequence of unseeded numbers, number of devices, seed of each, and history of each in which it hears nothing", "why_tests_cant": "all seeds, numbers of devices and histories; tests on the host seed all numbers themselves", "anchors": ["src/devices/node/node.cpp: state_machine, setup", "src/devices/controller/controller.cpp: state_machine, led_manager", "lib/effect/FireflyEffect.cpp: FireflyEffect", "src/generic/RadioStateMachine.cpp: RadioStateMachine, beginSlave"]}
{"id": "C160", "title": "When the master falls silent, one slave takes over", "statement": "Let n slaves hear a heartbeat or a claim, each at its own time, and then nothing more from their master; let each device run at least every L ms, and let the heartbeat with which a device takes over be heard by all others within L ms. If the first time-out is more than 2L ms before all others, then the device that has it, and no other, is master from L ms after that time-out to a second after it, whatever packets (of those transmitted) the devices get and whenever they run. If random numbers are uniform and independent this is so except in at most n(n-1)/2 * (4L+1)/2000 of the outcomes.", "quantifier": "every number of devices, history of each, times at which they were switched on and heard their last packet, schedule of runs, choice of packets received; the odds are counted over all draws", "why_tests_cant": "the claim is about any number of devices, every schedule and all outcomes of their draws", "anchors": ["src/generic/RadioStateMachine.cpp: handleSlaveEvent, beginMaster, RadioTick", "src/generic/NetworkManager.cpp: receive, send"]}
{"id": "C161", "title": "An election between two masters is a nearly fair coin", "statement": "Of two masters one transmits a heartbeat, the other hears it and answers with a claim if it wins the comparison, and the first gets the answer if there is one. If random numbers are uniform and independent, exactly one of the two is master afterwards except in at most 10/65533 of the outcomes; the one that transmitted is the only master in at least 32757/65534 and at most 32768/65534 of the outcomes, the one that listened in at least 32755/65534 and at most 32766/65534. For a given packet number id, the listener stays master in exactly (65534 - id)/65534 of the outcomes.", "quantifier": "every pair of masters with any histories (Arduino build), all times of the three ticks; the odds are counted over all draws", "why_tests_cant": "all histories of the two devices and all outcomes of the draws; a test sees a few outcomes", "anchors": ["src/generic/RadioStateMachine.cpp: handleMasterEvent, PerformMasterElection", "src/generic/NetworkManager.cpp: send, receive"]}
{"id": "C162", "title": "Rotation and repetition on a clock that advances while the code runs", "statement": "Let every call of millis() return its own value, never less than the one before. A master that chooses an effect of its own keeps it for 60 s from the beginning of that step if undisturbed, and has chosen another soon after 60 s from its end; the same holds for a request with a delay of d >= 1 seconds that it hears (never again, if d = 0) and for one made locally. A device that takes over rotates at once if it saw the last change more than 60 s before, and 60 s after that change, later at most by the duration of the step, if the step ends before that; it rotates by the later of these deadlines unless the mark of 60 s falls into the step. (Refuted for that case: it may then never rotate, although no tick begins exactly 60 s after the change.) Of two repetitions of the current instruction the later ends more than 2000 ms after the earlier began, and one is due 2000 ms after the end of the last.", "quantifier": "every history of a device, all packets, and all readings of the clock in it (not going back, clear of the wrap-around)", "why_tests_cant": "the claim is about every value that millis() can return at each of its calls within a tick", "anchors": ["src/generic/RadioStateMachine.cpp: RadioTick, TimerExpired, SetTimer, beginMaster, handleMasterEvent, SetEffect"]}
{"id": "C163", "title": "What a device does when its clock wraps around", "statement": "A device keeps its promises across the wrap-around of its 32-bit clock (after 49.7 days): a slave that has just heard a heartbeat waits at least 5 s, a master sends one heartbeat per second, and keeps an effect of its own choice for 60 s. (Refuted: a slave that hears a heartbeat or claim when fewer than 5 s are left takes over in its next silent radio tick; a master that sends a heartbeat when less than 1 s is left sends one in every silent radio tick until the wrap-around; a master that chooses an effect when less than 60 s is left makes another choice in every silent radio tick until the wrap-around in which it sends no heartbeat. A heartbeat sent exactly 1 s before is the last the master sends, and one whose second ends unnoticed before the wrap-around is the last for 49.7 days; a slave whose time-out ends like that does not take over; a choice made exactly 60 s before is never followed by another.) After the wrap-around the rotation goes on: the last choice made less than 60 s before it, at t, is kept until t + 60 s on the new count, and followed by another soon after.", "quantifier": "every history of a device, all packets, all times in the last minute before the wrap-around and all continuations", "why_tests_cant": "the behaviour appears after 49.7 days without a restart, and depends on every alignment of the timers with the end of the count", "anchors": ["src/generic/RadioStateMachine.cpp: TimerExpired, SetTimer, RadioTick, handleSlaveEvent, handleMasterEvent, beginSlave"]}
{"id": "C164", "title": "The picture when the network clock wraps around", "statement": "Colour cycle, contrast bumps, rainbow, stop light, palette display, plain colour and dark show the same picture again after each of their periods (C100) for ever, across the wrap-around of the 32-bit network clock: nothing is seen of it. (Refuted for rainbow bumps, swinging lights, police, blinkers, firefly and pride, whose periods do not divide 2^32 ms: their picture jumps there.)", "quantifier": "every strip, LED, instruction and number of milliseconds, without limit", "why_tests_cant": "the wrap-around happens after 49.7 days, and the claim is about every LED and every moment", "anchors": ["lib/effect/ColorCycleEffect.cpp", "lib/effect/RainbowEffect.cpp", "lib/effect/ContrastBumpsEffect.cpp", "lib/effect/StopLightEffect.cpp", "lib/effect/DisplayColorPaletteEffect.cpp", "src/generic/RadioStateMachine.cpp: GetNetworkMillis"]}
{"id": "C165", "title": "A slave that is kept informed seldom takes over", "statement": "Suppose heartbeats or claims of a master reach a slave, never more than 1250 ms apart, each with an id drawn at random. Then, whatever else it hears and is told, the probability that it was ever a master by the time N of them had reached it is at most (N + 1) * (5 / 65533)^4: below one in a billion for 49 days of heartbeats, one a second (after which the 32-bit clock wraps around, C163).", "quantifier": "every history of the slave, every way of choosing what happens next from what was drawn so far, every number of steps and of heartbeats", "why_tests_cant": "it is a bound on the share of outcomes over every adaptive schedule of any length, far below what testing could observe", "anchors": ["src/generic/NetworkManager.cpp: receive", "src/generic/RadioStateMachine.cpp: handleSlaveEvent, beginState", "src/generic/RadioStateMachine.hpp: kSlaveNoPacketTimeout"]}
{"id": "C166", "title": "Floods of a few packets almost always reach everyone", "statement": "If up to five packets are originated in a freshly booted mesh of Arduino boards and nothing gets lost, then for at least 1 - k (k - 1) / 2 / 65533 of the random numbers drawn for their ids (k being the number of packets, so more than 99.98 percent), every node connected to an originator delivers the packet exactly once by the time nothing is in the air any more - on every mesh, with all contents, and on every schedule, even one chosen by someone who knows the numbers. (With equal ids it can fail: shown.)", "quantifier": "every topology, every lossless schedule of originations and receptions, and all random draws but the stated share", "why_tests_cant": "it is a count of random draws each of which must do for every mesh and every schedule", "anchors": ["src/generic/NetworkManager.cpp: send, receive"]}
{"id": "C167", "title": "The boot option of the processor settles and is written at most once", "statement": "Whatever power failures and resets a fancy node or a controller lives through, at whatever points: a start after power came on that is not interrupted leaves the boot-select bit of the option bytes as the program wants it, no other bit ever changes, and the option bytes are programmed at most once in the life of the board (once more each time the other program is loaded). (A start after a mere reset may leave the bit wrong until power is next applied: shown.)", "quantifier": "every initial value of the option bytes, every sequence of starts, causes, programs and points of interruption", "why_tests_cant": "the claim is about every point at which power can fail, over the life of a board", "anchors": ["src/devices/fancy-node/fancy-node.cc: setup", "src/devices/controller/controller.cpp: setup"]}
{"id": "C168", "title": "Gradients change gradually", "statement": "Moving on by d in the gradient of a palette of 2 to 255 colours that are R apart changes saturation and value by at most 255 d / R + 3 and the hue by at most 128 d / R + 3 steps of the wheel, whatever the colours; over the end of a closed gradient of n colours the same holds with d + n for d. So the colour cycle and the rainbow of two or more colours change by at most 6 in hue and 9 of 255 in saturation and value within 16 ms, also where the clock wraps around, and neighbouring LEDs of the rainbow differ by at most 27 in hue and 50 in saturation.", "quantifier": "every palette, position, distance, strip, LED and time", "why_tests_cant": "gradualness compares all pairs of positions of all palettes", "anchors": ["lib/color/ColorPalette.cpp: GetGradient", "lib/effect/ColorCycleEffect.cpp: GetRGB", "lib/effect/RainbowEffect.cpp: GetRGB"]}
{"id": "C169", "title": "Switching on a board", "statement": "A board whose radio does not answer never begins its loop: all its LEDs blink red for ever. Otherwise it plays the start-up animation and begins with all LEDs dark, after 2 n max(500/n, n/30+1) + 256 (n/30+1) ms for n LEDs; a fancy node on which a button is held lights its on-board LED for two more seconds before that, takes the reading of its battery, and only then shows the state of charge. (Refuted: that a board listens for a master before it takes over. The time-out runs from power-up, and the set-up takes longer than the least time-out of 5 s exactly from 210 LEDs on, or from 150 with a button held, as for the shipped backpack rope; such a board turns master in its first iteration for at least one in six random numbers if the radio holds nothing for it, and after a mere instruction of the master as soon as the radio holds nothing more. All other shipped devices are ready before the least time-out.)", "quantifier": "every device, program, outcome of the radio's initialisation, state of the buttons, time of power-up, random numbers and first iterations", "why_tests_cant": "all devices, all times and all first iterations", "anchors": ["src/devices/node/node.cpp: setup", "src/devices/fancy-node/fancy-node.cc: setup", "src/arduino/FastLedManager.cpp: PlayStartupAnimation, FatalErrorAnimation", "src/generic/RadioStateMachine.cpp: RadioStateMachine"]}
{"id": "C170", "title": "Switching on the controller", "statement": "A controller whose radio does not answer never begins its loop: its first LED blinks red for ever and all others are dark (the DMX bridge blinks its LED). Otherwise it begins at once with all LEDs dark; or, if its first left button is held, after two seconds with the left status LED dim white and five with that LED showing the state of charge, from red to green. If it begins its loop in the first five seconds it stays a slave in its first iteration. (Refuted: that it listens for a master before it takes over. With the button held, whatever its random numbers, it turns master in its first iteration if the radio holds nothing for it, and after a mere instruction of the master as soon as the radio holds nothing more.) If the radio holds a heartbeat that has waited, the network time of the controller is behind by just as long.", "quantifier": "every outcome of the radio's initialisation, state of the button, reading, time of power-up, random numbers and first iterations", "why_tests_cant": "all times, random numbers and first iterations", "anchors": ["src/devices/controller/controller.cpp: setup, loop", "src/devices/dmx/dmx.cpp: setup", "src/generic/RadioStateMachine.cpp: RadioStateMachine"]}
{"id": "C171", "title": "How often an LED flashes", "statement": "Say that an LED flashes between two frames if it is dark in the first and lit in the second. Whenever the frames of a period of d ms are shown, a blinker of parameter s flashes at most d/(3s) + 1 times, and exactly as often as a multiple of 3s falls into the period if frames are never more than s ms apart; so the shipped strobes flash at most 6, 12, 28 and 2 times in any second. An LED flashes at most d/1024 + 2 times under the firefly effect, d/4096 + 2 times under rainbow bumps, d/3000 + 2 times under the spark on a circular strip and 2 (d/6000) + 4 times on another; never under contrast bumps, nor under the rainbow and the colour cycle of two or more colours. The rotation never chooses a strobe.", "quantifier": "every strip, LED, instruction, period and choice of the times of frames (before the wrap-around of the clock; for the spark before its own, C113)", "why_tests_cant": "all sequences of frames", "anchors": ["lib/effect/SimpleBlinkEffect.cpp: GetRGB", "lib/effect/FireflyEffect.cpp: GetRGB", "lib/effect/RainbowBumpsEffect.cpp: GetRGB", "lib/effect/SparkEffect.cpp: GetRGB", "lib/led_manager/LedManager.cpp: LedManager"]}
{"id": "C172", "title": "From power-on to the common picture", "statement": "In a network on the real radio as in C144 (no master is running, one device turns master and the others hear of it in time): from 2 L' + K (2003 + 3 D) ms after the moment x from which that first master keeps following one instruction and nobody enters another, every device that hears at least one of any K of its repetitions, and hears no instruction more than L' ms after it was sent, follows that instruction, whatever it was told before. The network time of every device that has heard a heartbeat is behind the master's by at most L' ms. So each LED of a board shows what the master's instruction prescribes for the network time the master had at most L' ms before.", "quantifier": "every topology, number of devices, schedule, loss pattern, offset of clocks, instruction, device with at most 255 LEDs, LED and moment, from power-on or the loss of a master on", "why_tests_cant": "unbounded networks and schedules, timing, every instruction and LED", "anchors": ["src/generic/RadioStateMachine.cpp: RadioTick, handleSlaveEvent, handleMasterEvent, sendHeartbeat", "src/arduino/RadioHeadRadio.cpp: readPacket, sendPacket", "lib/led_manager/LedManager.cpp: RunEffect", "src/devices/node/node.cpp: loop"]}
{"id": "C173", "title": "Odds in a network of any number of devices", "statement": "With random numbers drawn uniformly and independently, in a network of n devices: (a) of all outcomes, at most n (1/2 + 5/65533)^N are such that any device was a master all the time although N heartbeats of others reached it, heard or taken for old ones; so several masters in one another's reach do not last. (b) As long as signs of life of a master reach M slaves never more than 1250 ms apart, at most M (N + 1) (5/65533)^4 of all outcomes are such that any of them ever took over by the time N signs of life had reached it.", "quantifier": "every number and state of devices, every choice of what each device does and hears in each round (made knowing all earlier draws), all N; a broadcast packet has the same id for all that hear it", "why_tests_cant": "a bound on the probability over all random outcomes of an unbounded network run", "anchors": ["src/generic/RadioStateMachine.cpp: PerformMasterElection, handleMasterEvent", "src/generic/NetworkManager.cpp: send"]}
{"id": "C174", "title": "Several masters become one", "statement": "n devices in any states, some of them masters; whatever they do and hear, and however that is chosen knowing all earlier draws. If in every round some master is reached by no heartbeat and no claim (on the hardware claims do not arrive, and one transmits at a time), there is always a master. Of all outcomes of the random numbers, at most (M - 1) (1/2 + 5/65533)^R, where M is the number of masters in the beginning, are such that R times the heartbeat of a master reached all other masters, no slave took over, and there is not exactly one master in the end. The number of times that a heartbeat of a master reaches all other masters while two of those are left is, on average, at most k + 2.0004 (M - 1) (1/2 + 5/65533)^k for every k, so it grows with the logarithm of M. (How seldom slaves take over is C173.)", "quantifier": "every number and state of devices, every adaptive choice of what each device does and hears in each round, all R", "why_tests_cant": "a bound on the probability over all random outcomes of an unbounded network run", "anchors": ["src/generic/RadioStateMachine.cpp: PerformMasterElection, handleMasterEvent", "src/generic/NetworkManager.cpp: send"]}
{"id": "C175", "title": "A network settles on one master", "statement": "n devices, masters and slaves, each in any state that it can have reached. Whenever one is a slave, signs of life of a master reach it, heard or not, never more than 1250 ms apart (counted from when it yielded or last was reached); whatever else happens, and however it is chosen knowing all earlier draws. At most n (N + 1) (5/65533)^4 of all outcomes are such that any device became a master after having been a slave by the time N signs of life had reached it. So if there is a master in the beginning and in every round some master is reached by no heartbeat and no claim, at most (M - 1) (1/2 + 5/65533)^R + n (N + 1) (5/65533)^4 of all outcomes, where M is the number of masters in the beginning, are such that R times the heartbeat of a master reached all other masters, at most N signs of life reached each device, and there is not exactly one master in the end. (C174 without its proviso that no slave takes over.)", "quantifier": "every number and state of devices, every adaptive choice of what each device does and hears in each round, all R and N", "why_tests_cant": "a bound on the probability over all random outcomes of an unbounded network run", "anchors": ["src/generic/RadioStateMachine.cpp: PerformMasterElection, handleMasterEvent", "src/generic/NetworkManager.cpp: send"]}
{"id": "C176", "title": "The rotation shows all effects", "statement": "If random numbers are uniform and independent, a master that keeps changing the effect comes to show every effect it knows: with E effects, the share of the outcomes in which it changed the effect N times of its own accord and some effect never came up is at most E * (1 - 1/E)^N, and with P palettes the share in which some pair of an effect and a palette never came up is at most E * P * (1 - 1/(E * P))^N. In general, a set that leaves out B of the pairs is missed by N changes in at most (B/(E * P))^N of the outcomes. This holds whatever else the device hears and does meanwhile, even if that is chosen with knowledge of all earlier draws.", "quantifier": "every history of a device on hardware, every continuation (chosen knowing the earlier draws) in which the counts of effects and palettes stay as they are, number of steps and of changes; the odds are counted over all draws", "why_tests_cant": "the claim is about all outcomes of the random draws over any number of changes and every course of events between them", "anchors": ["src/generic/RadioStateMachine.cpp: handleMasterEvent, Tick, RadioTick"]}
{"id": "C177", "title": "How much a device transmits", "statement": "Whatever a device hears and whatever its program asks of it: in any stretch of d ms of its life it transmits at most one packet for each new packet it hears (passing it on), one more for each heartbeat, set-effect or control packet it hears as a master, two for each effect its program requests, one for each time it takes over (which is at most once in 5 s), and d/1000 + d/2000 + d/60000 + 3 packets besides. So it transmits at most two packets for each packet heard and each request, and hardly more than 1.72 packets a second of its own accord. A slave transmits nothing but the packets it hears, each exactly once, and the requests of its program.", "quantifier": "every history of a device that is properly used, every stretch of it, and every sequence of packets from the radio", "why_tests_cant": "the bound is over all histories; each duty of a master has its own timer, and hearing, yielding, taking over and requests set these timers anew", "anchors": ["src/generic/RadioStateMachine.cpp: RadioTick, handleSlaveEvent, handleMasterEvent, PerformMasterElection, beginMaster, SetEffect", "src/generic/NetworkManager.cpp: send, receive"]}
{"id": "C178", "title": "How busy the channel is", "statement": "In a network of n devices on the real radio in which exactly one is master and the others keep hearing it (as in C110): if no transmission is received twice by the same device, then in d ms all devices together transmit at most n (d/1000 + d/2000 + d/60000 + 3) packets, plus 3 n for each effect that the program of any device requests in that time. So twenty devices that are left alone put hardly more than 30 packets a second on the air, whatever the topology, schedule and losses: relaying does not multiply the traffic beyond one packet per device and packet of the master.", "quantifier": "every number of devices, topology, schedule, loss pattern and input in a settled network", "why_tests_cant": "the bound is over all topologies and schedules; whether relays are relayed again depends on what every receiver does with them", "anchors": ["src/generic/RadioStateMachine.cpp: RadioTick", "src/generic/NetworkManager.cpp: receive", "src/arduino/RadioHeadRadio.cpp: readPacket, sendPacket"]}
{"id": "C179", "title": "The network time survives changes of master", "statement": "In a network on the real radio, whatever the topology and the losses and whoever is master when (masters fall silent, others take over, several are master at once): call a device in tune if its network time was at most A ms behind a common clock, and not ahead of it, in the beginning, or if it has heard a heartbeat as a slave since. If every master is in tune and no heartbeat is heard more than L ms after it was sent, then the network time of every device in tune is never ahead of that clock and at most A + (T + 1) L ms behind it, where T is the number of take-overs so far (A + T L if it is a master). So at any moment any two devices in tune differ by at most that, and a change of master never makes the show start over.", "quantifier": "every topology, number of devices, schedule, loss pattern, number of take-overs and masters, moments of power-on, also across wrap-arounds of the 32-bit network time; every moment of local time", "why_tests_cant": "it is an invariant over all histories with any number of changes of master, and no test has a master fail on the hardware radio", "anchors": ["src/generic/RadioStateMachine.cpp: handleSlaveEvent, beginMaster, SendHeartbeat, GetNetworkMillis", "src/generic/NetworkManager.cpp: receive, send"]}
{"id": "C180", "title": "The show keeps its pace, and devices look alike", "statement": "In a network as in C179, whoever is master: between any two moments the network time of a device in tune moves on by the time that has passed, up to the A + (T + 1) L ms of C179; it never starts over, stops or runs at another speed. Two devices in tune that follow the same instruction look alike at every moment: under the colour cycle (any two LEDs) and the rainbow (the same LED of equal strips) of two or more colours, their colours differ by at most 3 steps of the 255-step wheel in hue, and 6 of 255 in saturation and value, for each 16 ms by which their network times may differ, and 3 more.", "quantifier": "every network, schedule and history as in C179, every two moments, every palette of two or more colours, strip, LED and time, up to 64 s apart", "why_tests_cant": "it combines all histories of a network with all colours of all palettes; a test sees a few frames of one device", "anchors": ["src/generic/RadioStateMachine.cpp: GetNetworkMillis, handleSlaveEvent", "lib/effect/ColorCycleEffect.cpp: GetRGB", "lib/effect/RainbowEffect.cpp: GetRGB", "lib/color/ColorPalette.cpp: GetGradient"]}
{"id": "C181", "title": "An installation does not bring itself down", "statement": "Take any installation of LED boards with the shipped effects (1 to 255 LEDs, at most 32 on a strip marked controller) and other devices on the same radio. As long as the other devices have been configured with at least one effect and 1 to 22 palettes and have only been given complete instructions that name one of the 22 palettes or the palette of the effect that the device follows at the time, every frame that ever goes on the air is at most 61 bytes long and, if it carries an effect, names an existing palette; and every board can carry out its next iteration without undefined behaviour, for any clock, battery and random numbers and any frames (delayed, repeated, reordered, lost) that its neighbours put on the air. A hand-held controller only ever gives such instructions, whatever is done with its buttons and switch; so does a key pad, except while it follows a colour. (Refuted for key pads that follow a colour: they can send a palette that does not exist, C125, and one such frame brings down the boards that hear it, C94.)", "quantifier": "all numbers of devices, topologies, histories, schedules, losses, clocks and random numbers; all uses of a controller and of a key pad", "why_tests_cant": "Safety of each board depends on what all the others ever send; a test runs a few devices for a short time.", "anchors": ["src/generic/RadioStateMachine.cpp: RadioTick, SetEffect", "src/arduino/RadioHeadRadio.cpp: readPacket, sendPacket", "src/devices/node/node.cpp: loop", "src/devices/fancy-node/fancy-node.cc: loop", "src/devices/controller/controller.cpp: loop", "src/devices/trellis/trellis.ino: trellisHandler"]}
