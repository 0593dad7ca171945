import Verif.Lemmas.RadioHead
import Verif.Lemmas.Mesh

/-! # Properties of the hardware radio framing (C13–C16) -/

namespace Firefly.Props

/-- C13.  A packet with a payload of 1 to 58 bytes, transmitted and received uncorrupted into
any receive packet `q`, arrives with the same id, type and payload.  The length field and the
payload bytes beyond the transmitted ones are those `q` had before the call (the receiver
learns neither). -/
theorem framing_roundtrip (p q : Packet) (h1 : 1 ≤ p.len.toNat) (h58 : p.len.toNat ≤ 58) :
    ∃ frame r, Hw.sendPacket p = .ok frame ∧ Hw.readPacket (some frame) q = .ok (some r) ∧
      r.id = p.id ∧ r.type = p.type ∧
      (∀ i, (hi : i < 58) → i < p.len.toNat → r.data[i] = p.data[i]) ∧
      r.len = q.len ∧
      (∀ i, (hi : i < 58) → p.len.toNat ≤ i → r.data[i] = q.data[i]) := by
  have hlen : (p.data.toList.take p.len.toNat).length = p.len.toNat := by simp; omega
  refine ⟨_, { q with id := p.id, type := p.type,
                      data := Hw.copyPayload q.data (p.data.toList.take p.len.toNat) },
    sendPacket_ok h58, ?_, rfl, rfl, ?_, rfl, ?_⟩
  · match hd : p.data.toList.take p.len.toNat, hlen with
    | [], hlen => simp at hlen; omega
    | b :: rest, hlen =>
      simp only [Hw.readPacket, List.cons_append, List.nil_append]
      rw [if_neg (by simp only [List.length_cons] at hlen ⊢; simp [Hw.kMaxFifoSizePacketSize]; omega),
        if_neg (by omega), id_bytes, typeOfByte_byteOfType]
  · intro i hi hlt
    simp [Hw.copyPayload, List.getElem?_take, hlt]
  · intro i hi hle
    simp [Hw.copyPayload, List.getElem?_take, Nat.not_lt.2 hle]

/-- C13.  The frame layout: id most significant byte first, then the type, then the payload. -/
theorem framing_layout (p : Packet) (h58 : p.len.toNat ≤ 58) :
    ∃ hi lo, Hw.sendPacket p = .ok (hi :: lo :: Hw.byteOfType p.type ::
        p.data.toList.take p.len.toNat) ∧ hi.toNat * 256 + lo.toNat = p.id.toNat := by
  refine ⟨_, _, sendPacket_ok h58, ?_⟩
  rw [low_byte, high_byte]
  omega

example : Hw.sendPacket ⟨0x1234, .setEffect, 3, Vector.replicate 58 9⟩ =
    .ok [0x12, 0x34, 2, 9, 9, 9] := by rfl

/-- C14.  Transmission is defined exactly for payload lengths up to 58. -/
theorem send_in_bounds_iff (p : Packet) :
    (∃ frame, Hw.sendPacket p = .ok frame ∧ frame.length ≤ 61) ↔ p.len.toNat ≤ 58 := by
  constructor
  · rintro ⟨f, e, -⟩
    apply Nat.le_of_not_lt
    intro h
    rw [Hw.sendPacket, if_pos (.inl h)] at e
    cases e
  · intro h
    refine ⟨_, sendPacket_ok h, ?_⟩
    simp
    omega

/-- C14.  Reception is defined exactly for frames of up to 61 bytes. -/
theorem read_in_bounds_iff (bytes : List U8) (q : Packet) :
    (∃ r, Hw.readPacket (some bytes) q = .ok r) ↔ bytes.length ≤ 61 := by
  unfold Hw.readPacket Hw.kMaxFifoSizePacketSize
  match bytes with
  | [] => simp
  | [_] => simp
  | [_, _] => simp
  | [_, _, _] => simp
  | b0 :: b1 :: b2 :: b3 :: rest =>
    simp only
    split
    · simp at *; omega
    · split
      · simp at *; omega
      · simp at *; omega

/-- C14, refuted for frames the receive buffer admits: a frame of 62 to 64 bytes writes
outside the packet. -/
theorem read_overflows (bytes : List U8) (q : Packet) (h : 62 ≤ bytes.length)
    (h' : bytes.length ≤ Hw.kMaxFifoSizePacketSize) :
    Hw.readPacket (some bytes) q = .error .outOfBounds := by
  unfold Hw.readPacket
  match bytes, h with
  | b0 :: b1 :: b2 :: b3 :: rest, h =>
    simp only
    rw [if_neg (by omega), if_pos (by simp at *; omega)]

example : (List.replicate 62 (0 : U8)).length ≤ Hw.kMaxFifoSizePacketSize := by decide

/-- C15, refuted for every packet: take any transmitted packet with a payload, received by a
relay whose receive packet is fresh (`q.len = 0`, as `RadioTick` declares it,
src/generic/RadioStateMachine.cpp:72).  If the relay's mesh layer re-broadcasts the packet at
all, the frame it puts on the air is the bare 3-byte header, and every receiver discards that
frame. -/
theorem relay_loses_payload (p q q' : Packet) (h1 : 1 ≤ p.len.toNat) (h58 : p.len.toNat ≤ 58)
    (hq : q.len = 0) :
    ∃ frame r, Hw.sendPacket p = .ok frame ∧ Hw.readPacket (some frame) q = .ok (some r) ∧
      ∀ (m : NM) d out m', m.receive (some r) = .ok (d, out, m') → ∀ x ∈ out,
        ∃ frame', Hw.sendPacket x = .ok frame' ∧ frame'.length = 3 ∧
          Hw.readPacket (some frame') q' = .ok none := by
  obtain ⟨frame, r, e1, e2, -, -, -, hl, -⟩ := framing_roundtrip p q h1 h58
  refine ⟨frame, r, e1, e2, ?_⟩
  intro m d out m' e x hx
  rcases NM.receive_cases e with ⟨-, rfl, -, -⟩ | ⟨y, hy, -, -, rfl, -⟩
  · simp at hx
  · simp at hy hx
    subst hx
    subst hy
    have hlen : r.len.toNat = 0 := by rw [hl, hq]; rfl
    refine ⟨_, sendPacket_ok (by omega), ?_, ?_⟩
    · simp [hlen]
    · simp [hlen, Hw.readPacket, Hw.kMaxFifoSizePacketSize]

/-- C15, the re-broadcast of `relay_loses_payload` really happens: a freshly booted relay does
re-broadcast, for every packet id except 0. -/
theorem fresh_relay_rebroadcasts (r : Packet) (h : r.id ≠ 0) :
    ∃ m', NM.init.receive (some r) = .ok (some r, [r], m') := by
  obtain ⟨m', e, -⟩ := NM.repr_init.receive_new (p := r) (by
    rw [NM.repr_init.mem_iff, mem_lastFive]
    rintro ⟨k, -, hk⟩
    exact h (by simpa using hk.symm))
  exact ⟨m', e⟩

/-- C16, refuted for every packet without payload (which is what a claim is, see
`hw_claim_never_received` in `Props/HwNet.lean`): the frame is discarded by every receiver. -/
theorem empty_packet_never_received (p q : Packet) (h : p.len = 0) :
    ∃ frame, Hw.sendPacket p = .ok frame ∧ Hw.readPacket (some frame) q = .ok none := by
  have hlen : p.len.toNat = 0 := by rw [h]; rfl
  refine ⟨_, sendPacket_ok (by omega), ?_⟩
  simp [hlen, Hw.readPacket, Hw.kMaxFifoSizePacketSize]

example : ∃ frame r, Hw.sendPacket ⟨0x1234, .setEffect, 3, Vector.replicate 58 9⟩ = .ok frame ∧
    Hw.readPacket (some frame) ⟨0, .heartbeat, 0, Vector.replicate 58 0⟩ = .ok (some r) ∧
    r.id = 0x1234 ∧ r.len = 0 := ⟨_, _, rfl, rfl, by decide, rfl⟩

end Firefly.Props
