import Verif.Model.RadioHead

/-! # Helper lemmas for the hardware framing -/

namespace Firefly.Props

theorem typeOfByte_byteOfType (t : PType) : Hw.typeOfByte (Hw.byteOfType t) = t := by
  cases t with
  | heartbeat => decide
  | claimMaster => decide
  | setEffect => decide
  | setControl => decide
  | other n h =>
    have h0 : n ≠ 0 := by rintro rfl; revert h; decide
    have h1 : n ≠ 1 := by rintro rfl; revert h; decide
    have h2 : n ≠ 2 := by rintro rfl; revert h; decide
    have h3 : n ≠ 3 := by rintro rfl; revert h; decide
    show Hw.typeOfByte n = _
    unfold Hw.typeOfByte
    rw [if_neg h0, if_neg h1, if_neg h2, if_neg h3, dif_pos h]

theorem byteOfType_typeOfByte (b : U8) : Hw.byteOfType (Hw.typeOfByte b) = b := by
  unfold Hw.typeOfByte
  split
  · simp_all [Hw.byteOfType]
  · split
    · simp_all [Hw.byteOfType]
    · split
      · simp_all [Hw.byteOfType]
      · split
        · simp_all [Hw.byteOfType]
        · split
          · rfl
          · exfalso; bv_omega

theorem low_byte (x : U16) : (BitVec.setWidth 8 (x &&& 0x00ff)).toNat = x.toNat % 256 := by
  have h : (x &&& 0x00ff).toNat = x.toNat % 256 := by
    rw [BitVec.toNat_and]
    exact Nat.and_two_pow_sub_one_eq_mod x.toNat 8
  rw [BitVec.toNat_setWidth, h]
  omega

theorem high_byte (x : U16) : (BitVec.setWidth 8 (x >>> 8)).toNat = x.toNat / 256 := by
  simp [Nat.shiftRight_eq_div_pow]
  omega

theorem id_bytes (x : U16) :
    (((x >>> 8).setWidth 8).setWidth 16 <<< 8) + ((x &&& 0x00ff).setWidth 8).setWidth 16 = x := by
  apply BitVec.eq_of_toNat_eq
  have hl := low_byte x
  have hh := high_byte x
  generalize BitVec.setWidth 8 (x &&& 0x00ff) = lo at *
  generalize BitVec.setWidth 8 (x >>> 8) = hi at *
  rw [BitVec.toNat_add, BitVec.toNat_shiftLeft, BitVec.toNat_setWidth, BitVec.toNat_setWidth,
    hl, hh, Nat.shiftLeft_eq]
  omega

theorem sendPacket_ok {p : Packet} (h : p.len.toNat ≤ 58) :
    Hw.sendPacket p = .ok ([(p.id >>> 8).setWidth 8, (p.id &&& 0x00ff).setWidth 8,
      Hw.byteOfType p.type] ++ p.data.toList.take p.len.toNat) := by
  rw [Hw.sendPacket, if_neg]
  simp only [Hw.kMaxPacketSize, Hw.kMaxFifoSizePacketSize, Hw.kRadioOverhead, Hw.kFrontPacketPadding]
  omega

end Firefly.Props
