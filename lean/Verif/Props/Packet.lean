import Verif.Model.Packet

/-! # Properties of packets (C01–C04) -/

namespace Firefly.Props

/-- The number denoted by four bytes, most significant first. -/
def bigEndian (a b c d : U8) : Nat :=
  a.toNat * 2 ^ 24 + b.toNat * 2 ^ 16 + c.toNat * 2 ^ 8 + d.toNat

/-- C01.  Whatever was in the packet before and on both builds, a time written as heartbeat is
read back exactly; the packet is a 4-byte heartbeat holding the time most significant byte
first; id and the rest of the payload are untouched. -/
theorem heartbeat_roundtrip (plat : Platform) (p : Packet) (t : U32) :
    (p.writeHeartbeat t).readTimeFromHeartbeat plat = .ok t ∧
    (p.writeHeartbeat t).type = .heartbeat ∧
    (p.writeHeartbeat t).len = 4 ∧
    (p.writeHeartbeat t).id = p.id ∧
    bigEndian (p.writeHeartbeat t).data[0] (p.writeHeartbeat t).data[1]
      (p.writeHeartbeat t).data[2] (p.writeHeartbeat t).data[3] = t.toNat ∧
    ∀ i, (h : i < 58) → 4 ≤ i → (p.writeHeartbeat t).data[i] = p.data[i] := by
  refine ⟨?_, rfl, rfl, rfl, ?_, ?_⟩
  · have key : (t.setWidth 8).setWidth 32 ||| ((t >>> 8).setWidth 8).setWidth 32 <<< 8 |||
        ((t >>> 16).setWidth 8).setWidth 32 <<< 16 |||
        ((t >>> 24).setWidth 8).setWidth 32 <<< 24 = t := by
      ext i hi
      simp
      grind
    cases plat <;>
      simp [Packet.readTimeFromHeartbeat, Packet.writeHeartbeat, hostAssert, bind, Except.bind,
        pure, Except.pure, key]
  · simp [Packet.writeHeartbeat, bigEndian, Nat.shiftRight_eq_div_pow]
    omega
  · intro i h hi
    simp [Packet.writeHeartbeat, Vector.getElem_set]
    grind

example : (Packet.writeHeartbeat ⟨7, .setEffect, 3, Vector.replicate 58 9⟩ 0x80ff0102#32).data.take 5
    = #v[0x80, 0xff, 1, 2, 9] := by decide

/-- C02.  The three fields of a set-effect packet are read back as written, on both builds. -/
theorem setEffect_roundtrip (plat : Platform) (p : Packet) (effect delay palette : U8) :
    (p.writeSetEffect effect delay palette).readEffectIndexFromSetEffect plat = .ok effect ∧
    (p.writeSetEffect effect delay palette).readDelayFromSetEffect plat = .ok delay ∧
    (p.writeSetEffect effect delay palette).readPaletteIndexFromSetEffect plat = .ok palette ∧
    (p.writeSetEffect effect delay palette).type = .setEffect ∧
    (p.writeSetEffect effect delay palette).len = 3 ∧
    (p.writeSetEffect effect delay palette).id = p.id ∧
    ∀ i, (h : i < 58) → 3 ≤ i → (p.writeSetEffect effect delay palette).data[i] = p.data[i] := by
  refine ⟨?_, ?_, ?_, rfl, rfl, rfl, ?_⟩
  · cases plat <;> simp [Packet.readEffectIndexFromSetEffect, Packet.writeSetEffect, hostAssert,
      bind, Except.bind, pure, Except.pure]
  · cases plat <;> simp [Packet.readDelayFromSetEffect, Packet.writeSetEffect, hostAssert,
      bind, Except.bind, pure, Except.pure]
  · cases plat <;> simp [Packet.readPaletteIndexFromSetEffect, Packet.writeSetEffect, hostAssert,
      bind, Except.bind, pure, Except.pure]
  · intro i h hi
    simp [Packet.writeSetEffect, Vector.getElem_set]
    grind

example : (Packet.writeSetEffect ⟨7, .heartbeat, 4, Vector.replicate 58 9⟩ 200 3 21).data.take 4
    = #v[200, 3, 21, 9] := by decide

/-- C03.  Delay and colour of a control packet are read back as written, on both builds. -/
theorem control_roundtrip (plat : Platform) (p : Packet) (delay : U8) (rgb : CRGB) :
    (p.writeControl delay rgb).readDelayFromSetControl plat = .ok delay ∧
    (p.writeControl delay rgb).readRgbFromSetControl plat = .ok rgb ∧
    (p.writeControl delay rgb).type = .setControl ∧
    (p.writeControl delay rgb).len = 4 ∧
    (p.writeControl delay rgb).id = p.id ∧
    ∀ i, (h : i < 58) → 4 ≤ i → (p.writeControl delay rgb).data[i] = p.data[i] := by
  refine ⟨?_, ?_, rfl, rfl, rfl, ?_⟩
  · cases plat <;> simp [Packet.readDelayFromSetControl, Packet.writeControl, hostAssert,
      bind, Except.bind, pure, Except.pure]
  · cases plat <;> simp [Packet.readRgbFromSetControl, Packet.writeControl, hostAssert,
      bind, Except.bind, pure, Except.pure]
  · intro i h hi
    simp [Packet.writeControl, Vector.getElem_set]
    grind

example : (Packet.writeControl ⟨7, .heartbeat, 4, Vector.replicate 58 9⟩ 60 ⟨1, 2, 3⟩).data.take 5
    = #v[60, 1, 2, 3, 9] := by decide

/-- A packet whose length field is legal. -/
def LegalLength (p : Packet) : Prop := p.len.toNat ≤ 58

/-- The meaning of packet equality: same id, type, length, and same payload up to the length. -/
def SameMessage (p q : Packet) : Prop :=
  p.id = q.id ∧ p.type = q.type ∧ p.len = q.len ∧
    ∀ i, (h : i < 58) → i < p.len.toNat → p.data[i] = q.data[i]

/-- C04.  `==` holds exactly for packets of legal length that carry the same message. -/
theorem packetEq_iff (p q : Packet) :
    p.eqOp q = true ↔ LegalLength p ∧ LegalLength q ∧ SameMessage p q := by
  unfold Packet.eqOp LegalLength SameMessage packetDataLength
  split
  · rename_i h
    simp only [Bool.false_eq_true, false_iff]
    rintro ⟨h1, h2, -⟩
    omega
  · rename_i h
    have hl : p.len.toNat ≤ 58 ∧ q.len.toNat ≤ 58 := by omega
    simp only [Bool.and_eq_true, beq_iff_eq, hl.1, hl.2, true_and, and_assoc]
    refine and_congr_right fun _ => and_congr_right fun _ => and_congr_right fun _ => ?_
    constructor
    · intro e i hi hlt
      have := congrArg (fun l => l[i]?) e
      simp [hlt, hi] at this
      exact this
    · intro e
      apply List.ext_getElem?
      intro i
      by_cases hlt : i < p.len.toNat
      · have hi : i < 58 := by omega
        simp [hlt, hi, e i hi hlt]
      · simp [List.getElem?_take, hlt]

/-- C04.  On packets of legal length `==` is reflexive. -/
theorem packetEq_refl (p : Packet) (h : LegalLength p) : p.eqOp p = true :=
  (packetEq_iff p p).2 ⟨h, h, rfl, rfl, rfl, fun _ _ _ => rfl⟩

/-- C04.  `==` is symmetric. -/
theorem packetEq_symm (p q : Packet) : p.eqOp q = q.eqOp p := by
  have h : p.eqOp q = true ↔ q.eqOp p = true := by
    rw [packetEq_iff, packetEq_iff]
    constructor <;>
    · rintro ⟨h1, h2, e1, e2, e3, e4⟩
      exact ⟨h2, h1, e1.symm, e2.symm, e3.symm, fun i hi hl => (e4 i hi (e3 ▸ hl)).symm⟩
  cases hp : p.eqOp q <;> cases hq : q.eqOp p <;> simp_all

/-- C04.  `==` is transitive. -/
theorem packetEq_trans (p q r : Packet) (h₁ : p.eqOp q = true) (h₂ : q.eqOp r = true) :
    p.eqOp r = true := by
  rw [packetEq_iff] at *
  obtain ⟨h1, h2, e1, e2, e3, e4⟩ := h₁
  obtain ⟨-, g2, f1, f2, f3, f4⟩ := h₂
  exact ⟨h1, g2, e1.trans f1, e2.trans f2, e3.trans f3,
    fun i hi hl => (e4 i hi hl).trans (f4 i hi (e3 ▸ hl))⟩

/-- C04.  A packet of illegal length is equal to nothing, in either order. -/
theorem packetEq_illegal (p q : Packet) (h : ¬ LegalLength p) :
    p.eqOp q = false ∧ q.eqOp p = false := by
  constructor
  · apply Bool.eq_false_iff.2; intro e; exact h ((packetEq_iff _ _).1 e).1
  · apply Bool.eq_false_iff.2; intro e; exact h ((packetEq_iff _ _).1 e).2.1

/-- C04.  Bytes beyond the length never matter. -/
theorem packetEq_ignores_tail (p q : Packet) (i : Nat) (hi : i < 58) (v : U8)
    (hl : p.len.toNat ≤ i) :
    ({ p with data := p.data.set i v } : Packet).eqOp q = p.eqOp q := by
  have : ({ p with data := p.data.set i v } : Packet).eqOp q = true ↔ p.eqOp q = true := by
    rw [packetEq_iff, packetEq_iff]
    simp only [LegalLength, SameMessage, Vector.getElem_set]
    refine and_congr_right fun _ => and_congr_right fun _ => and_congr_right fun _ =>
      and_congr_right fun _ => and_congr_right fun _ => ?_
    refine forall_congr' fun j => forall_congr' fun hj => forall_congr' fun hlt => ?_
    rw [if_neg (by omega)]
  cases h1 : ({ p with data := p.data.set i v } : Packet).eqOp q <;> cases h2 : p.eqOp q <;>
    simp_all

example : LegalLength ⟨7, .setEffect, 3, Vector.replicate 58 9⟩ ∧
    ¬ LegalLength ⟨7, .setEffect, 59, Vector.replicate 58 9⟩ ∧
    Packet.eqOp ⟨7, .setEffect, 3, Vector.replicate 58 9⟩
      ⟨7, .setEffect, 3, (Vector.replicate 58 9).set 3 1⟩ = true ∧
    Packet.eqOp ⟨7, .setEffect, 3, Vector.replicate 58 9⟩
      ⟨7, .setEffect, 3, (Vector.replicate 58 9).set 2 1⟩ = false := by
  unfold LegalLength; decide

end Firefly.Props
