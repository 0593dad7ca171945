import Verif.Spec.Devices
import Verif.Props.RadioHead

/-! # Property C78: the DMX gateway -/

namespace Firefly.Props
open Dmx Spec

theorem dmx_sent_iff {junk inp n} : (∃ p, sent junk inp n = some p) ↔
    ((inp n).colour ≠ (state junk inp n).last ∨
      (state junk inp n).lastSent + 1000 < (inp n).time) := by
  have e : kUpdateTimeoutSeconds * 1000 = 1000 := by decide
  have hc : ∀ a b : CRGB, a ≠ b ↔ a.r ≠ b.r ∨ a.g ≠ b.g ∨ a.b ≠ b.b := by
    intro a b
    cases a; cases b
    simp only [ne_eq, CRGB.mk.injEq]
    grind
  simp only [sent, loop, e]
  rw [hc]
  split
  · rename_i h
    simp only [Option.some.injEq, exists_eq', true_iff]
    rcases h with h | h | h | h
    · exact .inl (.inl h)
    · exact .inl (.inr (.inl h))
    · exact .inl (.inr (.inr h))
    · exact .inr h
  · rename_i h
    simp only [reduceCtorEq, exists_false, false_iff]
    rintro ((h' | h' | h') | h')
    · exact h (.inl h')
    · exact h (.inr (.inl h'))
    · exact h (.inr (.inr (.inl h')))
    · exact h (.inr (.inr (.inr h')))

theorem dmx_last {junk inp} (n : Nat) : (state junk inp (n + 1)).last = (inp n).colour := by
  simp only [state, loop]
  split
  · rfl
  · rename_i h
    simp only [not_or, Decidable.not_not] at h
    obtain ⟨h1, h2, h3, -⟩ := h
    cases ha : (inp n).colour; cases hb : (state junk inp n).last
    simp_all

/-- The colour of the iteration before `n` (black before the first). -/
theorem dmx_last' {junk inp} (n : Nat) : (state junk inp n).last = previousColour inp n := by
  cases n with
  | zero => rfl
  | succ n => exact dmx_last n

/-- C78.  Every change of the colour (at first: any colour but black) is transmitted in the very
iteration that reads it, whatever the clock shows. -/
theorem dmx_change_transmitted (junk) (inp : Nat → Input) (n : Nat)
    (h : (inp n).colour ≠ previousColour inp n) : ∃ p, sent junk inp n = some p :=
  dmx_sent_iff.2 (.inl (by rw [dmx_last']; exact h))

/-- The transmissions before iteration `n`. -/
theorem dmx_packetId {junk inp} (n : Nat) :
    (state junk inp n).packetId = BitVec.ofNat 16 (transmissions (sent junk inp) n) := by
  induction n with
  | zero => rfl
  | succ n ih =>
    have e : transmissions (sent junk inp) (n + 1) =
        transmissions (sent junk inp) n + (if (sent junk inp n).isSome then 1 else 0) := rfl
    rw [e]
    simp only [state, sent, loop]
    split
    · simp only [Option.isSome_some, if_true]
      rw [ih]
      apply BitVec.eq_of_toNat_eq
      simp
    · simp only [Option.isSome_none, Bool.false_eq_true, if_false, Nat.add_zero]
      exact ih

/-- C78.  What is transmitted is a control packet that requests the colour just read for five
seconds; the packets are numbered 0, 1, 2, … modulo 2¹⁶. -/
theorem dmx_packet (junk) (inp : Nat → Input) (n : Nat) {p} (h : sent junk inp n = some p) :
    p.type = .setControl ∧ p.len = 4 ∧
    p.data[0] = 5 ∧ p.data[1] = (inp n).colour.r ∧ p.data[2] = (inp n).colour.g ∧
    p.data[3] = (inp n).colour.b ∧
    p.id = BitVec.ofNat 16 (transmissions (sent junk inp) n) := by
  have hid := dmx_packetId (junk := junk) (inp := inp) n
  simp only [sent, loop] at h
  split at h
  · cases h
    refine ⟨rfl, rfl, ?_, ?_, ?_, ?_, hid⟩ <;>
      simp [Packet.writeControl, kReservationSeconds]
  · cases h

/-- C78.  On the air a transmission is the seven bytes id, type 3, delay 5, red, green, blue, and
a board that receives them reads that colour. -/
theorem dmx_frame (junk) (inp : Nat → Input) (n : Nat) {p} (h : sent junk inp n = some p)
    (q : Packet) :
    ∃ hi lo r, hi.toNat * 256 + lo.toNat = p.id.toNat ∧
      Hw.sendPacket p = .ok [hi, lo, 3, 5, (inp n).colour.r, (inp n).colour.g, (inp n).colour.b] ∧
      Hw.readPacket (some [hi, lo, 3, 5, (inp n).colour.r, (inp n).colour.g,
        (inp n).colour.b]) q = .ok (some r) ∧
      r.id = p.id ∧ r.type = .setControl ∧
      r.readRgbFromSetControl .arduino = .ok (inp n).colour ∧
      r.readDelayFromSetControl .arduino = .ok 5 := by
  obtain ⟨ht, hl, h0, h1, h2, h3, -⟩ := dmx_packet junk inp n h
  obtain ⟨hi, lo, e, hv⟩ := framing_layout p (by rw [hl]; decide)
  have hd : p.data.toList.take p.len.toNat =
      [5, (inp n).colour.r, (inp n).colour.g, (inp n).colour.b] := by
    rw [hl, ← h1, ← h2, ← h3, ← h0]
    apply List.ext_getElem
    · simp
    · intro i a b
      have : i < 4 := by simpa using b
      match i, this with
      | 0, _ => simp
      | 1, _ => simp
      | 2, _ => simp
      | 3, _ => simp
  rw [hd, ht] at e
  obtain ⟨frame, r, e1, e2, hid, hty, hdat, -⟩ := framing_roundtrip p q (by rw [hl]; decide)
    (by rw [hl]; decide)
  have hfr : frame = hi :: lo :: Hw.byteOfType .setControl ::
      [5, (inp n).colour.r, (inp n).colour.g, (inp n).colour.b] := by
    rw [e] at e1; cases e1; rfl
  subst hfr
  refine ⟨hi, lo, r, hv, e, e2, hid, hty.trans ht, ?_, ?_⟩
  · have d1 := hdat 1 (by omega) (by rw [hl]; decide)
    have d2 := hdat 2 (by omega) (by rw [hl]; decide)
    have d3 := hdat 3 (by omega) (by rw [hl]; decide)
    simp [Packet.readRgbFromSetControl, hostAssert, bind, Except.bind, pure, Except.pure, d1, d2, d3,
      h1, h2, h3]
  · have d0 := hdat 0 (by omega) (by rw [hl]; decide)
    simp [Packet.readDelayFromSetControl, hostAssert, bind, Except.bind, pure, Except.pure, d0, h0]

theorem dmx_lastSent {junk inp} {n m : Nat} (h : LastTransmission (sent junk inp) n m) :
    (state junk inp n).lastSent = (inp m).time := by
  obtain ⟨hmn, hm, hno⟩ := h
  induction n with
  | zero => omega
  | succ n ih =>
    by_cases hnm : m = n
    · subst hnm
      simp only [sent, loop] at hm
      simp only [state, loop]
      split
      · rfl
      · rename_i h; rw [if_neg h] at hm; cases hm
    · have := hno n (by omega) (by omega)
      have e := ih (by omega) (fun i h1 h2 => hno i h1 (by omega))
      simp only [sent, loop] at this
      simp only [state, loop]
      split
      · rename_i h; rw [if_pos h] at this; cases this
      · exact e

theorem dmx_lastSent_none {junk inp} {n : Nat} (h : ∀ i < n, sent junk inp i = none) :
    (state junk inp n).lastSent = 0 := by
  induction n with
  | zero => rfl
  | succ n ih =>
    have := h n (by omega)
    simp only [sent, loop] at this
    simp only [state, loop]
    split
    · rename_i h; rw [if_pos h] at this; cases this
    · exact ih fun i hi => h i (by omega)

/-- C78.  An unchanged colour is repeated in the first iteration more than 1000 ms after the
latest transmission, and not earlier, as long as the clock stays 1000 ms away from its wrap at
2³² ms. -/
theorem dmx_repeats (junk) (inp : Nat → Input) {n m : Nat}
    (hm : LastTransmission (sent junk inp) n m) (hc : (inp n).colour = previousColour inp n)
    (hw : (inp m).time.toNat + 1000 < 2 ^ 32) :
    (∃ p, sent junk inp n = some p) ↔ (inp m).time.toNat + 1000 < (inp n).time.toNat := by
  rw [dmx_sent_iff, dmx_last', dmx_lastSent hm, BitVec.lt_def, BitVec.toNat_add,
    show (1000 : U32).toNat = 1000 from rfl, Nat.mod_eq_of_lt hw]
  simp [hc]

/-- C78.  Before the first transmission the same holds with the time since start-up. -/
theorem dmx_first (junk) (inp : Nat → Input) {n : Nat} (hm : ∀ i < n, sent junk inp i = none)
    (hc : (inp n).colour = previousColour inp n) :
    (∃ p, sent junk inp n = some p) ↔ 1000 < (inp n).time.toNat := by
  rw [dmx_sent_iff, dmx_last', dmx_lastSent_none hm, BitVec.lt_def]
  simp [hc]

/-- C78, repetition refuted at the wrap of the clock: once a transmission happened within the
last 1000 ms of a possible deadline before the wrap and no iteration fell between the deadline
and the wrap, an unchanged colour is not repeated until the clock reaches that deadline again,
49 days later. -/
theorem dmx_stalls_after_wrap (junk) (inp : Nat → Input) {m n : Nat} (hmn : m < n)
    (hs : ∃ p, sent junk inp m = some p)
    (hw : (inp m).time.toNat + 1000 < 2 ^ 32)
    (hc : ∀ i, m < i → i ≤ n → (inp i).colour = (inp m).colour)
    (ht : ∀ i, m < i → i ≤ n → (inp i).time.toNat ≤ (inp m).time.toNat + 1000) :
    ∀ i, m < i → i ≤ n → sent junk inp i = none := by
  intro i
  induction i using Nat.strongRecOn with
  | _ i ih =>
    intro h1 h2
    have hl : LastTransmission (sent junk inp) i m := by
      refine ⟨h1, ?_, fun j hj1 hj2 => ih j hj2 hj1 (by omega)⟩
      obtain ⟨p, hp⟩ := hs; rw [hp]; rfl
    have hprev : (inp i).colour = previousColour inp i := by
      obtain ⟨k, rfl⟩ : ∃ k, i = k + 1 := ⟨i - 1, by omega⟩
      show _ = (inp k).colour
      by_cases hk : k = m
      · subst hk; exact hc _ h1 h2
      · rw [hc _ h1 h2, hc k (by omega) (by omega)]
    have := dmx_repeats junk inp hl hprev hw
    have := ht i h1 h2
    cases hx : sent junk inp i with
    | none => rfl
    | some p => exact absurd ((dmx_repeats junk inp hl hprev hw).1 ⟨p, hx⟩) (by omega)

/-- An iteration every 50 ms, transmitting 1010 ms before the wrap. -/
def wrapSchedule : Nat → Input :=
  fun n => ⟨⟨1, 2, 3⟩, BitVec.ofNat 32 (2 ^ 32 - 1010 + 50 * n)⟩

/-- C78, the refutation at work: with an iteration every 50 ms the gateway is silent for the
85 million iterations (49 days) after its transmission 1010 ms before the wrap. -/
theorem dmx_silent_for_weeks (junk) :
    (∃ p, sent junk wrapSchedule 0 = some p) ∧
    ∀ i, 0 < i → i ≤ 85899325 → sent junk wrapSchedule i = none := by
  have h0 : ∃ p, sent junk wrapSchedule 0 = some p :=
    dmx_change_transmitted junk _ 0 (by decide)
  refine ⟨h0, fun i h1 h2 => ?_⟩
  refine dmx_stalls_after_wrap junk wrapSchedule (m := 0) (n := 85899325) (by omega) h0
    (by decide) (fun _ _ _ => rfl) (fun j hj1 hj2 => ?_) i h1 h2
  simp only [wrapSchedule, BitVec.toNat_ofNat]
  by_cases hj : j ≤ 20
  · rw [Nat.mod_eq_of_lt (by omega), Nat.mod_eq_of_lt (by omega)]; omega
  · have : (2 ^ 32 - 1010 + 50 * j) % 2 ^ 32 = 50 * j - 1010 := by omega
    rw [this]; omega

/-- C78.  The first packet after start-up has id 0, which every freshly started board takes for
one it has already seen and ignores. -/
theorem dmx_first_packet_ignored (junk) (inp : Nat → Input) {n : Nat}
    (hm : ∀ i < n, sent junk inp i = none) {p} (h : sent junk inp n = some p) :
    p.id = 0 ∧ NM.init.receive (some p) = .ok (none, [], NM.init) := by
  have hid := (dmx_packet junk inp n h).2.2.2.2.2.2
  have ht : transmissions (sent junk inp) n = 0 := by
    clear h hid
    induction n with
    | zero => rfl
    | succ n ih =>
      have e : transmissions (sent junk inp) (n + 1) =
        transmissions (sent junk inp) n + (if (sent junk inp n).isSome then 1 else 0) := rfl
      rw [e, ih fun i hi => hm i (by omega), hm n (by omega)]; rfl
  rw [ht] at hid
  refine ⟨hid, ?_⟩
  cases p
  simp only at hid
  subst hid
  rfl

/-- Black for half a second, red, red again after 1.2 s. -/
example : let inp : Nat → Input := fun n =>
      [(⟨⟨0, 0, 0⟩, 500⟩ : Input), ⟨⟨255, 0, 0⟩, 550⟩, ⟨⟨255, 0, 0⟩, 1550⟩,
        ⟨⟨255, 0, 0⟩, 1600⟩].getD n ⟨⟨0, 0, 0⟩, 0⟩
    (List.range 4).map (fun n => (sent (.heartbeat, Vector.replicate 58 0) inp n).map
      (fun p => (p.id, p.data.toList.take 4))) =
      [none, some (0, [5, 255, 0, 0]), none, some (1, [5, 255, 0, 0])] := by
  decide +kernel

end Firefly.Props
