import Verif.Props.Periods

/-! # The picture when the network clock wraps around (C164) -/

namespace Firefly.Props
open Spec

/-- The colour depends only on the place in the period. -/
theorem colour_in_period (F : FastLED) (plat : Platform) (e : Effect) (led : U8) (strip : Strip)
    (pkt : Packet) (rng : U16) (hled : led < strip.count) {P : Nat} (h0 : 0 < P)
    (hP : period strip e = some (P, 1)) (m : Nat) (r : Nat) (hm : r + P * m < 2 ^ 32) :
    e.getColour F plat led (BitVec.ofNat 32 (r + P * m)) strip pkt rng =
      e.getColour F plat led (BitVec.ofNat 32 r) strip pkt rng := by
  induction m with
  | zero => rfl
  | succ m ih =>
    rw [Nat.mul_succ, ← Nat.add_assoc] at hm ⊢
    have l : r + P * m < 2 ^ 32 := by omega
    rw [← ih l]
    refine effects_repeat F plat e led _ _ strip pkt rng hled hP ?_ ?_
    · rw [BitVec.toNat_ofNat, BitVec.toNat_ofNat, Nat.mod_eq_of_lt l, Nat.mod_eq_of_lt hm]
    · rw [BitVec.toNat_ofNat, Nat.mod_eq_of_lt hm, Nat.mul_one]
      exact hm

/-- C164. Let `n` be the time in milliseconds since the network clock was 0, without any limit. An effect
whose period divides 2^32 (colour cycle, contrast bumps, rainbow, stop light, palette display, plain colour
and dark) shows the same picture again after each period for ever: the wrap-around is not seen. -/
theorem wrap_unseen (F : FastLED) (plat : Platform) (e : Effect) (led : U8) (strip : Strip)
    (pkt : Packet) (rng : U16) (hled : led < strip.count) {P : Nat}
    (hP : period strip e = some (P, 1)) (hd : P ∣ 2 ^ 32) (n : Nat) :
    e.getColour F plat led (BitVec.ofNat 32 (n + P)) strip pkt rng =
      e.getColour F plat led (BitVec.ofNat 32 n) strip pkt rng := by
  have h0 : 0 < P := Nat.pos_of_dvd_of_pos hd (by decide)
  have key : ∀ n, e.getColour F plat led (BitVec.ofNat 32 n) strip pkt rng =
      e.getColour F plat led (BitVec.ofNat 32 (n % P)) strip pkt rng := by
    intro n
    have d := Nat.mod_add_div (n % 2 ^ 32) P
    have c := colour_in_period F plat e led strip pkt rng hled h0 hP (n % 2 ^ 32 / P)
      (n % 2 ^ 32 % P) (by rw [d]; exact Nat.mod_lt _ (by decide))
    rw [d, Nat.mod_mod_of_dvd _ hd] at c
    rw [← c]
    congr 1
    apply BitVec.eq_of_toNat_eq
    rw [BitVec.toNat_ofNat, BitVec.toNat_ofNat, Nat.mod_mod]
  rw [key, key n, Nat.add_mod_right]

/-- The effects meant in `wrap_unseen`. -/
theorem wrap_unseen_effects (strip : Strip) :
    ∀ e ∈ [Effect.control, .dark, .colorCycle, .contrastBumps, .rainbow, .stopLight,
      .displayColorPalette], ∃ P, period strip e = some (P, 1) ∧ P ∣ 2 ^ 32 := by
  intro e he
  simp only [List.mem_cons, List.not_mem_nil, or_false] at he
  rcases he with rfl | rfl | rfl | rfl | rfl | rfl | rfl <;>
    exact ⟨_, rfl, by decide⟩

/-- A concrete case of `wrap_unseen`: the rainbow 96 ms before and 4 s after the wrap-around. -/
example : Effect.rainbow.getColour FastLED.reference .arduino 7 (BitVec.ofNat 32 (2 ^ 32 - 96 + 4096))
      (Strip.new 60 []) periodPacket 0 =
    Effect.rainbow.getColour FastLED.reference .arduino 7 (BitVec.ofNat 32 (2 ^ 32 - 96))
      (Strip.new 60 []) periodPacket 0 :=
  wrap_unseen _ _ _ _ _ _ _ (by decide) (P := 4096) rfl (by decide) _

/-- The colour of LED `led` of a strip of 60 at time `n`. -/
def wrapColour (e : Effect) (led : U8) (n : Nat) : Except Fault (Colour × U16) :=
  e.getColour FastLED.reference .host led (BitVec.ofNat 32 n) (Strip.new 60 []) periodPacket 0

/-- C164, the exceptions: the period of the other effects does not divide 2^32, and their picture jumps: one
period after a moment shortly before the wrap-around they show something else. -/
theorem wrap_jumps : ∀ x ∈ [(Effect.rainbowBumps, 20480, 4294946917), (.swingingLights, 5000, 4294962320),
      (.police, 336000, 4294632967), (.simpleBlink 100, 19660800, 4275404310),
      (.firefly 400, 491520000, 4294967000), (.pride, 23040, 4294944370)],
    period (Strip.new 60 []) x.1 = some (x.2.1, 1) ∧ x.2.2 < 2 ^ 32 ∧
      wrapColour x.1 0 (x.2.2 + x.2.1) ≠ wrapColour x.1 0 x.2.2 := by
  decide +kernel

end Firefly.Props
