import Verif.Props.Handover
import Verif.Props.Gradual
import Verif.Props.Chosen

/-! # The show keeps its pace, and devices in tune look alike (C180) -/

namespace Firefly.Props
open Spec

theorem pace_nat {K G m n s x R : Nat} (hK : K * 256 ≤ m * 10922 + 2) (hn : K * n ≤ G) (hG : G + 2 * s < 10922)
    (hR : 10922 ≤ R) (hx : x * R ≤ K * (256 * s + n) + 3 * R) : x ≤ m * s + 3 := by
  by_contra h
  have h1 : (m * s + 4) * R ≤ x * R := Nat.mul_le_mul_right _ (by omega)
  have h2 : (m * s + 1) * 10922 ≤ (m * s + 1) * R := Nat.mul_le_mul_left _ hR
  have h3 : K * 256 * s ≤ (m * 10922 + 2) * s := Nat.mul_le_mul_right _ hK
  have e1 : (m * s + 4) * R = (m * s + 1) * R + 3 * R := by rw [← Nat.add_mul]
  have e2 : (m * s + 1) * 10922 = m * s * 10922 + 10922 := by rw [Nat.add_mul, Nat.one_mul]
  have e3 : (m * 10922 + 2) * s = m * s * 10922 + 2 * s := by rw [Nat.add_mul, Nat.mul_right_comm]
  have e4 : K * (256 * s + n) = K * 256 * s + K * n := by rw [Nat.mul_add, Nat.mul_assoc]
  omega

/-- Moving on by `256 s` in the gradient of a shipped palette. -/
theorem pace_spacing {n d s x : Nat} (h2 : 2 ≤ n) (h6 : n ≤ 6) (hd : d ≤ 256 * s) (hs : s ≤ 4000) :
    (x * spacing n true ≤ 128 * (d + n) + 3 * spacing n true → x ≤ 3 * s + 3) ∧
    (x * spacing n true ≤ 255 * (d + n) + 3 * spacing n true → x ≤ 6 * s + 3) := by
  have hR : 10922 ≤ spacing n true := by
    simp only [spacing, if_true]
    exact (Nat.le_div_iff_mul_le (by omega)).2 (by omega)
  generalize spacing n true = R at *
  have up : ∀ K, K * (d + n) ≤ K * (256 * s + n) := fun K => Nat.mul_le_mul_left _ (Nat.add_le_add_right hd _)
  exact ⟨fun h => pace_nat (K := 128) (m := 3) (G := 768) (n := n) (by decide) (by omega) (by omega) hR
      (Nat.le_trans h (Nat.add_le_add_right (up _) _)),
    fun h => pace_nat (K := 255) (m := 6) (G := 1530) (n := n) (by decide) (by omega) (by omega) hR
      (Nat.le_trans h (Nat.add_le_add_right (up _) _))⟩

section
variable {F : FastLED} (plat : Platform) (strip : Strip) (pkt : Packet) (rng rng' : U16)
  (hpkt : NamesPalette plat pkt) {p : Palette} (hp : palettes[pkt.data[2].toNat]? = some p) (h2 : 2 ≤ p.length)
include hpkt hp h2

/-- **C180.** Under the colour cycle with a palette of two or more colours the colours `d` ms apart differ by at most
3 steps of the wheel in hue, and 6 of 255 in saturation and value, for each 16 ms begun, and 3 more. -/
theorem colour_cycle_apart (hF : F.Lawful) (led led' : U8) (t : U32) {d s : Nat} (hs : d ≤ 16 * s) (h4 : s ≤ 4000) :
    ∃ c c', Effect.colorCycle.getColour F plat led t strip pkt rng = .ok (.hsv c, rng) ∧
      Effect.colorCycle.getColour F plat led' (t + BitVec.ofNat 32 d) strip pkt rng' = .ok (.hsv c', rng') ∧
      huesApart c.h.toNat c'.h.toNat ≤ 3 * s + 3 ∧ apart c.s.toNat c'.s.toNat ≤ 6 * s + 3 ∧
      apart c.v.toNat c'.v.toNat ≤ 6 * s + 3 := by
  have ht := t.isLt
  have et : (t + BitVec.ofNat 32 d).toNat = (t.toNat + d) % 2 ^ 32 := by
    rw [BitVec.toNat_add, BitVec.toNat_ofNat]; omega
  have hsm := palettes_small p (List.mem_of_getElem? hp)
  obtain ⟨g, hg, hc⟩ := colour_cycle_gradient F plat led t strip pkt rng hpkt hp h2
    (BitVec.ofNat 16 (256 * (t.toNat / 16 % 256))) (by rw [BitVec.toNat_ofNat]; omega)
  obtain ⟨g', hg', hc'⟩ := colour_cycle_gradient F plat led' (t + BitVec.ofNat 32 d) strip pkt rng' hpkt hp h2
    (BitVec.ofNat 16 (256 * ((t + BitVec.ofNat 32 d).toNat / 16 % 256))) (by rw [BitVec.toNat_ofNat]; omega)
  refine ⟨_, _, hc, hc', ?_⟩
  obtain ⟨a1, a2, a3⟩ := gradient_gradual_round hF p h2 (by omega)
    (d := 256 * ((t.toNat + d) / 16 - t.toNat / 16)) (by
      rw [BitVec.toNat_ofNat, BitVec.toNat_ofNat, et]; omega) hg hg'
  have hd' : 256 * ((t.toNat + d) / 16 - t.toNat / 16) ≤ 256 * s := by omega
  have b1 := (pace_spacing h2 hsm.2 hd' h4).2 a1
  have b2 := (pace_spacing h2 hsm.2 hd' h4).2 a2
  have b3 := (pace_spacing h2 hsm.2 hd' h4).1 a3
  refine ⟨b3, b1, ?_⟩
  by_cases hb : strip.flagEnabled .bright = true
  · simp only [hb, if_true]
    exact b2
  · simp only [hb, if_false, Bool.false_eq_true]
    rw [BitVec.toNat_udiv, BitVec.toNat_udiv, show (2 : U8).toNat = 2 from rfl]
    unfold apart at b2 ⊢
    omega

/-- **C180.** The same for an LED of the rainbow, which keeps its value. -/
theorem rainbow_apart (hF : F.Lawful) (led : U8) (t : U32) {d s : Nat} (hs : d ≤ 16 * s) (h4 : s ≤ 4000) :
    ∃ c c', Effect.rainbow.getColour F plat led t strip pkt rng = .ok (.hsv c, rng) ∧
      Effect.rainbow.getColour F plat led (t + BitVec.ofNat 32 d) strip pkt rng' = .ok (.hsv c', rng') ∧
      huesApart c.h.toNat c'.h.toNat ≤ 3 * s + 3 ∧ apart c.s.toNat c'.s.toNat ≤ 6 * s + 3 ∧ c.v = c'.v := by
  have ht := t.isLt
  have et : (t + BitVec.ofNat 32 d).toNat = (t.toNat + d) % 2 ^ 32 := by
    rw [BitVec.toNat_add, BitVec.toNat_ofNat]; omega
  have hsm := palettes_small p (List.mem_of_getElem? hp)
  generalize hk : (if strip.flagEnabled .tiny then 0 else 8 * led.toNat) = k
  obtain ⟨g, hg, hc⟩ := rainbow_position F plat led t strip pkt rng hpkt hp h2
    (BitVec.ofNat 16 (256 * ((t.toNat / 16 + k) % 256))) (by rw [hk, BitVec.toNat_ofNat]; omega)
  obtain ⟨g', hg', hc'⟩ := rainbow_position F plat led (t + BitVec.ofNat 32 d) strip pkt rng' hpkt hp h2
    (BitVec.ofNat 16 (256 * (((t + BitVec.ofNat 32 d).toNat / 16 + k) % 256)))
    (by rw [hk, BitVec.toNat_ofNat]; omega)
  obtain ⟨a1, a2, a3⟩ := gradient_gradual_round hF p h2 (by omega)
    (d := 256 * ((t.toNat + d) / 16 - t.toNat / 16)) (by
      rw [BitVec.toNat_ofNat, BitVec.toNat_ofNat, et]; omega) hg hg'
  have hd' : 256 * ((t.toNat + d) / 16 - t.toNat / 16) ≤ 256 * s := by omega
  exact ⟨_, _, hc, hc', (pace_spacing h2 hsm.2 hd' h4).1 a3, (pace_spacing h2 hsm.2 hd' h4).2 a1, rfl⟩

end

theorem apart_comm (a b : Nat) : apart a b = apart b a := Nat.add_comm _ _

theorem huesApart_comm (a b : Nat) : huesApart a b = huesApart b a := Nat.min_comm _ _

theorem closer_bits (o p : U32) {d e : Nat} (h : o + BitVec.ofNat 32 d = p + BitVec.ofNat 32 e) (hle : d ≤ e) :
    o = p + BitVec.ofNat 32 (e - d) := by
  have : BitVec.ofNat 32 e = BitVec.ofNat 32 (e - d) + BitVec.ofNat 32 d := by
    rw [← BitVec.ofNat_add, Nat.sub_add_cancel hle]
  rw [this, ← BitVec.add_assoc] at h
  exact (BitVec.add_left_inj _).1 h

theorem pace_bits (a c x y o p d e : U32) (h1 : a + x + c = o + d) (h2 : a + y + c = p + e) :
    (p - o) + e = (y - x) + d := by grind

section
variable {n : Nat} {nbrs : Fin n → List (Fin n)} {on : Fin n → Nat} {boot : Fin n → U32}
  {net₀ : HwNet n} {net : Nat → HwNet n} {T : Nat → Nat} {N : Nat} {c : U32} {A L : Nat}

/-- **C180.** The network time keeps pace with the real time, whoever is master: between local time `x` in round `k` and
local time `y` in round `k'` it moves on by `y - x`, up to the number of ms by which it may be behind. -/
theorem network_time_pace (t : Timeline nbrs on boot net₀ net T N)
    (masters : ∀ k ≤ N, ∀ i, ((net k).node i).getCurrentState = .master → InTune c on A net₀ (net k) i)
    (fresh : ∀ k ≤ N, ∀ i, FreshBeats nbrs i on net₀ (net k) L) {k k' : Nat} (hkk : k ≤ k') (hk : k' ≤ N) {i : Fin n}
    (tune : InTune c on A net₀ (net k) i) (x y : U32) :
    ∃ d ≤ A + (takeovers net₀ (net k) + 1) * L, ∃ e ≤ A + (takeovers net₀ (net k') + 1) * L,
      (((net k').node i).getNetworkMillis y - ((net k).node i).getNetworkMillis x) + BitVec.ofNat 32 e =
        (y - x) + BitVec.ofNat 32 d := by
  have tune' : InTune c on A net₀ (net k') i := by
    rcases tune with h | ⟨e, he, h⟩
    · exact Or.inl h
    · obtain ⟨j, rfl⟩ := Nat.exists_eq_add_of_le hkk
      exact Or.inr ⟨e, since_mono t i j hk he, h⟩
  obtain ⟨d, hd, h1⟩ := (network_time_kept t masters fresh (Nat.le_trans hkk hk) tune).1 x
  obtain ⟨e, he, h2⟩ := (network_time_kept t masters fresh hk tune').1 y
  exact ⟨d, hd, e, he, pace_bits _ _ _ _ _ _ _ _ h1 h2⟩

/-- Two devices in tune are at most that many ms apart. -/
theorem network_times_close (t : Timeline nbrs on boot net₀ net T N)
    (masters : ∀ k ≤ N, ∀ i, ((net k).node i).getCurrentState = .master → InTune c on A net₀ (net k) i)
    (fresh : ∀ k ≤ N, ∀ i, FreshBeats nbrs i on net₀ (net k) L) {k : Nat} (hk : k ≤ N) {i j : Fin n}
    (hi : InTune c on A net₀ (net k) i) (hj : InTune c on A net₀ (net k) j) (x y : U32)
    (same : BitVec.ofNat 32 (on i) + x = BitVec.ofNat 32 (on j) + y) :
    ∃ d ≤ A + (takeovers net₀ (net k) + 1) * L,
      ((net k).node j).getNetworkMillis y = ((net k).node i).getNetworkMillis x + BitVec.ofNat 32 d ∨
      ((net k).node i).getNetworkMillis x = ((net k).node j).getNetworkMillis y + BitVec.ofNat 32 d := by
  obtain ⟨d, hd, e, he, h⟩ := network_times_agree t masters fresh hk hi hj x y same
  rcases Nat.le_total d e with hle | hle
  · exact ⟨e - d, by omega, Or.inr (closer_bits _ _ h hle)⟩
  · exact ⟨d - e, by omega, Or.inl (closer_bits _ _ h.symm hle)⟩

/-- **C180.** Two devices in tune that follow the same instruction look alike at every moment (local times `x` and `y`),
whoever was master: under the colour cycle (any two LEDs) and under the rainbow (the same LED of equal strips) their
colours differ by at most 3 steps of the wheel in hue, and 6 of 255 in saturation and value, for each 16 ms by which their
network times may differ, and 3 more. -/
theorem devices_look_alike (t : Timeline nbrs on boot net₀ net T N)
    (masters : ∀ k ≤ N, ∀ i, ((net k).node i).getCurrentState = .master → InTune c on A net₀ (net k) i)
    (fresh : ∀ k ≤ N, ∀ i, FreshBeats nbrs i on net₀ (net k) L) {k : Nat} (hk : k ≤ N) {i j : Fin n}
    (hi : InTune c on A net₀ (net k) i) (hj : InTune c on A net₀ (net k) j) (x y : U32)
    (same : BitVec.ofNat 32 (on i) + x = BitVec.ofNat 32 (on j) + y)
    {s : Nat} (hs : A + (takeovers net₀ (net k) + 1) * L ≤ 16 * s) (h4 : s ≤ 4000)
    {F : FastLED} (hF : F.Lawful) (plat : Platform) (strip : Strip) (pkt : Packet) (rng rng' : U16)
    (hpkt : NamesPalette plat pkt) {p : Palette} (hp : palettes[pkt.data[2].toNat]? = some p) (h2 : 2 ≤ p.length)
    (led led' : U8) :
    (∃ a b, Effect.colorCycle.getColour F plat led (((net k).node i).getNetworkMillis x) strip pkt rng = .ok (.hsv a, rng) ∧
      Effect.colorCycle.getColour F plat led' (((net k).node j).getNetworkMillis y) strip pkt rng' = .ok (.hsv b, rng') ∧
      huesApart a.h.toNat b.h.toNat ≤ 3 * s + 3 ∧ apart a.s.toNat b.s.toNat ≤ 6 * s + 3 ∧
      apart a.v.toNat b.v.toNat ≤ 6 * s + 3) ∧
    ∃ a b, Effect.rainbow.getColour F plat led (((net k).node i).getNetworkMillis x) strip pkt rng = .ok (.hsv a, rng) ∧
      Effect.rainbow.getColour F plat led (((net k).node j).getNetworkMillis y) strip pkt rng' = .ok (.hsv b, rng') ∧
      huesApart a.h.toNat b.h.toNat ≤ 3 * s + 3 ∧ apart a.s.toNat b.s.toNat ≤ 6 * s + 3 ∧ a.v = b.v := by
  obtain ⟨d, hd, h | h⟩ := network_times_close t masters fresh hk hi hj x y same
  · rw [h]
    exact ⟨colour_cycle_apart plat strip pkt rng rng' hpkt hp h2 hF led led' _ (by omega) h4,
      rainbow_apart plat strip pkt rng rng' hpkt hp h2 hF led _ (by omega) h4⟩
  · rw [h]
    obtain ⟨a, b, e1, e2, e3, e4, e5⟩ := colour_cycle_apart plat strip pkt rng' rng hpkt hp h2 hF led' led
      (((net k).node j).getNetworkMillis y) (d := d) (s := s) (by omega) h4
    obtain ⟨a', b', f1, f2, f3, f4, f5⟩ := rainbow_apart plat strip pkt rng' rng hpkt hp h2 hF led
      (((net k).node j).getNetworkMillis y) (d := d) (s := s) (by omega) h4
    exact ⟨⟨b, a, e2, e1, huesApart_comm _ _ ▸ e3, apart_comm _ _ ▸ e4, apart_comm _ _ ▸ e5⟩,
      ⟨b', a', f2, f1, huesApart_comm _ _ ▸ f3, apart_comm _ _ ▸ f4, f5.symm⟩⟩

end

open HwDemo in
/-- A concrete case of C180: in the network of `handover_demo` there were two take-overs, so that devices in tune are
never more than 180 ms apart, and their hues under the colour cycle no more than 39 steps.  Their hues at 20000 are 8 steps
apart, the last device being 110 ms behind. -/
theorem pace_demo :
    takeovers net₀ (freshNet scriptHand 4) = 2 ∧ 0 + (2 + 1) * 60 ≤ 16 * 12 ∧
    FastLED.reference.Lawful ∧ NamesPalette .host motionPacket ∧
    palettes[motionPacket.data[2].toNat]? = some [⟨0, 255, 255⟩, ⟨96, 255, 255⟩, ⟨160, 255, 255⟩] ∧
    [Effect.colorCycle.getColour FastLED.reference .host 7 (((freshNet scriptHand 4).node 0).getNetworkMillis 20000)
        (Strip.new 60 []) motionPacket 0,
      Effect.colorCycle.getColour FastLED.reference .host 7 (((freshNet scriptHand 4).node 2).getNetworkMillis 20000)
        (Strip.new 60 []) motionPacket 0].map (fun r => r.toOption.map (·.1)) =
      [some (.hsv ⟨221, 255, 127⟩), some (.hsv ⟨213, 255, 127⟩)] := by
  have ht : ∀ w : List Entry, tally Entry.Promoted w =
      w.countP fun e => decide (e.pre.state = .slave) && decide (e.post.state = .master) := by
    intro w
    refine List.countP_congr fun e _ => ?_
    simp only [decide_eq_true_eq, Bool.and_eq_true]
    exact Iff.rfl
  refine ⟨?_, by decide, FastLED.reference_lawful, ⟨fun _ => ⟨rfl, rfl⟩, by decide⟩, by decide, by decide +kernel⟩
  simp only [takeovers, ht]
  decide +kernel

end Firefly.Props
