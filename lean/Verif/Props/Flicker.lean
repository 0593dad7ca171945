import Verif.Lemmas.Flicker
import Verif.Props.Motion
import Verif.Props.Shapes
import Verif.Props.Registry
import Mathlib.Tactic.IntervalCases

/-! # How often an LED flashes (C171) -/

namespace Firefly.Props
open Spec

theorem named_palette {plat : Platform} {pkt : Packet} (h : NamesPalette plat pkt) :
    ∃ p, palettes[pkt.data[2].toNat]? = some p ∧ p ∈ palettes := by
  have hlt : pkt.data[2].toNat < palettes.length := h.2
  exact ⟨_, List.getElem?_eq_getElem hlt, List.getElem_mem hlt⟩

theorem lights_hsv {F : FastLED} {plat : Platform} {e : Effect} {led : U8} {strip : Strip} {pkt : Packet} {ms : Nat}
    {c : CHSV} {rng : U16} (h : e.getColour F plat led (BitVec.ofNat 32 ms) strip pkt 0 = .ok (.hsv c, rng)) :
    lights F plat e led strip pkt ms = decide (c.v.toNat ≠ 0) := by
  unfold lights
  rw [h]
  simp only [Colour.isLit]
  by_cases h0 : c.v = 0
  · rw [h0]; rfl
  · have h1 : c.v.toNat ≠ 0 := fun h => h0 (BitVec.eq_of_toNat_eq h)
    rw [decide_eq_true h1]
    exact bne_iff_ne.2 h0

theorem time_toNat {ms : Nat} (h : ms < 2 ^ 32) : (BitVec.ofNat 32 ms : U32).toNat = ms := by
  rw [BitVec.toNat_ofNat, Nat.mod_eq_of_lt h]

theorem blink_lights {F : FastLED} (hF : F.Lawful) (plat : Platform) (s : U16) (led : U8) (strip : Strip)
    (pkt : Packet) (hs : 1 ≤ s.toNat) (hpkt : NamesPalette plat pkt) {ms : Nat} (hms : ms < 2 ^ 32) :
    lights F plat (.simpleBlink s) led strip pkt ms = decide (ms % (3 * s.toNat) < s.toNat) := by
  obtain ⟨h1, h2⟩ := blink_duty hF plat s led (BitVec.ofNat 32 ms) strip pkt 0 hs hpkt
  rw [time_toNat hms] at h1 h2
  by_cases h : ms % (3 * s.toNat) < s.toNat
  · obtain ⟨c, hc, hv⟩ := h1 h
    have : c.v.toNat ≠ 0 := by
      split at hv <;> omega
    rw [lights_hsv hc, decide_eq_true h, decide_eq_true this]
  · unfold lights
    rw [h2 (by omega), decide_eq_false h]
    rfl

/-- **C171.** A blinker of parameter `s` flashes at most once every `3 s` ms, whenever frames are shown. -/
theorem strobe_flashes {F : FastLED} (hF : F.Lawful) (plat : Platform) (s : U16) (led : U8) (strip : Strip)
    (pkt : Packet) (hs : 1 ≤ s.toNat) (hpkt : NamesPalette plat pkt) {a b : Nat} {l : List Nat}
    (h : FramesFrom a b l) (hb : b < 2 ^ 32) :
    flashes (lights F plat (.simpleBlink s) led strip pkt) l ≤ (b - a) / (3 * s.toNat) + 1 := by
  rw [flashes_congr (lit' := fun t : Nat => decide ((t : Int) % ((3 * s.toNat : Nat) : Int) < s.toNat))
    fun t ht => by
      rw [blink_lights hF plat s led strip pkt hs hpkt (Nat.lt_of_le_of_lt (mem_bounds h t ht) hb)]
      congr 1
      rw [← Int.natCast_emod, Int.ofNat_lt]]
  have k := flashes_round (u := fun t : Nat => (t : Int)) (fun _ _ h => Int.ofNat_le.2 h)
    (P := ((3 * s.toNat : Nat) : Int)) (by omega) s.toNat h
  have r := rounds_le (x := a) (y := b) (P := ((3 * s.toNat : Nat) : Int)) (by omega)
  have hab : a ≤ b := mem_bounds h a (List.mem_of_mem_head? h.first)
  rw [← Int.ofNat_sub hab, ← Int.natCast_ediv] at r
  omega

/-- **C171.** If frames are never more than `s` ms apart, every flash is seen: an LED flashes exactly once
every `3 s` ms, at the multiples of `3 s`. -/
theorem strobe_every_flash {F : FastLED} (hF : F.Lawful) (plat : Platform) (s : U16) (led : U8) (strip : Strip)
    (pkt : Packet) (hs : 1 ≤ s.toNat) (hpkt : NamesPalette plat pkt) {a b : Nat} {l : List Nat}
    (h : FramesFrom a b l) (hb : b < 2 ^ 32) (hgap : NoGapAbove s.toNat l) :
    flashes (lights F plat (.simpleBlink s) led strip pkt) l = b / (3 * s.toNat) - a / (3 * s.toNat) := by
  rw [flashes_congr (lit' := fun t : Nat => decide (t % (3 * s.toNat) < s.toNat)) fun t ht =>
    blink_lights hF plat s led strip pkt hs hpkt (Nat.lt_of_le_of_lt (mem_bounds h t ht) hb)]
  have k := flashes_eq (lit := fun t : Nat => decide (t % (3 * s.toNat) < s.toNat))
    (q := fun t => ((t / (3 * s.toNat) : Nat) : Int)) (g := s.toNat) ?_ h hgap
  · omega
  · intro t t' h1 h2
    have e1 := Nat.div_add_mod t (3 * s.toNat)
    have e2 := Nat.div_add_mod t' (3 * s.toNat)
    have m1 := Nat.mod_lt t (show 3 * s.toNat > 0 by omega)
    have m2 := Nat.mod_lt t' (show 3 * s.toNat > 0 by omega)
    have hle := Nat.div_le_div_right (c := 3 * s.toNat) h1
    have hge : t' / (3 * s.toNat) ≤ t / (3 * s.toNat) + 1 := by
      rw [← Nat.add_div_right _ (by omega)]
      exact Nat.div_le_div_right (by omega)
    simp only [decide_eq_false_iff_not, decide_eq_true_eq]
    rcases Nat.lt_or_ge (t / (3 * s.toNat)) (t' / (3 * s.toNat)) with hlt | hge'
    · have hq : t' / (3 * s.toNat) = t / (3 * s.toNat) + 1 := by omega
      rw [hq, Nat.mul_add] at e2
      generalize 3 * s.toNat * (t / (3 * s.toNat)) = z at *
      rw [if_pos (by omega)]
      omega
    · have hq : t' / (3 * s.toNat) = t / (3 * s.toNat) := by omega
      rw [hq] at e2
      generalize 3 * s.toNat * (t / (3 * s.toNat)) = z at *
      rw [if_neg (by omega)]
      omega

/-! ## Fireflies -/

/-- How far the clock of a firefly is off the network clock. -/
def fireflyShift (o ms : Nat) : Nat :=
  if ms / 20000 % 3 = 0 then o * (20000 - ms % 20000) / 20000
  else if ms / 20000 % 3 = 1 then 0
  else o * (ms % 20000) / 20000

theorem fireflyClock_shift (o ms : Nat) :
    fireflyClock o ms = if o < 256 then (ms : Int) - fireflyShift o ms else ms + fireflyShift o ms := rfl

theorem fireflyShift_le (o ms : Nat) : fireflyShift o ms ≤ o := by
  have h1 : o * (20000 - ms % 20000) ≤ o * 20000 := Nat.mul_le_mul_left _ (by omega)
  have h2 : o * (ms % 20000) ≤ o * 20000 := Nat.mul_le_mul_left _ (by omega)
  unfold fireflyShift
  split
  · omega
  · split <;> omega

theorem fireflyShift_step {o : Nat} (ho : o < 512) (ms : Nat) :
    fireflyShift o (ms + 1) ≤ fireflyShift o ms + 1 ∧ fireflyShift o ms ≤ fireflyShift o (ms + 1) + 1 := by
  unfold fireflyShift
  by_cases hb : ms % 20000 = 19999
  · have e1 : (ms + 1) % 20000 = 0 := by omega
    have e2 : (ms + 1) / 20000 = ms / 20000 + 1 := by omega
    rw [e1, e2, hb]
    have : ms / 20000 % 3 = 0 ∨ ms / 20000 % 3 = 1 ∨ ms / 20000 % 3 = 2 := by omega
    rcases this with h | h | h
    · rw [if_neg (by omega), if_pos (by omega), if_pos h]; omega
    · rw [if_neg (by omega), if_neg (by omega), if_neg (by omega), if_pos h]; omega
    · rw [if_pos (by omega), if_neg (by omega), if_neg (by omega)]; omega
  · have e1 : (ms + 1) % 20000 = ms % 20000 + 1 := by omega
    have e2 : (ms + 1) / 20000 = ms / 20000 := by omega
    rw [e1, e2]
    have hlt : ms % 20000 < 20000 := Nat.mod_lt _ (by decide)
    generalize ms % 20000 = r at *
    split
    · have : o * (20000 - r) = o * (20000 - (r + 1)) + o := by
        rw [← Nat.mul_succ]; congr 1; omega
      omega
    · split
      · omega
      · have : o * (r + 1) = o * r + o := Nat.mul_succ _ _
        omega

theorem fireflyClock_mono {o : Nat} (ho : o < 512) {t t' : Nat} (h : t ≤ t') :
    fireflyClock o t ≤ fireflyClock o t' := by
  induction t', h using Nat.le_induction with
  | base => exact Int.le_refl _
  | succ n _ ih =>
    refine Int.le_trans ih ?_
    have := fireflyShift_step ho n
    rw [fireflyClock_shift, fireflyClock_shift]
    split <;> push_cast <;> omega

/-- **C171.** An LED of a firefly flashes at most once every 1024 ms, twice more at most in all. -/
theorem firefly_flashes {F : FastLED} (hF : F.Lawful) (hS : SteadySine F) (plat : Platform) (o : U32) (led : U8)
    (strip : Strip) (pkt : Packet) (hpkt : NamesPalette plat pkt) (ho : o.toNat < 512)
    (hctl : strip.flagEnabled .controller = true → led.toNat < 32) {a b : Nat} {l : List Nat}
    (h : FramesFrom a b l) (hb : b < 2 ^ 32) :
    flashes (lights F plat (.firefly o) led strip pkt) l ≤ (b - a) / 1024 + 2 := by
  by_cases hodd : strip.flagEnabled .controller = true ∧ led.toNat % 2 = 1
  · rw [flashes_congr (lit' := fun _ => false) fun t _ => by
      unfold lights
      rw [firefly_controller_odd F plat o led _ strip pkt 0 hodd.1 hodd.2]
      rfl]
    have k := flashes_le (lit := fun _ => false) (q := fun _ => 0) (by simp) h
    omega
  obtain ⟨p, hp, -⟩ := named_palette hpkt
  obtain ⟨x, y, hxy, hy, hill⟩ := hill (f := fun k => (F.sin16 (BitVec.ofNat 16 (64 * k))).toNat) (m := 256)
    (n := 512) (by decide) (fun k hk => hS.rises k (by omega)) (fun k hk hk' => hS.falls k (by omega) hk) 256
  let off := fireflyOffset strip o.toNat led.toNat
  have hoff : off < 512 := by
    show fireflyOffset strip o.toNat led.toNat < 512
    unfold fireflyOffset
    split
    · exact Nat.mod_lt _ (by decide)
    · exact ho
  rw [flashes_congr (lit' := fun t : Nat => decide ((fireflyClock off t - x) % 1024 < y - x)) fun t ht => by
    obtain ⟨g, v, -, hc, hv⟩ := firefly_glows hF plat o led (BitVec.ofNat 32 t) strip pkt 0 hpkt hp ho
      (fun hc => ⟨by have := mt (And.intro hc) hodd; omega, hctl hc⟩)
      (BitVec.ofNat 16 (256 * ((BitVec.ofNat 32 t : U32).toNat / 1024 % 256))) (by
        rw [BitVec.toNat_ofNat (w := 16)]; omega)
    rw [lights_hsv hc]
    simp only [hv, time_toNat (Nat.lt_of_le_of_lt (mem_bounds h t ht) hb)]
    show decide (fireflyGlow F (fireflyClock off t) ≠ 0) = _
    congr 1
    apply propext
    generalize fireflyClock off t = c
    have hph : ((c % 1024).toNat : Int) = c % 1024 := Int.toNat_of_nonneg (Int.emod_nonneg _ (by decide))
    unfold fireflyGlow
    simp only
    split
    · rename_i hlt
      have := hill _ hlt
      rw [show (F.sin16 (BitVec.ofNat 16 (64 * (c % 1024).toNat))).toNat / 256 ≠ 0 ↔
        256 ≤ (F.sin16 (BitVec.ofNat 16 (64 * (c % 1024).toNat))).toNat by omega, this]
      omega
    · omega]
  have k := flashes_round (u := fun t : Nat => fireflyClock off t - x)
    (fun t t' h => by have := fireflyClock_mono hoff h; omega) (P := 1024) (by decide) (y - x) h
  have hab : a ≤ b := mem_bounds h a (List.mem_of_mem_head? h.first)
  have s1 := fireflyShift_le off a
  have s2 := fireflyShift_le off b
  have c1 := fireflyClock_shift off a
  have c2 := fireflyClock_shift off b
  have : fireflyClock off b - fireflyClock off a ≤ (b - a : Nat) + 512 := by
    split at c1 <;> rename_i hlt
    · rw [if_pos hlt] at c2; omega
    · rw [if_neg hlt] at c2; omega
  omega

/-! ## Rainbow bumps -/

theorem steady_far {F : FastLED} (hS : SteadySine F) (k : Nat) :
    (k + 1 < 64 → (F.sin16 (BitVec.ofNat 16 (256 * k))).toNat ≤ (F.sin16 (BitVec.ofNat 16 (256 * (k + 1)))).toNat) ∧
    (64 ≤ k → k + 1 < 128 →
      (F.sin16 (BitVec.ofNat 16 (256 * (k + 1)))).toNat ≤ (F.sin16 (BitVec.ofNat 16 (256 * k))).toNat) := by
  have e : ∀ j, 256 * j = 64 * (4 * j) := fun j => by omega
  rw [e k, e (k + 1), show 4 * (k + 1) = 4 * k + 1 + 1 + 1 + 1 by omega]
  exact ⟨fun h => ((hS.rises (4 * k) (by omega)).trans (hS.rises (4 * k + 1) (by omega))).trans
      ((hS.rises (4 * k + 1 + 1) (by omega)).trans (hS.rises (4 * k + 1 + 1 + 1) (by omega))),
    fun h h' => ((hS.falls (4 * k + 1 + 1 + 1) (by omega) (by omega)).trans
      (hS.falls (4 * k + 1 + 1) (by omega) (by omega))).trans
      ((hS.falls (4 * k + 1) (by omega) (by omega)).trans (hS.falls (4 * k) (by omega) (by omega)))⟩

/-- **C171.** An LED of the rainbow bumps flashes at most once every 4096 ms, twice more at most in all. -/
theorem rainbow_bumps_flashes {F : FastLED} (hF : F.Lawful) (hS : SteadySine F) (plat : Platform) (led : U8)
    (strip : Strip) (pkt : Packet) (hled : led < strip.count) (hpkt : NamesPalette plat pkt) {a b : Nat}
    {l : List Nat} (h : FramesFrom a b l) (hb : b < 2 ^ 32) :
    flashes (lights F plat .rainbowBumps led strip pkt) l ≤ (b - a) / 4096 + 2 := by
  obtain ⟨p, hp, -⟩ := named_palette hpkt
  obtain ⟨x, y, hxy, hy, hill⟩ := hill (f := fun k => (F.sin16 (BitVec.ofNat 16 (256 * k))).toNat) (m := 64)
    (n := 128) (by decide) (fun k => (steady_far hS k).1) (fun k => (steady_far hS k).2) 128
  let off := bumpOffset strip 8 led.toNat
  rw [flashes_congr (lit' := fun t : Nat =>
      decide ((((t / 16 : Nat) : Int) - 3 * off + y - 1) % 256 < y - x)) fun t ht => by
    obtain ⟨g, v, -, hc, hv⟩ := rainbow_bumps_pattern hF plat led (BitVec.ofNat 32 t) strip pkt 0 hled hpkt hp
      (BitVec.ofNat 16 (256 * (((BitVec.ofNat 32 t : U32).toNat / 10 + off) % 256))) (by
        rw [BitVec.toNat_ofNat (w := 16)]; omega)
    rw [lights_hsv hc]
    simp only [hv, time_toNat (Nat.lt_of_le_of_lt (mem_bounds h t ht) hb)]
    show decide (bump F (((3 * off : Int) - t / 16) % 256).toNat ≠ 0) = _
    congr 1
    apply propext
    have hph : (((((3 * off : Int) - t / 16) % 256).toNat : Nat) : Int) = ((3 * off : Int) - t / 16) % 256 :=
      Int.toNat_of_nonneg (Int.emod_nonneg _ (by decide))
    generalize (((3 * off : Int) - t / 16) % 256).toNat = ph at *
    unfold bump
    split
    · rename_i hlt
      have := hill _ hlt
      rw [show (F.sin16 (BitVec.ofNat 16 (256 * ph))).toNat / 128 ≠ 0 ↔
        128 ≤ (F.sin16 (BitVec.ofNat 16 (256 * ph))).toNat by omega, this]
      omega
    · omega]
  have k := flashes_round (u := fun t : Nat => ((t / 16 : Nat) : Int) - 3 * off + y - 1)
    (fun t t' h => by have := Nat.div_le_div_right (c := 16) h; omega) (P := 256) (by decide) (y - x) h
  have hab : a ≤ b := mem_bounds h a (List.mem_of_mem_head? h.first)
  omega

/-! ## The spark -/

theorem emod_near {z M : Int} :
    (0 ≤ z → z < M → z % M = z) ∧ (z < 0 → -M ≤ z → z % M = z + M) ∧ (M ≤ z → z < 2 * M → z % M = z - M) := by
  refine ⟨Int.emod_eq_of_lt, fun h h' => ?_, fun h h' => ?_⟩
  · rw [← Int.add_emod_right, Int.emod_eq_of_lt (by omega) (by omega)]
  · rw [← Int.emod_eq_of_lt (show 0 ≤ z - M by omega) (show z - M < M by omega), Int.sub_emod_right]

theorem steps_le {a b n : Nat} (hab : a ≤ b) : b * n / 3000 ≤ a * n / 3000 + (b - a) * n / 3000 + 1 := by
  have : b * n = a * n + (b - a) * n := by rw [← Nat.add_mul]; congr 1; omega
  omega

theorem laps_le {d n : Nat} (hn : 0 < n) (m : Nat) (hm : 0 < m) :
    ((d * n / 3000 : Nat) + 1 : Int) / ((m * n : Nat) : Int) ≤ ((d / (3000 * m) : Nat) : Int) + 1 := by
  have key : d * n / 3000 + 1 ≤ (d / (3000 * m) + 1) * (m * n) := by
    have h1 : d < (d / (3000 * m) + 1) * (3000 * m) := by
      rw [Nat.mul_comm]; exact Nat.lt_mul_div_succ d (by omega)
    rw [Nat.succ_le_iff, Nat.div_lt_iff_lt_mul (by decide)]
    calc d * n < (d / (3000 * m) + 1) * (3000 * m) * n := Nat.mul_lt_mul_of_pos_right h1 hn
      _ = (d / (3000 * m) + 1) * (m * n) * 3000 := by ring
  have hpos : 0 < m * n := Nat.mul_pos hm hn
  have : (d * n / 3000 + 1) / (m * n) ≤ d / (3000 * m) + 1 := 
    Nat.div_le_of_le_mul (by rw [Nat.mul_comm (m * n)]; exact key)
  exact_mod_cast this

/-- Going round a circle of `n` LEDs in 3 s, or to and fro along `n` LEDs in 6 s, is to flash once at most. -/
theorem flashes_lap {n m : Nat} (hn : 0 < n) (hm : 0 < m) (c D : Int) {a b : Nat} {l : List Nat}
    (h : FramesFrom a b l) :
    flashes (fun t => decide ((((t * n / 3000 : Nat) : Int) + c) % ((m * n : Nat) : Int) < D)) l ≤
      (b - a) / (3000 * m) + 2 := by
  have hpos : 0 < m * n := Nat.mul_pos hm hn
  have k := flashes_round (u := fun t : Nat => ((t * n / 3000 : Nat) : Int) + c)
    (fun t t' h => by have := Nat.div_le_div_right (c := 3000) (Nat.mul_le_mul_right n h); omega)
    (P := ((m * n : Nat) : Int)) (by omega) D h
  have hab : a ≤ b := mem_bounds h a (List.mem_of_mem_head? h.first)
  have r := rounds_le (x := ((a * n / 3000 : Nat) : Int) + c) (y := ((b * n / 3000 : Nat) : Int) + c)
    (P := ((m * n : Nat) : Int)) (by omega)
  have s := steps_le (n := n) hab
  have t := Int.ediv_le_ediv (c := ((m * n : Nat) : Int)) (by omega)
    (show ((b * n / 3000 : Nat) : Int) + c - (((a * n / 3000 : Nat) : Int) + c) ≤
      ((b - a) * n / 3000 : Nat) + 1 by omega)
  have v := laps_le (d := b - a) hn m hm
  omega

theorem spark_lights (F : FastLED) (plat : Platform) (led : U8) (strip : Strip) (pkt : Packet)
    (hled : led < strip.count) (hpkt : NamesPalette plat pkt) {t : Nat} (ht : t < 2 ^ 32)
    (hfit : t * (coordinates strip + if strip.flagEnabled .circular then 0 else 8) < 2 ^ 32) :
    lights F plat .spark led strip pkt t = decide (sparkValue strip led.toNat t ≠ 0) := by
  obtain ⟨p, hp, -⟩ := named_palette hpkt
  obtain ⟨g, v, -, hc, hv⟩ := spark_pattern F plat led (BitVec.ofNat 32 t) strip pkt 0 hled hpkt hp
    (by rw [time_toNat ht]; exact hfit)
    (BitVec.ofNat 16 (256 * ((((BitVec.ofNat 32 t : U32).toNat / 24 : Nat) +
      14 * sparkPlace strip led.toNat (BitVec.ofNat 32 t : U32).toNat : Int) % 256)).toNat) (by
      generalize (((BitVec.ofNat 32 t : U32).toNat / 24 : Nat) +
        14 * sparkPlace strip led.toNat (BitVec.ofNat 32 t : U32).toNat : Int) = z
      rw [BitVec.toNat_ofNat (w := 16)]
      omega)
  rw [lights_hsv hc]
  simp only [hv, time_toNat ht]

theorem sparkTail_lit (k : Nat) : sparkTail.getD k 0 ≠ 0 ↔ k < 8 := by
  by_cases h : k < 8
  · have : ∀ k < 8, sparkTail.getD k 0 ≠ 0 := by decide
    simp only [this k h, h, ne_eq, not_false_eq_true]
  · simp only [sparkTail_beyond (by omega : 8 ≤ k), h, ne_eq, not_true_eq_false]

/-- **C171.** An LED of a spark flashes at most once every 3 s, two more at most in all, on a circular strip;
on another at most twice every 6 s, four more at most in all. (As long as the clock times the number of steps
fits 32 bits, see C113.) -/
theorem spark_flashes (F : FastLED) (plat : Platform) (led : U8) (strip : Strip) (pkt : Packet)
    (hled : led < strip.count) (hpkt : NamesPalette plat pkt) {a b : Nat} {l : List Nat}
    (h : FramesFrom a b l)
    (hfit : b * (coordinates strip + if strip.flagEnabled .circular then 0 else 8) < 2 ^ 32) :
    flashes (lights F plat .spark led strip pkt) l ≤
      if strip.flagEnabled .circular then (b - a) / 3000 + 2 else 2 * ((b - a) / 6000) + 4 := by
  obtain ⟨x', n', -, hx, hn, hn0, hxn⟩ := mirrored_coordinate (strip := strip) (led := led) hled
  rw [hx, hn] at hxn
  have hb : b < 2 ^ 32 := by
    refine Nat.lt_of_le_of_lt ?_ hfit
    exact Nat.le_mul_of_pos_right _ (by omega)
  have hl : ∀ t ∈ l, lights F plat .spark led strip pkt t = decide (sparkValue strip led.toNat t ≠ 0) :=
    fun t ht => spark_lights F plat led strip pkt hled hpkt (Nat.lt_of_le_of_lt (mem_bounds h t ht) hb)
      (Nat.lt_of_le_of_lt (Nat.mul_le_mul_right _ (mem_bounds h t ht)) hfit)
  rw [flashes_congr hl]
  by_cases hc : strip.flagEnabled .circular = true
  · rw [if_pos hc]
    rw [flashes_congr (lit' := fun t : Nat => decide ((((t * coordinates strip / 3000 : Nat) : Int) +
        coordinate strip led.toNat) % ((1 * coordinates strip : Nat) : Int) < 8)) fun t _ => by
      congr 1
      apply propext
      unfold sparkValue sparkPlace
      simp only [hc, if_true, true_or, Nat.one_mul]
      rw [if_pos (by omega), sparkTail_lit, ← Int.natCast_add, ← Int.natCast_emod]
      omega]
    exact flashes_lap (by omega) (by decide) _ _ h
  · rw [if_neg hc]
    have e : ∀ t : Nat, decide (sparkValue strip led.toNat t ≠ 0) =
        (decide ((((t * (coordinates strip + 8) / 3000 : Nat) : Int) + (-(coordinate strip led.toNat : Int))) %
          ((2 * (coordinates strip + 8) : Nat) : Int) < 8) ||
        decide ((((t * (coordinates strip + 8) / 3000 : Nat) : Int) + (coordinate strip led.toNat + 7)) %
          ((2 * (coordinates strip + 8) : Nat) : Int) < 8)) := by
      intro t
      rw [← Bool.decide_or]
      congr 1
      apply propext
      unfold sparkValue sparkPlace
      simp only [hc, Bool.false_eq_true, if_false, false_or]
      have hq : (sparkStep (coordinates strip) t : Int) =
          ((t * (coordinates strip + 8) / 3000 : Nat) : Int) % ((2 * (coordinates strip + 8) : Nat) : Int) := by
        unfold sparkStep
        rw [Int.natCast_emod]
      have hql : sparkStep (coordinates strip) t < 2 * (coordinates strip + 8) :=
        Nat.mod_lt _ (by omega)
      rw [← Int.emod_add_emod _ _ (-(coordinate strip led.toNat : Int)),
        ← Int.emod_add_emod _ _ ((coordinate strip led.toNat : Int) + 7), ← hq]
      generalize sparkStep (coordinates strip) t = q at *
      generalize coordinates strip = n at *
      generalize coordinate strip led.toNat = x at *
      obtain ⟨a1, a2, a3⟩ := emod_near (z := (q : Int) + -(x : Int)) (M := ((2 * (n + 8) : Nat) : Int))
      obtain ⟨b1, b2, b3⟩ := emod_near (z := (q : Int) + ((x : Int) + 7)) (M := ((2 * (n + 8) : Nat) : Int))
      by_cases hup : q ≤ n + 8
      · simp only [hup, if_true]
        have e2 : ((q : Int) + (x + 7)) % ((2 * (n + 8) : Nat) : Int) = q + (x + 7) := b1 (by omega) (by omega)
        rw [e2]
        by_cases hqx : x ≤ q
        · rw [if_pos (by omega), sparkTail_lit, a1 (by omega) (by omega)]
          omega
        · rw [if_neg (by omega), a2 (by omega) (by omega)]
          omega
      · simp only [hup, if_false]
        rw [a1 (by omega) (by omega)]
        by_cases hw : 2 * (n + 8) ≤ q + x + 7
        · rw [b3 (by omega) (by omega)]
          by_cases hd : (0 : Int) ≤ 7 - (2 * ((n : Int) + 8) - q - x)
          · rw [if_pos hd, sparkTail_lit]
            omega
          · omega
        · rw [b1 (by omega) (by omega), if_neg (by omega)]
          omega
    rw [flashes_congr (fun t _ => e t)]
    refine Nat.le_trans (flashes_or _ _ l) ?_
    have k1 := flashes_lap (n := coordinates strip + 8) (m := 2) (by omega) (by decide)
      (-(coordinate strip led.toNat : Int)) 8 h
    have k2 := flashes_lap (n := coordinates strip + 8) (m := 2) (by omega) (by decide)
      (coordinate strip led.toNat + 7) 8 h
    omega

/-! ## Effects that do not flash, and the rotation -/

/-- **C171.** The colour cycle and the rainbow of two or more colours and the contrast bumps never flash. -/
theorem steady_lights {F : FastLED} (hF : F.Lawful) (plat : Platform) (led : U8) (strip : Strip) (pkt : Packet)
    (hled : led < strip.count) (hpkt : NamesPalette plat pkt) {p : Palette}
    (hp : palettes[pkt.data[2].toNat]? = some p) (l : List Nat) :
    flashes (lights F plat .contrastBumps led strip pkt) l = 0 ∧
    (2 ≤ p.length → flashes (lights F plat .colorCycle led strip pkt) l = 0 ∧
      flashes (lights F plat .rainbow led strip pkt) l = 0) := by
  have hmem := List.mem_of_getElem? hp
  refine ⟨flashes_lit fun t _ => ?_, fun h2 => ⟨flashes_lit fun t _ => ?_, flashes_lit fun t _ => ?_⟩⟩
  · obtain ⟨c, hc, hv⟩ := contrast_never_dark hF plat led (BitVec.ofNat 32 t) strip pkt 0 hled hpkt
    rw [lights_hsv hc, decide_eq_true (by omega)]
  · obtain ⟨g, hg, hc⟩ := colour_cycle_gradient F plat led (BitVec.ofNat 32 t) strip pkt 0 hpkt hp h2
      (BitVec.ofNat 16 (256 * ((BitVec.ofNat 32 t : U32).toNat / 16 % 256))) (by
        rw [BitVec.toNat_ofNat (w := 16)]; omega)
    have hr := gradient_value_range hF (palettes_small p hmem).1
      (Nat.le_trans (palettes_small p hmem).2 (by decide)) (lo := 150) (hi := 255)
      (fun c hc => ⟨palettes_bright p hmem c hc, by have := c.v.isLt; omega⟩) hg
    rw [lights_hsv hc, decide_eq_true]
    show (if strip.flagEnabled .bright then g.v else g.v / 2).toNat ≠ 0
    split
    · omega
    · rw [BitVec.toNat_udiv, show (2 : U8).toNat = 2 from rfl]
      omega
  · obtain ⟨g, -, hc⟩ := rainbow_position F plat led (BitVec.ofNat 32 t) strip pkt 0 hpkt hp h2
      (BitVec.ofNat 16 (256 * (((BitVec.ofNat 32 t : U32).toNat / 16 +
        if strip.flagEnabled .tiny then 0 else 8 * led.toNat) % 256))) (by
        rw [BitVec.toNat_ofNat (w := 16)]; omega)
    rw [lights_hsv hc, decide_eq_true]
    show (if strip.flagEnabled .bright then (255 : U8) else 128).toNat ≠ 0
    split <;> decide

/-- **C171.** The shipped strobes are those of 60, 30, 12 and 300, at the places 29 to 32, so that they flash
up to 6, 12, 28 and 2 times in a second; an effect the rotation chooses is none of them. -/
theorem strobes_only_on_request (plat : Platform) (s : EffectSeeds) :
    ∃ r, shippedRegistry plat s = .ok r ∧
      (∀ i : U8, i < r.getNumEffects → ∃ e, r.getEffect plat i = .ok e ∧ ∀ n, e ≠ .simpleBlink n) ∧
      (∀ i : U8, ∀ n, r.getEffect plat i = .ok (.simpleBlink n) → i.toNat < 35 →
        (i.toNat, n.toNat) ∈ [(29, 60), (30, 30), (31, 12), (32, 300)]) ∧
      r.getEffect plat 29 = .ok (.simpleBlink 60) ∧ r.getEffect plat 30 = .ok (.simpleBlink 30) ∧
      r.getEffect plat 31 = .ok (.simpleBlink 12) ∧ r.getEffect plat 32 = .ok (.simpleBlink 300) := by
  obtain ⟨r, hr, hn, -, hrand, -, -⟩ := shipped_registry plat s
  have hle : (allSlots (shippedEffects s)).length ≤ 255 := by
    rw [show (allSlots (shippedEffects s)).length = 35 from rfl]; decide
  obtain ⟨r', e, hreg⟩ := registered_of_small plat (shippedEffects s) hle
  have : r' = r := by
    have hr' : Registry.empty.addAll plat (shippedEffects s) = .ok r := hr
    rw [e] at hr'; cases hr'; rfl
  subst this
  have ha : (allSlots (shippedEffects s)).length = 35 := rfl
  have slot : ∀ k : U8, (hk : k.toNat < 35) → r'.getEffect plat k =
      .ok ((allSlots (shippedEffects s))[k.toNat]'(by rw [ha]; exact hk)) := fun k hk =>
    hreg.getEffect hle plat k (by rw [ha]; exact hk)
  refine ⟨r', hr, fun i hi => ?_, fun i n hi hk => ?_, slot 29 (by decide), slot 30 (by decide), slot 31 (by decide),
    slot 32 (by decide)⟩
  · obtain ⟨e, he, hmem⟩ := hrand i hi
    refine ⟨e, he, fun n hne => ?_⟩
    subst hne
    simp at hmem
  · rw [slot i hk] at hi
    injection hi with hi
    generalize i.toNat = k at *
    have key : ∀ k, (hk : k < 35) → ∀ n, (allSlots (shippedEffects s))[k]'(by rw [ha]; exact hk) = .simpleBlink n →
        (k, n.toNat) ∈ [(29, 60), (30, 30), (31, 12), (32, 300)] := by
      intro k hk n h
      interval_cases k <;> first | (injection h with h; subst h; decide) | exact nomatch h
    exact key k hk n hi

theorem reference_steady : SteadySine FastLED.reference where
  rises := by decide +kernel
  falls := by decide +kernel

/-- Frames every 10 ms for a second: the strobe of 12 flashes 27 times, a firefly once. -/
theorem flicker_demo :
    let l := (List.range 101).map (10 * · + 5)
    FramesFrom 5 1005 l ∧ NoGapAbove 12 l ∧
      flashes (lights FastLED.reference .host (.simpleBlink 12) 0 (Strip.new 60 []) motionPacket) l = 27 ∧
      flashes (lights FastLED.reference .host (.firefly 100) 0 (Strip.new 60 []) motionPacket) l = 1 ∧
      flashes (lights FastLED.reference .host .spark 20 (Strip.new 60 []) motionPacket) l = 1 := by
  refine ⟨⟨by decide +kernel, by decide +kernel, by decide +kernel⟩, ?_, by decide +kernel, by decide +kernel,
    by decide +kernel⟩
  unfold NoGapAbove
  decide +kernel

end Firefly.Props
