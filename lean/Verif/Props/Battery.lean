import Verif.Spec.Devices

/-! # Properties C76 and C77: battery supervision -/

namespace Firefly.Props
open Battery Spec

/-- The thresholds in units of the analog reading (10 bits, 3.3 V reference). -/
theorem thresholds :
    rawReading (Kind.lowCutoff .controller) = 784 ∧ rawReading (Kind.lowCutoff .fancyNode) = 830 ∧
    (∀ k : Kind, rawReading k.resume = 888) ∧ rawReading kEmpty = 853 ∧ rawReading kFull = 969 := by
  refine ⟨by decide +kernel, by decide +kernel, ?_, by decide +kernel, by decide +kernel⟩
  intro k; cases k <;> decide +kernel

/-- Rounding cannot change the thresholds: every number `a / b` within a hundred-thousandth of
the exact value of the voltage formula (single precision is about a hundred times better)
truncates to the modelled reading. -/
theorem raw_reading_robust {mv : Nat} (hmv : mv ∈ [3400, 3600, 3700, 3850, 4200]) {a b : Nat}
    (hb : 0 < b)
    (hlo : mv * 1843200 * b * 99999 ≤ 7986000 * a * 100000)
    (hhi : 7986000 * a * 100000 ≤ mv * 1843200 * b * 100001) :
    a / b = (rawReading mv).toNat := by
  have key : ∀ n : Nat, n * b ≤ a → a < (n + 1) * b → a / b = n := by
    intro n h1 h2
    rw [Nat.div_eq_iff hb]
    rw [Nat.add_mul] at h2
    omega
  simp only [List.mem_cons, List.not_mem_nil, or_false] at hmv
  rcases hmv with rfl | rfl | rfl | rfl | rfl
  · rw [show (rawReading 3400).toNat = 784 by decide +kernel]; exact key _ (by omega) (by omega)
  · rw [show (rawReading 3600).toNat = 830 by decide +kernel]; exact key _ (by omega) (by omega)
  · rw [show (rawReading 3700).toNat = 853 by decide +kernel]; exact key _ (by omega) (by omega)
  · rw [show (rawReading 3850).toNat = 888 by decide +kernel]; exact key _ (by omega) (by omega)
  · rw [show (rawReading 4200).toNat = 969 by decide +kernel]; exact key _ (by omega) (by omega)

example : (8539 / 10 : Nat) = (rawReading 3700).toNat := by decide +kernel
example : 3700 * 1843200 * 10000 * 99999 ≤ 7986000 * 8539700 * 100000 ∧
    7986000 * 8539700 * 100000 ≤ 3700 * 1843200 * 10000 * 100001 := by decide

theorem cutoff_le_resume (k : Kind) : rawReading k.lowCutoff < rawReading k.resume := by
  cases k <;> decide +kernel

theorem low_iff {k inp} (n : Nat) : low k inp n = true ↔ LowSince k inp n := by
  induction n with
  | zero => simp [low, LowSince]
  | succ n ih =>
    have hcr := cutoff_le_resume k
    have hext : LowSince k inp (n + 1) ↔
        ((LowSince k inp n ∧ ((inp n).expired → (inp n).value ≤ rawReading k.resume)) ∨
          ((inp n).expired ∧ (inp n).value < rawReading k.lowCutoff)) := by
      constructor
      · rintro ⟨j, hj, hx, hv, hall⟩
        by_cases hjn : j = n
        · subst hjn; exact Or.inr ⟨hx, hv⟩
        · exact Or.inl ⟨⟨j, by omega, hx, hv, fun i h1 h2 => hall i h1 (by omega)⟩,
            hall n (by omega) (by omega)⟩
      · rintro (⟨⟨j, hj, hx, hv, hall⟩, hn⟩ | ⟨hx, hv⟩)
        · refine ⟨j, by omega, hx, hv, fun i h1 h2 => ?_⟩
          by_cases hin : i = n
          · subst hin; exact hn
          · exact hall i h1 (by omega)
        · refine ⟨n, by omega, hx, hv, fun i h1 h2 _ => ?_⟩
          have : i = n := by omega
          subst this
          rw [BitVec.lt_def] at hcr hv
          rw [BitVec.le_def]; omega
    rw [hext, ← ih]
    simp only [low, step]
    cases hx : (inp n).expired
    · simp
    · cases hl : low k inp n
      · by_cases hv : (inp n).value < rawReading k.lowCutoff
        · have : ¬ rawReading k.resume < (inp n).value := by
            rw [BitVec.lt_def] at hcr hv ⊢; omega
          simp [hv, this]
        · simp [hv]
      · by_cases hv : rawReading k.resume < (inp n).value
        · have h1 : ¬ (inp n).value ≤ rawReading k.resume := by
            rw [BitVec.lt_def] at hv; rw [BitVec.le_def]; omega
          have h2 : ¬ (inp n).value < rawReading k.lowCutoff := by
            rw [BitVec.lt_def] at hv hcr ⊢; omega
          simp [hv, h1, h2]
        · have h1 : (inp n).value ≤ rawReading k.resume := by
            rw [BitVec.lt_def] at hv; rw [BitVec.le_def]; omega
          simp [hv, h1]

/-- C76.  For every sequence of filtered readings: iteration `n` runs the radio and the LEDs
unless the start-up time is over and, at some iteration up to `n`, the reading was below the
low threshold and has not exceeded the resume threshold since. -/
theorem battery_hysteresis (k : Kind) (inp : Nat → Input) (n : Nat) :
    (out k inp n).active = false ↔ (inp n).expired ∧ LowSince k inp (n + 1) := by
  rw [← low_iff]
  simp only [low, out, step]
  cases hx : (inp n).expired
  · simp
  · simp only [if_true, true_and]
    split
    · split <;> simp
    · simp

/-- C76.  The device is shut down (LEDs off, radio asleep) exactly when the battery turns low:
the reading is below the low threshold and the device was not low before. -/
theorem shut_down_once (k : Kind) (inp : Nat → Input) (n : Nat) :
    (out k inp n).shutDown ↔
      (inp n).expired ∧ (inp n).value < rawReading k.lowCutoff ∧ ¬ LowSince k inp n := by
  rw [← low_iff]
  simp only [out, step]
  cases hx : (inp n).expired
  · simp
  · cases hl : low k inp n
    · simp only [Bool.not_false, Bool.true_and, Bool.false_or, if_true]
      split
      · split <;> simp_all
      · simp_all
    · simp only [Bool.not_true, Bool.false_and, Bool.true_or, if_true]
      split <;> simp_all

/-- C76.  No flapping: while the readings stay within the band between the two thresholds, the
device neither shuts down nor resumes. -/
theorem no_flapping_within_band (k : Kind) (inp : Nat → Input) (m n : Nat) (hmn : m ≤ n)
    (hx : ∀ i, m ≤ i → i ≤ n → (inp i).expired)
    (hband : ∀ i, m ≤ i → i ≤ n →
      rawReading k.lowCutoff ≤ (inp i).value ∧ (inp i).value ≤ rawReading k.resume) :
    (out k inp n).active = (out k inp m).active ∧
    ∀ i, m ≤ i → i ≤ n → (out k inp i).shutDown = false := by
  constructor
  · have h : (out k inp n).active = false ↔ (out k inp m).active = false := by
      rw [battery_hysteresis, battery_hysteresis]
      simp only [hx m (by omega) hmn, hx n hmn (by omega), true_and]
      constructor
      · rintro ⟨j, hj, hjx, hv, hall⟩
        refine ⟨j, ?_, hjx, hv, fun i h1 h2 => hall i h1 (by omega)⟩
        by_cases hjm : j < m + 1
        · exact hjm
        · have := (hband j (by omega) (by omega)).1
          rw [BitVec.le_def] at this; rw [BitVec.lt_def] at hv; omega
      · rintro ⟨j, hj, hjx, hv, hall⟩
        refine ⟨j, by omega, hjx, hv, fun i h1 h2 hxi => ?_⟩
        by_cases him : i < m + 1
        · exact hall i h1 him hxi
        · exact (hband i (by omega) (by omega)).2
    cases h1 : (out k inp n).active <;> cases h2 : (out k inp m).active <;> simp_all
  · intro i h1 h2
    have : ¬ (out k inp i).shutDown = true := by
      rw [shut_down_once]
      rintro ⟨_, hv, _⟩
      have := (hband i h1 h2).1
      rw [BitVec.le_def] at this; rw [BitVec.lt_def] at hv; omega
    simpa using this

/-- A battery that sinks to 780, recovers slowly, and passes 888 at the fifth iteration. -/
example : let inp : Nat → Input := fun n => ⟨true, BitVec.ofNat 16 ([900, 780, 800, 888, 889, 800].getD n 0)⟩
    (List.range 6).map (fun n => out .controller inp n) =
      [⟨false, false, true⟩, ⟨true, true, false⟩, ⟨true, false, false⟩, ⟨true, false, false⟩,
       ⟨false, false, true⟩, ⟨false, false, true⟩] := by
  decide +kernel

example : (∀ i, 2 ≤ i → i ≤ 3 → (BitVec.ofNat 16 ([900, 780, 800, 888, 889, 800].getD i 0) : U16) ≤ 888) := by
  intro i h1 h2
  have : i = 2 ∨ i = 3 := by omega
  rcases this with rfl | rfl <;> decide

/-- The gauge in numbers: linear between the empty and the full reading, 0 elsewhere. -/
theorem gauge_value (x : U16) : (gaugeHue x).toNat =
    if 853 ≤ x.toNat ∧ x.toNat ≤ 969 then (x.toNat - 853) * 96 / 116 else 0 := by
  have hx := x.isLt
  have e1 : rawReading kEmpty = 853 := thresholds.2.2.2.1
  have e2 : rawReading kFull = 969 := thresholds.2.2.2.2
  simp only [gaugeHue, e1, e2, hueGreen]
  have h3 : ((969 : U16) - 853) = 116 := by decide
  rw [h3]
  have hs : (x - 853).toNat = (x.toNat + (65536 - 853)) % 65536 := by
    rw [BitVec.toNat_sub]
    have : (853 : U16).toNat = 853 := rfl
    rw [this]; omega
  by_cases h : 853 ≤ x.toNat ∧ x.toNat ≤ 969
  · have hval : (x - 853).toNat = x.toNat - 853 := by omega
    have hn : ¬ (116 : U16) < x - 853 := by
      rw [BitVec.lt_def, hval, show (116 : U16).toNat = 116 from rfl]; omega
    rw [if_neg hn, if_pos h, hval, BitVec.toNat_ofNat, show (116 : U16).toNat = 116 from rfl]
    omega
  · have hn : (116 : U16) < x - 853 := by
      rw [BitVec.lt_def, hs, show (116 : U16).toNat = 116 from rfl]; omega
    rw [if_pos hn, if_neg h]; rfl

/-- C77.  Up to the full reading the gauge hue never falls as the voltage grows; it is red (0)
up to empty and green (96) at full. -/
theorem gauge_monotone {x y : U16} (hxy : x ≤ y) (hy : y ≤ rawReading kFull) :
    gaugeHue x ≤ gaugeHue y ∧ (x ≤ rawReading kEmpty → gaugeHue x = 0) ∧
    gaugeHue (rawReading kFull) = 96 := by
  have e1 : rawReading kEmpty = 853 := thresholds.2.2.2.1
  have e2 : rawReading kFull = 969 := thresholds.2.2.2.2
  rw [e2, BitVec.le_def] at hy
  rw [BitVec.le_def] at hxy
  have h969 : (969 : U16).toNat = 969 := rfl
  refine ⟨?_, ?_, by decide +kernel⟩
  · rw [BitVec.le_def, gauge_value, gauge_value]
    split
    · rw [if_pos (by omega)]; omega
    · omega
  · intro h
    rw [e1, BitVec.le_def, show (853 : U16).toNat = 853 from rfl] at h
    apply BitVec.eq_of_toNat_eq
    rw [gauge_value]
    split
    · rename_i h'; rw [show x.toNat = 853 by omega]; rfl
    · rfl

example : gaugeHue 900 = 38 ∧ gaugeHue 950 = 80 := by decide +kernel

/-- C77 refuted above full: every higher reading is shown as red, like an empty battery. -/
theorem gauge_above_full_is_red {x : U16} (h : rawReading kFull < x) :
    gaugeHue x = gaugeHue (rawReading kEmpty) ∧ gaugeHue x = 0 := by
  have e2 : rawReading kFull = 969 := thresholds.2.2.2.2
  rw [e2, BitVec.lt_def, show (969 : U16).toNat = 969 from rfl] at h
  have h0 : gaugeHue x = 0 := by
    apply BitVec.eq_of_toNat_eq
    rw [gauge_value, if_neg (by omega)]; rfl
  exact ⟨by rw [h0]; decide +kernel, h0⟩

example : rawReading kFull < (970 : U16) := by decide +kernel

/-- C77.  The fancy node shows the gauge during the first 20 s after start-up if a reading was
taken at boot, and afterwards (until the clock wraps) a dark on-board LED. -/
theorem gauge_shown_twenty_seconds (F : FastLED) {atBoot : U16} (h : atBoot ≠ 0) (t : U32) :
    onboardLed F atBoot t =
      if t.toNat < 20000 then F.hsv2rgb ⟨gaugeHue atBoot, 255, 255⟩ else CRGB.black := by
  unfold onboardLed
  have e : t < 20 * 1000 ↔ t.toNat < 20000 := by
    rw [BitVec.lt_def]; exact Iff.rfl
  simp only [h, ne_eq, not_false_eq_true, true_and, e]

example : onboardLed FastLED.reference 900 5000 = ⟨255, 255, 255⟩ := by decide +kernel

end Firefly.Props
