import Verif.Spec.Frame

/-! # Lemmas about rendering a frame -/

namespace Firefly
open Spec

theorem flag_step (acc : U8) (f g : StripFlag) :
    ((acc ||| g.value) &&& f.value = f.value) ↔ (acc &&& f.value = f.value ∨ f = g) := by
  have hd : (acc ||| g.value) &&& f.value = (acc &&& f.value) ||| (g.value &&& f.value) := by
    ext i; simp [Bool.and_or_distrib_right]
  by_cases h : f = g
  · subst h
    have : (acc ||| f.value) &&& f.value = f.value := by
      ext i; simp; intro h; exact Or.inr h
    simp [this]
  · have hz : g.value &&& f.value = 0 := by revert h; cases f <;> cases g <;> decide
    rw [hd, hz]
    simp [h]

theorem ledCount_toNat (d : Device) : d.getLedCount.toNat = totalLeds d % 256 := by
  have h : ∀ (l : List Strip) (acc : U16),
      (l.foldl (fun (acc : U16) s => acc + s.count.setWidth 16) acc).toNat % 256 =
        (acc.toNat + (l.map (·.count.toNat)).sum) % 256 := by
    intro l
    induction l with
    | nil => simp
    | cons s l ih =>
      intro acc
      rw [List.foldl_cons, ih, List.map_cons, List.sum_cons, BitVec.toNat_add,
        BitVec.toNat_setWidth]
      have := s.count.isLt
      omega
  rw [Device.getLedCount, BitVec.toNat_setWidth, totalLeds]
  have := h d.strips 0
  simpa using this

theorem ledsInOrder_length (d : Device) : (ledsInOrder d).length = totalLeds d := by
  simp [ledsInOrder, totalLeds, List.length_flatMap]

theorem ledsInOrder_pos {d : Device} {x : Strip × Nat} (hx : x ∈ ledsInOrder d) :
    x.1 ∈ d.strips ∧ x.2 < x.1.count.toNat := by
  simp only [ledsInOrder, List.mem_flatMap, List.mem_map, List.mem_range] at hx
  obtain ⟨s, hs, i, hi, rfl⟩ := hx
  exact ⟨hs, hi⟩

/-- The colour does not depend on the state of the random generator. -/
theorem Effect.getColour_rng (F : FastLED) (plat : Platform) (e : Effect) (led : U8) (t : U32)
    (strip : Strip) (pkt : Packet) (rng rng' : U16) :
    (e.getColour F plat led t strip pkt rng).map (·.1) =
      (e.getColour F plat led t strip pkt rng').map (·.1) := by
  have hm : ∀ (r : Except Fault Colour) (a : U16), (r.map (·, a)).map (·.1) = r := by
    intro r a; cases r <;> rfl
  cases e <;> simp only [Effect.getColour] <;>
    first
    | rfl
    | rw [hm, hm]

theorem Effect.getRGB_rng {F : FastLED} {plat : Platform} {e : Effect} {led : U8} {t : U32}
    {strip : Strip} {pkt : Packet} {rng : U16} {rgb : CRGB} {r1 : U16}
    (h : e.getRGB F plat led t strip pkt rng = .ok (rgb, r1)) (rng' : U16) :
    ∃ r2, e.getRGB F plat led t strip pkt rng' = .ok (rgb, r2) := by
  have hc := Effect.getColour_rng F plat e led t strip pkt rng rng'
  unfold Effect.getRGB at h ⊢
  generalize e.getColour F plat led t strip pkt rng = x at h hc
  generalize e.getColour F plat led t strip pkt rng' = y at hc
  cases x with
  | error => cases h
  | ok x =>
    cases y with
    | error => cases hc
    | ok y =>
      simp only [Except.map, Except.ok.injEq, Prod.mk.injEq] at h hc ⊢
      exact ⟨y.2, by rw [← hc]; exact h.1, rfl⟩

theorem virtualIndex_eq (strip : Strip) (i : Nat) (hi : i < strip.count.toNat) :
    (if strip.flagEnabled .reversed then strip.count - BitVec.ofNat 8 i - 1
      else BitVec.ofNat 8 i : U8) =
    BitVec.ofNat 8 (if strip.flagEnabled .reversed then strip.count.toNat - 1 - i else i) := by
  have := strip.count.isLt
  split
  · apply BitVec.eq_of_toNat_eq
    rw [BitVec.toNat_sub, BitVec.toNat_sub, BitVec.toNat_ofNat, BitVec.toNat_ofNat]
    have : (1 : U8).toNat = 1 := rfl
    omega
  · rfl

/-- The model's effect lookup is the specified one. -/
theorem getCurrentEffect_iff {plat : Platform} {r : Registry Effect} {p : Packet} {e : Effect} :
    CurrentEffect plat r p e ↔ getCurrentEffect plat r p = .ok e := by
  unfold CurrentEffect getCurrentEffect
  by_cases hc : p.type = .setControl
  · rw [if_pos hc, if_pos hc]
    exact ⟨fun h => h ▸ rfl, fun h => (Except.ok.inj h).symm⟩
  · rw [if_neg hc, if_neg hc]
    cases plat with
    | arduino => exact ⟨fun h => h.2, fun h => ⟨nofun, h⟩⟩
    | host =>
      by_cases ht : p.type = .setEffect
      · by_cases hl : p.len = 3
        · simp [Packet.readEffectIndexFromSetEffect, hostAssert, ht, hl, bind, Except.bind, pure,
            Except.pure]
        · have hl' : ¬ p.len = 3#8 := hl
          simp [Packet.readEffectIndexFromSetEffect, hostAssert, ht, hl', bind, Except.bind]
      · simp [Packet.readEffectIndexFromSetEffect, hostAssert, ht, bind, Except.bind]

/-- The colour computed by the loop body is the specified one. -/
theorem ledColour_shows (fr : Frame) (strip : Strip) (i : Nat) (hi : i < strip.count.toNat)
    (t : U32) (rng : U16) (c : CRGB) :
    (∃ r, ledColour fr strip (BitVec.ofNat 8 i) t rng = .ok (c, r)) ↔
      Shows fr strip i t c := by
  simp only [ledColour, virtualIndex_eq strip i hi, bind, Except.bind, pure, Except.pure, Shows,
    getCurrentEffect_iff]
  by_cases hoff : strip.flagEnabled .off = true
  · simp only [hoff, if_true, Except.ok.injEq, Prod.mk.injEq]
    constructor
    · rintro ⟨r, h, -⟩; exact h.symm
    · rintro rfl; exact ⟨rng, rfl, rfl⟩
  · simp only [Bool.not_eq_true] at hoff
    simp only [hoff, Bool.false_eq_true, if_false]
    generalize getCurrentEffect fr.plat fr.registry fr.packet = ce
    cases ce with
    | error => simp
    | ok e =>
      simp only [Except.ok.injEq]
      generalize hv : (BitVec.ofNat 8 (if strip.flagEnabled .reversed = true then
        strip.count.toNat - 1 - i else i) : U8) = v
      constructor
      · rintro ⟨r, h⟩
        generalize hg : e.getRGB fr.F fr.plat v t strip fr.packet rng = g at h
        cases g with
        | error => cases h
        | ok g =>
          refine ⟨e, g.1, rfl, fun rng' => Effect.getRGB_rng hg rng', ?_⟩
          by_cases hdim : strip.flagEnabled .dim = true
          · simp only [hdim, if_true, Except.ok.injEq, Prod.mk.injEq] at h ⊢
            exact h.1.symm
          · simp only [hdim] at h ⊢
            cases h; rfl
      · rintro ⟨e', rgb, rfl, hg, hc⟩
        obtain ⟨r', hg⟩ := hg rng
        rw [hg]
        refine ⟨r', ?_⟩
        by_cases hdim : strip.flagEnabled .dim = true
        · simp only [hdim, if_true] at hc ⊢
          rw [hc]; rfl
        · simp only [hdim] at hc ⊢
          rw [hc]; rfl

theorem Spec.Shows.unique {fr : Frame} {strip : Strip} {i : Nat} {t : U32} {c c' : CRGB}
    (h : Shows fr strip i t c) (h' : Shows fr strip i t c') : c = c' := by
  unfold Shows at h h'
  split at h
  · rename_i hoff
    rw [if_pos hoff] at h'
    rw [h, h']
  · rename_i hoff
    rw [if_neg hoff] at h'
    obtain ⟨e, rgb, he, hg, rfl⟩ := h
    obtain ⟨e', rgb', he', hg', rfl⟩ := h'
    rw [getCurrentEffect_iff] at he he'
    rw [he] at he'; cases he'
    obtain ⟨r, hg⟩ := hg 0
    obtain ⟨r', hg'⟩ := hg' 0
    rw [hg] at hg'; cases hg'; rfl

/-- The two nested loops visit the LEDs in order. -/
theorem runLeds_flat (fr : Frame) (setLed : σ → U8 → CRGB → Except Fault σ)
    (strips : List Strip) (st : LoopState σ) :
    runLeds fr setLed strips st =
      (strips.flatMap fun s => (List.range s.count.toNat).map (s, ·)).foldlM
        (fun st x => runLed fr setLed x.1 st x.2) st := by
  unfold runLeds
  induction strips generalizing st with
  | nil => rfl
  | cons s l ih =>
    rw [List.foldlM_cons, List.flatMap_cons, List.foldlM_append, List.foldlM_map]
    congr 1
    funext st'
    exact ih st'

/-- Writing a list of colours starting at an index. -/
def writeAll (setLed : σ → U8 → CRGB → Except Fault σ) : σ → U8 → List CRGB → Except Fault σ
  | out, _, [] => .ok out
  | out, i, c :: cs => (setLed out i c).bind fun out => writeAll setLed out (i + 1) cs

/-- If all colours are defined, the loops write them one after the other. -/
theorem foldlM_writeAll (fr : Frame) (setLed : σ → U8 → CRGB → Except Fault σ)
    (ps : List (Strip × Nat)) : ∀ (cs : List CRGB) (st : LoopState σ),
    (hl : cs.length = ps.length) →
    (∀ k (h : k < ps.length), ps[k].2 < ps[k].1.count.toNat ∧
      Shows fr ps[k].1 ps[k].2 (fr.now (st.computed + k)) cs[k]) →
    (ps.foldlM (fun st x => runLed fr setLed x.1 st x.2) st).map (·.out) =
      writeAll setLed st.out st.globalIndex cs := by
  induction ps with
  | nil =>
    intro cs st hl _
    cases cs with
    | nil => rfl
    | cons => cases hl
  | cons x ps ih =>
    intro cs st hl h
    cases cs with
    | nil => cases hl
    | cons c cs =>
      obtain ⟨h1, h2⟩ := h 0 (Nat.succ_pos _)
      simp only [List.getElem_cons_zero, Nat.add_zero] at h1 h2
      obtain ⟨r, hr⟩ := (ledColour_shows fr x.1 x.2 h1 _ st.rng c).2 h2
      rw [List.foldlM_cons]
      simp only [runLed, hr, bind, Except.bind, writeAll, pure, Except.pure]
      cases setLed st.out st.globalIndex c with
      | error => rfl
      | ok out =>
        refine ih cs ⟨out, st.globalIndex + 1, st.computed + 1, r⟩
          (by simpa using hl) ?_
        intro k hk
        have := h (k + 1) (Nat.succ_lt_succ hk)
        simp only [List.getElem_cons_succ] at this
        rw [show st.computed + 1 + k = st.computed + (k + 1) by omega]
        exact this

/-- If the loops succeed, all colours were defined. -/
theorem foldlM_defined (fr : Frame) (setLed : σ → U8 → CRGB → Except Fault σ)
    (ps : List (Strip × Nat)) : ∀ (st st' : LoopState σ),
    (∀ x ∈ ps, x.2 < x.1.count.toNat) →
    ps.foldlM (fun st x => runLed fr setLed x.1 st x.2) st = .ok st' →
    ∃ cs : List CRGB, ∃ hl : cs.length = ps.length,
      ∀ k (h : k < ps.length), Shows fr ps[k].1 ps[k].2 (fr.now (st.computed + k)) cs[k] := by
  induction ps with
  | nil => intro st st' _ _; exact ⟨[], rfl, fun k h => absurd h (Nat.not_lt_zero _)⟩
  | cons x ps ih =>
    intro st st' hp h
    rw [List.foldlM_cons] at h
    simp only [runLed, bind, Except.bind, pure, Except.pure] at h
    generalize hc : ledColour fr x.1 (BitVec.ofNat 8 x.2) (fr.now st.computed) st.rng = lc at h
    cases lc with
    | error => cases h
    | ok lc =>
      have hs := (ledColour_shows fr x.1 x.2 (hp x (List.mem_cons_self ..)) _ st.rng lc.1).1
        ⟨lc.2, hc⟩
      simp only at h
      generalize setLed st.out st.globalIndex lc.1 = so at h
      cases so with
      | error => cases h
      | ok so =>
        obtain ⟨cs, hl, hcs⟩ := ih _ _ (fun y hy => hp y (List.mem_cons_of_mem _ hy)) h
        refine ⟨lc.1 :: cs, by simp [hl], ?_⟩
        intro k hk
        cases k with
        | zero => exact hs
        | succ k =>
          have := hcs k (Nat.lt_of_succ_lt_succ hk)
          simp only [List.getElem_cons_succ]
          rw [show st.computed + (k + 1) = st.computed + 1 + k by omega]
          exact this

/-- The colours of a frame in order. -/
def FrameColours (fr : Frame) (d : Device) (cs : List CRGB) : Prop :=
  ∃ hl : cs.length = (ledsInOrder d).length, ∀ k (h : k < (ledsInOrder d).length),
    Shows fr (ledsInOrder d)[k].1 (ledsInOrder d)[k].2 (fr.now k) cs[k]

theorem runEffect_eq {fr : Frame} {d : Device} {cs : List CRGB} (h : FrameColours fr d cs)
    (setLed : σ → U8 → CRGB → Except Fault σ) (writeOut : σ → σ) (out : σ) (rng : U16) :
    runEffect fr setLed writeOut d out rng = (writeAll setLed out 0 cs).map writeOut := by
  obtain ⟨hl, h⟩ := h
  have := foldlM_writeAll fr setLed (ledsInOrder d) cs ⟨out, 0, 0, rng⟩ hl (fun k hk =>
    ⟨(ledsInOrder_pos (List.getElem_mem hk)).2, by rw [Nat.zero_add]; exact h k hk⟩)
  simp only at this
  rw [← this]
  simp only [runEffect, bind, Except.bind, runLeds_flat, pure, Except.pure, ledsInOrder]
  split <;> rename_i hst <;> rw [hst] <;> rfl

theorem frameColours_of_ok {fr : Frame} {d : Device}
    {setLed : σ → U8 → CRGB → Except Fault σ} {writeOut : σ → σ} {out out' : σ} {rng : U16}
    (h : runEffect fr setLed writeOut d out rng = .ok out') : ∃ cs, FrameColours fr d cs := by
  simp only [runEffect, bind, Except.bind, runLeds_flat, pure, Except.pure] at h
  split at h
  · cases h
  · rename_i st hst
    obtain ⟨cs, hl, hcs⟩ := foldlM_defined fr setLed (ledsInOrder d) _ _
      (fun x hx => (ledsInOrder_pos hx).2) hst
    exact ⟨cs, hl, fun k hk => by have := hcs k hk; rw [Nat.zero_add] at this; exact this⟩

theorem frameColours_of_defined {fr : Frame} {d : Device}
    (h : ∀ k (h : k < (ledsInOrder d).length), ∃ c,
      Shows fr (ledsInOrder d)[k].1 (ledsInOrder d)[k].2 (fr.now k) c) :
    ∃ cs, FrameColours fr d cs := by
  refine ⟨List.ofFn fun k : Fin (ledsInOrder d).length => (h k.1 k.2).choose, by simp, ?_⟩
  intro k hk
  rw [List.getElem_ofFn]
  exact (h k hk).choose_spec

theorem writeAll_trace (cs : List CRGB) : ∀ (out : List LedOp) (n : Nat),
    writeAll (fun l i c => .ok (l ++ [LedOp.set i c])) out (BitVec.ofNat 8 n) cs =
      .ok (out ++ cs.mapIdx (fun k c => LedOp.set (BitVec.ofNat 8 (n + k)) c)) := by
  induction cs with
  | nil => intro out n; simp [writeAll]
  | cons c cs ih =>
    intro out n
    simp only [writeAll, Except.bind]
    have : (BitVec.ofNat 8 n + 1 : U8) = BitVec.ofNat 8 (n + 1) := by
      apply BitVec.eq_of_toNat_eq; simp
    rw [this, ih]
    simp [List.mapIdx_cons, Nat.add_assoc, Nat.add_comm 1]

/-- Writing into an array of `size` LEDs, the `k`-th at index `k + off`: possible iff all fit,
and then they are all there. -/
theorem writeAll_array {setLed : List CRGB → U8 → CRGB → Except Fault (List CRGB)} {off : Nat}
    (fault : Fault) (L : Nat)
    (hset : ∀ leds (i : U8) c, leds.length = L → i.toNat + off < leds.length →
      ∃ leds', setLed leds i c = .ok leds' ∧ leds'.length = leds.length ∧
        leds'[i.toNat + off]? = some c ∧
        ∀ j, off ≤ j → j ≠ i.toNat + off → leds'[j]? = leds[j]?)
    (hfault : ∀ leds (i : U8) c, leds.length = L → ¬ i.toNat + off < leds.length →
      setLed leds i c = .error fault) :
    ∀ (cs : List CRGB) (leds : List CRGB) (n : Nat), leds.length = L →
      (n + cs.length ≤ 256 → n + cs.length + off ≤ leds.length →
        ∃ leds', writeAll setLed leds (BitVec.ofNat 8 n) cs = .ok leds' ∧
          leds'.length = leds.length ∧
          (∀ k (h : k < cs.length), leds'[n + k + off]? = some cs[k]) ∧
          ∀ j, off ≤ j → j < n + off → leds'[j]? = leds[j]?) ∧
      (n ≤ leds.length - off → leds.length - off ≤ 255 → off ≤ leds.length →
        leds.length < n + cs.length + off →
        writeAll setLed leds (BitVec.ofNat 8 n) cs = .error fault) := by
  intro cs
  induction cs with
  | nil =>
    intro leds n _
    refine ⟨fun _ _ => ⟨leds, rfl, rfl, fun k h => absurd h (Nat.not_lt_zero _), fun _ _ _ => rfl⟩,
      fun h1 h2 h3 h4 => ?_⟩
    simp at h4; omega
  | cons c cs ih =>
    intro leds n hL
    have hsucc : (BitVec.ofNat 8 n + 1 : U8) = BitVec.ofNat 8 (n + 1) := by
      apply BitVec.eq_of_toNat_eq; simp
    constructor
    · intro h1 h2
      simp only [List.length_cons] at h1 h2
      have hn : (BitVec.ofNat 8 n : U8).toNat = n := by rw [BitVec.toNat_ofNat]; omega
      obtain ⟨l1, e1, len1, get1, keep1⟩ := hset leds (BitVec.ofNat 8 n) c hL (by omega)
      obtain ⟨l2, e2, len2, get2, keep2⟩ := (ih l1 (n + 1) (by omega)).1 (by omega) (by omega)
      refine ⟨l2, ?_, by omega, ?_, ?_⟩
      · simp only [writeAll, e1, Except.bind]; rw [hsucc, e2]
      · intro k hk
        cases k with
        | zero =>
          simp only [List.getElem_cons_zero, Nat.add_zero]
          rw [keep2 _ (by omega) (by omega), ← get1, hn]
        | succ k =>
          have := get2 k (Nat.lt_of_succ_lt_succ hk)
          simp only [List.getElem_cons_succ]
          rw [show n + (k + 1) + off = n + 1 + k + off by omega]
          exact this
      · intro j hj hj'
        rw [keep2 j hj (by omega), keep1 j hj (by omega)]
    · intro h1 h2 h3 h4
      simp only [List.length_cons] at h4
      have hn : (BitVec.ofNat 8 n : U8).toNat = n := by rw [BitVec.toNat_ofNat]; omega
      by_cases hlt : n + off < leds.length
      · obtain ⟨l1, e1, len1, -, -⟩ := hset leds (BitVec.ofNat 8 n) c hL (by omega)
        simp only [writeAll, e1, Except.bind]
        rw [hsucc]
        exact (ih l1 (n + 1) (by omega)).2 (by omega) (by omega) (by omega) (by omega)
      · simp only [writeAll, hfault leds (BitVec.ofNat 8 n) c hL (by omega), Except.bind]

theorem fastLed_set (d : Device) (leds : List CRGB) (i : U8) (c : CRGB)
    (h : i.toNat + 1 < leds.length) :
    ∃ leds', FastLedManager.setLed d leds i c = .ok leds' ∧ leds'.length = leds.length ∧
      leds'[i.toNat + 1]? = some c ∧
      ∀ j, 1 ≤ j → j ≠ i.toNat + 1 → leds'[j]? = leds[j]? := by
  simp only [FastLedManager.setLed, bind, Except.bind, pure, Except.pure]
  by_cases hc : d.getLedCount = 1 ∧ i = 0
  · rw [if_pos hc, if_pos (by omega)]
    simp only [List.length_set]
    rw [if_pos h]
    refine ⟨_, rfl, by simp, by simp [h], ?_⟩
    intro j hj hj'
    rw [List.getElem?_set_ne (by omega), List.getElem?_set_ne (by omega)]
  · rw [if_neg hc]
    show ∃ leds', (if i.toNat + 1 < leds.length then _ else _) = _ ∧ _
    rw [if_pos h]
    refine ⟨_, rfl, by simp, by simp [h], ?_⟩
    intro j hj hj'
    rw [List.getElem?_set_ne (by omega)]

theorem fastLed_fault (d : Device) (leds : List CRGB) (i : U8) (c : CRGB)
    (h : ¬ i.toNat + 1 < leds.length) :
    FastLedManager.setLed d leds i c = .error .outOfBounds := by
  simp only [FastLedManager.setLed, bind, Except.bind, pure, Except.pure]
  by_cases hc : d.getLedCount = 1 ∧ i = 0
  · rw [if_pos hc]
    by_cases h0 : 0 < leds.length
    · rw [if_pos h0]; simp only [List.length_set]; rw [if_neg h]
    · rw [if_neg h0]
  · rw [if_neg hc]; exact if_neg h

end Firefly
