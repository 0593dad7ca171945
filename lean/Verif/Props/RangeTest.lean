import Verif.Spec.RangeTest
import Verif.Model.Button
import Verif.Props.Memory

/-! # The one-button remote (C129) and the range tester (C130) -/

namespace Firefly.Props
open Spec

/-! ## C129: the one-button remote -/

theorem send_setEffect (p : Packet) (hid : p.id = 0) (a b c : U8) :
    Hw.sendPacket (p.writeSetEffect a b c) = .ok [0, 0, 2, a, b, c] := by
  rw [sendPacket_ok (by show (3 : U8).toNat ≤ 58; decide)]
  have h1 : (p.writeSetEffect a b c).id = 0 := hid
  have h2 : (p.writeSetEffect a b c).data.toList.take (p.writeSetEffect a b c).len.toNat =
      [a, b, c] := by
    show (p.writeSetEffect a b c).data.toList.take 3 = [a, b, c]
    apply List.ext_getElem
    · simp
    · intro i hi hi'
      simp only [List.length_cons, List.length_nil] at hi'
      have : i = 0 ∨ i = 1 ∨ i = 2 := by omega
      rcases this with rfl | rfl | rfl <;> simp [Packet.writeSetEffect]
  rw [h1, h2]
  rfl

/-- C129: the remote never fails, and for every press read it transmits one frame: the instruction
with number 0 to show the effect with number 2 for 5 seconds. -/
theorem button_frames (palette : U8) (presses : List Bool) :
    ∃ s, Button.run palette presses = .ok s ∧
      s.aired = List.replicate (presses.count true) [0, 0, 2, 2, 5, palette] := by
  suffices ∀ (l : List Bool) (s : Button.State), s.packet.id = 0 →
      ∃ s', l.foldlM (Button.loop palette) s = .ok s' ∧
        s'.aired = s.aired ++ List.replicate (l.count true) [0, 0, 2, 2, 5, palette] by
    obtain ⟨s, h1, h2⟩ := this presses Button.init rfl
    exact ⟨s, h1, by rw [h2]; rfl⟩
  intro l
  induction l with
  | nil => intro s _; exact ⟨s, rfl, by simp⟩
  | cons b l ih =>
    intro s hid
    cases b with
    | false =>
      obtain ⟨s', h1, h2⟩ := ih s hid
      exact ⟨s', by rw [List.foldlM_cons]; exact h1, by simpa using h2⟩
    | true =>
      have hs : Hw.sendPacket (s.packet.writeSetEffect 2 5 palette) =
          .ok [0, 0, 2, 2, 5, palette] := send_setEffect _ hid 2 5 palette
      obtain ⟨s', h1, h2⟩ := ih ⟨s.packet.writeSetEffect 2 5 palette,
        s.aired ++ [[0, 0, 2, 2, 5, palette]]⟩ hid
      refine ⟨s', ?_, ?_⟩
      · rw [List.foldlM_cons]
        simp only [Button.loop, if_true, hs, bind, Except.bind, pure, Except.pure]
        exact h1
      · rw [h2]
        simp [List.replicate_succ]

/-- A concrete case: three presses, each read once. -/
example : (Button.run 7 [true, false, true, false, true]).toOption.map (·.aired) =
    some [[0, 0, 2, 2, 5, 7], [0, 0, 2, 2, 5, 7], [0, 0, 2, 2, 5, 7]] := by decide +kernel

/-- C129: a board with the shipped effects that takes the frame of the remote for new, and receives
no other instruction after it, shows the contrast bumps. -/
theorem button_shown {env : Board.Env} {seeds : EffectSeeds}
    (hreg : shippedRegistry .arduino seeds = .ok env.registry) {t₀ rand h s}
    (r : Board.Run env (Board.init env t₀ rand) h s) (h255 : totalLeds env.device ≤ 255)
    {inp : Board.Input} (ha : BoardAwake env s inp) {s'} (hl : Board.loop env inp s = .ok s')
    {palette : U8} (hrec : Receives s inp [0, 0, 2, 2, 5, palette])
    (k : Nat) (hk : k < (ledsInOrder env.device).length) :
    ∃ c, s'.leds[k + 1]? = some c ∧ ShowsEffect env.F .contrastBumps palette
      (ledsInOrder env.device)[k].1 (ledsInOrder env.device)[k].2
      (s'.node.getNetworkMillis (inp.clock k)) c := by
  have hq : (Button.init.packet.writeSetEffect 2 5 palette).data[2] = palette := by
    simp [Packet.writeSetEffect]
  have h0 : (Button.init.packet.writeSetEffect 2 5 palette).data[0] = 2 := by
    simp [Packet.writeSetEffect]
  have := receives_effect hreg r h255 ha hl
    (send_setEffect Button.init.packet rfl 2 5 palette) rfl (by
      show 3 ≤ (3 : U8).toNat
      decide) hrec (e := .contrastBumps) (by
      rw [h0]; exact slotOf_lookup hreg (k := 1) (by decide)) k hk
  rwa [hq] at this

/-- Five iterations in which a board hears claims with numbers 11 to 15. -/
def Demo.fiveClaims : List Board.Input :=
  [15, 14, 13, 12, 11].map fun n => Board.Demo.input 1020 0 (some [0, n, 1, 0]) none

/-- A concrete case: a board that has relayed five packets takes up the frame of the remote. -/
example : ∃ h s s', Board.Run (Board.Demo.env .node) (Board.Demo.start .node) h s ∧ h ≠ [] ∧
    BoardAwake (Board.Demo.env .node) s (Board.Demo.input 1040 0 (some [0, 0, 2, 2, 5, 7]) none) ∧
    Board.loop (Board.Demo.env .node)
      (Board.Demo.input 1040 0 (some [0, 0, 2, 2, 5, 7]) none) s = .ok s' ∧
    Receives s (Board.Demo.input 1040 0 (some [0, 0, 2, 2, 5, 7]) none) [0, 0, 2, 2, 5, 7] ∧
    decide (s'.aired.length = 6) = true ∧ totalLeds (Board.Demo.env .node).device ≤ 255 :=
  Board.Demo.receives_after (earlier := Demo.fiveClaims) (fun s' => decide (s'.aired.length = 6)) rfl
    (by decide +kernel)

/-- C129 and C130 (refutation).  The remote and the range tester give all their frames the number 0.
A board that has transmitted fewer than five frames since power-up ignores frames with that number,
and so does a board that has a frame with that number among the last five it transmitted, for
instance because it has taken one up. -/
theorem zero_ignored {env : Board.Env} {t₀ rand h s}
    (r : Board.Run env (Board.init env t₀ rand) h s) {inp : Board.Input} {f : List U8}
    (hf : inp.first.frame = some f) (h0 : numberOf f = 0) (hlen : f.length ≤ 61)
    (hk : s.aired.length < 5 ∨ ∃ a g b, s.aired = a ++ g :: b ∧ numberOf g = 0 ∧ b.length < 5) :
    Board.loop env inp s = Board.loop env (withoutFrame inp) s := by
  refine known_frame_ignored r hf hlen ?_
  rw [h0, lastNumbers, mem_lastFive]
  rcases hk with hk | ⟨a, f, b, he, hf, hb⟩
  · refine ⟨s.aired.length, hk, ?_⟩
    rw [List.getD_eq_getElem?_getD, List.getElem?_eq_none (by simp)]
    rfl
  · refine ⟨b.length, hb, ?_⟩
    rw [he]
    simp [hf]

/-- C129 (refutation): so a press of the remote has no effect on a board that was just switched on,
nor a second press on a board that has transmitted at most four frames since it took up the first.
-/
theorem button_ignored {env : Board.Env} {t₀ rand h s}
    (r : Board.Run env (Board.init env t₀ rand) h s) {inp : Board.Input} {palette : U8}
    (hf : inp.first.frame = some [0, 0, 2, 2, 5, palette])
    (hk : s.aired.length < 5 ∨ ∃ a g b, s.aired = a ++ g :: b ∧ numberOf g = 0 ∧ b.length < 5) :
    Board.loop env inp s = Board.loop env (withoutFrame inp) s :=
  zero_ignored r hf rfl (by simp) hk

/-- A concrete case: after taking up the frame of the remote, the board knows number 0 again. -/
example : ∃ h s, Board.Run (Board.Demo.env .node) (Board.Demo.start .node) h s ∧
    5 ≤ s.aired.length ∧ ∃ a g b, s.aired = a ++ g :: b ∧ numberOf g = 0 ∧ b.length < 5 := by
  obtain ⟨h, s, r, _, c⟩ := Board.Demo.run_of_check (env := Board.Demo.env .node)
    (s₀ := Board.Demo.start .node)
    (l := Board.Demo.input 1040 0 (some [0, 0, 2, 2, 5, 7]) none :: Demo.fiveClaims)
    (fun _ s => s.aired == [[0, 11, 1], [0, 12, 1], [0, 13, 1], [0, 14, 1], [0, 15, 1], [0, 0, 2]])
    (by decide +kernel)
  have c := eq_of_beq c
  exact ⟨h, s, r, by rw [c]; decide, [[0, 11, 1], [0, 12, 1], [0, 13, 1], [0, 14, 1], [0, 15, 1]],
    [0, 0, 2], [], by rw [c]; rfl, rfl, by decide⟩

/-! ## C130: the range tester -/

open RangeTest

theorem range_wait {orig : U32} {l : List Poll} {p : Packet} {r}
    (h : wait orig l p = .ok r) :
    r.1 = ((l.takeWhile fun x => decide (x.now - orig < 5)).find? fun x =>
      x.frame.any fun f => decide (4 ≤ f.length)).map (·.at_) := by
  induction l generalizing p with
  | nil => cases h; rfl
  | cons x l ih =>
    unfold wait at h
    by_cases hx : x.now - orig < 5
    · rw [if_pos hx] at h
      rw [List.takeWhile_cons_of_pos (by simpa using hx)]
      simp only [bind, Except.bind] at h
      have hread : ∀ o, Hw.readPacket x.frame p = .ok o →
          (o.isSome = x.frame.any fun f => decide (4 ≤ f.length)) := by
        intro o ho
        unfold Hw.readPacket at ho
        cases hf : x.frame with
        | none => rw [hf] at ho; cases ho; rfl
        | some f =>
          rw [hf] at ho
          simp only at ho
          split at ho
          · cases ho
          · split at ho
            · split at ho
              · cases ho
              · cases ho; simp
            · rename_i hne
              cases ho
              match f, hne with
              | [], _ | [_], _ | [_, _], _ | [_, _, _], _ => rfl
              | a :: b :: c :: d :: e, hne => exact absurd rfl (hne a b c d e)
      split at h
      · cases h
      · rename_i o ho
        have := hread o ho
        cases o with
        | some q =>
          cases h
          rw [List.find?_cons_of_pos (by simpa using this.symm)]
          rfl
        | none =>
          rw [List.find?_cons_of_neg (by simpa using this.symm)]
          exact ih h
    · rw [if_neg hx] at h
      cases h
      rw [List.takeWhile_cons_of_neg (by simpa using hx)]
      rfl

theorem range_sends : Hw.sendPacket packetToSend = .ok [0, 0, 2, 0, 10, 4] := by decide +kernel

theorem range_loop {F : FastLED} {inp : Input} {s s'} (h : RangeTest.loop F inp s = .ok s') :
    s'.aired = s.aired ++ [[0, 0, 2, 0, 10, 4]] ∧
    s'.receivedAt = (hearsAt inp).getD s.receivedAt ∧
    s'.colour = if (hearsAt inp).isSome then
        F.hsv2rgb ⟨BitVec.ofInt 8 (120 + inp.rssi.toInt), 255, 255⟩
      else if 500 < inp.later - s.receivedAt then CRGB.black else s.colour := by
  unfold RangeTest.loop at h
  simp only [bind, Except.bind, range_sends] at h
  split at h
  · cases h
  · rename_i r hr
    have hw := range_wait hr
    have hw : r.1 = hearsAt inp := hw
    rw [← hw]
    split at h
    · rename_i t ht
      cases h
      rw [ht]
      exact ⟨rfl, rfl, rfl⟩
    · rename_i ht
      cases h
      rw [ht]
      exact ⟨rfl, rfl, rfl⟩

/-- C130: the tester goes on for ever as long as no frame of more than 61 bytes is received. -/
theorem range_never_faults (F : FastLED) {inp : Input}
    (h : ∀ x ∈ inp.polls, ∀ f, x.frame = some f → f.length ≤ 61) (s : RangeTest.State) :
    ∃ s', RangeTest.loop F inp s = .ok s' := by
  have key : ∀ (l : List Poll) (p : Packet), (∀ x ∈ l, ∀ f, x.frame = some f → f.length ≤ 61) →
      ∃ r, wait inp.orig l p = .ok r := by
    intro l
    induction l with
    | nil => intro p _; exact ⟨_, rfl⟩
    | cons x l ih =>
      intro p hl
      unfold wait
      split
      · have hread : ∃ o, Hw.readPacket x.frame p = .ok o := by
          unfold Hw.readPacket
          cases hf : x.frame with
          | none => exact ⟨_, rfl⟩
          | some f =>
            have hlen := hl x List.mem_cons_self f hf
            dsimp only
            rw [if_neg (by simp only [Hw.kMaxFifoSizePacketSize]; omega)]
            split
            · rw [if_neg (by simp only [List.length_cons] at hlen ⊢; omega)]
              exact ⟨_, rfl⟩
            · exact ⟨_, rfl⟩
        obtain ⟨o, ho⟩ := hread
        simp only [ho, bind, Except.bind]
        cases o with
        | some q => exact ⟨_, rfl⟩
        | none => exact ih p fun y hy => hl y (List.mem_cons_of_mem _ hy)
      · exact ⟨_, rfl⟩
  obtain ⟨⟨got, q⟩, hr⟩ := key inp.polls s.packet h
  unfold RangeTest.loop
  simp only [hr, range_sends, bind, Except.bind, pure, Except.pure]
  cases got <;> exact ⟨_, rfl⟩

/-- C130: the tester transmits exactly one frame in each iteration, always the same. -/
theorem range_frames {F : FastLED} {h s} (r : RangeTest.Run F h s) :
    s.aired = List.replicate h.length [0, 0, 2, 0, 10, 4] := by
  induction r with
  | nil => rfl
  | cons inp r hl ih =>
    rw [(range_loop hl).1, ih, List.length_cons, List.replicate_succ']

theorem range_heard {F : FastLED} {h s} (r : RangeTest.Run F h s) : s.receivedAt = lastHeardAt h := by
  induction r with
  | nil => rfl
  | cons inp r hl ih => rw [(range_loop hl).2.1, ih]; rfl

/-- C130: the frame of the tester is the instruction to show the colour cycle with palette 4 for 10
seconds: a board with the shipped effects that takes it for new, and receives no other instruction
after it, does so. -/
theorem range_shown {env : Board.Env} {seeds : EffectSeeds}
    (hreg : shippedRegistry .arduino seeds = .ok env.registry) {t₀ rand h s}
    (r : Board.Run env (Board.init env t₀ rand) h s) (h255 : totalLeds env.device ≤ 255)
    {inp : Board.Input} (ha : BoardAwake env s inp) {s'} (hl : Board.loop env inp s = .ok s')
    (hrec : Receives s inp [0, 0, 2, 0, 10, 4]) (k : Nat) (hk : k < (ledsInOrder env.device).length) :
    ∃ c, s'.leds[k + 1]? = some c ∧ ShowsEffect env.F .colorCycle 4
      (ledsInOrder env.device)[k].1 (ledsInOrder env.device)[k].2
      (s'.node.getNetworkMillis (inp.clock k)) c :=
  receives_effect hreg r h255 ha hl range_sends rfl (by decide) hrec
    (slotOf_lookup hreg (k := 0) (by decide)) k hk

/-- C130: a signal of −120 to 0 dBm is shown at once as a hue from red (weak) to aqua (strong), one
step per dBm, and stays shown for as long as nothing else is received and each iteration ends within
500 ms of the reception. -/
theorem range_shows {F : FastLED} {since older : List Input} {inp : Input} {s t}
    (r : RangeTest.Run F (since ++ inp :: older) s) (ht : hearsAt inp = some t)
    (hs : ∀ x ∈ since, hearsAt x = none ∧ (x.later - t).toNat ≤ 500)
    (hr : -120 ≤ inp.rssi.toInt) (hr' : inp.rssi.toInt ≤ 0) :
    ∃ hue : U8, (hue.toNat : Int) = 120 + inp.rssi.toInt ∧ s.colour = F.hsv2rgb ⟨hue, 255, 255⟩ := by
  refine ⟨BitVec.ofInt 8 (120 + inp.rssi.toInt), ?_, ?_⟩
  · rw [BitVec.toNat_ofInt]
    omega
  · induction since generalizing s with
    | nil =>
      cases r with
      | cons _ r hl => rw [(range_loop hl).2.2, ht]; rfl
    | cons x since ih =>
      cases r with
      | @cons _ s _ _ r hl =>
        have hx := hs x List.mem_cons_self
        have hlast : lastHeardAt (since ++ inp :: older) = t := by
          have : ∀ x ∈ since, hearsAt x = none := fun y hy => (hs y (List.mem_cons_of_mem _ hy)).1
          clear ih hs r hl hx
          induction since with
          | nil => simp [lastHeardAt, ht]
          | cons y l ih =>
            rw [List.cons_append, lastHeardAt, this y List.mem_cons_self]
            exact ih fun z hz => this z (List.mem_cons_of_mem _ hz)
        have hlast : s.receivedAt = t := (range_heard r).trans hlast
        rw [(range_loop hl).2.2, hx.1, hlast, if_neg (by simp), if_neg]
        · exact ih r fun y hy => hs y (List.mem_cons_of_mem _ hy)
        · rw [BitVec.lt_def]
          exact Nat.not_lt.2 hx.2

/-- C130: the tester goes dark in the first iteration without a reception that ends more than 500 ms
after the last one, and it stays dark until the next reception. -/
theorem range_dark {F : FastLED} {since older : List Input} {inp : Input} {s}
    (r : RangeTest.Run F (since ++ inp :: older) s) (hn : hearsAt inp = none)
    (hd : 500 < (inp.later - lastHeardAt older).toNat) (hs : ∀ x ∈ since, hearsAt x = none) :
    s.colour = ⟨0, 0, 0⟩ := by
  induction since generalizing s with
  | nil =>
    cases r with
    | cons _ r hl =>
      rw [(range_loop hl).2.2, hn, range_heard r, if_neg (by simp), if_pos]
      · rfl
      · rw [BitVec.lt_def]; exact hd
  | cons x since ih =>
    cases r with
    | cons _ r hl =>
      have := ih r fun y hy => hs y (List.mem_cons_of_mem _ hy)
      rw [(range_loop hl).2.2, hs x List.mem_cons_self, if_neg (by simp)]
      split
      · rfl
      · exact this

/-- C130: without any reception the tester is dark. -/
theorem range_silent {F : FastLED} {h s} (r : RangeTest.Run F h s) (hs : ∀ x ∈ h, hearsAt x = none) :
    s.colour = ⟨0, 0, 0⟩ := by
  induction r with
  | nil => rfl
  | cons inp r hl ih =>
    rw [(range_loop hl).2.2, hs inp List.mem_cons_self, if_neg (by simp),
      ih fun y hy => hs y (List.mem_cons_of_mem _ hy)]
    split <;> rfl

/-- A concrete case: a frame after 3 ms with −70 dBm, and nothing 300 ms and 600 ms later. -/
example : let heard : Input := ⟨1000, [⟨1001, none, 1001⟩, ⟨1003, some [9, 9, 0, 1], 1003⟩], -70, 1004⟩
    let silent : U32 → Input := fun t => ⟨t, [⟨t, none, t⟩, ⟨t + 4, some [1, 2, 3], t + 4⟩,
      ⟨t + 5, some [1, 2, 3, 4], t + 5⟩], -70, t + 6⟩
    hearsAt heard = some 1003 ∧ hearsAt (silent 1300) = none ∧ hearsAt (silent 1600) = none ∧
    lastHeardAt [silent 1600, silent 1300, heard] = 1003 ∧
    (silent 1300).later - 1003 = 303 ∧ (silent 1600).later - 1003 = 603 ∧
    ∃ s s', RangeTest.Run FastLED.reference [silent 1300, heard] s ∧
      RangeTest.Run FastLED.reference [silent 1600, silent 1300, heard] s' ∧
      s.colour ≠ s'.colour := by
  refine ⟨by decide, by decide, by decide, by decide, by decide, by decide, ?_⟩
  refine ⟨_, _, .cons _ (.cons _ .nil rfl) rfl, .cons _ (.cons _ (.cons _ .nil rfl) rfl) rfl, ?_⟩
  decide +kernel

end Firefly.Props
