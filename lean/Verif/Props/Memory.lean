import Verif.Lemmas.Memory
import Verif.Props.Remote

/-! # Which frames a device takes for new (C128) -/

namespace Firefly.Props
open Spec

/-- C128: a device takes a packet for new exactly if its number is not among those of the last five
packets the device itself transmitted since power-up, relayed ones included; a device that has
transmitted fewer counts number 0 among them. -/
theorem takes_for_new {plat t₀ h s} (r : Firefly.Run plat t₀ h s) (p : Packet) :
    Hears s (some p) p ↔ p.id ∉ lastFive (s.sent.map (·.id)).reverse := by
  have hd : s.delivered (some p) = some p ↔ p.id ∉ s.nm.cache.toList := by
    simp only [Node.delivered]
    split <;> simp [*]
  rw [show Hears s (some p) p ↔ s.delivered (some p) = some p from Node.receive_iff r.wf.idx, hd,
    Vector.mem_toList_iff, r.remembers.mem_iff]

theorem numberOf_sent {q : Packet} {f : List U8} (h : Hw.sendPacket q = .ok f) :
    numberOf f = q.id := by
  unfold Hw.sendPacket at h
  split at h
  · cases h
  · cases h
    have : ∀ x : U16, BitVec.ofNat 16 (256 * ((x >>> 8).setWidth 8 : U8).toNat +
        ((x &&& 0x00ff).setWidth 8 : U8).toNat) = x := by
      intro x
      apply BitVec.eq_of_toNat_eq
      have := x.isLt
      have h255 : x.toNat &&& (255 : U16).toNat = x.toNat % 256 :=
        Nat.and_two_pow_sub_one_eq_mod x.toNat 8
      simp only [BitVec.toNat_ofNat, BitVec.toNat_setWidth, BitVec.toNat_ushiftRight,
        BitVec.toNat_and, Nat.shiftRight_eq_div_pow]
      omega
    exact this q.id

theorem numbers_sent {l : List Packet} {fs : List (List U8)}
    (h : l.mapM Hw.sendPacket = .ok fs) : fs.map numberOf = l.map (·.id) := by
  induction l generalizing fs with
  | nil => cases h; rfl
  | cons q l ih =>
    rw [List.mapM_cons] at h
    simp only [bind, Except.bind, pure, Except.pure] at h
    split at h
    · cases h
    · rename_i f hf
      split at h
      · cases h
      · rename_i fs' hfs
        cases h
        rw [List.map_cons, List.map_cons, ih hfs, numberOf_sent hf]

theorem numberOf_decodes {f : List U8} {p : Packet} (h : Decodes f p) : numberOf f = p.id := by
  obtain ⟨hi, lo, h0, h1, h2⟩ := h.id
  unfold numberOf
  rw [List.getD_eq_getElem?_getD, List.getD_eq_getElem?_getD, h0, h1]
  apply BitVec.eq_of_toNat_eq
  have := p.id.isLt
  simp only [BitVec.toNat_ofNat, Option.getD_some]
  omega

/-- C128 on the air: a board takes a frame it receives for new exactly if its number is not among
those of the last five frames the board itself transmitted; a board that has transmitted fewer
counts number 0 among them. -/
theorem board_takes_new {env : Board.Env} {t₀ rand h s}
    (r : Board.Run env (Board.init env t₀ rand) h s) {l : Board.Listen} {f p}
    (hf : l.frame = some f) (hp : l.packet = .ok (some p)) :
    Hears s.node (some p) p ↔ numberOf f ∉ lastNumbers s.aired := by
  obtain ⟨h', x, ha, _⟩ := board_is_a_node r
  obtain ⟨f', hf', _, hdec⟩ := (board_reads_frames l).1 p hp
  rw [hf] at hf'
  cases hf'
  rw [takes_for_new x, lastNumbers, numbers_sent ha, numberOf_decodes hdec]

/-- C128: a frame that is not taken for new is as good as none. -/
theorem known_frame_ignored {env : Board.Env} {t₀ rand h s}
    (r : Board.Run env (Board.init env t₀ rand) h s) {inp : Board.Input} {f}
    (hf : inp.first.frame = some f) (hlen : f.length ≤ 61) (hk : numberOf f ∈ lastNumbers s.aired) :
    Board.loop env inp s = Board.loop env (withoutFrame inp) s := by
  obtain ⟨h', x, ha, _⟩ := board_is_a_node r
  have key : Board.radioTick inp.first s.node = Board.radioTick (withoutFrame inp).first s.node := by
    have hnone : (withoutFrame inp).first.packet = .ok none := rfl
    unfold Board.radioTick
    rw [hnone]
    by_cases h4 : 4 ≤ f.length
    · obtain ⟨p, hp⟩ := (board_reads_frames inp.first).2.1 f hf h4 hlen
      have hn : ¬ Hears s.node (some p) p := fun hh => (board_takes_new r hf hp).1 hh hk
      have hd : s.node.delivered (some p) = none := by
        cases hc : s.node.delivered (some p) with
        | none => rfl
        | some q =>
          have : q = p := by
            simp only [Node.delivered] at hc
            split at hc
            · cases hc
            · cases hc; rfl
          subst this
          exact absurd ((Node.receive_iff x.wf.idx).2 hc) hn
      simp only [hp, bind, Except.bind]
      have e : s.node.radioTick .arduino inp.first.now (some p) =
          s.node.radioTick .arduino (withoutFrame inp).first.now none := by
        rw [Node.radioTick_none hd, Node.radioTick_none (rx := none) rfl]; rfl
      rw [e]
    · have hp := (board_reads_frames inp.first).2.2.1 f hf (by omega)
      rw [hp]; rfl
  have ht : Board.tick inp.first inp.second s.node =
      Board.tick (withoutFrame inp).first (withoutFrame inp).second s.node := by
    unfold Board.tick
    rw [key]; rfl
  unfold Board.loop
  cases env.program with
  | node =>
    show Board.loopNode env inp s = Board.loopNode env (withoutFrame inp) s
    unfold Board.loopNode
    rw [ht]; rfl
  | fancyNode =>
    show Board.loopFancyNode env inp s = Board.loopFancyNode env (withoutFrame inp) s
    unfold Board.loopFancyNode
    simp only [ht]
    rfl

/-- A concrete case: a board that has relayed the frames with numbers 9 and 77 knows these and
number 0. -/
example : ∃ h s, Board.Run (Board.Demo.env .node) (Board.Demo.start .node) h s ∧
    lastNumbers s.aired = [77, 9, 0, 0, 0] := by
  obtain ⟨h, s, r, _, c⟩ := example_run
  refine ⟨h, s, r, ?_⟩
  simp only [Bool.and_eq_true, beq_iff_eq] at c
  rw [c.1.1.1]
  decide

end Firefly.Props
