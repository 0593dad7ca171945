import Verif.Spec.Handover
import Verif.Props.Traffic
import Verif.Props.PowerOn
import Mathlib.Algebra.Order.BigOperators.Group.Finset

/-! # The network time survives changes of master (C179) -/

namespace Firefly.Props
open Spec

theorem behind_bits (a c o t y : U32) : a + t + c = t + o + y ↔ a + c = o + y := by
  constructor <;> intro h <;> grind

theorem behind_iff {c : U32} {on : Nat} {s : Node} {B : Nat} :
    Behind c on s B ↔ ∃ d ≤ B, BitVec.ofNat 32 on + c = s.millisOffset + BitVec.ofNat 32 d := by
  constructor
  · intro h
    obtain ⟨d, hd, he⟩ := h 0
    exact ⟨d, hd, (behind_bits _ _ _ 0 _).1 he⟩
  · rintro ⟨d, hd, he⟩ t
    exact ⟨d, hd, (behind_bits _ _ _ t _).2 he⟩

theorem _root_.Firefly.Spec.Behind.mono {c : U32} {on : Nat} {s : Node} {B B' : Nat} (h : Behind c on s B) (hle : B ≤ B') :
    Behind c on s B' := fun t => by
  obtain ⟨d, hd, he⟩ := h t
  exact ⟨d, Nat.le_trans hd hle, he⟩

theorem _root_.Firefly.Spec.Behind.same {c : U32} {on : Nat} {s s' : Node} {B : Nat} (h : Behind c on s B)
    (he : s'.millisOffset = s.millisOffset) : Behind c on s' B := by
  rw [behind_iff] at h ⊢
  rw [he]; exact h

theorem sync_bits (a b c o y x ti tj : U32) (h1 : a + ti = b + tj + x) (h2 : b + c = o + y) :
    a + c = (tj + o - ti) + (y + x) := by grind

/-- A slave that hears a heartbeat is behind by as much as the sender, and the time the heartbeat took. -/
theorem sync_behind {c : U32} {on on' : Nat} {s s' : Node} {B L : Nat} {ti tj : U32} (h : Behind c on' s' B)
    (h1 : on' + tj.toNat ≤ on + ti.toNat) (h2 : on + ti.toNat ≤ on' + tj.toNat + L)
    (he : s.millisOffset = (tj + s'.millisOffset) - ti) : Behind c on s (B + L) := by
  rw [behind_iff] at h ⊢
  obtain ⟨d, hd, h⟩ := h
  refine ⟨d + (on + ti.toNat - (on' + tj.toNat)), by omega, ?_⟩
  have hw : BitVec.ofNat 32 on + ti = BitVec.ofNat 32 on' + tj +
      BitVec.ofNat 32 (on + ti.toNat - (on' + tj.toNat)) := by
    have k : on + ti.toNat = on' + tj.toNat + (on + ti.toNat - (on' + tj.toNat)) := by omega
    have := congrArg (BitVec.ofNat 32) k
    rw [BitVec.ofNat_add, BitVec.ofNat_add _ (on + ti.toNat - (on' + tj.toNat)), BitVec.ofNat_add,
      BitVec.ofNat_toNat, BitVec.ofNat_toNat, BitVec.setWidth_eq, BitVec.setWidth_eq] at this
    exact this
  rw [he, BitVec.ofNat_add]
  exact sync_bits _ _ _ _ _ _ _ _ hw h

section
variable {n : Nat} {nbrs : Fin n → List (Fin n)} {on : Fin n → Nat} {boot : Fin n → U32}
  {net₀ : HwNet n} {net : Nat → HwNet n} {T : Nat → Nat} {N : Nat} {c : U32} {A L : Nat}

/-- Who composed a heartbeat that can be received. -/
theorem beat_source (t : Timeline nbrs on boot net₀ net T N) {k : Nat} (hk : k ≤ N) {j : Fin n} {b : Entry}
    (hb : b ∈ since net₀ (net k) j) {q p : Packet} (hq : q ∈ Entry.transmitted b) {f} (hs : Hw.sendPacket q = .ok f)
    (hd : Decodes f p) (hp : p.type = .heartbeat) :
    Entry.heard b = none ∧ b.post.state = .master ∧ b.post.millisOffset = b.pre.millisOffset ∧
      p.timeField = Entry.time b + b.post.millisOffset := by
  obtain ⟨h3, -, h4⟩ := decodes_sent hs hd
  have inv0 := hwInv_reach (reach_cleared t.reach (Timeline.steps t hk))
  have hin : b ∈ (net k).hist j := by rw [Timeline.hist t hk j]; exact List.mem_append_left _ hb
  obtain ⟨t₂, rand₂, ju₂, ju₂', x₂⟩ := inv0.exec j
  obtain ⟨h', x', wf', hst', hsub⟩ := exec_entry x₂ .init hin
  have hprop : ProperUse h' := fun e he => inv0.proper j e (hsub e he)
  have hn : Entry.heard b = none := by
    cases hh' : Entry.heard b with
    | none => rfl
    | some p' =>
      have := heard_transmits_empty wf' hst' hh' (inv0.deaf j b hin p' hh') hq
      rw [this] at h3; exact absurd h3 (by decide)
  have hqt : q.type = .heartbeat := h4.1 ▸ hp
  have hpp : ∀ now p, b.op = .setEffect now p → IsInstruction p := fun now p ho => inv0.proper j b hin now p ho
  obtain ⟨h5, h6⟩ := composed_heartbeat wf' (Run.instruction ⟨_, _, _, x'⟩ hprop) hpp hst' hq hn hqt
  have hoff : b.post.millisOffset = b.pre.millisOffset :=
    offset_step wf' hst' fun k => by obtain ⟨_, p, hp, _⟩ := k; rw [hn] at hp; cases hp
  refine ⟨hn, h5, hoff, ?_⟩
  have htime : q.timeField = b.pre.getNetworkMillis (Entry.time b) :=
    own_heartbeat_time (plat := .arduino) (h := h') (s := b.post) ⟨_, _, _, .cons b.op x' hst'⟩ hprop
      (heartbeat_in_tick wf' hst' hpp hq hqt) hn hq hqt
  have hfield : p.timeField = q.timeField := by
    simp only [Packet.timeField]
    rw [h4.2 0 (by decide) (by rw [h6]; decide), h4.2 1 (by decide) (by rw [h6]; decide),
      h4.2 2 (by decide) (by rw [h6]; decide), h4.2 3 (by decide) (by rw [h6]; decide)]
  rw [hfield, htime, hoff, Node.getNetworkMillis]

/-- How far the clocks can have fallen behind. -/
structure Kept (c : U32) (on : Fin n → Nat) (A L : Nat) (net₀ net : HwNet n) : Prop where
  slave : ∀ i, InTune c on A net₀ net i → Behind c (on i) (net.node i) (A + (takeovers net₀ net + 1) * L)
  master : ∀ i, InTune c on A net₀ net i → (net.node i).state = .master →
    Behind c (on i) (net.node i) (A + takeovers net₀ net * L)
  sent : ∀ i, ∀ b ∈ since net₀ net i, b.post.state = .master → Behind c (on i) b.post (A + takeovers net₀ net * L)

theorem kept (t : Timeline nbrs on boot net₀ net T N)
    (masters : ∀ k ≤ N, ∀ i, ((net k).node i).getCurrentState = .master → InTune c on A net₀ (net k) i)
    (fresh : ∀ k ≤ N, ∀ i, FreshBeats nbrs i on net₀ (net k) L) :
    ∀ k ≤ N, Kept c on A L net₀ (net k) := by
  intro k
  induction k with
  | zero =>
    intro _
    have h0 : ∀ i, since net₀ (net 0) i = [] := by intro i; rw [t.start]; simp [since]
    have hn : ∀ i, (net 0).node i = net₀.node i := by intro i; rw [t.start]
    have tune : ∀ i, InTune c on A net₀ (net 0) i → Behind c (on i) ((net 0).node i) A := by
      intro i hi
      rcases hi with hi | ⟨e, he, _⟩
      · rw [hn]; exact hi
      · rw [h0] at he; cases he
    exact ⟨fun i hi => (tune i hi).mono (Nat.le_add_right _ _), fun i hi _ => (tune i hi).mono (Nat.le_add_right _ _),
      fun i b hb => by rw [h0] at hb; cases hb⟩
  | succ k ih =>
    intro hk
    have ih := ih (by omega)
    obtain ⟨j, op, h1, h2, h3⟩ := step_hist (t.step k (by omega))
    have wf : ((net k).node j).WF := (Timeline.run_at t (k := k) (by omega) j).wf
    have hsj := since_cons (Timeline.hist t (k := k) (by omega) j) h1
    have hso : ∀ i, i ≠ j → since net₀ (net (k + 1)) i = since net₀ (net k) i := fun i hi => since_same (h3 i hi).1
    generalize he0 : (⟨(net k).node j, op, (net (k + 1)).node j⟩ : Entry) = e₀ at hsj
    have e1 : e₀.pre = (net k).node j := by rw [← he0]
    have e2 : e₀.post = (net (k + 1)).node j := by rw [← he0]
    have hmono : ∀ i, tally Entry.Promoted (since net₀ (net k) i) ≤ tally Entry.Promoted (since net₀ (net (k + 1)) i) := by
      intro i
      by_cases hi : i = j
      · subst hi; rw [hsj]; exact tally_mono _ _ _
      · rw [hso i hi]
    have hP : takeovers net₀ (net k) ≤ takeovers net₀ (net (k + 1)) := Finset.sum_le_sum fun i _ => hmono i
    have hP1 : Entry.Promoted e₀ → takeovers net₀ (net k) + 1 ≤ takeovers net₀ (net (k + 1)) := by
      intro hp
      refine Nat.succ_le_of_lt (Finset.sum_lt_sum (fun i _ => hmono i) ⟨j, Finset.mem_univ _, ?_⟩)
      rw [hsj, tally_pos hp]; exact Nat.lt_succ_self _
    have up : A + takeovers net₀ (net k) * L ≤ A + takeovers net₀ (net (k + 1)) * L :=
      Nat.add_le_add_left (Nat.mul_le_mul_right _ hP) _
    have up' : A + (takeovers net₀ (net k) + 1) * L ≤ A + (takeovers net₀ (net (k + 1)) + 1) * L :=
      Nat.add_le_add_left (Nat.mul_le_mul_right _ (Nat.succ_le_succ hP)) _
    have up1 : Entry.Promoted e₀ → A + (takeovers net₀ (net k) + 1) * L ≤ A + takeovers net₀ (net (k + 1)) * L :=
      fun hp => Nat.add_le_add_left (Nat.mul_le_mul_right _ (hP1 hp)) _
    -- the device that took the step
    have own : InTune c on A net₀ (net (k + 1)) j →
        Behind c (on j) ((net (k + 1)).node j) (A + (takeovers net₀ (net (k + 1)) + 1) * L) ∧
        (((net (k + 1)).node j).state = .master →
          Behind c (on j) ((net (k + 1)).node j) (A + takeovers net₀ (net (k + 1)) * L)) := by
      intro htune
      by_cases hsync : SyncStep e₀
      · obtain ⟨hsl, p, hp, hpt⟩ := hsync
        obtain ⟨j', _, b, hb, q, hq, f, hsend, hdec, hw1, hw2⟩ := fresh (k + 1) hk j e₀ (by rw [hsj]; exact List.mem_cons_self) p hp hpt
        obtain ⟨hn, hbm, hbo, htf⟩ := beat_source t hk hb hq hsend hdec hpt
        have hb' : b ∈ since net₀ (net k) j' := by
          by_cases hj : j' = j
          · subst hj
            rw [hsj] at hb
            rcases List.mem_cons.1 hb with rfl | hb
            · rw [hp] at hn; cases hn
            · exact hb
          · rw [hso j' hj] at hb; exact hb
        have hbb := ih.sent j' b hb' hbm
        have hoff : ((net (k + 1)).node j).millisOffset = Entry.time b + b.post.millisOffset - Entry.time e₀ := by
          rw [← htf]
          rw [← he0] at hp ⊢
          cases op with
          | radioTick now rx =>
            rw [heard_tick wf] at hp
            rw [e1] at hsl
            exact slave_sync wf hp hsl hpt h2
          | _ => cases hp
        have key := sync_behind hbb hw1 hw2 hoff
        have key : Behind c (on j) ((net (k + 1)).node j) (A + (takeovers net₀ (net k) + 1) * L) :=
          key.mono (by rw [Nat.add_mul, Nat.one_mul, Nat.add_assoc])
        refine ⟨key.mono up', fun hm => key.mono (up1 ⟨hsl, ?_⟩)⟩
        rw [e2]; exact hm
      · have hoff : ((net (k + 1)).node j).millisOffset = ((net k).node j).millisOffset := by
          refine offset_step wf h2 ?_
          rw [he0]; exact hsync
        have htune' : InTune c on A net₀ (net k) j := by
          rcases htune with h | ⟨e, he, h⟩
          · exact Or.inl h
          · rw [hsj] at he
            rcases List.mem_cons.1 he with rfl | he
            · exact absurd h hsync
            · exact Or.inr ⟨e, he, h⟩
        refine ⟨((ih.slave j htune').same hoff).mono up', fun hm => ?_⟩
        cases hpre : ((net k).node j).state with
        | master => exact ((ih.master j htune' hpre).same hoff).mono up
        | slave =>
          refine ((ih.slave j htune').same hoff).mono (up1 ⟨?_, ?_⟩)
          · rw [e1]; exact hpre
          · rw [e2]; exact hm
    have other : ∀ i, i ≠ j → InTune c on A net₀ (net (k + 1)) i → InTune c on A net₀ (net k) i := by
      intro i hi h
      unfold InTune at h ⊢
      rwa [hso i hi] at h
    refine ⟨fun i hi => ?_, fun i hi hm => ?_, fun i b hb hbm => ?_⟩
    · by_cases hij : i = j
      · subst hij; exact (own hi).1
      · rw [(h3 i hij).2]
        exact (ih.slave i (other i hij hi)).mono up'
    · by_cases hij : i = j
      · subst hij; exact (own hi).2 hm
      · rw [(h3 i hij).2] at hm ⊢
        exact (ih.master i (other i hij hi) hm).mono up
    · by_cases hij : i = j
      · subst hij
        rw [hsj] at hb
        rcases List.mem_cons.1 hb with rfl | hb
        · rw [e2] at hbm ⊢
          exact (own (masters (k + 1) hk i hbm)).2 hbm
        · exact (ih.sent i b hb hbm).mono up
      · rw [hso i hij] at hb
        exact (ih.sent i b hb hbm).mono up

/-- **C179.** A network on the real radio with any masters, one after the other or several at once.  If every heartbeat
that is heard was sent at most `L` ms before, and every master is in tune (its network time was at most `A` ms behind
the common clock in the beginning, or it has heard a heartbeat since), then the network time of every device that is
in tune is never ahead of that clock, and behind it by at most `A + L` ms and `L` ms more for each take-over; if the
device is a master, by `L` ms less. -/
theorem network_time_kept (t : Timeline nbrs on boot net₀ net T N)
    (masters : ∀ k ≤ N, ∀ i, ((net k).node i).getCurrentState = .master → InTune c on A net₀ (net k) i)
    (fresh : ∀ k ≤ N, ∀ i, FreshBeats nbrs i on net₀ (net k) L) {k : Nat} (hk : k ≤ N) {i : Fin n}
    (tune : InTune c on A net₀ (net k) i) :
    Behind c (on i) ((net k).node i) (A + (takeovers net₀ (net k) + 1) * L) ∧
      (((net k).node i).getCurrentState = .master →
        Behind c (on i) ((net k).node i) (A + takeovers net₀ (net k) * L)) :=
  ⟨(kept t masters fresh k hk).slave i tune, (kept t masters fresh k hk).master i tune⟩

theorem agree_bits (a b c x y o p d e : U32) (h1 : a + x + c = o + d) (h2 : b + y + c = p + e) (h : a + x = b + y) :
    o + d = p + e := by rw [← h1, ← h2, h]

/-- **C179.** So any two devices in tune agree at any moment (local times `x` and `y`) up to that many ms. -/
theorem network_times_agree (t : Timeline nbrs on boot net₀ net T N)
    (masters : ∀ k ≤ N, ∀ i, ((net k).node i).getCurrentState = .master → InTune c on A net₀ (net k) i)
    (fresh : ∀ k ≤ N, ∀ i, FreshBeats nbrs i on net₀ (net k) L) {k : Nat} (hk : k ≤ N) {i j : Fin n}
    (hi : InTune c on A net₀ (net k) i) (hj : InTune c on A net₀ (net k) j) (x y : U32)
    (same : BitVec.ofNat 32 (on i) + x = BitVec.ofNat 32 (on j) + y) :
    ∃ d ≤ A + (takeovers net₀ (net k) + 1) * L, ∃ e ≤ A + (takeovers net₀ (net k) + 1) * L,
      ((net k).node i).getNetworkMillis x + BitVec.ofNat 32 d = ((net k).node j).getNetworkMillis y + BitVec.ofNat 32 e := by
  obtain ⟨d, hd, h1⟩ := (network_time_kept t masters fresh hk hi).1 x
  obtain ⟨e, he, h2⟩ := (network_time_kept t masters fresh hk hj).1 y
  exact ⟨d, hd, e, he, agree_bits _ _ _ _ _ _ _ _ _ h1 h2 same⟩

end

namespace HwDemo

/-- Three devices in a row are switched on at 0.  The first turns master at 8000, of which the second hears after 50 ms.
The first dies, the second takes over at 15100, and the third hears of that after 60 ms. -/
def scriptHand : Script := fun k =>
  if k = 0 then (0, 8000, 0)
  else if k = 1 then (1, 8050, 7)
  else if k = 2 then (1, 15100, 0)
  else (2, 15160, 7)

end HwDemo

open HwDemo in
/-- A concrete case of C179: two take-overs, and the third device is 110 ms behind. -/
theorem handover_demo :
    Timeline nbrs (fun _ => 0) (fun _ => 0) net₀ (freshNet scriptHand) (freshTime scriptHand) 4 ∧
    (∀ k ≤ 4, ∀ i, InTune 0 (fun _ => 0) 0 net₀ (freshNet scriptHand k) i) ∧
    (∀ k ≤ 4, ∀ i, FreshBeats nbrs i (fun _ => 0) net₀ (freshNet scriptHand k) 60) ∧
    (∃ e ∈ since net₀ (freshNet scriptHand 4) 0, Entry.Promoted e) ∧
    (∃ e ∈ since net₀ (freshNet scriptHand 4) 1, Entry.Promoted e) ∧
    ∀ x, ((freshNet scriptHand 4).node 2).getNetworkMillis x + 110 = x := by
  have h1 : ∀ k < 5, ∀ i : Fin 3, ∀ e ∈ since net₀ (freshNet scriptHand k) i,
      ((Entry.heard e).all fun p => decide (p.type ≠ .heartbeat) ||
        (List.finRange 3).any fun j => decide (i ∈ nbrs j) &&
        (since net₀ (freshNet scriptHand k) j).any fun b => decide ((Entry.time b).toNat ≤ (Entry.time e).toNat) &&
          decide ((Entry.time e).toNat ≤ (Entry.time b).toNat + 60) && (Entry.transmitted b).any fun q =>
            (freshNet scriptHand k).air.any fun a => sends q a.2 && decide (decodes a.2 p)) = true := by
    decide +kernel
  have h2 : ∀ i : Fin 3, (net₀.node i).millisOffset = 0 := by decide +kernel
  have h3 : ((freshNet scriptHand 4).node 2).millisOffset + 110 = 0 := by decide +kernel
  have h4 : (∃ e ∈ since net₀ (freshNet scriptHand 4) 0, e.pre.getCurrentState = .slave ∧ e.post.getCurrentState = .master) ∧
      ∃ e ∈ since net₀ (freshNet scriptHand 4) 1, e.pre.getCurrentState = .slave ∧ e.post.getCurrentState = .master := by
    decide +kernel
  refine ⟨fresh_timeline (by decide +kernel) (by decide +kernel) (by decide +kernel), fun k _ i => Or.inl ?_,
    fun k hk i e he p hp hpt => ?_, h4.1, h4.2, fun x => ?_⟩
  · rw [behind_iff]
    exact ⟨0, Nat.le_refl _, by rw [h2 i]; rfl⟩
  · have := h1 k (by omega) i e he
    rw [hp] at this
    simp only [Option.all_some, Bool.or_eq_true, decide_eq_true_eq, List.any_eq_true, Bool.and_eq_true] at this
    rcases this with h | ⟨j, _, hn, b, hb, ⟨w1, w2⟩, q, hq, a, _, hs, hd⟩
    · exact absurd hpt h
    · exact ⟨j, hn, b, hb, q, hq, a.2, sends_ok hs, decodes_ok hd, by simp only [wall_zero]; omega,
        by simp only [wall_zero]; omega⟩
  · rw [Node.getNetworkMillis, BitVec.add_assoc, h3]; exact BitVec.add_zero _

end Firefly.Props
