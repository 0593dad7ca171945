import Verif.Spec.Silence
import Verif.Lemmas.Timeouts

/-! # A network whose master has fallen silent: lemmas -/

namespace Firefly
open Spec

theorem NM.mem_push (m : NM) (h : m.idx.toNat < 5) (x : U16) : x ∈ (m.push x).cache.toList := by
  rw [NM.push, dif_pos h]
  simp [Vector.mem_toList_iff, Vector.mem_set]

theorem NM.mem_push_push (m : NM) (h : m.idx.toNat < 5) (x y : U16) :
    x ∈ ((m.push x).push y).cache.toList := by
  have h1 : (m.push x).idx.toNat < 5 := NM.push_idx h x
  have e0 : (m.push x).idx = (m.idx + 1) % 5 := by rw [NM.push, dif_pos h]; rfl
  have e1 : (m.push x).idx.toNat ≠ m.idx.toNat := by
    rw [e0, BitVec.toNat_umod, BitVec.toNat_add]
    have a : (1 : U8).toNat = 1 := rfl
    have b : (5 : U8).toNat = 5 := rfl
    rw [a, b]
    omega
  have e2 : (m.push x).cache[m.idx.toNat] = x := by simp [NM.push, dif_pos h]
  have e3 : ((m.push x).push y).cache[m.idx.toNat] = x := by
    rw [NM.push, dif_pos h1]
    simp only
    rw [Vector.getElem_set_ne _ _ e1, e2]
  rw [Vector.mem_toList_iff, Vector.mem_iff_getElem]
  exact ⟨m.idx.toNat, h, e3⟩

inductive SlaveTick (now : U32) (rx : Option Packet) (s s' : Node) : Prop
  | quiet (hd : s.delivered rx = none) (ht : ¬ (s.timers.heartbeat ≠ 0 ∧ s.timers.heartbeat < now))
      (e : s' = s)
  | takes (hd : s.delivered rx = none) (ht : s.timers.heartbeat < now)
      (st : s'.state = .master) (hb : s'.timers.heartbeat = now + kMasterHeartbeatInterval)
      (bc : s'.timers.broadcastEffect = now + kBroadcastEffectInterval)
      (p : Packet) (hp : p.type = .heartbeat) (nm : s'.nm = s.nm.push p.id) (sent : s'.sent = s.sent ++ [p])
  | beat (q : Packet) (hd : s.delivered rx = some q) (hq : q.type = .heartbeat) (st : s'.state = .slave)
      (r : Nat) (hb : s'.timers.heartbeat = now + BitVec.ofNat 32 (5000 + r % 2000))
      (sent : s'.sent = s.sent ++ [q])
  | effect (q : Packet) (hd : s.delivered rx = some q) (hq : q.type = .setEffect) (st : s'.state = .slave)
      (hb : s'.timers.heartbeat = s.timers.heartbeat) (sent : s'.sent = s.sent ++ [q])

theorem slave_tick {now rx} {s s' : Node} (wf : s.WF) (hs : s.state = .slave)
    (h : s.radioTick .arduino now rx = .ok s')
    (ty : ∀ q, rx = some q → q.type = .heartbeat ∨ q.type = .setEffect) : SlaveTick now rx s s' := by
  have dr : ∀ {q}, s.delivered rx = some q → rx = some q := by
    intro q hq
    cases rx with
    | none => cases hq
    | some q' =>
      simp only [Node.delivered] at hq
      split at hq
      · cases hq
      · exact hq
  cases Node.radioTick_cases wf h with
  | slaveQuiet hd _ ht =>
    rw [Ne, Node.timerExpired_heartbeat wf] at ht
    exact .quiet hd ht rfl
  | takeOver hd _ ht =>
    rw [Node.timerExpired_heartbeat wf] at ht
    exact .takes hd ht.2 rfl rfl rfl _ rfl rfl rfl
  | slaveHeartbeat q hd _ hq =>
    exact .beat q hd hq (by simpa using hs) (s.rand 0) (by rw [Node.armSlaveTimeout_eq]; rfl)
      (by rw [Node.armSlaveTimeout_eq]; rfl)
  | slaveEffect q hd _ hq => exact .effect q hd hq hs rfl rfl
  | slaveClaim q hd _ hq | slaveControl q hd _ hq | other q _ _ hd hq =>
    rcases ty q (dr hd) with k | k <;> (rw [hq] at k; cases k)
  | masterQuiet _ e | beat _ e | change _ e | «repeat» _ e | electionWon _ _ e | electionLost _ _ e
  | masterClaim _ _ e | masterEffect _ _ e | masterControl _ _ e => rw [hs] at e; cases e

inductive MasterTick (now : U32) (s s' : Node) : Prop
  | quiet (e : s' = s)
  | change (q : Packet) (hq : q.type = .setEffect) (ht : s.timers.changeEffect < now)
      (st : s'.state = .master) (hb : s'.timers.heartbeat = s.timers.heartbeat)
      (bc : s'.timers.broadcastEffect = s.timers.broadcastEffect)
      (ce : s'.timers.changeEffect = now + kChangeEffectInterval)
      (nm : s'.nm = s.nm.push q.id) (sent : s'.sent = s.sent ++ [q])

theorem master_tick {now rx} {s s' : Node} (wf : s.WF) (hs : s.state = .master)
    (h : s.radioTick .arduino now rx = .ok s') (hd : s.delivered rx = none)
    (hb : ¬ s.timers.heartbeat < now) (bc : ¬ s.timers.broadcastEffect < now) : MasterTick now s s' := by
  cases Node.radioTick_cases wf h with
  | masterQuiet => exact .quiet rfl
  | change _ _ ht e pal r r' =>
    refine .change { s.packet.writeSetEffect (e.setWidth 8) 0 (pal.setWidth 8) with id := sendId .arduino r' }
      rfl ?_ hs (by rw [Node.afterChange_timers]) (by rw [Node.afterChange_timers]) (by rw [Node.afterChange_timers])
      (by rw [Node.afterChange_nm]) (by rw [Node.afterChange_sent])
    simp only [Node.timerExpired] at ht
    split at ht
    · cases ht
    · split at ht
      · cases ht
      · split at ht
        · rename_i k; exact k.2
        · split at ht <;> cases ht
  | beat _ _ ht =>
    rw [Node.timerExpired_heartbeat wf] at ht
    exact absurd ht.2 hb
  | «repeat» _ _ ht =>
    simp only [Node.timerExpired] at ht
    split at ht
    · cases ht
    · split at ht
      · cases ht
      · split at ht
        · cases ht
        · split at ht
          · rename_i k; exact absurd k.2 bc
          · cases ht
  | slaveQuiet _ e | takeOver _ e => rw [hs] at e; cases e
  | slaveHeartbeat _ e | slaveClaim _ e | slaveEffect _ e | slaveControl _ e | other _ _ _ e
  | electionWon _ e | electionLost _ e | masterClaim _ e | masterEffect _ e | masterControl _ e =>
    rw [hd] at e; cases e

section
variable {n : Nat} {on : Fin n → Nat} {T₀ L : Nat} {s₀ : Fin n → Node} {x : Fin n → Nat} {i : Fin n}

/-- Before anybody took over. -/
structure Before (x : Fin n → Nat) (L : Nat) (i : Fin n) (s₀ : Fin n → Node) (h : List (Happening n))
    (s : Fin n → Node) : Prop where
  same : ∀ k, s k = s₀ k
  still : ∀ e ∈ h, Entry.transmitted e.entry = [] ∧ Entry.heard e.entry = none
  time : ∀ e ∈ h, e.time ≤ x i + L
  notYet : ∀ e ∈ h, e.who = i → e.time ≤ x i

/-- After device `i` took over at `y` with the heartbeat `p`. -/
structure After (on : Fin n → Nat) (x : Fin n → Nat) (L : Nat) (i : Fin n) (h : List (Happening n))
    (s : Fin n → Node) (y : Nat) (p : Packet) : Prop where
  lo : x i < y
  hi : y ≤ x i + L
  event : ∃ e ∈ h, e.who = i ∧ e.time = y ∧ Entry.Promoted e.entry ∧ p ∈ Entry.transmitted e.entry
  beat : p.type = .heartbeat
  master : (s i).state = .master
  hb : (s i).timers.heartbeat.toNat + on i = y + 1000
  bc : (s i).timers.broadcastEffect.toNat + on i = y + 2000
  kind : ∀ e ∈ h, ∀ q ∈ Entry.transmitted e.entry, q.type = .heartbeat ∨ q.type = .setEffect
  known : (∃ m : NM, m.idx.toNat < 5 ∧ (s i).nm = m.push p.id ∧
      ∀ e ∈ h, ∀ q ∈ Entry.transmitted e.entry, q.id = p.id) ∨
    ((∀ e ∈ h, ∀ q ∈ Entry.transmitted e.entry, q.id ∈ (s i).nm.cache.toList) ∧
      x i + 1000 < (s i).timers.changeEffect.toNat + on i)
  slaves : ∀ k, k ≠ i → (s k).state = .slave ∧
    (((s k).timers.heartbeat.toNat + on k = x k ∧ ∀ e ∈ h, e.who = k → Entry.heard e.entry ≠ some p) ∨
      y + 5000 ≤ (s k).timers.heartbeat.toNat + on k)

theorem drop_sent {a b : List Packet} : (a ++ b).drop a.length = b := by simp

theorem silence_wf (wf₀ : ∀ k, (s₀ k).WF) {h : List (Happening n)} {s : Fin n → Node}
    (c : Silence on T₀ L s₀ h s) : ∀ k, (s k).WF := by
  induction c with
  | nil => exact wf₀
  | cons j t rx _ _ _ _ _ _ step ih =>
    intro k
    dsimp only
    split
    · exact Node.step_wf (op := .radioTick _ _) (ih j) step
    · exact ih k

theorem silence_inv (wf₀ : ∀ k, (s₀ k).WF) (st₀ : ∀ k, (s₀ k).state = .slave)
    (hb₀ : ∀ k, (s₀ k).timers.heartbeat.toNat + on k = x k) (hT : T₀ ≤ x i) (hon : ∀ k, on k ≤ T₀)
    (hlt : ∀ k, on k < x k)
    (clock : ∀ k, x i + 70000 < on k + 2 ^ 32) (far : ∀ k, k ≠ i → x i + 2 * L < x k)
    {h : List (Happening n)} {s : Fin n → Node} (c : Silence on T₀ L s₀ h s)
    (time : ∀ e ∈ h, e.time ≤ x i + 1000) :
    Before x L i s₀ h s ∨ ∃ y p, After on x L i h s y p := by
  induction c with
  | nil => exact .inl ⟨fun _ => rfl, by simp, by simp, by simp⟩
  | @cons h s j t rx s' c start order runs air reaches step ih =>
    have wf := silence_wf wf₀ c
    have tt : t ≤ x i + 1000 := time _ List.mem_cons_self
    have onj := hon j
    have clj := clock j
    have hnow : (BitVec.ofNat 32 (t - on j)).toNat = t - on j := by
      rw [BitVec.toNat_ofNat]; omega
    rcases ih fun e he => time e (List.mem_cons_of_mem _ he) with b | ⟨y, p, a⟩
    · -- nobody has taken over
      have rx0 : rx = none := by
        cases rx with
        | none => rfl
        | some q =>
          obtain ⟨e, he, hq⟩ := air q rfl
          rw [(b.still e he).1] at hq
          cases hq
      subst rx0
      have tL : t ≤ x i + L := by
        rcases runs i with k | ⟨e, he, hw, k⟩
        · omega
        · have := b.notYet e he hw
          omega
      have sj : (s j).state = .slave := by rw [b.same j]; exact st₀ j
      have hbj : (s j).timers.heartbeat.toNat + on j = x j := by rw [b.same j]; exact hb₀ j
      have quiet (e : s' = s j) (nt : j = i → t ≤ x i) :
          Before x L i s₀ (⟨j, t, ⟨s j, .radioTick (BitVec.ofNat 32 (t - on j)) none, s'⟩⟩ :: h)
            (fun k => if k = j then s' else s k) := by
        refine ⟨fun k => ?_, ?_, ?_, ?_⟩
        · split
          · rename_i hk; rw [hk, e]; exact b.same j
          · exact b.same k
        · intro e' he'
          rcases List.mem_cons.1 he' with rfl | he'
          · refine ⟨?_, ?_⟩
            · simp only [Entry.transmitted, e]
              exact List.drop_length
            · rw [heard_tick (wf j)]; rfl
          · exact b.still e' he'
        · intro e' he'
          rcases List.mem_cons.1 he' with rfl | he'
          · exact tL
          · exact b.time e' he'
        · intro e' he' hw
          rcases List.mem_cons.1 he' with rfl | he'
          · exact nt hw
          · exact b.notYet e' he' hw
      cases slave_tick (wf j) sj step (by simp) with
      | beat q hd => cases hd
      | effect q hd => cases hd
      | quiet _ ht e =>
        refine .inl (quiet e fun hj => ?_)
        subst hj
        refine Nat.le_of_not_lt fun k => ht ⟨?_, ?_⟩
        · intro z
          rw [z] at hbj
          have := hlt j
          have : (0 : U32).toNat = 0 := rfl
          omega
        · rw [BitVec.lt_def, hnow]; omega
      | takes _ ht st hb bc p hp nm sent =>
        rw [BitVec.lt_def, hnow] at ht
        have hj : j = i := by
          refine Classical.byContradiction fun hj => ?_
          have := far j hj
          omega
        subst hj
        right
        have ptr : Entry.transmitted ⟨s j, .radioTick (BitVec.ofNat 32 (t - on j)) none, s'⟩ = [p] := by
          simp only [Entry.transmitted, sent]
          exact drop_sent
        refine ⟨t, p, ⟨by omega, tL, ⟨_, List.mem_cons_self, rfl, rfl, ⟨sj, st⟩, by rw [ptr]; simp⟩, hp, ?_, ?_,
          ?_, ?_, .inl ⟨(s j).nm, (wf j).idx, ?_, ?_⟩, ?_⟩⟩
        · simpa using st
        · simp only [if_true, hb, BitVec.toNat_add, hnow]
          have : kMasterHeartbeatInterval.toNat = 1000 := rfl
          omega
        · simp only [if_true, bc, BitVec.toNat_add, hnow]
          have : kBroadcastEffectInterval.toNat = 2000 := rfl
          omega
        · intro e he q hq
          rcases List.mem_cons.1 he with rfl | he
          · rw [ptr, List.mem_singleton] at hq
            rw [hq]; exact .inl hp
          · rw [(b.still e he).1] at hq; cases hq
        · simpa using nm
        · intro e he q hq
          rcases List.mem_cons.1 he with rfl | he
          · rw [ptr, List.mem_singleton] at hq
            rw [hq]
          · rw [(b.still e he).1] at hq; cases hq
        · intro k hk
          simp only [if_neg hk]
          rw [b.same k]
          refine ⟨st₀ k, .inl ⟨hb₀ k, ?_⟩⟩
          intro e he hw
          rcases List.mem_cons.1 he with rfl | he
          · exact absurd hw.symm hk
          · rw [(b.still e he).2]; simp
    · -- device `i` has taken over
      right
      refine ⟨y, p, ?_⟩
      obtain ⟨e₀, he₀, hw₀, ht₀, hpr₀, hp₀⟩ := a.event
      have ty : y ≤ t := ht₀ ▸ order e₀ he₀
      have ev : ∃ e ∈ (⟨j, t, ⟨s j, .radioTick (BitVec.ofNat 32 (t - on j)) rx, s'⟩⟩ : Happening n) :: h,
          e.who = i ∧ e.time = y ∧ Entry.Promoted e.entry ∧ p ∈ Entry.transmitted e.entry :=
        ⟨e₀, List.mem_cons_of_mem _ he₀, hw₀, ht₀, hpr₀, hp₀⟩
      have lo := a.lo
      have hi := a.hi
      by_cases hj : j = i
      · subst hj
        have kn : ∀ e ∈ h, ∀ q ∈ Entry.transmitted e.entry, q.id ∈ (s j).nm.cache.toList := by
          rcases a.known with ⟨m, hm, e1, e2⟩ | k
          · intro e he q hq
            rw [e1, e2 e he q hq]
            exact m.mem_push hm _
          · exact k.1
        have hd : (s j).delivered rx = none := by
          cases rx with
          | none => rfl
          | some q =>
            obtain ⟨e, he, hq⟩ := air q rfl
            simp only [Node.delivered]
            rw [if_pos (kn e he q hq)]
        have h1 := a.hb
        have h2 := a.bc
        cases master_tick (wf j) a.master step hd (by rw [BitVec.lt_def, hnow]; omega)
          (by rw [BitVec.lt_def, hnow]; omega) with
        | quiet e =>
          have e' : (fun k => if k = j then s' else s k) = s := by
            funext k
            split
            · rename_i hk; rw [hk, e]
            · rfl
          have tr : Entry.transmitted ⟨s j, .radioTick (BitVec.ofNat 32 (t - on j)) rx, s'⟩ = [] := by
            simp only [Entry.transmitted, e]
            exact List.drop_length
          rw [e']
          refine ⟨lo, hi, ev, a.beat, a.master, h1, h2, ?_, ?_, ?_⟩
          · intro e he q hq
            rcases List.mem_cons.1 he with rfl | he
            · rw [tr] at hq; cases hq
            · exact a.kind e he q hq
          · rcases a.known with ⟨m, hm, e1, e2⟩ | ⟨k1, k2⟩
            · refine .inl ⟨m, hm, e1, ?_⟩
              intro e he q hq
              rcases List.mem_cons.1 he with rfl | he
              · rw [tr] at hq; cases hq
              · exact e2 e he q hq
            · refine .inr ⟨?_, k2⟩
              intro e he q hq
              rcases List.mem_cons.1 he with rfl | he
              · rw [tr] at hq; cases hq
              · exact k1 e he q hq
          · intro k hk
            refine ⟨(a.slaves k hk).1, (a.slaves k hk).2.imp (fun z => ⟨z.1, ?_⟩) id⟩
            intro e he hw
            rcases List.mem_cons.1 he with rfl | he
            · exact absurd hw.symm hk
            · exact z.2 e he hw
        | change q hq ht st hb bc ce nm sent =>
          rw [BitVec.lt_def, hnow] at ht
          have tr : Entry.transmitted ⟨s j, .radioTick (BitVec.ofNat 32 (t - on j)) rx, s'⟩ = [q] := by
            simp only [Entry.transmitted, sent]
            exact drop_sent
          have hk1 : ∃ m : NM, m.idx.toNat < 5 ∧ (s j).nm = m.push p.id ∧
              ∀ e ∈ h, ∀ q ∈ Entry.transmitted e.entry, q.id = p.id := by
            rcases a.known with k | ⟨_, k2⟩
            · exact k
            · omega
          obtain ⟨m, hm, e1, e2⟩ := hk1
          refine ⟨lo, hi, ev, a.beat, ?_, ?_, ?_, ?_, .inr ⟨?_, ?_⟩, ?_⟩
          · simpa using st
          · simp only [if_true, hb]; exact h1
          · simp only [if_true, bc]; exact h2
          · intro e he q' hq'
            rcases List.mem_cons.1 he with rfl | he
            · rw [tr, List.mem_singleton] at hq'
              rw [hq']; exact .inr hq
            · exact a.kind e he q' hq'
          · intro e he q' hq'
            simp only [if_true, nm]
            rcases List.mem_cons.1 he with rfl | he
            · rw [tr, List.mem_singleton] at hq'
              rw [hq']
              exact NM.mem_push _ (wf j).idx _
            · rw [e1, e2 e he q' hq']
              exact m.mem_push_push hm _ _
          · simp only [if_true, ce, BitVec.toNat_add, hnow]
            have : kChangeEffectInterval.toNat = 60000 := rfl
            omega
          · intro k hk
            simp only [if_neg hk]
            refine ⟨(a.slaves k hk).1, (a.slaves k hk).2.imp (fun z => ⟨z.1, ?_⟩) id⟩
            intro e he hw
            rcases List.mem_cons.1 he with rfl | he
            · exact absurd hw.symm hk
            · exact z.2 e he hw
      · have hij : ¬ i = j := fun k => hj k.symm
        obtain ⟨sj, hbj⟩ := a.slaves j hj
        have kinds : ∀ q, rx = some q → q.type = .heartbeat ∨ q.type = .setEffect := by
          intro q hq
          obtain ⟨e, he, hq'⟩ := air q hq
          exact a.kind e he q hq'
        -- what is transmitted now was transmitted before
        have build (old : ∀ q ∈ Entry.transmitted ⟨s j, .radioTick (BitVec.ofNat 32 (t - on j)) rx, s'⟩,
              rx = some q) (st : s'.state = .slave)
            (sl : (s'.timers.heartbeat.toNat + on j = x j ∧
                (∀ e ∈ h, e.who = j → Entry.heard e.entry ≠ some p) ∧
                Entry.heard ⟨s j, .radioTick (BitVec.ofNat 32 (t - on j)) rx, s'⟩ ≠ some p) ∨
              y + 5000 ≤ s'.timers.heartbeat.toNat + on j) :
            After on x L i (⟨j, t, ⟨s j, .radioTick (BitVec.ofNat 32 (t - on j)) rx, s'⟩⟩ :: h)
              (fun k => if k = j then s' else s k) y p := by
          refine ⟨lo, hi, ev, a.beat, ?_, ?_, ?_, ?_, ?_, ?_⟩
          · simp only [if_neg hij]; exact a.master
          · simp only [if_neg hij]; exact a.hb
          · simp only [if_neg hij]; exact a.bc
          · intro e he q hq
            rcases List.mem_cons.1 he with rfl | he
            · exact kinds q (old q hq)
            · exact a.kind e he q hq
          · simp only [if_neg hij]
            rcases a.known with ⟨m, hm, e1, e2⟩ | ⟨k1, k2⟩
            · refine .inl ⟨m, hm, e1, ?_⟩
              intro e he q hq
              rcases List.mem_cons.1 he with rfl | he
              · obtain ⟨e', he', hq'⟩ := air q (old q hq)
                exact e2 e' he' q hq'
              · exact e2 e he q hq
            · refine .inr ⟨?_, k2⟩
              intro e he q hq
              rcases List.mem_cons.1 he with rfl | he
              · obtain ⟨e', he', hq'⟩ := air q (old q hq)
                exact k1 e' he' q hq'
              · exact k1 e he q hq
          · intro k hk
            by_cases hkj : k = j
            · subst hkj
              simp only [if_true]
              refine ⟨st, sl.imp (fun z => ⟨z.1, ?_⟩) id⟩
              intro e he hw
              rcases List.mem_cons.1 he with rfl | he
              · exact z.2.2
              · exact z.2.1 e he hw
            · simp only [if_neg hkj]
              refine ⟨(a.slaves k hk).1, (a.slaves k hk).2.imp (fun z => ⟨z.1, ?_⟩) id⟩
              intro e he hw
              rcases List.mem_cons.1 he with rfl | he
              · exact absurd hw.symm hkj
              · exact z.2 e he hw
        have dr : ∀ {q}, (s j).delivered rx = some q → rx = some q := by
          intro q hq
          cases rx with
          | none => cases hq
          | some q' =>
            simp only [Node.delivered] at hq
            split at hq
            · cases hq
            · exact hq
        cases slave_tick (wf j) sj step kinds with
        | quiet hd _ e =>
          refine build ?_ (by rw [e]; exact sj) ?_
          · intro q hq
            simp only [Entry.transmitted, e] at hq
            rw [List.drop_length] at hq
            cases hq
          · rw [e]
            refine hbj.imp (fun z => ⟨z.1, z.2, ?_⟩) id
            rw [heard_tick (wf j), hd]
            simp
        | takes hd ht =>
          exfalso
          rw [BitVec.lt_def, hnow] at ht
          rcases hbj with ⟨z1, z2⟩ | z
          · have f := far j hj
            obtain ⟨e', he', hw', k'⟩ := reaches e₀ he₀ hpr₀ p hp₀ (by omega) j (by rw [hw₀]; exact hj)
            exact z2 e' he' hw' k'
          · omega
        | beat q hd hq st r hb sent =>
          refine build ?_ st (.inr ?_)
          · intro q' hq'
            simp only [Entry.transmitted, sent] at hq'
            rw [drop_sent, List.mem_singleton] at hq'
            rw [hq']; exact dr hd
          · rw [hb, BitVec.toNat_add, hnow, BitVec.toNat_ofNat]
            have := Nat.mod_lt r (show 2000 > 0 by decide)
            omega
        | effect q hd hq st hb sent =>
          refine build ?_ st ?_
          · intro q' hq'
            simp only [Entry.transmitted, sent] at hq'
            rw [drop_sent, List.mem_singleton] at hq'
            rw [hq']; exact dr hd
          · rw [hb]
            refine hbj.imp (fun z => ⟨z.1, z.2, ?_⟩) id
            rw [heard_tick (wf j), hd]
            intro k
            cases k
            rw [a.beat] at hq
            cases hq

end

end Firefly
