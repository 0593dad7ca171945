import Verif.Lemmas.Timeline

/-! # How many heartbeats a network can lose (C139, C140) -/

namespace Firefly.Props
open Spec

section

variable {n : Nat} {nbrs : Fin n → List (Fin n)} {on : Fin n → Nat} {boot : Fin n → U32}
  {net₀ : HwNet n} {net : Nat → HwNet n} {T : Nat → Nat} {N : Nat}

/-- C139.  If the master finds time for its own business once in `D` ms, and of any four of its
heartbeats every other device hears at least one within `L` ms, then it stays the only master. -/
theorem three_losses_do_no_harm {m : Fin n} {D L : Nat} (t : Timeline nbrs on boot net₀ net T N)
    (j : JustHeard m on boot net₀ (T 0)) (hself : m ∉ nbrs m) (at_ : Attentive m on net₀ net T N D)
    (one : ∀ i, i ≠ m → OneOfFour m i on net₀ net T N L) (hDL : 4 * (1001 + D) + L ≤ 5000)
    {k : Nat} (hk : k ≤ N) : HwNet.SoleMaster (net k) m :=
  sole_master_stable t.reach hself j.sole (Timeline.steps t hk)
    (Timeline.keeps t j hself at_ one hDL hk)

theorem add_wall {a : U32} {x d o : Nat} (h : o + a.toNat + d = x) :
    BitVec.ofNat 32 (x - o) = a + BitVec.ofNat 32 d := by
  apply BitVec.eq_of_toNat_eq
  rw [BitVec.toNat_add, BitVec.toNat_ofNat, BitVec.toNat_ofNat, show x - o = a.toNat + d by omega]
  omega

/-- C140.  If, moreover, no heartbeat is heard more than `L` ms after it was sent, the network time of
every device that has heard one is behind the master's by at most `L` ms, and by the same amount at
all times `x` until it hears the next one. -/
theorem clocks_agree_within {m : Fin n} {D L L' : Nat} (t : Timeline nbrs on boot net₀ net T N)
    (j : JustHeard m on boot net₀ (T 0)) (hself : m ∉ nbrs m) (at_ : Attentive m on net₀ net T N D)
    (one : ∀ i, i ≠ m → OneOfFour m i on net₀ net T N L) (hDL : 4 * (1001 + D) + L ≤ 5000)
    {i : Fin n} (hi : i ≠ m) (prompt : Prompt m i on net₀ (net N) L')
    (heard : ∃ e ∈ since net₀ (net N) i, Entry.HeardMaster e) :
    ∃ late ≤ L', ∀ x, T N ≤ x →
      ((net N).node i).getNetworkMillis (BitVec.ofNat 32 (x - on i)) + BitVec.ofNat 32 late =
        ((net N).node m).getNetworkMillis (BitVec.ofNat 32 (x - on m)) := by
  have keeps := fun k hk => Timeline.keeps t j hself at_ one hDL (k := k) hk
  -- the last one heard
  have last : ∃ h₁ e h₂, since net₀ (net N) i = h₁ ++ e :: h₂ ∧ Entry.HeardMaster e ∧
      ∀ a ∈ h₁, ¬ Entry.HeardMaster a := by
    obtain ⟨e, he, hh⟩ := heard
    generalize since net₀ (net N) i = l at he
    induction l with
    | nil => cases he
    | cons a l ih =>
      by_cases ha : Entry.HeardMaster a
      · exact ⟨[], a, l, rfl, ha, by simp⟩
      · rcases List.mem_cons.1 he with rfl | he
        · exact absurd hh ha
        · obtain ⟨h₁, e, h₂, rfl, h1, h2⟩ := ih he
          refine ⟨a :: h₁, e, h₂, rfl, h1, ?_⟩
          simp only [List.mem_cons]
          rintro c (rfl | hc)
          · exact ha
          · exact h2 c hc
  obtain ⟨h₁, e, h₂, hsplit, hh, hlast⟩ := last
  have hin : e ∈ since net₀ (net N) i := by rw [hsplit]; simp
  -- the step in which it was heard
  have when : ∀ k ≤ N, e ∈ since net₀ (net k) i → ∃ k' ≤ k, e ∈ since net₀ (net k') i ∧
      wall on i e = T k' := by
    intro k
    induction k with
    | zero => intro _ he; rw [t.start] at he; simp [since] at he
    | succ k ih =>
      intro hk he
      rcases Timeline.entry t hk he with h | h
      · obtain ⟨k', h1, h2⟩ := ih (by omega) h
        exact ⟨k', by omega, h2⟩
      · exact ⟨k + 1, Nat.le_refl _, he, h⟩
  obtain ⟨k, hk, hek, hwe⟩ := when N (Nat.le_refl _) hin
  have st := settled t.reach hself j.sole (Timeline.steps t hk) (keeps k hk)
  obtain ⟨p, hp, hpt, e', he', q, hq, hn, hqt, hql, hc⟩ :=
    settled_origin (Timeline.reach_at t hk) st hek hh
  have hcause := (Timeline.past t hk he').1
  -- in the end
  have stN := settled t.reach hself j.sole (Timeline.steps t (Nat.le_refl N)) (keeps N (Nat.le_refl N))
  have heN : e' ∈ since net₀ (net N) m := by
    have up : ∀ d, k + d ≤ N → e' ∈ since net₀ (net (k + d)) m := by
      intro d
      induction d with
      | zero => exact fun _ => he'
      | succ d ih =>
        intro hd
        have hx := ih (by omega)
        obtain ⟨z, op, h1, _, h3⟩ := step_hist (t.step (k + d) (by omega))
        by_cases hz : m = z
        · subst hz
          show e' ∈ since net₀ (net (k + d + 1)) m
          rw [since_cons (Timeline.hist t (by omega) m) h1]
          exact List.mem_cons_of_mem _ hx
        · show e' ∈ since net₀ (net (k + d + 1)) m
          rw [since_same (h3 m hz).1]; exact hx
    have := up (N - k) (by omega)
    rwa [show k + (N - k) = N by omega] at this
  obtain ⟨_, hclock⟩ := settled_clock_from (Timeline.reach_at t (Nat.le_refl N)) stN hi hsplit hlast hp
    hpt heN hq hn hqt hql hc
  have hpr := prompt e hin p hp e' heN q hq hqt hc
  have hpast := (Timeline.past t (Nat.le_refl N) hin).1
  refine ⟨wall on i e - wall on m e', by omega, fun x hx => ?_⟩
  have h1 := hclock (BitVec.ofNat 32 (x - wall on i e))
  rw [← add_wall (o := on i) (x := x) (by unfold wall at *; omega)] at h1
  rw [h1]
  unfold Node.getNetworkMillis
  rw [show BitVec.ofNat 32 (x - on m) = Entry.time e' + BitVec.ofNat 32 (x - wall on i e) +
      BitVec.ofNat 32 (wall on i e - wall on m e') by
    rw [BitVec.add_assoc, ← BitVec.ofNat_add]
    exact add_wall (by unfold wall at *; omega)]
  grind

end

/-! ## Concrete timelines -/

namespace HwDemo

/-- What the button does: effect 5 for 7 s with palette 3. -/
def pressed : Packet := ⟨0, .setEffect, 3, (junk.2.set 0 5).set 1 7 |>.set 2 3⟩

/-- Device `i` runs an iteration at `t`, in which it reads the last frame of that length on the air, if
there is one.  With length 1 its button is pressed instead. -/
def does (net : HwNet 3) (s : Fin 3 × U32 × Nat) : Option (HwNet 3) :=
  if s.2.2 = 1 then act net s.1 (.setEffect s.2.1 pressed) else
  let f := (net.air.find? fun a => a.2.length == s.2.2 && decide (s.1 ∈ nbrs a.1)).map (·.2)
  match Board.Listen.packet ⟨s.2.1, f, junk⟩ with
  | .ok rx => act net s.1 (.radioTick s.2.1 rx)
  | .error _ => none

theorem act_step {net net' : HwNet 3} {i op} (h : act net i op = some net')
    (hrx : ∀ now rx, op = .radioTick now rx → HwNet.CanRead nbrs net i now rx)
    (hproper : ∀ now p, op = .setEffect now p → p.type = .setEffect ∨ p.type = .setControl) :
    HwNet.Step nbrs net net' ∧
      ∀ k e, net'.hist k = e :: net.hist k → (Entry.time e).toNat = op.time.toNat := by
  unfold act at h
  split at h
  · cases h
  · rename_i s' hst
    split at h
    · cases h
    · rename_i fs hfs
      cases h
      refine ⟨.act i _ hrx hproper hst hfs, ?_⟩
      intro k e he
      simp only at he
      split at he
      · rename_i hi
        subst hi
        simp only [List.cons.injEq, and_true] at he
        subst he
        rfl
      · have := congrArg List.length he
        simp at this

theorem does_step {net net' : HwNet 3} {s} (h : does net s = some net') :
    HwNet.Step nbrs net net' ∧
      ∀ i e, net'.hist i = e :: net.hist i → (Entry.time e).toNat = s.2.1.toNat := by
  unfold does at h
  split at h
  · exact act_step h (by rintro _ _ ⟨⟩) (by rintro _ _ ⟨⟩; exact .inl rfl)
  simp only at h
  split at h
  · rename_i rx hrx
    refine act_step h ?_ (by rintro _ _ ⟨⟩)
    rintro _ _ ⟨⟩
    refine ⟨_, rfl, hrx, fun f hf => ?_⟩
    simp only at hf
    rw [Option.map_eq_some_iff] at hf
    obtain ⟨a, ha, rfl⟩ := hf
    have h1 := List.find?_some ha
    have h2 := List.mem_of_find?_eq_some ha
    simp only [Bool.and_eq_true, decide_eq_true_eq] at h1
    exact ⟨a.1, h1.2, h2⟩
  · cases h

/-- The middle device has taken over at 8000, and both others have heard of it. -/
def c₀ : HwNet 3 := (act a₂ 2 (readOp a₂ 8001 1)).getD net₀

/-- What the others do after `c₀`: the master runs an iteration every 200 ms. -/
abbrev Script := Nat → Fin 3 × U32 × Nat

def along (s : Script) : Nat → Option (HwNet 3)
  | 0 => some { c₀ with air := [] }
  | k + 1 => (along s k).bind fun net => does net (s k)

def alongNet (s : Script) (k : Nat) : HwNet 3 := (along s k).getD net₀

def alongTime (s : Script) : Nat → Nat
  | 0 => 8010
  | k + 1 => (s k).2.1.toNat

/-- Both others miss three heartbeats (9200, 10400, 11600) and hear the fourth (12800). -/
def script₃ : Script := fun k =>
  if k < 23 then (1, BitVec.ofNat 32 (8200 + 200 * k), 0)
  else if k = 23 then (1, 12800, 0)
  else if k = 24 then (0, 12850, 7)
  else if k = 25 then (2, 12860, 7)
  else if k = 26 then (1, 13000, 0)
  else if k = 27 then (0, 13100, 0)
  else (2, 13150, 0)

/-- Both miss the fourth as well. -/
def script₄ : Script := fun k =>
  if k < 25 then (1, BitVec.ofNat 32 (8200 + 200 * k), 0) else (0, 13100, 0)

theorem c₀_eq : act a₂ 2 (readOp a₂ 8001 1) = some c₀ := some_getD (by decide +kernel)

theorem c₀_reach : HwNet.Reach nbrs c₀ :=
  act_reach a₂_reach c₀_eq (fun _ _ h => reads (k := 1) (j := 1) (f := [0, 13, 0, 0, 0, 31, 64])
    (by decide +kernel) (by decide) h (by decide +kernel)) (by rintro _ _ ⟨⟩)

theorem c₀_runs (i : Fin 3) : Firefly.Run .arduino 0 (c₀.hist i) (c₀.node i) := by
  have h0 : ∀ k, Firefly.Run .arduino 0 (net₀.hist k) (net₀.node k) := fun k => ⟨_, _, _, .nil⟩
  have h1 := act_runs h0 (net' := a₁) (some_getD (by decide +kernel))
  have h2 := act_runs h1 (net' := a₂) (some_getD (by decide +kernel))
  exact act_runs h2 c₀_eq i

theorem along_timeline {s : Script} {N : Nat} (h : (along s N).isSome = true)
    (ho : ∀ k < N, alongTime s k ≤ alongTime s (k + 1))
    (hc : ∀ i, clockOk (((alongNet s N).hist i).map Entry.time ++ [0]) = true) :
    Timeline nbrs (fun _ => 0) (fun _ => 0) c₀ (alongNet s) (alongTime s) N := by
  have all : ∀ k ≤ N, along s k = some (alongNet s k) := by
    have down : ∀ d k, k + d = N → (along s k).isSome = true := by
      intro d
      induction d with
      | zero => intro k hk; rw [show k = N by omega]; exact h
      | succ d ih =>
        intro k hk
        have := ih (k + 1) (by omega)
        unfold along at this
        cases e : along s k with
        | none => rw [e] at this; cases this
        | some net => rfl
    exact fun k hk => some_getD (down (N - k) k (by omega))
  have step : ∀ k < N, does (alongNet s k) (s k) = some (alongNet s (k + 1)) := by
    intro k hk
    have := all (k + 1) hk
    unfold along at this
    rw [all k (by omega)] at this
    exact this
  refine ⟨c₀_reach, rfl, fun k hk => (does_step (step k hk)).1, ho, fun k hk i e he => ?_, c₀_runs,
    fun i => clock_of_check (hc i)⟩
  have := (does_step (step k hk)).2 i e he
  unfold wall
  rw [this]
  exact Nat.zero_add _

/-- Executable form of `OwnHeartbeat`. -/
def own (e : Entry) : Bool :=
  (match e.op with | .radioTick _ _ => true | _ => false) && (Entry.heard e).isNone &&
    (Entry.transmitted e).any fun p => p.type == .heartbeat

theorem own_iff {e : Entry} : own e = true ↔ Entry.OwnHeartbeat e := by
  obtain ⟨pre, op, post⟩ := e
  unfold own Entry.OwnHeartbeat Entry.IsTick
  cases op <;> simp

theorem wall_zero {i : Fin 3} {e : Entry} : wall (fun _ => 0) i e = (Entry.time e).toNat := Nat.zero_add _

theorem c₀_just : JustHeard 1 (fun _ => 0) (fun _ => 0) c₀ 8010 := by
  have hs : ∀ i : Fin 3, decide ((c₀.node i).state = .master) = decide (i = 1) := by decide +kernel
  have h1 : ∀ e ∈ c₀.hist 1, (Entry.time e).toNat ≤ 8010 := by decide +kernel
  have h2 : ∃ b ∈ c₀.hist 1, own b = true ∧ (Entry.time b).toNat = 8000 ∧
      ∀ b' ∈ c₀.hist 1, own b' = true → (Entry.time b').toNat ≤ 8000 := by decide +kernel
  have h3 : ∀ i : Fin 3, i ≠ 1 → ∃ e ∈ c₀.hist i, Entry.HeardMaster e ∧
      8000 ≤ (Entry.time e).toNat := by decide +kernel
  refine ⟨fun i => ?_, fun e he => ?_, ?_⟩
  · have := hs i
    rwa [decide_eq_decide] at this
  · have := h1 e he; simp only [wall_zero]; omega
  · obtain ⟨b, hb, ho, ht, hl⟩ := h2
    refine ⟨b, hb, own_iff.1 ho, by simp only [wall_zero]; omega, fun b' hb' ho' => ?_, fun i hi => ?_⟩
    · have := hl b' hb' (own_iff.2 ho'); simp only [wall_zero]; omega
    · obtain ⟨e, he, h4, h5⟩ := h3 i hi
      exact ⟨Entry.time e, .inr ⟨e, he, rfl, .inl h4⟩, by simp only [wall_zero, Nat.zero_add]; omega⟩

/-- The times in the list have no gap of more than `D` between `T₀` and `hi`. -/
def gapless (D T₀ : Nat) : Nat → List Nat → Bool
  | hi, [] => decide (hi ≤ T₀ + D)
  | hi, t :: ts => decide (hi ≤ t + D) && gapless D T₀ t ts

theorem gapless_sound {D T₀ hi x : Nat} {ts : List Nat} (h : gapless D T₀ hi ts = true) (h0 : T₀ ≤ x)
    (hx : x + D < hi) : ∃ t ∈ ts, x ≤ t ∧ t ≤ x + D := by
  induction ts generalizing hi with
  | nil => simp only [gapless, decide_eq_true_eq] at h; omega
  | cons t ts ih =>
    simp only [gapless, Bool.and_eq_true, decide_eq_true_eq] at h
    by_cases ht : t ≤ x + D
    · exact ⟨t, by simp, by omega, ht⟩
    · obtain ⟨t', h1, h2⟩ := ih h.2 (by omega)
      exact ⟨t', List.mem_cons_of_mem _ h1, h2⟩

/-- Executable form of the iterations `Attentive` speaks of. -/
def idle (e : Entry) : Bool :=
  (match e.op with | .radioTick _ _ => true | _ => false) && (Entry.heard e).isNone

theorem attentive_of {s : Script} {N : Nat}
    (h : ∀ k < N + 1, gapless 200 8010 (alongTime s k)
      (((since c₀ (alongNet s k) 1).filter idle).map fun e => (Entry.time e).toNat) = true) :
    Attentive 1 (fun _ => 0) c₀ (alongNet s) (alongTime s) N 200 := by
  intro k hk x h0 hx
  obtain ⟨t, ht, h1, h2⟩ := gapless_sound (h k (by omega)) h0 hx
  rw [List.mem_map] at ht
  obtain ⟨e, he, rfl⟩ := ht
  rw [List.mem_filter] at he
  refine ⟨e, he.1, ?_, ?_, by simp only [wall_zero]; omega, by simp only [wall_zero]; omega⟩
  · have := he.2
    unfold idle at this
    obtain ⟨pre, op, post⟩ := e
    cases op with
    | radioTick now rx => exact ⟨now, rx, rfl⟩
    | _ => cases this
  · have := he.2
    unfold idle at this
    simp only [Bool.and_eq_true, Option.isNone_iff_eq_none] at this
    exact this.2

end HwDemo

open HwDemo in
/-- A concrete case of C139 and C140: both others miss the heartbeats at 9200, 10400 and 11600 ms and
hear the one at 12800, after 50 and 60 ms. -/
theorem three_losses_demo :
    Timeline nbrs (fun _ => 0) (fun _ => 0) c₀ (alongNet script₃) (alongTime script₃) 29 ∧
    JustHeard 1 (fun _ => 0) (fun _ => 0) c₀ (alongTime script₃ 0) ∧
    Attentive 1 (fun _ => 0) c₀ (alongNet script₃) (alongTime script₃) 29 200 ∧
    (∀ i, i ≠ 1 → OneOfFour 1 i (fun _ => 0) c₀ (alongNet script₃) (alongTime script₃) 29 150 ∧
      Prompt 1 i (fun _ => 0) c₀ (alongNet script₃ 29) 60 ∧
      ∃ e ∈ since c₀ (alongNet script₃ 29) i, Entry.HeardMaster e) ∧
    alongTime script₃ 29 = 13150 := by
  have beats : ∀ k < 30, ∀ e ∈ since c₀ (alongNet script₃ k) 1, own e = true →
      (Entry.time e).toNat ∈ [9200, 10400, 11600, 12800] := by decide +kernel
  have heard : ∀ k < 30, 12950 < alongTime script₃ k → ∀ i : Fin 3, i ≠ 1 →
      ∃ e ∈ since c₀ (alongNet script₃ k) i, Entry.HeardMaster e ∧ 9200 ≤ (Entry.time e).toNat ∧
        (Entry.time e).toNat ≤ 12950 := by decide +kernel
  have prompt : ∀ i : Fin 3, i ≠ 1 → ∀ e ∈ since c₀ (alongNet script₃ 29) i,
      (Entry.heard e).isSome = true → ∀ b ∈ since c₀ (alongNet script₃ 29) 1,
      (Entry.time e).toNat ≤ (Entry.time b).toNat + 60 ∨
      ∀ q ∈ Entry.transmitted b, q.type = .heartbeat → 3 < q.len.toNat ∧
        ((Entry.heard e).all fun p => p.data[3] != q.data[3]) = true := by decide +kernel
  refine ⟨along_timeline (by decide +kernel) (by decide +kernel) (by decide +kernel), c₀_just,
    attentive_of (by decide +kernel), fun i hi => ⟨?_, ?_, ?_⟩, rfl⟩
  · intro k hk a b c d ha hb hc hd oa ob oc od h1 h2 h3 h4
    have ea := beats k (by omega) a ha (own_iff.2 oa)
    have eb := beats k (by omega) b hb (own_iff.2 ob)
    have ec := beats k (by omega) c hc (own_iff.2 oc)
    have ed := beats k (by omega) d hd (own_iff.2 od)
    simp only [List.mem_cons, List.not_mem_nil, or_false] at ea eb ec ed
    simp only [wall_zero] at h1 h2 h3 h4 ⊢
    obtain ⟨e, he, e1, e2, e3⟩ := heard k (by omega) (by omega) i hi
    exact ⟨e, he, e1, by omega, by omega⟩
  · intro e he p hp b hb q hq hqt hc
    rcases prompt i hi e he (by rw [hp]; rfl) b hb with h | h
    · simp only [wall_zero]; omega
    · have := h q hq hqt
      rw [hp] at this
      exact absurd (hc.2 3 (by decide) this.1) (bne_iff_ne.1 this.2)
  · obtain ⟨e, he, h1, _⟩ := heard 29 (by decide) (by decide +kernel) i hi
    exact ⟨e, he, h1⟩

open HwDemo in
/-- C139, why not more than three: after four lost heartbeats, with everything else as before, there
can be a second master. -/
theorem four_losses_two_masters :
    Timeline nbrs (fun _ => 0) (fun _ => 0) c₀ (alongNet script₄) (alongTime script₄) 26 ∧
    JustHeard 1 (fun _ => 0) (fun _ => 0) c₀ (alongTime script₄ 0) ∧
    Attentive 1 (fun _ => 0) c₀ (alongNet script₄) (alongTime script₄) 26 200 ∧
    ((since c₀ (alongNet script₄ 26) 1).filter own).map (fun e => (Entry.time e).toNat) =
      [12800, 11600, 10400, 9200] ∧
    ((alongNet script₄ 26).node 0).getCurrentState = .master ∧
    ((alongNet script₄ 26).node 1).getCurrentState = .master :=
  ⟨along_timeline (by decide +kernel) (by decide +kernel) (by decide +kernel), c₀_just,
    attentive_of (by decide +kernel), by decide +kernel, by decide +kernel, by decide +kernel⟩

end Firefly.Props
