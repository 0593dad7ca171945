import Verif.Lemmas.PowerOn
import Verif.Props.Settling
import Verif.Props.Picture

/-! # From power-on to the common picture (C172) -/

namespace Firefly.Props
open Spec

section

variable {n : Nat} {nbrs : Fin n → List (Fin n)} {on : Fin n → Nat} {boot : Fin n → U32}
  {net₀ : HwNet n} {net : Nat → HwNet n} {T : Nat → Nat} {N : Nat}

/-- C172.  As in C144, no master is running, and `m` turns master at the time `w`.  From the time
`x ≥ w` on nobody gives an instruction and `m` follows `c`.  A device that hears at least one of any `K`
repetitions, and hears no instruction more than `L'` ms after it was sent, follows `c` from
`x + 2 L' + K (2003 + 3 D)` on. -/
theorem first_master_followed {m : Fin n} {D L L' G K w : Nat} (t : Timeline nbrs on boot net₀ net T N)
    (hself : m ∉ nbrs m) (hnone : HwNet.Masterless net₀ (net N))
    (first : FirstMaster m on net₀ (net N) w G) (at_ : AttentiveFrom w m on net₀ net T N D)
    (known : ∀ i, i ≠ m → Introduced i on boot net₀ (net N) w G)
    (touch : ∀ i, i ≠ m → InTouch m i on boot net₀ (net N) L) (hDL : 4 * (1001 + D) + L ≤ 5000)
    (past : ∀ e ∈ net₀.hist m, wall on m e ≤ T 0)
    {i : Fin n} (hi : i ≠ m) (hears : OneOf K m i on net₀ net T N L')
    {k : Nat} (hk : k ≤ N) (recent : Recent nbrs i on net₀ (net k) L') {x : Nat} {c : Packet}
    (hx : T 0 ≤ x) (hw : w ≤ x) (steady : Steady m on net₀ (net k) x c)
    (late : x + 2 * L' + K * (2003 + 3 * D) < T k) :
    Carries ((net k).node i).getSetEffect c := by
  have st := Timeline.led t hself hnone first at_ known touch hDL hk
  -- it hears one of the repetitions
  obtain ⟨bs, hl, hpw, hb⟩ := Timeline.led_repeats t past at_ (by omega) hk st K (y := x + L') (by omega)
    (by omega) (by omega)
  obtain ⟨b, hbm, q, hq, e, he, p, hp, hc, hbe, -⟩ := hears k hk bs hl
    (fun b hbm => ⟨(hb b hbm).1, (hb b hbm).2.1, by have := (hb b hbm).2.2.2; omega⟩) hpw
  have hbw := (hb b hbm).2.2.1
  have inv := hwInv_reach (Timeline.reach_at t hk)
  have hins : ∀ a ∈ since net₀ (net k) i, ∀ p, Entry.heard a = some p → IsInstruction p →
      x + L' < wall on i a → Carries p c := by
    intro a ha p hp hpi hw
    obtain ⟨j', hj, b', hb', q', hq', f, hf, hd, hw'⟩ := recent a ha p hp hpi
    obtain ⟨h1, h2⟩ := st.sender (Timeline.reach_at t hk) hb' hq' hf hd hpi
    rcases h2 with rfl | ⟨now, r, ho⟩
    · obtain ⟨c1, c2, c3⟩ := steady.follows b' hb' (by omega)
      exact ⟨h1.1.trans c1, fun z hz hl => by rw [h1.2 z hz (by rw [c2]; exact hl), c3]⟩
    · exact absurd ho (steady.untouched j' b' hb' (by omega) now r)
  have hpi : IsInstruction p := by
    have hbin : b ∈ (net k).hist m := by
      rw [st.hist m]; exact List.mem_append_left _ (hb b hbm).1
    obtain ⟨t₁, rand₁, ju₁, ju₁', y⟩ := inv.exec m
    obtain ⟨g, y', wf', hst', hsub⟩ := exec_entry y .init hbin
    have hbi : IsInstruction b.pre.setEffectPacket :=
      Run.instruction (plat := .arduino) (t₀ := t₁) ⟨rand₁, ju₁, ju₁', y'⟩
        fun a ha => inv.proper m a (hsub a ha)
    have := hq.same.1
    unfold IsInstruction at hbi ⊢
    rw [hc.1, this]
    exact hbi
  -- the last one it hears
  have last : ∃ h₁ e' h₂, since net₀ (net k) i = h₁ ++ e' :: h₂ ∧
      (∃ p, Entry.heard e' = some p ∧ IsInstruction p) ∧ (∀ a ∈ h₁, ∀ p, Entry.heard a = some p →
        ¬ IsInstruction p) ∧ (e ∈ e' :: h₂) := by
    generalize since net₀ (net k) i = l at he
    induction l with
    | nil => cases he
    | cons a l ih =>
      by_cases ha : ∃ p, Entry.heard a = some p ∧ IsInstruction p
      · exact ⟨[], a, l, rfl, ha, by simp, he⟩
      · rcases List.mem_cons.1 he with rfl | he
        · exact absurd ⟨p, hp, hpi⟩ ha
        · obtain ⟨h₁, e', h₂, rfl, h1, h2, h3⟩ := ih he
          refine ⟨a :: h₁, e', h₂, rfl, h1, ?_, h3⟩
          intro b hb p' hp' hpi'
          rcases List.mem_cons.1 hb with rfl | hb
          · exact ha ⟨p', hp', hpi'⟩
          · exact h2 b hb p' hp' hpi'
  obtain ⟨h₁, e', h₂, hsp, ⟨p', hp', hpi'⟩, hlast, hee⟩ := last
  have hin : e' ∈ since net₀ (net k) i := by rw [hsp]; simp
  have hh := st.hist i
  rw [hsp, List.append_assoc, List.cons_append] at hh
  have cl := Timeline.clocks t hk i
  rw [hh] at cl
  obtain ⟨o1, o2, -⟩ := clock_ordered cl
  have hwe : wall on i e ≤ wall on i e' := by
    rcases List.mem_cons.1 hee with rfl | h
    · exact Nat.le_refl _
    · have := o2 e (by simp [h]); unfold wall; omega
  have hcar := hins e' hin p' hp' hpi' (by omega)
  obtain ⟨t₂, rand₂, ju₂, ju₂', y⟩ := inv.exec i
  simp only at y
  rw [hh] at y
  obtain ⟨y1, y2, y3⟩ := exec_split y
  have wf := y1.wf .init
  have hslave := fun a ha => (st.others i hi a ha).1
  have hunt : ∀ a ∈ h₁, Untold a := by
    intro a ha
    refine ⟨steady.untouched i a (by rw [hsp]; simp [ha]) ?_, hlast a ha⟩
    have := o1 a ha
    unfold wall at *; omega
  have hkeep : ((net k).node i).getSetEffect = p' := by
    rw [Node.getSetEffect, slave_untold (Node.step_wf wf y2) y3
      (fun a ha => hslave a (by rw [hsp]; exact List.mem_append_left _ ha)) hunt]
    exact slave_takes wf y2 (hslave e' hin) hp' hpi'
  rw [hkeep]; exact hcar

/-- C172, clocks: if no heartbeat is heard more than `L'` ms after it was sent, the network time of
every device that has heard one is behind that of `m` by at most `L'` ms, and by the same amount at all
times `x` until it hears the next one. -/
theorem first_master_clocks {m : Fin n} {D L L' G w : Nat} (t : Timeline nbrs on boot net₀ net T N)
    (hself : m ∉ nbrs m) (hnone : HwNet.Masterless net₀ (net N))
    (first : FirstMaster m on net₀ (net N) w G) (at_ : AttentiveFrom w m on net₀ net T N D)
    (known : ∀ i, i ≠ m → Introduced i on boot net₀ (net N) w G)
    (touch : ∀ i, i ≠ m → InTouch m i on boot net₀ (net N) L) (hDL : 4 * (1001 + D) + L ≤ 5000)
    {i : Fin n} (hi : i ≠ m) (prompt : Prompt m i on net₀ (net N) L')
    (heard : ∃ e ∈ since net₀ (net N) i, Entry.HeardMaster e) :
    ∃ late ≤ L', ∀ x, T N ≤ x →
      ((net N).node i).getNetworkMillis (BitVec.ofNat 32 (x - on i)) + BitVec.ofNat 32 late =
        ((net N).node m).getNetworkMillis (BitVec.ofNat 32 (x - on m)) := by
  -- the last one heard
  have last : ∃ h₁ e h₂, since net₀ (net N) i = h₁ ++ e :: h₂ ∧ Entry.HeardMaster e ∧
      ∀ a ∈ h₁, ¬ Entry.HeardMaster a := by
    obtain ⟨e, he, hh⟩ := heard
    generalize since net₀ (net N) i = l at he
    induction l with
    | nil => cases he
    | cons a l ih =>
      by_cases ha : Entry.HeardMaster a
      · exact ⟨[], a, l, rfl, ha, by simp⟩
      · rcases List.mem_cons.1 he with rfl | he
        · exact absurd hh ha
        · obtain ⟨h₁, e, h₂, rfl, h1, h2⟩ := ih he
          refine ⟨a :: h₁, e, h₂, rfl, h1, ?_⟩
          simp only [List.mem_cons]
          rintro c (rfl | hc)
          · exact ha
          · exact h2 c hc
  obtain ⟨h₁, e, h₂, hsplit, hh, hlast⟩ := last
  have hin : e ∈ since net₀ (net N) i := by rw [hsplit]; simp
  -- the step in which it was heard
  have when : ∀ k ≤ N, e ∈ since net₀ (net k) i → ∃ k' ≤ k, e ∈ since net₀ (net k') i ∧
      wall on i e = T k' := by
    intro k
    induction k with
    | zero => intro _ he; rw [t.start] at he; simp [since] at he
    | succ k ih =>
      intro hk he
      rcases Timeline.entry t hk he with h | h
      · obtain ⟨k', h1, h2⟩ := ih (by omega) h
        exact ⟨k', by omega, h2⟩
      · exact ⟨k + 1, Nat.le_refl _, he, h⟩
  obtain ⟨k, hk, hek, hwe⟩ := when N (Nat.le_refl _) hin
  have st := Timeline.led t hself hnone first at_ known touch hDL hk
  obtain ⟨p, hp, hpt, e', he', q, hq, hn, hqt, hql, hc⟩ :=
    st.origin (Timeline.reach_at t hk) hek hh
  have hcause := (Timeline.past t hk he').1
  -- in the end
  have stN := Timeline.led t hself hnone first at_ known touch hDL (Nat.le_refl N)
  have heN : e' ∈ since net₀ (net N) m := by
    have up : ∀ d, k + d ≤ N → e' ∈ since net₀ (net (k + d)) m := by
      intro d
      induction d with
      | zero => exact fun _ => he'
      | succ d ih =>
        intro hd
        have hx := ih (by omega)
        obtain ⟨z, op, h1, _, h3⟩ := step_hist (t.step (k + d) (by omega))
        by_cases hz : m = z
        · subst hz
          show e' ∈ since net₀ (net (k + d + 1)) m
          rw [since_cons (Timeline.hist t (by omega) m) h1]
          exact List.mem_cons_of_mem _ hx
        · show e' ∈ since net₀ (net (k + d + 1)) m
          rw [since_same (h3 m hz).1]; exact hx
    have := up (N - k) (by omega)
    rwa [show k + (N - k) = N by omega] at this
  obtain ⟨_, hclock⟩ := stN.clock_from (Timeline.reach_at t (Nat.le_refl N)) hi hsplit hlast hp
    hpt heN hq hn hqt hql hc
  have hpr := prompt e hin p hp e' heN q hq hqt hc
  have hpast := (Timeline.past t (Nat.le_refl N) hin).1
  refine ⟨wall on i e - wall on m e', by omega, fun x hx => ?_⟩
  have h1 := hclock (BitVec.ofNat 32 (x - wall on i e))
  rw [← add_wall (o := on i) (x := x) (by unfold wall at *; omega)] at h1
  rw [h1]
  unfold Node.getNetworkMillis
  rw [show BitVec.ofNat 32 (x - on m) = Entry.time e' + BitVec.ofNat 32 (x - wall on i e) +
      BitVec.ofNat 32 (wall on i e - wall on m e') by
    rw [BitVec.add_assoc, ← BitVec.ofNat_add]
    exact add_wall (by unfold wall at *; omega)]
  grind

/-- C172, the picture: let device `i` be an LED board whose last iteration ended after that bound.  Each
LED then shows what the instruction `c` of `m` prescribes for the network time `m` had `late` ms before
the LED was computed (at the time `y`), where `late` is the same for all LEDs and at most `L'`. -/
theorem first_master_shown {m : Fin n} {D L L' G K w : Nat} (t : Timeline nbrs on boot net₀ net T N)
    (hself : m ∉ nbrs m) (hnone : HwNet.Masterless net₀ (net N))
    (first : FirstMaster m on net₀ (net N) w G) (at_ : AttentiveFrom w m on net₀ net T N D)
    (known : ∀ i, i ≠ m → Introduced i on boot net₀ (net N) w G)
    (touch : ∀ i, i ≠ m → InTouch m i on boot net₀ (net N) L) (hDL : 4 * (1001 + D) + L ≤ 5000)
    (past : ∀ e ∈ net₀.hist m, wall on m e ≤ T 0)
    {i : Fin n} (hi : i ≠ m) (prompt : Prompt m i on net₀ (net N) L')
    (heard : ∃ e ∈ since net₀ (net N) i, Entry.HeardMaster e)
    (hears : OneOf K m i on net₀ net T N L') (recent : Recent nbrs i on net₀ (net N) L')
    {x : Nat} {c : Packet} (hx : T 0 ≤ x) (hw : w ≤ x)
    (steady : Steady m on net₀ (net N) x c) (hc : Complete c)
    (late₂ : x + 2 * L' + K * (2003 + 3 * D) < T N)
    {env t₀ rand h s inp s' seeds}
    (hboard : Board.Run env (Board.init env t₀ rand) ((s, inp, s') :: h) s')
    (hnode : (net N).node i = s'.node) (hawake : BoardAwake env s inp)
    (hship : shippedRegistry .arduino seeds = .ok env.registry) (h255 : totalLeds env.device ≤ 255) :
    ∃ late ≤ L', ∀ k (hk : k < (ledsInOrder env.device).length) (y : Nat), T N ≤ y →
      inp.clock k = BitVec.ofNat 32 (y - on i) →
      ∃ col, s'.leds[k + 1]? = some col ∧
        ∀ now, Shows ⟨env.F, .arduino, env.registry, c, now⟩ (ledsInOrder env.device)[k].1
          (ledsInOrder env.device)[k].2
          (((net N).node m).getNetworkMillis (BitVec.ofNat 32 (y - on m)) - BitVec.ofNat 32 late)
          col := by
  have hcar := first_master_followed t hself hnone first at_ known touch hDL past hi hears
    (Nat.le_refl N) recent hx hw steady late₂
  obtain ⟨late, hl, hclock⟩ := first_master_clocks t hself hnone first at_ known touch hDL hi prompt
    heard
  refine ⟨late, hl, fun k hk y hy hyk => ?_⟩
  cases hboard with
  | cons _ run' hloop =>
    obtain ⟨col, hcol, hshow⟩ := board_shows_instruction run' hawake h255 hloop k hk
    refine ⟨col, hcol, fun now => ?_⟩
    rw [hnode] at hcar
    have h1 := (shows_carries hship hcar hc _ now _ _ _ _).1 hshow
    have h2 := hclock y hy
    rw [← hyk, hnode] at h2
    rw [← h2, BitVec.add_sub_cancel]
    exact h1

end

namespace HwDemo

/-- Three devices are switched on at 0.  The button of the last one is pressed at 2000, which nobody
hears.  The middle one turns master at 8000, of which both others hear; they miss its repetition at
10200 and hear the one at 12400. -/
def scriptOn : Script := fun k =>
  if k = 0 then (2, 2000, 1)
  else if k = 1 then (1, 8000, 0)
  else if k = 2 then (0, 8050, 7)
  else if k = 3 then (2, 8060, 7)
  else if k < 26 then (1, BitVec.ofNat 32 (8200 + 200 * (k - 4)), 0)
  else if k = 26 then (0, 12450, 6)
  else if k = 27 then (2, 12460, 6)
  else if k = 28 then (1, 12600, 0)
  else if k = 29 then (1, 12800, 0)
  else if k = 30 then (0, 12850, 7)
  else if k = 31 then (2, 12860, 7)
  else if k = 32 then (1, 13000, 0)
  else if k = 33 then (1, 13200, 0)
  else if k = 34 then (1, 13400, 0)
  else (2, 13450, 0)

/-- What the first master follows all the time. -/
def opening : Packet := (net₀.node 1).setEffectPacket

end HwDemo

open HwDemo in
/-- A concrete case of C172 with `K = 2`: from power-on, device 2 follows what it was told by its button,
turns to the instruction of the first master at 12460, and the bound is 13326. -/
theorem power_on_demo :
    Timeline nbrs (fun _ => 0) (fun _ => 0) net₀ (freshNet scriptOn) (freshTime scriptOn) 36 ∧
    HwNet.Masterless net₀ (freshNet scriptOn 36) ∧
    FirstMaster 1 (fun _ => 0) net₀ (freshNet scriptOn 36) 8000 100 ∧
    AttentiveFrom 8000 1 (fun _ => 0) net₀ (freshNet scriptOn) (freshTime scriptOn) 36 200 ∧
    (∀ i, i ≠ 1 → Introduced i (fun _ => 0) (fun _ => 0) net₀ (freshNet scriptOn 36) 8000 100 ∧
      InTouch 1 i (fun _ => 0) (fun _ => 0) net₀ (freshNet scriptOn 36) 150 ∧
      OneOf 2 1 i (fun _ => 0) net₀ (freshNet scriptOn) (freshTime scriptOn) 36 60 ∧
      Recent nbrs i (fun _ => 0) net₀ (freshNet scriptOn 36) 60 ∧
      Prompt 1 i (fun _ => 0) net₀ (freshNet scriptOn 36) 60 ∧
      ∃ e ∈ since net₀ (freshNet scriptOn 36) i, Entry.HeardMaster e) ∧
    (∀ e ∈ net₀.hist 1, wall (n := 3) (fun _ => 0) 1 e ≤ freshTime scriptOn 0) ∧
    Steady 1 (fun _ => 0) net₀ (freshNet scriptOn 36) 8000 opening ∧
    8000 + 2 * 60 + 2 * (2003 + 3 * 200) < freshTime scriptOn 36 ∧
    ¬ Carries ((freshNet scriptOn 27).node 2).getSetEffect opening ∧
    Carries ((freshNet scriptOn 36).node 2).getSetEffect opening := by
  have beats : ∀ e ∈ since net₀ (freshNet scriptOn 36) 1, own e = true →
      (Entry.time e).toNat ∈ [8000, 9200, 10400, 11600, 12800] := by decide +kernel
  have gaps : ∀ k < 37, gapless 200 8000 (freshTime scriptOn k)
      (((since net₀ (freshNet scriptOn k) 1).filter idle).map fun e => (Entry.time e).toNat) = true := by
    decide +kernel
  have intro_ : ∀ i : Fin 3, i ≠ 1 → atSplits (fun e h => decide ((Entry.time e).toNat ≤ 8100) ||
      heardFrom 8000 h) (since net₀ (freshNet scriptOn 36) i) = true := by decide +kernel
  have touch : ∀ i : Fin 3, i ≠ 1 → atSplits (fun e h => decide ((Entry.time e).toNat ≤ 11750) ||
      decide ((Entry.time e).toNat ≤ 12950) && heardFrom 8000 h || heardFrom 9200 h)
      (since net₀ (freshNet scriptOn 36) i) = true := by decide +kernel
  have turned : ∃ a ∈ since net₀ (freshNet scriptOn 36) 1, a.pre.getCurrentState = .slave ∧
      a.post.getCurrentState = .master ∧ (Entry.time a).toNat = 8000 := by decide +kernel
  have never : ∀ i : Fin 3, i ≠ 1 → ∀ e ∈ since net₀ (freshNet scriptOn 36) i,
      e.post.getCurrentState = .slave := by decide +kernel
  have reps : ∀ k < 37, ∀ b ∈ since net₀ (freshNet scriptOn k) 1, ∀ q ∈ Entry.transmitted b,
      q.type = b.pre.setEffectPacket.type → (Entry.time b).toNat ∈ [10200, 12400] := by decide +kernel
  have hears : ∀ k < 37, 12460 < freshTime scriptOn k → ∀ i : Fin 3, i ≠ 1 →
      ∀ b ∈ since net₀ (freshNet scriptOn k) 1, (Entry.time b).toNat = 12400 →
      ((Entry.transmitted b).all fun q => (since net₀ (freshNet scriptOn k) i).any fun e =>
        ((Entry.heard e).any fun p => decide (Carries p q)) &&
        decide (12400 ≤ (Entry.time e).toNat) && decide ((Entry.time e).toNat ≤ 12460)) = true := by
    decide +kernel
  have recent : ∀ i : Fin 3, i ≠ 1 → i ∈ nbrs 1 ∧ ∀ e ∈ since net₀ (freshNet scriptOn 36) i,
      ((Entry.heard e).all fun p => decide (IsInstruction p) == false ||
        (since net₀ (freshNet scriptOn 36) 1).any fun b => decide ((Entry.time e).toNat ≤
          (Entry.time b).toNat + 60) && (Entry.transmitted b).any fun q =>
            (freshNet scriptOn 36).air.any fun a => sends q a.2 && decide (decodes a.2 p)) = true := by
    decide +kernel
  have prompt : ∀ i : Fin 3, i ≠ 1 → ∀ e ∈ since net₀ (freshNet scriptOn 36) i,
      ((Entry.heard e).all fun p => (since net₀ (freshNet scriptOn 36) 1).all fun b =>
        (Entry.transmitted b).all fun q => decide (q.type ≠ .heartbeat) ||
          decide (¬ Carries p q) || decide ((Entry.time e).toNat ≤ (Entry.time b).toNat + 60)) = true := by
    decide +kernel
  have ever : ∀ i : Fin 3, i ≠ 1 → ∃ e ∈ since net₀ (freshNet scriptOn 36) i, Entry.HeardMaster e := by
    decide +kernel
  have still : (∀ i, ∀ e ∈ since net₀ (freshNet scriptOn 36) i, 8000 ≤ (Entry.time e).toNat →
      (match e.op with | .setEffect _ _ => false | _ => true) = true) ∧
      ∀ e ∈ since net₀ (freshNet scriptOn 36) 1, 8000 ≤ (Entry.time e).toNat →
        SameContent e.post.getSetEffect opening := by decide +kernel
  refine ⟨fresh_timeline (by decide +kernel) (by decide +kernel) (by decide +kernel),
    fun j => .inl (by revert j; decide +kernel), ⟨?_, ?_⟩, ?_, fun i hi => ⟨?_, ?_, ?_, ?_, ?_, ever i hi⟩,
    by decide +kernel, ⟨fun i e he hx now p ho => ?_,
      fun e he hx => still.2 e he (by rwa [wall_zero] at hx)⟩, by decide +kernel, by decide +kernel,
    by decide +kernel⟩
  · obtain ⟨a, ha, h1, h2, h3⟩ := turned
    exact ⟨a, ha, ⟨h1, h2⟩, by rw [wall_zero, h3]⟩
  · intro i hi e he hp
    have := never i hi e he
    rw [hp.2] at this; cases this
  · intro k hk x h0 hx
    obtain ⟨t, ht, h1, h2⟩ := gapless_sound (gaps k (by omega)) h0 hx
    rw [List.mem_map] at ht
    obtain ⟨e, he, rfl⟩ := ht
    rw [List.mem_filter] at he
    obtain ⟨h3, h4⟩ := idle_iff.1 he.2
    exact ⟨e, he.1, h3, h4, by simp only [wall_zero]; omega, by simp only [wall_zero]; omega⟩
  · intro h₁ e h₂ hsp hlt
    have := atSplits_sound (intro_ i hi) hsp
    simp only [wall_zero] at hlt
    rw [Bool.or_eq_true, decide_eq_true_eq] at this
    rcases this with h | h
    · omega
    · obtain ⟨t, h1, h2⟩ := heardFrom_sound (boot := 0) (g := net₀.hist i) h
      exact ⟨t, h1, by omega⟩
  · intro h₁ e h₂ hsp a b c d ha hb hc hd oa ob oc od l1 l2 l3 l4
    have ea := beats a ha (own_iff.2 oa)
    have eb := beats b hb (own_iff.2 ob)
    have ec := beats c hc (own_iff.2 oc)
    have ed := beats d hd (own_iff.2 od)
    simp only [List.mem_cons, List.not_mem_nil, or_false] at ea eb ec ed
    simp only [wall_zero] at l1 l2 l3 l4 ⊢
    have := atSplits_sound (touch i hi) hsp
    simp only [Bool.or_eq_true, Bool.and_eq_true, decide_eq_true_eq] at this
    rcases this with (h | ⟨h, h'⟩) | h'
    · omega
    · obtain ⟨t, h1, h2⟩ := heardFrom_sound (boot := 0) (g := net₀.hist i) h'
      exact ⟨t, h1, by omega⟩
    · obtain ⟨t, h1, h2⟩ := heardFrom_sound (boot := 0) (g := net₀.hist i) h'
      exact ⟨t, h1, by omega⟩
  · intro k hk bs hl hb hpw
    obtain ⟨a, b, rfl⟩ := two_of_length hl
    obtain ⟨a1, ⟨qa, a2⟩, a3⟩ := hb a (by simp)
    obtain ⟨b1, ⟨qb, b2⟩, b3⟩ := hb b (by simp)
    have ta := reps k (by omega) a a1 qa (by rw [a2.sent]; simp) a2.same.1
    have tb := reps k (by omega) b b1 qb (by rw [b2.sent]; simp) b2.same.1
    have hab := (List.pairwise_cons.1 hpw).1 b (by simp)
    simp only [wall_zero] at hab a3 b3
    simp only [List.mem_cons, List.not_mem_nil, or_false] at ta tb
    have htb : (Entry.time b).toNat = 12400 := by omega
    have := hears k (by omega) (by omega) i hi b b1 htb
    rw [List.all_eq_true] at this
    have := this qb (by rw [b2.sent]; simp)
    rw [List.any_eq_true] at this
    obtain ⟨e, he, h⟩ := this
    rw [Bool.and_eq_true, Bool.and_eq_true, Option.any_eq_true] at h
    obtain ⟨⟨h1, h2⟩, h3⟩ := h
    have h2 := of_decide_eq_true h2
    have h3 := of_decide_eq_true h3
    obtain ⟨p, hp, hc⟩ := h1
    exact ⟨b, by simp, qb, b2, e, he, p, hp, of_decide_eq_true hc, by simp only [wall_zero]; omega,
      by simp only [wall_zero]; omega⟩
  · intro e he p hp hpi
    obtain ⟨hn, hr⟩ := recent i hi
    have := hr e he
    rw [hp] at this
    simp only [Option.all_some, Bool.or_eq_true, beq_iff_eq, decide_eq_false_iff_not, List.any_eq_true,
      Bool.and_eq_true, decide_eq_true_eq] at this
    rcases this with h | ⟨b, hb, hw, q, hq, a, _, hs, hd⟩
    · exact absurd hpi h
    · exact ⟨1, hn, b, hb, q, hq, a.2, sends_ok hs, decodes_ok hd, by simp only [wall_zero]; omega⟩
  · intro e he p hp b hb q hq hqt hc
    have := prompt i hi e he
    rw [hp] at this
    simp only [Option.all_some, List.all_eq_true, Bool.or_eq_true, decide_eq_true_eq] at this
    rcases this b hb q hq with (h | h) | h
    · exact absurd hqt h
    · exact absurd hc h
    · simpa only [wall_zero] using h
  · have := still.1 i e he (by rwa [wall_zero] at hx)
    rw [ho] at this
    cases this

open HwDemo in
/-- The theorems apply to it. -/
example : (∀ i, i ≠ 1 → Carries ((freshNet scriptOn 36).node i).getSetEffect opening) ∧
    ∀ i, i ≠ 1 → ∃ late ≤ 60, ∀ x, freshTime scriptOn 36 ≤ x →
      ((freshNet scriptOn 36).node i).getNetworkMillis (BitVec.ofNat 32 x) + BitVec.ofNat 32 late =
        ((freshNet scriptOn 36).node 1).getNetworkMillis (BitVec.ofNat 32 x) := by
  obtain ⟨t, hnone, first, at_, h, past, steady, late, -, -⟩ := power_on_demo
  have known := fun i hi => (h i hi).1
  have touch := fun i hi => (h i hi).2.1
  refine ⟨fun i hi => ?_, fun i hi => ?_⟩
  · obtain ⟨-, -, h1, h2, -, -⟩ := h i hi
    exact first_master_followed t (by decide) hnone first at_ known touch (by decide) past hi h1
      (Nat.le_refl _) h2 (by decide +kernel) (Nat.le_refl _) steady late
  · obtain ⟨-, -, -, -, h1, h2⟩ := h i hi
    exact first_master_clocks t (by decide) hnone first at_ known touch (by decide) hi h1 h2

end Firefly.Props
