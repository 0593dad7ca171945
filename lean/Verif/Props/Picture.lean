import Verif.Props.Follow
import Verif.Props.Timeline
import Verif.Props.Show

/-! # How soon everybody shows the master's picture (C145) -/

namespace Firefly.Props
open Spec

section

variable {n : Nat} {nbrs : Fin n → List (Fin n)} {on : Fin n → Nat} {boot : Fin n → U32}
  {net₀ : HwNet n} {net : Nat → HwNet n} {T : Nat → Nat} {N : Nat}

/-- After five seconds everybody has heard a heartbeat. -/
theorem heard_by_now {m : Fin n} {D L : Nat} (t : Timeline nbrs on boot net₀ net T N)
    (j : JustHeard m on boot net₀ (T 0)) (hself : m ∉ nbrs m) (at_ : Attentive m on net₀ net T N D)
    (one : ∀ i, i ≠ m → OneOfFour m i on net₀ net T N L) (hDL : 4 * (1001 + D) + L ≤ 5000)
    (hT : T 0 + 5000 < T N) {i : Fin n} (hi : i ≠ m) :
    ∃ e ∈ since net₀ (net N) i, Entry.HeardMaster e := by
  obtain ⟨k, rfl⟩ : ∃ k, N = k + 1 := ⟨N - 1, by
    have : N ≠ 0 := by rintro rfl; omega
    omega⟩
  have st := settled t.reach hself j.sole (Timeline.steps t (k := k) (by omega))
    (Timeline.keeps t j hself at_ one hDL (by omega))
  obtain ⟨b, hb, hbo, hb0, hb', hbi⟩ := j.beat
  have hbp := j.past b hb
  obtain ⟨wa, wb, wc, wd, ⟨a, ha, hao, rfl⟩, ⟨b', hb1, hb2, rfl⟩, ⟨c, hc, hco, rfl⟩,
    ⟨d, hd, hdo, rfl⟩, l1, l2, l3, l4, l5⟩ :=
    four_beats (L := L) (h0 := wall on m b) (T' := T (k + 1)) (G := 1001 + D)
      (Beat := fun w => ∃ e ∈ since net₀ (net k) m, Entry.OwnHeartbeat e ∧ wall on m e = w)
      (fun w hw hlt => Timeline.next_beat t j at_ (by omega) st hb hb0 hb' hw hlt) (by omega)
  obtain ⟨d', op, h1, _, h3⟩ := step_hist (t.step k (by omega))
  have up : ∀ x, x ∈ since net₀ (net k) m → x ∈ since net₀ (net (k + 1)) m := by
    intro x hx
    by_cases hmi : m = d'
    · subst hmi
      rw [since_cons (Timeline.hist t (by omega) m) h1]
      exact List.mem_cons_of_mem _ hx
    · rw [since_same (h3 m hmi).1]; exact hx
  obtain ⟨e, he, he1, -, -⟩ := one i hi (k + 1) (Nat.le_refl _) a b' c d (up _ ha) (up _ hb1) (up _ hc)
    (up _ hd) hao hb2 hco hdo l1 l2 l3 l4
  exact ⟨e, he, he1⟩

/-- C145.  In a network as in C139, C140 and C142, let device `i` be an LED board whose last iteration
ended after the bound of C142.  Each LED then shows what the master's instruction `c` prescribes for
the network time the master had `late` ms before the LED was computed (at the time `y`), where `late`
is the same for all LEDs and at most `L'`. -/
theorem everybody_shows {m : Fin n} {D L L' K : Nat} (t : Timeline nbrs on boot net₀ net T N)
    (j : JustHeard m on boot net₀ (T 0)) (hself : m ∉ nbrs m) (at_ : Attentive m on net₀ net T N D)
    (one : ∀ i, i ≠ m → OneOfFour m i on net₀ net T N L) (hDL : 4 * (1001 + D) + L ≤ 5000)
    {i : Fin n} (hi : i ≠ m) (prompt : Prompt m i on net₀ (net N) L')
    (hears : OneOf K m i on net₀ net T N L') (recent : Recent nbrs i on net₀ (net N) L')
    {x : Nat} {c : Packet} (hx : T 0 ≤ x) (steady : Steady m on net₀ (net N) x c) (hc : Complete c)
    (late₁ : T 0 + 5000 < T N) (late₂ : x + 2 * L' + K * (2003 + 3 * D) < T N)
    {env t₀ rand h s inp s' seeds}
    (hboard : Board.Run env (Board.init env t₀ rand) ((s, inp, s') :: h) s')
    (hnode : (net N).node i = s'.node) (hawake : BoardAwake env s inp)
    (hship : shippedRegistry .arduino seeds = .ok env.registry) (h255 : totalLeds env.device ≤ 255) :
    ∃ late ≤ L', ∀ k (hk : k < (ledsInOrder env.device).length) (y : Nat), T N ≤ y →
      inp.clock k = BitVec.ofNat 32 (y - on i) →
      ∃ col, s'.leds[k + 1]? = some col ∧
        ∀ now, Shows ⟨env.F, .arduino, env.registry, c, now⟩ (ledsInOrder env.device)[k].1
          (ledsInOrder env.device)[k].2
          (((net N).node m).getNetworkMillis (BitVec.ofNat 32 (y - on m)) - BitVec.ofNat 32 late)
          col := by
  have hcar := everybody_follows t j hself at_ one hDL hi hears (Nat.le_refl N) recent hx steady late₂
  obtain ⟨late, hl, hclock⟩ := clocks_agree_within t j hself at_ one hDL hi prompt
    (heard_by_now t j hself at_ one hDL late₁ hi)
  refine ⟨late, hl, fun k hk y hy hyk => ?_⟩
  cases hboard with
  | cons _ run' hloop =>
    obtain ⟨col, hcol, hshow⟩ := board_shows_instruction run' hawake h255 hloop k hk
    refine ⟨col, hcol, fun now => ?_⟩
    rw [hnode] at hcar
    have h1 := (shows_carries hship hcar hc _ now _ _ _ _).1 hshow
    have h2 := hclock y hy
    rw [← hyk, hnode] at h2
    rw [← h2, BitVec.add_sub_cancel]
    exact h1

end

end Firefly.Props
