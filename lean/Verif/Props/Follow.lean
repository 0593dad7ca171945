import Verif.Lemmas.Follow

/-! # How soon everybody follows the master (C142) -/

namespace Firefly.Props
open Spec

section

variable {n : Nat} {nbrs : Fin n → List (Fin n)} {on : Fin n → Nat} {boot : Fin n → U32}
  {net₀ : HwNet n} {net : Nat → HwNet n} {T : Nat → Nat} {N : Nat}

/-- C142.  As in C139, let the only master `m` find time for its own business once in `D` ms, and let
every other device hear at least one of any four of its heartbeats.  From the time `x` on nobody gives
an instruction and `m` follows `c`.  A device that hears at least one of any `K` repetitions, and
hears no instruction more than `L'` ms after it was sent, follows `c` from
`x + 2 L' + K (2003 + 3 D)` on. -/
theorem everybody_follows {m : Fin n} {D L L' K : Nat} (t : Timeline nbrs on boot net₀ net T N)
    (j : JustHeard m on boot net₀ (T 0)) (hself : m ∉ nbrs m) (at_ : Attentive m on net₀ net T N D)
    (one : ∀ i, i ≠ m → OneOfFour m i on net₀ net T N L) (hDL : 4 * (1001 + D) + L ≤ 5000)
    {i : Fin n} (hi : i ≠ m) (hears : OneOf K m i on net₀ net T N L')
    {k : Nat} (hk : k ≤ N) (recent : Recent nbrs i on net₀ (net k) L') {x : Nat} {c : Packet}
    (hx : T 0 ≤ x) (steady : Steady m on net₀ (net k) x c)
    (late : x + 2 * L' + K * (2003 + 3 * D) < T k) :
    Carries ((net k).node i).getSetEffect c := by
  have st := settled t.reach hself j.sole (Timeline.steps t hk) (Timeline.keeps t j hself at_ one hDL hk)
  -- it hears one of the repetitions
  obtain ⟨bs, hl, hpw, hb⟩ := Timeline.repeats t j.past at_ (by omega) hk st K (y := x + L') (by omega)
    (by omega)
  obtain ⟨b, hbm, q, hq, e, he, p, hp, hc, hbe, -⟩ := hears k hk bs hl
    (fun b hbm => ⟨(hb b hbm).1, (hb b hbm).2.1, by have := (hb b hbm).2.2.2; omega⟩) hpw
  have hbw := (hb b hbm).2.2.1
  have inv := hwInv_reach (Timeline.reach_at t hk)
  have hins : ∀ a ∈ since net₀ (net k) i, ∀ p, Entry.heard a = some p → IsInstruction p →
      x + L' < wall on i a → Carries p c := by
    intro a ha p hp hpi hw
    obtain ⟨j', hj, b', hb', q', hq', f, hf, hd, hw'⟩ := recent a ha p hp hpi
    obtain ⟨h1, h2⟩ := settled_sender (Timeline.reach_at t hk) st hb' hq' hf hd hpi
    rcases h2 with rfl | ⟨now, r, ho⟩
    · obtain ⟨c1, c2, c3⟩ := steady.follows b' hb' (by omega)
      exact ⟨h1.1.trans c1, fun z hz hl => by rw [h1.2 z hz (by rw [c2]; exact hl), c3]⟩
    · exact absurd ho (steady.untouched j' b' hb' (by omega) now r)
  have hpi : IsInstruction p := by
    have hbin : b ∈ (net k).hist m := by
      rw [st.hist m]; exact List.mem_append_left _ (hb b hbm).1
    obtain ⟨t₁, rand₁, ju₁, ju₁', y⟩ := inv.exec m
    obtain ⟨g, y', wf', hst', hsub⟩ := exec_entry y .init hbin
    have hbi : IsInstruction b.pre.setEffectPacket :=
      Run.instruction (plat := .arduino) (t₀ := t₁) ⟨rand₁, ju₁, ju₁', y'⟩
        fun a ha => inv.proper m a (hsub a ha)
    have := hq.same.1
    unfold IsInstruction at hbi ⊢
    rw [hc.1, this]
    exact hbi
  -- the last one it hears
  have last : ∃ h₁ e' h₂, since net₀ (net k) i = h₁ ++ e' :: h₂ ∧
      (∃ p, Entry.heard e' = some p ∧ IsInstruction p) ∧ (∀ a ∈ h₁, ∀ p, Entry.heard a = some p →
        ¬ IsInstruction p) ∧ (e ∈ e' :: h₂) := by
    generalize since net₀ (net k) i = l at he
    induction l with
    | nil => cases he
    | cons a l ih =>
      by_cases ha : ∃ p, Entry.heard a = some p ∧ IsInstruction p
      · exact ⟨[], a, l, rfl, ha, by simp, he⟩
      · rcases List.mem_cons.1 he with rfl | he
        · exact absurd ⟨p, hp, hpi⟩ ha
        · obtain ⟨h₁, e', h₂, rfl, h1, h2, h3⟩ := ih he
          refine ⟨a :: h₁, e', h₂, rfl, h1, ?_, h3⟩
          intro b hb p' hp' hpi'
          rcases List.mem_cons.1 hb with rfl | hb
          · exact ha ⟨p', hp', hpi'⟩
          · exact h2 b hb p' hp' hpi'
  obtain ⟨h₁, e', h₂, hsp, ⟨p', hp', hpi'⟩, hlast, hee⟩ := last
  have hin : e' ∈ since net₀ (net k) i := by rw [hsp]; simp
  have hh := st.hist i
  rw [hsp, List.append_assoc, List.cons_append] at hh
  have cl := Timeline.clocks t hk i
  rw [hh] at cl
  obtain ⟨o1, o2, -⟩ := clock_ordered cl
  have hwe : wall on i e ≤ wall on i e' := by
    rcases List.mem_cons.1 hee with rfl | h
    · exact Nat.le_refl _
    · have := o2 e (by simp [h]); unfold wall; omega
  have hcar := hins e' hin p' hp' hpi' (by omega)
  obtain ⟨t₂, rand₂, ju₂, ju₂', y⟩ := inv.exec i
  simp only at y
  rw [hh] at y
  obtain ⟨y1, y2, y3⟩ := exec_split y
  have wf := y1.wf .init
  have hslave := fun a ha => (st.roles i a ha).1
  simp only [roleIn, if_neg hi] at hslave
  have hunt : ∀ a ∈ h₁, Untold a := by
    intro a ha
    refine ⟨steady.untouched i a (by rw [hsp]; simp [ha]) ?_, hlast a ha⟩
    have := o1 a ha
    unfold wall at *; omega
  have hkeep : ((net k).node i).getSetEffect = p' := by
    rw [Node.getSetEffect, slave_untold (Node.step_wf wf y2) y3
      (fun a ha => hslave a (by rw [hsp]; exact List.mem_append_left _ ha)) hunt]
    exact slave_takes wf y2 (hslave e' hin) hp' hpi'
  rw [hkeep]; exact hcar

end

namespace HwDemo

/-- The button of device 2 is pressed at 8100, which nobody hears.  Both others miss the repetition at
10200 and hear the one at 12400. -/
def script₂ : Script := fun k =>
  if k = 0 then (2, 8100, 1)
  else if k < 23 then (1, BitVec.ofNat 32 (8000 + 200 * k), 0)
  else if k = 23 then (0, 12450, 6)
  else if k = 24 then (2, 12460, 6)
  else if k < 27 then (1, BitVec.ofNat 32 (7600 + 200 * k), 0)
  else if k = 27 then (0, 12850, 7)
  else if k = 28 then (2, 12860, 7)
  else if k < 33 then (1, BitVec.ofNat 32 (7200 + 200 * k), 0)
  else (2, 13650, 0)

/-- What the master follows all the time. -/
def original : Packet := (c₀.node 1).setEffectPacket

/-- Executable form of `sendPacket q = .ok f`. -/
def sends (q : Packet) (f : List U8) : Bool :=
  match Hw.sendPacket q with
  | .ok g => g == f
  | .error _ => false

theorem sends_ok {q : Packet} {f} (h : sends q f = true) : Hw.sendPacket q = .ok f := by
  unfold sends at h
  split at h
  · rename_i g hg; rw [hg, beq_iff_eq.1 h]
  · cases h

/-- Executable form of `Decodes`. -/
def decodes (f : List U8) (p : Packet) : Prop :=
  4 ≤ f.length ∧ p.id.toNat = (f[0]?.getD 0).toNat * 256 + (f[1]?.getD 0).toNat ∧
    f[2]? = some (Hw.byteOfType p.type) ∧
    (∀ i : Fin 58, i.val + 3 < f.length → f[i.val + 3]? = some p.data[i]) ∧ p.len = 0

instance (f : List U8) (p : Packet) : Decidable (decodes f p) := by unfold decodes; infer_instance

theorem decodes_ok {f : List U8} {p : Packet} (h : decodes f p) : Decodes f p := by
  obtain ⟨h1, h2, h3, h4, h5⟩ := h
  refine ⟨h1, ⟨f[0], f[1], List.getElem?_eq_getElem _, List.getElem?_eq_getElem _, ?_⟩, h3,
    fun i hi => h4 ⟨i, hi⟩, h5⟩
  rw [h2, List.getElem?_eq_getElem (by omega), List.getElem?_eq_getElem (by omega)]
  rfl

theorem two_of_length {α} : ∀ {l : List α}, l.length = 2 → ∃ a b, l = [a, b]
  | [a, b], _ => ⟨a, b, rfl⟩

instance (p q : Packet) : Decidable (Carries p q) :=
  decidable_of_iff (p.type = q.type ∧ ∀ k : Fin 58, k.val < q.len.toNat → p.data[k] = q.data[k])
    ⟨fun h => ⟨h.1, fun k hk => h.2 ⟨k, hk⟩⟩, fun h => ⟨h.1, fun k => h.2 k.val k.isLt⟩⟩
instance (p q : Packet) : Decidable (SameContent p q) := by unfold SameContent; infer_instance

end HwDemo

open HwDemo in
/-- A concrete case of C142 with `K = 2`: device 2 has been told otherwise at 8100, follows the master
again from 12460 on, and the bound is 13427. -/
theorem follow_demo :
    Timeline nbrs (fun _ => 0) (fun _ => 0) c₀ (alongNet script₂) (alongTime script₂) 34 ∧
    JustHeard 1 (fun _ => 0) (fun _ => 0) c₀ (alongTime script₂ 0) ∧
    Attentive 1 (fun _ => 0) c₀ (alongNet script₂) (alongTime script₂) 34 200 ∧
    (∀ i, i ≠ 1 → OneOfFour 1 i (fun _ => 0) c₀ (alongNet script₂) (alongTime script₂) 34 150 ∧
      OneOf 2 1 i (fun _ => 0) c₀ (alongNet script₂) (alongTime script₂) 34 60 ∧
      Recent nbrs i (fun _ => 0) c₀ (alongNet script₂ 34) 60) ∧
    Steady 1 (fun _ => 0) c₀ (alongNet script₂ 34) 8101 original ∧
    alongTime script₂ 0 ≤ 8101 ∧ 8101 + 2 * 60 + 2 * (2003 + 3 * 200) < alongTime script₂ 34 ∧
    ¬ Carries ((alongNet script₂ 24).node 2).getSetEffect original ∧
    Carries ((alongNet script₂ 34).node 2).getSetEffect original := by
  have beats : ∀ k < 35, ∀ e ∈ since c₀ (alongNet script₂ k) 1, own e = true →
      (Entry.time e).toNat ∈ [9200, 10400, 11600, 12800] := by decide +kernel
  have heard : ∀ k < 35, 12950 < alongTime script₂ k → ∀ i : Fin 3, i ≠ 1 →
      ∃ e ∈ since c₀ (alongNet script₂ k) i, Entry.HeardMaster e ∧ 9200 ≤ (Entry.time e).toNat ∧
        (Entry.time e).toNat ≤ 12950 := by decide +kernel
  have reps : ∀ k < 35, ∀ b ∈ since c₀ (alongNet script₂ k) 1, ∀ q ∈ Entry.transmitted b,
      q.type = b.pre.setEffectPacket.type → (Entry.time b).toNat ∈ [10200, 12400] := by decide +kernel
  have hears : ∀ k < 35, 12460 < alongTime script₂ k → ∀ i : Fin 3, i ≠ 1 →
      ∀ b ∈ since c₀ (alongNet script₂ k) 1, (Entry.time b).toNat = 12400 →
      ((Entry.transmitted b).all fun q => (since c₀ (alongNet script₂ k) i).any fun e =>
        ((Entry.heard e).any fun p => decide (Carries p q)) &&
        decide (12400 ≤ (Entry.time e).toNat) && decide ((Entry.time e).toNat ≤ 12460)) = true := by
    decide +kernel
  have t : Timeline nbrs (fun _ => 0) (fun _ => 0) c₀ (alongNet script₂) (alongTime script₂) 34 :=
    along_timeline (by decide +kernel) (by decide +kernel) (by decide +kernel)
  have one : ∀ i, i ≠ 1 →
      OneOfFour 1 i (fun _ => 0) c₀ (alongNet script₂) (alongTime script₂) 34 150 := by
    intro i hi k hk a b c d ha hb hc hd oa ob oc od h1 h2 h3 h4
    have ea := beats k (by omega) a ha (own_iff.2 oa)
    have eb := beats k (by omega) b hb (own_iff.2 ob)
    have ec := beats k (by omega) c hc (own_iff.2 oc)
    have ed := beats k (by omega) d hd (own_iff.2 od)
    simp only [List.mem_cons, List.not_mem_nil, or_false] at ea eb ec ed
    simp only [wall_zero] at h1 h2 h3 h4 ⊢
    obtain ⟨e, he, e1, e2, e3⟩ := heard k (by omega) (by omega) i hi
    exact ⟨e, he, e1, by omega, by omega⟩
  have at_ : Attentive 1 (fun _ => 0) c₀ (alongNet script₂) (alongTime script₂) 34 200 :=
    attentive_of (by decide +kernel)
  have recent : ∀ i : Fin 3, i ≠ 1 → i ∈ nbrs 1 ∧ ∀ e ∈ since c₀ (alongNet script₂ 34) i,
      ((Entry.heard e).all fun p => decide (IsInstruction p) == false ||
        (since c₀ (alongNet script₂ 34) 1).any fun b => decide ((Entry.time e).toNat ≤
          (Entry.time b).toNat + 60) && (Entry.transmitted b).any fun q =>
            (alongNet script₂ 34).air.any fun a => sends q a.2 && decide (decodes a.2 p)) = true := by
    decide +kernel
  have still : (∀ i, ∀ e ∈ since c₀ (alongNet script₂ 34) i, 8101 ≤ (Entry.time e).toNat →
      (match e.op with | .setEffect _ _ => false | _ => true) = true) ∧
      ∀ e ∈ since c₀ (alongNet script₂ 34) 1, 8101 ≤ (Entry.time e).toNat →
        SameContent e.post.getSetEffect original := by decide +kernel
  refine ⟨t, c₀_just, at_, fun i hi => ⟨one i hi, ?_, ?_⟩, ⟨fun i e he hx now p ho => ?_,
    fun e he hx => still.2 e he (by rwa [wall_zero] at hx)⟩, by decide +kernel, by decide +kernel,
    by decide +kernel, by decide +kernel⟩
  · intro k hk bs hl hb hpw
    obtain ⟨a, b, rfl⟩ := two_of_length hl
    obtain ⟨a1, ⟨qa, a2⟩, a3⟩ := hb a (by simp)
    obtain ⟨b1, ⟨qb, b2⟩, b3⟩ := hb b (by simp)
    have ta := reps k (by omega) a a1 qa (by rw [a2.sent]; simp) a2.same.1
    have tb := reps k (by omega) b b1 qb (by rw [b2.sent]; simp) b2.same.1
    have hab := (List.pairwise_cons.1 hpw).1 b (by simp)
    simp only [wall_zero] at hab a3 b3
    simp only [List.mem_cons, List.not_mem_nil, or_false] at ta tb
    have htb : (Entry.time b).toNat = 12400 := by omega
    have := hears k (by omega) (by omega) i hi b b1 htb
    rw [List.all_eq_true] at this
    have := this qb (by rw [b2.sent]; simp)
    rw [List.any_eq_true] at this
    obtain ⟨e, he, h⟩ := this
    rw [Bool.and_eq_true, Bool.and_eq_true, Option.any_eq_true] at h
    obtain ⟨⟨h1, h2⟩, h3⟩ := h
    have h2 := of_decide_eq_true h2
    have h3 := of_decide_eq_true h3
    obtain ⟨p, hp, hc⟩ := h1
    exact ⟨b, by simp, qb, b2, e, he, p, hp, of_decide_eq_true hc, by simp only [wall_zero]; omega,
      by simp only [wall_zero]; omega⟩
  · intro e he p hp hpi
    obtain ⟨hn, hr⟩ := recent i hi
    have := hr e he
    rw [hp] at this
    simp only [Option.all_some, Bool.or_eq_true, beq_iff_eq, decide_eq_false_iff_not, List.any_eq_true,
      Bool.and_eq_true, decide_eq_true_eq] at this
    rcases this with h | ⟨b, hb, hw, q, hq, a, _, hs, hd⟩
    · exact absurd hpi h
    · exact ⟨1, hn, b, hb, q, hq, a.2, sends_ok hs, decodes_ok hd, by simp only [wall_zero]; omega⟩
  · have := still.1 i e he (by rwa [wall_zero] at hx)
    rw [ho] at this
    cases this

end Firefly.Props
