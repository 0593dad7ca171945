import Verif.Lemmas.History

/-! # Masters and elections (C21–C23) -/

namespace Firefly.Props
open Spec

/-- C21.  In a radio tick a master becomes slave if and only if it hears a claim, or hears a
heartbeat and its random number is not larger than the heartbeat's id. -/
theorem demoted_iff {plat t₀ h s} (r : Run plat t₀ h s) (hs : s.getCurrentState = .master)
    {now rx s'} (ht : s.radioTick plat now rx = .ok s') :
    s'.getCurrentState = .slave ↔
      ∃ p, Hears s rx p ∧
        (p.type = .claimMaster ∨
          (p.type = .heartbeat ∧
            ∃ n r', randomRange plat 1 0xFFFF s.rand = .ok (n, r') ∧ n ≤ p.id)) := by
  have wf := r.wf
  simp only [Node.getCurrentState] at hs ⊢
  have key : ∀ {p}, s.delivered rx = some p → ∀ q, Hears s rx q → q = p := by
    intro p hd q hq
    have := hq.delivered wf
    rw [hd] at this; cases this; rfl
  have keyN : s.delivered rx = none → ∀ q, ¬ Hears s rx q := by
    intro hd q hq
    have := hq.delivered wf
    rw [hd] at this; cases this
  have he := randomRange_election plat s.rand
  cases Node.radioTick_cases wf ht
  case electionLost p hd _ hp hlt =>
    refine iff_of_true rfl ⟨p, hears_of_delivered wf hd, Or.inr ⟨hp, _, _, he, ?_⟩⟩
    exact BitVec.not_lt.1 hlt
  case masterClaim p hd _ hp =>
    exact iff_of_true rfl ⟨p, hears_of_delivered wf hd, Or.inl hp⟩
  case electionWon p hd _ hp hlt =>
    refine iff_of_false (by simp [hs]) ?_
    rintro ⟨q, hq, hq'⟩
    rw [key hd q hq, he] at hq'
    rcases hq' with hq' | ⟨_, n, r', hn, hle⟩
    · rw [hp] at hq'; cases hq'
    · cases hn
      exact absurd hlt (BitVec.not_lt.2 hle)
  all_goals first
    | (rename_i hd hs' _; rw [hs] at hs'; cases hs'; done)
    | (rename_i hd hs' _ _; rw [hs] at hs'; cases hs'; done)
    | skip
  case masterQuiet hd _ _ => exact iff_of_false (by simp [hs]) (fun ⟨q, hq, _⟩ => keyN hd q hq)
  case beat hd _ _ => exact iff_of_false (by simp [hs]) (fun ⟨q, hq, _⟩ => keyN hd q hq)
  case change hd _ _ _ _ _ _ _ _ =>
    exact iff_of_false (by simp [hs]) (fun ⟨q, hq, _⟩ => keyN hd q hq)
  case «repeat» hd _ _ => exact iff_of_false (by simp [hs]) (fun ⟨q, hq, _⟩ => keyN hd q hq)
  case other p n hn hd hp =>
    refine iff_of_false (by simp [hs]) ?_
    rintro ⟨q, hq, hq'⟩
    rw [key hd q hq] at hq'
    simp [hp] at hq'
  case masterEffect p hd _ hp _ =>
    refine iff_of_false (by simp [hs]) ?_
    rintro ⟨q, hq, hq'⟩
    rw [key hd q hq] at hq'
    simp [hp] at hq'
  case masterControl p hd _ hp _ =>
    refine iff_of_false (by simp [hs]) ?_
    rintro ⟨q, hq, hq'⟩
    rw [key hd q hq] at hq'
    simp [hp] at hq'
  all_goals simp_all

/-- C21.  Nothing but a radio tick changes the role. -/
theorem role_changes_in_ticks_only {plat t₀ h s} (r : Run plat t₀ h s) {op : Op} {s'}
    (ht : op.step plat s = .ok s') (hne : s'.getCurrentState ≠ s.getCurrentState) :
    ∃ now rx, op = .radioTick now rx := by
  cases op with
  | radioTick now rx => exact ⟨now, rx, rfl⟩
  | setEffect now p =>
    simp only [Op.step] at ht
    rw [Node.setEffect_eq r.wf.idx] at ht
    split at ht
    · cases ht
    · cases ht; exact absurd rfl hne
  | setNumPalettes now n => cases ht; exact absurd rfl hne
  | setNumEffects now n => cases ht; exact absurd rfl hne
  | endTick now => cases ht; exact absurd rfl hne

/-- The claims among the packets a device transmitted in a step. -/
def claimsOf (e : Entry) : List Packet :=
  (Entry.transmitted e).filter (·.type = .claimMaster)

/-- The packets a device heard during an execution (newest first). -/
def heardIn (h : List Entry) : List Packet := h.filterMap Entry.heard

/-- A step in which nothing is heard keeps the role unless it is a take-over; hearing a claim
makes (or keeps) the device a slave. -/
theorem step_role {plat} {op : Op} {s s' : Node} (wf : s.WF) (ht : op.step plat s = .ok s') :
    (Entry.heard ⟨s, op, s'⟩ = none → s'.state = s.state ∨ Entry.Promoted ⟨s, op, s'⟩) ∧
    (∀ p, Entry.heard ⟨s, op, s'⟩ = some p → p.type = .claimMaster → s'.state = .slave) := by
  cases op with
  | radioTick now rx =>
    have hh := fun x => heard_tick (s' := x) (now := now) (rx := rx) wf
    simp only [hh]
    cases Node.radioTick_cases wf ht <;>
      simp_all [Entry.Promoted, Node.getCurrentState]
  | setEffect now p =>
    simp only [Op.step] at ht
    rw [Node.setEffect_eq wf.idx] at ht
    split at ht
    · cases ht
    · cases ht; simp [Entry.heard, Node.afterSetEffect]
  | setNumPalettes now n => cases ht; simp [Entry.heard, Node.setNumPalettes]
  | setNumEffects now n => cases ht; simp [Entry.heard, Node.setNumEffects]
  | endTick now => cases ht; simp [Entry.heard]

theorem role_after_claims {plat a h a'} (wf : a.WF) (x : Exec plat a h a')
    (hn : ∀ e ∈ h, ¬ Entry.Promoted e) (hc : ∀ p ∈ heardIn h, p.type = .claimMaster) :
    (heardIn h = [] → a'.state = a.state) ∧ (heardIn h ≠ [] → a'.state = .slave) := by
  induction x with
  | nil => simp [heardIn]
  | @cons h s op s' hx hst ih =>
    obtain ⟨h1, h2⟩ := step_role (hx.wf wf) hst
    have hn' := hn ⟨s, op, s'⟩ List.mem_cons_self
    have ih' := ih (fun e he => hn e (List.mem_cons_of_mem _ he)) (fun p hp => hc p (by
      simp only [heardIn, List.filterMap_cons] at hp ⊢
      split
      · exact hp
      · exact List.mem_cons_of_mem _ hp))
    cases hh : Entry.heard ⟨s, op, s'⟩ with
    | none =>
      have : s'.state = s.state := (h1 hh).resolve_right hn'
      simp only [heardIn, List.filterMap_cons, hh] at ih' ⊢
      rw [this]
      exact ih'
    | some p =>
      have : s'.state = .slave := h2 p hh (hc p (by simp [heardIn, hh]))
      simp [heardIn, hh, this]

/-- What a master does with another master's heartbeat: it transmits the relay and, if it
stays master, exactly one claim; otherwise no claim. -/
theorem heartbeat_answer {plat t₀ h b} (r : Run plat t₀ h b) (hs : b.getCurrentState = .master)
    {now rx p b'} (hp : Hears b rx p) (hpt : p.type = .heartbeat)
    (ht : b.radioTick plat now rx = .ok b') :
    (b'.getCurrentState = .slave ∧ claimsOf ⟨b, .radioTick now rx, b'⟩ = []) ∨
    (b'.getCurrentState = .master ∧ ∃ q, claimsOf ⟨b, .radioTick now rx, b'⟩ = [q]) := by
  have hd := hp.delivered r.wf
  simp only [Node.getCurrentState] at hs ⊢
  cases Node.radioTick_cases r.wf ht <;>
    simp_all [claimsOf, Entry.transmitted]

/-- C22.  Master `b` hears a heartbeat of master `a`; afterwards `a` executes any schedule in
which the packets it hears are exactly the claims `b` answered with (and it does not start a
new reign meanwhile).  Then exactly one of them is master, whatever the random numbers. -/
theorem two_masters_resolve {plat ta ha a tb hb b} (ra : Run plat ta ha a)
    (rb : Run plat tb hb b) (hma : a.getCurrentState = .master)
    (hmb : b.getCurrentState = .master) {now rx p b'} (hp : Hears b rx p)
    (hpt : p.type = .heartbeat) (ht : b.radioTick plat now rx = .ok b')
    {h a'} (x : Exec plat a h a') (hn : ∀ e ∈ h, ¬ Entry.Promoted e)
    (hheard : heardIn h = claimsOf ⟨b, .radioTick now rx, b'⟩) :
    (a'.getCurrentState = .master ∧ b'.getCurrentState = .slave) ∨
    (a'.getCurrentState = .slave ∧ b'.getCurrentState = .master) := by
  have hc : ∀ q ∈ heardIn h, q.type = .claimMaster := by
    intro q hq
    rw [hheard] at hq
    simpa using (List.mem_filter.1 hq).2
  obtain ⟨h1, h2⟩ := role_after_claims ra.wf x hn hc
  simp only [Node.getCurrentState] at hma ⊢
  rcases heartbeat_answer rb hmb hp hpt ht with ⟨h3, h4⟩ | ⟨h3, q, h4⟩
  · left; rw [hheard, h4] at h1; exact ⟨by rw [h1 rfl, hma], h3⟩
  · right; rw [hheard, h4] at h2; exact ⟨h2 (by simp), h3⟩

/-- C23.  Any number of masters (indexed by `ι`); node `i₀`'s heartbeat `p` is heard by all the
others in a radio tick (`b j` before, `b' j` after); then every node executes any schedule
in which the packets it hears are exactly the claims of the other nodes (in any order and
multiplicity) and in which it does not start a new reign.  A node is master at the end if and
only if it is the sender and nobody claimed, or it is the only one that claimed. -/
theorem many_masters_resolve {ι : Type} [DecidableEq ι] {plat} (i₀ : ι) (p : Packet)
    (hpt : p.type = .heartbeat)
    (t : ι → U32) (hist : ι → List Entry) (b b' f : ι → Node) (now : ι → U32)
    (rx : ι → Option Packet) (h : ι → List Entry)
    (rb : ∀ j, Run plat (t j) (hist j) (b j)) (hm : ∀ j, (b j).getCurrentState = .master)
    (hsender : b' i₀ = b i₀)
    (hhear : ∀ j, j ≠ i₀ → Hears (b j) (rx j) p ∧ (b j).radioTick plat (now j) (rx j) = .ok (b' j))
    (x : ∀ j, Exec plat (b' j) (h j) (f j)) (hn : ∀ j, ∀ e ∈ h j, ¬ Entry.Promoted e)
    (hheard : ∀ j q, q ∈ heardIn (h j) ↔
      ∃ k, k ≠ j ∧ k ≠ i₀ ∧ q ∈ claimsOf ⟨b k, .radioTick (now k) (rx k), b' k⟩) :
    let claimed (k : ι) : Prop := k ≠ i₀ ∧ claimsOf ⟨b k, .radioTick (now k) (rx k), b' k⟩ ≠ []
    ∀ j, (f j).getCurrentState = .master ↔
      ((j = i₀ ∧ ∀ k, ¬ claimed k) ∨ (claimed j ∧ ∀ k, claimed k → k = j)) := by
  intro claimed j
  have wf' : (b' j).WF := by
    by_cases hj : j = i₀
    · rw [hj, hsender]; exact (rb i₀).wf
    · exact Node.step_wf (op := .radioTick (now j) (rx j)) (rb j).wf (hhear j hj).2
  have hc : ∀ q ∈ heardIn (h j), q.type = .claimMaster := by
    intro q hq
    obtain ⟨k, _, _, hk⟩ := (hheard j q).1 hq
    simpa using (List.mem_filter.1 hk).2
  obtain ⟨h1, h2⟩ := role_after_claims wf' (x j) (hn j) hc
  have hne : heardIn (h j) ≠ [] ↔ ∃ k, k ≠ j ∧ claimed k := by
    constructor
    · intro hne
      obtain ⟨q, hq⟩ := List.exists_mem_of_ne_nil _ hne
      obtain ⟨k, hk1, hk2, hk3⟩ := (hheard j q).1 hq
      exact ⟨k, hk1, hk2, List.ne_nil_of_mem hk3⟩
    · rintro ⟨k, hk1, hk2, hk3⟩
      obtain ⟨q, hq⟩ := List.exists_mem_of_ne_nil _ hk3
      exact List.ne_nil_of_mem ((hheard j q).2 ⟨k, hk1, hk2, hq⟩)
  have hmine : (b' j).state = .master ↔ j = i₀ ∨ claimed j := by
    by_cases hj : j = i₀
    · simp only [hj, true_or, iff_true]
      rw [hsender]; exact hm i₀
    · have := heartbeat_answer (rb j) (hm j) (hhear j hj).1 hpt (hhear j hj).2
      simp only [Node.getCurrentState] at this
      constructor
      · intro hmj
        rcases this with ⟨h3, _⟩ | ⟨_, q, h4⟩
        · rw [hmj] at h3; cases h3
        · exact Or.inr ⟨hj, by rw [h4]; simp⟩
      · rintro (h5 | ⟨_, h5⟩)
        · exact absurd h5 hj
        · rcases this with ⟨_, h4⟩ | ⟨h3, _⟩
          · exact absurd h4 h5
          · exact h3
  simp only [Node.getCurrentState]
  by_cases hany : ∃ k, k ≠ j ∧ claimed k
  · have hs := h2 (hne.2 hany)
    rw [hs]
    simp only [reduceCtorEq, false_iff]
    obtain ⟨k, hk1, hk2⟩ := hany
    rintro (⟨_, h6⟩ | ⟨_, h6⟩)
    · exact h6 k hk2
    · exact hk1 (h6 k hk2)
  · have hs := h1 (Decidable.not_not.1 (fun h => hany (hne.1 h)))
    rw [hs, hmine]
    constructor
    · rintro (h6 | h6)
      · left
        refine ⟨h6, fun k hk => ?_⟩
        by_cases hkj : k = j
        · subst hkj; exact hk.1 h6
        · exact hany ⟨k, hkj, hk⟩
      · right
        exact ⟨h6, fun k hk => Decidable.byContradiction fun hkj => hany ⟨k, hkj, hk⟩⟩
    · rintro (⟨h6, _⟩ | ⟨h6, _⟩)
      · exact Or.inl h6
      · exact Or.inr h6

/-- C23, consequence: at most one master is left. -/
theorem at_most_one_master {ι : Type} [DecidableEq ι] {plat} (i₀ : ι) (p : Packet)
    (hpt : p.type = .heartbeat)
    (t : ι → U32) (hist : ι → List Entry) (b b' f : ι → Node) (now : ι → U32)
    (rx : ι → Option Packet) (h : ι → List Entry)
    (rb : ∀ j, Run plat (t j) (hist j) (b j)) (hm : ∀ j, (b j).getCurrentState = .master)
    (hsender : b' i₀ = b i₀)
    (hhear : ∀ j, j ≠ i₀ → Hears (b j) (rx j) p ∧ (b j).radioTick plat (now j) (rx j) = .ok (b' j))
    (x : ∀ j, Exec plat (b' j) (h j) (f j)) (hn : ∀ j, ∀ e ∈ h j, ¬ Entry.Promoted e)
    (hheard : ∀ j q, q ∈ heardIn (h j) ↔
      ∃ k, k ≠ j ∧ k ≠ i₀ ∧ q ∈ claimsOf ⟨b k, .radioTick (now k) (rx k), b' k⟩)
    (j k : ι) (hj : (f j).getCurrentState = .master) (hk : (f k).getCurrentState = .master) :
    j = k := by
  have key := many_masters_resolve i₀ p hpt t hist b b' f now rx h rb hm hsender hhear x hn hheard
  rcases (key j).1 hj with ⟨h1, h2⟩ | ⟨h1, h2⟩ <;> rcases (key k).1 hk with ⟨h3, h4⟩ | ⟨h3, h4⟩
  · rw [h1, h3]
  · exact absurd h3 (h2 k)
  · exact absurd h1 (h4 j)
  · exact h4 j h1

/-! ### A concrete election

Three devices (Arduino build) that all became masters at 6000 ms, with random supplies
`100 i, 100 i + 1, …`. -/

namespace Demo

/-- History and state of master `i`. -/
def boot (i : Fin 3) : List Entry × Node :=
  (bootRun .arduino 0 (fun n => 100 * i.val + n) [.radioTick 6000 none]).getD
    ([], Node.init 0 (fun _ => 0) (.heartbeat, Vector.replicate 58 0)
      (.heartbeat, Vector.replicate 58 0))

theorem boot_run (i : Fin 3) : Run .arduino 0 (boot i).1 (boot i).2 := by
  have h : ∀ i : Fin 3,
      (bootRun .arduino 0 (fun n => 100 * i.val + n) [.radioTick 6000 none]).isSome = true := by
    decide +kernel
  apply bootRun_run
  obtain ⟨x, hx⟩ := Option.isSome_iff_exists.1 (h i)
  exact hx.trans (by unfold boot; rw [hx]; rfl)

theorem boot_master : ∀ i, (boot i).2.getCurrentState = .master := by decide +kernel

/-- The heartbeat sent by master `i` when it took over. -/
def beat (i : Fin 3) : Packet := (boot i).2.sent.getD 0 ⟨0, .heartbeat, 0, Vector.replicate 58 0⟩

/-- Master `j` after hearing the heartbeat of master `i`. -/
def answer (i j : Fin 3) : Node :=
  if j = i then (boot j).2
  else
    match (boot j).2.radioTick .arduino 6500 (some (beat i)) with
    | .ok s => s
    | .error _ => (boot j).2

theorem answer_tick (i j : Fin 3) (h : j ≠ i) :
    (boot j).2.radioTick .arduino 6500 (some (beat i)) = .ok (answer i j) := by
  unfold answer
  rw [if_neg h]
  split
  · rename_i s e; exact e
  · rename_i f e
    rcases Node.radioTick_result (plat := .arduino) (now := 6500) (rx := some (beat i))
      (boot_run j).wf with ⟨_, h1, _⟩ | ⟨h1, _⟩ | ⟨h1, _⟩
    · rw [h1] at e; cases e
    · cases h1
    · cases h1

theorem answer_hears (i j : Fin 3) (h : j ≠ i) : Hears (boot j).2 (some (beat i)) (beat i) := by
  have : ∀ i j : Fin 3, j ≠ i → (boot j).2.delivered (some (beat i)) = some (beat i) := by
    decide +kernel
  exact hears_of_delivered (boot_run j).wf (this i j h)

/-- The claims of device `k`, and of all devices but `j`. -/
def claims (i k : Fin 3) : List Packet :=
  if k = i then [] else claimsOf ⟨(boot k).2, .radioTick 6500 (some (beat i)), answer i k⟩
def claimsFor (i j : Fin 3) : List Packet :=
  (List.finRange 3).flatMap fun k => if k = j then [] else claims i k

/-- Device `j` after hearing the claims in `l`. -/
def outcome (i j : Fin 3) (l : List Packet) : List Entry × Node :=
  (runOps .arduino (l.map fun q => .radioTick 6600 (some q)) [] (answer i j)).getD ([], (answer i j))

end Demo

open Demo in
/-- The hypotheses of `two_masters_resolve` are met, both when the hearer wins (`i = 0`,
`j = 1`) and when it loses (`i = 1`, `j = 0`). -/
example : ∀ i j : Fin 3, i ≠ j → ∃ h a',
    Run .arduino 0 (boot i).1 (boot i).2 ∧ Run .arduino 0 (boot j).1 (boot j).2 ∧
    (boot i).2.getCurrentState = .master ∧ (boot j).2.getCurrentState = .master ∧
    Hears (boot j).2 (some (beat i)) (beat i) ∧ (beat i).type = .heartbeat ∧
    (boot j).2.radioTick .arduino 6500 (some (beat i)) = .ok (answer i j) ∧
    Exec .arduino (boot i).2 h a' ∧ (∀ e ∈ h, ¬ Entry.Promoted e) ∧
    heardIn h = claimsOf ⟨(boot j).2, .radioTick 6500 (some (beat i)), answer i j⟩ ∧
    (a'.getCurrentState = .slave ↔ i < j) := by
  intro i j hij
  have hex : ∀ i j : Fin 3, i ≠ j →
      (runOps .arduino ((claims i j).map fun q => .radioTick 6600 (some q)) []
        (answer i i)).isSome = true := by decide +kernel
  have h1 : ∀ i j : Fin 3, i ≠ j → ∀ e ∈ (outcome i i (claims i j)).1,
      ¬ (e.pre.state = .slave ∧ e.post.state = .master) := by decide +kernel
  have h2 : ∀ i j : Fin 3, i ≠ j → heardIn (outcome i i (claims i j)).1 = claims i j := by
    decide +kernel
  have h3 : ∀ i j : Fin 3, i ≠ j → ((outcome i i (claims i j)).2.state = .slave ↔ i < j) := by
    decide +kernel
  have h4 : ∀ i, (beat i).type = .heartbeat := by decide +kernel
  refine ⟨(outcome i i (claims i j)).1, (outcome i i (claims i j)).2, boot_run i, boot_run j,
    boot_master i, boot_master j, answer_hears i j hij.symm, h4 i, answer_tick i j hij.symm, ?_,
    h1 i j hij, ?_, h3 i j hij⟩
  · obtain ⟨x, hx⟩ := Option.isSome_iff_exists.1 (hex i j hij)
    have : answer i i = (boot i).2 := by simp [answer]
    rw [this] at hx
    refine runOps_exec .nil (hx.trans ?_)
    unfold outcome
    rw [this, hx]; rfl
  · rw [h2 i j hij, claims, if_neg hij.symm]

open Demo in
/-- C23.  No master may be left: with three masters it can happen that two of them answer the
third one's heartbeat with a claim, and then all three resign. -/
theorem all_masters_can_resign :
    ∃ (p : Packet) (hist : Fin 3 → List Entry) (b b' f : Fin 3 → Node) (rx : Fin 3 → Option Packet)
      (h : Fin 3 → List Entry),
      p.type = .heartbeat ∧
      (∀ j, Run .arduino 0 (hist j) (b j)) ∧ (∀ j, (b j).getCurrentState = .master) ∧
      b' 0 = b 0 ∧
      (∀ j, j ≠ 0 → Hears (b j) (rx j) p ∧ (b j).radioTick .arduino 6500 (rx j) = .ok (b' j)) ∧
      (∀ j, Exec .arduino (b' j) (h j) (f j)) ∧ (∀ j, ∀ e ∈ h j, ¬ Entry.Promoted e) ∧
      (∀ j q, q ∈ heardIn (h j) ↔
        ∃ k, k ≠ j ∧ k ≠ 0 ∧ q ∈ claimsOf ⟨b k, .radioTick 6500 (rx k), b' k⟩) ∧
      ∀ j, (f j).getCurrentState = .slave := by
  have hex : ∀ j : Fin 3,
      (runOps .arduino ((claimsFor 0 j).map fun q => .radioTick 6600 (some q)) []
        (answer 0 j)).isSome = true := by decide +kernel
  have h1 : ∀ j : Fin 3, ∀ e ∈ (outcome 0 j (claimsFor 0 j)).1,
      ¬ (e.pre.state = .slave ∧ e.post.state = .master) := by decide +kernel
  have h2 : ∀ j : Fin 3, heardIn (outcome 0 j (claimsFor 0 j)).1 = (claimsFor 0 j).reverse := by
    decide +kernel
  have h3 : ∀ j : Fin 3, (outcome 0 j (claimsFor 0 j)).2.state = .slave := by decide +kernel
  have h4 : ∀ i, (beat i).type = .heartbeat := by decide +kernel
  refine ⟨beat 0, fun j => (boot j).1, fun j => (boot j).2, answer 0,
    fun j => (outcome 0 j (claimsFor 0 j)).2, fun _ => some (beat 0),
    fun j => (outcome 0 j (claimsFor 0 j)).1, h4 0, boot_run, boot_master, by simp [answer],
    fun j hj => ⟨answer_hears 0 j hj, answer_tick 0 j hj⟩, ?_, h1, ?_, h3⟩
  · intro j
    obtain ⟨x, hx⟩ := Option.isSome_iff_exists.1 (hex j)
    refine runOps_exec .nil (hx.trans ?_)
    unfold outcome
    dsimp only
    rw [hx]; rfl
  · intro j q
    rw [h2 j, List.mem_reverse, claimsFor, List.mem_flatMap]
    constructor
    · rintro ⟨k, _, hk⟩
      by_cases hkj : k = j
      · simp [hkj] at hk
      · rw [if_neg hkj, claims] at hk
        by_cases hk0 : k = 0
        · simp [hk0] at hk
        · rw [if_neg hk0] at hk
          exact ⟨k, hkj, hk0, hk⟩
    · rintro ⟨k, hkj, hk0, hk⟩
      exact ⟨k, List.mem_finRange k, by rw [if_neg hkj, claims, if_neg hk0]; exact hk⟩

end Firefly.Props
