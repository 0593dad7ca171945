import Verif.Spec.History

/-! # Specification vocabulary for instructions (what to display) -/

namespace Firefly.Spec

/-- In this step a master, hearing nothing, chose a new effect: it drew an effect number and a
palette number, announced them as a set-effect packet `q` with delay 0 (its only transmission
in this step) and adopted them. -/
structure FreshChoice (plat : Platform) (e : Entry) (q : Packet) : Prop where
  tick : Entry.IsTick e
  master : e.pre.getCurrentState = .master
  silent : Entry.heard e = none
  sent : Entry.transmitted e = [q]
  type : q.type = .setEffect
  len : q.len = 3
  delay : q.data[1] = 0
  drawn : ∃ n m r r', randomRange plat 0 (e.pre.numEffects.setWidth 16) e.pre.rand = .ok (n, r) ∧
    randomRange plat 0 (e.pre.numPalettes.setWidth 16) r = .ok (m, r') ∧
    q.data[0] = n.setWidth 8 ∧ q.data[2] = m.setWidth 8
  adopted : SameContent e.post.getSetEffect q
  index : e.post.getEffectIndex = q.data[0]

/-- The step brings the instruction `p`: a local `SetEffect(p)`, a set-effect or control packet
`p` heard, or a choice of the device itself. -/
def Instructs (plat : Platform) (e : Entry) (p : Packet) : Prop :=
  (∃ now, e.op = .setEffect now p) ∨ (Entry.heard e = some p ∧ IsInstruction p) ∨
    FreshChoice plat e p

/-- The step brings the effect instruction `p`: as `Instructs`, without heard control
packets. -/
def InstructsEffect (plat : Platform) (e : Entry) (p : Packet) : Prop :=
  (∃ now, e.op = .setEffect now p) ∨ (Entry.heard e = some p ∧ p.type = .setEffect) ∨
    FreshChoice plat e p

/-- The device is told nothing from outside in this step: no local `SetEffect`, no set-effect or
control packet heard. -/
def Untold (e : Entry) : Prop :=
  (∀ now p, e.op ≠ .setEffect now p) ∧ ∀ p, Entry.heard e = some p → ¬ IsInstruction p

/-- In this step a master, hearing nothing, retransmitted its current instruction (its only
transmission in this step) and kept it. -/
structure Repeats (e : Entry) (q : Packet) : Prop where
  tick : Entry.IsTick e
  master : e.pre.getCurrentState = .master
  silent : Entry.heard e = none
  sent : Entry.transmitted e = [q]
  same : SameContent q e.pre.getSetEffect
  kept : SameContent e.post.getSetEffect e.pre.getSetEffect
  index : e.post.getEffectIndex = e.pre.getEffectIndex

/-- A slave sees a change in this step: it hears a control packet, or a set-effect packet whose
effect differs from the device's current effect or whose palette differs from the palette byte
of the device's current instruction. -/
def ChangeSeen (e : Entry) : Prop :=
  e.pre.getCurrentState = .slave ∧ ∃ p, Entry.heard e = some p ∧
    (p.type = .setControl ∨
     (p.type = .setEffect ∧
       (p.data[0] ≠ e.pre.getEffectIndex ∨ p.data[2] ≠ e.pre.getSetEffect.data[2])))

/-- In this step the device hears its current effect and the palette of its current instruction
again (C32). -/
def HearsRepeat (e : Entry) : Prop :=
  ∃ p, Entry.heard e = some p ∧ p.type = .setEffect ∧
    p.data[0] = e.pre.getEffectIndex ∧ p.data[2] = e.pre.getSetEffect.data[2]

/-- `t` is the time of the most recent step in `h` with property `P`, or 0 if there is none. -/
def LastTime (P : Entry → Prop) (h : List Entry) (t : U32) : Prop :=
  (t = 0 ∧ ∀ e ∈ h, ¬ P e) ∨
  ∃ h₁ e h₂, h = h₁ ++ e :: h₂ ∧ P e ∧ t = Entry.time e ∧ ∀ e' ∈ h₁, ¬ P e'

/-- The delay (seconds) requested by a set-effect or control packet: byte 1 of a set-effect
packet, byte 0 of a control packet (C02, C03). -/
def requestedDelay (p : Packet) : Nat :=
  if p.type = .setEffect then p.data[1].toNat else p.data[0].toNat

/-- Undisturbed: not told anything and not starting a new reign. -/
def Undisturbed (e : Entry) : Prop := Untold e ∧ ¬ Entry.Promoted e

/-- As long as it is undisturbed and the local time is at most `D`, the device keeps its
instruction and effect number. -/
def HoldsUntil (plat : Platform) (s : Node) (D : Nat) : Prop :=
  ∀ h s', Exec plat s h s' → (∀ e ∈ h, Undisturbed e ∧ (Entry.time e).toNat ≤ D) →
    SameContent s'.getSetEffect s.getSetEffect ∧ s'.getEffectIndex = s.getEffectIndex

/-- Undisturbed, the device has made an own choice at the latest in the second of two consecutive
radio ticks after local time `D` in which it is master and hears nothing, provided the two are
at most 1000 ms apart. -/
def ChangesAfter (plat : Platform) (s : Node) (D : Nat) : Prop :=
  ∀ h e₁ e₂ s', Exec plat s (e₂ :: e₁ :: h) s' → (∀ e ∈ h, Undisturbed e) →
    (∀ e ∈ [e₁, e₂], Entry.IsTick e ∧ Entry.heard e = none ∧ e.pre.getCurrentState = .master) →
    D < (Entry.time e₁).toNat → (Entry.time e₁).toNat ≤ (Entry.time e₂).toNat →
    (Entry.time e₂).toNat ≤ (Entry.time e₁).toNat + 1000 →
    (Entry.time e₁).toNat + 1000 < 2 ^ 32 →
    ∃ e ∈ e₂ :: e₁ :: h, ∃ q, FreshChoice plat e q

/-- The device's rotation is scheduled for local time `D`. -/
def RotatesAt (plat : Platform) (s : Node) (D : Nat) : Prop :=
  HoldsUntil plat s D ∧ ChangesAfter plat s D

/-- Undisturbed, the device never changes its instruction, however long it runs. -/
def NeverRotates (plat : Platform) (s : Node) : Prop :=
  ∀ h s', Exec plat s h s' → (∀ e ∈ h, Undisturbed e) →
    SameContent s'.getSetEffect s.getSetEffect ∧ s'.getEffectIndex = s.getEffectIndex

end Firefly.Spec
