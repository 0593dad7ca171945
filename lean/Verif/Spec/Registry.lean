import Verif.Model.Basic

/-!
# Specification vocabulary for the effect registry

A registration is a pair of an effect and its proportion: how many slots of the random choice it
gets.  Effects with proportion 0 can only be chosen by hand.
-/

namespace Firefly.Spec
open Firefly

variable {α : Type}

/-- The registrations that take part in the random choice, in order. -/
def randomOnes (l : List (α × U8)) : List (α × U8) := l.filter (fun x => 0 < x.2.toNat)
/-- The other registrations, in order. -/
def manualOnes (l : List (α × U8)) : List (α × U8) := l.filter (fun x => x.2.toNat = 0)

/-- The distinct effects in the order in which a controller steps through them. -/
def distinctEffects (l : List (α × U8)) : List α :=
  (randomOnes l).map (·.1) ++ (manualOnes l).map (·.1)

/-- The slots of the random choice: each effect as often as its proportion. -/
def randomSlots (l : List (α × U8)) : List α := l.flatMap (fun x => List.replicate x.2.toNat x.1)

/-- All slots. -/
def allSlots (l : List (α × U8)) : List α := randomSlots l ++ (manualOnes l).map (·.1)

end Firefly.Spec
