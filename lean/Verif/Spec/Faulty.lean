import Verif.Model.Faulty

/-!
# What failing reads should sound like
-/

namespace TVP.Spec

/-- Each read delivers the block, or nothing. -/
def AllOrNothing (rs : List ReadResult) : Prop := ∀ n, ReadResult.short n ∈ rs → n = 0

/-- The same sound, with gaps: blocks, outputs, releases and events are the same, and each sample is the same or silent. -/
def WithGaps (fx fx' : Fx) : Prop :=
  fx.allocated = fx'.allocated ∧ fx.released = fx'.released ∧ fx.event = fx'.event ∧
    List.Forall₂ (fun t t' : List Int × Nat => t.2 = t'.2 ∧ List.Forall₂ (fun s s' : Int => s = s' ∨ s = 0) t.1 t'.1) fx.transmitted fx'.transmitted

/-- Everything transmitted is silence. -/
def Silent (fx : Fx) : Prop := ∀ b ∈ fx.transmitted, ∀ s ∈ b.1, s = 0

/-- One update after the other, each followed by its event. -/
def ticked (als : List (Nat → Bool)) : List Turn := als.flatMap fun al => [.update al, .poll]

end TVP.Spec
