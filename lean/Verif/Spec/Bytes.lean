import Verif.Model.Bytes
import Verif.Spec.Control

/-!
# Specification: accesses byte by byte
-/

namespace FAS.Spec

/-- The bytes `ks` of the variable `var` are read in this order. The call begins in state `s` and ends in state `s'`; there may be an interruption before each byte and after the last. -/
inductive ReadBytes (a : ArchId) (var : Stepper → Nat) (b : Nat → Nat) : Stepper → List Nat → Stepper → Prop where
  | finish {s s' : Stepper} : Interruption a s s' → ReadBytes a var b s [] s'
  | byte {s s1 s' : Stepper} {k : Nat} {ks : List Nat} : Interruption a s s1 → b k = byteOf (var s1) k → ReadBytes a var b s1 ks s' → ReadBytes a var b s (k :: ks) s'

/-- A getter reading the four bytes of the variable `var` in any order results in `v`. -/
def Read32 (a : ArchId) (var : Stepper → Nat) (s s' : Stepper) (v : Nat) : Prop :=
  ∃ (order : List Nat) (b : Nat → Nat), order.Perm [0, 1, 2, 3] ∧ ReadBytes a var b s order s' ∧ v = fromBytes b

/-- A moment during a call, which begins in state `s` and ends in state `s'`. -/
structure Moment (a : ArchId) (s t s' : Stepper) : Prop where
  before : Interruption a s t
  after : Interruption a t s'

/-- `setJumpStart(n)` writes the bytes `ks` of the variable in this order. -/
inductive WriteJump (a : ArchId) (n : Nat) : Stepper → List Nat → Stepper → Prop where
  | finish {s s' : Stepper} : Interruption a s s' → WriteJump a n s [] s'
  | byte {s s1 s' : Stepper} {k : Nat} {ks : List Nat} : Interruption a s s1 → WriteJump a n (s1.jumpByte k n) ks s' → WriteJump a n s (k :: ks) s'

/-- `setJumpStart(n)`, with the four bytes written in any order. -/
def SetJumpCall (a : ArchId) (n : Nat) (s s' : Stepper) : Prop := ∃ order : List Nat, order.Perm [0, 1, 2, 3] ∧ WriteJump a n s order s'

end FAS.Spec
