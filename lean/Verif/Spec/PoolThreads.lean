import Verif.Model.PoolThreads
import Verif.Spec.Pool

/-!
# Specification: a program that is alone with an allocator

The program sees the blocks it holds and their contents, nothing else. The allocator may refuse, or hand out any block that the program does not hold, with any
contents.
-/

namespace Uavcan.Spec
open Pool

/-- A program with the blocks it holds and the contents of memory as it sees them. -/
structure Solo where
  owned : List Nat
  view : Nat → Byte
  prog : Prog

/-- The address lies in a block that is held. -/
def Within (c : Cfg) (owned : List Nat) (a : Nat) : Prop := ∃ b ∈ owned, b ≤ a ∧ a < b + c.sizeofBlock

/-- The steps of such a program. There is none for an access outside the blocks that are held, nor for giving back a block that is not. -/
inductive SoloStep (c : Cfg) : Solo → Solo → Prop where
  | granted {owned : List Nat} {view view' : Nat → Byte} {size a : Nat} {next : Pool.Result → Prog} : size ≤ c.blockSize → c.isBlock a = true → a ∉ owned →
      (∀ x, Within c owned x → view' x = view x) → SoloStep c ⟨owned, view, .allocate size next⟩ ⟨a :: owned, view', next (.ptr a)⟩
  | refused {owned : List Nat} {view : Nat → Byte} {size : Nat} {next : Pool.Result → Prog} :
      SoloStep c ⟨owned, view, .allocate size next⟩ ⟨owned, view, next (if c.exceptions then .badAlloc else .null)⟩
  | null {owned : List Nat} {view : Nat → Byte} {next : Prog} : SoloStep c ⟨owned, view, .deallocate 0 next⟩ ⟨owned, view, next⟩
  | returned {owned : List Nat} {view : Nat → Byte} {a : Nat} {next : Prog} : a ≠ 0 → a ∈ owned →
      SoloStep c ⟨owned, view, .deallocate a next⟩ ⟨owned.erase a, view, next⟩
  | read {owned : List Nat} {view : Nat → Byte} {a : Nat} {next : Byte → Prog} : Within c owned a →
      SoloStep c ⟨owned, view, .read a next⟩ ⟨owned, view, next (view a)⟩
  | write {owned : List Nat} {view : Nat → Byte} {a : Nat} {v : Byte} {next : Prog} : Within c owned a →
      SoloStep c ⟨owned, view, .write a v next⟩ ⟨owned, fun x => if x = a then v else view x, next⟩

/-- Any number of steps. -/
inductive SoloRun (c : Cfg) : Solo → Solo → Prop where
  | refl (x : Solo) : SoloRun c x x
  | step {x y z : Solo} : SoloRun c x y → SoloStep c y z → SoloRun c x z

/-- Alone, the program keeps to the blocks it holds, whatever the allocator does: there is always a next step until it has ended. -/
def KeepsToItsBlocks (c : Cfg) (p : Prog) : Prop :=
  ∀ view x, SoloRun c ⟨[], view, p⟩ x → (∃ n, x.prog = .done n) ∨ ∃ y, SoloStep c x y

/-- The program gives this answer alone, with some allocator. -/
def AnswersAlone (c : Cfg) (p : Prog) (n : Nat) : Prop := ∃ view owned view', SoloRun c ⟨[], view, p⟩ ⟨owned, view', .done n⟩

/-- A rule for showing it of a program: along the text of the program, with `Q` for the answers. -/
def Ensures (c : Cfg) (Q : Nat → Prop) : Prog → List Nat → (Nat → Byte) → Prop
  | .done n, _, _ => Q n
  | .allocate size next, owned, view =>
    (∀ a view', size ≤ c.blockSize → c.isBlock a = true → a ∉ owned → (∀ x, Within c owned x → view' x = view x) →
      Ensures c Q (next (.ptr a)) (a :: owned) view') ∧ Ensures c Q (next (if c.exceptions then .badAlloc else .null)) owned view
  | .deallocate a next, owned, view =>
    (a = 0 ∧ Ensures c Q next owned view) ∨ (a ≠ 0 ∧ a ∈ owned ∧ Ensures c Q next (owned.erase a) view)
  | .read a next, owned, view => Within c owned a ∧ Ensures c Q (next (view a)) owned view
  | .write a v next, owned, view => Within c owned a ∧ Ensures c Q next owned (fun x => if x = a then v else view x)

end Uavcan.Spec
