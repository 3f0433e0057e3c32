import Verif.Atomic.Model
import Verif.Mem.Spec
/-
What the A extension says, and what is assumed of the memory.
-/
namespace Verif.Atomic.Spec
open Verif.Core

/-- Signed reading of an `n`-byte number. -/
def sgn (n v : Nat) : Int := (v : Int).bmod (2 ^ (8 * n))

/-- The value an AMO writes back, from the old value and the operand, both `n` bytes; `none` for
lr and sc. -/
def amo (i : Insn) (n old v : Nat) : Option Nat :=
  match i with
  | .lr => none
  | .sc => none
  | .amoswap => some v
  | .amoadd => some ((old + v) % 2 ^ (8 * n))
  | .amoand => some (old &&& v)
  | .amoor => some (old ||| v)
  | .amoxor => some (old ^^^ v)
  | .amomax => some (if sgn n old < sgn n v then v else old)
  | .amomaxu => some (if old < v then v else old)
  | .amomin => some (if sgn n v < sgn n old then v else old)
  | .amominu => some (if v < old then v else old)

/-- The memory operation of the same name, as documented by mpact-sim's atomic memory. -/
def devAmo (o : AOp) (n old v : Nat) : Option Nat :=
  match o with
  | .loadLinked => none
  | .storeConditional => none
  | .swap => some v
  | .add => some ((old + v) % 2 ^ (8 * n))
  | .and => some (old &&& v)
  | .or => some (old ||| v)
  | .xor => some (old ^^^ v)
  | .max => some (if sgn n old < sgn n v then v else old)
  | .maxu => some (if old < v then v else old)
  | .min => some (if sgn n v < sgn n old then v else old)
  | .minu => some (if v < old then v else old)

/-- Assumption about the memory side: it executes each request as one step. A read-modify-write
returns the old value and writes the new one; a load-linked returns the value and writes nothing;
a store-conditional either writes its operand and returns 0, or writes nothing and returns a
non-zero number of the request's size. -/
structure Contract {ρ : Type} (d : Device ρ) : Prop where
  rmw : ∀ r m a o n v, ∀ f, devAmo o n (readLE m a n) v = some f →
    ∃ r', d (r, m) ⟨a, o, n, some v⟩ = some ((r', writeLE m a n f), readLE m a n)
  ll : ∀ r m a n, ∃ r', d (r, m) ⟨a, .loadLinked, n, none⟩ = some ((r', m), readLE m a n)
  sc : ∀ r m a n v, ∃ r',
    d (r, m) ⟨a, .storeConditional, n, some v⟩ = some ((r', writeLE m a n v), 0)
    ∨ ∃ x, 0 < x ∧ x < 2 ^ (8 * n) ∧ d (r, m) ⟨a, .storeConditional, n, some v⟩ = some ((r', m), x)

end Verif.Atomic.Spec
