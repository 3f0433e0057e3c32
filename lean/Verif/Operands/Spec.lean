import Verif.Operands.Model

/-!
# What it means for an instruction to be given its operands
-/

namespace Verif.Operands.Spec

/-- Position `i` of a list of operands exists. -/
def Exists (l : List Arg) (i : Int) : Prop := 0 ≤ i ∧ i < l.length

/-- The operand at position `i` exists and the getter an encoding class
registers for it makes an operand: it is registered, does not return a null
pointer and does not call an extractor that does not exist. -/
def Made (getter : Getters.Opd → Option Getters.What) (l : List Arg) (i : Int) : Prop :=
  0 ≤ i ∧ ∃ o w, l[i.toNat]? = some (.one o) ∧ getter o = some w ∧ w ≠ .null ∧ w ≠ .missing

/-- Every operand the function uses, the description supplies. -/
def InRange (p : Phase) : Prop :=
  ∀ r, ∀ u ∈ p.uses r, match u with
    | .src i => Exists (supplied r p.srcs) i
    | .dst i => Exists (supplied r p.dsts) i

/-- Every operand the function uses, the decoder makes. -/
def AllMade (e : Getters.Enc) (p : Phase) : Prop :=
  ∀ r, ∀ u ∈ p.uses r, match u with
    | .src i => Made e.source (supplied r p.srcs) i
    | .dst i => Made e.dest (supplied r p.dsts) i

/-- The instructions whose function uses an operand that is not supplied. -/
def short : Isa → List String
  | .zfh32 | .zfh64 => ["fmv_xh", "fmin_h", "fmax_h", "fsgnj_h", "fsgnjn_h", "fsgnjx_h"]
  | .rvm23 => ["cm_popret", "cm_popretz"]
  | _ => []

end Verif.Operands.Spec
