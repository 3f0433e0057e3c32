import Verif.CsrSet.Model
/-
Specification of a CSR registry: one collection of registered CSRs, with unique indices
and unique names.
-/
namespace Verif.CsrSet.Spec

/-- One collection of CSRs. -/
abbrev Reg := List Csr

/-- The call-by-call specification. -/
def step (r : Reg) : Call → Res × Reg
  | .add none => (.invalidArgument, r)
  | .add (some c) =>
    if r.any (fun d => d.index = c.index || d.name = c.name) then (.alreadyExists, r)
    else (.ok, c :: r)
  | .remove i =>
    if r.any (fun d => d.index = i) then (.ok, r.filter (fun d => d.index ≠ i))
    else (.notFound, r)
  | .getIndex i =>
    (match r.find? (fun d => d.index = i) with | none => .notFound | some c => .found c, r)
  | .getName n =>
    (match r.find? (fun d => d.name = n) with | none => .notFound | some c => .found c, r)

/-- Results of a sequence of calls. -/
def run (r : Reg) : List Call → List Res
  | [] => []
  | c :: cs => (step r c).1 :: run (step r c).2 cs

end Verif.CsrSet.Spec
