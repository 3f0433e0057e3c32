/-!
# What a fetch yields

Written from the unprivileged manual (chapter 1.5, instruction lengths; Zifencei) and
the privileged manual (exception codes, mtval).
-/

namespace Verif.Fetch.Spec

/-- An instruction whose first halfword ends in anything but 11 has two bytes. -/
def bytes (w : BitVec 32) : Nat := if w.toNat % 4 = 3 then 4 else 2

/-- `w` is the instruction memory holds at `a`: its bytes are those from `a` on,
least significant first. -/
def Holds (m : BitVec 64 → BitVec 8) (a : BitVec 64) (w : BitVec 32) : Prop :=
  ∀ k, k < bytes w → (m (a + BitVec.ofNat 64 k)).toNat = w.toNat / 256 ^ k % 256

/-- Every byte of the instruction is within the limit. -/
def Within (limit a : BitVec 64) (w : BitVec 32) : Prop := a.toNat + bytes w ≤ limit.toNat + 1

end Verif.Fetch.Spec
