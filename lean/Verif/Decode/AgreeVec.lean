import Verif.Decode.Agree
import Verif.Decode.Apart

/-!
# The checks of the vector module
-/

namespace Verif.Decode

open Isa

theorem sound_rv32_vec : soundMod .rv32 .vec = true := by decide +kernel
theorem cover_rv32_vec : coverMod .rv32 .vec = true := by decide +kernel

theorem sound_rv64_vec : soundMod .rv64 .vec = true := by decide +kernel
theorem cover_rv64_vec : coverMod .rv64 .vec = true := by decide +kernel

end Verif.Decode
