import Verif.Decode.Agree

/-!
# The checks of the compressed modules
-/

namespace Verif.Decode

open Isa

theorem sound_rv32_rv32c : soundMod .rv32 .rv32c = true := by decide +kernel
theorem cover_rv32_rv32c : coverMod .rv32 .rv32c = true := by decide +kernel

theorem sound_rv32_zc : soundMod .rv32 .zc = true := by decide +kernel
theorem cover_rv32_zc : coverMod .rv32 .zc = true := by decide +kernel

theorem sound_rv64_rv64c : soundMod .rv64 .rv64c = true := by decide +kernel
theorem cover_rv64_rv64c : coverMod .rv64 .rv64c = true := by decide +kernel

end Verif.Decode
