import Verif.Decode.AgreeVec
import Verif.Decode.AgreeC

/-!
# The checks of the modules, evaluated by the kernel
-/

namespace Verif.Decode

open Isa

theorem sound_rv32_rv32g : soundMod .rv32 .rv32g = true := by decide +kernel
theorem cover_rv32_rv32g : coverMod .rv32 .rv32g = true := by decide +kernel

theorem sound_rv32_zb : soundMod .rv32 .zb = true := by decide +kernel
theorem cover_rv32_zb : coverMod .rv32 .zb = true := by decide +kernel

theorem sound_rv32_zbOnly32 : soundMod .rv32 .zbOnly32 = true := by decide +kernel
theorem cover_rv32_zbOnly32 : coverMod .rv32 .zbOnly32 = true := by decide +kernel

theorem sound_rv32_zfh32 : soundMod .rv32 .zfh32 = true := by decide +kernel
theorem cover_rv32_zfh32 : coverMod .rv32 .zfh32 = true := by decide +kernel

theorem sound_rv32_zvbb : soundMod .rv32 .zvbb = true := by decide +kernel
theorem cover_rv32_zvbb : coverMod .rv32 .zvbb = true := by decide +kernel

theorem sound_rv32_rvm23 : soundMod .rv32 .rvm23 = true := by decide +kernel
theorem cover_rv32_rvm23 : coverMod .rv32 .rvm23 = true := by decide +kernel

theorem sound_rv64_rv64g : soundMod .rv64 .rv64g = true := by decide +kernel
theorem cover_rv64_rv64g : coverMod .rv64 .rv64g = true := by decide +kernel

theorem sound_rv64_zb : soundMod .rv64 .zb = true := by decide +kernel
theorem cover_rv64_zb : coverMod .rv64 .zb = true := by decide +kernel

theorem sound_rv64_zbOnly64 : soundMod .rv64 .zbOnly64 = true := by decide +kernel
theorem cover_rv64_zbOnly64 : coverMod .rv64 .zbOnly64 = true := by decide +kernel

theorem sound_rv64_zfh64 : soundMod .rv64 .zfh64 = true := by decide +kernel
theorem cover_rv64_zfh64 : coverMod .rv64 .zfh64 = true := by decide +kernel

theorem sound_all (d : Decoder) (m : Module) (h : m ∈ d.modules) : soundMod d.xlen m = true := by
  cases d <;> cases m <;>
    first
    | exact absurd h (by decide)
    | skip
  all_goals
    simp only [Decoder.xlen]
    first
    | with_reducible exact sound_rv32_rv32g
    | with_reducible exact sound_rv32_rv32c
    | with_reducible exact sound_rv32_vec
    | with_reducible exact sound_rv32_zb
    | with_reducible exact sound_rv32_zbOnly32
    | with_reducible exact sound_rv32_zfh32
    | with_reducible exact sound_rv32_zvbb
    | with_reducible exact sound_rv32_rvm23
    | with_reducible exact sound_rv32_zc
    | with_reducible exact sound_rv64_rv64g
    | with_reducible exact sound_rv64_rv64c
    | with_reducible exact sound_rv64_vec
    | with_reducible exact sound_rv64_zb
    | with_reducible exact sound_rv64_zbOnly64
    | with_reducible exact sound_rv64_zfh64

theorem cover_all (d : Decoder) (m : Module) (h : m ∈ d.modules) : coverMod d.xlen m = true := by
  cases d <;> cases m <;>
    first
    | exact absurd h (by decide)
    | skip
  all_goals
    simp only [Decoder.xlen]
    first
    | with_reducible exact cover_rv32_rv32g
    | with_reducible exact cover_rv32_rv32c
    | with_reducible exact cover_rv32_vec
    | with_reducible exact cover_rv32_zb
    | with_reducible exact cover_rv32_zbOnly32
    | with_reducible exact cover_rv32_zfh32
    | with_reducible exact cover_rv32_zvbb
    | with_reducible exact cover_rv32_rvm23
    | with_reducible exact cover_rv32_zc
    | with_reducible exact cover_rv64_rv64g
    | with_reducible exact cover_rv64_rv64c
    | with_reducible exact cover_rv64_vec
    | with_reducible exact cover_rv64_zb
    | with_reducible exact cover_rv64_zbOnly64
    | with_reducible exact cover_rv64_zfh64

end Verif.Decode
