import Verif.Decode.AgreeCheck
import Verif.Decode.Props

/-!
# C71: the decoders agree with the instruction listing

`Isa.enc` is the listing of the RISC-V manuals: for each instruction the fixed
bits of its words and the words that are excepted because they are reserved or
belong to another instruction.  `Isa.canon` gives for each name used by the
decoders the instruction it stands for (the decoders have several entries for
some instructions, such as `csrrw` and `csrrw_nr`).
-/

namespace Verif.Decode

open Isa

/-- The listing gives the word to the instruction. -/
def Listed (x : Xlen) (o : Op) (w : Nat) : Prop := ∃ e, enc x o = some e ∧ e.assigns w

/-- The entries of a decoder listed in `unsound`. -/
def Decoder.unsoundOps (d : Decoder) : List Op := d.modules.flatMap (Decode.unsoundOps d.xlen)

/-- **C71** (decoded words, up to the listed entries).  A word decoded as an
instruction is a word of that instruction in the listing. -/
theorem C71_decoded_partial (d : Decoder) (i : Inst) (hi : i ∈ d.insts)
    (hu : i.op ∉ d.unsoundOps) (w : Nat) (hw : w < 2 ^ 32) (hm : i.matches w = true) :
    Listed d.xlen (canon i.op) w := by
  obtain ⟨m, hm', him⟩ := (modules_insts d i).1 hi
  refine soundMod_sound (sound_all d m hm') hw i him ?_ hm
  intro h
  exact hu (List.mem_flatMap.2 ⟨m, hm', h⟩)

/-- **C71** (decoded words), in full for the decoders without a listed entry. -/
theorem C71_decoded (d : Decoder) (hd : d.unsoundOps = []) (i : Inst) (hi : i ∈ d.insts)
    (w : Nat) (hw : w < 2 ^ 32) (hm : i.matches w = true) :
    Listed d.xlen (canon i.op) w :=
  C71_decoded_partial d i hi (by rw [hd]; simp) w hw hm

/-- The decoders meant by `C71_decoded`. -/
theorem C71_decoded_decoders (d : Decoder) :
    d.unsoundOps = [] ↔ d ∈ ([.rv32g_32, .rv32gzb_32, .rv64g_32, .rv64g_16, .rv64gzb_16,
      .rv64gv_16, .rv64gvzb_16, .zfh32_32, .zfh64_32, .zvbb_32] : List Decoder) := by
  cases d <;> decide +kernel

/-- The words of an instruction that a decoder misses. -/
def Decoder.gaps (d : Decoder) (o : Op) : List (Nat × Nat) :=
  d.modules.flatMap fun m => Decode.gaps d.xlen m o

/-- **C71** (words of implemented instructions, up to the listed gaps).  Every
word the listing gives to an instruction that the decoder has an entry for is
decoded as that instruction. -/
theorem C71_implemented_partial (d : Decoder) (i : Inst) (hi : i ∈ d.insts) (w : Nat)
    (hw : w < 2 ^ 32) (hl : Listed d.xlen (canon i.op) w)
    (hg : ∀ p ∈ d.gaps (canon i.op), w &&& p.1 ≠ p.2) :
    ∃ j ∈ d.insts, canon j.op = canon i.op ∧ j.matches w = true := by
  obtain ⟨m, hm, him⟩ := (modules_insts d i).1 hi
  obtain ⟨e, he, ha⟩ := hl
  obtain ⟨j, hj, hc, hjm⟩ := coverMod_sound (cover_all d m hm) him he hw ha
    (fun p hp => hg p (List.mem_flatMap.2 ⟨m, hm, hp⟩))
  exact ⟨j, (modules_insts d j).2 ⟨m, hm, hj⟩, hc, hjm⟩

/-- **C71** (words of implemented instructions), in full for the instructions
without a listed gap. -/
theorem C71_implemented (d : Decoder) (i : Inst) (hi : i ∈ d.insts)
    (hg : d.gaps (canon i.op) = []) (w : Nat) (hw : w < 2 ^ 32)
    (hl : Listed d.xlen (canon i.op) w) :
    ∃ j ∈ d.insts, canon j.op = canon i.op ∧ j.matches w = true :=
  C71_implemented_partial d i hi w hw hl (by rw [hg]; simp)

/-- The two directions together: for an entry with neither a listed deviation nor
a gap, the words decoded as the instruction are those of the listing. -/
theorem C71_exact_partial (d : Decoder) (o : Op) (ho : ∃ i ∈ d.insts, canon i.op = o)
    (hu : ∀ i ∈ d.insts, canon i.op = o → i.op ∉ d.unsoundOps) (hg : d.gaps o = [])
    (w : Nat) (hw : w < 2 ^ 32) :
    (∃ i ∈ d.insts, canon i.op = o ∧ i.matches w = true) ↔ Listed d.xlen o w := by
  constructor
  · rintro ⟨i, hi, rfl, hm⟩
    exact C71_decoded_partial d i hi (hu i hi rfl) w hw hm
  · intro hl
    obtain ⟨i, hi, rfl⟩ := ho
    exact C71_implemented d i hi hg w hw hl

/-! ## Overlapping entries -/

/-- **C59**, for the instructions rather than the entries: whenever two entries
of a decoder other than that of RVM23 match a word, they are entries of one
instruction. -/
theorem C59_same_instruction (d : Decoder) (hd : d ≠ .rvm23_32 ∧ d ≠ .rvm23_16) (w : Nat)
    (hw : w < 2 ^ 32) :
    d.insts.Pairwise fun a b =>
      a.matches w = true → b.matches w = true → canon a.op = canon b.op := by
  have hall : (d.overlaps.all fun p => decide (canon p.1 = canon p.2)) = true := by
    obtain ⟨h1, h2⟩ := hd
    cases d <;> first | exact absurd rfl h1 | exact absurd rfl h2 | decide +kernel
  refine List.Pairwise.imp ?_ (C59_unambiguous_partial d w hw)
  intro a b h ha hb
  simpa using List.all_eq_true.1 hall _ (h ha hb)

/-! ## Violations -/

/-- Some entry with this name matches the word. -/
def Module.named (m : Module) (o : Op) (w : Nat) : Bool := m.groups.any fun g => g.named o w

theorem Module.named_mem {m : Module} {o : Op} {w : Nat} (h : m.named o w = true) :
    ∃ i ∈ m.insts, i.op = o ∧ i.matches w = true := by
  obtain ⟨g, hg, h⟩ := List.any_eq_true.1 h
  obtain ⟨i, hi, h⟩ := Decode.named_mem h
  exact ⟨i, List.mem_flatMap.2 ⟨g, hg, hi⟩, h⟩

instance (e : Enc) (w : Nat) : Decidable (e.assigns w) := by unfold Enc.assigns; infer_instance

/-- The listing gives the word to the instruction. -/
def listed (x : Xlen) (o : Op) (w : Nat) : Bool :=
  match enc x o with
  | some e => decide (e.assigns w)
  | none => false

theorem listed_iff (x : Xlen) (o : Op) (w : Nat) : listed x o w = true ↔ Listed x o w := by
  unfold listed Listed
  cases h : enc x o with
  | none => simp
  | some e => simp

/-- The listed words are decoded, and not of the listing. -/
def unsoundOk (x : Xlen) (m : Module) : Bool :=
  (unsound x m).all fun p => m.named p.1 p.2 && !listed x (canon p.1) p.2

theorem unsoundOk_all (d : Decoder) : (d.modules.all fun m => unsoundOk d.xlen m) = true := by
  cases d <;> decide +kernel

/-- **C71** is violated: every listed entry decodes a word that the listing does
not give to its instruction. -/
theorem C71_decoded_violated (d : Decoder) (o : Op) (ho : o ∈ d.unsoundOps) :
    ∃ i ∈ d.insts, i.op = o ∧ ∃ w, i.matches w = true ∧ ¬ Listed d.xlen (canon o) w := by
  obtain ⟨m, hm, ho⟩ := List.mem_flatMap.1 ho
  obtain ⟨p, hp, rfl⟩ := List.mem_map.1 ho
  have h := List.all_eq_true.1 (unsoundOk_all d) m hm
  have h := List.all_eq_true.1 h p hp
  rw [Bool.and_eq_true] at h
  obtain ⟨i, hi, hio, him⟩ := Module.named_mem h.1
  refine ⟨i, (modules_insts d i).2 ⟨m, hm, hi⟩, hio, p.2, him, ?_⟩
  rw [← listed_iff]
  simpa using h.2

/-- Words of the listing that nothing in the decoder matches: `add x0, x0, x2`,
`fence` with `fm = 1`, and with `rd` and `rs1` set; `c.slli x0, 0` and
`c.add x0, x2`; shifts by 0 of RV64C; `rev8` and `bclri` to `bseti` of RV64;
hints of the compressed instructions of RVM23; immediate rotations and bit
instructions with vectors and in RVM23. -/
def missed : List (Decoder × Op × Nat) :=
  [(.rv32g_32, .add, 0x00200033), (.rv32g_32, .fence, 0x1ff0000f),
   (.rv32g_32, .fence, 0x0000808f),
   (.rv64g_32, .add, 0x00200033), (.rv64g_32, .fence, 0x1ff0000f),
   (.rv64g_32, .fence, 0x0000808f),
   (.rv32g_16, .cslli, 0x0002), (.rv32g_16, .cadd, 0x900a), (.rv64g_16, .cadd, 0x900a),
   (.rv64g_16, .csrli, 0x8001), (.rv64g_16, .csrai, 0x8401), (.rv64g_16, .cslli, 0x0082),
   (.rv64gzb_32, .rev8, 0x6b805013), (.rv64gzb_32, .bclri, 0x48001013),
   (.rv64gzb_32, .bexti, 0x48005013), (.rv64gzb_32, .binvi, 0x68001013),
   (.rv64gzb_32, .bseti, 0x28001013),
   (.rvm23_16, .cnop, 0x0005), (.rvm23_16, .caddi, 0x0081), (.rvm23_16, .cli, 0x4005),
   (.rvm23_16, .clui, 0x6005), (.rvm23_16, .cslli, 0x0006), (.rvm23_16, .cmv, 0x8006),
   (.rvm23_16, .cadd, 0x9006),
   (.rv32gvzb_32, .rori, 0x60105013), (.rv32gvzb_32, .bclri, 0x48001013),
   (.rvm23_32, .rori, 0x60105013), (.rvm23_32, .bclri, 0x48001013)]

theorem missed_all : (missed.all fun p => listed p.1.xlen p.2.1 p.2.2 &&
    p.1.groups.all fun g => g.insts.all fun i => !i.matches p.2.2) = true := by decide +kernel

/-- **C71** is violated: each of the `missed` words belongs to its instruction,
and no entry of the decoder matches it. -/
theorem C71_implemented_violated (d : Decoder) (o : Op) (w : Nat) (h : (d, o, w) ∈ missed) :
    Listed d.xlen o w ∧ ∀ i ∈ d.insts, i.matches w = false := by
  have h := List.all_eq_true.1 missed_all _ h
  rw [Bool.and_eq_true] at h
  refine ⟨(listed_iff _ _ _).1 h.1, fun i hi => ?_⟩
  obtain ⟨g, hg, hi⟩ := List.mem_flatMap.1 hi
  simpa using List.all_eq_true.1 (List.all_eq_true.1 h.2 g hg) i hi

/-- **C71** is violated: the vector segment loads that stop at the first fault
are not decoded at all; the word is `vlseg2e8ff.v v0, (x0), v0.t`. -/
theorem C71_segment_ff_violated (d : Decoder) (hd : d ∈ ([.rv32gv_32, .rv64gv_32] : List Decoder)) :
    ∀ i ∈ d.insts, i.matches 0x21000007 = false := by
  have h : (d.groups.all fun g => g.insts.all fun i => !i.matches 0x21000007) = true := by
    simp only [List.mem_cons, List.not_mem_nil, or_false] at hd
    rcases hd with rfl | rfl <;> decide +kernel
  intro i hi
  obtain ⟨g, hg, hi⟩ := List.mem_flatMap.1 hi
  simpa using List.all_eq_true.1 (List.all_eq_true.1 h g hg) i hi

/-! ## Non-vacuity -/

/-- `sub` of RV64G has neither a deviation nor a gap, and 0x403100b3 is one of its
words. -/
example : Op.sub ∉ Decoder.unsoundOps .rv64g_32 ∧ Decoder.gaps .rv64g_32 .sub = [] ∧
    Listed .rv64 .sub 0x403100b3 ∧ ¬ Listed .rv64 .sub 0x003100b3 := by
  refine ⟨by decide +kernel, by decide +kernel, ?_, ?_⟩
  · rw [← listed_iff]; decide +kernel
  · rw [← listed_iff]; decide +kernel

example : ∃ i ∈ Decoder.insts .rv64g_32, canon i.op = .sub ∧ i.matches 0x403100b3 = true := by
  have h : Grp.riscv64g_RiscVGInstBase32.named .sub 0x403100b3 = true := by decide +kernel
  obtain ⟨a, ha, ha1, ha2⟩ := named_mem h
  exact ⟨a, List.mem_flatMap.2 ⟨_, by decide, ha⟩, by rw [ha1]; rfl, ha2⟩

end Verif.Decode
