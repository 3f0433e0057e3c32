import Verif.Described.Model

/-!
# C86: instructions are described as their mnemonics demand
-/

namespace Verif.Described

open Operands Spec

/-! ## Checking rows against descriptions, in order -/

def isPart (q : Part) (p : Phase) : Bool :=
  p.srcs == q.srcs.map .one && p.dsts.filter (· ≠ .one .Fflags) == q.dsts.map .one &&
  p.args == q.args &&
  match p.fn with
  | some c => c.name == q.fn
  | none => false

def areParts : List Part → List Phase → Bool
  | [], [] => true
  | q :: qs, p :: ps => isPart q p && areParts qs ps
  | _, _ => false

def described (r : Row) (i : Instr) : Bool :=
  match r with
  | .does _ qs => areParts qs i.phases
  | .hint _ => i.phases.all fun p => match p.fn with
    | some c => c.name == "RiscVINop"
    | none => false

theorem isPart_iff (q : Part) (p : Phase) : isPart q p = true ↔ IsPart q p := by
  unfold isPart IsPart
  rw [Bool.and_eq_true, Bool.and_eq_true, Bool.and_eq_true, beq_iff_eq, beq_iff_eq, beq_iff_eq]
  cases hf : p.fn with
  | none => simp
  | some c => simp [and_assoc]

theorem areParts_iff : ∀ (qs : List Part) (ps : List Phase), areParts qs ps = true ↔ AreParts qs ps
  | [], [] => by simp [areParts, AreParts]
  | [], _ :: _ => by simp [areParts, AreParts]
  | _ :: _, [] => by simp [areParts, AreParts]
  | q :: qs, p :: ps => by
    simp only [areParts, AreParts, Bool.and_eq_true, isPart_iff, areParts_iff qs ps]

theorem described_iff (r : Row) (i : Instr) (h : r.name = i.name) :
    described r i = true ↔ Described r i := by
  unfold Described described
  cases r with
  | does n qs => simp only [areParts_iff]; exact ⟨fun x => ⟨h, x⟩, fun x => x.2⟩
  | hint n =>
    simp only [List.all_eq_true]
    constructor
    · intro hx
      refine ⟨h, fun p hp => ?_⟩
      have := hx p hp
      cases hf : p.fn with
      | none => rw [hf] at this; cases this
      | some c => rw [hf] at this; exact ⟨c, rfl, beq_iff_eq.1 this⟩
    · rintro ⟨-, hx⟩ p hp
      obtain ⟨c, hc, hn⟩ := hx p hp
      rw [hc]; exact beq_iff_eq.2 hn

/-- The rows and the descriptions agree in order, except that those with a name
in `wrong` must not. -/
def aligned (wrong : List String) : List Row → List Instr → Bool
  | [], [] => true
  | r :: rs, i :: is =>
    r.name == i.name && (described r i != wrong.contains i.name) && aligned wrong rs is
  | _, _ => false

theorem aligned_spec {wrong : List String} : ∀ {rs : List Row} {is : List Instr},
    aligned wrong rs is = true → ∀ i ∈ is, ∃ r ∈ rs, r.name = i.name ∧
      (i.name ∉ wrong → Described r i) ∧ (i.name ∈ wrong → ¬ Described r i)
  | [], [], _, i, hi => by cases hi
  | [], _ :: _, h, _, _ => by cases h
  | _ :: _, [], h, _, _ => by cases h
  | r :: rs, j :: is, h, i, hi => by
    unfold aligned at h
    rw [Bool.and_eq_true, Bool.and_eq_true, beq_iff_eq] at h
    obtain ⟨⟨hn, hd⟩, ht⟩ := h
    rcases List.mem_cons.1 hi with rfl | hi
    · refine ⟨r, List.mem_cons_self, hn, ?_, ?_⟩
      · intro hw
        have : wrong.contains i.name = false := by
          rw [← Bool.not_eq_true, List.contains_iff_mem]; exact hw
        rw [this] at hd
        exact (described_iff r i hn).1 (by simpa using hd)
      · intro hw hD
        have : wrong.contains i.name = true := List.contains_iff_mem.2 hw
        rw [this, (described_iff r i hn).2 hD] at hd
        cases hd
    · obtain ⟨r', hr', h'⟩ := aligned_spec ht i hi
      exact ⟨r', List.mem_cons_of_mem _ hr', h'⟩

theorem aligned_names {wrong : List String} : ∀ {rs : List Row} {is : List Instr},
    aligned wrong rs is = true → rs.map Row.name = is.map Instr.name
  | [], [], _ => rfl
  | [], _ :: _, h => by cases h
  | _ :: _, [], h => by cases h
  | r :: rs, j :: is, h => by
    unfold aligned at h
    rw [Bool.and_eq_true, Bool.and_eq_true, beq_iff_eq] at h
    rw [List.map_cons, List.map_cons, h.1.1, aligned_names h.2]

def Group.all : List Group :=
  [.i32, .c32, .chints32, .m32, .a32, .f32, .d32, .hints32, .zicsr32, .zfencei32, .privileged32,
   .zba32, .zbb32, .zbbImm32, .zbc32, .zbs32, .zbsImm32, .zicond32, .zfh32,
   .i64, .c64, .chints64, .m64, .a64, .f64, .d64, .hints64, .zicsr64, .zfencei64, .privileged64,
   .zba64, .zbb64, .zbbImm64, .zbc64, .zbs64, .zbsImm64, .zicond64, .zfh64,
   .zca32, .zcb32, .zcf32, .zcd32, .zca64, .vector, .zve32x, .zvbb]

theorem Group.mem_all (g : Group) : g ∈ Group.all := by cases g <;> simp [Group.all]

set_option maxRecDepth 100000 in
theorem table : (Group.all.all fun g => aligned g.wrong g.rows g.instrs) = true := by
  decide +kernel

theorem group (g : Group) : aligned g.wrong g.rows g.instrs = true :=
  List.all_eq_true.1 table g (Group.mem_all g)

/-! ## C86 -/

/-- C86: every instruction of the repository's descriptions, except those listed
in `wrong`, has the operands and the function that its mnemonic demands. -/
theorem C86_described_partial (g : Group) (i : Instr) (hi : i ∈ g.instrs) (hw : i.name ∉ g.wrong) :
    ∃ r ∈ g.rows, Described r i := by
  obtain ⟨r, hr, -, h, -⟩ := aligned_spec (group g) i hi
  exact ⟨r, hr, h hw⟩

/-- And the descriptions hold the instructions of the specification, each once
and no others. -/
theorem C86_complete (g : Group) : g.rows.map Row.name = g.instrs.map Instr.name :=
  aligned_names (group g)

/-- The instruction sets that have a decoder, and those of half precision and
`Zvbb`, consist of these groups. -/
theorem C86_groups (a : Isa) (gs : List Group) (h : isaGroups a = some gs) (i : Instr) :
    i ∈ a.instrs ↔ ∃ g ∈ gs, i ∈ g.instrs := by
  have : ∀ gs : List Group, (∃ g ∈ gs, i ∈ g.instrs) ↔ i ∈ (gs.map (·.instrs)).flatten := by
    intro gs
    rw [List.mem_flatten]
    constructor
    · rintro ⟨g, hg, hi⟩; exact ⟨_, List.mem_map.2 ⟨g, hg, rfl⟩, hi⟩
    · rintro ⟨l, hl, hi⟩
      obtain ⟨g, hg, rfl⟩ := List.mem_map.1 hl
      exact ⟨g, hg, hi⟩
  rw [this]
  cases a <;>
    first
      | (cases h; done)
      | (cases h
         simp only [Isa.instrs, slot_riscv32g, slot_riscv32gzb, slot_riscv32gv, slot_riscv32gvzb,
           slot_riscv64g, slot_riscv64gzb, slot_riscv64gv, slot_riscv64gvzb, groups32, groups32b,
           groups64, groups64b, Group.instrs, List.map_cons, List.map_nil, List.cons_append,
           List.nil_append, List.flatten_cons, List.flatten_nil, List.mem_append,
           List.not_mem_nil, or_false, or_assoc])

/-- C86 for an instruction set. -/
theorem C86_isa_partial (a : Isa) (gs : List Group) (h : isaGroups a = some gs) (i : Instr)
    (hi : i ∈ a.instrs) (hw : ∀ g ∈ gs, i.name ∉ g.wrong) :
    ∃ g ∈ gs, ∃ r ∈ g.rows, Described r i := by
  obtain ⟨g, hg, hi⟩ := (C86_groups a gs h i).1 hi
  exact ⟨g, hg, C86_described_partial g i hi (hw g hg)⟩

/-- C86 fails for the instructions in `wrong`: the row of the same name demands
something else. -/
theorem wrong_violated (g : Group) (n : String) (hn : n ∈ g.wrong) :
    (∃ i ∈ g.instrs, i.name = n) → ∃ i ∈ g.instrs, i.name = n ∧
      ∃ r ∈ g.rows, r.name = n ∧ ¬ Described r i := by
  rintro ⟨i, hi, rfl⟩
  obtain ⟨r, hr, he, -, h⟩ := aligned_spec (group g) i hi
  exact ⟨i, hi, rfl, r, hr, he, h hn⟩

set_option maxRecDepth 100000 in
theorem wrong_there : (Group.all.all fun g => g.wrong.all fun n =>
    g.instrs.any fun i => i.name == n) = true := by decide +kernel

/-- C86 fails for each instruction in `wrong`. -/
theorem C86_described_violated (g : Group) (n : String) (hn : n ∈ g.wrong) :
    ∃ i ∈ g.instrs, i.name = n ∧ ∃ r ∈ g.rows, r.name = n ∧ ¬ Described r i := by
  refine wrong_violated g n hn ?_
  have h := List.all_eq_true.1 (List.all_eq_true.1 wrong_there g (Group.mem_all g)) n hn
  obtain ⟨i, hi, h⟩ := List.any_eq_true.1 h
  exact ⟨i, hi, beq_iff_eq.1 h⟩

/-- How the instructions in `wrong` are described instead. -/
def found : Group → List Row
  | .c32 =>
    [ ld "cflwsp" "RV32::RiscVILw" "RV32::RiscVILwChild" .X2 .ICiUimm6x4 .Frd,
      ld "cfldsp" "RV64::RiscVILd" "RV64::RiscVILdChild" .X2 .ICiUimm6x8 .Drd,
      st "cfswsp" "RV32::RiscVISw" .X2 .ICssUimm6x4 .Cfrs2,
      st "cfsdsp" "RV64::RiscVISd" .X2 .ICssUimm6x8 .Cdrs2,
      ld "cflw" "RV32::RiscVILw" "RV32::RiscVILwChild" .C3rs1 .IClUimm5x4 .C3frd,
      ld "cfld" "RV64::RiscVILd" "RV64::RiscVILdChild" .C3rs1 .IClUimm5x8 .C3drd,
      st "cfsw" "RV32::RiscVISw" .C3rs1 .IClUimm5x4 .C3frs2 ]
  | .c64 =>
    [ st "cfsdsp" "RV64::RiscVISd" .X2 .ICssUimm6x8 .Cdrs2,
      st "cfsd" "RV64::RiscVISd" .C3rs1 .IClUimm5x8 .C3drs2 ]
  | .zcb32 =>
    [ one "c_zext_b" [.C3rs1] [.C3rd] "RV32::RiscVZextB",
      one "c_sext_b" [.C3rs1] [.C3rd] "RV32::RiscVSextB",
      one "c_zext_h" [.C3rs1] [.C3rd] "RV32::RiscVZextH",
      one "c_sext_h" [.C3rs1] [.C3rd] "RV32::RiscVSextH",
      one "c_not" [.C3rs1] [.C3rd] "RV32::RiscVNot",
      one "c_mul" [.C3rs1, .C3rs2] [.C3rd] "RV32::MMul" ]
  | .vector =>
    widths.map (fun (n, b, _) =>
      vst ("vsuxsegei" ++ n) [.Vs3, .Rs1, .Vs2, .Vmask, .Nf] "VsSegmentStrided" [b]) ++
    bin "vsll" "Vsll" [.vi] ++ bin "vsrl" "Vsrl" [.vi] ++ bin "vsra" "Vsra" [.vi] ++
    [one "vfmerge_vf" [.Vs2, .Vs1, .Vmask] [.Vd] "Vfmerge"] ++
    bin "vfwadd_w" "Vfwadd" [.vv, .vf] ++ bin "vfwsub_w" "Vfwsub" [.vv, .vf]
  | _ => []

def foundIn (g : Group) (r : Row) : Bool :=
  g.instrs.any fun i => r.name == i.name && described r i

set_option maxRecDepth 100000 in
theorem found_table : (Group.all.all fun g => (found g).all (foundIn g)) = true := by
  decide +kernel

/-- What is wrong with them: indexed-unordered segment stores are strided
(riscv_vector.isa:433-442); immediate shift amounts are sign-extended
(701,728,737); `vfmerge.vfm` merges a vector register (1110); the `.w` forms of
the widening additions and subtractions widen both operands (1226-1235);
compressed floating-point loads and stores of RV32 use integer functions, and
64-bit ones for doubles (riscv32g.isa:873-910, riscv_zc.isa); the `Zcb`
instructions write a register that their encoding does not name. -/
theorem C86_found_violated (g : Group) (r : Row) (hr : r ∈ found g) :
    ∃ i ∈ g.instrs, Described r i := by
  have h := List.all_eq_true.1 (List.all_eq_true.1 found_table g (Group.mem_all g)) r hr
  obtain ⟨i, hi, h⟩ := List.any_eq_true.1 h
  rw [Bool.and_eq_true, beq_iff_eq] at h
  exact ⟨i, hi, (described_iff r i h.1).1 h.2⟩

/-- `vfwredosum.vs` has no function at all (riscv_vector.isa:1224). -/
theorem C86_vfwredosum_violated : ∃ i ∈ slot_riscv_vector, i.name = "vfwredosum_vv" ∧
    ∀ p ∈ i.phases, p.fn = none := by
  have h : (slot_riscv_vector.any fun i => i.name == "vfwredosum_vv" &&
      i.phases.all fun p => p.fn.isNone) = true := by
    set_option maxRecDepth 100000 in decide +kernel
  obtain ⟨i, hi, h⟩ := List.any_eq_true.1 h
  rw [Bool.and_eq_true, beq_iff_eq, List.all_eq_true] at h
  exact ⟨i, hi, h.1, fun p hp => Option.isNone_iff_eq_none.1 (h.2 p hp)⟩

/-! ## The statements are about something -/

example : Spec.vector.length = 427 := by decide +kernel

example : Described (one "add" [.Rs1, .Rs2] [.Rd] "RV32::RiscVIAdd")
    ⟨"add", [⟨[.one .Rs1, .one .Rs2], [.one .Rd], some rv32_RiscVIAdd, []⟩]⟩ :=
  (described_iff _ _ rfl).1 (by decide +kernel)

/-- Operands in the wrong order are not accepted. -/
example : ¬ Described (one "sub" [.Rs1, .Rs2] [.Rd] "RV32::RiscVISub")
    ⟨"sub", [⟨[.one .Rs2, .one .Rs1], [.one .Rd], some rv32_RiscVISub, []⟩]⟩ :=
  fun h => absurd ((described_iff _ _ rfl).2 h) (by decide +kernel)

end Verif.Described
