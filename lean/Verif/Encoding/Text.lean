import Verif.Encoding.Props

/-!
# C72, C73: which operand texts the assembler takes

C72: an operand that does not fit its field is refused.
C73: a register operand as printed by the disassembler is accepted and denotes
the same register.
-/

namespace Verif.Encoding

open BinFmt Spec

/-- The register name printed for a register operand with number `n`: the
aliases `kXRegisterAliases` or `kFRegisterAliases` (riscv_getters.h:75-300,
riscv_register_aliases.h:22-31).  Double precision operands print the same
names as single precision ones. -/
def printed (o : Operand) (n : Nat) : Option String :=
  match kind o with
  | .named .x => aliasesX[n]?
  | .named .f => aliasesF[n]?
  | .named .d => aliasesF[n]?
  | _ => none

/-! ## C72 -/

/-- Every decimal number of 31 bits is accepted by every immediate operand,
whatever the width of its field: an operand that does not fit is not refused. -/
theorem C72_unrepresentable_immediate_violated :
    ∃ o i e, ¬ Representable o.getter.fmt.decl o.getter.fld i ∧
      Means o 0#64 (.dec i) i ∧ encode o 0#64 (.dec i) = some e ∧
      decode o (assemble 0 e) ≠ i := by
  refine ⟨.src .IImm12, 4097, 0x00100000, ?_, rfl, by decide, by decide⟩
  rintro ⟨w, bs, hb, hx⟩
  have hr := extract_range (Fmt.IType.decl.isSigned .imm12) bs w
  have hb' : bs = down 20 12 :=
    (Option.some.inj ((show Fmt.IType.decl.bits .imm12 = some (down 20 12) by decide).symm.trans
      hb)).symm
  subst hb'
  have h1 := (hr.1 (by decide)).2
  have hx : extract (Fmt.IType.decl.isSigned .imm12) (down 20 12) w = 4097 := hx
  rw [hx] at h1
  exact absurd h1 (by decide)

/-- No immediate operand ever refuses a non-negative number below 2^31. -/
theorem C72_never_refused_violated (o : Operand) (hk : kind o = .number) (ho : o ∉ misplaced)
    (address : BitVec 64) (i : Int) (h0 : 0 ≤ i) (h1 : i < 2 ^ 31) :
    encode o address (.dec i) ≠ none := by
  have := C58_numbers_accepted o hk ho address i h0 h1
  intro h
  rw [h] at this
  exact absurd this (by decide)

/-- A branch to a target out of reach is assembled as a branch to somewhere
else: the target 4096 bytes ahead is assembled as 4096 bytes back. -/
theorem C72_far_branch_violated :
    ∃ e, encode (.src .BImm12) 0x1000#64 (.hex 0x2000) = some e ∧
      decode (.src .BImm12) (assemble 0 e) = -4096 :=
  ⟨0x80000000, by decide, by decide⟩

/-- A branch to an odd target is assembled as a branch to the even address
below. -/
theorem C72_odd_branch_violated :
    ∃ e, encode (.src .BImm12) 0x1000#64 (.hex 0x1005) = some e ∧
      decode (.src .BImm12) (assemble 0 e) = 4 :=
  ⟨0x200, by decide, by decide⟩

/-- Register operands: a name is accepted only if its number fits the field. -/
theorem C72_registers_partial (o : Operand) (ho : o ∉ misplaced) (c : Class)
    (hc : kind o = .named c) (address : BitVec 64) (s : String) (e : Nat)
    (he : encode o address (.name s) = some e) :
    ∃ l n, o.setter.how = .name l ∧ l.lookup s = some n ∧
      decode o (assemble 0 e) = (n : Int) := by
  obtain ⟨l, hl, _⟩ := named_setter o c hc
  have hall : ∀ p ∈ l,
      decode o (assemble 0 (insert (bitsOf o.setter.fmt o.setter.fld) (pattern (p.2 : Int)) 0))
        = (p.2 : Int) := by
    revert hl ho hc
    cases o with
    | src o =>
      cases o <;> intro ho hc hl <;>
        first
          | (simp [kind] at hc; done)
          | exact absurd (by decide) ho
          | (obtain rfl := How.name.inj hl; decide +kernel)
    | dst o =>
      cases o <;> intro ho hc hl <;>
        (obtain rfl := How.name.inj hl; decide +kernel)
  unfold encode at he
  rw [hl, number'_name] at he
  cases hk : l.lookup s with
  | none => rw [hk] at he; simp at he
  | some n =>
    rw [hk] at he
    have he := Option.some.inj he
    rw [← he]
    exact ⟨l, n, hl, hk, hall (s, n) (lookup_mem hk)⟩

example : encode (.src .C3rs2) 0#64 (.name "a0") = some 0x8 ∧
    encode (.src .C3rs2) 0#64 (.name "t6") = none := by
  constructor <;> decide +kernel

/-! ## C73 -/

/-- Integer and single precision register operands: the printed name is
accepted and decoded to the same register. -/
theorem C73_printed_names_partial (o : Operand) (ho : o ∉ misplaced)
    (hc : kind o = .named .x ∨ kind o = .named .f) (n : Nat) (s : String)
    (hr : Representable o.getter.fmt.decl o.getter.fld n) (hs : printed o n = some s)
    (address : BitVec 64) :
    ∃ e, encode o address (.name s) = some e ∧ decode o (assemble 0 e) = (n : Int) := by
  have hn : n ∈ List.range 32 := by
    rw [List.mem_range]
    rcases hc with hc | hc
    · simp only [printed, hc] at hs
      exact (List.getElem?_eq_some_iff.mp hs).1
    · simp only [printed, hc] at hs
      exact (List.getElem?_eq_some_iff.mp hs).1
  obtain ⟨w, bs, hb, hx⟩ := hr
  -- the compressed register fields only show 8 to 15
  have hcomp : (o = .src .C3rs1 ∨ o = .src .C3rs2 ∨ o = .dst .C3rd ∨ o = .dst .C3rs1) →
      8 ≤ n ∧ n < 16 := by
    intro ho'
    have hbs : ∃ a b c, bs = [.const false, .const true, .word a, .word b, .word c] := by
      rcases ho' with rfl | rfl | rfl | rfl <;>
        exact ⟨_, _, _, (Option.some.inj (hb.symm.trans (by rfl)))⟩
    have hsg : o.getter.fmt.decl.isSigned o.getter.fld = false := by
      rcases ho' with rfl | rfl | rfl | rfl <;> decide
    obtain ⟨a, b, c, rfl⟩ := hbs
    rw [hsg] at hx
    unfold extract at hx
    rw [if_neg (by simp)] at hx
    have hv : value w [.const false, .const true, .word a, .word b, .word c] = n := by
      exact_mod_cast hx
    have h8 : value w [.const false, .const true, .word a, .word b, .word c]
        = 8 + value w [.word a, .word b, .word c] := by
      rw [value_cons, value_cons]
      simp [weight, Bit.get]
    have hlt := value_lt w [.word a, .word b, .word c]
    simp only [List.length_cons, List.length_nil] at hlt
    omega
  have key : ∀ l, o.setter.how = .name l → l.lookup s = some n →
      ∃ e, encode o address (.name s) = some e ∧ decode o (assemble 0 e) = (n : Int) := by
    intro l hl hk
    have he : encode o address (.name s) =
        some (insert (bitsOf o.setter.fmt o.setter.fld) (pattern (n : Int)) 0) := by
      unfold encode
      rw [hl, number'_name, hk]
      rfl
    refine ⟨_, he, ?_⟩
    obtain ⟨c, hc'⟩ : ∃ c, kind o = .named c := by rcases hc with h | h <;> exact ⟨_, h⟩
    obtain ⟨l', n', hl', hk', hd⟩ := C72_registers_partial o ho c hc' address s _ he
    rw [hl] at hl'
    obtain rfl := How.name.inj hl'
    rw [hk] at hk'
    obtain rfl := Option.some.inj hk'
    exact hd
  have hX : ∀ n ∈ List.range 32, (aliasesX[n]?).all
      (fun s => namesRegister.lookup s == some n) = true := by decide +kernel
  have hF : ∀ n ∈ List.range 32, (aliasesF[n]?).all
      (fun s => namesFRegister.lookup s == some n) = true := by decide +kernel
  have hC : ∀ n ∈ List.range 32, 8 ≤ n ∧ n < 16 → (aliasesX[n]?).all
      (fun s => namesCRegister.lookup s == some n) = true := by decide +kernel
  have useX : kind o = .named .x → o.setter.how = .name namesRegister →
      ∃ e, encode o address (.name s) = some e ∧ decode o (assemble 0 e) = (n : Int) := by
    intro hk hl
    simp only [printed, hk] at hs
    have := hX n hn
    rw [hs] at this
    exact key _ hl (by simpa using this)
  have useF : kind o = .named .f → o.setter.how = .name namesFRegister →
      ∃ e, encode o address (.name s) = some e ∧ decode o (assemble 0 e) = (n : Int) := by
    intro hk hl
    simp only [printed, hk] at hs
    have := hF n hn
    rw [hs] at this
    exact key _ hl (by simpa using this)
  have useC : kind o = .named .x → o.setter.how = .name namesCRegister → 8 ≤ n ∧ n < 16 →
      ∃ e, encode o address (.name s) = some e ∧ decode o (assemble 0 e) = (n : Int) := by
    intro hk hl h8
    simp only [printed, hk] at hs
    have := hC n hn h8
    rw [hs] at this
    exact key _ hl (by simpa using this)
  rcases hc with hc | hc
  · cases o with
    | src o =>
      cases o <;>
        first
          | (simp [kind] at hc; done)
          | exact useX rfl rfl
          | exact useC rfl rfl (hcomp (by simp))
    | dst o =>
      cases o <;>
        first
          | (simp [kind] at hc; done)
          | exact useX rfl rfl
          | exact useC rfl rfl (hcomp (by simp))
  · cases o with
    | src o =>
      cases o <;>
        first
          | (simp [kind] at hc; done)
          | exact absurd (by decide) ho
          | exact useF rfl rfl
    | dst o =>
      cases o <;>
        first
          | (simp [kind] at hc; done)
          | exact useF rfl rfl

example : printed (.dst .C3rd) 9 = some "s1" ∧ Representable Fmt.CL.decl .cl_rd ((9 : Nat) : Int) ∧
    printed (.src .Rs2) 31 = some "t6" := by
  exact ⟨rfl, ⟨4, _, rfl, by decide⟩, rfl⟩

/-- Double precision operands: the printed name is never accepted, whatever the
register. -/
theorem C73_double_registers_violated (o : Operand) (hc : kind o = .named .d) (n : Nat)
    (s : String) (hs : printed o n = some s) (address : BitVec 64) :
    encode o address (.name s) = none := by
  simp only [printed, hc] at hs
  have hn : n ∈ List.range 32 := List.mem_range.mpr (List.getElem?_eq_some_iff.mp hs).1
  have hD : ∀ n ∈ List.range 32, (aliasesF[n]?).all
      (fun s => namesDRegister.lookup s == none) = true := by decide +kernel
  have hDC : ∀ n ∈ List.range 32, (aliasesF[n]?).all
      (fun s => namesDCRegister.lookup s == none) = true := by decide +kernel
  have h1 := hD n hn
  have h2 := hDC n hn
  rw [hs] at h1 h2
  have h1 : namesDRegister.lookup s = none := by simpa using h1
  have h2 : namesDCRegister.lookup s = none := by simpa using h2
  have key : ∀ l, o.setter.how = .name l → l.lookup s = none →
      encode o address (.name s) = none := by
    intro l hl hk
    unfold encode
    rw [hl, number'_name, hk]
    rfl
  cases o with
  | src o =>
    cases o <;>
      first
        | (simp [kind] at hc; done)
        | exact key namesDRegister rfl h1
        | exact key namesDCRegister rfl h2
  | dst o =>
    cases o <;>
      first
        | (simp [kind] at hc; done)
        | exact key namesDRegister rfl h1
        | exact key namesDCRegister rfl h2

example : kind (.src .Drs1) = .named .d ∧ printed (.src .Drs1) 10 = some "fa0" := ⟨rfl, rfl⟩

end Verif.Encoding
