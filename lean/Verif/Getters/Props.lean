import Verif.Getters.Spec
import Verif.BinFmt.Lemmas

/-!
# C84: operands come from the bits the instruction set manual says
-/

namespace Verif.Getters

open BinFmt Spec

/-! ## Bit lists -/

/-- Word bits followed by constant zeros. -/
def laid (ps : List Nat) (z : Nat) : List Bit := ps.map Bit.word ++ List.replicate z (.const false)

theorem value_word (w p : Nat) (bs : List Bit) :
    value w (.word p :: bs) = (if w.testBit p then 2 ^ bs.length else 0) + value w bs := by
  rfl

theorem value_zeros (w z : Nat) : value w (List.replicate z (.const false)) = 0 := by
  induction z with
  | zero => rfl
  | succ n ih => simp [List.replicate_succ, value, Bit.get, ih]

theorem laid_length (ps : List Nat) (z : Nat) : (laid ps z).length = ps.length + z := by
  simp [laid]

theorem laid_cons (p : Nat) (ps : List Nat) (z : Nat) :
    laid (p :: ps) z = .word p :: laid ps z := rfl

theorem value_laid (w : Nat) (ps : List Nat) (z : Nat) :
    value w (laid ps z) = unsigned w ps * 2 ^ z := by
  induction ps with
  | nil => simp [laid, value_zeros, unsigned]
  | cons p ps ih =>
    rw [laid_cons, value_word, ih, unsigned, laid_length, Nat.add_mul]
    split
    · rw [Nat.pow_add]
    · simp

theorem unsigned_lt (w : Nat) (ps : List Nat) : unsigned w ps < 2 ^ ps.length := by
  have h := value_lt w (laid ps 0)
  rw [value_laid, laid_length] at h
  simpa using h

theorem extract_unsigned (w : Nat) (ps : List Nat) (z : Nat) :
    extract false (laid ps z) w = (unsigned w ps : Int) * ((2 ^ z : Nat) : Int) := by
  simp [extract, value_laid]

theorem signed_eq (w p : Nat) (ps : List Nat) :
    signed w (p :: ps) =
      (unsigned w (p :: ps) : Int) - (if w.testBit p then ((2 ^ (ps.length + 1) : Nat) : Int) else 0) := by
  simp only [signed, unsigned]
  split
  · rw [Nat.pow_succ]
    push_cast
    omega
  · simp

theorem top_iff (w p : Nat) (ps : List Nat) :
    2 ^ (ps.length + 1) ≤ 2 * unsigned w (p :: ps) ↔ w.testBit p = true := by
  have h := unsigned_lt w ps
  simp only [unsigned]
  rw [Nat.pow_succ]
  split
  · rename_i hb
    simp [hb]
    omega
  · rename_i hb
    simp [hb]
    omega

theorem extract_signed (w p : Nat) (ps : List Nat) (z : Nat) :
    extract true (laid (p :: ps) z) w = signed w (p :: ps) * ((2 ^ z : Nat) : Int) := by
  have hz : 0 < 2 ^ z := Nat.two_pow_pos z
  have ht := top_iff w p ps
  unfold extract
  rw [value_laid, laid_length, List.length_cons, signed_eq]
  have he : (2 ^ (ps.length + 1 + z) ≤ 2 * (unsigned w (p :: ps) * 2 ^ z)) ↔ w.testBit p = true := by
    rw [← ht, Nat.pow_add, ← Nat.mul_assoc]
    exact ⟨fun h => Nat.le_of_mul_le_mul_right h hz, fun h => Nat.mul_le_mul_right _ h⟩
  by_cases hb : w.testBit p = true
  · rw [if_pos ⟨rfl, he.2 hb⟩, if_pos hb, Int.sub_mul]
    push_cast
    rw [Int.pow_add]
  · rw [if_neg (fun h => hb (he.1 h.2)), if_neg hb, Int.sub_zero]
    push_cast
    rfl

/-! ## The check -/

/-- A field is laid out as the given bits and zeros. -/
def laidOut (fmt : Fmt) (fld : Fld) (b : List (Nat × Nat)) (z : Nat) : Bool :=
  decide (fmt.decl.bits fld = some (laid (Spec.positions b) z))

/-- A field holds `01` and the given three bits. -/
def laidOut3 (fmt : Fmt) (fld : Fld) (b : List (Nat × Nat)) : Bool :=
  decide (fmt.decl.bits fld = some (.const false :: .const true :: laid (Spec.positions b) 0)) &&
    decide ((Spec.positions b).length = 3)

/-- A getter gives what a source operand has to be. -/
def okSource : What → Meaning → Bool
  | .imm s fmt fld, .simm b k =>
    decide (k = 2 ^ k.log2) && laidOut fmt fld b k.log2 && s &&
      (decide (1 ≤ (Spec.positions b).length) &&
        ((fmt.decl.isSigned fld && decide ((Spec.positions b).length + k.log2 ≤ 32)) ||
          (!fmt.decl.isSigned fld && decide ((Spec.positions b).length + k.log2 = 32))))
  | .imm _ fmt fld, .uimm b k =>
    decide (k = 2 ^ k.log2) && laidOut fmt fld b k.log2 && !fmt.decl.isSigned fld &&
      decide ((Spec.positions b).length + k.log2 < 32)
  | .xreg _ fmt fld, .x b => laidOut fmt fld b 0 && !fmt.decl.isSigned fld
  | .xreg _ fmt fld, .x3 b => laidOut3 fmt fld b && !fmt.decl.isSigned fld
  | .freg fmt fld, .f b => laidOut fmt fld b 0 && !fmt.decl.isSigned fld
  | .freg fmt fld, .f3 b => laidOut3 fmt fld b && !fmt.decl.isSigned fld
  | .vgroup fmt fld, .v b =>
    laidOut fmt fld b 0 && !fmt.decl.isSigned fld && decide ((Spec.positions b).length = 5)
  | .sreg fmt fld, .s b =>
    laidOut fmt fld b 0 && !fmt.decl.isSigned fld && decide ((Spec.positions b).length = 3)
  | .mask fmt fld, .mask b => laidOut fmt fld [(b, b)] 0 && !fmt.decl.isSigned fld
  | .allTrue, .always => true
  | .const n, .lit m => decide (n = m)
  | .xfixed n, .reg m => decide (n = m)
  | _, _ => false

/-- A getter gives what a destination operand has to be. -/
def okDest : What → Meaning → Bool
  | .xreg z fmt fld, .x b => z && okSource (.xreg z fmt fld) (.x b)
  | .discard, .reg n => decide (n = 0)
  | .xfixed n, .reg m => decide (n = m) && decide (n ≠ 0)
  | .xreg z fmt fld, .x3 b => okSource (.xreg z fmt fld) (.x3 b)
  | .freg fmt fld, .f b => okSource (.freg fmt fld) (.f b)
  | .freg fmt fld, .f3 b => okSource (.freg fmt fld) (.f3 b)
  | .vgroup fmt fld, .v b => okSource (.vgroup fmt fld) (.v b)
  | .sreg fmt fld, .s b => okSource (.sreg fmt fld) (.s b)
  | _, _ => false

theorem read_unsigned {fmt : Fmt} {fld : Fld} {b : List (Nat × Nat)} {z : Nat}
    (h : laidOut fmt fld b z = true) (hs : fmt.decl.isSigned fld = false) (w : Nat) :
    read fmt fld w = (unsigned w (Spec.positions b) : Int) * ((2 ^ z : Nat) : Int) := by
  unfold laidOut at h
  rw [decide_eq_true_iff] at h
  simp [read, h, hs, extract_unsigned]

theorem num_eq {fmt : Fmt} {fld : Fld} {b : List (Nat × Nat)}
    (h : laidOut fmt fld b 0 = true) (hs : fmt.decl.isSigned fld = false) (w : Nat) :
    num fmt fld w = unsigned w (Spec.positions b) := by
  simp [num, read_unsigned h hs w]

theorem num3_eq {fmt : Fmt} {fld : Fld} {b : List (Nat × Nat)}
    (h : laidOut3 fmt fld b = true) (hs : fmt.decl.isSigned fld = false) (w : Nat) :
    num fmt fld w = 8 + unsigned w (Spec.positions b) := by
  unfold laidOut3 at h
  simp only [Bool.and_eq_true, decide_eq_true_eq] at h
  obtain ⟨h, hl⟩ := h
  simp [num, read, h, hs, extract, value, Bit.get, value_laid, laid_length, hl]
  omega

theorem read_signed {fmt : Fmt} {fld : Fld} {b : List (Nat × Nat)} {z : Nat}
    (h : laidOut fmt fld b z = true) (hs : fmt.decl.isSigned fld = true)
    (hl : 1 ≤ (Spec.positions b).length) (w : Nat) :
    read fmt fld w = signed w (Spec.positions b) * ((2 ^ z : Nat) : Int) := by
  unfold laidOut at h
  rw [decide_eq_true_iff] at h
  cases hp : Spec.positions b with
  | nil => simp [hp] at hl
  | cons p ps =>
    rw [hp] at h
    simp [read, h, hs, extract_signed]

theorem convert_fits (z : Int) (h₁ : -2 ^ 31 ≤ z) (h₂ : z < 2 ^ 31) : convert true z = z := by
  simp only [convert, if_true, BitVec.toInt_ofInt]
  rw [Int.bmod_def]
  split <;> omega

theorem convert_nonneg (s : Bool) (z : Int) (h₁ : 0 ≤ z) (h₂ : z < 2 ^ 31) : convert s z = z := by
  cases s
  · simp [convert]
    omega
  · exact convert_fits z (by omega) h₂

theorem signed_bound (w : Nat) (ps : List Nat) (h : 1 ≤ ps.length) :
    -2 ^ (ps.length - 1) ≤ signed w ps ∧ signed w ps < 2 ^ (ps.length - 1) := by
  cases ps with
  | nil => simp at h
  | cons p ps =>
    have hl := unsigned_lt w ps
    have hl' : (unsigned w ps : Int) < 2 ^ ps.length := by exact_mod_cast hl
    have hp : (0 : Int) < 2 ^ ps.length := by exact_mod_cast Nat.two_pow_pos ps.length
    simp only [signed, List.length_cons, Nat.add_sub_cancel]
    split <;> omega

theorem sreg_eq (n : Nat) (h : n < 8) : sregs n = sreg n := by
  revert n
  decide

theorem group_holds (n : Nat) (h : n < 32) : Group n (.v n (numRegs n)) := by
  refine ⟨numRegs n, rfl, ?_, ?_⟩
  · intro m hm hd
    have : ∀ n, n < 32 → ∀ m, m < 9 → (m = 1 ∨ m = 2 ∨ m = 4 ∨ m = 8) → n % m = 0 →
      m ≤ numRegs n := by decide
    exact this n h m (by omega) hm hd
  · revert n
    decide

/-- The product of a bounded number and a power of two stays in range. -/
theorem scaled_bound {s : Int} {n k : Nat} (hn : 1 ≤ n) (hk : n + k ≤ 32)
    (h₁ : -2 ^ (n - 1) ≤ s) (h₂ : s < 2 ^ (n - 1)) :
    -2 ^ 31 ≤ s * ((2 ^ k : Nat) : Int) ∧ s * ((2 ^ k : Nat) : Int) < 2 ^ 31 := by
  have hp : (0 : Int) < ((2 ^ k : Nat) : Int) := by exact_mod_cast Nat.two_pow_pos k
  have e : (2 : Int) ^ (n - 1) * ((2 ^ k : Nat) : Int) ≤ 2 ^ 31 := by
    have : (2 : Nat) ^ (n - 1) * 2 ^ k ≤ 2 ^ 31 := by
      rw [← Nat.pow_add]
      exact Nat.pow_le_pow_right (by decide) (by omega)
    exact_mod_cast this
  have a := Int.mul_le_mul_of_nonneg_right h₁ (Int.le_of_lt hp)
  have b := Int.mul_lt_mul_of_pos_right h₂ hp
  rw [Int.neg_mul] at a
  constructor <;> omega

/-- An unsigned 32 bit field converted to a signed operand is the two's
complement reading. -/
theorem convert_wrap (w : Nat) (ps : List Nat) (k : Nat) (h1 : 1 ≤ ps.length)
    (h : ps.length + k = 32) :
    convert true ((unsigned w ps : Int) * ((2 ^ k : Nat) : Int)) =
      signed w ps * ((2 ^ k : Nat) : Int) := by
  have hb := signed_bound w ps h1
  have hs := scaled_bound h1 (by omega) hb.1 hb.2 (k := k)
  cases ps with
  | nil => simp at h1
  | cons p ps =>
    have e : (unsigned w (p :: ps) : Int) * ((2 ^ k : Nat) : Int) =
        signed w (p :: ps) * ((2 ^ k : Nat) : Int) +
          (if w.testBit p then (2 ^ 32 : Int) else 0) := by
      rw [signed_eq, Int.sub_mul]
      split
      · have : ((2 ^ (ps.length + 1) : Nat) : Int) * ((2 ^ k : Nat) : Int) = 2 ^ 32 := by
          have : (2 : Nat) ^ (ps.length + 1) * 2 ^ k = 2 ^ 32 := by
            rw [← Nat.pow_add]
            congr 1
          exact_mod_cast this
        omega
      · omega
    rw [e]
    generalize signed w (p :: ps) * ((2 ^ k : Nat) : Int) = t at hs
    simp only [convert, if_true, BitVec.toInt_ofInt]
    rw [Int.bmod_def]
    split <;> split <;> omega

theorem okSource_reads {g : What} {m : Meaning} (h : okSource g m = true) (w : Nat) :
    Reads w (g.source w) m := by
  unfold okSource at h
  split at h
  all_goals try simp only [Bool.and_eq_true, Bool.or_eq_true, decide_eq_true_eq,
    Bool.not_eq_true'] at h
  · -- signed number
    rename_i s fmt fld b k
    obtain ⟨⟨⟨hk, hl⟩, rfl⟩, h1, hcase⟩ := h
    show Val.number _ = Val.number _
    congr 1
    generalize k.log2 = z at *
    subst hk
    have hb := signed_bound w (Spec.positions b) h1
    rcases hcase with ⟨hs, hle⟩ | ⟨hs, heq⟩
    · rw [read_signed hl hs h1]
      have := scaled_bound h1 hle hb.1 hb.2
      exact convert_fits _ this.1 this.2
    · rw [read_unsigned hl hs]
      exact convert_wrap w _ _ h1 heq
  · -- unsigned number
    rename_i s fmt fld b k
    obtain ⟨⟨⟨hk, hl⟩, hs⟩, hlt⟩ := h
    show Val.number _ = Val.number _
    congr 1
    generalize k.log2 = z at *
    subst hk
    rw [read_unsigned hl hs]
    have h := unsigned_lt w (Spec.positions b)
    have : unsigned w (Spec.positions b) * 2 ^ z < 2 ^ 31 := by
      calc _ < 2 ^ (Spec.positions b).length * 2 ^ z :=
            (Nat.mul_lt_mul_right (Nat.two_pow_pos z)).2 h
        _ = 2 ^ ((Spec.positions b).length + z) := (Nat.pow_add _ _ _).symm
        _ ≤ 2 ^ 31 := Nat.pow_le_pow_right (by decide) (by omega)
    have h0 : (0 : Int) ≤ (unsigned w (Spec.positions b) : Int) * ((2 ^ z : Nat) : Int) :=
      Int.mul_nonneg (Int.natCast_nonneg _) (Int.natCast_nonneg _)
    exact convert_nonneg _ _ h0 (by exact_mod_cast this)
  · rename_i z fmt fld b
    have e := num_eq h.1 h.2 w
    show (if z = true ∧ num fmt fld w = 0 then Val.number 0 else Val.x (num fmt fld w)) = _ ∨ _ ∧
      (if z = true ∧ num fmt fld w = 0 then Val.number 0 else Val.x (num fmt fld w)) = _
    rw [e]
    split
    · rename_i hz
      exact Or.inr ⟨hz.2, rfl⟩
    · exact Or.inl rfl
  · rename_i z fmt fld b
    have e := num3_eq h.1 h.2 w
    show (if z = true ∧ num fmt fld w = 0 then Val.number 0 else Val.x (num fmt fld w)) = _
    rw [e, if_neg (by omega)]
  · show Val.f _ = Val.f _
    rw [num_eq h.1 h.2 w]
  · show Val.f _ = Val.f _
    rw [num3_eq h.1 h.2 w]
  · rename_i fmt fld b
    show Group _ (Val.v (num fmt fld w) (numRegs (num fmt fld w)))
    rw [num_eq h.1.1 h.1.2 w]
    have := unsigned_lt w (Spec.positions b)
    rw [h.2] at this
    exact group_holds _ this
  · rename_i fmt fld b
    show Val.x _ = Val.x _
    have := unsigned_lt w (Spec.positions b)
    rw [h.2] at this
    rw [num_eq h.1.1 h.1.2 w, sreg_eq _ this]
  · rename_i fmt fld b
    show (if num fmt fld w = 1 then Val.allTrue else Val.v 0 1) = _
    rw [num_eq h.1 h.2 w]
    simp [Spec.positions, unsigned]
  · rfl
  · show Val.number _ = Val.number _
    rw [h]
  · show Val.x _ = Val.x _
    rw [h]
  · cases h

theorem okDest_writes {g : What} {m : Meaning} (h : okDest g m = true) (w : Nat) :
    Writes w (g.dest w) m := by
  unfold okDest at h
  split at h
  · rename_i z fmt fld b
    simp only [Bool.and_eq_true, okSource, Bool.not_eq_true'] at h
    obtain ⟨rfl, hl, hs⟩ := h
    show (if true = true ∧ num fmt fld w = 0 then Val.discard else Val.x (num fmt fld w)) = _
    rw [num_eq hl hs w]
    simp
  · simp only [decide_eq_true_eq] at h
    subst h
    rfl
  · simp only [Bool.and_eq_true, decide_eq_true_eq] at h
    obtain ⟨rfl, h⟩ := h
    show Val.x _ = _
    rw [if_neg h]
  · rename_i z fmt fld b
    have h' := h
    simp only [okSource, Bool.and_eq_true, Bool.not_eq_true'] at h'
    have e := num3_eq h'.1 h'.2 w
    show (if z = true ∧ num fmt fld w = 0 then Val.discard else Val.x (num fmt fld w)) = Val.x _
    rw [e, if_neg (by omega)]
  · exact okSource_reads h w
  · exact okSource_reads h w
  · exact okSource_reads h w
  · exact okSource_reads h w
  · cases h

theorem opd_mem (o : Opd) : o ∈ Opd.all := by cases o <;> decide

theorem enc_mem (e : Enc) : e ∈ Enc.all := by cases e <;> decide

/-- Source operands that are not what the manual says, see the `_violated`
theorems. -/
def oddSource : Enc → Opd → Bool
  | .rv32gv, .Zimm10 | .rv32gv, .Zimm11 | .rv64gv, .Zimm10 | .rv64gv, .Zimm11 => true
  | .rv32gvzb, .Zimm10 | .rv32gvzb, .Zimm11 | .rv64gvzb, .Zimm10 | .rv64gvzb, .Zimm11 => true
  | .zvbb, .Vs1 | .zvbb, .Vs2 => true
  | .zc, .Uimm2b | .zc, .ICiUimm6x8 | .zc, .IClUimm5x8 | .zc, .ICssUimm6x8 | .zc, .Crd => true
  | _, _ => false

/-- Destination operands that are not what the manual says. -/
def oddDest : Enc → Opd → Bool
  | .rv64g, .C3drd | .rv32gv, .C3drd | .rv32gv, .C3frd | .rv64gv, .C3drd => true
  | .zc, .C3rs2 => true
  | _, _ => false

/-- The whole source table agrees. -/
theorem source_table :
    (Enc.all.all fun e => Opd.all.all fun o =>
      match e.source o with
      | none => true
      | some g => oddSource e o || match Spec.source o with
        | none => false
        | some m => okSource g m) = true := by
  decide +kernel

/-- The whole destination table agrees. -/
theorem dest_table :
    (Enc.all.all fun e => Opd.all.all fun o =>
      match e.dest o with
      | none => true
      | some g => oddDest e o || match Spec.dest o with
        | none => decide (o = .Csr ∨ o = .NextPc ∨ o = .Fflags)
        | some m => okDest g m) = true := by
  decide +kernel

/-! ## The property -/

/-- **C84** (source operands).  In every encoding class, every source operand
made from the instruction word is the number or register that the manual reads
from the word, for all words; the exceptions are in `oddSource`. -/
theorem C84_source_partial (e : Enc) (o : Opd) (g : What) (h : e.source o = some g)
    (hodd : oddSource e o = false) (w : Nat) :
    ∃ m, Spec.source o = some m ∧ Reads w (g.source w) m := by
  have t := List.all_eq_true.1 (List.all_eq_true.1 source_table e (enc_mem e)) o (opd_mem o)
  simp only [h, hodd, Bool.false_or] at t
  cases hm : Spec.source o with
  | none => simp [hm] at t
  | some m =>
    rw [hm] at t
    exact ⟨m, rfl, okSource_reads t w⟩

/-- **C84** (destination operands).  The same for the register written; what is
written to integer register 0 is dropped. -/
theorem C84_dest_partial (e : Enc) (o : Opd) (g : What) (h : e.dest o = some g)
    (hodd : oddDest e o = false) (hn : o ≠ .Csr ∧ o ≠ .NextPc ∧ o ≠ .Fflags) (w : Nat) :
    ∃ m, Spec.dest o = some m ∧ Writes w (g.dest w) m := by
  have t := List.all_eq_true.1 (List.all_eq_true.1 dest_table e (enc_mem e)) o (opd_mem o)
  simp only [h, hodd, Bool.false_or] at t
  cases hm : Spec.dest o with
  | none => simp [hm, hn] at t
  | some m =>
    rw [hm] at t
    exact ⟨m, rfl, okDest_writes t w⟩

/-- The exceptions do not concern a class without the vector extension, other
than `c.fld` in the 64 bit class. -/
theorem C84_scalar (e : Enc) (he : e = .rv32g ∨ e = .rv32gzb ∨ e = .rv64gzb) (o : Opd) :
    oddSource e o = false ∧ oddDest e o = false := by
  rcases he with rfl | rfl | rfl <;> cases o <;> exact ⟨rfl, rfl⟩

/-- **C84 violated**: in the 64 bit class and in both vector classes the
destination of `c.fld` (and `c.flw`) is an integer register, whatever the
instruction word. -/
theorem C84_compressed_load_violated (e : Enc) (o : Opd)
    (h : (e = .rv64g ∧ o = .C3drd) ∨ (e = .rv64gv ∧ o = .C3drd) ∨
      (e = .rv32gv ∧ (o = .C3drd ∨ o = .C3frd))) (w : Nat) :
    ∃ g m n, e.dest o = some g ∧ Spec.dest o = some m ∧ g.dest w = .x n ∧
      ¬ Writes w (g.dest w) m := by
  have e' : e.dest o = some (.xreg false .CL .cl_rd) ∧ Spec.dest o = some (.f3 [(4, 2)]) := by
    rcases h with ⟨rfl, rfl⟩ | ⟨rfl, rfl⟩ | ⟨rfl, rfl | rfl⟩ <;> exact ⟨rfl, rfl⟩
  refine ⟨_, _, num .CL .cl_rd w, e'.1, e'.2, ?_, ?_⟩
  · simp [What.dest]
  · intro h
    simp [Writes, Reads, What.dest] at h

/-- **C84 violated**: the immediates of `vsetvli` and `vsetivli` are sign
extended where the manual has an unsigned number (the semantic function keeps
only the low eight bits, so the difference shows in the disassembly). -/
theorem C84_zimm_violated (e : Enc)
    (h : e = .rv32gv ∨ e = .rv64gv ∨ e = .rv32gvzb ∨ e = .rv64gvzb) :
    (∃ g m, e.source .Zimm10 = some g ∧ Spec.source .Zimm10 = some m ∧
      g.source 0x20000000 = .number (-512) ∧ ¬ Reads 0x20000000 (g.source 0x20000000) m) ∧
    (∃ g m, e.source .Zimm11 = some g ∧ Spec.source .Zimm11 = some m ∧
      g.source 0x40000000 = .number (-1024) ∧ ¬ Reads 0x40000000 (g.source 0x40000000) m) := by
  have e' : e.source .Zimm10 = some (.imm true .VConfig .zimm10) ∧
      e.source .Zimm11 = some (.imm true .VConfig .zimm11) := by
    rcases h with rfl | rfl | rfl | rfl <;> exact ⟨rfl, rfl⟩
  have a : (What.imm true .VConfig .zimm10).source 0x20000000 = .number (-512) := by
    decide +kernel
  have b : (What.imm true .VConfig .zimm11).source 0x40000000 = .number (-1024) := by
    decide +kernel
  refine ⟨⟨_, _, e'.1, rfl, a, ?_⟩, ⟨_, _, e'.2, rfl, b, ?_⟩⟩
  · rw [a]
    intro h
    injection h with h
    have : (0 : Int) ≤ -512 := by
      rw [h]
      exact Int.mul_nonneg (Int.natCast_nonneg _) (by decide)
    omega
  · rw [b]
    intro h
    injection h with h
    have : (0 : Int) ≤ -1024 := by
      rw [h]
      exact Int.mul_nonneg (Int.natCast_nonneg _) (by decide)
    omega

/-- **C84 violated**: a vector bit manipulation source operand is a single
register, so groups of two or more registers are cut short. -/
theorem C84_zvbb_violated :
    (∃ g m, Enc.zvbb.source .Vs2 = some g ∧ Spec.source .Vs2 = some m ∧
      g.source 0x00200057 = .v 2 1 ∧ ¬ Reads 0x00200057 (g.source 0x00200057) m) ∧
    (∃ g m, Enc.zvbb.source .Vs1 = some g ∧ Spec.source .Vs1 = some m ∧
      g.source 0x00010057 = .v 2 1 ∧ ¬ Reads 0x00010057 (g.source 0x00010057) m) := by
  have a : (What.vsingle .VArith .vs2).source 0x00200057 = .v 2 1 := by decide +kernel
  have b : (What.vsingle .VArith .vs1).source 0x00010057 = .v 2 1 := by decide +kernel
  refine ⟨⟨_, _, rfl, rfl, a, ?_⟩, ⟨_, _, rfl, rfl, b, ?_⟩⟩
  · rw [a]
    rintro ⟨c, h, hm, -⟩
    injection h with h₁ h₂
    have := hm 2 (Or.inr (Or.inl rfl)) (by rw [← h₁])
    omega
  · rw [b]
    rintro ⟨c, h, hm, -⟩
    injection h with h₁ h₂
    have := hm 2 (Or.inr (Or.inl rfl)) (by rw [← h₁])
    omega

/-- **C84 violated**: the offset of `c.lbu` and `c.sb` has its two bits
exchanged, and the offsets of the compressed double precision loads and stores
are those of the word-sized ones. -/
theorem C84_zc_violated :
    (∃ g m, Enc.zc.source .Uimm2b = some g ∧ Spec.source .Uimm2b = some m ∧
      g.source 0x8020 = .number 1 ∧ ¬ Reads 0x8020 (g.source 0x8020) m) ∧
    (∃ g m, Enc.zc.source .ICiUimm6x8 = some g ∧ Spec.source .ICiUimm6x8 = some m ∧
      g.source 0x2012 = .number 4 ∧ ¬ Reads 0x2012 (g.source 0x2012) m) ∧
    (∃ g m, Enc.zc.source .IClUimm5x8 = some g ∧ Spec.source .IClUimm5x8 = some m ∧
      g.source 0x2040 = .number 4 ∧ ¬ Reads 0x2040 (g.source 0x2040) m) ∧
    (∃ g m, Enc.zc.source .ICssUimm6x8 = some g ∧ Spec.source .ICssUimm6x8 = some m ∧
      g.source 0xa202 = .number 4 ∧ ¬ Reads 0xa202 (g.source 0xa202) m) := by
  have a : (What.imm false .CLB .uimm2).source 0x8020 = .number 1 := by decide +kernel
  have b : (What.imm false .CI .ci_imm_w).source 0x2012 = .number 4 := by decide +kernel
  have c : (What.imm false .CL .cl_imm_w).source 0x2040 = .number 4 := by decide +kernel
  have d : (What.imm false .CSS .css_imm_w).source 0xa202 = .number 4 := by decide +kernel
  refine ⟨⟨_, _, rfl, rfl, a, ?_⟩, ⟨_, _, rfl, rfl, b, ?_⟩, ⟨_, _, rfl, rfl, c, ?_⟩,
    ⟨_, _, rfl, rfl, d, ?_⟩⟩
  · rw [a]
    intro h
    exact absurd h (by unfold Reads; decide +kernel)
  · rw [b]
    intro h
    exact absurd h (by unfold Reads; decide +kernel)
  · rw [c]
    intro h
    exact absurd h (by unfold Reads; decide +kernel)
  · rw [d]
    intro h
    exact absurd h (by unfold Reads; decide +kernel)

/-! ## Examples -/

/-- `beq x1, x2, -4` (0xfe208ee3) on the 32 bit class. -/
example : ∃ g, Enc.rv32g.source .BImm12 = some g ∧ g.source 0xfe208ee3 = .number (-4) :=
  ⟨_, rfl, by decide +kernel⟩

/-- The hypotheses are met by an operand of every class. -/
example : Enc.rv64gvzb.source .Vs2 = some (.vgroup .VArith .vs2) ∧
    oddSource .rv64gvzb .Vs2 = false := ⟨rfl, rfl⟩

/-- `jal x1, 2048` (0x001000ef). -/
example : ∃ g, Enc.rv64g.source .JImm20 = some g ∧ g.source 0x001000ef = .number 2048 :=
  ⟨_, rfl, by decide +kernel⟩

/-- `add x0, x1, x2`: the result is dropped. -/
example : ∃ g, Enc.rv64gzb.dest .Rd = some g ∧ g.dest 0x00208033 = .discard :=
  ⟨_, rfl, by decide +kernel⟩

end Verif.Getters
