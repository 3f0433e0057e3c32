import Verif.DebugReg.Model
import Verif.DebugReg.Spec
/-
C95: register access by debuggers.
-/
namespace Verif.DebugReg

variable {w : Nat}

/-! ### Names -/

/-- C95 (names): every integer and floating-point register is found under its number and
under its calling convention name, and the program counter under `pc`. -/
theorem C95_names :
    (∀ n : BitVec 5, find ("x" ++ toString n.toNat) = some (.x n) ∧
      find (Spec.abiX.getD n.toNat "") = some (.x n)) ∧
    (∀ n : BitVec 5, find ("f" ++ toString n.toNat) = some (.f n) ∧
      find (Spec.abiF.getD n.toNat "") = some (.f n)) ∧
    find "pc" = some .pc := by
  refine ⟨?_, ?_, by decide +kernel⟩
  · have : ∀ n : Fin 32, find ("x" ++ toString n.val) = some (.x (BitVec.ofNat 5 n.val)) ∧
        find (Spec.abiX.getD n.val "") = some (.x (BitVec.ofNat 5 n.val)) := by decide +kernel
    intro n
    have h := this ⟨n.toNat, n.isLt⟩
    rw [BitVec.ofNat_toNat, BitVec.setWidth_eq] at h
    exact h
  · have : ∀ n : Fin 32, find ("f" ++ toString n.val) = some (.f (BitVec.ofNat 5 n.val)) ∧
        find (Spec.abiF.getD n.val "") = some (.f (BitVec.ofNat 5 n.val)) := by decide +kernel
    intro n
    have h := this ⟨n.toNat, n.isLt⟩
    rw [BitVec.ofNat_toNat, BitVec.setWidth_eq] at h
    exact h

/-! ### Reading and writing -/

theorem trunc_idem (v : BitVec 64) (b : Nat) :
    ((((v.setWidth b).setWidth 64).setWidth b).setWidth 64 : BitVec 64) =
      (v.setWidth b).setWidth 64 := by
  apply BitVec.eq_of_toNat_eq
  simp only [BitVec.toNat_setWidth]
  have h1 : v.toNat % 2 ^ b % 2 ^ 64 = v.toNat % 2 ^ b :=
    Nat.mod_eq_of_lt (Nat.lt_of_le_of_lt (Nat.mod_le _ _) v.isLt)
  rw [h1, Nat.mod_mod, h1]

/-- C95 (register round trip): with the simulator halted, writing a register by any of its
names succeeds; reading it by any of its names then gives the value, modulo the register's
width; every other register, and every control and status register, reads as before. -/
theorem C95_round_trip (t : Top w) (n : String) (s : Slot) (v : BitVec 64) (hh : t.halted = true)
    (hn : find n = some s) :
    ∃ t', writeRegister t n v = .ok t' ∧
      (∀ n', find n' = some s →
        readRegister t' n' = .ok (BitVec.ofNat 64 (v.toNat % 2 ^ Spec.width w s))) ∧
      (∀ n', find n' ≠ some s → readRegister t' n' = readRegister t n') := by
  unfold writeRegister
  rw [hh, hn]
  refine ⟨_, rfl, ?_, ?_⟩
  · intro n' h'
    unfold readRegister
    rw [h']
    dsimp only
    rw [if_pos rfl, trunc_idem]
    congr 1
    apply BitVec.eq_of_toNat_eq
    have hb : bits w s = Spec.width w s := by cases s <;> rfl
    simp only [BitVec.toNat_setWidth, BitVec.toNat_ofNat, hb]
  · intro n' h'
    unfold readRegister
    cases hs : find n' with
    | some s' =>
      dsimp only
      rw [if_neg]
      intro q
      exact h' (by rw [hs, q])
    | none => rfl

/-- C95 (what instructions see): writing x1 to x31 by name changes the register file as an
instruction's write does, and reading gives what an instruction reads. -/
theorem C95_instructions_partial (hw : w = 32 ∨ w = 64) (t : Top w) (n : String) (r : BitVec 5)
    (v : BitVec w) (hh : t.halted = true) (hn : find n = some (.x r)) (h0 : r ≠ 0#5) :
    readRegister t n = .ok ((Regs.read (file t) r).setWidth 64) ∧
    ∃ t', writeRegister t n (v.setWidth 64) = .ok t' ∧ file t' = Regs.write (file t) r v := by
  constructor
  · unfold readRegister Regs.read file
    rw [hn]
    dsimp only
    rw [if_neg h0]
    rfl
  · unfold writeRegister
    rw [hh, hn]
    refine ⟨_, rfl, ?_⟩
    funext q
    unfold Regs.write file
    rw [if_neg h0]
    dsimp only
    by_cases hq : q = r
    · subst hq
      rw [if_pos rfl, if_pos rfl]
      apply BitVec.eq_of_toNat_eq
      have hb : bits w (.x q) = w := rfl
      simp only [BitVec.toNat_setWidth, hb]
      have := v.isLt
      rcases hw with e | e <;> subst e <;> omega
    · rw [if_neg (by intro z; cases z; exact hq rfl), if_neg hq]

/-- C95, x0: a debugger can store into x0 and reads back what it stored, although the
register is zero for every instruction. -/
theorem C95_x0_violated (t : Top w) (hw : w = 32 ∨ w = 64) (n : String)
    (hn : n = "x0" ∨ n = "zero") (hh : t.halted = true) :
    ∃ t', writeRegister t n 5 = .ok t' ∧ readRegister t' n = .ok 5 ∧
      Regs.read (file t') 0 = 0 := by
  have hf : find n = some (.x 0) := by
    rcases hn with h | h
    · rw [h]; exact (C95_names.1 0).1
    · rw [h]; exact (C95_names.1 0).2
  obtain ⟨t', h1, h2, _⟩ := C95_round_trip t n (.x 0) 5 hh hf
  refine ⟨t', h1, ?_, rfl⟩
  rw [h2 n hf]
  rcases hw with e | e <;> subst e <;> rfl

/-- C95 (control and status registers): writing one by name sets all its bits, and reading
gives them back; every other register reads as before. -/
theorem C95_csr_round_trip (hw : w = 32 ∨ w = 64) (t : Top w) (n : String) (c : Csr.SimpleCsr w)
    (v : BitVec w) (hh : t.halted = true) (hn : find n = none) (hc : t.csrs n = some c) :
    ∃ t', writeRegister t n (v.setWidth 64) = .ok t' ∧
      t'.csrs n = some { c with value := v } ∧
      readRegister t' n = .ok (v.setWidth 64) ∧
      ∀ n', n' ≠ n → readRegister t' n' = readRegister t n' := by
  unfold writeRegister
  rw [hh, hn]
  dsimp only
  rw [hc]
  dsimp only
  have hset : (if w = 32 then c.set ((v.setWidth 64).setWidth 32 : BitVec 32)
      else c.set (v.setWidth 64)) = { c with value := v } := by
    rcases hw with e | e <;> subst e
    · rw [if_pos rfl]
      simp only [Csr.SimpleCsr.set]
      congr 1
      apply BitVec.eq_of_toNat_eq
      simp only [BitVec.toNat_setWidth]
      have := v.isLt
      omega
    · rw [if_neg (by decide)]
      simp [Csr.SimpleCsr.set]
  rw [hset]
  refine ⟨_, rfl, ?_, ?_, ?_⟩
  · dsimp only; rw [if_pos rfl]
  · unfold readRegister
    rw [hn]
    dsimp only
    rw [if_pos rfl]
    dsimp only
    rcases hw with e | e <;> subst e
    · rw [if_pos rfl]; simp [Csr.SimpleCsr.get]
    · rw [if_neg (by decide)]; simp [Csr.SimpleCsr.get]
  · intro n' hne
    unfold readRegister
    cases find n' with
    | some s => rfl
    | none => dsimp only; rw [if_neg hne]

/-- C95 (refusals): while the simulator runs, and for unknown names, nothing is written. -/
theorem C95_refused (t : Top w) (n : String) (v : BitVec 64) :
    (t.halted = false → writeRegister t n v = .error .notHalted) ∧
    (t.halted = true → find n = none → t.csrs n = none → n ≠ "$branch_trace_size" →
      writeRegister t n v = .error .notFound) := by
  constructor
  · intro h; unfold writeRegister; rw [h]; rfl
  · intro h h1 h2 h3; unfold writeRegister; rw [h, h1]; dsimp only; rw [h2]; dsimp only
    rw [if_neg h3]; rfl

theorem testBit_top (n k : Nat) (h1 : 2 ^ k ≤ n) (h2 : n < 2 ^ (k + 1)) :
    n.testBit k = true := by
  have h : n / 2 ^ k = 1 := by
    have : 2 ^ (k + 1) = 2 * 2 ^ k := by rw [Nat.pow_succ]; omega
    have hp : 0 < 2 ^ k := Nat.two_pow_pos k
    apply Nat.le_antisymm
    · exact Nat.le_of_lt_succ ((Nat.div_lt_iff_lt_mul hp).mpr (by omega))
    · exact (Nat.le_div_iff_mul_le hp).mpr (by omega)
  rw [Nat.testBit_eq_decide_div_mod_eq, h]
  decide

/-- A nonzero value sharing no bit with its predecessor is a power of two. -/
theorem one_bit (v : BitVec 64) (h0 : v ≠ 0) (h : v &&& (v - 1) = 0) :
    ∃ k < 64, v = 1#64 <<< k := by
  have hn : v.toNat ≠ 0 := fun q => h0 (BitVec.eq_of_toNat_eq q)
  have l1 := Nat.log2_self_le hn
  have l2 : v.toNat < 2 ^ (v.toNat.log2 + 1) := Nat.lt_log2_self
  have hk : v.toNat.log2 < 64 := (Nat.log2_lt hn).mpr v.isLt
  refine ⟨v.toNat.log2, hk, ?_⟩
  generalize v.toNat.log2 = k at *
  have hs : (1#64 <<< k).toNat = 2 ^ k := by
    rw [BitVec.toNat_shiftLeft, Nat.shiftLeft_eq]
    have : 2 ^ k < 2 ^ 64 := Nat.pow_lt_pow_right (by decide) hk
    simp only [BitVec.toNat_ofNat]
    omega
  apply BitVec.eq_of_toNat_eq
  rw [hs]
  apply Classical.byContradiction
  intro hne
  have hm : (v - 1).toNat = v.toNat - 1 := by
    have := v.isLt
    simp only [BitVec.toNat_sub, BitVec.ofNat_eq_ofNat, BitVec.toNat_ofNat]
    omega
  have hb : (v &&& (v - 1)).toNat.testBit k = true := by
    rw [BitVec.toNat_and, Nat.testBit_and, hm, testBit_top _ _ l1 l2,
      testBit_top _ _ (by omega) (by omega)]
    rfl
  rw [h] at hb
  simp at hb

/-- C95 (branch trace size): writing `$branch_trace_size` with a power of two sets it and
leaves the registers alone; any other value is refused. -/
theorem C95_branch_trace_size (t : Top w) (v : BitVec 64) (hh : t.halted = true)
    (hc : t.csrs "$branch_trace_size" = none) :
    ((∃ k < 64, v = 1#64 <<< k) → ∃ t', writeRegister t "$branch_trace_size" v = .ok t' ∧
      readRegister t' "$branch_trace_size" = .ok v ∧
      ∀ n', find n' ≠ none ∨ t.csrs n' ≠ none → readRegister t' n' = readRegister t n') ∧
    ((¬ ∃ k < 64, v = 1#64 <<< k) →
      writeRegister t "$branch_trace_size" v = .error .invalid) := by
  have hf : find "$branch_trace_size" = none := by decide +kernel
  constructor
  · rintro ⟨k, hk, rfl⟩
    have hp : ∀ k : Fin 64, (1#64 <<< k.val) ≠ 0 ∧
        (1#64 <<< k.val) &&& ((1#64 <<< k.val) - 1) = 0 := by decide +kernel
    unfold writeRegister
    rw [hh, hf]
    dsimp only
    rw [hc]
    dsimp only
    rw [if_pos rfl, if_pos (hp ⟨k, hk⟩)]
    refine ⟨_, rfl, ?_, ?_⟩
    · unfold readRegister
      rw [hf]
      dsimp only
      rw [hc]
      dsimp only
      rw [if_neg (by decide +kernel), if_pos rfl]
    · intro n' h
      unfold readRegister
      cases h1 : find n' with
      | some s => rfl
      | none =>
        dsimp only
        cases h2 : t.csrs n' with
        | some c => rfl
        | none => rw [h1, h2] at h; simp at h
  · intro h
    unfold writeRegister
    rw [hh, hf]
    dsimp only
    rw [hc]
    dsimp only
    rw [if_pos rfl,
      if_neg (c := v ≠ 0 ∧ v &&& (v - 1) = 0) (fun q => h (one_bit v q.1 q.2))]
    rfl

/-! ### Numbers -/

/-- C95 (numbers): the debug specification's number of every integer and floating-point
register and of the program counter is mapped to a name under which that register is found. -/
theorem C95_numbers_partial (s : Slot) :
    ∃ n, debugName (Spec.regno s) = some n ∧ find n = some s := by
  cases s with
  | pc => exact ⟨"pc", by decide +kernel, C95_names.2.2⟩
  | x n =>
    refine ⟨"x" ++ toString n.toNat, ?_, (C95_names.1 n).1⟩
    have : ∀ k : Fin 32, debugName (0x1000 + k.val) = some ("x" ++ toString k.val) := by
      decide +kernel
    exact this ⟨n.toNat, n.isLt⟩
  | f n =>
    refine ⟨"f" ++ toString n.toNat, ?_, (C95_names.2.1 n).1⟩
    have : ∀ k : Fin 32, debugName (0x1020 + k.val) = some ("f" ++ toString k.val) := by
      decide +kernel
    exact this ⟨n.toNat, n.isLt⟩

/-- C95, vector register numbers: each vector register's number in the enumeration is the
number of a floating-point register, and the map has that register's name. -/
theorem C95_vector_numbers_violated (k : Nat) (hk : k < 32) :
    (0x1020 + k, "v" ++ toString k) ∈ enumeration ∧
      debugName (0x1020 + k) = some ("f" ++ toString k) := by
  have : ∀ k : Fin 32, debugName (0x1020 + k.val) = some ("f" ++ toString k.val) := by
    decide +kernel
  refine ⟨?_, this ⟨k, hk⟩⟩
  unfold enumeration
  simp only [List.cons_append, List.mem_cons, List.mem_append, List.mem_map, List.mem_range]
  exact Or.inr (Or.inr ⟨k, hk, rfl⟩)

/-- C95 (gdb numbers): a number the gdb register map has is, in the target description with
the floating-point registers, the number of the register it is mapped to. -/
theorem C95_gdb_numbers_partial (fp vec : Bool) (h : fp = true ∨ vec = false) (n : Nat)
    (r : GdbReg) (hm : (n, r) ∈ gdbMap fp vec) : (targetXml fp vec)[n]? = some r := by
  have : (gdbMap fp vec).all (fun p => (targetXml fp vec)[p.1]? == some p.2) = true := by
    cases fp <;> cases vec
    · decide +kernel
    · exact absurd h (by decide)
    · decide +kernel
    · decide +kernel
  have := List.all_eq_true.mp this (n, r) hm
  simpa using this

/-- C95, gdb without floating point: the vector control registers' numbers in the map are
not theirs in the target description. -/
theorem C95_gdb_numbers_violated : (98, GdbReg.vstart) ∈ gdbMap false true ∧
    (targetXml false true)[98]? = none ∧ (targetXml false true)[65]? = some .vstart := by
  decide +kernel

/-- C95, gdb vector registers: they are in the target description but have no entry in the
map, so gdb can not read them. -/
theorem C95_gdb_vector_violated (fp : Bool) (i : Nat) (hi : i < 32) :
    GdbReg.v i ∈ targetXml fp true ∧ ∀ n, (n, GdbReg.v i) ∉ gdbMap fp true := by
  constructor
  · unfold targetXml
    rw [if_pos rfl]
    simp only [List.mem_append, List.mem_map, List.mem_range]
    exact Or.inr (Or.inl ⟨i, hi, rfl⟩)
  · intro n h
    have : (gdbMap fp true).all (fun p => match p.2 with | .v _ => false | _ => true) = true := by
      cases fp <;> decide +kernel
    have := List.all_eq_true.mp this (n, .v i) h
    simp at this

/-- C95, gdb register sizes: on a 32-bit hart with 64-bit floating-point registers, the size
given for these is four bytes, where the target description says 64 bits. -/
theorem C95_gdb_size_violated (i vec : Nat) :
    gdbByteWidth 32 (GdbReg.f i).number = 4 ∧ xmlBits 32 64 vec (.f i) = 64 := ⟨rfl, rfl⟩

/-- C95 (gdb register sizes, part): on a 64-bit hart with 64-bit floating-point registers the
integer and floating-point registers have the size of the target description. -/
theorem C95_gdb_size_partial (gpr vec : Nat) (h : gpr = 32 ∨ gpr = 64) (i : Nat) :
    8 * gdbByteWidth gpr (GdbReg.x i).number = xmlBits gpr 64 vec (.x i) ∧
    8 * gdbByteWidth gpr GdbReg.pc.number = xmlBits gpr 64 vec .pc ∧
    (gpr = 64 → 8 * gdbByteWidth gpr (GdbReg.f i).number = xmlBits gpr 64 vec (.f i)) := by
  rcases h with h | h <;> subst h <;> simp [gdbByteWidth, xmlBits]

/-! ### Information objects -/

/-- The widths with a defined key. -/
def keyed : List Widths :=
  [32, 64].flatMap fun g => [0, 32, 64].flatMap fun f => [0, 128].map fun v => (g, f, v)

theorem keyed_of (ws : Widths) (h : validWidths ws = true) (hv : ws.2.2 < 256) : ws ∈ keyed := by
  obtain ⟨g, f, v⟩ := ws
  simp only [validWidths, Bool.and_eq_true, Bool.or_eq_true, beq_iff_eq] at h hv
  obtain ⟨⟨hg, hf⟩, hx⟩ := h
  rcases hg with hg | hg <;> rcases hf with (hf | hf) | hf <;> subst hg <;> subst hf <;>
    rcases hx with (((hx | hx) | hx) | hx) | hx <;> subst hx <;>
    first | decide | exact absurd hv (by decide)

theorem key_inj : ∀ a ∈ keyed, ∀ b ∈ keyed, key a = key b → a = b := by decide +kernel

theorem key_some (ws : Widths) (hv : ws.2.2 < 256) : ∃ k, key ws = some k := by
  unfold key
  rw [if_neg (by omega)]
  exact ⟨_, rfl⟩

theorem key_none (ws : Widths) (hv : 256 ≤ ws.2.2) : key ws = none := by
  unfold key
  rw [if_pos (by omega)]

/-- The instance map holds every object under its own key. -/
def Good (m : List (Nat × Widths)) : Prop :=
  ∀ p ∈ m, validWidths p.2 = true ∧ p.2.2.2 < 256 ∧ key p.2 = some p.1

theorem good_step (m : List (Nat × Widths)) (ws : Widths) (h : Good m) :
    Good (instance_ m ws).2 := by
  unfold instance_
  by_cases hv : validWidths ws = true
  · rw [hv, if_neg (by decide)]
    cases hk : key ws with
    | none => exact h
    | some k =>
      dsimp only
      cases hl : m.lookup k with
      | some o => exact h
      | none =>
        intro p hp
        rcases List.mem_cons.mp hp with q | q
        · subst q
          refine ⟨hv, ?_, hk⟩
          exact Nat.lt_of_not_le fun q => by rw [key_none ws q] at hk; cases hk
        · exact h p q
  · rw [Bool.not_eq_true] at hv
    rw [hv]
    exact h

theorem good_after (calls : List Widths) : Good (afterCalls calls) := by
  unfold afterCalls
  suffices ∀ (cs : List Widths) m, Good m → Good (cs.foldl (fun m ws => (instance_ m ws).2) m) by
    exact this calls [] (fun p hp => absurd hp (by simp))
  intro cs
  induction cs with
  | nil => intro m h; exact h
  | cons c cs ih => intro m h; exact ih _ (good_step m c h)

/-- C95 (gdb information, part): whatever information objects have been asked for before, a
request with accepted widths and vectors of at most 128 bits gets an object for exactly these
widths; widths that are not accepted get none. -/
theorem C95_gdb_instance_partial (calls : List Widths) (ws : Widths) :
    (validWidths ws = false → (instance_ (afterCalls calls) ws).1 = .null) ∧
    (validWidths ws = true → ws.2.2 < 256 → (instance_ (afterCalls calls) ws).1 = .obj ws) := by
  constructor
  · intro h
    unfold instance_
    rw [h]
    rfl
  · intro h hv
    obtain ⟨k, hk⟩ := key_some ws hv
    unfold instance_
    rw [h, hk, if_neg (by decide)]
    dsimp only
    cases hl : (afterCalls calls).lookup k with
    | none => rfl
    | some o =>
      dsimp only
      have hmem : (k, o) ∈ afterCalls calls := by
        revert hl
        generalize afterCalls calls = l
        induction l with
        | nil => intro hl; cases hl
        | cons p l ih =>
          intro hl
          rw [List.lookup_cons] at hl
          split at hl
          · rename_i e
            have : k = p.1 := by simpa using e
            cases hl
            rw [this]
            exact List.mem_cons_self
          · exact List.mem_cons_of_mem _ (ih hl)
      obtain ⟨g1, g2, g3⟩ := good_after calls (k, o) hmem
      rw [key_inj o (keyed_of o g1 g2) ws (keyed_of ws h hv) (by rw [g3, hk])]

/-- C95, gdb information for wider vectors: computing the key overflows, for every accepted
width of 256 bits or more. -/
theorem C95_gdb_instance_violated (calls : List Widths) (ws : Widths)
    (h : validWidths ws = true) (hv : 256 ≤ ws.2.2) :
    (instance_ (afterCalls calls) ws).1 = .ub := by
  unfold instance_
  rw [h, key_none ws hv]
  rfl

theorem unescape_escaped (c : Char) (cs : List Char) : Spec.unescape ('}' :: c :: cs) =
    Char.ofNat (c.toNat ^^^ 0x20) :: Spec.unescape cs := by
  rw [Spec.unescape]

theorem unescape_plain (c : Char) (cs : List Char) (h : c ≠ '}') : Spec.unescape (c :: cs) =
    c :: Spec.unescape cs := by
  cases cs with
  | nil => rw [Spec.unescape]; simp
  | cons d ds => rw [Spec.unescape]; intro _ _ q; cases q; exact absurd rfl h

/-- C95 (escaping): the client recovers the text of the target description. -/
theorem C95_escape (s : List Char) : Spec.unescape (escape s) = s := by
  induction s with
  | nil => rfl
  | cons c cs ih =>
    unfold escape
    by_cases h : c = '$' ∨ c = '#' ∨ c = '*' ∨ c = '}'
    · rw [if_pos h, unescape_escaped, ih]
      congr 1
      rcases h with h | h | h | h <;> subst h <;> decide
    · rw [if_neg h, unescape_plain _ _ (fun q => h (Or.inr (Or.inr (Or.inr q)))), ih]

/-- C95 (escaping): no packet delimiter is left in the escaped text. -/
theorem C95_escape_clean (s : List Char) : '$' ∉ escape s ∧ '#' ∉ escape s ∧ '*' ∉ escape s := by
  induction s with
  | nil => exact ⟨by simp [escape], by simp [escape], by simp [escape]⟩
  | cons c cs ih =>
    obtain ⟨i1, i2, i3⟩ := ih
    unfold escape
    by_cases h : c = '$' ∨ c = '#' ∨ c = '*' ∨ c = '}'
    · rw [if_pos h]
      have hx : ∀ d ∈ ['$', '#', '*'], d ≠ '}' ∧ d ≠ Char.ofNat (c.toNat ^^^ 0x20) := by
        rcases h with h | h | h | h <;> subst h <;> decide
      simp only [List.mem_cons, not_or]
      exact ⟨⟨(hx _ (by simp)).1, (hx _ (by simp)).2, i1⟩,
        ⟨(hx _ (by simp)).1, (hx _ (by simp)).2, i2⟩,
        ⟨(hx _ (by simp)).1, (hx _ (by simp)).2, i3⟩⟩
    · rw [if_neg h]
      simp only [not_or] at h
      simp only [List.mem_cons, not_or]
      exact ⟨⟨fun q => h.1 q.symm, i1⟩, ⟨fun q => h.2.1 q.symm, i2⟩,
        ⟨fun q => h.2.2.1 q.symm, i3⟩⟩

example : escape "a#b".toList = "a}\x03b".toList := by decide +kernel

/-! ### A concrete hart -/

/-- A halted 32-bit hart with one control and status register. -/
def exTop : Top 32 :=
  ⟨true, fun _ => 0, fun n => if n = "mscratch" then some ⟨0, BitVec.allOnes 32, BitVec.allOnes 32⟩
    else none, 0, 16⟩

example : find "mscratch" = none ∧ find "sp" = some (.x 2) := by decide +kernel

/-- What a debugger reads after writing, or nothing. -/
def exAfter (n : String) (v : BitVec 64) (n' : String) : Option (BitVec 64) :=
  match writeRegister exTop n v with
  | .ok t => (match readRegister t n' with | .ok r => some r | .error _ => none)
  | .error _ => none

example : exAfter "sp" 0x123456789 "x2" = some 0x23456789 ∧
    exAfter "sp" 0x123456789 "gp" = some 0 ∧
    exAfter "mscratch" 0x1234 "mscratch" = some 0x1234 ∧
    exAfter "$branch_trace_size" 32 "$branch_trace_head" = some 31 ∧
    exAfter "nothing" 1 "x1" = none := by decide +kernel

end Verif.DebugReg
