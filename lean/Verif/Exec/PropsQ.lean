import Verif.Exec.CfTables

/-!
# C134: compressed loads and stores of floating-point registers, from the halfword in memory
-/

namespace Verif.Exec

open Decode Decode.Isa Core Operands Spec

variable {n : Nat} {ρ : Type} {H : FpState.Host}

/-- The entries that match such a halfword. -/
theorem q_finds (s : Sim) (w : Nat) (z : QArgs) (h : IsQ s.xlen w z) :
    ∃ o p, qargs s.xlen o w = some z ∧ qexpect s.xlen o = some p ∧ (∃ i size, Finds s w i size) ∧
      ∀ i size, Finds s w i size → size = 2 ∧ qActs s i.op = some p := by
  obtain ⟨o, hz, hl⟩ := h
  have ho := qargs_mem hz
  have hlow := listed_lowQ s.xlen o ho w hl
  have he : w &&& 0xffff = w % 2 ^ 16 := by
    rw [show (0xffff : Nat) = 2 ^ 16 - 1 from rfl, Nat.and_two_pow_sub_one_eq_mod]
  obtain ⟨⟨i, hi, him⟩, hall, hsome⟩ := decodesQ s o (w % 2 ^ 16) ho (Nat.mod_lt _ (by decide)) hl
  obtain ⟨p, hp⟩ := Option.isSome_iff_exists.1 hsome
  refine ⟨o, p, qargs_half _ _ _ _ hz, hp, ⟨i, 2, ?_⟩, fun i size hf => ?_⟩
  · unfold Finds; rw [if_neg hlow, he]; exact ⟨hi, him, rfl⟩
  · unfold Finds at hf
    rw [if_neg hlow, he] at hf
    obtain ⟨hi, him, rfl⟩ := hf
    have ht := List.all_eq_true.1 (entriesQ_ok s) i hi
    unfold okEntryQ at ht
    rw [hall i hi him, if_pos (List.contains_iff_mem.2 ho)] at ht
    exact ⟨rfl, (of_decide_eq_true ht).trans hp⟩

/-- Some entry matches, and the turn with any that does is carried out and has the effect `Q`. -/
def GoesQ (A : Arith H) (C : Cvt) (s : Sim) (dev : Option (Atomic.Device ρ)) (st : FSt s.xlen.bits ρ H)
    (Q : FSt s.xlen.bits ρ H → Prop) : Prop :=
  (∃ i size, Finds s (wordAt st.core) i size) ∧
  ∀ i size, Finds s (wordAt st.core) i size →
    ∃ st', turnQ A C s i (wordAt st.core) size dev st = some st' ∧ Q st'

theorem turnsQ_of {A : Arith H} {C : Cvt} {s : Sim} {dev : Option (Atomic.Device ρ)} {st : FSt s.xlen.bits ρ H}
    {Q : FSt s.xlen.bits ρ H → Prop} (h : GoesQ A C s dev st Q) :
    (∃ st', TurnQ A C s dev st st') ∧ ∀ st', TurnQ A C s dev st st' → Q st' := by
  obtain ⟨⟨i, size, hf⟩, h⟩ := h
  obtain ⟨st', hs, _⟩ := h i size hf
  refine ⟨⟨st', .inl ⟨i, size, hf, hs⟩⟩, ?_⟩
  rintro st₂ (⟨j, m, hj, hs⟩ | ⟨hn, _⟩)
  · obtain ⟨st', hs', hq⟩ := h j m hj
    rw [hs] at hs'
    obtain rfl := Option.some.inj hs'
    exact hq
  · exact absurd hf (hn i size)

section
variable {A : Arith H} {C : Cvt} (s : Sim) (dev : Option (Atomic.Device ρ)) (st : FSt s.xlen.bits ρ H)

/-- The turn of an instruction, from what its semantic function does. -/
theorem q_goes (z : QArgs) (h : IsQ s.xlen (wordAt st.core) z) (Q : FSt s.xlen.bits ρ H → Prop)
    (hc : ∀ o p, qargs s.xlen o (wordAt st.core) = some z → qexpect s.xlen o = some p →
      CarriesQ s (wordAt st.core) st p Q) :
    GoesQ A C s dev st fun st' => Q st' ∧ Kept st.core st'.core := by
  obtain ⟨o, p, hz, hp, hex, hall⟩ := q_finds s _ z h
  refine ⟨hex, fun i size hf => ?_⟩
  obtain ⟨rfl, ha⟩ := hall i size hf
  obtain ⟨st₁, e1, e2, e3, e4⟩ := hc o p hz hp
  refine ⟨closeF st₁ (st.core.hart.pc.setWidth 64) 2, ?_, e2, kept_next _ _ _ _ e3 e4⟩
  unfold turnQ
  rw [ha]
  show (carryQ s (wordAt st.core) (st.core.hart.pc.setWidth 64) st p).map _ = _
  rw [e1]
  rfl

theorem q_step (z : QArgs) (h : IsQ s.xlen (wordAt st.core) z) (hb : st.core.hart.branch = false)
    (hi : Hart.HInv st.core.hart)
    (hon : s.xlen = .rv32 → z.load = false → z.bytes = 8 → z.short = true → ¬ OffF st)
    (hw : ¬ WrongQ s z st) :
    GoesQ A C s dev st fun st' => DoesQ z st st' ∧ Kept st.core st'.core :=
  q_goes s dev st z h _ fun o p hz hp => carry_q s _ st hb hi s.xlen rfl o z hz hon hw p hp

/-- **C134.** In every simulated core, a halfword that the manual gives to `c.flw`, `c.fld`, `c.fsw`, `c.fsd` or
one of their forms relative to the stack pointer is carried out, whichever matching entry of the decoder is used,
and does what the instruction it is short for does, except that the next instruction is two bytes away: the
register gets the bytes at base plus offset, boxed if they are four, or the bytes get the low part of the
register; beyond the limit of the memory there is an access fault with the address; nothing else changes.
Assumed is that the unit is on; left out are the cases of `WrongQ`. -/
theorem C134_step_partial (hb : st.core.hart.branch = false) (hr : Hart.Spec.Reachable st.core.hart)
    (z : QArgs) (h : IsQ s.xlen (wordAt st.core) z) (hon : ¬ OffF st) (hw : ¬ WrongQ s z st) :
    (∃ st', TurnQ A C s dev st st') ∧ ∀ st', TurnQ A C s dev st st' → DoesQ z st st' := by
  have := turnsQ_of (q_step (A := A) (C := C) s dev st z h hb (Hart.hinv_reachable hr) (fun _ _ _ _ => hon) hw)
  exact ⟨this.1, fun st' ht => (this.2 st' ht).1⟩

/-! ## What goes wrong -/

/-- **C134** fails when the unit is off: the manual asks for an illegal instruction exception, but all of these
instructions other than `c.fsd` of RV32 are carried out as if it were on. -/
theorem C134_off_violated (hb : st.core.hart.branch = false) (hr : Hart.Spec.Reachable st.core.hart)
    (z : QArgs) (h : IsQ s.xlen (wordAt st.core) z) (_hoff : OffF st) (hw : ¬ WrongQ s z st)
    (hc : ¬ (s.xlen = .rv32 ∧ z.load = false ∧ z.bytes = 8 ∧ z.short = true)) :
    (∃ st', TurnQ A C s dev st st') ∧ ∀ st', TurnQ A C s dev st st' → DoesQ z st st' := by
  have := turnsQ_of (q_step (A := A) (C := C) s dev st z h hb (Hart.hinv_reachable hr)
    (fun h1 h2 h3 h4 => absurd ⟨h1, h2, h3, h4⟩ hc) hw)
  exact ⟨this.1, fun st' ht => (this.2 st' ht).1⟩

/-- `c.fsd` of RV32 does nothing then; there is no exception either. -/
theorem C134_off_store_violated (hx : s.xlen = .rv32) (hb : st.core.hart.branch = false)
    (hr : Hart.Spec.Reachable st.core.hart) (z : QArgs) (h : IsQ s.xlen (wordAt st.core) z) (hoff : OffF st)
    (hl : z.load = false) (h8 : z.bytes = 8) (hsh : z.short = true) :
    (∃ st', TurnQ A C s dev st st') ∧ ∀ st', TurnQ A C s dev st st' →
      Passes st.core st'.core 2 ∧ Rest st st' ∧ st'.fregs = st.fregs ∧ st'.fp = st.fp := by
  have hi := Hart.hinv_reachable hr
  have := turnsQ_of (q_goes (A := A) (C := C) s dev st z h (fun st' =>
    Passes st.core st'.core 2 ∧ Rest st st' ∧ st'.fregs = st.fregs ∧ st'.fp = st.fp) fun o p hz hp => ?_)
  · exact ⟨this.1, fun st' ht => (this.2 st' ht).1⟩
  · generalize wordAt st.core = w at hz
    rw [hx] at hz hp
    have e : o = .cfsd := by
      unfold qargs at hz
      split at hz <;> first
        | rfl
        | (obtain rfl := Option.some.inj hz; revert hl h8 hsh; simp; done)
        | cases hz
    subst e
    obtain rfl := Option.some.inj hp
    refine ⟨st, ?_, ⟨next_passes (bits_le _) st.core hb 2, ⟨rfl, rfl⟩, rfl, rfl⟩, hi, rfl⟩
    exact if_pos (by rw [(unitOff_iff st).2 hoff]; rfl)

/-- The destination of a load in the simulators in which it is an integer register. -/
theorem int_dest (s : Sim) (hs : intDest s = true) (w : Nat) (q : Act) (o : Getters.Opd) (ho : o ∈ qDsts s.xlen)
    (h : q.dsts[0]? = some (.one o)) : fdstAt s w q 0 = none ∧ Puts s w q 0 (cRs2' w) := by
  have t : intDest s = true → (qDsts s.xlen).all (fun o => decide (s.dest o = some (.xreg false .CL .cl_rd) ∧
      s.dest .C3rd = some (.xreg false .CL .cl_rd))) = true := by
    cases s <;> decide +kernel
  obtain ⟨e1, e2⟩ := of_decide_eq_true (List.all_eq_true.1 (t hs) o ho)
  constructor
  · unfold fdstAt
    rw [h]
    show ((s.dest o).bind fun g => fregNo (g.dest w)) = none
    rw [e1]
    rfl
  · obtain ⟨d, hd, hp⟩ := puts_c3rd s w ⟨.nop, [], [.one .C3rd]⟩ 0 rfl
    refine ⟨d, ?_, hp⟩
    have e : s.dest o = s.dest .C3rd := e1.trans e2.symm
    unfold dstAt at hd ⊢
    rw [h]
    dsimp only
    rw [e]
    exact hd

/-- The first part of a load. -/
theorem load_addr (s : Sim) (w : Nat) (st : FSt s.xlen.bits ρ H) (z : QArgs) (width : Nat) (b : FpMem.Back)
    (ops to : Act) (h0 : srcAt s w st.core ops 0 = some (X st.core z.rs1))
    (h1 : srcAt s w st.core ops 1 = some (BitVec.ofInt s.xlen.bits (z.imm : Int)))
    (hs : z.imm < 2 ^ 31) (hf : Fits s.xlen.bits width (X st.core z.rs1) z.imm) :
    ∃ a, IsAddr a s.xlen.bits (X st.core z.rs1) z.imm ∧
      (a.toNat ≤ st.core.limit.toNat →
        carryQ s w (st.core.hart.pc.setWidth 64) st ⟨.load width z.bytes b to, ops⟩ =
          backQ s w b to st (readLE st.core.mem a z.bytes)) := by
  refine ⟨_, addr_fits (X st.core z.rs1) z.imm hs hf, fun hl => ?_⟩
  unfold carryQ
  dsimp only
  unfold addressQ
  rw [h0, h1, Option.bind_some, Option.map_some, Option.bind_some]
  unfold loadedQ Mem.load
  rw [if_neg (fun hc => by have := (Mem.ult_iff _ _).1 hc; omega)]

theorem q_short {x : Xlen} {o : Op} {w : Nat} {z : QArgs} (hz : qargs x o w = some z) (hl : z.load = true)
    (hs : z.short = true) (h8 : x = .rv32 → z.bytes = 4) :
    (x = .rv32 ∧ o = .cflw ∧ z = ⟨true, 4, cRs2' w, true, cRs1' w, cLw w⟩) ∨
    (x = .rv64 ∧ o = .cfld ∧ z = ⟨true, 8, cRs2' w, true, cRs1' w, cLd w⟩) := by
  unfold qargs at hz
  split at hz <;> first
    | (cases hz; done)
    | (obtain rfl := Option.some.inj hz
       first
        | (cases hl; done)
        | (cases hs; done)
        | exact .inl ⟨rfl, rfl, rfl⟩
        | (cases x with
           | rv32 => exact absurd (h8 rfl) (by show (8 : Nat) ≠ 4; decide)
           | rv64 => exact .inr ⟨rfl, rfl, rfl⟩))

theorem q_short8 {x : Xlen} {o : Op} {w : Nat} {z : QArgs} (hz : qargs x o w = some z) (hl : z.load = true)
    (hs : z.short = true) (h8 : z.bytes = 8) :
    o = .cfld ∧ z = ⟨true, 8, cRs2' w, true, cRs1' w, cLd w⟩ := by
  unfold qargs at hz
  split at hz <;> first
    | (cases hz; done)
    | (obtain rfl := Option.some.inj hz; first | (cases hl; done) | (cases hs; done) | (cases h8; done) |
        exact ⟨rfl, rfl⟩)

theorem q_four {x : Xlen} {o : Op} {w : Nat} {z : QArgs} (hz : qargs x o w = some z) (hl : z.load = true)
    (h4 : z.bytes = 4) :
    (o = .cflw ∧ z = ⟨true, 4, cRs2' w, true, cRs1' w, cLw w⟩) ∨
    (o = .cflwsp ∧ z = ⟨true, 4, cRd w, false, sp, cLwsp w⟩) := by
  unfold qargs at hz
  split at hz <;> first
    | (cases hz; done)
    | (obtain rfl := Option.some.inj hz; first | (cases hl; done) | (cases h4; done) | exact .inl ⟨rfl, rfl⟩ |
        exact .inr ⟨rfl, rfl⟩)

theorem q_wide {x : Xlen} {o : Op} {w : Nat} {z : QArgs} (hz : qargs x o w = some z) (h8 : z.bytes = 8)
    (hk : z.load = true ∨ z.short = false) :
    (o = .cfld ∧ z = ⟨true, 8, cRs2' w, true, cRs1' w, cLd w⟩) ∨
    (o = .cfldsp ∧ z = ⟨true, 8, cRd w, false, sp, cLdsp w⟩) ∨
    (o = .cfsdsp ∧ z = ⟨false, 8, cRs2 w, false, sp, cSdsp w⟩) := by
  unfold qargs at hz
  split at hz <;> first
    | (cases hz; done)
    | (obtain rfl := Option.some.inj hz
       first
        | (cases h8; done)
        | exact .inl ⟨rfl, rfl⟩
        | exact .inr (.inl ⟨rfl, rfl⟩)
        | exact .inr (.inr ⟨rfl, rfl⟩)
        | (rcases hk with hk | hk <;> cases hk))

theorem q_some (x : Xlen) (o : Op) (w : Nat) (h : o ∈ qOpsOf x) : (qargs x o w).isSome = true := by
  cases x with
  | rv32 =>
    unfold qOpsOf qOps at h
    simp only [List.mem_cons, List.not_mem_nil, or_false] at h
    rcases h with rfl | rfl | rfl | rfl | rfl | rfl | rfl | rfl <;> rfl
  | rv64 =>
    unfold qOpsOf at h
    simp only [List.mem_cons, List.not_mem_nil, or_false] at h
    rcases h with rfl | rfl | rfl | rfl <;> rfl

theorem low_upper (old : BitVec 64) (v : Nat) :
    (FpMem.back .low old v).toNat / 2 ^ 32 = old.toNat / 2 ^ 32 := by
  show ((old &&& 0xffffffff00000000#64) ||| BitVec.ofNat 64 (v % 2 ^ 32)).toNat / 2 ^ 32 = _
  have hv : v % 2 ^ 32 < 2 ^ 32 := Nat.mod_lt _ (by decide)
  rw [BitVec.toNat_or, BitVec.toNat_and, BitVec.toNat_ofNat, BitVec.toNat_ofNat, ← Nat.shiftRight_eq_div_pow,
    ← Nat.shiftRight_eq_div_pow, Nat.shiftRight_or_distrib, Nat.shiftRight_and_distrib,
    Nat.mod_eq_of_lt (Nat.lt_trans hv (by decide)), Nat.shiftRight_eq_div_pow (v % 2 ^ 32),
    Nat.div_eq_of_lt hv, Nat.or_zero]
  rw [show (18446744069414584320 % 2 ^ 64) >>> 32 = 2 ^ 32 - 1 from by decide, Nat.and_two_pow_sub_one_eq_mod,
    Nat.shiftRight_eq_div_pow]
  have := old.isLt
  omega

/-- What `c.fld` of RV64 and `c.flw` of RV32 do where the destination is an integer register. -/
def LoadsX (z : QArgs) (st st' : FSt n ρ H) : Prop :=
  ∃ a, IsAddr a n (X st.core z.rs1) z.imm ∧ (a.toNat ≤ st.core.limit.toNat →
    Computes st.core st'.core { rd := z.fr, size := 2 } (fun v => Mem.Spec.Holds st.core.mem a z.bytes v.toNat) ∧
    st'.fregs = st.fregs)

/-- **C134** fails in the simulators `rv64g` and `rv64gv` for every `c.fld`, and in `rv32gv` for every `c.flw`: the
loaded number goes to the integer register of the same number, and the floating-point registers stay as they
are. -/
theorem C134_integer_violated (hs : intDest s = true) (hb : st.core.hart.branch = false)
    (hr : Hart.Spec.Reachable st.core.hart) (z : QArgs) (h : IsQ s.xlen (wordAt st.core) z)
    (hl : z.load = true) (hsh : z.short = true) (h8 : s.xlen = .rv32 → z.bytes = 4)
    (hin : ∀ a, IsAddr a s.xlen.bits (X st.core z.rs1) z.imm → a.toNat ≤ st.core.limit.toNat) :
    (∃ st', TurnQ A C s dev st st') ∧ ∀ st', TurnQ A C s dev st st' → LoadsX z st st' := by
  have hi := Hart.hinv_reachable hr
  have := turnsQ_of (q_goes (A := A) (C := C) s dev st z h (LoadsX z st) fun o p hz hp => ?_)
  · exact ⟨this.1, fun st' ht => (this.2 st' ht).1⟩
  · have key : ∀ (width : Nat) (b : FpMem.Back) (base imm dst : Getters.Opd) (_ : dst ∈ qDsts s.xlen)
        (_ : ∀ v, wholeX s.xlen.bits b v = some (BitVec.ofNat s.xlen.bits v))
        (_ : 256 ^ z.bytes ≤ 2 ^ s.xlen.bits)
        (_ : z.fr = cRs2' (wordAt st.core))
        (_ : srcAt s (wordAt st.core) st.core ⟨.nop, [.one base, .one imm], []⟩ 0 = some (X st.core z.rs1))
        (_ : srcAt s (wordAt st.core) st.core ⟨.nop, [.one base, .one imm], []⟩ 1 =
          some (BitVec.ofInt s.xlen.bits (z.imm : Int)))
        (_ : z.imm < 2 ^ 31) (_ : Fits s.xlen.bits width (X st.core z.rs1) z.imm),
        CarriesQ s (wordAt st.core) st ⟨.load width z.bytes b ⟨.nop, [], [.one dst]⟩,
          ⟨.nop, [.one base, .one imm], []⟩⟩ (LoadsX z st) := by
      intro width b base imm dst hd hx hv hfr h0 h1 him hf
      obtain ⟨a, ha, hc⟩ := load_addr s _ st z width b _ ⟨.nop, [], [.one dst]⟩ h0 h1 him hf
      obtain ⟨f1, d, f2, f3⟩ := int_dest s hs (wordAt st.core) ⟨.nop, [], [.one dst]⟩ dst hd rfl
      have hlt := readLE_lt st.core.mem a z.bytes
      refine ⟨st.withCore { st.core with
          regs := Regs.write st.core.regs z.fr (BitVec.ofNat _ (readLE st.core.mem a z.bytes)) },
        ?_, ⟨a, ha, fun _ => ⟨?_, rfl⟩⟩, hi, ?_⟩
      · rw [hc (hin a ha)]
        unfold backQ
        rw [f1]
        dsimp only
        rw [hx, Option.bind_some]
        unfold putX
        rw [f2, Option.bind_some, f3, Option.map_some, hfr]
      · refine computes_put (bits_le _) st.core hb { rd := z.fr, size := 2 } _ _ ?_
        show Mem.Spec.Holds st.core.mem a z.bytes (BitVec.ofNat s.xlen.bits _).toNat
        rw [BitVec.toNat_ofNat, Nat.mod_eq_of_lt (by omega)]
        exact fun i hi => (readLE_byte _ _ _ i hi).symm
      · exact write_zero _ _ _
    rcases q_short hz hl hsh h8 with ⟨hx, rfl, rfl⟩ | ⟨hx, rfl, rfl⟩
    · have hp' : qexpect .rv32 .cflw = some p := by rw [← hx]; exact hp
      obtain rfl := Option.some.inj hp'
      exact key 32 .low .C3rs1 .IClUimm5x4 .C3frd (by rw [hx]; decide) (fun v => if_pos (by rw [hx]; rfl))
        (by show 256 ^ 4 ≤ 2 ^ s.xlen.bits; rw [hx]; decide) rfl (src_c3rs1 s _ st.core _ 0 rfl) (src_clw s _ st.core _ 1 rfl)
        (imm_lt _ _ _ (by decide) (by decide)) (fits32 s hx _ _)
    · have hp' : qexpect .rv64 .cfld = some p := by rw [← hx]; exact hp
      obtain rfl := Option.some.inj hp'
      exact key 64 .whole .C3rs1 .IClUimm5x8 .C3drd (by rw [hx]; decide) (fun v => if_pos (by rw [hx]; rfl))
        (by show 256 ^ 8 ≤ 2 ^ s.xlen.bits; rw [hx]; decide) rfl (src_c3rs1 s _ st.core _ 0 rfl) (src_cld s _ st.core _ 1 rfl)
        (imm_lt _ _ _ (by decide) (by decide)) (fits64 s _ _ fun e => absurd (hx.symm.trans e) (by decide))

/-- **C134** fails in the simulator `rv32gv` for every `c.fld` that no access fault stops: eight bytes are written
to the buffer of an integer register, which has four, so that what happens has no meaning. -/
theorem C134_beyond_violated (hs : intDest s = true) (hx : s.xlen = .rv32) (z : QArgs)
    (h : IsQ s.xlen (wordAt st.core) z) (hl : z.load = true) (hsh : z.short = true) (h8 : z.bytes = 8)
    (hin : (X st.core z.rs1).toNat + z.imm < 2 ^ 32 ∧ (X st.core z.rs1).toNat + z.imm ≤ st.core.limit.toNat)
    (st' : FSt s.xlen.bits ρ H) : ¬ TurnQ A C s dev st st' := by
  obtain ⟨o, p, hz, hp, ⟨i, size, hf⟩, hall⟩ := q_finds s _ z h
  rintro (⟨i, size, hf, ht⟩ | ⟨hn, _⟩)
  · obtain ⟨rfl, ha⟩ := hall i size hf
    unfold turnQ at ht
    rw [ha] at ht
    obtain ⟨rfl, rfl⟩ := q_short8 hz hl hsh h8
    have hp' : qexpect .rv32 .cfld = some p := by rw [← hx]; exact hp
    obtain rfl := Option.some.inj hp'
    obtain ⟨a, ia, hc⟩ := load_addr s (wordAt st.core) st
      ⟨true, 8, cRs2' (wordAt st.core), true, cRs1' (wordAt st.core), cLd (wordAt st.core)⟩ 64 .whole
      ⟨.nop, [.one .C3rs1, .one .IClUimm5x8], []⟩ ⟨.nop, [], [.one .C3drd]⟩ (src_c3rs1 s _ st.core _ 0 rfl)
      (src_cld s _ st.core _ 1 rfl) (imm_lt _ _ _ (by decide) (by decide)) (fits64 s _ _ fun _ => by
        have := hin.1
        dsimp only at this ⊢
        omega)
    have hle : a.toNat ≤ st.core.limit.toNat := by
      have h1 := hin.1
      have h2 := hin.2
      unfold IsAddr at ia
      dsimp only at ia h1 h2
      have hb : (2 : Int) ^ s.xlen.bits = 2 ^ 32 := by rw [hx]; rfl
      rw [hb] at ia
      omega
    have hc := hc hle
    unfold backQ at hc
    rw [(int_dest s hs (wordAt st.core) ⟨.nop, [], [.one .C3drd]⟩ .C3drd (by rw [hx]; decide) rfl).1] at hc
    dsimp only at hc
    rw [show ∀ v, wholeX s.xlen.bits .whole v = none from fun v => if_neg (by rw [hx]; decide),
      Option.bind_none] at hc
    have ht : (carryQ s (wordAt st.core) (st.core.hart.pc.setWidth 64) st ⟨.load 64 8 .whole ⟨.nop, [], [.one .C3drd]⟩,
      ⟨.nop, [.one .C3rs1, .one .IClUimm5x8], []⟩⟩).map _ = some st' := ht
    rw [hc] at ht
    cases ht
  · exact absurd hf (hn i size)

/-- **C134** fails for every `c.flw` and `c.flwsp`, where the destination is a floating-point register: its upper
half stays, so that the number is not boxed unless it was. -/
theorem C134_upper_violated (hx : s.xlen = .rv32) (hb : st.core.hart.branch = false)
    (hr : Hart.Spec.Reachable st.core.hart) (z : QArgs) (h : IsQ s.xlen (wordAt st.core) z)
    (hl : z.load = true) (h4 : z.bytes = 4) (hs : z.short = true → intDest s = false)
    (hin : ∀ a, IsAddr a s.xlen.bits (X st.core z.rs1) z.imm → a.toNat ≤ st.core.limit.toNat) :
    (∃ st', TurnQ A C s dev st st') ∧ ∀ st', TurnQ A C s dev st st' →
      (st'.fregs z.fr).toNat / 2 ^ 32 = (st.fregs z.fr).toNat / 2 ^ 32 := by
  have hi := Hart.hinv_reachable hr
  have := turnsQ_of (q_goes (A := A) (C := C) s dev st z h
    (fun st' => (st'.fregs z.fr).toNat / 2 ^ 32 = (st.fregs z.fr).toNat / 2 ^ 32) fun o p hz hp => ?_)
  · exact ⟨this.1, fun st' ht => (this.2 st' ht).1⟩
  · have key : ∀ (base imm dst : Getters.Opd)
        (_ : fdstAt s (wordAt st.core) ⟨.nop, [], [.one dst]⟩ 0 = some z.fr)
        (_ : srcAt s (wordAt st.core) st.core ⟨.nop, [.one base, .one imm], []⟩ 0 = some (X st.core z.rs1))
        (_ : srcAt s (wordAt st.core) st.core ⟨.nop, [.one base, .one imm], []⟩ 1 =
          some (BitVec.ofInt s.xlen.bits (z.imm : Int)))
        (_ : z.imm < 2 ^ 31),
        CarriesQ s (wordAt st.core) st ⟨.load 32 z.bytes .low ⟨.nop, [], [.one dst]⟩,
          ⟨.nop, [.one base, .one imm], []⟩⟩
          (fun st' => (st'.fregs z.fr).toNat / 2 ^ 32 = (st.fregs z.fr).toNat / 2 ^ 32) := by
      intro base imm dst hd h0 h1 him
      obtain ⟨a, ha, hc⟩ := load_addr s _ st z 32 .low _ ⟨.nop, [], [.one dst]⟩ h0 h1 him (fits32 s hx _ _)
      refine ⟨st.setF z.fr (FpMem.back .low (st.fregs z.fr) (readLE st.core.mem a z.bytes)), ?_, ?_, hi, rfl⟩
      · rw [hc (hin a ha)]
        unfold backQ
        rw [hd]
      · show (if z.fr = z.fr then _ else _ : BitVec 64).toNat / 2 ^ 32 = _
        rw [if_pos rfl]
        exact low_upper _ _
    rcases q_four hz hl h4 with ⟨rfl, rfl⟩ | ⟨rfl, rfl⟩
    · have hp' : qexpect .rv32 .cflw = some p := by rw [← hx]; exact hp
      obtain rfl := Option.some.inj hp'
      exact key .C3rs1 .IClUimm5x4 .C3frd (fdst_c3 s _ _ 0 (hs rfl) .C3frd (by rw [hx]; decide) rfl rfl)
        (src_c3rs1 s _ st.core _ 0 rfl) (src_clw s _ st.core _ 1 rfl) (imm_lt _ _ _ (by decide) (by decide))
    · have hp' : qexpect .rv32 .cflwsp = some p := by rw [← hx]; exact hp
      obtain rfl := Option.some.inj hp'
      exact key .X2 .ICiUimm6x4 .Frd (fdst_crd s _ _ 0 .Frd (by decide) rfl rfl)
        (src_sp s _ st.core _ 0 rfl) (src_clwsp s _ st.core _ 1 rfl) (imm_lt _ _ _ (by decide) (by decide))

/-- **C134** fails on RV32 for `c.fld`, `c.fldsp` and `c.fsdsp` when the sum of base and offset does not fit into 32
bits: it does not wrap, so that there is an access fault, with an address of 33 bits, wherever the memory ends
within the address space. -/
theorem C134_wrap_violated (hx : s.xlen = .rv32) (hr : Hart.Spec.Reachable st.core.hart) (z : QArgs)
    (h : IsQ s.xlen (wordAt st.core) z) (h8 : z.bytes = 8) (hk : z.load = true ∨ z.short = false)
    (hw : 2 ^ 32 ≤ (X st.core z.rs1).toNat + z.imm) (hlim : st.core.limit.toNat < 2 ^ 32) :
    (∃ st', TurnQ A C s dev st st') ∧ ∀ st', TurnQ A C s dev st st' →
      RaisesF st st' (BitVec.ofNat 64 ((X st.core z.rs1).toNat + z.imm)) (if z.load then 5#64 else 7#64) := by
  have hi := Hart.hinv_reachable hr
  have := turnsQ_of (q_goes (A := A) (C := C) s dev st z h (fun st' =>
    RaisesF st st' (BitVec.ofNat 64 ((X st.core z.rs1).toNat + z.imm)) (if z.load then 5#64 else 7#64))
    fun o p hz hp => ?_)
  · exact ⟨this.1, fun st' ht => (this.2 st' ht).1⟩
  · have key : ∀ (ops : Act) (_ : srcAt s (wordAt st.core) st.core ops 0 = some (X st.core z.rs1))
        (_ : srcAt s (wordAt st.core) st.core ops 1 = some (BitVec.ofInt s.xlen.bits (z.imm : Int)))
        (_ : z.imm < 2 ^ 31), addressQ 64 s (wordAt st.core) ops st =
          some (BitVec.ofNat 64 ((X st.core z.rs1).toNat + z.imm)) ∧
        st.core.limit.toNat < (BitVec.ofNat 64 ((X st.core z.rs1).toNat + z.imm)).toNat := by
      intro ops h0 h1 him
      have hlt := (X st.core z.rs1).isLt
      have hb : 2 ^ s.xlen.bits = 2 ^ 32 := by rw [hx]; rfl
      refine ⟨?_, ?_⟩
      · unfold addressQ
        rw [h0, h1, Option.bind_some, Option.map_some]
        refine congrArg some (BitVec.eq_of_toNat_eq ?_)
        simp only [BitVec.ofInt_natCast, BitVec.toNat_add, BitVec.toNat_setWidth, BitVec.toNat_ofNat]
        rw [Nat.mod_eq_of_lt (show z.imm < 2 ^ s.xlen.bits by omega)]
        omega
      · rw [BitVec.toNat_ofNat]
        omega
    have ld : ∀ (ops to : Act) (b : FpMem.Back) (_ : z.load = true)
        (_ : srcAt s (wordAt st.core) st.core ops 0 = some (X st.core z.rs1))
        (_ : srcAt s (wordAt st.core) st.core ops 1 = some (BitVec.ofInt s.xlen.bits (z.imm : Int)))
        (_ : z.imm < 2 ^ 31), CarriesQ s (wordAt st.core) st ⟨.load 64 8 b to, ops⟩ (fun st' =>
          RaisesF st st' (BitVec.ofNat 64 ((X st.core z.rs1).toNat + z.imm)) (if z.load then 5#64 else 7#64)) := by
      intro ops to b hl h0 h1 him
      obtain ⟨e1, e2⟩ := key ops h0 h1 him
      refine ⟨st.withCore (raise st.core (BitVec.ofNat 64 ((X st.core z.rs1).toNat + z.imm)) Mem.kLoadFault
        (st.core.hart.pc.setWidth 64) false), ?_, ⟨?_, ⟨rfl, rfl⟩, rfl, rfl⟩, ?_, rfl⟩
      · unfold carryQ
        dsimp only
        rw [e1, Option.bind_some]
        rw [show Mem.load st.core _ 8 (st.core.hart.pc.setWidth 64) false = _ from if_pos ((Mem.ult_iff _ _).2 e2)]
        rfl
      · rw [hl]
        exact raises_next st.core _ 2 _ 5#64 rfl
      · exact Hart.hinv_trap hi false _ _ _ false
    have sto : ∀ (ops : Act) (_ : z.load = false) (_ : fsrcAt s (wordAt st.core) ops 2 = some z.fr)
        (_ : srcAt s (wordAt st.core) st.core ops 0 = some (X st.core z.rs1))
        (_ : srcAt s (wordAt st.core) st.core ops 1 = some (BitVec.ofInt s.xlen.bits (z.imm : Int)))
        (_ : z.imm < 2 ^ 31), CarriesQ s (wordAt st.core) st ⟨.store 64 8 false, ops⟩ (fun st' =>
          RaisesF st st' (BitVec.ofNat 64 ((X st.core z.rs1).toNat + z.imm)) (if z.load then 5#64 else 7#64)) := by
      intro ops hl h2 h0 h1 him
      obtain ⟨e1, e2⟩ := key ops h0 h1 him
      refine ⟨st.withCore (raise st.core (BitVec.ofNat 64 ((X st.core z.rs1).toNat + z.imm)) Mem.kStoreFault
        (st.core.hart.pc.setWidth 64) false), ?_, ⟨?_, ⟨rfl, rfl⟩, rfl, rfl⟩, ?_, rfl⟩
      · unfold carryQ
        dsimp only
        rw [e1, Option.bind_some, h2, Option.map_some]
        rw [show Mem.store st.core _ 8 _ (st.core.hart.pc.setWidth 64) false = _ from if_pos ((Mem.ult_iff _ _).2 e2)]
        rfl
      · rw [hl]
        exact raises_next st.core _ 2 _ 7#64 rfl
      · exact Hart.hinv_trap hi false _ _ _ false
    rcases q_wide hz h8 hk with ⟨rfl, rfl⟩ | ⟨rfl, rfl⟩ | ⟨rfl, rfl⟩
    · have hp' : qexpect .rv32 .cfld = some p := by rw [← hx]; exact hp
      obtain rfl := Option.some.inj hp'
      exact ld _ _ _ rfl (src_c3rs1 s _ st.core _ 0 rfl) (src_cld s _ st.core _ 1 rfl)
        (imm_lt _ _ _ (by decide) (by decide))
    · have hp' : qexpect .rv32 .cfldsp = some p := by rw [← hx]; exact hp
      obtain rfl := Option.some.inj hp'
      exact ld _ _ _ rfl (src_sp s _ st.core _ 0 rfl) (src_cldsp s _ st.core _ 1 rfl)
        (imm_lt _ _ _ (by decide) (by decide))
    · have hp' : qexpect .rv32 .cfsdsp = some p := by rw [← hx]; exact hp
      obtain rfl := Option.some.inj hp'
      exact sto ⟨.nop, [.one .X2, .one .ICssUimm6x8, .one .Cdrs2], []⟩ rfl
        (fsrc_c s _ _ 2 .Cdrs2 (by rw [hx]; decide) rfl rfl) (src_sp s _ st.core _ 0 rfl)
        (src_csdsp s _ st.core _ 1 rfl) (imm_lt _ _ _ (by decide) (by decide))

end

/-! ## Many instructions -/

theorem doesQ_rest {z : QArgs} {st st' : FSt n ρ H} (h : DoesQ z st st') : Rest st st' ∧ st'.fp = st.fp := by
  obtain ⟨a, _, h1, h2⟩ := h
  cases hl : z.load with
  | true =>
    obtain ⟨h3, h4⟩ := h1 hl
    by_cases hc : a.toNat ≤ st.core.limit.toNat
    · obtain ⟨_, r, f, _⟩ := h3 hc
      exact ⟨r, f⟩
    · obtain ⟨_, r, _, f⟩ := h4 (by omega)
      exact ⟨r, f⟩
  | false =>
    obtain ⟨h3, h4⟩ := h2 hl
    by_cases hc : a.toNat ≤ st.core.limit.toNat
    · obtain ⟨_, r, f, _⟩ := h3 hc
      exact ⟨r, f⟩
    · obtain ⟨_, r, _, f⟩ := h4 (by omega)
      exact ⟨r, f⟩

/-- An entry for one of these instructions is found for its halfwords only. -/
theorem q_only (s : Sim) (w : Nat) (i : Inst) (size : Nat) (hf : Finds s w i size) (h : ∀ z, ¬ IsQ s.xlen w z) :
    qActs s i.op = none := by
  unfold qActs
  refine if_neg fun hc => ?_
  unfold Finds at hf
  split at hf
  · have := List.all_eq_true.1 (entriesQ32 s) i hf.1
    rw [hc] at this
    cases this
  · have he : w &&& 0xffff = w % 2 ^ 16 := by
      rw [show (0xffff : Nat) = 2 ^ 16 - 1 from rfl, Nat.and_two_pow_sub_one_eq_mod]
    obtain ⟨hi, hm, _⟩ := hf
    rw [he] at hm
    have t : s.decoder16.insts.all (fun i => !qOps.contains i.op ||
        ((qOpsOf s.xlen).contains (canon i.op) && !s.decoder16.unsoundOps.contains i.op)) = true := by
      cases s <;> decide +kernel
    have ht := List.all_eq_true.1 t i hi
    rw [hc] at ht
    simp only [Bool.not_true, Bool.false_or, Bool.and_eq_true, Bool.not_eq_true'] at ht
    have hl := C71_decoded_partial s.decoder16 i hi (fun hu => by
      rw [List.contains_iff_mem.2 hu] at ht
      cases ht.2) (w % 2 ^ 16) (Nat.lt_trans (Nat.mod_lt _ (by decide)) (by decide)) hm
    rw [xlen16] at hl
    have hz : (qargs s.xlen (canon i.op) (w % 2 ^ 16)).isSome = true :=
      q_some _ _ _ (List.contains_iff_mem.1 ht.1)
    obtain ⟨z, hz⟩ := Option.isSome_iff_exists.1 hz
    exact h z ⟨_, hz, hl⟩

/-- The word at the program counter: one of C131, or a halfword of C134 outside `WrongQ`. -/
inductive MeantQ (s : Sim) (dev : Option (Atomic.Device ρ)) (st : FSt s.xlen.bits ρ H) : Prop where
  | other (hn : ∀ z, ¬ IsQ s.xlen (wordAt st.core) z) (h : MeantK s dev st)
  | cfp (z : QArgs) (h : IsQ s.xlen (wordAt st.core) z) (hon : ¬ OffF st) (hw : ¬ WrongQ s z st)

/-- The effect of the word. -/
def EffectQ (after : Bool) (s : Sim) (dev : Option (Atomic.Device ρ)) (st st' : FSt s.xlen.bits ρ H) : Prop :=
  ((∀ z, ¬ IsQ s.xlen (wordAt st.core) z) ∧ EffectK after s dev st st') ∨
  ∃ z, IsQ s.xlen (wordAt st.core) z ∧ DoesQ z st st'

theorem turnQ_K {A : Arith H} {C : Cvt} (s : Sim) (dev : Option (Atomic.Device ρ)) (st : FSt s.xlen.bits ρ H)
    (hn : ∀ z, ¬ IsQ s.xlen (wordAt st.core) z) (st' : FSt s.xlen.bits ρ H) :
    TurnQ A C s dev st st' ↔ TurnK A C s dev st st' := by
  have e : ∀ i size, Finds s (wordAt st.core) i size →
      turnQ A C s i (wordAt st.core) size dev st = turnK A C s i (wordAt st.core) size dev st := by
    intro i size hf
    unfold turnQ
    rw [q_only s _ i size hf hn]
  constructor
  · rintro (⟨i, size, hf, ht⟩ | h)
    · exact .inl ⟨i, size, hf, (e i size hf).symm.trans ht⟩
    · exact .inr h
  · rintro (⟨i, size, hf, ht⟩ | h)
    · exact .inl ⟨i, size, hf, (e i size hf).trans ht⟩
    · exact .inr h

theorem meantQ_step {A : Arith H} {C : Cvt} {after : Bool} (hH : FpState.HostOk H) (hA : DirOk A) (hia : Ieee after A)
    (hie : IeeeV after C) (s : Sim) (dev : Option (Atomic.Device ρ))
    (hdev : ∀ d, dev = some d → Atomic.Spec.Contract d) (st : FSt s.xlen.bits ρ H)
    (hb : st.core.hart.branch = false) (hpc : st.core.hart.pc.toNat % 2 = 0)
    (hz : st.core.regs 0#5 = 0#s.xlen.bits) (hi : Hart.HInv st.core.hart) (hv : FInv st.fp) (ho : Own st)
    (h : MeantQ s dev st) :
    (∃ st', TurnQ A C s dev st st') ∧
      ∀ st', TurnQ A C s dev st st' → EffectQ after s dev st st' ∧ KeptA st st' ∧ Own st' := by
  cases h with
  | other hn h =>
    obtain ⟨⟨st', ht⟩, hall⟩ := meantK_step hH hA hia hie s dev hdev st hb hpc hz hi hv ho h
    refine ⟨⟨st', (turnQ_K s dev st hn st').2 ht⟩, fun st' ht => ?_⟩
    have := hall st' ((turnQ_K s dev st hn st').1 ht)
    exact ⟨.inl ⟨hn, this.1⟩, this.2⟩
  | cfp z h hon hw =>
    have := turnsQ_of (q_step (A := A) (C := C) s dev st z h hb hi (fun _ _ _ _ => hon) hw)
    refine ⟨this.1, fun st' ht => ?_⟩
    obtain ⟨hd, hk⟩ := this.2 st' ht
    obtain ⟨r, f⟩ := doesQ_rest hd
    exact ⟨.inr ⟨z, h, hd⟩, ⟨hk, by rw [f]; exact hv⟩, rest_own r ho⟩

/-- **C134**, for a whole run that mixes these instructions with those of C131: every turn has the effect the manual
describes, and the run can go on. -/
theorem C134_run_partial {A : Arith H} {C : Cvt} {after : Bool} (hH : FpState.HostOk H) (hA : DirOk A)
    (hia : Ieee after A) (hie : IeeeV after C) (s : Sim) (dev : Option (Atomic.Device ρ))
    (hdev : ∀ d, dev = some d → Atomic.Spec.Contract d) (sts : List (FSt s.xlen.bits ρ H))
    (st : FSt s.xlen.bits ρ H) (hb : st.core.hart.branch = false)
    (hz : st.core.regs 0#5 = 0#s.xlen.bits) (hr : Hart.Spec.Reachable st.core.hart) (hv : FInv st.fp) (ho : Own st)
    (ht : Chain (TurnQ A C s dev) st sts)
    (hok : ∀ d ∈ st :: sts, d.core.hart.pc.toNat % 2 = 0 ∧ MeantQ s dev d) :
    Chain (EffectQ after s dev) st sts ∧ ∃ st', TurnQ A C s dev (sts.getLastD st) st' := by
  have hi := Hart.hinv_reachable hr
  clear hr
  induction sts generalizing st with
  | nil =>
    obtain ⟨hpc, hm⟩ := hok st (by simp)
    exact ⟨trivial, (meantQ_step hH hA hia hie s dev hdev st hb hpc hz hi hv ho hm).1⟩
  | cons d sts ih =>
    obtain ⟨hpc, hm⟩ := hok st (by simp)
    obtain ⟨he, ⟨⟨hi', hb', hz'⟩, hv'⟩, ho'⟩ :=
      (meantQ_step hH hA hia hie s dev hdev st hb hpc hz hi hv ho hm).2 d ht.1
    have := ih d hb' (hz'.trans hz) hv' ho' ht.2 (fun e he => hok e (List.mem_cons_of_mem _ he)) hi'
    refine ⟨⟨he, this.1⟩, ?_⟩
    have e : (d :: sts).getLastD st = sts.getLastD d := by cases sts <;> rfl
    rw [e]; exact this.2

/-! ## Examples -/

/-- `c.fldsp f1, 8(x2)` with the base 0. -/
def loadsSp : FSt Sim.rv64g.xlen.bits (Option (BitVec 64)) FpState.x86 :=
  { signs with x := oneWord 0x1000#64 0xa2#8 0x20#8 0x00#8 0x00#8 }

example : IsQ .rv64 (wordAt loadsSp.core) ⟨true, 8, 1#5, false, 2#5, 8⟩ ∧ ¬ OffF loadsSp ∧ FInv loadsSp.fp ∧
    ¬ WrongQ .rv64g ⟨true, 8, 1#5, false, 2#5, 8⟩ loadsSp := by
  refine ⟨⟨.cfldsp, ?_, _, rfl, ?_⟩, ?_, finv_init FpState.x86_ok, ?_⟩
  · decide +kernel
  · unfold Enc.assigns; decide +kernel
  · unfold OffF; decide +kernel
  · rintro (⟨_, h, _⟩ | ⟨_, h, _⟩ | ⟨h, _⟩)
    · cases h
    · cases h
    · revert h; decide

/-- `c.fld f8, 0(x8)`: the simulator `rv64g` loads x8, `rv64gzb` loads f8. -/
def loadsF8 : FSt Sim.rv64g.xlen.bits (Option (BitVec 64)) FpState.x86 :=
  { signs with x := oneWord 0x1000#64 0x00#8 0x20#8 0x00#8 0x00#8 }

example : IsQ .rv64 (wordAt loadsF8.core) ⟨true, 8, 8#5, true, 8#5, 0⟩ ∧ intDest .rv64g = true ∧
    ¬ WrongQ .rv64gzb ⟨true, 8, 8#5, true, 8#5, 0⟩ loadsF8 := by
  refine ⟨⟨.cfld, ?_, _, rfl, ?_⟩, rfl, ?_⟩
  · decide +kernel
  · unfold Enc.assigns; decide +kernel
  · rintro (⟨_, _, h⟩ | ⟨_, h, _⟩ | ⟨h, _⟩)
    · cases h
    · cases h
    · revert h; decide

/-- `c.flwsp f1, 4(x2)` on RV32, with a base of which the sum wraps for `c.fldsp f1, 8(x2)`. -/
def loads32 (b0 b1 : BitVec 8) : FSt Sim.rv32g.xlen.bits (Option (BitVec 64)) FpState.x86 :=
  { x :=
      { base :=
        { core :=
            { hart := { Hart.Hart.init 32 false with pc := 0x1000#32, mtvec := 0x2000#32 }
              regs := fun r => if r = 2#5 then 0xfffffff8#32 else 0#32
              mem := fun a => if a = 0x1000#64 then b0 else if a = 0x1001#64 then b1 else 0#8
              limit := 0xffffffff#64
              hasC := true }
          resv := none }
        csrs := builtCsrs 32 false }
    fregs := fun _ => 0xffffffff00000000#64
    fp := FpState.init FpState.x86 }

example : IsQ .rv32 (wordAt (loads32 0x92#8 0x60#8).core) ⟨true, 4, 1#5, false, 2#5, 4⟩ ∧
    ¬ WrongQ .rv32g ⟨true, 4, 1#5, false, 2#5, 4⟩ (loads32 0x92#8 0x60#8) := by
  refine ⟨⟨.cflwsp, ?_, _, rfl, ?_⟩, ?_⟩
  · decide +kernel
  · unfold Enc.assigns; decide +kernel
  · rintro (⟨_, h, _⟩ | ⟨_, _, h⟩ | ⟨_, h, _⟩)
    · cases h
    · revert h; decide
    · cases h

example : IsQ .rv32 (wordAt (loads32 0xa2#8 0x20#8).core) ⟨true, 8, 1#5, false, 2#5, 8⟩ ∧
    2 ^ 32 ≤ (X (loads32 0xa2#8 0x20#8).core 2#5).toNat + 8 ∧
    (loads32 0xa2#8 0x20#8).core.limit.toNat < 2 ^ 32 := by
  refine ⟨⟨.cfldsp, ?_, _, rfl, ?_⟩, ?_, ?_⟩
  · decide +kernel
  · unfold Enc.assigns; decide +kernel
  · decide
  · decide

end Verif.Exec
