import Verif.Exec.Step
import Verif.Exec.System
import Verif.Exec.SpecS
import Verif.Atomic.Props
import Verif.Hart.Trap
import Verif.Hart.Interrupt

/-!
# What system and atomic instructions do, from their descriptions
-/

namespace Verif.Exec

open Decode Decode.Isa Core Operands Spec
open XStatus.Spec (field)

/-- The description an instruction should have. -/
def okSys (k : SKind) (p : SAct × Option Act) : Bool :=
  match k with
  | .ecall => p.1.sem == .ecall && p.2 == none
  | .ebreak => p.1.sem == .ebreak && p.2 == none
  | .mret => p.1.sem == .mret && p.2 == none && p.1.ops.dsts[0]? == some (.one .NextPc)
  | .sret => p.1.sem == .sret && p.2 == none && p.1.ops.dsts[0]? == some (.one .NextPc)
  | .sfence => p.1.sem == .sfence && p.2 == none
  | .quiet => p.1.sem == .quiet && p.2 == none
  | .atomic i sz => p.1.sem == .atomic i sz && p.2 == some ⟨.child sz true, [], [.one .Rd]⟩ &&
      p.1.ops.srcs[0]? == some (.one .Rs1) && (i == .lr || p.1.ops.srcs[1]? == some (.one .Rs2))

/-- The kinds of an RV32 or RV64 core. -/
def okSk (x : Xlen) : SKind → Bool
  | .atomic _ .w => true
  | .atomic _ .d => x == .rv64
  | .atomic _ _ => false
  | _ => true

theorem skind_ok {x : Xlen} {o : Op} {k : SKind} (h : skind x o = some k) : okSk x k = true := by
  unfold skind at h
  split at h <;> first
    | (cases h; done)
    | (obtain rfl := Option.some.inj h; first | rfl | (cases x <;> rfl))

theorem fits_sk {x : Xlen} {i : Atomic.Insn} {sz : Mem.Size} (h : okSk x (.atomic i sz) = true) :
    Mem.Fits x.bits sz := by
  cases sz <;> cases x <;> first | (cases h; done) | (unfold Mem.Fits; decide)

variable {n : Nat} {ρ : Type}

/-- The end of a turn that did not jump. -/
theorem next_passes (hn : n ≤ 64) (c : Core n) (hb : c.hart.branch = false) (size : Nat) :
    Passes c (next c (c.hart.pc.setWidth 64) size) size := by
  refine ⟨_, next_is hn c size, ?_, ?_⟩
  · unfold next; rw [if_neg (by rw [hb]; decide)]; exact ⟨rfl, rfl, rfl, rfl⟩
  · unfold next; rw [if_neg (by rw [hb]; decide)]

/-- The end of a turn that raised an exception. -/
theorem next_fault (st : Atomic.St n ρ) (size : Nat) (code : BitVec 64) :
    Raises st.core (next (fault st code (st.core.hart.pc.setWidth 64)).core (st.core.hart.pc.setWidth 64) size)
      0#64 code :=
  raises_next st.core _ size 0#64 code rfl

theorem one_or (b : BitVec 1) : b = 0#1 ∨ b = 1#1 := by
  have := b.isLt
  rcases (by omega : b.toNat = 0 ∨ b.toNat = 1) with h | h
  · exact .inl (BitVec.eq_of_toNat_eq h)
  · exact .inr (BitVec.eq_of_toNat_eq h)

theorem looks_check (g : Hart.Hart n) (hl : Hart.Spec.legalMode g) :
    (∀ i, Hart.Spec.choose g.check = some i → g.check.avail = true ∧ g.check.code = BitVec.ofNat 64 i) ∧
    (Hart.Spec.choose g.check = none → g.check.avail = g.avail) := by
  rw [Hart.C10_check_spec g hl]
  cases hc : Hart.Spec.choose g with
  | none => exact ⟨fun i h => absurd (h.symm.trans hc) (Option.some_ne_none i), fun _ => rfl⟩
  | some k =>
    have e : Hart.Spec.choose ({ g with avail := true, code := BitVec.ofNat 64 k } : Hart.Hart n) = some k := hc
    refine ⟨fun i h => ?_, fun h => absurd (e.symm.trans h) (Option.some_ne_none k)⟩
    have := Option.some.inj (e.symm.trans h)
    subst this
    exact ⟨rfl, rfl⟩

theorem looks_mstatus (g : Hart.Hart n) (m : XStatus.MStatus) :
    Looks (m.value &&& 0xf#64 ≠ 0#64) g (g.setMstatus m) := by
  intro hl
  have hl' : Hart.Spec.legalMode g := by
    obtain ⟨a, q, e⟩ := Hart.setMstatus_frame g m
    rw [e] at hl
    exact hl
  refine ⟨fun hb => ?_, fun hb => ?_, fun hb => ?_⟩
  · rw [show g.setMstatus m = ({ g with mstatus := m } : Hart.Hart n).check from if_pos hb]
    exact (looks_check { g with mstatus := m } hl').1
  · rw [show g.setMstatus m = ({ g with mstatus := m } : Hart.Hart n).check from if_pos hb]
    exact (looks_check { g with mstatus := m } hl').2
  · rw [show g.setMstatus m = ({ g with mstatus := m } : Hart.Hart n) from if_neg hb]

theorem looks_mie (g : Hart.Hart n) (v : BitVec 64) : Looks (v ≠ 0#64) g (g.setMie v) := by
  intro hl
  have hl' : Hart.Spec.legalMode g := by
    obtain ⟨a, q, e⟩ := Hart.setMie_frame g v
    rw [e] at hl
    exact hl
  refine ⟨fun hb => ?_, fun hb => ?_, fun hb => ?_⟩
  · rw [show g.setMie v = ({ g with mie := v } : Hart.Hart n).check from if_pos hb]
    exact (looks_check { g with mie := v } hl').1
  · rw [show g.setMie v = ({ g with mie := v } : Hart.Hart n).check from if_pos hb]
    exact (looks_check { g with mie := v } hl').2
  · rw [show g.setMie v = ({ g with mie := v } : Hart.Hart n) from if_neg hb]

theorem looks_mip (g : Hart.Hart n) (m : Xip.MIp) : Looks (m.stored ≠ 0#64) g (g.setMip m) := by
  intro hl
  have hl' : Hart.Spec.legalMode g := by
    obtain ⟨a, q, e⟩ := Hart.setMip_frame g m
    rw [e] at hl
    exact hl
  refine ⟨fun hb => ?_, fun hb => ?_, fun hb => ?_⟩
  · rw [show g.setMip m = ({ g with mip := m } : Hart.Hart n).check from if_pos hb]
    exact (looks_check { g with mip := m } hl').1
  · rw [show g.setMip m = ({ g with mip := m } : Hart.Hart n).check from if_pos hb]
    exact (looks_check { g with mip := m } hl').2
  · rw [show g.setMip m = ({ g with mip := m } : Hart.Hart n) from if_neg hb]

theorem mret_looks (h : Hart.Hart n) : Looks (h.mretBody.mstatus.value &&& 0xf#64 ≠ 0#64) h h.mretBody := by
  obtain ⟨a, q, e⟩ := Hart.setMstatus_frame
    ({ h with pc := h.mepc, branch := true, mode := (h.mstatus.getter .mpp).setWidth 2, returns := h.returns + 1 })
    (h.mstatus.update [(.mie, (h.mstatus.getter .mpie).setWidth 32), (.mpie, 1), (.mpp, 0)])
  have := looks_mstatus
    ({ h with pc := h.mepc, branch := true, mode := (h.mstatus.getter .mpp).setWidth 2, returns := h.returns + 1 })
    (h.mstatus.update [(.mie, (h.mstatus.getter .mpie).setWidth 32), (.mpie, 1), (.mpp, 0)])
  have e' : h.mretBody.mstatus =
      h.mstatus.update [(.mie, (h.mstatus.getter .mpie).setWidth 32), (.mpie, 1), (.mpp, 0)] :=
    (congrArg (fun g : Hart.Hart n => g.mstatus) e :)
  rw [e']
  exact this

theorem sret_looks (h : Hart.Hart n) : Looks (h.sretBody.mstatus.value &&& 0xf#64 ≠ 0#64) h h.sretBody := by
  obtain ⟨a, q, e⟩ := Hart.setMstatus_frame
    ({ h with pc := h.sepc, branch := true, mode := (h.mstatus.getter .spp).setWidth 2, returns := h.returns + 1 })
    (h.mstatus.update [(.sie, (h.mstatus.getter .spie).setWidth 32), (.spie, 1), (.spp, 0)])
  have := looks_mstatus
    ({ h with pc := h.sepc, branch := true, mode := (h.mstatus.getter .spp).setWidth 2, returns := h.returns + 1 })
    (h.mstatus.update [(.sie, (h.mstatus.getter .spie).setWidth 32), (.spie, 1), (.spp, 0)])
  have e' : h.sretBody.mstatus =
      h.mstatus.update [(.sie, (h.mstatus.getter .spie).setWidth 32), (.spie, 1), (.spp, 0)] :=
    (congrArg (fun g : Hart.Hart n => g.mstatus) e :)
  rw [e']
  exact this

theorem mret_returns (c : Core n) (hi : Hart.HInv c.hart) (hm : c.hart.mode = M) (a : BitVec 64) (size : Nat)
    (hb : c.hart.branch = false)
    (hg : ¬ (field c.hart.mstatus.value .mprv = 1 ∧ field c.hart.mstatus.value .mpp ≠ M)) :
    ReturnsM c (next { c with hart := c.hart.mret a } (c.hart.pc.setWidth 64) size) := by
  obtain ⟨-, -, f3, f4, f5, f6, -⟩ := Hart.mret_fields c.hart hi hm a
  obtain ⟨x, y, e⟩ := Hart.mretBody_eff c.hart
  have e' : c.hart.mret a = _ := (by unfold Hart.Hart.mret; rw [if_neg (by rw [hm]; decide)] :
    c.hart.mret a = c.hart.mretBody).trans e
  refine ⟨(c.hart.mret a).mstatus, x, y, ?_, f3, f4, f5, fun _ => f6 _ (by decide) (by decide) (by decide),
    fun h => ?_, fun f h1 h2 h3 _ => f6 f h3 h2 h1, ?_⟩
  · unfold next
    rw [if_pos (by rw [e'])]
    rw [e', Hart.getter_mpp]
    dsimp only
    rw [← hb]
  · rw [f6 _ (by decide) (by decide) (by decide)]
    exact (one_or _).resolve_right fun h' => hg ⟨h', h⟩
  · have hx : c.hart.mret a = c.hart.mretBody := by
      unfold Hart.Hart.mret; rw [if_neg (by rw [hm]; decide)]
    unfold next
    rw [if_pos (by rw [e'])]
    rw [hx]
    exact mret_looks c.hart

theorem sret_returns (c : Core n) (hi : Hart.HInv c.hart) (hm : c.hart.mode = S)
    (ht : field c.hart.mstatus.value .tsr = 0) (a : BitVec 64) (size : Nat)
    (hb : c.hart.branch = false) (hg : ¬ field c.hart.mstatus.value .mprv = 1) :
    ReturnsS c (next { c with hart := c.hart.sret a } (c.hart.pc.setWidth 64) size) := by
  obtain ⟨-, -, f3, f4, f5, f6, -⟩ := Hart.sret_fields c.hart hi
  obtain ⟨x, y, e⟩ := Hart.sretBody_eff c.hart
  have hexec : c.hart.sret a = c.hart.sretBody := by
    unfold Hart.Hart.sret
    have h1 : c.hart.mstatus.getter .tsr = 0 := by rw [XStatus.C05_getters, ht]; rfl
    rw [if_neg (by unfold Hart.Hart.sretBadMode; rw [hm]; split <;> decide), if_neg (by simp [h1])]
  rw [hexec]
  refine ⟨c.hart.sretBody.mstatus, x, y, ?_, f3, f4, f5, ?_, fun f h1 h2 h3 _ => f6 f h3 h2 h1, ?_⟩
  · unfold next
    rw [if_pos (by rw [e])]
    rw [e, Hart.getter_spp]
    dsimp only
    rw [← hb]
  · rw [f6 _ (by decide) (by decide) (by decide)]
    exact (one_or _).resolve_right hg
  · unfold next
    rw [if_pos (by rw [e])]
    exact sret_looks c.hart

theorem trap_eq (h : Hart.Hart n) (code addr : BitVec 64) (c : Core n) (hc : c.hart = h) :
    ({ c with hart := h.trap false 0 code addr } : Core n) = raise c 0#64 code addr false := by
  subst hc; rfl

theorem setsReg_put (c : Core n) (m : Memory) (hb : c.hart.branch = false) (r : BitVec 5) (v : BitVec n)
    (size : Nat) :
    SetsReg c (next { c with mem := m, regs := Regs.write c.regs r v } (c.hart.pc.setWidth 64) size) r v := by
  have e : (next { c with mem := m, regs := Regs.write c.regs r v } (c.hart.pc.setWidth 64) size).regs =
      Regs.write c.regs r v := by
    unfold next
    rw [if_neg (by
      rw [show ({ c with mem := m, regs := Regs.write c.regs r v } : Core n).hart = c.hart from rfl, hb]
      decide)]
  refine ⟨fun q => ?_, ?_⟩
  · unfold X
    rw [e]
    exact Regs.read_write _ _ _ _
  · rw [e]; exact write_zero _ _ _

/-- The request made of the memory is that of `Atomic.exec`, and so is the result. -/
theorem doAtomic_eq (s : Sim) (w : Nat) (addr : BitVec 64) (dev : Option (Atomic.Device ρ)) (a b : Act)
    (i : Atomic.Insn) (sz : Mem.Size) (st : Atomic.St s.xlen.bits ρ)
    (h0 : a.srcs[0]? = some (.one .Rs1)) (h1 : i = .lr ∨ a.srcs[1]? = some (.one .Rs2))
    (hb : b = ⟨.child sz true, [], [.one .Rd]⟩) :
    doAtomic s w addr dev a b i sz st = some (Atomic.exec dev st i sz (rd w) (rs1 w) (rs2 w) addr false) := by
  subst hb
  unfold doAtomic Atomic.exec
  cases dev with
  | none => rfl
  | some d =>
    dsimp only
    have hv : storeValue s w st.core a i sz = some (if (Atomic.semOp i).2 then
        some ((Regs.read st.core.regs (rs2 w)).toNat % 2 ^ (8 * sz.bytes)) else none) := by
      unfold storeValue
      by_cases hs : (Atomic.semOp i).2 = true
      · rw [if_pos hs, if_pos hs]
        rcases h1 with rfl | h1
        · cases hs
        · rw [src_rs2 s w st.core a 1 h1, ← X_eq]; rfl
      · rw [if_neg hs, if_neg hs]
    rw [src_rs1 s w st.core a 0 h0, Option.bind_some, hv, Option.bind_some, X_eq]
    generalize d (st.resv, st.core.mem) _ = q
    cases q with
    | none => rfl
    | some q =>
      obtain ⟨⟨r, m⟩, v⟩ := q
      dsimp only
      obtain ⟨d', hd', hp⟩ := puts_rd s w ⟨.child sz true, [], [.one .Rd]⟩ 0 rfl
      unfold finish
      dsimp only
      rw [hd', Option.bind_some, hp]
      rfl

theorem addr_eq (st : Atomic.St n ρ) (w : Nat) : Atomic.addr st (rs1 w) = addrOf st.core w := by
  unfold Atomic.addr addrOf; rw [X_eq]

theorem operand_eq (c : Core n) (w k : Nat) :
    (Regs.read c.regs (rs2 w)).toNat % 2 ^ (8 * k) = operandOf c w k := by
  unfold operandOf; rw [X_eq]

theorem atomic_acts (d : Atomic.Device ρ) (hd : Atomic.Spec.Contract d) (st : Atomic.St n ρ)
    (i : Atomic.Insn) (sz : Mem.Size) (hf : Mem.Fits n sz) (w : Nat) (addr : BitVec 64) :
    ∃ r' m r, Atomic.exec (some d) st i sz (rd w) (rs1 w) (rs2 w) addr false =
        { resv := r', core := { st.core with mem := m, regs := Regs.write st.core.regs (rd w) r } } ∧
      Acts i sz.bytes (addrOf st.core w) (operandOf st.core w sz.bytes) st.core.mem m r := by
  by_cases hl : i = .lr
  · subst hl
    obtain ⟨r', hr⟩ := hd.ll st.resv st.core.mem (Atomic.addr st (rs1 w)) sz.bytes
    refine ⟨r', st.core.mem, Mem.extend n true sz.bytes (readLE st.core.mem (addrOf st.core w) sz.bytes), ?_,
      rfl, _, ⟨fun j hj => (readLE_byte _ _ _ j hj).symm, readLE_lt _ _ _⟩, Mem.extend_ok true sz.bytes _ hf⟩
    rw [addr_eq] at hr
    simp only [Atomic.exec, Atomic.semOp]
    rw [show BitVec.setWidth 64 (Regs.read st.core.regs (rs1 w)) = addrOf st.core w from rfl]
    simp only [Bool.false_eq_true, if_false, hr]
  by_cases hs : i = .sc
  · subst hs
    obtain ⟨r', m, x, h1, h2⟩ := Atomic.C33_sc d hd st sz hf (rd w) (rs1 w) (rs2 w) addr false
    refine ⟨r', m, x, h1, ?_⟩
    rcases h2 with ⟨rfl, rfl⟩ | ⟨h, rfl⟩
    · refine .inl ⟨rfl, ?_⟩
      rw [addr_eq, operand_eq]
      exact Atomic.C33_amo_memory _ _ _ _
    · exact .inr ⟨h, rfl⟩
  · obtain ⟨r', old, new, x, h1, h2, h3, h4, h5⟩ := Atomic.C33_amo d hd st i sz hf (rd w) (rs1 w) (rs2 w) addr
      false hl hs
    refine ⟨r', _, x, h5, ?_⟩
    rw [addr_eq] at h1 ⊢
    rw [operand_eq] at h3
    have : ∃ old t, Reads st.core.mem (addrOf st.core w) sz.bytes old ∧ Mem.Spec.IsExt true sz.bytes old x ∧
        Atomic.Spec.amo i sz.bytes old (operandOf st.core w sz.bytes) = some t ∧
        Stored st.core.mem (writeLE st.core.mem (addrOf st.core w) sz.bytes new) (addrOf st.core w) sz.bytes t :=
      ⟨old, new, ⟨h1, h2⟩, h4, h3, Atomic.C33_amo_memory _ _ _ _⟩
    cases i with
    | lr => exact absurd rfl hl
    | sc => exact absurd rfl hs
    | _ => exact this

/-- The description of a kind of instruction is carried out as the manual says. -/
theorem sys_ok (s : Sim) (w : Nat) (dev : Option (Atomic.Device ρ))
    (hdev : ∀ d, dev = some d → Atomic.Spec.Contract d) (k : SKind) (hk : okSk s.xlen k = true)
    (p : SAct × Option Act) (hp : okSys k p = true) (st : Atomic.St s.xlen.bits ρ)
    (hb : st.core.hart.branch = false) (hi : Hart.HInv st.core.hart) (hg : ¬ WrongS dev k w st.core)
    (size : Nat) :
    ∃ st₁, sysCarry s w (st.core.hart.pc.setWidth 64) dev st p = some st₁ ∧
      DoesS dev k size w st { st₁ with core := next st₁.core (st.core.hart.pc.setWidth 64) size } := by
  obtain ⟨⟨sem, ops⟩, ch⟩ := p
  cases k with
  | ecall =>
    simp only [okSys, Bool.and_eq_true, beq_iff_eq] at hp
    obtain ⟨rfl, rfl⟩ := hp
    refine ⟨_, rfl, ?_, fun h => ?_, fun h => ?_, fun h => ?_⟩
    · unfold doEcall; split <;> rfl
    all_goals
      unfold doEcall
      rw [h]
      exact next_fault st size _
  | ebreak =>
    simp only [okSys, Bool.and_eq_true, beq_iff_eq] at hp
    obtain ⟨rfl, rfl⟩ := hp
    exact ⟨_, rfl, rfl, next_fault st size _⟩
  | mret =>
    simp only [okSys, Bool.and_eq_true, beq_iff_eq] at hp
    obtain ⟨⟨rfl, rfl⟩, hd⟩ := hp
    refine ⟨withHart st (st.core.hart.mret (st.core.hart.pc.setWidth 64)), ?_, rfl, fun h => ?_, fun h => ?_⟩
    · unfold sysCarry
      dsimp only
      rw [dst_pc s w ops 0 hd]
      rfl
    · have e : st.core.hart.mret (st.core.hart.pc.setWidth 64) =
          st.core.hart.trap false 0 Hart.Hart.kIllegal (st.core.hart.pc.setWidth 64) := by
        unfold Hart.Hart.mret; exact if_pos h
      unfold withHart
      rw [e]
      exact next_fault st size _
    · exact mret_returns st.core hi h _ size hb fun h' => hg ⟨h, h'⟩
  | sret =>
    simp only [okSys, Bool.and_eq_true, beq_iff_eq] at hp
    obtain ⟨⟨rfl, rfl⟩, hd⟩ := hp
    refine ⟨withHart st (st.core.hart.sret (st.core.hart.pc.setWidth 64)), ?_, rfl, fun h => ?_, fun h => ?_⟩
    · unfold sysCarry
      dsimp only
      rw [dst_pc s w ops 0 hd]
      rfl
    · have e : st.core.hart.sret (st.core.hart.pc.setWidth 64) =
          st.core.hart.trap false 0 Hart.Hart.kIllegal (st.core.hart.pc.setWidth 64) := by
        unfold Hart.Hart.sret
        rcases h with h | ⟨h, ht⟩
        · rw [if_pos (by unfold Hart.Hart.sretBadMode; rw [h]; split <;> decide)]
        · have h1 : st.core.hart.mstatus.getter .tsr ≠ 0 := by
            rw [XStatus.C05_getters, ht]; decide
          split
          · rfl
          · first | rfl | exact if_pos h1
      unfold withHart
      rw [e]
      exact next_fault st size _
    · rcases h with h | ⟨h, ht⟩
      · exact absurd (.inl h) hg
      · exact sret_returns st.core hi h ht _ size hb fun h' => hg (.inr ⟨h, h'⟩)
  | sfence =>
    simp only [okSys, Bool.and_eq_true, beq_iff_eq] at hp
    obtain ⟨rfl, rfl⟩ := hp
    have h15 := Hart.C15_sfence st.core.hart (st.core.hart.pc.setWidth 64)
    refine ⟨_, rfl, rfl, fun h => ?_, fun h => ?_⟩
    · unfold withHart
      rw [h15.1 h]
      exact next_fault st size _
    · unfold withHart
      rw [h15.2 h]
      exact next_passes (bits_le _) st.core hb size
  | quiet =>
    simp only [okSys, Bool.and_eq_true, beq_iff_eq] at hp
    obtain ⟨rfl, rfl⟩ := hp
    exact ⟨_, rfl, rfl, next_passes (bits_le _) st.core hb size⟩
  | atomic i sz =>
    simp only [okSys, Bool.and_eq_true, Bool.or_eq_true, beq_iff_eq] at hp
    obtain ⟨⟨⟨rfl, rfl⟩, h0⟩, h1⟩ := hp
    have e := doAtomic_eq s w (st.core.hart.pc.setWidth 64) dev ops _ i sz st h0 h1 rfl
    refine ⟨_, e, fun h => ?_, fun h h' => absurd ⟨h, h'⟩ hg, fun h _ => ?_⟩
    · subst h
      exact ⟨rfl, next_fault st size _⟩
    · cases dev with
      | none => exact absurd rfl h
      | some d =>
        obtain ⟨r', m, r, he, ha⟩ := atomic_acts d (hdev d rfl) st i sz (fits_sk hk) w (st.core.hart.pc.setWidth 64)
        rw [he]
        refine ⟨_, m, r, next_is (bits_le _) st.core size, ?_, ?_, ?_, ?_,
          setsReg_put st.core m hb (rd w) r size, ha⟩
        all_goals
          unfold next
          rw [if_neg (by
            rw [show ({ st.core with mem := m, regs := Regs.write st.core.regs (rd w) r } :
              Core s.xlen.bits).hart = st.core.hart from rfl, hb]
            decide)]

end Verif.Exec
