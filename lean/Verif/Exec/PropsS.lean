import Verif.Exec.PropsB
import Verif.Exec.TablesS

/-!
# C124: system and atomic instructions, from the word in memory
-/

namespace Verif.Exec

open Decode Decode.Isa Core Operands Spec
open XStatus.Spec (field)

/-! ## Decoding -/

/-- The system and atomic instructions of four bytes. -/
def sOps (x : Xlen) : List Op :=
  [.ecall, .ebreak, .mret, .sret, .sfence_vma_nn, .fence, .fence_tso, .fencei, .wfi, .lrw, .scw, .amoswapw,
    .amoaddw, .amoxorw, .amoandw, .amoorw, .amominw, .amomaxw, .amominuw, .amomaxuw] ++
  match x with
  | .rv32 => []
  | .rv64 => [.lrd, .scd, .amoswapd, .amoaddd, .amoxord, .amoandd, .amoord, .amomind, .amomaxd, .amominud,
      .amomaxud]

theorem skind_mem {x : Xlen} {o : Op} {k : SKind} (h : skind x o = some k) : o ∈ sOps x := by
  unfold skind at h
  split at h <;> first
    | (cases h; done)
    | decide
    | (cases x <;> decide)

theorem has_entryS (s : Sim) : (sOps s.xlen).all (fun o =>
    canon o == o && s.decoder.insts.any (fun i => i.op == o) &&
      (s.decoder.gaps o).all fun p => o == .fence && p.2 &&& 0xf00f8f80 != 0) = true := by
  cases s <;> decide +kernel

theorem gap_reserved {w m v : Nat} (h : w &&& m = v) (hv : v &&& 0xf00f8f80 ≠ 0) : w &&& 0xf00f8f80 ≠ 0 := by
  intro h0
  apply hv
  rw [← h, Nat.and_assoc, Nat.and_comm m, ← Nat.and_assoc, h0, Nat.zero_and]

theorem decodesS (s : Sim) (o : Op) (k : SKind) (hk : skind s.xlen o = some k) (w : Nat) (hw : w < 2 ^ 32)
    (hl : Listed s.xlen o w) (hn : ¬ Reserved o w) :
    (∃ i ∈ s.decoder.insts, i.matches w = true) ∧
      ∀ i ∈ s.decoder.insts, i.matches w = true → canon i.op = o := by
  have he := List.all_eq_true.1 (has_entryS s) o (skind_mem hk)
  simp only [Bool.and_eq_true, beq_iff_eq, List.any_eq_true, List.all_eq_true, bne_iff_ne] at he
  obtain ⟨⟨hc, i, hi, hio⟩, hg⟩ := he
  subst hio
  obtain ⟨j, hj, hjc, hjm⟩ := C71_implemented_partial s.decoder i hi w hw (by rw [hc]; exact hl) (by
    intro p hp h
    rw [hc] at hp
    obtain ⟨ho, hv⟩ := hg p hp
    exact hn ⟨ho, gap_reserved h hv⟩)
  refine ⟨⟨j, hj, hjm⟩, fun a ha ham => ?_⟩
  rw [← hc, ← hjc]
  exact pairwise_both (C59_same_instruction s.decoder (decoder_ne s) w hw) ha hj ham hjm

theorem listed_lowS (x : Xlen) (o : Op) (k : SKind) (hk : skind x o = some k) (w : Nat)
    (hl : Listed x o w) : w &&& 3 = 3 := by
  have t : (sOps x).all (fun o => (enc x o).all fun e => e.mask &&& 3 == 3 && e.value &&& 3 == 3) = true := by
    cases x <;> decide +kernel
  obtain ⟨e, he, ha, _⟩ := hl
  have h := List.all_eq_true.1 t o (skind_mem hk)
  rw [he] at h
  simp only [Option.all_some, Bool.and_eq_true, beq_iff_eq] at h
  rw [← h.1, ← Nat.and_assoc, ha, h.2, h.1]

theorem has_cebreak (s : Sim) : canon .cebreak = .cebreak ∧
    s.decoder16.insts.any (fun i => i.op == .cebreak) = true ∧ s.decoder16.gaps .cebreak = [] := by
  cases s <;> decide +kernel

theorem decodes_cebreak (s : Sim) (w : Nat) (hw : w < 2 ^ 16) (hl : Listed s.xlen .cebreak w) :
    (∃ i ∈ s.decoder16.insts, i.matches w = true) ∧
      ∀ i ∈ s.decoder16.insts, i.matches w = true → canon i.op = .cebreak := by
  obtain ⟨hc, ha, hg⟩ := has_cebreak s
  simp only [List.any_eq_true, beq_iff_eq] at ha
  obtain ⟨i, hi, hio⟩ := ha
  obtain ⟨j, hj, hjc, hjm⟩ := C71_implemented_partial s.decoder16 i hi w (by omega)
    (by rw [hio, hc, xlen16]; exact hl) (by
      intro p hp
      rw [hio, hc, hg] at hp
      exact absurd hp List.not_mem_nil)
  refine ⟨⟨j, hj, hjm⟩, fun a ha ham => ?_⟩
  rw [← hc, ← hio, ← hjc]
  exact pairwise_both (C59_same_instruction s.decoder16 (decoder16_ne s) w (by omega)) ha hj ham hjm

theorem listed_cebreak (x : Xlen) (w : Nat) (hl : Listed x .cebreak (w % 2 ^ 16)) : w &&& 3 ≠ 3 := by
  have t : (enc x .cebreak).all (fun e => e.mask &&& 3 == 3 && e.value &&& 3 != 3) = true := by
    cases x <;> decide +kernel
  obtain ⟨e, he, ha, _⟩ := hl
  rw [he] at t
  simp only [Option.all_some, Bool.and_eq_true, beq_iff_eq, bne_iff_ne] at t
  intro hc
  apply t.2
  have h4 : ∀ a : Nat, a &&& 3 = a % 4 := fun a => Nat.and_two_pow_sub_one_eq_mod a 2
  rw [h4] at hc
  rw [← ha, Nat.and_assoc, t.1, h4]
  omega

/-! ## One turn -/

variable {ρ : Type}

/-- What the turn with an entry whose description is right does. -/
theorem desc_turn (s : Sim) (dev : Option (Atomic.Device ρ)) (st : Atomic.St s.xlen.bits ρ) (k : SKind)
    (size : Nat) (i : Inst) (hd : okDesc s i.op k = true) (Q : Atomic.St s.xlen.bits ρ → Prop)
    (hq : ∀ p, okSys k p = true → ∃ st₁,
      sysCarry s (wordAt st.core) (st.core.hart.pc.setWidth 64) dev st p = some st₁ ∧
        Q { st₁ with core := next st₁.core (st.core.hart.pc.setWidth 64) size })
    (hn : k = .quiet → Q { st with core := next st.core (st.core.hart.pc.setWidth 64) size }) :
    ∃ st', turnX s i (wordAt st.core) size dev st = some st' ∧ Q st' := by
  unfold okDesc at hd
  unfold turnX
  cases ha : acts s i.op with
  | some as =>
    rw [ha] at hd
    simp only [Bool.and_eq_true, beq_iff_eq] at hd
    refine ⟨_, ?_, hn hd.1⟩
    have e : turn s i (wordAt st.core) size st.core =
        some (next st.core (st.core.hart.pc.setWidth 64) size) := by
      obtain ⟨a, rfl⟩ : ∃ a, as = [a] := by
        rcases as with _ | ⟨a, _ | ⟨b, l⟩⟩
        · cases hd.2
        · exact ⟨a, rfl⟩
        · cases hd.2
      have hs : a.sem = .nop := by have := hd.2; simpa [nopOnly] using this
      unfold turn
      rw [ha, Option.bind_some]
      simp only [carry, single, hs, Option.map_some]
    show Option.map _ (turn s i (wordAt st.core) size st.core) = _
    rw [e, Option.map_some]
  | none =>
    rw [ha] at hd
    change (sysActs s i.op).any (okSys k) = true at hd
    cases hp : sysActs s i.op with
    | none => rw [hp] at hd; cases hd
    | some p =>
      rw [hp, Option.any_some] at hd
      obtain ⟨st₁, h1, h2⟩ := hq p hd
      refine ⟨_, ?_, h2⟩
      show sysTurn s i (wordAt st.core) size dev st = _
      unfold sysTurn
      dsimp only
      rw [hp, Option.bind_some, h1, Option.map_some]

/-- Some entry matches, and the turn with any that does is carried out and has the effect `Q`. -/
def GoesX (s : Sim) (dev : Option (Atomic.Device ρ)) (st : Atomic.St s.xlen.bits ρ)
    (Q : Atomic.St s.xlen.bits ρ → Prop) : Prop :=
  (∃ i size, Finds s (wordAt st.core) i size) ∧
  ∀ i size, Finds s (wordAt st.core) i size →
    ∃ st', turnX s i (wordAt st.core) size dev st = some st' ∧ Q st'

theorem turns_of {s : Sim} {dev : Option (Atomic.Device ρ)} {st : Atomic.St s.xlen.bits ρ}
    {Q : Atomic.St s.xlen.bits ρ → Prop} (h : GoesX s dev st Q) :
    (∃ st', TurnX s dev st st') ∧ ∀ st', TurnX s dev st st' → Q st' := by
  obtain ⟨⟨i, size, hf⟩, h⟩ := h
  obtain ⟨st', hs, _⟩ := h i size hf
  refine ⟨⟨st', i, size, hf, hs⟩, ?_⟩
  rintro st₂ ⟨i, size, hf, hs⟩
  obtain ⟨st', hs', hq⟩ := h i size hf
  rw [hs] at hs'
  obtain rfl := Option.some.inj hs'
  exact hq

theorem sys_goes (s : Sim) (dev : Option (Atomic.Device ρ)) (st : Atomic.St s.xlen.bits ρ) (k : SKind)
    (size : Nat) (h : IsS s.xlen (wordAt st.core) k size) (Q : Atomic.St s.xlen.bits ρ → Prop)
    (hq : ∀ p, okSys k p = true → ∃ st₁,
      sysCarry s (wordAt st.core) (st.core.hart.pc.setWidth 64) dev st p = some st₁ ∧
        Q { st₁ with core := next st₁.core (st.core.hart.pc.setWidth 64) size })
    (hn : k = .quiet → Q { st with core := next st.core (st.core.hart.pc.setWidth 64) size }) :
    GoesX s dev st Q := by
  cases h with
  | word o _ hk hl hr =>
    obtain ⟨⟨i, hi, him⟩, hall⟩ := decodesS s o k hk _ (readLE_lt st.core.mem _ 4) hl hr
    have hlow := listed_lowS s.xlen o k hk _ hl
    refine ⟨⟨i, 4, by unfold Finds; rw [if_pos hlow]; exact ⟨hi, him, rfl⟩⟩,
      fun i size hf => ?_⟩
    unfold Finds at hf
    rw [if_pos hlow] at hf
    obtain ⟨hi, him, rfl⟩ := hf
    have ht := List.all_eq_true.1 (entriesS_ok s) i hi
    unfold okEntryS at ht
    rw [hall i hi him, hk] at ht
    exact desc_turn s dev st k 4 i ht Q hq hn
  | half hl =>
    have hlow := listed_cebreak s.xlen _ hl
    have he : wordAt st.core &&& 0xffff = wordAt st.core % 2 ^ 16 := by
      rw [show (0xffff : Nat) = 2 ^ 16 - 1 from rfl, Nat.and_two_pow_sub_one_eq_mod]
    obtain ⟨⟨i, hi, him⟩, hall⟩ := decodes_cebreak s _ (Nat.mod_lt _ (by decide)) hl
    refine ⟨⟨i, 2, by unfold Finds; rw [if_neg hlow, he]; exact ⟨hi, him, rfl⟩⟩,
      fun i size hf => ?_⟩
    unfold Finds at hf
    rw [if_neg hlow, he] at hf
    obtain ⟨hi, him, rfl⟩ := hf
    have ht := List.all_eq_true.1 (entriesS16_ok s) i hi
    rw [hall i hi him] at ht
    simp only [bne_self_eq_false, Bool.false_or] at ht
    exact desc_turn s dev st .ebreak 2 i ht Q hq hn

theorem sys_turns (s : Sim) (dev : Option (Atomic.Device ρ)) (st : Atomic.St s.xlen.bits ρ) (k : SKind)
    (size : Nat) (h : IsS s.xlen (wordAt st.core) k size) (Q : Atomic.St s.xlen.bits ρ → Prop)
    (hq : ∀ p, okSys k p = true → ∃ st₁,
      sysCarry s (wordAt st.core) (st.core.hart.pc.setWidth 64) dev st p = some st₁ ∧
        Q { st₁ with core := next st₁.core (st.core.hart.pc.setWidth 64) size })
    (hn : k = .quiet → Q { st with core := next st.core (st.core.hart.pc.setWidth 64) size }) :
    (∃ st', TurnX s dev st st') ∧ ∀ st', TurnX s dev st st' → Q st' :=
  turns_of (sys_goes s dev st k size h Q hq hn)

theorem isS_ok {x : Xlen} {w size : Nat} {k : SKind} (h : IsS x w k size) : okSk x k = true := by
  cases h with
  | word o _ hk _ _ => exact skind_ok hk
  | half _ => rfl

theorem sys_step (s : Sim) (dev : Option (Atomic.Device ρ))
    (hdev : ∀ d, dev = some d → Atomic.Spec.Contract d) (st : Atomic.St s.xlen.bits ρ) (k : SKind) (size : Nat)
    (h : IsS s.xlen (wordAt st.core) k size) (hb : st.core.hart.branch = false)
    (hi : Hart.HInv st.core.hart) (hg : ¬ WrongS dev k (wordAt st.core) st.core) :
    GoesX s dev st (DoesS dev k size (wordAt st.core) st) := by
  refine sys_goes s dev st k size h _ (fun p hp =>
    sys_ok s (wordAt st.core) dev hdev k (isS_ok h) p hp st hb hi hg size) fun hk => ?_
  subst hk
  exact ⟨rfl, next_passes (bits_le _) st.core hb size⟩

/-- **C124.** In every simulated core, with any atomic memory that keeps to its contract or with none, a
word that the manual gives to `ecall`, `ebreak`, `mret`, `sret`, `wfi`, a fence or the A extension is
carried out, whichever matching entry of the decoder is used, and the state afterwards is the one the
manual describes.  The hart is one whose mstatus the simulator has written (`Hart.HInv`; every hart
reached from reset, `Hart.hinv_reachable`).  Left out are the cases of `WrongS` and fences with
reserved fields. -/
theorem C124_step_partial (s : Sim) (dev : Option (Atomic.Device ρ))
    (hdev : ∀ d, dev = some d → Atomic.Spec.Contract d) (st : Atomic.St s.xlen.bits ρ) (k : SKind) (size : Nat)
    (h : IsS s.xlen (wordAt st.core) k size) (hb : st.core.hart.branch = false)
    (hi : Hart.HInv st.core.hart) (hg : ¬ WrongS dev k (wordAt st.core) st.core) :
    (∃ st', TurnX s dev st st') ∧ ∀ st', TurnX s dev st st' → DoesS dev k size (wordAt st.core) st st' :=
  turns_of (sys_step s dev hdev st k size h hb hi hg)

/-- **C124** fails for returns that leave machine mode with MPRV set: MPRV stays set, so that the loads
and stores of the less privileged mode would be those of the mode in MPP. -/
theorem C124_mprv_violated (s : Sim) (dev : Option (Atomic.Device ρ)) (st : Atomic.St s.xlen.bits ρ)
    (size : Nat) (h : IsS s.xlen (wordAt st.core) .mret size) (hi : Hart.HInv st.core.hart)
    (hm : st.core.hart.mode = M) (hv : field st.core.hart.mstatus.value .mprv = 1)
    (hp : field st.core.hart.mstatus.value .mpp ≠ M) :
    (∃ st', TurnX s dev st st') ∧ ∀ st', TurnX s dev st st' →
      st'.core.hart.mode ≠ M ∧ field st'.core.hart.mstatus.value .mprv = 1 ∧ ¬ ReturnsM st.core st'.core := by
  refine sys_turns s dev st .mret size h _ (fun p hk => ?_) (fun h => by cases h)
  obtain ⟨⟨sem, ops⟩, ch⟩ := p
  simp only [okSys, Bool.and_eq_true, beq_iff_eq] at hk
  obtain ⟨⟨rfl, rfl⟩, hd⟩ := hk
  refine ⟨withHart st (st.core.hart.mret (st.core.hart.pc.setWidth 64)), ?_, ?_⟩
  · unfold sysCarry
    dsimp only
    rw [dst_pc s _ ops 0 hd]
    rfl
  · obtain ⟨-, f2, f3, f4, f5, f6, f7, -⟩ := Hart.mret_fields st.core.hart hi hm (st.core.hart.pc.setWidth 64)
    have e : (next (withHart st (st.core.hart.mret (st.core.hart.pc.setWidth 64))).core
        (st.core.hart.pc.setWidth 64) size).hart =
        { st.core.hart.mret (st.core.hart.pc.setWidth 64) with branch := false } := by
      unfold next withHart
      rw [if_pos f7]
    have f6' := f6 .mprv (by decide) (by decide) (by decide)
    dsimp only
    refine ⟨?_, ?_, ?_⟩
    · rw [e]; dsimp only; rw [f2]; exact hp
    · rw [e]; dsimp only; rw [f6', hv]
    · rintro ⟨m, a, q, hc, _, _, _, _, h0, _⟩
      have h0 := h0 hp
      have hm' := congrArg (fun c : Core s.xlen.bits => c.hart.mstatus) hc
      dsimp only at hm'
      rw [e] at hm'
      dsimp only at hm'
      rw [← hm', f6', hv] at h0
      revert h0; decide

/-- **C124** fails for atomic accesses at addresses that are not aligned, or beyond the highest physical
address: no exception is raised, the access is made. -/
theorem C124_refused_violated (s : Sim) (d : Atomic.Device ρ) (hd : Atomic.Spec.Contract d)
    (st : Atomic.St s.xlen.bits ρ) (i : Atomic.Insn) (sz : Mem.Size) (size : Nat)
    (h : IsS s.xlen (wordAt st.core) (.atomic i sz) size) (hb : st.core.hart.branch = false) :
    (∃ st', TurnX s (some d) st st') ∧ ∀ st', TurnX s (some d) st st' →
      st'.core.hart.mcause = st.core.hart.mcause ∧ st'.core.hart.mode = st.core.hart.mode ∧
      IsNext st.core size st'.core.hart.pc ∧ ∃ r, SetsReg st.core st'.core (rd (wordAt st.core)) r ∧
        Acts i sz.bytes (addrOf st.core (wordAt st.core)) (operandOf st.core (wordAt st.core) sz.bytes)
          st.core.mem st'.core.mem r := by
  refine sys_turns s (some d) st (.atomic i sz) size h _ (fun p hk => ?_) (fun h => by cases h)
  obtain ⟨⟨sem, ops⟩, ch⟩ := p
  simp only [okSys, Bool.and_eq_true, Bool.or_eq_true, beq_iff_eq] at hk
  obtain ⟨⟨⟨rfl, rfl⟩, h0⟩, h1⟩ := hk
  refine ⟨_, doAtomic_eq s _ (st.core.hart.pc.setWidth 64) (some d) ops _ i sz st h0 h1 rfl, ?_⟩
  obtain ⟨r', m, r, he, ha⟩ := atomic_acts d hd st i sz (fits_sk (isS_ok h)) (wordAt st.core)
    (st.core.hart.pc.setWidth 64)
  rw [he]
  have hn := setsReg_put st.core m hb (rd (wordAt st.core)) r size
  have hx := next_is (bits_le _) st.core size
  refine ⟨?_, ?_, ?_, r, hn, ?_⟩
  all_goals
    unfold next
    rw [if_neg (by
      rw [show ({ st.core with mem := m, regs := Regs.write st.core.regs (rd (wordAt st.core)) r } :
        Core s.xlen.bits).hart = st.core.hart from rfl, hb]
      decide)]
  · exact hx
  · exact ha

/-! ## Many instructions -/

theorem hinv_of {n : Nat} {g h : Hart.Hart n} (hi : Hart.HInv h) (e : g.mstatus = h.mstatus) : Hart.HInv g := by
  unfold Hart.HInv at *
  rw [e]; exact hi

theorem raises_hinv {n : Nat} {c c' : Core n} {tval code : BitVec 64} (h : Raises c c' tval code)
    (hi : Hart.HInv c.hart) : Hart.HInv c'.hart := by
  rw [h.1]
  exact hinv_of (Hart.hinv_trap hi false tval code (c.hart.pc.setWidth 64) false) rfl

theorem goes_hinv {n : Nat} {c c' : Core n} {p : BitVec n} (h : GoesTo c c' p) (hi : Hart.HInv c.hart) :
    Hart.HInv c'.hart := by
  rw [h.1]
  exact hinv_of hi rfl

theorem computes_hinv {n : Nat} {c c' : Core n} {z : Args} {P : BitVec n → Prop} (h : Computes c c' z P)
    (hi : Hart.HInv c.hart) : Hart.HInv c'.hart := by
  obtain ⟨_, p, _, _, hg, _⟩ := h
  exact goes_hinv hg hi

theorem does_hinv {x : Xlen} {k : Kind} {z : Args} {c c' : Core x.bits} (h : Does x k z c c')
    (hi : Hart.HInv c.hart) : Hart.HInv c'.hart := by
  cases k with
  | jal =>
    obtain ⟨t, _, h1, h2⟩ := h
    by_cases hbad : Control.Spec.badTarget c.hasC t
    · exact raises_hinv (h2 hbad) hi
    · exact goes_hinv (h1 hbad).1 hi
  | jalr =>
    obtain ⟨u, t, _, _, h1, h2⟩ := h
    by_cases hbad : Control.Spec.badTarget c.hasC t
    · exact raises_hinv (h2 hbad) hi
    · exact goes_hinv (h1 hbad).1 hi
  | br q =>
    by_cases htk : Control.Spec.taken q (X c z.rs1) (X c z.rs2)
    · obtain ⟨t, _, h1, h2⟩ := h.2 htk
      by_cases hbad : Control.Spec.badTarget c.hasC t
      · obtain ⟨v, hr⟩ := h2 hbad
        exact raises_hinv hr hi
      · exact goes_hinv (h1 hbad).1 hi
    · obtain ⟨p, _, hg, _⟩ := h.1 htk
      exact goes_hinv hg hi
  | ld sz sgn =>
    obtain ⟨a, _, h1, h2⟩ := h
    by_cases hl : a.toNat ≤ c.limit.toNat
    · exact computes_hinv (h1 hl) hi
    · exact raises_hinv (h2 (by omega)) hi
  | st sz =>
    obtain ⟨a, _, h1, h2⟩ := h
    by_cases hl : a.toNat ≤ c.limit.toNat
    · obtain ⟨p, m, _, rfl, _⟩ := h1 hl
      exact hinv_of hi rfl
    · exact raises_hinv (h2 (by omega)) hi
  | rr o => exact computes_hinv h hi
  | ri o => exact computes_hinv h hi
  | sh o => exact computes_hinv h hi
  | md o => exact computes_hinv h hi
  | rrw o => exact computes_hinv h hi
  | riw o => exact computes_hinv h hi
  | shw o => exact computes_hinv h hi
  | mdw o => exact computes_hinv h hi
  | lui => exact computes_hinv h hi
  | auipc => exact computes_hinv h hi

theorem doesB_hinv {x : Xlen} {k : BKind} {z : Args} {c c' : Core x.bits} (h : DoesB x k z c c')
    (hi : Hart.HInv c.hart) : Hart.HInv c'.hart := by
  cases k <;> exact computes_hinv h hi

/-- The registers of control, the flag and register 0 after a turn. -/
def Kept {n : Nat} (c c' : Core n) : Prop :=
  Hart.HInv c'.hart ∧ c'.hart.branch = false ∧ c'.regs 0#5 = c.regs 0#5

theorem kept_next {n : Nat} (c c₁ : Core n) (pc : BitVec 64) (size : Nat) (hi : Hart.HInv c₁.hart)
    (hr : c₁.regs 0#5 = c.regs 0#5) : Kept c (next c₁ pc size) := by
  unfold next
  split
  · exact ⟨hinv_of hi rfl, rfl, hr⟩
  · rename_i h
    exact ⟨hinv_of hi rfl, by simpa using h, hr⟩

theorem fault_hinv {n : Nat} (st : Atomic.St n ρ) (code a : BitVec 64) (hi : Hart.HInv st.core.hart) :
    Hart.HInv (fault st code a).core.hart := Hart.hinv_trap hi false 0#64 code a false

/-- They are kept whatever the instruction does. -/
theorem sys_kept (s : Sim) (dev : Option (Atomic.Device ρ)) (st : Atomic.St s.xlen.bits ρ) (k : SKind)
    (size : Nat) (h : IsS s.xlen (wordAt st.core) k size) (hi : Hart.HInv st.core.hart)
    (st' : Atomic.St s.xlen.bits ρ) (ht : TurnX s dev st st') : Kept st.core st'.core := by
  refine (sys_turns s dev st k size h (fun st' => Kept st.core st'.core) (fun p hp => ?_)
    (fun _ => kept_next _ _ _ _ hi rfl)).2 st' ht
  suffices hs : ∃ st₁, sysCarry s (wordAt st.core) (st.core.hart.pc.setWidth 64) dev st p = some st₁ ∧
      Hart.HInv st₁.core.hart ∧ st₁.core.regs 0#5 = st.core.regs 0#5 by
    obtain ⟨st₁, h1, h2, h3⟩ := hs
    exact ⟨st₁, h1, kept_next _ _ _ _ h2 h3⟩
  obtain ⟨⟨sem, ops⟩, ch⟩ := p
  cases k with
  | ecall =>
    simp only [okSys, Bool.and_eq_true, beq_iff_eq] at hp
    obtain ⟨rfl, rfl⟩ := hp
    refine ⟨_, rfl, ?_⟩
    unfold doEcall
    split
    · exact ⟨fault_hinv st _ _ hi, rfl⟩
    · exact ⟨hi, rfl⟩
  | ebreak =>
    simp only [okSys, Bool.and_eq_true, beq_iff_eq] at hp
    obtain ⟨rfl, rfl⟩ := hp
    exact ⟨_, rfl, fault_hinv st _ _ hi, rfl⟩
  | mret =>
    simp only [okSys, Bool.and_eq_true, beq_iff_eq] at hp
    obtain ⟨⟨rfl, rfl⟩, hd⟩ := hp
    refine ⟨withHart st (st.core.hart.mret (st.core.hart.pc.setWidth 64)), ?_, Hart.hinv_step hi (.mret _), rfl⟩
    unfold sysCarry
    dsimp only
    rw [dst_pc s _ ops 0 hd]
    rfl
  | sret =>
    simp only [okSys, Bool.and_eq_true, beq_iff_eq] at hp
    obtain ⟨⟨rfl, rfl⟩, hd⟩ := hp
    refine ⟨withHart st (st.core.hart.sret (st.core.hart.pc.setWidth 64)), ?_, Hart.hinv_step hi (.sret _), rfl⟩
    unfold sysCarry
    dsimp only
    rw [dst_pc s _ ops 0 hd]
    rfl
  | sfence =>
    simp only [okSys, Bool.and_eq_true, beq_iff_eq] at hp
    obtain ⟨rfl, rfl⟩ := hp
    refine ⟨_, rfl, ?_, rfl⟩
    show Hart.HInv (st.core.hart.sfenceVma _)
    unfold Hart.Hart.sfenceVma
    split
    · exact Hart.hinv_trap hi _ _ _ _ _
    · exact hi
  | quiet =>
    simp only [okSys, Bool.and_eq_true, beq_iff_eq] at hp
    obtain ⟨rfl, rfl⟩ := hp
    exact ⟨_, rfl, hi, rfl⟩
  | atomic i sz =>
    simp only [okSys, Bool.and_eq_true, Bool.or_eq_true, beq_iff_eq] at hp
    obtain ⟨⟨⟨rfl, rfl⟩, h0⟩, h1⟩ := hp
    refine ⟨_, doAtomic_eq s _ (st.core.hart.pc.setWidth 64) dev ops _ i sz st h0 h1 rfl, ?_⟩
    unfold Atomic.exec
    cases dev with
    | none => exact ⟨fault_hinv st _ _ hi, rfl⟩
    | some d =>
      dsimp only
      split
      · exact ⟨fault_hinv st _ _ hi, rfl⟩
      · exact ⟨hi, write_zero _ _ _⟩

/-- The instructions of C120 and C121 in the larger state. -/
theorem goes_goesX (s : Sim) (dev : Option (Atomic.Device ρ)) (st : Atomic.St s.xlen.bits ρ)
    (Q : Core s.xlen.bits → Prop) (h : Goes s st.core Q) :
    GoesX s dev st fun st' => st'.resv = st.resv ∧ Q st'.core := by
  obtain ⟨⟨c', i, size, hf, hc⟩, hall⟩ := h
  refine ⟨⟨i, size, hf⟩, fun i size hf => ?_⟩
  obtain ⟨c', hc, hq⟩ := hall i size hf
  refine ⟨{ st with core := c' }, ?_, rfl, hq⟩
  unfold turnX
  have ha : ∃ as, acts s i.op = some as := by
    cases ha : acts s i.op with
    | some as => exact ⟨as, rfl⟩
    | none => unfold turn at hc; rw [ha] at hc; cases hc
  obtain ⟨as, ha⟩ := ha
  rw [ha]
  dsimp only
  rw [hc, Option.map_some]

/-- The instruction the word is: one of C120, one of C121 on a core that has them, or one of these,
apart from the cases left out there and here. -/
inductive MeantX (s : Sim) (dev : Option (Atomic.Device ρ)) (st : Atomic.St s.xlen.bits ρ) : Prop where
  | base (k : Kind) (z : Args) (h : Is s.xlen (wordAt st.core) k z) (ho : NoOverflow st.core k z)
  | bits (hs : s.zb = true) (k : BKind) (h : IsB s.xlen s.vec (wordAt st.core) k)
      (hg : ¬ Wrong s.xlen k (bargs s.xlen k (wordAt st.core)) st.core)
  | sys (k : SKind) (size : Nat) (h : IsS s.xlen (wordAt st.core) k size)
      (hg : ¬ WrongS dev k (wordAt st.core) st.core)

/-- The effect of the instruction. -/
def EffectX (s : Sim) (dev : Option (Atomic.Device ρ)) (st st' : Atomic.St s.xlen.bits ρ) : Prop :=
  (st'.resv = st.resv ∧ Effect s.xlen s.vec st.core st'.core) ∨
  (∃ k size, IsS s.xlen (wordAt st.core) k size ∧ DoesS dev k size (wordAt st.core) st st')

theorem goesX_mono {s : Sim} {dev : Option (Atomic.Device ρ)} {st : Atomic.St s.xlen.bits ρ}
    {P Q : Atomic.St s.xlen.bits ρ → Prop} (h : GoesX s dev st P) (hpq : ∀ st', TurnX s dev st st' → P st' → Q st') :
    GoesX s dev st Q := by
  refine ⟨h.1, fun i size hf => ?_⟩
  obtain ⟨st', ht, hp⟩ := h.2 i size hf
  exact ⟨st', ht, hpq st' ⟨i, size, hf, ht⟩ hp⟩

theorem meant_goes (s : Sim) (dev : Option (Atomic.Device ρ))
    (hdev : ∀ d, dev = some d → Atomic.Spec.Contract d) (st : Atomic.St s.xlen.bits ρ)
    (hb : st.core.hart.branch = false) (hpc : st.core.hart.pc.toNat % 2 = 0)
    (hz : st.core.regs 0#5 = 0#s.xlen.bits) (hi : Hart.HInv st.core.hart) (h : MeantX s dev st) :
    GoesX s dev st fun st' => EffectX s dev st st' ∧ Kept st.core st'.core := by
  cases h with
  | base k z h ho =>
    refine goesX_mono (goes_goesX s dev st _ (step_goes s st.core k z h hb hpc hz ho)) fun st' _ hh => ?_
    obtain ⟨hr, hd⟩ := hh
    have hv := does_inv hd (is_even h).1 (is_even h).2 hb hpc
    exact ⟨.inl ⟨hr, .inl ⟨k, z, h, hd⟩⟩, does_hinv hd hi, hv.1, hv.2.2⟩
  | bits hs k h hg =>
    refine goesX_mono (goes_goesX s dev st _ (stepB_goes s hs st.core k h hb hg)) fun st' _ hh => ?_
    obtain ⟨hr, hd⟩ := hh
    have hv := doesB_inv hd (by decide : 4 % 2 = 0) hb hpc
    exact ⟨.inl ⟨hr, .inr ⟨k, h, hd⟩⟩, doesB_hinv hd hi, hv.1, hv.2.2⟩
  | sys k size h hg =>
    exact goesX_mono (sys_step s dev hdev st k size h hb hi hg) fun st' ht hd =>
      ⟨.inr ⟨k, size, h, hd⟩, sys_kept s dev st k size h hi st' ht⟩

theorem meant_step (s : Sim) (dev : Option (Atomic.Device ρ))
    (hdev : ∀ d, dev = some d → Atomic.Spec.Contract d) (st : Atomic.St s.xlen.bits ρ)
    (hb : st.core.hart.branch = false) (hpc : st.core.hart.pc.toNat % 2 = 0)
    (hz : st.core.regs 0#5 = 0#s.xlen.bits) (hi : Hart.HInv st.core.hart) (h : MeantX s dev st) :
    (∃ st', TurnX s dev st st') ∧
      ∀ st', TurnX s dev st st' → EffectX s dev st st' ∧ Kept st.core st'.core :=
  turns_of (meant_goes s dev hdev st hb hpc hz hi h)

/-- **C124**, for a whole run that mixes all these instructions, from any hart reached from reset: every
turn has the effect the manual describes, and the run can go on.  Assumed of every state on the way is
that the program counter is even (mepc and sepc may hold odd numbers, C92) and that the word is an
instruction of C120, C121 or C124, apart from the cases left out there. -/
theorem C124_run_partial (s : Sim) (dev : Option (Atomic.Device ρ))
    (hdev : ∀ d, dev = some d → Atomic.Spec.Contract d) (sts : List (Atomic.St s.xlen.bits ρ))
    (st : Atomic.St s.xlen.bits ρ) (hb : st.core.hart.branch = false)
    (hz : st.core.regs 0#5 = 0#s.xlen.bits) (hr : Hart.Spec.Reachable st.core.hart)
    (ht : Chain (TurnX s dev) st sts)
    (hok : ∀ d ∈ st :: sts, d.core.hart.pc.toNat % 2 = 0 ∧ MeantX s dev d) :
    Chain (EffectX s dev) st sts ∧ ∃ st', TurnX s dev (sts.getLastD st) st' := by
  have hi := Hart.hinv_reachable hr
  clear hr
  induction sts generalizing st with
  | nil =>
    obtain ⟨hpc, hm⟩ := hok st (by simp)
    exact ⟨trivial, (meant_step s dev hdev st hb hpc hz hi hm).1⟩
  | cons d sts ih =>
    obtain ⟨hpc, hm⟩ := hok st (by simp)
    obtain ⟨he, hi', hb', hz'⟩ := (meant_step s dev hdev st hb hpc hz hi hm).2 d ht.1
    have := ih d hb' (hz'.trans hz) ht.2 (fun e he => hok e (List.mem_cons_of_mem _ he)) hi'
    refine ⟨⟨he, this.1⟩, ?_⟩
    have e : (d :: sts).getLastD st = sts.getLastD d := by cases sts <;> rfl
    rw [e]; exact this.2

/-! ## Examples -/

/-- The turn with the first entry that matches. -/
def firstX (s : Sim) (dev : Option (Atomic.Device ρ)) (st : Atomic.St s.xlen.bits ρ) :
    Option (Atomic.St s.xlen.bits ρ) :=
  if wordAt st.core &&& 3 = 3 then
    (s.decoder.insts.find? fun i => i.matches (wordAt st.core)).bind fun i =>
      turnX s i (wordAt st.core) 4 dev st
  else (s.decoder16.insts.find? fun i => i.matches (wordAt st.core &&& 0xffff)).bind fun i =>
    turnX s i (wordAt st.core) 2 dev st

theorem firstX_turn (s : Sim) (dev : Option (Atomic.Device ρ)) (st st' : Atomic.St s.xlen.bits ρ)
    (h : firstX s dev st = some st') : TurnX s dev st st' := by
  unfold firstX at h
  split at h
  · rename_i h3
    obtain ⟨i, hi, hc⟩ := Option.bind_eq_some_iff.1 h
    refine ⟨i, 4, ?_, hc⟩
    unfold Finds
    rw [if_pos h3]
    exact ⟨List.mem_of_find?_eq_some hi, by simpa using List.find?_some hi, rfl⟩
  · rename_i h3
    obtain ⟨i, hi, hc⟩ := Option.bind_eq_some_iff.1 h
    refine ⟨i, 2, ?_, hc⟩
    unfold Finds
    rw [if_neg h3]
    exact ⟨List.mem_of_find?_eq_some hi, by simpa using List.find?_some hi, rfl⟩

/-- `amoadd.w x5, x6, (x7)` at 0x1000, `ecall` at 0x1004 and, at the trap vector 0x2000, `mret`. -/
def calls : Atomic.St Sim.rv64g.xlen.bits (Option (BitVec 64)) :=
  { core :=
      { hart := { Hart.Hart.init 64 true with pc := 0x1000#64, mtvec := 0x2000#64 }
        regs := fun r => if r = 6#5 then 5#64 else if r = 7#5 then 0x3000#64 else 0#64
        mem := fun a =>
          if a = 0x1000#64 then 0xaf#8 else if a = 0x1001#64 then 0xa2#8 else if a = 0x1002#64 then 0x63#8
          else if a = 0x1004#64 then 0x73#8
          else if a = 0x2000#64 then 0x73#8 else if a = 0x2002#64 then 0x20#8 else if a = 0x2003#64 then 0x30#8
          else if a = 0x3000#64 then 0xfe#8 else if a = 0x3001#64 then 0xff#8 else if a = 0x3002#64 then 0xff#8
          else if a = 0x3003#64 then 0xff#8 else 0#8
        limit := 0xffff#64
        hasC := true }
    resv := none }

/-- The first word is the addition, and nothing stands against it. -/
example : IsS .rv64 (wordAt calls.core) (.atomic .amoadd .w) 4 ∧
    ¬ WrongS (some Atomic.simpleDev) (.atomic .amoadd .w) (wordAt calls.core) calls.core := by
  refine ⟨.word .amoaddw _ rfl ⟨_, rfl, ?_⟩ (fun h => by cases h.1), ?_⟩
  · unfold Enc.assigns; decide +kernel
  · rintro ⟨_, h | h⟩ <;> revert h <;> decide +kernel

/-- The addition leaves -2 in x5 and 3 in memory; the call goes to 0x2000 with cause 11; the return goes
back to the call. -/
example : (firstX .rv64g (some Atomic.simpleDev) calls).map
    (fun st => ((st.core.regs 5#5).toNat, (st.core.mem 0x3000#64).toNat, (st.core.mem 0x3001#64).toNat)) =
      some (2 ^ 64 - 2, 3, 0) := by
  decide +kernel
example : ((firstX .rv64g (some Atomic.simpleDev) calls).bind (firstX .rv64g (some Atomic.simpleDev))).map
    (fun st => (st.core.hart.pc.toNat, st.core.hart.mcause.toNat, st.core.hart.mepc.toNat)) =
      some (0x2000, 11, 0x1004) := by
  decide +kernel
example : (((firstX .rv64g (some Atomic.simpleDev) calls).bind
    (firstX .rv64g (some Atomic.simpleDev))).bind (firstX .rv64g (some Atomic.simpleDev))).map
    (fun st => (st.core.hart.pc.toNat, st.core.hart.mode.toNat)) = some (0x1004, 3) := by
  decide +kernel

end Verif.Exec
