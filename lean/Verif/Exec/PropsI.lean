import Verif.Exec.PropsZ
import Verif.Exec.Illegal

/-!
# C126: words that are no instruction, from the word in memory
-/

namespace Verif.Exec

open Decode Decode.Isa Core Operands Spec
open Zicsr (Insn)

variable {ρ : Type}

namespace Spec

/-- The decoder for the word, and the part of the word it is for. -/
def decoderFor (s : Sim) (w : Nat) : Decoder := if w &&& 3 = 3 then s.decoder else s.decoder16
def partFor (w : Nat) : Nat := if w &&& 3 = 3 then w else w % 2 ^ 16

/-- The manual gives the word to none of the instructions the core has. -/
def NoInstruction (s : Sim) (w : Nat) : Prop :=
  ∀ o, (∃ i ∈ (decoderFor s w).insts, canon i.op = o) → ¬ Listed s.xlen o (partFor w)

/-- An illegal instruction exception with this trap value, and nothing else. -/
def Refuses {n : Nat} (st st' : XSt n ρ) (tval : BitVec 64) : Prop :=
  Raises st.base.core st'.base.core tval 2#64 ∧ st'.base.resv = st.base.resv ∧ st'.csrs = st.csrs

end Spec

theorem refuses_close {n : Nat} (st : XSt n ρ) (tval : BitVec 64) (size : Nat) :
    Refuses st (close (refuse st tval (st.base.core.hart.pc.setWidth 64)) (st.base.core.hart.pc.setWidth 64) size)
      tval :=
  ⟨raises_next st.base.core _ size tval 2#64 rfl, rfl, rfl⟩

theorem finds_iff (s : Sim) (w : Nat) :
    (∃ i size, Finds s w i size) ↔ ∃ i ∈ (decoderFor s w).insts, i.matches (partFor w) = true := by
  unfold Finds decoderFor partFor
  have e : w &&& 0xffff = w % 2 ^ 16 := by
    rw [show (0xffff : Nat) = 2 ^ 16 - 1 from rfl, Nat.and_two_pow_sub_one_eq_mod]
  by_cases h3 : w &&& 3 = 3
  · simp only [if_pos h3]
    exact ⟨fun ⟨i, _, h1, h2, _⟩ => ⟨i, h1, h2⟩, fun ⟨i, h1, h2⟩ => ⟨i, 4, h1, h2, rfl⟩⟩
  · simp only [if_neg h3, e]
    exact ⟨fun ⟨i, _, h1, h2, _⟩ => ⟨i, h1, h2⟩, fun ⟨i, h1, h2⟩ => ⟨i, 2, h1, h2, rfl⟩⟩

theorem xlenFor (s : Sim) (w : Nat) : (decoderFor s w).xlen = s.xlen := by
  unfold decoderFor; split
  · cases s <;> rfl
  · cases s <;> rfl

/-- A turn with no entry. -/
theorem none_turns (s : Sim) (dev : Option (Atomic.Device ρ)) (st : XSt s.xlen.bits ρ)
    (h : ∀ i ∈ (decoderFor s (wordAt st.base.core)).insts, i.matches (partFor (wordAt st.base.core)) = false) :
    (∃ st', TurnI s dev st st') ∧ ∀ st', TurnI s dev st st' → Refuses st st' 0#64 := by
  have hn : ∀ i size, ¬ Finds s (wordAt st.base.core) i size := by
    intro i size hf
    obtain ⟨j, hj, hm⟩ := (finds_iff s _).1 ⟨i, size, hf⟩
    rw [h j hj] at hm
    cases hm
  refine ⟨⟨_, .inr ⟨hn, rfl⟩⟩, ?_⟩
  rintro st' (⟨i, size, hf, _⟩ | ⟨_, rfl⟩)
  · exact absurd hf (hn i size)
  · exact refuses_close st 0#64 _

/-- **C126.** In every simulated core, a word that the manual gives to none of the instructions the core has
raises an illegal instruction exception, and nothing else changes.  Left out are words that one of the
entries listed as too wide (C71, `unsoundOps`) matches. -/
theorem C126_unassigned_partial (s : Sim) (dev : Option (Atomic.Device ρ)) (st : XSt s.xlen.bits ρ)
    (h : NoInstruction s (wordAt st.base.core))
    (hu : ∀ i ∈ (decoderFor s (wordAt st.base.core)).insts,
      i.op ∈ (decoderFor s (wordAt st.base.core)).unsoundOps → i.matches (partFor (wordAt st.base.core)) = false) :
    (∃ st', TurnI s dev st st') ∧ ∀ st', TurnI s dev st st' → Refuses st st' 0#64 := by
  refine none_turns s dev st fun i hi => ?_
  cases hm : i.matches (partFor (wordAt st.base.core)) with
  | false => rfl
  | true =>
    exfalso
    have hw : partFor (wordAt st.base.core) < 2 ^ 32 := by
      have := readLE_lt st.base.core.mem (st.base.core.hart.pc.setWidth 64) 4
      unfold partFor
      split
      · exact this
      · have := Nat.mod_lt (wordAt st.base.core) (show 2 ^ 16 > 0 by decide); omega
    have hl := C71_decoded_partial _ i hi (fun ho => by rw [hu i hi ho] at hm; cases hm) _ hw hm
    rw [xlenFor] at hl
    exact h _ ⟨i, hi, rfl⟩ hl

/-- **C126** in full for the four-byte words of RV32G, RV32GZB and RV64G. -/
theorem C126_unassigned32 (s : Sim) (hs : s = .rv32g ∨ s = .rv32gzb ∨ s = .rv64g)
    (dev : Option (Atomic.Device ρ)) (st : XSt s.xlen.bits ρ) (h3 : wordAt st.base.core &&& 3 = 3)
    (h : NoInstruction s (wordAt st.base.core)) :
    (∃ st', TurnI s dev st st') ∧ ∀ st', TurnI s dev st st' → Refuses st st' 0#64 := by
  refine C126_unassigned_partial s dev st h fun i _ ho => ?_
  have e : (decoderFor s (wordAt st.base.core)).unsoundOps = [] := by
    unfold decoderFor
    rw [if_pos h3, C71_decoded_decoders]
    rcases hs with rfl | rfl | rfl <;> decide
  rw [e] at ho
  exact absurd ho List.not_mem_nil

/-- **C126** in full for the two-byte words of RV64. -/
theorem C126_unassigned16 (s : Sim) (hs : s.xlen = .rv64)
    (dev : Option (Atomic.Device ρ)) (st : XSt s.xlen.bits ρ) (h3 : wordAt st.base.core &&& 3 ≠ 3)
    (h : NoInstruction s (wordAt st.base.core)) :
    (∃ st', TurnI s dev st st') ∧ ∀ st', TurnI s dev st st' → Refuses st st' 0#64 := by
  refine C126_unassigned_partial s dev st h fun i _ ho => ?_
  have e : (decoderFor s (wordAt st.base.core)).unsoundOps = [] := by
    unfold decoderFor
    rw [if_neg h3, C71_decoded_decoders]
    cases s <;> first | (cases hs; done) | decide
  rw [e] at ho
  exact absurd ho List.not_mem_nil

/-! ## The two words meant to be illegal -/

theorem unimp_entries (s : Sim) :
    s.decoder.insts.any (fun i => i.matches 0xc0001073) = true ∧
    s.decoder.insts.all (fun i => !i.matches 0xc0001073 || isUnimp s i.op) = true ∧
    s.decoder16.insts.any (fun i => i.matches 0) = true ∧
    s.decoder16.insts.all (fun i => !i.matches 0 || isUnimp s i.op) = true := by
  cases s <;> decide +kernel

theorem unimp_key (s : Sim) (dev : Option (Atomic.Device ρ)) (st : XSt s.xlen.bits ρ)
    (hl : ¬ st.base.core.limit < st.base.core.hart.pc.setWidth 64)
    (h2 : (decoderFor s (wordAt st.base.core)).insts.all
      (fun i => !i.matches (partFor (wordAt st.base.core)) || isUnimp s i.op) = true) :
    ∀ i size, Finds s (wordAt st.base.core) i size →
      turnI s i (wordAt st.base.core) size dev st =
        some (close (refuse st (unimpWord (wordAt st.base.core)) (st.base.core.hart.pc.setWidth 64))
          (st.base.core.hart.pc.setWidth 64) size) := by
  intro i size hf
  have hu : isUnimp s i.op = true := by
    have hm : i ∈ (decoderFor s (wordAt st.base.core)).insts ∧ i.matches (partFor (wordAt st.base.core)) = true := by
      unfold Finds at hf
      unfold decoderFor partFor
      have e : wordAt st.base.core &&& 0xffff = wordAt st.base.core % 2 ^ 16 := by
        rw [show (0xffff : Nat) = 2 ^ 16 - 1 from rfl, Nat.and_two_pow_sub_one_eq_mod]
      split at hf
      · rename_i h3; rw [if_pos h3, if_pos h3]; exact ⟨hf.1, hf.2.1⟩
      · rename_i h3; rw [if_neg h3, if_neg h3, ← e]; exact ⟨hf.1, hf.2.1⟩
    have := List.all_eq_true.1 h2 i hm.1
    rw [hm.2] at this
    simpa using this
  unfold turnI doUnimp
  dsimp only
  rw [if_pos hu, if_neg hl, Option.map_some]

theorem unimp_turns (s : Sim) (dev : Option (Atomic.Device ρ)) (st : XSt s.xlen.bits ρ)
    (hl : ¬ st.base.core.limit < st.base.core.hart.pc.setWidth 64)
    (h1 : (decoderFor s (wordAt st.base.core)).insts.any (fun i => i.matches (partFor (wordAt st.base.core))) = true)
    (h2 : (decoderFor s (wordAt st.base.core)).insts.all
      (fun i => !i.matches (partFor (wordAt st.base.core)) || isUnimp s i.op) = true) :
    (∃ st', TurnI s dev st st') ∧ ∀ st', TurnI s dev st st' → Refuses st st' (unimpWord (wordAt st.base.core)) := by
  have key := unimp_key s dev st hl h2
  have hex : ∃ i size, Finds s (wordAt st.base.core) i size := by
    rw [finds_iff]
    simpa using h1
  obtain ⟨i, size, hf⟩ := hex
  refine ⟨⟨_, .inl ⟨i, size, hf, key i size hf⟩⟩, ?_⟩
  rintro st' (⟨j, m, hj, ht⟩ | ⟨hn, _⟩)
  · rw [key j m hj] at ht
    obtain rfl := Option.some.inj ht
    exact refuses_close st _ m
  · exact absurd hf (hn i size)

/-- **C126**: `unimp` (a write to the read-only register cycle) raises the exception with the word as trap
value. -/
theorem C126_unimp (s : Sim) (dev : Option (Atomic.Device ρ)) (st : XSt s.xlen.bits ρ)
    (hw : wordAt st.base.core = 0xc0001073)
    (hl : st.base.core.hart.pc.toNat ≤ st.base.core.limit.toNat) :
    (∃ st', TurnI s dev st st') ∧ ∀ st', TurnI s dev st st' → Refuses st st' 0xc0001073#64 := by
  obtain ⟨h1, h2, _, _⟩ := unimp_entries s
  have := unimp_turns s dev st (by
    rw [BitVec.lt_def, BitVec.toNat_setWidth, Nat.mod_eq_of_lt (by
      have := st.base.core.hart.pc.isLt
      exact Nat.lt_of_lt_of_le this (Nat.pow_le_pow_right (by decide) (bits_le _)))]
    omega) (by rw [hw]; exact h1) (by rw [hw]; exact h2)
  rw [hw] at this
  exact this

/-- **C126**: two zero bytes raise the exception. -/
theorem C126_zero (s : Sim) (dev : Option (Atomic.Device ρ)) (st : XSt s.xlen.bits ρ)
    (hw : wordAt st.base.core % 2 ^ 16 = 0)
    (hl : st.base.core.hart.pc.toNat ≤ st.base.core.limit.toNat) :
    (∃ st', TurnI s dev st st') ∧ ∀ st', TurnI s dev st st' → Refuses st st' 0#64 := by
  obtain ⟨_, _, h1, h2⟩ := unimp_entries s
  have h3 : wordAt st.base.core &&& 3 ≠ 3 := by
    rw [show wordAt st.base.core &&& 3 = wordAt st.base.core % 4 from Nat.and_two_pow_sub_one_eq_mod _ 2]
    omega
  have hd : decoderFor s (wordAt st.base.core) = s.decoder16 := if_neg h3
  have hp : partFor (wordAt st.base.core) = 0 := by unfold partFor; rw [if_neg h3, hw]
  have := unimp_turns s dev st (by
    rw [BitVec.lt_def, BitVec.toNat_setWidth, Nat.mod_eq_of_lt (by
      have := st.base.core.hart.pc.isLt
      exact Nat.lt_of_lt_of_le this (Nat.pow_le_pow_right (by decide) (bits_le _)))]
    omega) (by rw [hd, hp]; exact h1) (by rw [hd, hp]; exact h2)
  have e : unimpWord (wordAt st.base.core) = 0#64 := by
    unfold unimpWord
    rw [if_pos h3, show (0xffff : Nat) = 2 ^ 16 - 1 from rfl, Nat.and_two_pow_sub_one_eq_mod, hw]
  rw [e] at this
  exact this

/-- **C126** fails the other way round for the words that the decoders miss (C71): they belong to an
instruction the core has, and raise the exception all the same. -/
theorem C126_missed_violated (s : Sim) (dev : Option (Atomic.Device ρ)) (st : XSt s.xlen.bits ρ) (o : Op)
    (h : (decoderFor s (wordAt st.base.core), o, partFor (wordAt st.base.core)) ∈ missed) :
    Listed s.xlen o (partFor (wordAt st.base.core)) ∧
      (∃ st', TurnI s dev st st') ∧ ∀ st', TurnI s dev st st' → Refuses st st' 0#64 := by
  obtain ⟨h1, h2⟩ := C71_implemented_violated _ _ _ h
  rw [xlenFor] at h1
  exact ⟨h1, none_turns s dev st h2⟩

/-! ## Many instructions -/

/-- An instruction of the smaller model is not described as unimplemented. -/
theorem not_unimp_fn (s : Sim) (o : Op) (h : acts s o ≠ none ∨ sysActs s o ≠ none ∨ csrActs s o ≠ none) :
    isUnimp s o = false := by
  cases hu : isUnimp s o with
  | false => rfl
  | true =>
    exfalso
    unfold isUnimp at hu
    unfold acts sysActs csrActs at h
    cases hf : (s.isa.instrs.find? fun i => i.name == opName o) with
    | none => rw [hf] at hu; cases hu
    | some i =>
      rw [hf, Option.any_some] at hu
      rw [hf, Option.bind_some, Option.bind_some, Option.bind_some] at h
      revert hu h
      generalize i.phases = ps
      intro h hu
      rcases ps with _ | ⟨p, _ | ⟨q, l⟩⟩
      · cases hu
      · have hp : p.fn.any (fun c => c.name == "RiscVIUnimplemented") = true := hu
        cases hc : p.fn with
        | none => rw [hc] at hp; cases hp
        | some c =>
          rw [hc, Option.any_some, beq_iff_eq] at hp
          have t : ∀ x, fn x "RiscVIUnimplemented" = none ∧ sysFn x "RiscVIUnimplemented" = none ∧
              csrFn x "RiscVIUnimplemented" = none := by
            intro x; cases x <;> decide +kernel
          obtain ⟨t1, t2, t3⟩ := t s.xlen
          rcases h with h | h | h
          · apply h
            simp [List.mapM_cons, act, hc, hp, t1]
          · apply h
            simp [sysParts, sysAct, hc, hp, t2]
          · apply h
            simp [csrPart, csrAct, hc, hp, t3]
      · cases hu

theorem describedZ (s : Sim) (dev : Option (Atomic.Device ρ)) (st st' : XSt s.xlen.bits ρ) (i : Inst)
    (w size : Nat) (h : turnZ s i w size dev st = some st') :
    acts s i.op ≠ none ∨ sysActs s i.op ≠ none ∨ csrActs s i.op ≠ none := by
  cases hc : csrActs s i.op with
  | some p => exact .inr (.inr (by simp))
  | none =>
    unfold turnZ at h
    rw [hc] at h
    obtain ⟨b, hb, _⟩ := Option.map_eq_some_iff.1 h
    rcases described s dev _ _ _ _ _ hb with h | h
    · exact .inl h
    · exact .inr (.inl h)

/-- The instructions of C125 in this model. -/
theorem goesI_turns (s : Sim) (dev : Option (Atomic.Device ρ)) (st : XSt s.xlen.bits ρ)
    (Q : XSt s.xlen.bits ρ → Prop) (h : GoesZ s dev st Q) :
    (∃ st', TurnI s dev st st') ∧ ∀ st', TurnI s dev st st' → Q st' := by
  obtain ⟨⟨i, size, hf⟩, h⟩ := h
  have key : ∀ i size, Finds s (wordAt st.base.core) i size →
      ∃ st', turnI s i (wordAt st.base.core) size dev st = some st' ∧ Q st' := by
    intro i size hf
    obtain ⟨st', ht, hq⟩ := h i size hf
    refine ⟨st', ?_, hq⟩
    unfold turnI
    dsimp only
    rw [not_unimp_fn s i.op (describedZ s dev _ _ _ _ _ ht)]
    exact ht
  obtain ⟨st', ht, _⟩ := key i size hf
  refine ⟨⟨st', .inl ⟨i, size, hf, ht⟩⟩, ?_⟩
  rintro st₂ (⟨j, m, hj, hz⟩ | ⟨hn, _⟩)
  · obtain ⟨st', ht, hq⟩ := key j m hj
    rw [hz] at ht
    obtain rfl := Option.some.inj ht
    exact hq
  · exact absurd hf (hn i size)

/-- The word at the program counter: an instruction of C125 apart from the cases left out there, or no
instruction at all. -/
inductive MeantI (s : Sim) (dev : Option (Atomic.Device ρ)) (st : XSt s.xlen.bits ρ) : Prop where
  | insn (h : MeantZ s dev st)
  | nothing (h : NoInstruction s (wordAt st.base.core))
      (hu : ∀ i ∈ (decoderFor s (wordAt st.base.core)).insts,
        i.op ∈ (decoderFor s (wordAt st.base.core)).unsoundOps →
          i.matches (partFor (wordAt st.base.core)) = false)
  | unimp (h : wordAt st.base.core = 0xc0001073 ∨ wordAt st.base.core % 2 ^ 16 = 0)
      (hl : st.base.core.hart.pc.toNat ≤ st.base.core.limit.toNat)

/-- The effect of the word. -/
def EffectI (s : Sim) (dev : Option (Atomic.Device ρ)) (st st' : XSt s.xlen.bits ρ) : Prop :=
  EffectZ s dev st st' ∨ (NoInstruction s (wordAt st.base.core) ∧ Refuses st st' 0#64) ∨
    ((wordAt st.base.core = 0xc0001073 ∧ Refuses st st' 0xc0001073#64) ∨
      (wordAt st.base.core % 2 ^ 16 = 0 ∧ Refuses st st' 0#64))

theorem refuses_kept {n : Nat} {st st' : XSt n ρ} {tval : BitVec 64} (h : Refuses st st' tval)
    (hi : Hart.HInv st.base.core.hart) : Kept st.base.core st'.base.core := by
  refine ⟨raises_hinv h.1 hi, ?_, ?_⟩
  · rw [h.1.1]
  · rw [h.1.2.1]

theorem meantI_step (s : Sim) (dev : Option (Atomic.Device ρ))
    (hdev : ∀ d, dev = some d → Atomic.Spec.Contract d) (st : XSt s.xlen.bits ρ)
    (hb : st.base.core.hart.branch = false) (hpc : st.base.core.hart.pc.toNat % 2 = 0)
    (hz : st.base.core.regs 0#5 = 0#s.xlen.bits) (hi : Hart.HInv st.base.core.hart) (h : MeantI s dev st) :
    (∃ st', TurnI s dev st st') ∧
      ∀ st', TurnI s dev st st' → EffectI s dev st st' ∧ Kept st.base.core st'.base.core := by
  cases h with
  | insn h =>
    have := goesI_turns s dev st _ (meantZ_goes s dev hdev st hb hpc hz hi h)
    exact ⟨this.1, fun st' ht => ⟨.inl (this.2 st' ht).1, (this.2 st' ht).2⟩⟩
  | nothing h hu =>
    have := C126_unassigned_partial s dev st h hu
    exact ⟨this.1, fun st' ht => ⟨.inr (.inl ⟨h, this.2 st' ht⟩), refuses_kept (this.2 st' ht) hi⟩⟩
  | unimp h hl =>
    rcases h with h | h
    · have := C126_unimp s dev st h hl
      exact ⟨this.1, fun st' ht => ⟨.inr (.inr (.inl ⟨h, this.2 st' ht⟩)), refuses_kept (this.2 st' ht) hi⟩⟩
    · have := C126_zero s dev st h hl
      exact ⟨this.1, fun st' ht => ⟨.inr (.inr (.inr ⟨h, this.2 st' ht⟩)), refuses_kept (this.2 st' ht) hi⟩⟩

/-- **C126**, for a whole run that mixes such words with the instructions of C120, C121, C124 and C125: every
turn has the effect the manual describes, and the run can go on. -/
theorem C126_run_partial (s : Sim) (dev : Option (Atomic.Device ρ))
    (hdev : ∀ d, dev = some d → Atomic.Spec.Contract d) (sts : List (XSt s.xlen.bits ρ))
    (st : XSt s.xlen.bits ρ) (hb : st.base.core.hart.branch = false)
    (hz : st.base.core.regs 0#5 = 0#s.xlen.bits) (hr : Hart.Spec.Reachable st.base.core.hart)
    (ht : Chain (TurnI s dev) st sts)
    (hok : ∀ d ∈ st :: sts, d.base.core.hart.pc.toNat % 2 = 0 ∧ MeantI s dev d) :
    Chain (EffectI s dev) st sts ∧ ∃ st', TurnI s dev (sts.getLastD st) st' := by
  have hi := Hart.hinv_reachable hr
  clear hr
  induction sts generalizing st with
  | nil =>
    obtain ⟨hpc, hm⟩ := hok st (by simp)
    exact ⟨trivial, (meantI_step s dev hdev st hb hpc hz hi hm).1⟩
  | cons d sts ih =>
    obtain ⟨hpc, hm⟩ := hok st (by simp)
    obtain ⟨he, hi', hb', hz'⟩ := (meantI_step s dev hdev st hb hpc hz hi hm).2 d ht.1
    have := ih d hb' (hz'.trans hz) ht.2 (fun e he => hok e (List.mem_cons_of_mem _ he)) hi'
    refine ⟨⟨he, this.1⟩, ?_⟩
    have e : (d :: sts).getLastD st = sts.getLastD d := by cases sts <;> rfl
    rw [e]; exact this.2

/-! ## Examples -/

/-- A core whose program counter is at `pc`, with the bytes of one word there. -/
def oneWord (pc : BitVec 64) (b0 b1 b2 b3 : BitVec 8) : XSt Sim.rv64g.xlen.bits (Option (BitVec 64)) :=
  { base :=
    { core :=
        { hart := { Hart.Hart.init 64 true with pc := pc, mtvec := 0x2000#64 }
          regs := fun _ => 0#64
          mem := fun a =>
            if a = pc then b0 else if a = pc + 1#64 then b1 else if a = pc + 2#64 then b2
            else if a = pc + 3#64 then b3 else 0#8
          limit := 0xffff#64
          hasC := true }
      resv := none }
    csrs := builtCsrs 64 false }

/-- The word 0xffffffff is no instruction of RV64G. -/
example : NoInstruction .rv64g (wordAt (oneWord 0x1000#64 0xff#8 0xff#8 0xff#8 0xff#8).base.core) := by
  have hw : wordAt (oneWord 0x1000#64 0xff#8 0xff#8 0xff#8 0xff#8).base.core = 0xffffffff := by decide +kernel
  rw [hw]
  rintro o ⟨i, hi, rfl⟩ hl
  have t : Sim.rv64g.decoder.insts.all (fun i =>
      (enc .rv64 (canon i.op)).all fun e => 0xffffffff &&& e.mask != e.value) = true := by decide +kernel
  obtain ⟨e, he, ha, _⟩ := hl
  have := List.all_eq_true.1 t i hi
  rw [show enc .rv64 (canon i.op) = some e from he] at this
  simp only [Option.all_some, bne_iff_ne] at this
  exact this ha

/-- Its turn goes to the trap vector with cause 2. -/
example : TurnI .rv64g none (oneWord 0x1000#64 0xff#8 0xff#8 0xff#8 0xff#8)
    (close (doIllegal (oneWord 0x1000#64 0xff#8 0xff#8 0xff#8 0xff#8) 0x1000#64) 0x1000#64 4) ∧
    (close (doIllegal (oneWord 0x1000#64 0xff#8 0xff#8 0xff#8 0xff#8) 0x1000#64) 0x1000#64 4).base.core.hart.pc.toNat =
      0x2000 ∧
    (close (doIllegal (oneWord 0x1000#64 0xff#8 0xff#8 0xff#8 0xff#8) 0x1000#64) 0x1000#64
      4).base.core.hart.mcause.toNat = 2 := by
  refine ⟨.inr ⟨?_, rfl⟩, by decide +kernel, by decide +kernel⟩
  intro i size hf
  obtain ⟨j, hj, hm⟩ := (finds_iff .rv64g _).1 ⟨i, size, hf⟩
  have hw : wordAt (oneWord 0x1000#64 0xff#8 0xff#8 0xff#8 0xff#8).base.core = 0xffffffff := by decide +kernel
  rw [hw] at hj hm
  have t : Sim.rv64g.decoder.insts.all (fun i => !i.matches 0xffffffff) = true := by decide +kernel
  have := List.all_eq_true.1 t j hj
  rw [show j.matches 0xffffffff = true from hm] at this
  cases this

/-- The words of the other two theorems. -/
example : wordAt (oneWord 0x1000#64 0x73#8 0x10#8 0x00#8 0xc0#8).base.core = 0xc0001073 ∧
    wordAt (oneWord 0x1000#64 0#8 0#8 0x12#8 0x34#8).base.core % 2 ^ 16 = 0 := by decide +kernel

/-- `add x0, x0, x2`, which the decoder misses. -/
example : (decoderFor .rv64g 0x00200033, Op.add, partFor 0x00200033) ∈ missed := by decide +kernel

end Verif.Exec
