import Verif.Exec.VaStep
import Verif.Exec.PropsX

/-!
# C140: the element-wise integer instructions, from the word in memory
-/

namespace Verif.Exec

open Decode Decode.Isa Core Operands Spec
open VecLoop (VCore)
open VecInt (Src1)
open VecLoop.Spec (IsElem Active)
open VecInt.Spec (Operand Did)

/-- Some entry matches, and the turn with any that does is carried out and has the effect `Q`. -/
def GoesVa (s : Sim) (st : VaSt s.xlen.bits) (Q : VaSt s.xlen.bits → Prop) : Prop :=
  (∃ i size, Finds s (wordAt st.core) i size) ∧
  ∀ i size, Finds s (wordAt st.core) i size → ∃ st', turnVa s i (wordAt st.core) size st = some st' ∧ Q st'

theorem turnsVa_of {s : Sim} {st : VaSt s.xlen.bits} {Q : VaSt s.xlen.bits → Prop} (h : GoesVa s st Q) :
    (∃ st', TurnVa s st st') ∧ ∀ st', TurnVa s st st' → Q st' := by
  obtain ⟨⟨i, size, hf⟩, h⟩ := h
  obtain ⟨st', hs, _⟩ := h i size hf
  refine ⟨⟨st', i, size, hf, hs⟩, ?_⟩
  rintro st₂ ⟨i, size, hf, hs⟩
  obtain ⟨st', hs', hq⟩ := h i size hf
  rw [hs] at hs'
  obtain rfl := Option.some.inj hs'
  exact hq

/-- Shifts only look at the low bits of operand 1. -/
theorem shift_only {w : Nat} (a b b' : BitVec w) (o : VecInt.Same) (ho : o = .sll ∨ o = .srl ∨ o = .sra)
    (h : b.toNat % w = b'.toNat % w) : VecInt.Spec.same a b o = VecInt.Spec.same a b' o := by
  rcases ho with rfl | rfl | rfl <;> (unfold VecInt.Spec.same; dsimp only; rw [h])

/-- An immediate of 16 or above, with its sign, as the amount of a shift of 64 bits. -/
theorem shift_more (m : Nat) (hm : m = 8) (k : BitVec 5) (hk : 16 ≤ k.toNat) (b : BitVec (8 * m))
    (hb : b.toInt = k.toInt) : b.toNat % (8 * m) = k.toNat + 32 := by
  subst hm
  have hk' := k.isLt
  have hlt := b.isLt
  rw [BitVec.toInt_eq_toNat_cond, BitVec.toInt_eq_toNat_cond] at hb
  split at hb <;> split at hb <;> omega

/-- Only shifts have an immediate without a sign. -/
theorem vu_shift {o : Op} {k : VecInt.Same × VForm} (h : vaKind o = some k) (hf : k.2 = .vu) :
    k.1 = .sll ∨ k.1 = .srl ∨ k.1 = .sra := by
  have t : vaOps.all (fun o => (vaKind o).all fun k => !decide (k.2 = .vu) ||
      (decide (k.1 = .sll) || decide (k.1 = .srl) || decide (k.1 = .sra))) = true := by decide +kernel
  have := List.all_eq_true.1 t o (vaKind_mem h)
  rw [h, Option.all_some] at this
  simpa [hf, or_assoc] using this

/-- **C140.** In every simulated core with vectors, a word that the manual gives to an element-wise integer
instruction (vadd, vsub, vrsub, vand, vor, vxor, vsll, vsrl, vsra, vmin(u), vmax(u), vdiv(u), vrem(u), vmul, vmulh,
vmulhu, vmulhsu; each with vector, register or immediate operand where there is such a form) is carried out, whichever
matching entry of the decoder is used: every active element of the body of the group at the word's vd becomes the value
computed from the word's operands, all other bytes of all vector registers stay, vstart becomes 0, the program counter
moves on and nothing else changes.  Missing: shifts of 64-bit elements by immediates of 16 and above (see
`C140_shift_violated`), unsigned operations of 64-bit elements with an integer register on RV32 (C85, `hfit`), and
divisions of the least integer by -1 (`hrem`). -/
theorem C140_same_partial (s : Sim) (hs : s.vec = true) (st : VaSt s.xlen.bits) (op : Op) (o : VecInt.Same) (f : VForm)
    (hk : vaKind op = some (o, f)) (hl : Listed s.xlen op (wordAt st.core)) (hb : st.core.hart.branch = false)
    (hp : Permitted st.core st.vec (wordAt st.core) f)
    (hfit : VecInt.Fits (o.signed1 st.vec.vs.sew) st.vec.vs.sew (operand1 st.core (wordAt st.core) f))
    (himm : f = .vu → st.vec.vs.sew ≤ 4 ∨ vs1Of (wordAt st.core) < 16)
    (hrem : o = .rem → 4 ≤ st.vec.vs.sew → ∀ i (a b : BitVec (8 * st.vec.vs.sew)), st.vec.vs.vstart ≤ i →
      i < st.vec.vs.vl → Active st.vec.regs (vmOf (wordAt st.core)) i →
      IsElem st.vec.vs.vlenb st.vec.vs.sew st.vec.regs (vs2Of (wordAt st.core)) i a →
      Operand st.vec.vs st.vec.regs i b (operand1 st.core (wordAt st.core) f) →
      ¬ (a.toInt = -2 ^ (8 * st.vec.vs.sew - 1) ∧ b.toInt = -1)) :
    GoesVa s st fun st' =>
      Did st.vec.vs st.vec.regs (vmOf (wordAt st.core)) st.vec.vs.sew (vdOf (wordAt st.core)) st'.vec.vs st'.vec.regs
        (Wanted st.core st.vec (wordAt st.core) o f) ∧
      OnlyNext st.core st'.core 4 := by
  obtain ⟨⟨e, he, hem⟩, hall⟩ := decodesVa s hs op _ hk _ (readLE_lt st.core.mem _ 4) hl
  have hlow := listed_lowVa s.xlen op _ hk _ hl
  refine ⟨⟨e, 4, by unfold Finds; rw [if_pos hlow]; exact ⟨he, hem, rfl⟩⟩, fun e size hf => ?_⟩
  unfold Finds at hf
  rw [if_pos hlow] at hf
  obtain ⟨he, hem, rfl⟩ := hf
  have hok := List.all_eq_true.1 (entriesVa_ok s hs) e he
  unfold okEntryVa at hok
  rw [hall e he hem, hk] at hok
  dsimp only at hok
  cases hp' : vaActs s e.op with
  | none => rw [hp'] at hok; cases hok
  | some p =>
    rw [hp', Option.any_some] at hok
    unfold okVa at hok
    simp only [Bool.and_eq_true, beq_iff_eq, decide_eq_true_eq] at hok
    obtain ⟨⟨hfn, hsrc⟩, hdst⟩ := hok
    generalize hw : wordAt st.core = w at *
    obtain ⟨s1, hs1, hs1ok, hs1fit, hs1op⟩ := va_operand s hs w st.core p.ops 1 f (by rw [hsrc]; rfl)
    have hop := hs1op st.vec.vs.sew hp.sew st.vec.vs st.vec.regs
    have h1 : VecInt.Spec.OperandOk st.vec.vs st.vec.vs.sew (vdOf w) st.vec.vs.sew s1 := by
      rcases hs1ok with h | h
      · rw [h]; exact hp.vs1
      · exact h _ _ _ _
    obtain ⟨v', hv', hdid⟩ := VecInt.C85_same_partial o st.vec (vdOf w) (vs2Of w) s1 (vmOf w) hp.sew hp.ready hp.vs2 h1
      (hs1fit _ _ hfit) (by
        intro h0 h4 i a b hi hi' hact ha hb'
        refine hrem h0 h4 i a b hi hi' hact ha ?_
        have := (hop i b).1 hb'
        rw [if_neg] at this
        · exact this
        · intro hfu
          rcases vu_shift hk hfu with h | h | h <;> rw [h0] at h <;> cases h)
    refine ⟨⟨next st.core (st.core.hart.pc.setWidth 64) 4, v'⟩, ?_, ⟨hdid.state, ?_, hdid.rest⟩,
      _, next_is (bits_le _) st.core 4, ?_, ?_⟩
    · unfold turnVa
      rw [hp']
      dsimp only
      unfold vaCarry
      rw [va_vs2 s hs w p.ops 0 (by rw [hsrc]; rfl), Option.bind_some, hs1, Option.bind_some,
        va_mask s hs w p.ops 2 (by rw [hsrc]; rfl), Option.bind_some, va_vd s hs w p.ops 0 (by rw [hdst]; rfl),
        Option.bind_some, hfn, hv', Option.map_some, Option.map_some]
    · rintro i r hi hi' hact ⟨a, b, ha, hb', rfl⟩
      by_cases hfu : f = .vu
      · subst hfu
        have hb' : b.toNat = (BitVec.ofNat 5 (vs1Of w)).toNat := hb'
        have hop' := hop i
        rw [if_pos rfl] at hop'
        -- the immediate with its sign
        have hz : ∃ b2 : BitVec (8 * st.vec.vs.sew), Operand st.vec.vs st.vec.regs i b2 (operand1 st.core w .vi) := by
          refine ⟨(BitVec.ofNat 5 (vs1Of w)).signExtend _, ?_⟩
          show BitVec.toInt _ = _
          exact BitVec.toInt_signExtend_of_le (by have := hp.sew; omega)
        obtain ⟨b2, hb2⟩ := hz
        have hmod := VecInt.C85_shift_imm_partial st.vec.vs.sew hp.sew (BitVec.ofNat 5 (vs1Of w)) (by
          rcases himm rfl with h | h
          · exact Or.inl h
          · right; rw [BitVec.toNat_ofNat, Nat.mod_eq_of_lt (by omega)]; exact h) st.vec.vs st.vec.regs i b2 hb2
        rw [shift_only a b b2 o (vu_shift hk rfl) (by rw [hmod, hb'])]
        exact hdid.body i _ hi hi' hact ⟨a, b2, ha, (hop' b2).2 hb2, rfl⟩
      · have hop' := hop i b
        rw [if_neg hfu] at hop'
        exact hdid.body i _ hi hi' hact ⟨a, b, ha, hop'.2 hb', rfl⟩
    · dsimp only
      rw [next_stay _ _ _ hb]
      exact ⟨rfl, rfl, rfl, rfl⟩
    · dsimp only
      rw [next_stay _ _ _ hb]

/-- **C140 violated**: in 64-bit elements vsll.vi, vsrl.vi and vsra.vi by an immediate of 16 or above shift by 32 more
than the immediate says: every active element becomes what the shift by that amount gives. -/
theorem C140_shift_violated (s : Sim) (hs : s.vec = true) (st st' : VaSt s.xlen.bits) (op : Op) (o : VecInt.Same)
    (hk : vaKind op = some (o, .vu)) (hl : Listed s.xlen op (wordAt st.core))
    (hp : Permitted st.core st.vec (wordAt st.core) .vu)
    (h8 : st.vec.vs.sew = 8) (h16 : 16 ≤ vs1Of (wordAt st.core)) (ht : TurnVa s st st')
    (i : Nat) (hi : st.vec.vs.vstart ≤ i) (hi' : i < st.vec.vs.vl) (ha : Active st.vec.regs (vmOf (wordAt st.core)) i)
    (a : BitVec (8 * st.vec.vs.sew)) (hel : IsElem st.vec.vs.vlenb st.vec.vs.sew st.vec.regs (vs2Of (wordAt st.core)) i a) :
    IsElem st.vec.vs.vlenb st.vec.vs.sew st'.vec.regs (vdOf (wordAt st.core)) i (BitVec.ofInt _
      (VecInt.Spec.same a (BitVec.ofNat _ (vs1Of (wordAt st.core) + 32)) o)) := by
  obtain ⟨e, size, hf, hturn⟩ := ht
  have hall := (decodesVa s hs op _ hk _ (readLE_lt st.core.mem _ 4) hl).2
  have hlow := listed_lowVa s.xlen op _ hk _ hl
  unfold Finds at hf
  rw [if_pos hlow] at hf
  obtain ⟨he, hem, rfl⟩ := hf
  have hok := List.all_eq_true.1 (entriesVa_ok s hs) e he
  unfold okEntryVa at hok
  rw [hall e he hem, hk] at hok
  dsimp only at hok
  cases hp' : vaActs s e.op with
  | none => rw [hp'] at hok; cases hok
  | some p =>
    rw [hp', Option.any_some] at hok
    unfold okVa at hok
    simp only [Bool.and_eq_true, beq_iff_eq, decide_eq_true_eq] at hok
    obtain ⟨⟨hfn, hsrc⟩, hdst⟩ := hok
    generalize hw : wordAt st.core = w at *
    obtain ⟨s1, hs1, hs1ok, hs1fit, hs1op⟩ := va_operand s hs w st.core p.ops 1 .vu (by rw [hsrc]; rfl)
    have hop := hs1op st.vec.vs.sew hp.sew st.vec.vs st.vec.regs i
    rw [if_pos rfl] at hop
    have h1 : VecInt.Spec.OperandOk st.vec.vs st.vec.vs.sew (vdOf w) st.vec.vs.sew s1 := by
      rcases hs1ok with h | h
      · rw [h]; exact hp.vs1
      · exact h _ _ _ _
    have hsh := vu_shift hk rfl
    obtain ⟨v', hv', hdid⟩ := VecInt.C85_same_partial o st.vec (vdOf w) (vs2Of w) s1 (vmOf w) hp.sew hp.ready hp.vs2 h1
      (hs1fit _ _ trivial) (by
        intro h0
        rcases hsh with h | h | h <;> rw [h0] at h <;> cases h)
    unfold turnVa at hturn
    rw [hp'] at hturn
    dsimp only at hturn
    unfold vaCarry at hturn
    rw [va_vs2 s hs w p.ops 0 (by rw [hsrc]; rfl), Option.bind_some, hs1, Option.bind_some,
      va_mask s hs w p.ops 2 (by rw [hsrc]; rfl), Option.bind_some, va_vd s hs w p.ops 0 (by rw [hdst]; rfl),
      Option.bind_some, hfn, hv', Option.map_some, Option.map_some] at hturn
    obtain rfl := Option.some.inj hturn
    have hlt : vs1Of w < 32 := rs1_lt w
    obtain ⟨b2, hb2⟩ : ∃ b2 : BitVec (8 * st.vec.vs.sew),
        Operand st.vec.vs st.vec.regs i b2 (operand1 st.core w .vi) := by
      refine ⟨(BitVec.ofNat 5 (vs1Of w)).signExtend _, ?_⟩
      show BitVec.toInt _ = _
      exact BitVec.toInt_signExtend_of_le (by have := hp.sew; omega)
    have := hdid.body i _ hi hi' ha ⟨a, b2, hel, (hop b2).2 hb2, rfl⟩
    rw [shift_only a (BitVec.ofNat _ (vs1Of w + 32)) b2 o hsh]
    · exact this
    · have hmod : b2.toNat % (8 * st.vec.vs.sew) = (BitVec.ofNat 5 (vs1Of w)).toNat + 32 := by
        exact shift_more st.vec.vs.sew h8 (BitVec.ofNat 5 (vs1Of w)) (by
          rw [BitVec.toNat_ofNat, Nat.mod_eq_of_lt hlt]; exact h16) b2 hb2
      rw [hmod, BitVec.toNat_ofNat, BitVec.toNat_ofNat, Nat.mod_eq_of_lt hlt, h8]
      omega

/-! ## Examples -/

/-- A core about to run the word `w`, with registers of 16 bytes and elements of `sew` bytes, `vl` of them. -/
def adding (w : BitVec 32) (sew vl : Nat) : VaSt Sim.rv64gv.xlen.bits :=
  { core :=
      { hart := { Hart.Hart.init 64 true with pc := 0x1000#64 }
        regs := fun r => if r = 10#5 then 10#64 else 0#64
        mem := fun a =>
            if a = 0x1000#64 then w.extractLsb' 0 8 else if a = 0x1001#64 then w.extractLsb' 8 8
            else if a = 0x1002#64 then w.extractLsb' 16 8 else if a = 0x1003#64 then w.extractLsb' 24 8 else 0#8
        limit := 0xffff#64
        hasC := true }
    vec :=
      { vs := { VecState.VState.init 16 0#32 with sew := sew, vl := vl, lmul8 := 8, vstart := 1 }
        regs := fun r x => BitVec.ofNat 8 (16 * r + x + 1) } }

theorem adding_ok (w : BitVec 32) (sew vl : Nat) (f : VForm) (hs : sew = 1 ∨ sew = 2 ∨ sew = 4 ∨ sew = 8)
    (hvl : vl * sew ≤ 16) (h2 : vdOf (wordAt (adding w sew vl).core) = 3) (h3 : vs2Of (wordAt (adding w sew vl).core) = 1)
    (h4 : f = .vv → vs1Of (wordAt (adding w sew vl).core) = 2) :
    Permitted (adding w sew vl).core (adding w sew vl).vec (wordAt (adding w sew vl).core) f := by
  have hd : sew ∣ 16 := by rcases hs with rfl | rfl | rfl | rfl <;> decide
  have hso : ∀ q, q < 3 → VecLoop.Spec.SourceOk 16 vl sew 3 sew q := by
    intro q hq
    refine ⟨by omega, hd, Or.inl (Or.inl ?_)⟩
    have : (vl * sew + 16 - 1) / 16 ≤ 1 := by omega
    omega
  refine ⟨hs, ⟨rfl, ?_, ?_, ⟨?_, hd, (show 0 < 16 by decide)⟩, 1, Or.inl rfl, Nat.mod_one _, ?_⟩, ?_, ?_⟩
  · show 0 < sew; omega
  · intro m hm
    have hm : m = sew := by
      have hm : m ∈ [sew, sew, sew] := hm
      simpa using hm
    subst hm
    show m ≤ 8 * m ∧ 8 * m ≤ 64 * m
    omega
  · show 0 < sew; omega
  · show vl * sew ≤ 1 * 16; omega
  · rw [h2, h3]; exact hso 1 (by decide)
  · cases f with
    | vv => show VecLoop.Spec.SourceOk _ _ _ _ _ _; rw [h2, h4 rfl]; exact hso 2 (by decide)
    | vx => trivial
    | vi => trivial
    | vu => trivial

/-- `vadd.vv v3, v1, v2` with four elements of 32 bits, the first of them skipped. -/
example := C140_same_partial .rv64gv rfl (adding 0x021101d7#32 4 4) .vadd_vv .add .vv rfl
  ⟨_, rfl, by unfold Enc.assigns; decide +kernel⟩ rfl
  (adding_ok _ 4 4 .vv (by decide) (by decide) (by decide +kernel) (by decide +kernel) (by decide +kernel))
  trivial (fun h => by cases h) (fun h => by cases h)

/-- `vsll.vi v3, v1, 20` with elements of 32 bits. -/
example := C140_same_partial .rv64gv rfl (adding 0x961a31d7#32 4 4) .vsll_vi .sll .vu rfl
  ⟨_, rfl, by unfold Enc.assigns; decide +kernel⟩ rfl
  (adding_ok _ 4 4 .vu (by decide) (by decide) (by decide +kernel) (by decide +kernel) (fun h => by cases h))
  trivial (fun _ => Or.inl (by decide)) (fun h => by cases h)

/-- The turn with the first matching entry. -/
def firstVa (s : Sim) (st : VaSt s.xlen.bits) : Option (VaSt s.xlen.bits) :=
  if wordAt st.core &&& 3 = 3 then
    (s.decoder.insts.find? fun i => i.matches (wordAt st.core)).bind fun i => turnVa s i (wordAt st.core) 4 st
  else none

theorem firstVa_turn {s : Sim} {st st' : VaSt s.xlen.bits} (h : firstVa s st = some st') : TurnVa s st st' := by
  unfold firstVa at h
  split at h
  · rename_i hl
    obtain ⟨i, hi, ht⟩ := Option.bind_eq_some_iff.1 h
    refine ⟨i, 4, ?_, ht⟩
    unfold Finds
    rw [if_pos hl]
    exact ⟨List.mem_of_find?_eq_some hi, by simpa using List.find?_some hi, rfl⟩
  · cases h

/-- The addition, computed: element 0 stays, element 1 is the sum, vstart is 0. -/
example : (firstVa .rv64gv (adding 0x021101d7#32 4 4)).map (fun st =>
    ((List.range 8).map fun x => (st.vec.regs 3 x).toNat, st.vec.vs.vstart, st.core.hart.pc.toNat)) =
    some ([49, 50, 51, 52, 58, 60, 62, 64], 0, 0x1004) := by decide +kernel

/-- With elements of 64 bits the shift by 20 is one by 52. -/
example : (firstVa .rv64gv (adding 0x961a31d7#32 8 2)).map (fun st =>
    (List.range 8).map fun x => (st.vec.regs 3 (8 + x)).toNat) =
    some [0, 0, 0, 0, 0, 0, 0x90, 0xa1] := by decide +kernel

example (st' : VaSt Sim.rv64gv.xlen.bits) (h : TurnVa .rv64gv (adding 0x961a31d7#32 8 2) st') :=
  C140_shift_violated .rv64gv rfl (adding 0x961a31d7#32 8 2) st' .vsll_vi .sll rfl
    ⟨_, rfl, by unfold Enc.assigns; decide +kernel⟩
    (adding_ok _ 8 2 .vu (by decide) (by decide) (by decide +kernel) (by decide +kernel) (fun h => by cases h))
    rfl (by decide +kernel) h 1 (by decide) (by decide) (Or.inl (by decide +kernel))

/-! ## The other instructions -/

/-- A turn of the smaller model. -/
theorem va_of_vs {s : Sim} {st : VaSt s.xlen.bits} {Q : VsSt s.xlen.bits → Prop}
    (h : GoesVs s ⟨st.core, st.vec.vs⟩ Q)
    (hn : ∀ i size, Finds s (wordAt st.core) i size → vaActs s i.op = none) :
    GoesVa s st fun st' => Q ⟨st'.core, st'.vec.vs⟩ ∧ st'.vec.regs = st.vec.regs := by
  refine ⟨h.1, fun i size hf => ?_⟩
  obtain ⟨r, hr, hq⟩ := h.2 i size hf
  refine ⟨⟨r.core, { st.vec with vs := r.vec }⟩, ?_, hq, rfl⟩
  unfold turnVa
  rw [hn i size hf]
  dsimp only
  rw [hr, Option.map_some]

/-- **C140, configuration**: the instructions of C139 in a core with vector registers: the same, and no register
changes. -/
theorem C140_vset_partial (s : Sim) (hs : s.vec = true) (st : VaSt s.xlen.bits) (i : VInsn)
    (h : IsVs s.xlen (wordAt st.core) i) (hb : st.core.hart.branch = false) (hv : st.vec.vs.vlenb < 2 ^ 25)
    (ht : LegalType (newType st.core (wordAt st.core) i)) (hk : ¬ KeepsVl (wordAt st.core) i)
    (ha : ∀ a, avl st.core (wordAt st.core) i = some a → a < 2 ^ 32) :
    GoesVa s st fun st' =>
      Configured st.vec.vs st'.vec.vs (newType st.core (wordAt st.core) i) (avl st.core (wordAt st.core) i) ∧
      Computes st.core st'.core { rd := rd (wordAt st.core), size := 4 } (fun v => v.toNat = st'.vec.vs.vl) ∧
      st'.vec.vs.vstart = st.vec.vs.vstart ∧ st'.vec.regs = st.vec.regs := by
  have hg := va_of_vs (st := st) (C139_vset_partial s hs ⟨st.core, st.vec.vs⟩ i h hb hv ht hk ha) (by
    intro e size hf
    obtain ⟨o, hko, hl⟩ := h
    have hall := (decodesVs s hs o i hko _ (readLE_lt st.core.mem _ 4) hl).2
    have hlow := listed_lowVs s.xlen o i hko _ hl
    unfold Finds at hf
    rw [if_pos hlow] at hf
    have hok := List.all_eq_true.1 (entriesVs_ok s hs) e hf.1
    unfold okEntryVs at hok
    rw [hall e hf.1 hf.2.1, hko] at hok
    simp only [Bool.and_eq_true] at hok
    apply not_va
    right
    intro e
    rw [e] at hok
    cases hok.2)
  refine ⟨hg.1, fun e size hf => ?_⟩
  obtain ⟨st', h1, ⟨h2, h3, -, h4⟩, h5⟩ := hg.2 e size hf
  exact ⟨st', h1, h2, h3, h4, h5⟩

/-- **C140, base**: the instructions of C119 do what they do without vectors and leave the vector unit and its
registers alone. -/
theorem C140_base (s : Sim) (st : VaSt s.xlen.bits) (o : Op) (k : Kind) (hk : kind s.xlen o = some k)
    (hl : Listed s.xlen o (wordAt st.core)) (hn : ¬ Ntl o (wordAt st.core))
    (hb : st.core.hart.branch = false) (hpc : st.core.hart.pc.toNat % 2 = 0)
    (ho : NoOverflow st.core k (args s.xlen k (wordAt st.core))) :
    GoesVa s st fun st' => Does s.xlen k (args s.xlen k (wordAt st.core)) st.core st'.core ∧ st'.vec = st.vec := by
  have hg := va_of_vs (st := st) (C139_base s ⟨st.core, st.vec.vs⟩ o k hk hl hn hb hpc ho) (by
    intro e size hf
    apply not_va
    left
    intro e0
    obtain ⟨c', hc, -⟩ := (C119_step s st.core o k hk hl hn hb hpc ho).2 e size hf
    unfold turn at hc
    rw [e0] at hc
    cases hc)
  refine ⟨hg.1, fun e size hf => ?_⟩
  obtain ⟨st', h1, ⟨h2, h3⟩, h5⟩ := hg.2 e size hf
  refine ⟨st', h1, h2, ?_⟩
  cases hv : st'.vec with
  | mk vs regs =>
    rw [hv] at h3 h5
    dsimp only at h3 h5
    rw [h3, h5]

end Verif.Exec
