import Verif.Exec.VwStep
import Verif.Exec.PropsVa

/-!
# C141: the narrowing, widening and multiply-add instructions, from the word in memory
-/

namespace Verif.Exec

open Decode Decode.Isa Core Operands Spec
open VecLoop (VCore VRegs)
open VecState (VState)
open VecInt (Src1)
open VecLoop.Spec (IsElem Active)
open VecInt.Spec (Operand Did)

/-- Some entry matches, and the turn with any that does is carried out and has the effect `Q`. -/
def GoesVw (s : Sim) (st : VaSt s.xlen.bits) (Q : VaSt s.xlen.bits → Prop) : Prop :=
  (∃ i size, Finds s (wordAt st.core) i size) ∧
  ∀ i size, Finds s (wordAt st.core) i size → ∃ st', turnVw s i (wordAt st.core) size st = some st' ∧ Q st'

theorem turnsVw_of {s : Sim} {st : VaSt s.xlen.bits} {Q : VaSt s.xlen.bits → Prop} (h : GoesVw s st Q) :
    (∃ st', TurnVw s st st') ∧ ∀ st', TurnVw s st st' → Q st' := by
  obtain ⟨⟨i, size, hf⟩, h⟩ := h
  obtain ⟨st', hs, _⟩ := h i size hf
  refine ⟨⟨st', i, size, hf, hs⟩, ?_⟩
  rintro st₂ ⟨i, size, hf, hs⟩
  obtain ⟨st', hs', hq⟩ := h i size hf
  rw [hs] at hs'
  obtain rfl := Option.some.inj hs'
  exact hq

theorem did_mono {v v' : VState} {R R' : VRegs} {vm : Bool} {nd vd : Nat} {P Q : Nat → Int → Prop}
    (h : Did v R vm nd vd v' R' P) (hpq : ∀ i r, Q i r → P i r) : Did v R vm nd vd v' R' Q :=
  ⟨h.state, fun i r h1 h2 h3 h4 => h.body i r h1 h2 h3 (hpq i r h4), h.rest⟩

/-- The effect of a right description. -/
theorem vw_carries (s : Sim) (hs : s.vec = true) (w : Nat) (st : VaSt s.xlen.bits) (k : VwFn) (f : VForm) (p : VwAct)
    (hfn : p.fn = k) (hsrc : p.ops.srcs = .one .Vs2 :: .one (vwOpd f) :: vwRest k) (hdst : p.ops.dsts = [.one .Vd])
    (hp : PermittedW st.core st.vec w k f) (hfit : f = .vx → 8 * st.vec.vs.sew ≤ s.xlen.bits) :
    ∃ v', vwCarry s w st p = some { st with vec := v' } ∧
      Did st.vec.vs st.vec.regs (vmOf w) (bytesD st.vec.vs.sew k) (vdOf w) v'.vs v'.regs
        (fun i r => WantedW st.core st.vec w f i r k) := by
  obtain ⟨s1, hs1, hs1ok, hs1fit, hs1op⟩ := vw_operand s hs w st.core p.ops 1 f (by rw [hsrc]; rfl)
  have hsew : st.vec.vs.sew = 1 ∨ st.vec.vs.sew = 2 ∨ st.vec.vs.sew = 4 ∨ st.vec.vs.sew = 8 := by
    rcases hp.sew with h | h | h | h <;> omega
  have hsmall : isMac k = false → st.vec.vs.sew = 1 ∨ st.vec.vs.sew = 2 ∨ st.vec.vs.sew = 4 := by
    intro hk
    rcases hp.sew with h | h | h | h
    · omega
    · omega
    · omega
    · rw [hk] at h; cases h.2
  have hop := hs1op st.vec.vs.sew hsew st.vec.vs st.vec.regs
  have h1 : VecInt.Spec.OperandOk st.vec.vs (bytesD st.vec.vs.sew k) (vdOf w) st.vec.vs.sew s1 := by
    rcases hs1ok with h | h
    · rw [h]; exact hp.vs1
    · exact h _ _ _ _
  have hx := bits_32 s.xlen
  have hv2 := va_vs2 s hs w p.ops 0 (by rw [hsrc]; rfl)
  have hvd := va_vd s hs w p.ops 0 (by rw [hdst]; rfl)
  have hr := hp.ready
  have h2 := hp.vs2
  have two : vwRest k = [.one .Vmask] → ∀ (g : VCore → Nat → Nat → Src1 s.xlen.bits → Bool → Option VCore) v',
      g st.vec (vdOf w) (vs2Of w) s1 (vmOf w) = some v' → vwTwo s w st p g = some { st with vec := v' } := by
    intro hk g v' hg
    unfold vwTwo
    rw [hv2, Option.bind_some, hs1, Option.bind_some, va_mask s hs w p.ops 2 (by rw [hsrc, hk]; rfl), Option.bind_some,
      hvd, Option.bind_some, hg, Option.map_some]
  have three : vwRest k = [.one .Vd, .one .Vmask] →
      ∀ (g : VCore → Nat → Nat → Src1 s.xlen.bits → Bool → Option VCore) v',
      g st.vec (vdOf w) (vs2Of w) s1 (vmOf w) = some v' → vwThree s w st p g = some { st with vec := v' } := by
    intro hk g v' hg
    unfold vwThree
    rw [hv2, Option.bind_some, hs1, Option.bind_some, vw_old s hs w p.ops 2 (by rw [hsrc, hk]; rfl), Option.bind_some,
      va_mask s hs w p.ops 3 (by rw [hsrc, hk]; rfl), Option.bind_some, hvd, Option.bind_some, if_pos rfl, hg,
      Option.map_some]
  unfold vwCarry
  rw [hfn]
  cases k with
  | narrow o =>
    obtain ⟨v', e, hd⟩ := VecInt.C85_narrow o st.vec (vdOf w) (vs2Of w) s1 (vmOf w) (hsmall rfl) hr h2 h1 hx
    refine ⟨v', two rfl _ v' e, did_mono hd ?_⟩
    rintro i r ⟨a, b, ha, hb, rfl⟩
    exact ⟨a, b, ha, (hop i b).2 hb, rfl⟩
  | wide o =>
    obtain ⟨v', e, hd⟩ := VecInt.C85_wide o st.vec (vdOf w) (vs2Of w) s1 (vmOf w) (hsmall rfl) hr h2 h1 hx
    refine ⟨v', two rfl _ v' e, did_mono hd ?_⟩
    rintro i r ⟨a, b, ha, hb, rfl⟩
    exact ⟨a, b, ha, (hop i b).2 hb, rfl⟩
  | wideW o =>
    obtain ⟨v', e, hd⟩ := VecInt.C85_wideW o st.vec (vdOf w) (vs2Of w) s1 (vmOf w) (hsmall rfl) hr h2 h1 hx
    refine ⟨v', two rfl _ v' e, did_mono hd ?_⟩
    rintro i r ⟨a, b, ha, hb, rfl⟩
    exact ⟨a, b, ha, (hop i b).2 hb, rfl⟩
  | mac o =>
    obtain ⟨v', e, hd⟩ := VecInt.C85_mac o st.vec (vdOf w) (vs2Of w) s1 (vmOf w) hsew hr h2 h1 (hs1fit _ _ (by
      cases f with
      | vx => exact Or.inr (hfit rfl)
      | vv => trivial
      | vi => trivial
      | vu => trivial))
    refine ⟨v', three rfl _ v' e, did_mono hd ?_⟩
    rintro i r ⟨a, b, d, ha, hb, hd, rfl⟩
    exact ⟨a, b, d, ha, (hop i b).2 hb, hd, rfl⟩
  | wmac o =>
    obtain ⟨v', e, hd⟩ := VecInt.C85_wmac o st.vec (vdOf w) (vs2Of w) s1 (vmOf w) (hsmall rfl) hr h2 h1 hx
    refine ⟨v', three rfl _ v' e, did_mono hd ?_⟩
    rintro i r ⟨a, b, d, ha, hb, hd, rfl⟩
    exact ⟨a, b, d, ha, (hop i b).2 hb, hd, rfl⟩

/-- **C141.** In every simulated core with vectors, a word that the manual gives to a narrowing shift (vnsrl, vnsra), a
widening addition, subtraction or multiplication (vwadd(u), vwsub(u), with .v or .w, vwmul, vwmulu, vwmulsu) or a
multiply-add instruction (vmacc, vnmsac, vmadd, vnmsub, vwmacc, vwmaccu, vwmaccsu, vwmaccus) is carried out, whichever
matching entry of the decoder is used: every active element of the body of the group at the word's vd becomes the value
computed from the word's operands, all other bytes of all vector registers stay, vstart becomes 0, the program counter
moves on and nothing else changes.  Missing: vmacc and its like with 64-bit elements and an integer register on RV32
(`hfit`; C85). -/
theorem C141_wide_partial (s : Sim) (hs : s.vec = true) (st : VaSt s.xlen.bits) (op : Op) (k : VwFn) (f : VForm)
    (hk : vwKind op = some (k, f)) (hl : Listed s.xlen op (wordAt st.core)) (hb : st.core.hart.branch = false)
    (hp : PermittedW st.core st.vec (wordAt st.core) k f)
    (hfit : f = .vx → 8 * st.vec.vs.sew ≤ s.xlen.bits) :
    GoesVw s st fun st' =>
      Did st.vec.vs st.vec.regs (vmOf (wordAt st.core)) (bytesD st.vec.vs.sew k) (vdOf (wordAt st.core))
        st'.vec.vs st'.vec.regs (fun i r => WantedW st.core st.vec (wordAt st.core) f i r k) ∧
      OnlyNext st.core st'.core 4 := by
  obtain ⟨⟨e, he, hem⟩, hall⟩ := decodesVw s hs op _ hk _ (readLE_lt st.core.mem _ 4) hl
  have hlow := listed_lowVw s.xlen op _ hk _ hl
  refine ⟨⟨e, 4, by unfold Finds; rw [if_pos hlow]; exact ⟨he, hem, rfl⟩⟩, fun e size hf => ?_⟩
  unfold Finds at hf
  rw [if_pos hlow] at hf
  obtain ⟨he, hem, rfl⟩ := hf
  have hok := List.all_eq_true.1 (entriesVw_ok s hs) e he
  unfold okEntryVw at hok
  rw [hall e he hem, hk] at hok
  dsimp only at hok
  cases hp' : vwActs s e.op with
  | none => rw [hp'] at hok; cases hok
  | some p =>
    rw [hp', Option.any_some] at hok
    unfold okVw at hok
    simp only [Bool.and_eq_true, beq_iff_eq, decide_eq_true_eq] at hok
    obtain ⟨⟨hfn, hsrc⟩, hdst⟩ := hok
    obtain ⟨v', hc, hd⟩ := vw_carries s hs (wordAt st.core) st k f p hfn hsrc hdst hp hfit
    refine ⟨⟨next st.core (st.core.hart.pc.setWidth 64) 4, v'⟩, ?_, hd, _, next_is (bits_le _) st.core 4, ?_, ?_⟩
    · unfold turnVw
      rw [hp']
      dsimp only
      rw [hc, Option.map_some]
    · dsimp only
      rw [next_stay _ _ _ hb]
      exact ⟨rfl, rfl, rfl, rfl⟩
    · dsimp only
      rw [next_stay _ _ _ hb]

/-! ## Examples -/

theorem widening_ok (w : BitVec 32) (k : VwFn) (f : VForm) (h2 : vdOf (wordAt (adding w 2 4).core) = 3)
    (h3 : vs2Of (wordAt (adding w 2 4).core) = 1) (h4 : f = .vv → vs1Of (wordAt (adding w 2 4).core) = 2) :
    PermittedW (adding w 2 4).core (adding w 2 4).vec (wordAt (adding w 2 4).core) k f := by
  have hd : bytesD 2 k = 2 ∨ bytesD 2 k = 4 := by cases k <;> first | exact Or.inl rfl | exact Or.inr rfl
  have hb : bytes2 2 k = 2 ∨ bytes2 2 k = 4 := by cases k <;> first | exact Or.inl rfl | exact Or.inr rfl
  have hso : ∀ nd m q, (m = 2 ∨ m = 4) → q < 3 → VecLoop.Spec.SourceOk 16 4 nd 3 m q := by
    intro nd m q hm hq
    rcases hm with rfl | rfl
    · exact ⟨by decide, by decide, Or.inl (Or.inl (by omega))⟩
    · exact ⟨by decide, by decide, Or.inl (Or.inl (by omega))⟩
  refine ⟨Or.inr (Or.inl rfl), ⟨rfl, (show 0 < 2 by decide), ?_, ⟨?_, ?_, (show 0 < 16 by decide)⟩, 1, Or.inl rfl,
    Nat.mod_one _, ?_⟩, ?_, ?_⟩
  · intro m hm
    have hm : m ∈ [bytesD 2 k, bytes2 2 k, 2] := hm
    show 2 ≤ 8 * m ∧ 8 * m ≤ 64 * 2
    simp only [List.mem_cons, List.not_mem_nil, or_false] at hm
    omega
  · show 0 < bytesD 2 k; omega
  · show bytesD 2 k ∣ 16
    rcases hd with h | h <;> rw [h] <;> decide
  · show 4 * bytesD 2 k ≤ 1 * 16; omega
  · rw [h2, h3]; exact hso _ _ 1 hb (by decide)
  · cases f with
    | vv => show VecLoop.Spec.SourceOk _ _ _ _ _ _; rw [h2, h4 rfl]; exact hso _ 2 2 (Or.inl rfl) (by decide)
    | vx => trivial
    | vi => trivial
    | vu => trivial

/-- `vwmul.vv v3, v1, v2` with elements of 16 bits. -/
example := C141_wide_partial .rv64gv rfl (adding 0xee1121d7#32 2 4) .vwmul_vv (.wide .wmul) .vv rfl
  ⟨_, rfl, by unfold Enc.assigns; decide +kernel⟩ rfl
  (widening_ok _ _ .vv (by decide +kernel) (by decide +kernel) (by decide +kernel)) (fun h => by cases h)

/-- `vmacc.vx v3, x10, v1`. -/
example := C141_wide_partial .rv64gv rfl (adding 0xb61561d7#32 2 4) .vmacc_vx (.mac .macc) .vx rfl
  ⟨_, rfl, by unfold Enc.assigns; decide +kernel⟩ rfl
  (widening_ok _ _ .vx (by decide +kernel) (by decide +kernel) (fun h => by cases h)) (fun _ => by decide)

/-- `vnsrl.wi v3, v1, 20`. -/
example := C141_wide_partial .rv64gv rfl (adding 0xb21a31d7#32 2 4) .vnsrl_vi (.narrow .nsrl) .vu rfl
  ⟨_, rfl, by unfold Enc.assigns; decide +kernel⟩ rfl
  (widening_ok _ _ .vu (by decide +kernel) (by decide +kernel) (fun h => by cases h)) (fun h => by cases h)

/-- The turn with the first matching entry. -/
def firstVw (s : Sim) (st : VaSt s.xlen.bits) : Option (VaSt s.xlen.bits) :=
  if wordAt st.core &&& 3 = 3 then
    (s.decoder.insts.find? fun i => i.matches (wordAt st.core)).bind fun i => turnVw s i (wordAt st.core) 4 st
  else none

/-- The three, computed: element 0 stays, element 1 is new. -/
example : [0xee1121d7#32, 0xb61561d7#32, 0xb21a31d7#32].map (fun w => (firstVw .rv64gv (adding w 2 4)).map fun st =>
    ((List.range 8).map fun x => (st.vec.regs 3 x).toNat).take (if w = 0xee1121d7#32 then 8 else 4)) =
    [some [49, 50, 51, 52, 153, 106, 213, 2], some [49, 50, 0xf1, 0xfc], some [49, 50, 0x81, 0x01]] := by decide +kernel

/-! ## The other instructions -/

/-- A turn of the smaller model. -/
theorem vw_of_va {s : Sim} {st : VaSt s.xlen.bits} {Q : VaSt s.xlen.bits → Prop} (h : GoesVa s st Q)
    (hn : ∀ i size, Finds s (wordAt st.core) i size → vwActs s i.op = none) : GoesVw s st Q := by
  refine ⟨h.1, fun i size hf => ?_⟩
  obtain ⟨r, hr, hq⟩ := h.2 i size hf
  refine ⟨r, ?_, hq⟩
  unfold turnVw
  rw [hn i size hf]
  exact hr

/-- **C141, the others**: what C140 says of the element-wise instructions, of vsetvli and its like and of the base
instructions holds here as well: the words for these have no other effect. -/
theorem C141_others {s : Sim} {st : VaSt s.xlen.bits} {Q : VaSt s.xlen.bits → Prop} (h : GoesVa s st Q)
    (hw : (∃ op k, s.vec = true ∧ vaKind op = some k ∧ Listed s.xlen op (wordAt st.core)) ∨
      (∃ i, s.vec = true ∧ IsVs s.xlen (wordAt st.core) i) ∨
      (∃ o k, kind s.xlen o = some k ∧ Listed s.xlen o (wordAt st.core) ∧ ¬ Ntl o (wordAt st.core) ∧
        st.core.hart.branch = false ∧ st.core.hart.pc.toNat % 2 = 0 ∧
        NoOverflow st.core k (args s.xlen k (wordAt st.core)))) : GoesVw s st Q := by
  apply vw_of_va h
  intro e size hf
  apply not_vw
  rcases hw with ⟨op, k, hs, hk, hl⟩ | ⟨i, hs, o, hko, hl⟩ | ⟨o, k, hk, hl, hn, hb, hpc, ho⟩
  · have hall := (decodesVa s hs op _ hk _ (readLE_lt st.core.mem _ 4) hl).2
    have hlow := listed_lowVa s.xlen op _ hk _ hl
    unfold Finds at hf
    rw [if_pos hlow] at hf
    have hok := List.all_eq_true.1 (entriesVa_ok s hs) e hf.1
    unfold okEntryVa at hok
    rw [hall e hf.1 hf.2.1, hk] at hok
    right; right
    intro e
    rw [e] at hok
    cases hok
  · have hall := (decodesVs s hs o i hko _ (readLE_lt st.core.mem _ 4) hl).2
    have hlow := listed_lowVs s.xlen o i hko _ hl
    unfold Finds at hf
    rw [if_pos hlow] at hf
    have hok := List.all_eq_true.1 (entriesVs_ok s hs) e hf.1
    unfold okEntryVs at hok
    rw [hall e hf.1 hf.2.1, hko] at hok
    simp only [Bool.and_eq_true] at hok
    right; left
    intro e
    rw [e] at hok
    cases hok.2
  · left
    intro e0
    obtain ⟨c', hc, -⟩ := (C119_step s st.core o k hk hl hn hb hpc ho).2 e size hf
    unfold turn at hc
    rw [e0] at hc
    cases hc

end Verif.Exec
