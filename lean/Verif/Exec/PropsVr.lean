import Verif.Exec.VrSpec
import Verif.Exec.PropsVm
import Verif.VecRed.Props

/-!
# C144: integer reductions, from the word in memory
-/

namespace Verif.Exec

open Decode Decode.Isa Core Operands Spec
open VecLoop (VCore VRegs)
open VecState (VState)
open VecLoop.Spec (IsElem Active)
open VecRed.Spec (Legal Wrote Result WideSum)

/-- Some entry matches, and the turn with any that does is carried out and has the effect `Q`. -/
def GoesVr (s : Sim) (st : VaSt s.xlen.bits) (Q : VaSt s.xlen.bits → Prop) : Prop :=
  (∃ i size, Finds s (wordAt st.core) i size) ∧
  ∀ i size junk, Finds s (wordAt st.core) i size →
    ∃ st', turnVr s i (wordAt st.core) size junk st = some st' ∧ Q st'

theorem turnsVr_of {s : Sim} {st : VaSt s.xlen.bits} {Q : VaSt s.xlen.bits → Prop} (h : GoesVr s st Q) :
    (∃ st', TurnVr s st st') ∧ ∀ st', TurnVr s st st' → Q st' := by
  obtain ⟨⟨i, size, hf⟩, h⟩ := h
  obtain ⟨st', hs, _⟩ := h i size (fun _ => ⟨0#64, false, 0⟩) hf
  refine ⟨⟨st', i, size, _, hf, hs⟩, ?_⟩
  rintro st₂ ⟨i, size, junk, hf, hs⟩
  obtain ⟨st', hs', hq⟩ := h i size junk hf
  rw [hs] at hs'
  obtain rfl := Option.some.inj hs'
  exact hq

/-! ## Operands and tables -/

theorem vr_vs1 (s : Sim) (hs : s.vec = true) (w : Nat) (a : Act) (k : Nat) (h : a.srcs[k]? = some (.one .Vs1)) :
    (vaSrc s w a k).bind vaReg = some (vs1Of w) := by
  obtain ⟨g, m, hg, hm, hr⟩ := source_okVa s hs .Vs1 (by decide) w
  obtain rfl : Getters.Spec.Meaning.v [(19, 15)] = m := Option.some.inj hm
  obtain ⟨count, hr, -⟩ := hr
  unfold vaSrc
  rw [h]
  dsimp only
  rw [hg, Option.map_some, Option.bind_some, hr]
  rfl

/-- The description an instruction should have. -/
def okVr (k : VrFn) (p : VrAct) : Bool :=
  decide (p.fn = k) && p.ops.srcs == [.one .Vs2, .one .Vs1, .one .Vmask] && p.ops.dsts == [.one .Vd]

def okEntryVr (s : Sim) (e : Inst) : Bool :=
  match vrKind (canon e.op) with
  | none => true
  | some k => (vrActs s e.op).any (okVr k)

theorem entriesVr_ok (s : Sim) (hs : s.vec = true) : s.decoder.insts.all (okEntryVr s) = true := by
  revert hs; cases s <;> decide +kernel

def vrOps : List Op :=
  [.vredsum_vv, .vredand_vv, .vredor_vv, .vredxor_vv, .vredminu_vv, .vredmin_vv, .vredmaxu_vv, .vredmax_vv,
   .vwredsumu_vv, .vwredsum_vv]

theorem vrKind_mem {o : Op} {k : VrFn} (h : vrKind o = some k) : o ∈ vrOps := by
  unfold vrKind at h
  split at h <;> first
    | (cases h; done)
    | decide

theorem has_entryVr (s : Sim) (hs : s.vec = true) : vrOps.all (fun o =>
    canon o == o && s.decoder.insts.any (fun i => i.op == o) && (s.decoder.gaps o).isEmpty) = true := by
  revert hs; cases s <;> decide +kernel

theorem decodesVr (s : Sim) (hs : s.vec = true) (o : Op) (k : VrFn) (hk : vrKind o = some k) (w : Nat)
    (hw : w < 2 ^ 32) (hl : Listed s.xlen o w) :
    (∃ i ∈ s.decoder.insts, i.matches w = true) ∧
      ∀ i ∈ s.decoder.insts, i.matches w = true → canon i.op = o := by
  have he := List.all_eq_true.1 (has_entryVr s hs) o (vrKind_mem hk)
  simp only [Bool.and_eq_true, beq_iff_eq, List.any_eq_true, List.isEmpty_iff] at he
  obtain ⟨⟨hc, e, hi, hio⟩, hg⟩ := he
  subst hio
  obtain ⟨j, hj, hjc, hjm⟩ := C71_implemented_partial s.decoder e hi w hw (by rw [hc]; exact hl) (by
    intro p hp h
    rw [hc, hg] at hp
    cases hp)
  refine ⟨⟨j, hj, hjm⟩, fun a ha ham => ?_⟩
  rw [← hc, ← hjc]
  exact pairwise_both (C59_same_instruction s.decoder (decoder_ne s) w hw) ha hj ham hjm

theorem listed_lowVr (x : Xlen) (o : Op) (k : VrFn) (hk : vrKind o = some k) (w : Nat)
    (hl : Listed x o w) : w &&& 3 = 3 := by
  have t : vrOps.all (fun o => (enc x o).all fun e => e.mask &&& 3 == 3 && e.value &&& 3 == 3) = true := by
    cases x <;> decide +kernel
  obtain ⟨e, he, ha, _⟩ := hl
  have h := List.all_eq_true.1 t o (vrKind_mem hk)
  rw [he] at h
  simp only [Option.all_some, Bool.and_eq_true, beq_iff_eq] at h
  rw [← h.1, ← Nat.and_assoc, ha, h.2, h.1]

/-- What the function does is what the turn does. -/
theorem vr_goes (s : Sim) (hs : s.vec = true) (st : VaSt s.xlen.bits) (op : Op) (k : VrFn) (hk : vrKind op = some k)
    (hl : Listed s.xlen op (wordAt st.core)) (hb : st.core.hart.branch = false) (v' : VCore)
    (hv : vrDo st.vec (vdOf (wordAt st.core)) (vs2Of (wordAt st.core)) (vs1Of (wordAt st.core))
      (VecLoop.maskOf st.vec.regs (vmOf (wordAt st.core))) k = some v') :
    GoesVr s st fun st' => st'.vec = v' ∧ OnlyNext st.core st'.core 4 := by
  obtain ⟨⟨e, he, hem⟩, hall⟩ := decodesVr s hs op _ hk _ (readLE_lt st.core.mem _ 4) hl
  have hlow := listed_lowVr s.xlen op _ hk _ hl
  refine ⟨⟨e, 4, by unfold Finds; rw [if_pos hlow]; exact ⟨he, hem, rfl⟩⟩, fun e size junk hf => ?_⟩
  unfold Finds at hf
  rw [if_pos hlow] at hf
  obtain ⟨he, hem, rfl⟩ := hf
  have hok := List.all_eq_true.1 (entriesVr_ok s hs) e he
  unfold okEntryVr at hok
  rw [hall e he hem, hk] at hok
  dsimp only at hok
  cases hp' : vrActs s e.op with
  | none => rw [hp'] at hok; cases hok
  | some p =>
    rw [hp', Option.any_some] at hok
    unfold okVr at hok
    simp only [Bool.and_eq_true, beq_iff_eq, decide_eq_true_eq] at hok
    obtain ⟨⟨hfn, hsrc⟩, hdst⟩ := hok
    refine ⟨⟨next st.core (st.core.hart.pc.setWidth 64) 4, v'⟩, ?_, rfl, _, next_is (bits_le _) st.core 4, ?_, ?_⟩
    · unfold turnVr
      rw [hp']
      dsimp only
      unfold vrCarry
      rw [va_vs2 s hs _ p.ops 0 (by rw [hsrc]; rfl), Option.bind_some, vr_vs1 s hs _ p.ops 1 (by rw [hsrc]; rfl),
        Option.bind_some, va_mask s hs _ p.ops 2 (by rw [hsrc]; rfl), Option.bind_some,
        va_vd s hs _ p.ops 0 (by rw [hdst]; rfl), Option.bind_some, hfn, hv, Option.map_some, Option.map_some]
    · dsimp only
      rw [next_stay _ _ _ hb]
      exact ⟨rfl, rfl, rfl, rfl⟩
    · dsimp only
      rw [next_stay _ _ _ hb]

theorem goesVr_mono {s : Sim} {st : VaSt s.xlen.bits} {P Q : VaSt s.xlen.bits → Prop} (h : GoesVr s st P)
    (hpq : ∀ st', P st' → Q st') : GoesVr s st Q :=
  ⟨h.1, fun i size junk hf => by
    obtain ⟨st', h1, h2⟩ := h.2 i size junk hf
    exact ⟨st', h1, hpq st' h2⟩⟩

theorem redKind_eq (o : VecRed.IntOp) : o.kind = redKind o := by cases o <;> rfl

/-- **C144.** In every simulated core with vectors, a word that the manual gives to vredsum, vredand, vredor, vredxor,
vredminu, vredmin, vredmaxu or vredmax is carried out, whichever matching entry of the decoder is used: element 0 of the
word's vd becomes the combination of element 0 of its vs1 with the active elements of its vs2; all other bytes of all
vector registers and the vector state stay, the program counter moves on and nothing else changes.  Missing: no elements
at all (`C144_empty_violated`), vstart other than 0 (`C144_vstart_violated`). -/
theorem C144_int_partial (s : Sim) (hs : s.vec = true) (st : VaSt s.xlen.bits) (op : Op) (o : VecRed.IntOp)
    (hk : vrKind op = some (.same o)) (hl : Listed s.xlen op (wordAt st.core)) (hb : st.core.hart.branch = false)
    (hp : Legal st.vec.vs) (hsew : st.vec.vs.sew = 1 ∨ st.vec.vs.sew = 2 ∨ st.vec.vs.sew = 4 ∨ st.vec.vs.sew = 8)
    (hd : st.vec.vs.sew ∣ st.vec.vs.vlenb) (hvl : 0 < st.vec.vs.vl) (a : BitVec (8 * st.vec.vs.sew))
    (x : Nat → BitVec (8 * st.vec.vs.sew)) (act : Nat → Bool)
    (ha : IsElem st.vec.vs.vlenb st.vec.vs.sew st.vec.regs (vs1Of (wordAt st.core)) 0 a)
    (hx : Elements st.vec (wordAt st.core) x act) :
    GoesVr s st fun st' =>
      (∃ r, Result (redKind o) st.vec.vs.vl act x a r ∧
        Wrote st.vec.vs.vlenb st.vec.vs.sew (vdOf (wordAt st.core)) r st.vec.regs st'.vec.regs) ∧
      st'.vec.vs = st.vec.vs ∧ OnlyNext st.core st'.core 4 := by
  obtain ⟨c', r, h1, h2, h3, h4⟩ := VecRed.C78_int_partial o st.vec (vdOf (wordAt st.core)) (vs2Of (wordAt st.core))
    (vs1Of (wordAt st.core)) (vmOf (wordAt st.core)) hp hsew hd hvl a x act ha hx.value hx.mask
  refine goesVr_mono (vr_goes s hs st op _ hk hl hb c' h1) ?_
  rintro st' ⟨hv, hn⟩
  rw [hv]
  rw [redKind_eq] at h3
  exact ⟨⟨r, h3, h4⟩, h2, hn⟩

/-- **C144, widening sums.** The same for vwredsumu and vwredsum, with the scalar and the result of double width.
Missing as well: scalars that do not fit the narrow width (`C144_scalar_violated`) and groups of eight registers (C78). -/
theorem C144_wide_partial (s : Sim) (hs : s.vec = true) (st : VaSt s.xlen.bits) (op : Op) (sgn : Bool)
    (hk : vrKind op = some (.wide sgn)) (hl : Listed s.xlen op (wordAt st.core)) (hb : st.core.hart.branch = false)
    (hp : Legal st.vec.vs) (hsew : st.vec.vs.sew = 1 ∨ st.vec.vs.sew = 2 ∨ st.vec.vs.sew = 4)
    (hd : 2 * st.vec.vs.sew ∣ st.vec.vs.vlenb) (hm : st.vec.vs.lmul8 ≤ 32) (hvl : 0 < st.vec.vs.vl)
    (a : BitVec (8 * (2 * st.vec.vs.sew))) (x : Nat → BitVec (8 * st.vec.vs.sew)) (act : Nat → Bool)
    (ha : IsElem st.vec.vs.vlenb (2 * st.vec.vs.sew) st.vec.regs (vs1Of (wordAt st.core)) 0 a)
    (hfit : if sgn then (a.setWidth (8 * st.vec.vs.sew)).toInt = a.toInt else a.toNat < 2 ^ (8 * st.vec.vs.sew))
    (hx : Elements st.vec (wordAt st.core) x act) :
    GoesVr s st fun st' =>
      (∃ r, WideSum sgn st.vec.vs.vl act x a r ∧
        Wrote st.vec.vs.vlenb (2 * st.vec.vs.sew) (vdOf (wordAt st.core)) r st.vec.regs st'.vec.regs) ∧
      st'.vec.vs = st.vec.vs ∧ OnlyNext st.core st'.core 4 := by
  obtain ⟨c', r, h1, h2, h3, h4⟩ := VecRed.C78_wide_partial sgn st.vec (vdOf (wordAt st.core)) (vs2Of (wordAt st.core))
    (vs1Of (wordAt st.core)) (vmOf (wordAt st.core)) hp hsew hd hm hvl a x act ha hfit hx.value hx.mask
  refine goesVr_mono (vr_goes s hs st op _ hk hl hb c' h1) ?_
  rintro st' ⟨hv, hn⟩
  rw [hv]
  exact ⟨⟨r, h3, h4⟩, h2, hn⟩

/-- **C144 is violated** if there are no elements: vd is overwritten by element 0 of vs1 (the manual: it stays). -/
theorem C144_empty_violated (s : Sim) (hs : s.vec = true) (st : VaSt s.xlen.bits) (op : Op) (o : VecRed.IntOp)
    (hk : vrKind op = some (.same o)) (hl : Listed s.xlen op (wordAt st.core)) (hb : st.core.hart.branch = false)
    (hp : Legal st.vec.vs) (hsew : st.vec.vs.sew = 1 ∨ st.vec.vs.sew = 2 ∨ st.vec.vs.sew = 4 ∨ st.vec.vs.sew = 8)
    (hd : st.vec.vs.sew ∣ st.vec.vs.vlenb) (hvl : st.vec.vs.vl = 0) (a b : BitVec (8 * st.vec.vs.sew))
    (ha : IsElem st.vec.vs.vlenb st.vec.vs.sew st.vec.regs (vs1Of (wordAt st.core)) 0 a)
    (hd0 : IsElem st.vec.vs.vlenb st.vec.vs.sew st.vec.regs (vdOf (wordAt st.core)) 0 b) (hab : a ≠ b) :
    GoesVr s st fun st' => ¬ IsElem st.vec.vs.vlenb st.vec.vs.sew st'.vec.regs (vdOf (wordAt st.core)) 0 b := by
  obtain ⟨c', h1, h2⟩ := VecRed.C78_empty_violated o st.vec (vdOf (wordAt st.core)) (vs2Of (wordAt st.core))
    (vs1Of (wordAt st.core)) (vmOf (wordAt st.core)) hp hsew hd hvl a b ha hd0 hab
  refine goesVr_mono (vr_goes s hs st op _ hk hl hb c' h1) ?_
  rintro st' ⟨hv, -⟩
  rw [hv]
  exact h2

/-- **C144 is violated** if vstart is not 0 (the manual: an illegal instruction): the instruction does nothing, no exception
is recorded and the next instruction follows. -/
theorem C144_vstart_violated (s : Sim) (hs : s.vec = true) (st : VaSt s.xlen.bits) (op : Op) (o : VecRed.IntOp)
    (hk : vrKind op = some (.same o)) (hl : Listed s.xlen op (wordAt st.core)) (hb : st.core.hart.branch = false)
    (he : st.vec.vs.exception = false)
    (hsew : st.vec.vs.sew = 1 ∨ st.vec.vs.sew = 2 ∨ st.vec.vs.sew = 4 ∨ st.vec.vs.sew = 8) (hv : st.vec.vs.vstart ≠ 0) :
    GoesVr s st fun st' => st'.vec = st.vec ∧ st'.vec.vs.exception = false ∧ OnlyNext st.core st'.core 4 := by
  obtain ⟨h1, h2⟩ := VecRed.C78_vstart_violated o st.vec (vdOf (wordAt st.core)) (vs2Of (wordAt st.core))
    (vs1Of (wordAt st.core)) (VecLoop.maskOf st.vec.regs (vmOf (wordAt st.core))) he hsew hv
  refine goesVr_mono (vr_goes s hs st op _ hk hl hb _ h1) ?_
  rintro st' ⟨hv, hn⟩
  exact ⟨hv, by rw [hv]; exact h2, hn⟩

/-- **C144 is violated** by the widening sums if the scalar does not fit the narrow width: with no active element the
result is not the scalar. -/
theorem C144_scalar_violated (s : Sim) (hs : s.vec = true) (st : VaSt s.xlen.bits) (op : Op) (sgn : Bool)
    (hk : vrKind op = some (.wide sgn)) (hl : Listed s.xlen op (wordAt st.core)) (hb : st.core.hart.branch = false)
    (hp : Legal st.vec.vs) (hsew : st.vec.vs.sew = 1 ∨ st.vec.vs.sew = 2 ∨ st.vec.vs.sew = 4)
    (hd : 2 * st.vec.vs.sew ∣ st.vec.vs.vlenb) (hm : st.vec.vs.lmul8 ≤ 32)
    (a : BitVec (8 * (2 * st.vec.vs.sew)))
    (ha : IsElem st.vec.vs.vlenb (2 * st.vec.vs.sew) st.vec.regs (vs1Of (wordAt st.core)) 0 a)
    (hfit : VecRed.ext sgn (8 * (2 * st.vec.vs.sew)) (a.setWidth (8 * st.vec.vs.sew)) ≠ a)
    (hno : ∀ i, i < st.vec.vs.vl → ¬ Active st.vec.regs (vmOf (wordAt st.core)) i) :
    GoesVr s st fun st' => ∃ r, IsElem st.vec.vs.vlenb (2 * st.vec.vs.sew) st'.vec.regs (vdOf (wordAt st.core)) 0 r ∧ r ≠ a := by
  obtain ⟨c', r, h1, h2, h3⟩ := VecRed.C78_wide_scalar_violated sgn st.vec (vdOf (wordAt st.core)) (vs2Of (wordAt st.core))
    (vs1Of (wordAt st.core)) (vmOf (wordAt st.core)) hp hsew hd hm a ha hfit hno
  refine goesVr_mono (vr_goes s hs st op _ hk hl hb c' h1) ?_
  rintro st' ⟨hv, -⟩
  rw [hv]
  exact ⟨r, h2, h3⟩


/-! ## Examples -/

/-- A core about to run the word `w` with `vl` elements of 4 bytes in registers of 16, vstart `start`; v2 holds `top` in its
bytes 1 to 15. -/
def reducing (w : BitVec 32) (vl start : Nat) (top : BitVec 8) : VaSt Sim.rv64gv.xlen.bits :=
  { core := (moving w vl 0#64 0xffff#64).core
    vec :=
      { vs := { (moving w vl 0#64 0xffff#64).vec.vs with vstart := start }
        regs := fun r x => if r = 2 ∧ 0 < x then top else (moving w vl 0#64 0xffff#64).vec.regs r x } }

theorem reducing_ok (w : BitVec 32) (vl : Nat) (top : BitVec 8) : Legal (reducing w vl 0 top).vec.vs :=
  ⟨rfl, rfl, (show 1 ≤ 8 ∧ 8 ≤ 64 by decide), (show 0 < 16 by decide)⟩

theorem reducing_elements (w : BitVec 32) (vl : Nat) (top : BitVec 8)
    (hm : vmOf (wordAt (reducing w vl 0 top).core) = true) :
    Elements (reducing w vl 0 top).vec (wordAt (reducing w vl 0 top).core)
      (fun i => VecLoop.source 16 4 (reducing w vl 0 top).vec.regs (vs2Of (wordAt (reducing w vl 0 top).core)) i)
      (fun _ => true) :=
  ⟨fun i _ => (VecLoop.isElem_iff (by decide) (show 4 ∣ 16 by decide) (show 0 < 16 by decide) _ _ _ _).2 rfl,
   fun _ _ => ⟨fun _ => Or.inl hm, fun _ => rfl⟩⟩

/-- `vredsum.vs v3, v1, v2`. -/
def vredsumWord : BitVec 32 := 0x021121d7#32
/-- `vwredsum.vs v3, v1, v2`. -/
def vwredsumWord : BitVec 32 := 0xc61101d7#32
/-- `vwredsumu.vs v3, v1, v2, v0.t`. -/
def vwredsumuWord : BitVec 32 := 0xc01101d7#32

example := C144_int_partial .rv64gv rfl (reducing vredsumWord 4 0 9#8) .vredsum_vv .sum rfl
  ⟨_, rfl, by unfold Enc.assigns; decide +kernel⟩ rfl (reducing_ok _ _ _) (Or.inr (Or.inr (Or.inl rfl)))
  (show 4 ∣ 16 by decide) (show 0 < 4 by decide)
  (VecLoop.source 16 4 (reducing vredsumWord 4 0 9#8).vec.regs (vs1Of (wordAt (reducing vredsumWord 4 0 9#8).core)) 0) _ _
  ((VecLoop.isElem_iff (by decide) (show 4 ∣ 16 by decide) (show 0 < 16 by decide) _ _ _ _).2 rfl)
  (reducing_elements _ _ _ (by decide +kernel))

example := C144_wide_partial .rv64gv rfl (reducing vwredsumWord 4 0 0#8) .vwredsum_vv true rfl
  ⟨_, rfl, by unfold Enc.assigns; decide +kernel⟩ rfl (reducing_ok _ _ _) (Or.inr (Or.inr rfl))
  (show 2 * 4 ∣ 16 by decide) (show 8 ≤ 32 by decide) (show 0 < 4 by decide)
  (VecLoop.source 16 8 (reducing vwredsumWord 4 0 0#8).vec.regs (vs1Of (wordAt (reducing vwredsumWord 4 0 0#8).core)) 0) _ _
  ((VecLoop.isElem_iff (by decide) (show 8 ∣ 16 by decide) (show 0 < 16 by decide) _ _ _ _).2 rfl)
  (by decide +kernel) (reducing_elements _ _ _ (by decide +kernel))

example := C144_empty_violated .rv64gv rfl (reducing vredsumWord 0 0 9#8) .vredsum_vv .sum rfl
  ⟨_, rfl, by unfold Enc.assigns; decide +kernel⟩ rfl (reducing_ok _ _ _) (Or.inr (Or.inr (Or.inl rfl)))
  (show 4 ∣ 16 by decide) rfl
  (VecLoop.source 16 4 (reducing vredsumWord 0 0 9#8).vec.regs (vs1Of (wordAt (reducing vredsumWord 0 0 9#8).core)) 0)
  (VecLoop.source 16 4 (reducing vredsumWord 0 0 9#8).vec.regs (vdOf (wordAt (reducing vredsumWord 0 0 9#8).core)) 0)
  ((VecLoop.isElem_iff (by decide) (show 4 ∣ 16 by decide) (show 0 < 16 by decide) _ _ _ _).2 rfl)
  ((VecLoop.isElem_iff (by decide) (show 4 ∣ 16 by decide) (show 0 < 16 by decide) _ _ _ _).2 rfl)
  (fun h => absurd (congrArg BitVec.toNat h) (by decide +kernel))

example := C144_vstart_violated .rv64gv rfl (reducing vredsumWord 4 1 9#8) .vredsum_vv .sum rfl
  ⟨_, rfl, by unfold Enc.assigns; decide +kernel⟩ rfl rfl (Or.inr (Or.inr (Or.inl rfl))) (show 1 ≠ 0 by decide)

example := C144_scalar_violated .rv64gv rfl (reducing vwredsumuWord 0 0 9#8) .vwredsumu_vv false rfl
  ⟨_, rfl, by unfold Enc.assigns; decide +kernel⟩ rfl (reducing_ok _ _ _) (Or.inr (Or.inr rfl))
  (show 2 * 4 ∣ 16 by decide) (show 8 ≤ 32 by decide)
  (VecLoop.source 16 8 (reducing vwredsumuWord 0 0 9#8).vec.regs (vs1Of (wordAt (reducing vwredsumuWord 0 0 9#8).core)) 0)
  ((VecLoop.isElem_iff (by decide) (show 8 ∣ 16 by decide) (show 0 < 16 by decide) _ _ _ _).2 rfl)
  (fun h => absurd (congrArg BitVec.toNat h) (by decide +kernel)) (fun i hi => absurd hi (Nat.not_lt_zero i))

/-- The turn with the first matching entry. -/
def firstVr (s : Sim) (st : VaSt s.xlen.bits) : Option (VaSt s.xlen.bits) :=
  if wordAt st.core &&& 3 = 3 then
    (s.decoder.insts.find? fun i => i.matches (wordAt st.core)).bind fun i =>
      turnVr s i (wordAt st.core) 4 (fun _ => ⟨0#64, false, 0⟩) st
  else none

/-- The sum of 0x14131211, 0x18171615, 0x1c1b1a19, 0x201f1e1d and 33, with 32 bits and with 64. -/
example : [vredsumWord, vwredsumWord].map (fun w => (firstVr .rv64gv (reducing w 4 0 0#8)).map fun st =>
    (List.range 8).map fun x => (st.vec.regs 3 x).toNat) =
    [some [0x7d, 0x60, 0x64, 0x68, 53, 54, 55, 56], some [0x7d, 0x60, 0x64, 0x68, 0, 0, 0, 0]] := by decide +kernel

/-! ## The other instructions -/

/-- The names of these instructions. -/
def vrNames : List String := vrOps.map opName

theorem vr_names (s : Sim) : s.isa.instrs.all (fun i => (vrPart i.phases).isNone || vrNames.contains i.name) = true := by
  cases s <;> decide +kernel

theorem vr_entries (s : Sim) : s.decoder.insts.all (fun e => !vrNames.contains (opName e.op) ||
    ((vrKind (canon e.op)).isSome && !s.decoder.unsoundOps.contains e.op)) = true := by
  cases s <;> decide +kernel

theorem vr_entries16 (s : Sim) : s.decoder16.insts.all (fun e => !vrNames.contains (opName e.op)) = true := by
  cases s <;> decide +kernel

theorem vr_named {s : Sim} {o : Op} (h : vrActs s o ≠ none) : vrNames.contains (opName o) = true := by
  unfold vrActs at h
  cases hf : (s.isa.instrs.find? fun i => i.name == opName o) with
  | none => rw [hf] at h; exact absurd rfl h
  | some i =>
    rw [hf, Option.bind_some] at h
    have hn := List.find?_some hf
    have t := List.all_eq_true.1 (vr_names s) i (List.mem_of_find?_eq_some hf)
    rw [Bool.or_eq_true, Option.isNone_iff_eq_none] at t
    rw [← eq_of_beq hn]
    exact t.resolve_left h

/-- **C144, the others**: what C139 to C142 say of the other instructions holds here as well. -/
theorem C144_others {s : Sim} {st : VaSt s.xlen.bits} {Q : VaSt s.xlen.bits → Prop} (h : GoesVm s st Q)
    (hn : ∀ op k, vrKind op = some k → ¬ Listed s.xlen op (wordAt st.core)) : GoesVr s st Q := by
  refine ⟨h.1, fun e size junk hf => ?_⟩
  obtain ⟨r, hr, hq⟩ := h.2 e size junk hf
  refine ⟨r, ?_, hq⟩
  unfold turnVr
  suffices hz : vrActs s e.op = none by rw [hz]; exact hr
  refine Classical.byContradiction fun hz => ?_
  have hz := vr_named hz
  unfold Finds at hf
  split at hf
  · obtain ⟨he, hem, -⟩ := hf
    have t := List.all_eq_true.1 (vr_entries s) e he
    rw [hz] at t
    simp only [Bool.not_true, Bool.false_or, Bool.and_eq_true, Bool.not_eq_true', List.contains_eq_mem,
      decide_eq_false_iff_not] at t
    obtain ⟨k, hk⟩ := Option.isSome_iff_exists.1 t.1
    exact absurd (C71_decoded_partial s.decoder e he t.2 _ (readLE_lt st.core.mem _ 4) hem) (hn _ k hk)
  · have t := List.all_eq_true.1 (vr_entries16 s) e hf.1
    rw [hz] at t
    cases t

end Verif.Exec
