import Verif.Exec.VmStep
import Verif.Exec.PropsVw

/-!
# C142: unit-stride and strided vector loads and stores, from the word in memory
-/

namespace Verif.Exec

open Decode Decode.Isa Core Operands Spec
open VecLoop (VCore VRegs)
open VecState (VState)
open VecMem (MCore)
open VecLoop.Spec (IsElem Active)

/-- Some entry matches, and the turn with any that does, and any contents of new buffers, is carried out and has the effect
`Q`. -/
def GoesVm (s : Sim) (st : VaSt s.xlen.bits) (Q : VaSt s.xlen.bits → Prop) : Prop :=
  (∃ i size, Finds s (wordAt st.core) i size) ∧
  ∀ i size junk, Finds s (wordAt st.core) i size →
    ∃ st', turnVm s i (wordAt st.core) size junk st = some st' ∧ Q st'

theorem turnsVm_of {s : Sim} {st : VaSt s.xlen.bits} {Q : VaSt s.xlen.bits → Prop} (h : GoesVm s st Q) :
    (∃ st', TurnVm s st st') ∧ ∀ st', TurnVm s st st' → Q st' := by
  obtain ⟨⟨i, size, hf⟩, h⟩ := h
  obtain ⟨st', hs, _⟩ := h i size (fun _ => ⟨0#64, false, 0⟩) hf
  refine ⟨⟨st', i, size, _, hf, hs⟩, ?_⟩
  rintro st₂ ⟨i, size, junk, hf, hs⟩
  obtain ⟨st', hs', hq⟩ := h i size junk hf
  rw [hs] at hs'
  obtain rfl := Option.some.inj hs'
  exact hq

/-- What the functions are called with. -/
theorem vm_calls (s : Sim) (hs : s.vec = true) (st : VaSt s.xlen.bits) (op : Op) (k : VmKind) (hk : vmKind op = some k)
    (h8 : k.bytes = 8 → s.xlen = .rv64) (hl : Listed s.xlen op (wordAt st.core)) (Q : VaSt s.xlen.bits → Prop)
    (hQ : ∀ (t : BitVec 64) (junk : Nat → Mem.Elem), t.toInt = strideOf st.core (wordAt st.core) k →
      ∃ c' : MCore s.xlen.bits,
        (if k.store then
          VecMem.vsStrided ⟨st.core, st.vec⟩ k.bytes (vdOf (wordAt st.core)) ((X st.core (rs1 (wordAt st.core))).setWidth 64) t
            (VecLoop.maskOf st.vec.regs (vmOf (wordAt st.core))) junk (st.core.hart.pc.setWidth 64) false
        else
          VecMem.vlStrided ⟨st.core, st.vec⟩ k.bytes (vdOf (wordAt st.core)) ((X st.core (rs1 (wordAt st.core))).setWidth 64) t
            (VecLoop.maskOf st.vec.regs (vmOf (wordAt st.core))) (st.core.hart.pc.setWidth 64) false) = some c' ∧
        Q ⟨next c'.core (st.core.hart.pc.setWidth 64) 4, c'.v⟩) : GoesVm s st Q := by
  obtain ⟨⟨e, he, hem⟩, hall⟩ := decodesVm s hs op _ hk h8 _ (readLE_lt st.core.mem _ 4) hl
  have hlow := listed_lowVm s.xlen op _ hk _ hl
  refine ⟨⟨e, 4, by unfold Finds; rw [if_pos hlow]; exact ⟨he, hem, rfl⟩⟩, fun e size junk hf => ?_⟩
  unfold Finds at hf
  rw [if_pos hlow] at hf
  obtain ⟨he, hem, rfl⟩ := hf
  have hok := List.all_eq_true.1 (entriesVm_ok s hs) e he
  unfold okEntryVm at hok
  rw [hall e he hem, hk] at hok
  dsimp only at hok
  cases hp' : vmActs s e.op with
  | none => rw [hp'] at hok; cases hok
  | some p =>
    rw [hp', Option.any_some] at hok
    unfold okVm at hok
    simp only [Bool.and_eq_true, beq_iff_eq, decide_eq_true_eq] at hok
    obtain ⟨⟨hst, hby⟩, hrest⟩ := hok
    have hbw := vmKind_bytes hk
    unfold turnVm
    rw [hp']
    dsimp only
    unfold vmCarry
    dsimp only
    rw [hst, hby]
    cases hks : k.store with
    | true =>
      rw [hks, if_pos rfl] at hrest
      have hsrc := beq_iff_eq.1 hrest
      obtain ⟨t, ht, hti⟩ := vm_stride s hs (wordAt st.core) st.core p.ops 2 k hbw h8 (by rw [hsrc]; rfl)
      obtain ⟨c', hc, hq⟩ := hQ t junk hti
      rw [hks, if_pos rfl] at hc
      rw [if_pos rfl, vm_vs3 s hs _ p.ops 0 (by rw [hsrc]; rfl), Option.bind_some,
        vm_rs1 s hs _ st.core p.ops 1 (by rw [hsrc]; rfl), Option.bind_some, ht, Option.bind_some,
        va_mask s hs _ p.ops 3 (by rw [hsrc]; rfl), Option.bind_some, hc]
      exact ⟨_, rfl, hq⟩
    | false =>
      rw [hks, if_neg (by decide)] at hrest
      simp only [Bool.and_eq_true, Bool.or_eq_true, beq_iff_eq] at hrest
      obtain ⟨hsrc, hdst⟩ := hrest
      have h0 : p.ops.srcs[0]? = some (.one .Rs1) := by
        rcases hsrc with h | h
        · rw [h]; rfl
        · rw [h.1]; rfl
      have h1 : p.ops.srcs[1]? = some (.one (vmOpd k)) := by
        rcases hsrc with h | h
        · rw [h]; rfl
        · rw [h.1]; rfl
      have hmask : (vaSrc s (wordAt st.core) p.ops 2).bind vaMask = some (vmOf (wordAt st.core)) := by
        rcases hsrc with h | h
        · exact va_mask s hs _ p.ops 2 (by rw [h]; rfl)
        · rw [vm_true s hs _ p.ops 2 (by rw [h.1]; rfl), okMask_true e _ h.2 hem]
      obtain ⟨t, ht, hti⟩ := vm_stride s hs (wordAt st.core) st.core p.ops 1 k hbw h8 h1
      obtain ⟨c', hc, hq⟩ := hQ t junk hti
      rw [hks, if_neg (by decide)] at hc
      rw [if_neg (by decide), vm_rs1 s hs _ st.core p.ops 0 h0, Option.bind_some, ht, Option.bind_some, hmask,
        Option.bind_some, va_vd s hs _ p.child 0 (by rw [hdst]; rfl), Option.bind_some, hc]
      exact ⟨_, rfl, hq⟩

theorem fits_of {c : Core n} {v : VCore} {w : Nat} {k : VmKind} (hp : PermittedM c v w k) {t : BitVec 64}
    (ht : t.toInt = strideOf c w k) : VecMem.StrideFits t v.vs.vstart v.vs.vl := by
  intro i h1 h2
  rw [ht]
  exact hp.fits i h1 h2

theorem wrap_of {c : Core n} {v : VCore} {w : Nat} {k : VmKind} (h : NoWrap c v w k) (i : Nat) (h1 : v.vs.vstart ≤ i)
    (h2 : i < v.vs.vl) : n = 64 ∨ (0 ≤ rawAddr c w k i ∧ rawAddr c w k i < 2 ^ n) :=
  h.imp id fun h => h i h1 h2

/-- **C142 (loads), partial.** In every simulated core with vectors, a word that the manual gives to vle8.v to vle64.v,
vlse8.v to vlse64.v or a fault-only-first load is carried out, whichever matching entry of the decoder is used: every
active element of the body of the group at the word's vd becomes the bytes at the address in rs1 plus its number times
the stride (the size of an element, or what is in rs2, with its sign); all other bytes of all vector registers, memory
and the integer registers stay, vstart becomes 0 and the program counter moves on.  Missing: elements of 64 bits on RV32
(not implemented, C71), vstart inside of a register (C51), addresses that pass an end of the address space of RV32
(`C142_wrap_violated`), addresses of inactive elements above the limit (C49). -/
theorem C142_load_partial (s : Sim) (hs : s.vec = true) (st : VaSt s.xlen.bits) (op : Op) (k : VmKind)
    (hk : vmKind op = some k) (hld : k.store = false) (h8 : k.bytes = 8 → s.xlen = .rv64)
    (hl : Listed s.xlen op (wordAt st.core)) (hb : st.core.hart.branch = false)
    (hp : PermittedM st.core st.vec (wordAt st.core) k) (hw : NoWrap st.core st.vec (wordAt st.core) k)
    (hstart : st.vec.vs.vstart % (st.vec.vs.vlenb / k.bytes) = 0) (hle : st.vec.vs.vstart ≤ st.vec.vs.vl)
    (hlim : ∀ i, st.vec.vs.vstart ≤ i → i < st.vec.vs.vl →
      (elemAddr st.core (wordAt st.core) k i).toNat ≤ st.core.limit.toNat) :
    GoesVm s st fun st' =>
      st'.vec.vs = { st.vec.vs with vstart := 0 } ∧
      VecMem.Spec.Loaded st.vec.vs.vlenb k.bytes (vdOf (wordAt st.core)) st.vec.vs.vstart st.vec.vs.vl
        (elemAddr st.core (wordAt st.core) k) (Active st.vec.regs (vmOf (wordAt st.core))) st.core.mem
        st.vec.regs st'.vec.regs ∧
      OnlyNext st.core st'.core 4 := by
  refine vm_calls s hs st op k hk h8 hl _ fun t junk ht => ?_
  rw [hld, if_neg (by decide)]
  have ha : ∀ i, st.vec.vs.vstart ≤ i → i < st.vec.vs.vl →
      VecMem.Spec.strided ((X st.core (rs1 (wordAt st.core))).setWidth 64) t i = elemAddr st.core (wordAt st.core) k i :=
    fun i h1 h2 => strided_addr st.core _ k t ht i (wrap_of hw i h1 h2)
  obtain ⟨c', hc, hcore, hvs, hload, hrest⟩ := VecMem.C49_load_partial ⟨st.core, st.vec⟩ k.bytes (vdOf (wordAt st.core))
    ((X st.core (rs1 (wordAt st.core))).setWidth 64) t (vmOf (wordAt st.core)) (st.core.hart.pc.setWidth 64) false
    hp.ready hstart hle (fits_of hp ht) (fun i h1 h2 => by rw [ha i h1 h2]; exact hlim i h1 h2)
  refine ⟨c', hc, hvs, ⟨fun i h1 h2 h3 => ?_, hrest⟩, _, next_is (bits_le _) st.core 4, ?_, ?_⟩
  · obtain ⟨v, hv, he⟩ := hload i h1 h2 h3
    exact ⟨v, by rw [← ha i h1 h2]; exact hv, he⟩
  · rw [hcore]
    dsimp only
    rw [next_stay _ _ _ hb]
    exact ⟨rfl, rfl, rfl, rfl⟩
  · rw [hcore]
    dsimp only
    rw [next_stay _ _ _ hb]

/-- **C142 (stores), partial.** The same for vse8.v to vse64.v and vsse8.v to vsse64.v, with vstart = 0: the active
elements of the group at the word's vs3 (the position of vd) are written, in order of their numbers, to memory; every
other byte of memory, all vector registers and the integer registers stay.  Missing: as for loads, and other values of
vstart (C51). -/
theorem C142_store_partial (s : Sim) (hs : s.vec = true) (st : VaSt s.xlen.bits) (op : Op) (k : VmKind)
    (hk : vmKind op = some k) (hst : k.store = true) (h8 : k.bytes = 8 → s.xlen = .rv64)
    (hl : Listed s.xlen op (wordAt st.core)) (hb : st.core.hart.branch = false)
    (hp : PermittedM st.core st.vec (wordAt st.core) k) (hw : NoWrap st.core st.vec (wordAt st.core) k)
    (hstart : st.vec.vs.vstart = 0)
    (hlim : ∀ i, i < st.vec.vs.vl → (elemAddr st.core (wordAt st.core) k i).toNat ≤ st.core.limit.toNat)
    (val : Nat → BitVec (8 * k.bytes))
    (hval : ∀ i, i < st.vec.vs.vl → IsElem st.vec.vs.vlenb k.bytes st.vec.regs (vdOf (wordAt st.core)) i (val i)) :
    GoesVm s st fun st' =>
      st'.vec = st.vec ∧
      VecMem.Spec.Stored k.bytes 0 st.vec.vs.vl (elemAddr st.core (wordAt st.core) k)
        (Active st.vec.regs (vmOf (wordAt st.core))) (fun i => (val i).toNat) st.core.mem st'.core.mem ∧
      ∃ p, IsNext st.core 4 p ∧ st'.core = { st.core with hart := { st.core.hart with pc := p }, mem := st'.core.mem } := by
  refine vm_calls s hs st op k hk h8 hl _ fun t junk ht => ?_
  rw [hst, if_pos rfl]
  have ha : ∀ i, 0 ≤ i → i < st.vec.vs.vl →
      elemAddr st.core (wordAt st.core) k i = VecMem.Spec.strided ((X st.core (rs1 (wordAt st.core))).setWidth 64) t i :=
    fun i _ h2 => (strided_addr st.core _ k t ht i (wrap_of hw i (by omega) h2)).symm
  have hn8 : k.bytes ≤ 8 := by
    have := vmKind_bytes hk
    simp only [vmWidths, List.mem_cons, List.not_mem_nil, or_false] at this
    omega
  obtain ⟨c', m', hc, hcore, hv, hstored⟩ := VecMem.C49_store_partial ⟨st.core, st.vec⟩ k.bytes (vdOf (wordAt st.core))
    ((X st.core (rs1 (wordAt st.core))).setWidth 64) t (vmOf (wordAt st.core)) junk (st.core.hart.pc.setWidth 64) false
    hn8 hp.ready hstart (by have := fits_of hp ht; rw [hstart] at this; exact this)
    (fun i h2 => by rw [← ha i (Nat.zero_le _) h2]; exact hlim i h2) val hval
  have hnext : next c'.core (st.core.hart.pc.setWidth 64) 4 =
      { st.core with hart := { st.core.hart with pc := (st.core.hart.pc.setWidth 64 + BitVec.ofNat 64 4).setWidth _ }, mem := m' } := by
    rw [hcore, next_stay { st.core with mem := m' } _ _ hb]
  refine ⟨c', hc, ?_, ?_, _, next_is (bits_le _) st.core 4, ?_⟩
  · rw [hv]
    show VCore.mk { st.vec.vs with vstart := 0 } st.vec.regs = st.vec
    rw [← hstart]
  · rw [hnext]
    exact VecMem.stored_congr (fun i h1 h2 => (ha i h1 h2).symm) (fun _ _ _ => rfl) hstored
  · rw [hnext]

/-- A load with an address above the limit. -/
theorem vm_faults (s : Sim) (hs : s.vec = true) (st : VaSt s.xlen.bits) (op : Op) (k : VmKind) (hk : vmKind op = some k)
    (hld : k.store = false) (h8 : k.bytes = 8 → s.xlen = .rv64) (hl : Listed s.xlen op (wordAt st.core))
    (hp : PermittedM st.core st.vec (wordAt st.core) k) (i : Nat) (h1 : st.vec.vs.vstart ≤ i) (h2 : i < st.vec.vs.vl)
    (habove : st.core.limit.toNat < (BitVec.ofInt 64 (rawAddr st.core (wordAt st.core) k i)).toNat)
    (hfirst : ∀ j, st.vec.vs.vstart ≤ j → j < i →
      (BitVec.ofInt 64 (rawAddr st.core (wordAt st.core) k j)).toNat ≤ st.core.limit.toNat) :
    GoesVm s st fun st' =>
      Raises st.core st'.core (BitVec.ofInt 64 (rawAddr st.core (wordAt st.core) k i)) 5#64 ∧
      st'.vec = { st.vec with vs := { st.vec.vs with vstart := 0 } } := by
  refine vm_calls s hs st op k hk h8 hl _ fun t junk ht => ?_
  rw [hld, if_neg (by decide)]
  obtain ⟨c', hc, hr, hv⟩ := VecMem.C49_load_fault ⟨st.core, st.vec⟩ k.bytes (vdOf (wordAt st.core))
    ((X st.core (rs1 (wordAt st.core))).setWidth 64) t (vmOf (wordAt st.core)) (st.core.hart.pc.setWidth 64) false
    hp.ready (fits_of hp ht) i h1 h2 (by rw [strided_raw _ _ k t ht]; exact habove)
    (fun j h1 h2 => by rw [strided_raw _ _ k t ht]; exact hfirst j h1 h2)
  refine ⟨c', hc, ?_, hv⟩
  rw [strided_raw _ _ k t ht] at hr
  exact raises_next st.core c'.core 4 _ _ hr

/-- **C142 (faults), partial.** A load (other than fault-only-first) raises a load access fault at the first element of
the body whose address is above the limit, with that address in the trap value; no vector register, no memory and no
integer register changes.  Missing: vstart becomes 0 (the manual: the number of that element; C49), and inactive elements
fault too. -/
theorem C142_fault_partial (s : Sim) (hs : s.vec = true) (st : VaSt s.xlen.bits) (op : Op) (k : VmKind)
    (hk : vmKind op = some k) (_hff : isFf op = false) (hld : k.store = false) (h8 : k.bytes = 8 → s.xlen = .rv64)
    (hl : Listed s.xlen op (wordAt st.core)) (hp : PermittedM st.core st.vec (wordAt st.core) k)
    (hw : NoWrap st.core st.vec (wordAt st.core) k) (i : Nat) (h1 : st.vec.vs.vstart ≤ i) (h2 : i < st.vec.vs.vl)
    (habove : st.core.limit.toNat < (elemAddr st.core (wordAt st.core) k i).toNat)
    (hfirst : ∀ j, st.vec.vs.vstart ≤ j → j < i → (elemAddr st.core (wordAt st.core) k j).toNat ≤ st.core.limit.toNat) :
    GoesVm s st fun st' =>
      Raises st.core st'.core (elemAddr st.core (wordAt st.core) k i) 5#64 ∧
      st'.vec = { st.vec with vs := { st.vec.vs with vstart := 0 } } := by
  have e : ∀ j, st.vec.vs.vstart ≤ j → j < st.vec.vs.vl → BitVec.ofInt 64 (rawAddr st.core (wordAt st.core) k j) =
      elemAddr st.core (wordAt st.core) k j := by
    intro j j1 j2
    unfold elemAddr
    rcases wrap_of hw j j1 j2 with h | ⟨a, b⟩
    · have : (2 : Int) ^ s.xlen.bits = 2 ^ 64 := by rw [h]
      rw [this, ofInt_emod64]
    · rw [Int.emod_eq_of_lt a b]
  have := vm_faults s hs st op k hk hld h8 hl hp i h1 h2 (by rw [e i h1 h2]; exact habove)
    (fun j j1 j2 => by rw [e j j1 (by omega)]; exact hfirst j j1 j2)
  rw [e i h1 h2] at this
  exact this

/-- **C142, violated**: fault-only-first loads reduce vl if the fault is not at element 0 (the manual); here they trap.
For every word of one, element 0 below the limit and a later one above it. -/
theorem C142_ff_violated (s : Sim) (hs : s.vec = true) (st : VaSt s.xlen.bits) (op : Op) (k : VmKind)
    (hk : vmKind op = some k) (hff : isFf op = true) (h8 : k.bytes = 8 → s.xlen = .rv64)
    (hl : Listed s.xlen op (wordAt st.core)) (hp : PermittedM st.core st.vec (wordAt st.core) k)
    (h64 : s.xlen.bits = 64) (h0 : st.vec.vs.vstart = 0) (i : Nat) (hi : 0 < i) (h2 : i < st.vec.vs.vl)
    (habove : st.core.limit.toNat < (elemAddr st.core (wordAt st.core) k i).toNat)
    (hfirst : ∀ j, j < i → (elemAddr st.core (wordAt st.core) k j).toNat ≤ st.core.limit.toNat) :
    GoesVm s st fun st' =>
      Raises st.core st'.core (elemAddr st.core (wordAt st.core) k i) 5#64 ∧ st'.vec.vs.vl = st.vec.vs.vl := by
  have hld : k.store = false := by
    unfold isFf at hff
    split at hff <;> first | (cases hff; done) | (obtain rfl := Option.some.inj hk; rfl)
  have e : ∀ j, BitVec.ofInt 64 (rawAddr st.core (wordAt st.core) k j) = elemAddr st.core (wordAt st.core) k j := by
    intro j
    unfold elemAddr
    have : (2 : Int) ^ s.xlen.bits = 2 ^ 64 := by rw [h64]
    rw [this, ofInt_emod64]
  obtain ⟨a, b⟩ := vm_faults s hs st op k hk hld h8 hl hp i (by omega) h2 (by rw [e i]; exact habove)
    (fun j _ j2 => by rw [e j]; exact hfirst j j2)
  refine ⟨a, fun i' size junk hf => ?_⟩
  obtain ⟨st', hst, hr, hv⟩ := b i' size junk hf
  rw [e i] at hr
  exact ⟨st', hst, hr, by rw [hv]⟩

/-- **C142, violated**: on RV32 an element whose address passes the end of the address space should be at that address
modulo 2^32.  With the limit inside of the address space the load traps instead, even if all addresses wanted are below
the limit. -/
theorem C142_wrap_violated (s : Sim) (hs : s.vec = true) (st : VaSt s.xlen.bits) (op : Op) (k : VmKind)
    (hk : vmKind op = some k) (hld : k.store = false) (h8 : k.bytes = 8 → s.xlen = .rv64) (h32 : s.xlen.bits = 32)
    (hlim : st.core.limit.toNat < 2 ^ 32)
    (hl : Listed s.xlen op (wordAt st.core)) (hp : PermittedM st.core st.vec (wordAt st.core) k)
    (i : Nat) (h1 : st.vec.vs.vstart ≤ i) (h2 : i < st.vec.vs.vl)
    (hpass : 2 ^ 32 ≤ rawAddr st.core (wordAt st.core) k i)
    (hfirst : ∀ j, st.vec.vs.vstart ≤ j → j < i → 0 ≤ rawAddr st.core (wordAt st.core) k j ∧
      rawAddr st.core (wordAt st.core) k j ≤ st.core.limit.toNat) :
    GoesVm s st fun st' => ∃ a, 2 ^ 32 ≤ a.toNat ∧ Raises st.core st'.core a 5#64 := by
  have hb : rawAddr st.core (wordAt st.core) k i < 2 ^ 64 := by
    have hf := (hp.fits i h1 h2).2
    have hx : (X st.core (rs1 (wordAt st.core))).toNat < 2 ^ 32 :=
      Nat.lt_of_lt_of_eq (X st.core (rs1 (wordAt st.core))).isLt (congrArg (fun k => 2 ^ k) h32)
    unfold rawAddr
    omega
  have e : ∀ z : Int, 0 ≤ z → z < 2 ^ 64 → ((BitVec.ofInt 64 z).toNat : Int) = z := by
    intro z a b
    rw [BitVec.toNat_ofInt, Int.toNat_of_nonneg (Int.emod_nonneg _ (by decide))]
    exact Int.emod_eq_of_lt a b
  have ei := e _ (by omega) hb
  obtain ⟨a, b⟩ := vm_faults s hs st op k hk hld h8 hl hp i h1 h2 (by omega) (fun j j1 j2 => by
    have := hfirst j j1 j2
    have := e _ this.1 (by omega)
    omega)
  refine ⟨a, fun i' size junk hf => ?_⟩
  obtain ⟨st', hst, hr, hv⟩ := b i' size junk hf
  exact ⟨st', hst, _, by omega, hr⟩

/-! ## The other instructions -/

theorem vm_other (x : Xlen) : (fn x "VlStrided").isNone = true ∧ (fn x "VsStrided").isNone = true := by
  cases x <;> decide +kernel

/-- An instruction of the smaller models is none of these. -/
theorem not_vm (s : Sim) (o : Op) (h : acts s o ≠ none ∨ vsActs s o ≠ none ∨ vaActs s o ≠ none ∨ vwActs s o ≠ none) :
    vmActs s o = none := by
  cases hc : vmActs s o with
  | none => rfl
  | some a =>
    exfalso
    unfold vmActs at hc
    unfold acts vsActs vaActs vwActs at h
    cases hf : (s.isa.instrs.find? fun i => i.name == opName o) with
    | none => rw [hf] at hc; cases hc
    | some i =>
      rw [hf, Option.bind_some] at hc h
      rw [Option.bind_some, Option.bind_some, Option.bind_some] at h
      revert hc h
      generalize i.phases = ps
      intro h hc
      obtain ⟨o1, o2⟩ := vm_other s.xlen
      rw [Option.isNone_iff_eq_none] at o1 o2
      rcases ps with _ | ⟨p, _ | ⟨q, _ | ⟨r, l⟩⟩⟩
      · cases hc
      · unfold vmPart at hc
        dsimp only at hc
        split at hc
        · rename_i c k hcc ha
          split at hc
          · rename_i hn
            rcases h with h | h | h | h
            · apply h
              simp [List.mapM_cons, act, hcc, hn, o2]
            · apply h
              show vsAct p = none
              unfold vsAct
              rw [ha]
              split
              · rename_i hx; cases hx
              · rfl
            · apply h
              show vaAct p = none
              unfold vaAct
              rw [ha]
              split
              · rename_i hx; cases hx
              · rfl
            · apply h
              show vwAct p = none
              unfold vwAct
              rw [ha]
              split
              · rename_i hx; cases hx
              · rfl
          · cases hc
        · cases hc
      · unfold vmPart at hc
        dsimp only at hc
        split at hc
        · rename_i c k d hcc ha hdc hda
          split at hc
          · rename_i hn
            rcases h with h | h | h | h
            · apply h
              simp [List.mapM_cons, act, hcc, hn.1, o1]
            · exact h rfl
            · exact h rfl
            · exact h rfl
          · cases hc
        · cases hc
      · cases hc

/-- **C142, the others**: what C139, C140 and C141 say of vsetvli and its like, the arithmetic instructions and the base
instructions holds here as well. -/
theorem C142_others {s : Sim} {st : VaSt s.xlen.bits} {Q : VaSt s.xlen.bits → Prop} (h : GoesVw s st Q)
    (hw : (∃ op k, s.vec = true ∧ vwKind op = some k ∧ Listed s.xlen op (wordAt st.core)) ∨
      (∃ op k, s.vec = true ∧ vaKind op = some k ∧ Listed s.xlen op (wordAt st.core)) ∨
      (∃ i, s.vec = true ∧ IsVs s.xlen (wordAt st.core) i) ∨
      (∃ o k, kind s.xlen o = some k ∧ Listed s.xlen o (wordAt st.core) ∧ ¬ Ntl o (wordAt st.core) ∧
        st.core.hart.branch = false ∧ st.core.hart.pc.toNat % 2 = 0 ∧
        NoOverflow st.core k (args s.xlen k (wordAt st.core)))) : GoesVm s st Q := by
  refine ⟨h.1, fun e size junk hf => ?_⟩
  obtain ⟨r, hr, hq⟩ := h.2 e size hf
  refine ⟨r, ?_, hq⟩
  unfold turnVm
  rw [not_vm s e.op]
  · exact hr
  rcases hw with ⟨op, k, hs, hk, hl⟩ | ⟨op, k, hs, hk, hl⟩ | ⟨i, hs, o, hko, hl⟩ | ⟨o, k, hk, hl, hn, hb, hpc, ho⟩
  · have hall := (decodesVw s hs op _ hk _ (readLE_lt st.core.mem _ 4) hl).2
    have hlow := listed_lowVw s.xlen op _ hk _ hl
    unfold Finds at hf
    rw [if_pos hlow] at hf
    have hok := List.all_eq_true.1 (entriesVw_ok s hs) e hf.1
    unfold okEntryVw at hok
    rw [hall e hf.1 hf.2.1, hk] at hok
    right; right; right
    intro e
    rw [e] at hok
    cases hok
  · have hall := (decodesVa s hs op _ hk _ (readLE_lt st.core.mem _ 4) hl).2
    have hlow := listed_lowVa s.xlen op _ hk _ hl
    unfold Finds at hf
    rw [if_pos hlow] at hf
    have hok := List.all_eq_true.1 (entriesVa_ok s hs) e hf.1
    unfold okEntryVa at hok
    rw [hall e hf.1 hf.2.1, hk] at hok
    right; right; left
    intro e
    rw [e] at hok
    cases hok
  · have hall := (decodesVs s hs o i hko _ (readLE_lt st.core.mem _ 4) hl).2
    have hlow := listed_lowVs s.xlen o i hko _ hl
    unfold Finds at hf
    rw [if_pos hlow] at hf
    have hok := List.all_eq_true.1 (entriesVs_ok s hs) e hf.1
    unfold okEntryVs at hok
    rw [hall e hf.1 hf.2.1, hko] at hok
    simp only [Bool.and_eq_true] at hok
    right; left
    intro e
    rw [e] at hok
    cases hok.2
  · left
    intro e0
    obtain ⟨c', hc, -⟩ := (C119_step s st.core o k hk hl hn hb hpc ho).2 e size hf
    unfold turn at hc
    rw [e0] at hc
    cases hc

/-! ## Examples -/

/-- A core about to run the word `w`, with registers of 16 bytes, elements of 4 bytes, `vl` of them, x10 = `base` and
x11 = -4. -/
def moving (w : BitVec 32) (vl : Nat) (base limit : BitVec 64) : VaSt Sim.rv64gv.xlen.bits :=
  { core := { (adding w 4 vl).core with
      regs := fun r => if r = 10#5 then base else if r = 11#5 then -4#64 else 0#64
      limit := limit }
    vec := { (adding w 4 vl).vec with vs := { (adding w 4 vl).vec.vs with vstart := 0 } } }

theorem moving_ok (w : BitVec 32) (vl : Nat) (base limit : BitVec 64) (k : VmKind) (hk : k.bytes = 4) (hvl : vl ≤ 4)
    (h3 : vdOf (wordAt (moving w vl base limit).core) = 3)
    (h4 : k.strided = true → rs2 (wordAt (moving w vl base limit).core) = 11#5) :
    PermittedM (moving w vl base limit).core (moving w vl base limit).vec (wordAt (moving w vl base limit).core) k := by
  refine ⟨⟨rfl, (show 0 < 4 by decide), ?_, ⟨?_, ?_, (show 0 < 16 by decide)⟩, 1, Or.inl rfl, Nat.mod_one _, ?_⟩, ?_⟩
  · intro m hm
    rw [List.mem_singleton, hk] at hm
    subst hm
    exact (show 4 ≤ 8 * 4 ∧ 8 * 4 ≤ 64 * 4 by decide)
  · rw [hk]; decide
  · rw [hk]; exact (show 4 ∣ 16 by decide)
  · rw [hk]; show vl * 4 ≤ 1 * 16; omega
  · intro i _ h2
    have h2 : i < vl := h2
    have hs : strideOf (moving w vl base limit).core (wordAt (moving w vl base limit).core) k = 4 ∨
        strideOf (moving w vl base limit).core (wordAt (moving w vl base limit).core) k = -4 := by
      unfold strideOf
      split
      · rename_i h
        right
        rw [h4 h]
        show (-4#64 : BitVec 64).toInt = -4
        decide
      · left; rw [hk]; rfl
    rcases hs with h | h <;> rw [h] <;> omega

/-- The word of `vle32.v v3, (x10)` (unmasked). -/
def vle32Word : BitVec 32 := 0x02056187#32
/-- `vlse32.v v3, (x10), x11` (unmasked). -/
def vlse32Word : BitVec 32 := 0x0ab56187#32
/-- `vse32.v v3, (x10), v0.t`. -/
def vse32Word : BitVec 32 := 0x000561a7#32
/-- `vle32ff.v v3, (x10)`. -/
def vle32ffWord : BitVec 32 := 0x03056187#32

/-- The range of the addresses of four elements. -/
theorem four {P : Nat → Prop} (h0 : P 0) (h1 : P 1) (h2 : P 2) (h3 : P 3) : ∀ i, i < 4 → P i := by
  intro i hi
  match i, hi with
  | 0, _ => exact h0
  | 1, _ => exact h1
  | 2, _ => exact h2
  | 3, _ => exact h3

example := C142_load_partial .rv64gv rfl (moving vle32Word 4 0x1000#64 0xffff#64) .vle32 ⟨false, 4, false⟩ rfl rfl
  (fun h => by cases h) ⟨_, rfl, by unfold Enc.assigns; decide +kernel⟩ rfl
  (moving_ok _ _ _ _ _ rfl (by decide) (by decide +kernel) (fun h => by cases h)) (Or.inl rfl) (by decide +kernel) (by decide)
  (fun i _ h => four (P := fun i => (elemAddr (moving vle32Word 4 0x1000#64 0xffff#64).core
      (wordAt (moving vle32Word 4 0x1000#64 0xffff#64).core) ⟨false, 4, false⟩ i).toNat ≤ 0xffff)
    (by decide +kernel) (by decide +kernel) (by decide +kernel) (by decide +kernel) i h)

example := C142_load_partial .rv64gv rfl (moving vlse32Word 4 0x1000#64 0xffff#64) .vlse32 ⟨false, 4, true⟩ rfl rfl
  (fun h => by cases h) ⟨_, rfl, by unfold Enc.assigns; decide +kernel⟩ rfl
  (moving_ok _ _ _ _ _ rfl (by decide) (by decide +kernel) (fun _ => by decide +kernel)) (Or.inl rfl) (by decide +kernel) (by decide)
  (fun i _ h => four (P := fun i => (elemAddr (moving vlse32Word 4 0x1000#64 0xffff#64).core
      (wordAt (moving vlse32Word 4 0x1000#64 0xffff#64).core) ⟨false, 4, true⟩ i).toNat ≤ 0xffff)
    (by decide +kernel) (by decide +kernel) (by decide +kernel) (by decide +kernel) i h)

/-- The contents of v3. -/
def v3Element (i : Nat) : BitVec (8 * 4) := VecLoop.source 16 4 (moving vse32Word 4 0x2000#64 0xffff#64).vec.regs 3 i

example := C142_store_partial .rv64gv rfl (moving vse32Word 4 0x2000#64 0xffff#64) .vse32 ⟨true, 4, false⟩ rfl rfl
  (fun h => by cases h) ⟨_, rfl, by unfold Enc.assigns; decide +kernel⟩ rfl
  (moving_ok _ _ _ _ _ rfl (by decide) (by decide +kernel) (fun h => by cases h)) (Or.inl rfl) rfl
  (fun i h => four (P := fun i => (elemAddr (moving vse32Word 4 0x2000#64 0xffff#64).core
      (wordAt (moving vse32Word 4 0x2000#64 0xffff#64).core) ⟨true, 4, false⟩ i).toNat ≤ 0xffff)
    (by decide +kernel) (by decide +kernel) (by decide +kernel) (by decide +kernel) i h)
  v3Element (fun i _ => by
    have h3 : vdOf (wordAt (moving vse32Word 4 0x2000#64 0xffff#64).core) = 3 := by decide +kernel
    rw [h3]
    exact (VecLoop.isElem_iff (by decide) (show 4 ∣ 16 by decide) (show 0 < 16 by decide) _ _ _ _).2 rfl)

/-- Element 2 is above the limit. -/
example := C142_fault_partial .rv64gv rfl (moving vle32Word 4 0x1000#64 0x1007#64) .vle32 ⟨false, 4, false⟩ rfl rfl rfl
  (fun h => by cases h) ⟨_, rfl, by unfold Enc.assigns; decide +kernel⟩
  (moving_ok _ _ _ _ _ rfl (by decide) (by decide +kernel) (fun h => by cases h)) (Or.inl rfl) 2 (by decide) (by decide)
  (by decide +kernel) (fun j _ h => by
    match j, h with
    | 0, _ => decide +kernel
    | 1, _ => decide +kernel)

example := C142_ff_violated .rv64gv rfl (moving vle32ffWord 4 0x1000#64 0x1007#64) .vle32ff ⟨false, 4, false⟩ rfl rfl
  (fun h => by cases h) ⟨_, rfl, by unfold Enc.assigns; decide +kernel⟩
  (moving_ok _ _ _ _ _ rfl (by decide) (by decide +kernel) (fun h => by cases h)) rfl rfl 2 (by decide) (by decide)
  (by decide +kernel) (fun j h => by
    match j, h with
    | 0, _ => decide +kernel
    | 1, _ => decide +kernel)

/-- The same on RV32: two elements at the end of the address space. -/
def atTheEnd : VaSt Sim.rv32gv.xlen.bits :=
  { core :=
      { hart := { Hart.Hart.init 32 true with pc := 0x1000#32 }
        regs := fun r => if r = 10#5 then 0xfffffffc#32 else 0#32
        mem := (moving vle32Word 2 0#64 0#64).core.mem
        limit := 0xffffffff#64
        hasC := true }
    vec := (moving vle32Word 2 0#64 0#64).vec }

example := C142_wrap_violated .rv32gv rfl atTheEnd .vle32 ⟨false, 4, false⟩ rfl rfl (fun h => by cases h) rfl
  (by decide) ⟨_, rfl, by unfold Enc.assigns; decide +kernel⟩
  ⟨(moving_ok vle32Word 2 0#64 0#64 ⟨false, 4, false⟩ rfl (by decide) (by decide +kernel) (fun h => by cases h)).ready,
    fun i _ h => by
      have h : i < 2 := h
      show -2 ^ 63 ≤ (i : Int) * 4 ∧ (i : Int) * 4 < 2 ^ 63
      omega⟩ 1 (by decide) (by decide) (by decide +kernel) (fun j _ h => by
    match j, h with
    | 0, _ => decide +kernel)

/-- The turn with the first matching entry. -/
def firstVm (s : Sim) (st : VaSt s.xlen.bits) : Option (VaSt s.xlen.bits) :=
  if wordAt st.core &&& 3 = 3 then
    (s.decoder.insts.find? fun i => i.matches (wordAt st.core)).bind fun i =>
      turnVm s i (wordAt st.core) 4 (fun _ => ⟨0#64, true, 0⟩) st
  else none

/-- The two loads and the store, computed: the words around 0x1000, and v3 (masked by v0) in memory. -/
example : [vle32Word, vlse32Word].map (fun w => (firstVm .rv64gv (moving w 4 0x1000#64 0xffff#64)).map fun st =>
    (List.range 8).map fun x => (st.vec.regs 3 x).toNat) =
    [some [0x87, 0x61, 0x05, 0x02, 0, 0, 0, 0], some [0x87, 0x61, 0xb5, 0x0a, 0, 0, 0, 0]] ∧
    (firstVm .rv64gv (moving vse32Word 4 0x2000#64 0xffff#64)).map (fun st =>
      (List.range 8).map fun x => (st.core.mem (0x2000#64 + BitVec.ofNat 64 x)).toNat) =
    some [49, 50, 51, 52, 0, 0, 0, 0] := by decide +kernel

end Verif.Exec
