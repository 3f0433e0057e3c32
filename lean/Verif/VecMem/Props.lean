import Verif.VecMem.Lemmas
import Verif.VecMem.Spec
namespace Verif.VecMem
open Verif.Core Verif.Mem Verif.VecState Verif.VecLoop Verif.VecLoop.Spec Spec

variable {w : Nat}

/-! ### Loads -/

theorem loadV_ok (c : Core w) (es : List Elem) (n : Nat) (epc : BitVec 64) (handled : Bool) (h : ∀ e ∈ es, e.addr.toNat ≤ c.limit.toNat) :
    loadV c es n epc handled = .value (gather c.mem es n) := by
  rw [loadV, find_none]
  rintro ⟨e, he, hl⟩
  have := h e he
  have := (ult_iff _ _).1 hl
  omega

theorem mem_elems {start num : Nat} {addr : Nat → BitVec 64} {active : Nat → Bool} {data : Nat → Nat} {e : Elem}
    (h : e ∈ elems start num addr active data) : ∃ i, start ≤ i ∧ i < num ∧ e = { addr := addr i, active := active i, data := data i } := by
  obtain ⟨j, hj, rfl⟩ := List.mem_map.mp h
  rw [List.mem_range] at hj
  exact ⟨start + j, by omega, by omega, rfl⟩

/-- The value an element receives. -/
def loaded (m : Memory) (n : Nat) (addr : Nat → BitVec 64) (active : Nat → Bool) (e : Nat) : Option (BitVec (8 * n)) :=
  if active e then some (BitVec.ofNat (8 * n) (readLE m (addr e) n)) else none

/-- The result of a load from a register boundary. -/
theorem loadGroup_spec (c : MCore w) (n vd start num : Nat) (addr : Nat → BitVec 64) (active : Nat → Bool) (epc : BitVec 64) (handled : Bool)
    (hepv : 0 < c.v.vs.vlenb / n) (hg : num ≤ groupSize vd * (c.v.vs.vlenb / n)) (hs : start % (c.v.vs.vlenb / n) = 0) (hle : start ≤ num)
    (hlim : ∀ i, start ≤ i → i < num → (addr i).toNat ≤ c.core.limit.toNat) :
    loadGroup c n vd start num (num - start) addr active epc handled
      = some (MCore.mk c.core (VCore.mk { c.v.vs with vstart := 0 }
          (updR n (c.v.vs.vlenb / n) vd (loaded c.core.mem n addr active) start num c.v.regs))) := by
  unfold loadGroup
  rw [if_neg (by omega), loadV_ok]
  · simp only [writeBack_spec c.v n vd start num _ hepv hg hs hle, Option.map_some]
    congr 2
    unfold clearVstart
    congr 1
    funext r x
    simp only [updR_pick]
    by_cases hc : vd ≤ r ∧ x / n < c.v.vs.vlenb / n ∧ start ≤ (r - vd) * (c.v.vs.vlenb / n) + x / n ∧ (r - vd) * (c.v.vs.vlenb / n) + x / n < num
    · rw [if_pos hc, if_pos hc]
      generalize (r - vd) * (c.v.vs.vlenb / n) + x / n = e at hc
      rw [gather_elems _ _ _ _ _ _ _ _ (by omega), show start + (e - start) = e by omega]
      unfold loaded
      cases active e <;> rfl
    · rw [if_neg hc, if_neg hc]
  · intro e he
    obtain ⟨i, h1, h2, rfl⟩ := mem_elems he
    exact hlim i h1 h2

theorem holds_read (m : Memory) (a : BitVec 64) (n : Nat) : Mem.Spec.Holds m a n (BitVec.ofNat (8 * n) (readLE m a n)).toNat := by
  intro i hi
  rw [BitVec.toNat_ofNat, Nat.mod_eq_of_lt (by rw [← pow_eq]; exact readLE_lt m a n)]
  exact (readLE_byte m a n i hi).symm

/-- `updR` seen through the specification. -/
theorem loaded_updR (vlenb n vd lo num : Nat) (addr : Nat → BitVec 64) (active : Nat → Bool) (P : Nat → Prop) (m : Memory) (R : VRegs)
    (hn : 0 < n) (hd : n ∣ vlenb) (hv : 0 < vlenb) (hP : ∀ i, active i = true ↔ P i) :
    Loaded vlenb n vd lo num addr P m R (updR n (vlenb / n) vd (loaded m n addr active) lo num R) := by
  have hq : 0 < vlenb / n := Nat.div_pos (Nat.le_of_dvd hv hd) hn
  constructor
  · intro i h1 h2 h3
    refine ⟨_, holds_read m (addr i) n, ?_⟩
    rw [isElem_iff hn hd hv, source_updR _ _ _ hn hq, if_pos ⟨h1, h2⟩]
    unfold loaded
    rw [if_pos ((hP i).2 h3)]
    rfl
  · intro r x hx hno
    rw [updR_pick]
    by_cases hc : vd ≤ r ∧ x / n < vlenb / n ∧ lo ≤ (r - vd) * (vlenb / n) + x / n ∧ (r - vd) * (vlenb / n) + x / n < num
    · rw [if_pos hc]
      unfold loaded
      by_cases ha : active ((r - vd) * (vlenb / n) + x / n) = true
      · exfalso
        apply hno
        refine ⟨_, ⟨hc.2.2.1, hc.2.2.2, (hP _).1 ha⟩, x % n, Nat.mod_lt _ hn, ?_⟩
        obtain ⟨p1, p2⟩ := place hn hd hv ((r - vd) * (vlenb / n) + x / n) (x % n) (Nat.mod_lt _ hn)
        have e1 : ((r - vd) * (vlenb / n) + x / n) / (vlenb / n) = r - vd := by
          rw [Nat.mul_comm, Nat.mul_add_div hq, Nat.div_eq_of_lt hc.2.1, Nat.add_zero]
        have e2 : ((r - vd) * (vlenb / n) + x / n) % (vlenb / n) = x / n := by
          rw [Nat.mul_comm, Nat.mul_add_mod, Nat.mod_eq_of_lt hc.2.1]
        rw [p1, p2, e1, e2]
        have := Nat.div_add_mod x n
        rw [Nat.mul_comm] at this
        omega
      · rw [if_neg ha]; rfl
    · rw [if_neg hc]

/-- Legal configurations pass the size checks. -/
theorem group_ok {vlenb n vd num : Nat} (hn : 0 < n) (hd : n ∣ vlenb) (h : ∃ m, (m = 1 ∨ m = 2 ∨ m = 4 ∨ m = 8) ∧ vd % m = 0 ∧ num * n ≤ m * vlenb) :
    num ≤ groupSize vd * (vlenb / n) := by
  obtain ⟨m, hm, hmod, hvl⟩ := h
  have hgs := group_size hm hmod
  have h1 : num * n ≤ groupSize vd * (vlenb / n) * n := by
    rw [Nat.mul_assoc, Nat.div_mul_cancel hd]
    exact Nat.le_trans hvl (Nat.mul_le_mul_right _ hgs)
  exact Nat.le_of_mul_le_mul_right h1 hn

theorem emul_ok {sew lmul8 n : Nat} (hs : 0 < sew) (h : sew ≤ lmul8 * n ∧ lmul8 * n ≤ 64 * sew) : ¬ (n * lmul8 / sew > 64 ∨ n * lmul8 / sew = 0) := by
  rw [Nat.mul_comm n]
  have h1 : 1 ≤ lmul8 * n / sew := (Nat.le_div_iff_mul_le hs).2 (by omega)
  have h2 : lmul8 * n / sew ≤ 64 := Nat.div_le_of_le_mul (by omega)
  omega

theorem strideAddr_eq (base stride : BitVec 64) (i : Nat) : strideAddr base stride i = strided base stride i := by
  unfold strideAddr strided
  rw [BitVec.ofInt_add, BitVec.ofInt_toInt]

/-- Strides that do not overflow the simulator's signed product. -/
def StrideFits (stride : BitVec 64) (lo num : Nat) : Prop := ∀ i : Nat, lo ≤ i → i < num → -2 ^ 63 ≤ i * stride.toInt ∧ i * stride.toInt < 2 ^ 63

theorem stride_ok {stride : BitVec 64} {lo num : Nat} (h : StrideFits stride lo num) : strideOverflows stride lo num = false := by
  unfold strideOverflows
  rw [List.any_eq_false]
  intro i hi
  rw [List.mem_range] at hi
  by_cases hl : lo ≤ i
  · have := h i hl hi
    rw [decide_eq_true hl, decide_eq_true this.1, decide_eq_true this.2]
    decide
  · rw [decide_eq_false hl]
    simp

/-- Unit stride: the stride operand is the element size, which never overflows for the vector lengths the simulator allows. -/
theorem unit_fits (n lo num : Nat) (hn : n ≤ 8) (hv : num ≤ 2 ^ 32) : StrideFits (BitVec.ofNat 64 n) lo num := by
  intro i _ h2
  have : (BitVec.ofNat 64 n).toInt = n := by
    rw [BitVec.toInt_eq_toNat_cond, BitVec.toNat_ofNat, Nat.mod_eq_of_lt (by omega), if_pos (by omega)]
  rw [this]
  have h3 : (i : Int) * n = ((i * n : Nat) : Int) := by norm_cast
  have h4 : i * n ≤ 2 ^ 32 * 8 := Nat.mul_le_mul (by omega) hn
  omega

/-- The result of a strided load from a register boundary. -/
theorem vlStrided_spec (c : MCore w) (n vd : Nat) (base stride : BitVec 64) (mask : Buf) (epc : BitVec 64) (handled : Bool)
    (hr : Ready c.v.vs [n] n vd) (hs : c.v.vs.vstart % (c.v.vs.vlenb / n) = 0) (hle : c.v.vs.vstart ≤ c.v.vs.vl)
    (hf : StrideFits stride c.v.vs.vstart c.v.vs.vl)
    (hlim : ∀ i, c.v.vs.vstart ≤ i → i < c.v.vs.vl → (strided base stride i).toNat ≤ c.core.limit.toNat) :
    vlStrided c n vd base stride mask epc handled
        = some (MCore.mk c.core (VCore.mk { c.v.vs with vstart := 0 }
          (updR n (c.v.vs.vlenb / n) vd (loaded c.core.mem n (strided base stride) (maskBit mask)) c.v.vs.vstart c.v.vs.vl c.v.regs))) := by
  obtain ⟨hok, hsew, hemul, ⟨hn, hd, hv⟩, hg⟩ := hr
  have hq : 0 < c.v.vs.vlenb / n := Nat.div_pos (Nat.le_of_dvd hv hd) hn
  have ha : strideAddr base stride = strided base stride := by funext i; exact strideAddr_eq _ _ _
  unfold vlStrided
  simp only
  rw [if_neg (by omega), if_neg (emul_ok hsew (hemul n (by simp))), stride_ok hf, ha]
  simp only [Bool.false_eq_true, if_false]
  exact loadGroup_spec c n vd _ _ _ _ epc handled hq (group_ok hn hd hg) hs hle hlim

/-- **C49 (unit-stride and strided loads), partial.** With vstart at a register boundary and no element address (active or not) above
the limit, the load puts the memory bytes at `base + i*stride` in every active element `i`, changes no other register byte and no memory, and
clears vstart.  Missing: other values of vstart (`C51_load_violated`), inactive elements above the limit (`C49_masked_violated`), products that
overflow 64 bits. -/
theorem C49_load_partial (c : MCore w) (n vd : Nat) (base stride : BitVec 64) (vm : Bool) (epc : BitVec 64) (handled : Bool)
    (hr : Ready c.v.vs [n] n vd) (hs : c.v.vs.vstart % (c.v.vs.vlenb / n) = 0) (hle : c.v.vs.vstart ≤ c.v.vs.vl)
    (hf : StrideFits stride c.v.vs.vstart c.v.vs.vl)
    (hlim : ∀ i, c.v.vs.vstart ≤ i → i < c.v.vs.vl → (strided base stride i).toNat ≤ c.core.limit.toNat) :
    ∃ c', vlStrided c n vd base stride (maskOf c.v.regs vm) epc handled = some c' ∧ c'.core = c.core ∧ c'.v.vs = { c.v.vs with vstart := 0 }
      ∧ Loaded c.v.vs.vlenb n vd c.v.vs.vstart c.v.vs.vl (strided base stride) (Active c.v.regs vm) c.core.mem c.v.regs c'.v.regs := by
  have hr' := hr
  obtain ⟨hok, hsew, hemul, ⟨hn, hd, hv⟩, hg⟩ := hr
  exact ⟨_, vlStrided_spec c n vd base stride _ epc handled hr' hs hle hf hlim, rfl, rfl,
    loaded_updR _ _ _ _ _ _ _ _ _ _ hn hd hv (maskBit_iff _ _)⟩

/-- **C49 (faulting load).** If some element address is above the limit the load raises a load access fault for the first of them and changes no
vector register and no memory. -/
theorem C49_load_fault (c : MCore w) (n vd : Nat) (base stride : BitVec 64) (vm : Bool) (epc : BitVec 64) (handled : Bool)
    (hr : Ready c.v.vs [n] n vd) (hf : StrideFits stride c.v.vs.vstart c.v.vs.vl)
    (i : Nat) (h1 : c.v.vs.vstart ≤ i) (h2 : i < c.v.vs.vl) (habove : c.core.limit.toNat < (strided base stride i).toNat)
    (hfirst : ∀ j, c.v.vs.vstart ≤ j → j < i → (strided base stride j).toNat ≤ c.core.limit.toNat) :
    ∃ c', vlStrided c n vd base stride (maskOf c.v.regs vm) epc handled = some c'
      ∧ Mem.Spec.Raises c.core c'.core (strided base stride i) 5#64 epc handled
      ∧ c'.v = { c.v with vs := { c.v.vs with vstart := 0 } } := by
  obtain ⟨hok, hsew, hemul, ⟨hn, hd, hv⟩, hg⟩ := hr
  have ha : strideAddr base stride = strided base stride := by funext i; exact strideAddr_eq _ _ _
  unfold vlStrided
  simp only
  rw [if_neg (by omega), if_neg (emul_ok hsew (hemul n (by simp))), stride_ok hf, ha]
  simp only [Bool.false_eq_true, if_false]
  unfold loadGroup
  rw [if_neg (by omega), loadV]
  have hfind : (elems c.v.vs.vstart c.v.vs.vl (strided base stride) (maskBit (maskOf c.v.regs vm)) fun _ => 0).find? (fun e => c.core.limit.ult e.addr)
      = some { addr := strided base stride i, active := maskBit (maskOf c.v.regs vm) i, data := 0 } := by
    rw [List.find?_eq_some_iff_append]
    refine ⟨(ult_iff _ _).2 habove, elems c.v.vs.vstart i (strided base stride) (maskBit (maskOf c.v.regs vm)) (fun _ => 0),
      elems (i + 1) c.v.vs.vl (strided base stride) (maskBit (maskOf c.v.regs vm)) (fun _ => 0), ?_, ?_⟩
    · unfold elems
      rw [show c.v.vs.vl - c.v.vs.vstart = (i - c.v.vs.vstart) + (1 + (c.v.vs.vl - (i + 1))) by omega, List.range_add, List.range_add,
        List.map_append, List.map_append, List.map_append]
      simp only [List.map_map]
      congr 1
      simp only [List.range_one, List.map_cons, List.map_nil, List.cons_append, List.nil_append]
      congr 1
      · simp only [Function.comp, Nat.add_zero, show c.v.vs.vstart + (i - c.v.vs.vstart) = i by omega]
      · apply List.map_congr_left
        intro j _
        simp only [Function.comp, show c.v.vs.vstart + (i - c.v.vs.vstart + (1 + j)) = i + 1 + j by omega]
    · intro e he
      obtain ⟨j, j1, j2, rfl⟩ := mem_elems he
      have := hfirst j j1 j2
      show (!c.core.limit.ult (strided base stride j)) = true
      cases hu : c.core.limit.ult (strided base stride j)
      · rfl
      · have := (ult_iff _ _).1 hu; omega
  rw [hfind]
  exact ⟨_, rfl, rfl, rfl⟩

/-- **C49 (indexed loads), partial**: vstart = 0; the address of element `i` is the base plus the zero-extended index element. -/
theorem C49_indexed_load_partial (c : MCore w) (ni vd vidx : Nat) (base : BitVec 64) (vm : Bool) (epc : BitVec 64) (handled : Bool)
    (hr : Ready c.v.vs [ni] c.v.vs.sew vd) (hi : 0 < ni ∧ ni ∣ c.v.vs.vlenb) (hs : c.v.vs.vstart = 0)
    (idx : Nat → BitVec (8 * ni)) (hidx : ∀ i, i < c.v.vs.vl → IsElem c.v.vs.vlenb ni c.v.regs vidx i (idx i))
    (hlim : ∀ i, i < c.v.vs.vl → (base + (idx i).setWidth 64).toNat ≤ c.core.limit.toNat) :
    ∃ c', vlIndexed c ni vd vidx base (maskOf c.v.regs vm) epc handled = some c' ∧ c'.core = c.core ∧ c'.v.vs = { c.v.vs with vstart := 0 }
      ∧ Loaded c.v.vs.vlenb c.v.vs.sew vd 0 c.v.vs.vl (fun i => base + (idx i).setWidth 64) (Active c.v.regs vm) c.core.mem c.v.regs c'.v.regs := by
  obtain ⟨hok, hsew, hemul, ⟨hn, hd, hv⟩, hg⟩ := hr
  have hq : 0 < c.v.vs.vlenb / c.v.vs.sew := Nat.div_pos (Nat.le_of_dvd hv hd) hn
  have hsrc : ∀ i, i < c.v.vs.vl → source c.v.vs.vlenb ni c.v.regs vidx i = idx i := fun i h => (isElem_iff hi.1 hi.2 hv _ _ _ _).1 (hidx i h)
  unfold vlIndexed
  simp only
  have hl := loadGroup_spec c c.v.vs.sew vd 0 c.v.vs.vl (fun i => base + (source c.v.vs.vlenb ni c.v.regs vidx i).setWidth 64)
    (maskBit (maskOf c.v.regs vm)) epc handled hq (group_ok hn hd hg) (Nat.zero_mod _) (Nat.zero_le _)
    (fun i _ h => by simp only [hsrc i h]; exact hlim i h)
  rw [if_neg (by omega), if_neg (emul_ok hsew (hemul ni (by simp))), hs]
  rw [Nat.sub_zero] at hl
  rw [hl]
  obtain ⟨l1, l2⟩ := loaded_updR c.v.vs.vlenb c.v.vs.sew vd 0 c.v.vs.vl (fun i => base + (source c.v.vs.vlenb ni c.v.regs vidx i).setWidth 64)
    (maskBit (maskOf c.v.regs vm)) (Active c.v.regs vm) c.core.mem c.v.regs hn hd hv (maskBit_iff _ _)
  refine ⟨_, rfl, rfl, rfl, fun i h1 h2 h3 => ?_, l2⟩
  have := l1 i h1 h2 h3
  simp only [hsrc i h2] at this
  exact this

/-- **C49 (whole register loads).** All bytes of the registers `vd` to `vd + nr - 1` come from consecutive memory bytes, whatever vl, vstart,
vtype and the mask are. -/
theorem C49_whole_register_load (c : MCore w) (nr n vd : Nat) (base : BitVec 64) (epc : BitVec 64) (handled : Bool)
    (hn : 0 < n ∧ n ∣ c.v.vs.vlenb ∧ 0 < c.v.vs.vlenb) (hnr : nr = 1 ∨ nr = 2 ∨ nr = 4 ∨ nr = 8) (hvd : vd % nr = 0)
    (hlim : ∀ i, i < nr * c.v.vs.vlenb → (base + BitVec.ofNat 64 i).toNat ≤ c.core.limit.toNat) :
    ∃ c', vlRegister c nr n vd base epc handled = some c' ∧ c'.core = c.core ∧ c'.v.vs = { c.v.vs with vstart := 0 }
      ∧ (∀ k x, k < nr → x < c.v.vs.vlenb → c'.v.regs (vd + k) x = c.core.mem (base + BitVec.ofNat 64 (k * c.v.vs.vlenb + x)))
      ∧ (∀ r x, r < vd ∨ vd + nr ≤ r → c'.v.regs r x = c.v.regs r x) := by
  obtain ⟨hn, hd, hv⟩ := hn
  have hq : 0 < c.v.vs.vlenb / n := Nat.div_pos (Nat.le_of_dvd hv hd) hn
  obtain ⟨q, hqe⟩ := hd
  have hvl : c.v.vs.vlenb / n = q := by rw [hqe]; exact Nat.mul_div_cancel_left _ hn
  have hnum : c.v.vs.vlenb * nr / n = nr * q := by rw [hqe, Nat.mul_assoc, Nat.mul_div_cancel_left _ hn, Nat.mul_comm]
  unfold vlRegister
  simp only
  rw [if_neg (by omega)]
  have hl := loadGroup_spec c n vd 0 (c.v.vs.vlenb * nr / n) (fun i => base + BitVec.ofNat 64 (i * n)) (fun _ => true) epc handled hq
    (by rw [hnum, hvl]; exact Nat.mul_le_mul_right _ (group_size hnr hvd)) (Nat.zero_mod _) (Nat.zero_le _)
    (fun i _ h => hlim (i * n) (by
      rw [hnum] at h
      rw [hqe, show nr * (n * q) = nr * q * n by rw [Nat.mul_comm n q, Nat.mul_assoc]]
      exact Nat.mul_lt_mul_of_pos_right h hn))
  rw [Nat.sub_zero] at hl
  rw [hl, hnum, hvl]
  refine ⟨_, rfl, rfl, rfl, ?_, ?_⟩
  · intro k x hk hx
    have hxq : x / n < q := by rw [Nat.div_lt_iff_lt_mul hn, Nat.mul_comm, ← hqe]; exact hx
    have hkq : k * q + q ≤ nr * q := by
      have := Nat.mul_le_mul_right q (show k + 1 ≤ nr from hk); rw [Nat.add_mul, Nat.one_mul] at this; exact this
    simp only [updR_pick, Nat.add_sub_cancel_left]
    rw [if_pos ⟨by omega, hxq, Nat.zero_le _, by omega⟩]
    unfold loaded pick
    simp only [if_true]
    have hb := holds_read c.core.mem (base + BitVec.ofNat 64 ((k * q + x / n) * n)) n (x % n) (Nat.mod_lt _ hn)
    apply BitVec.eq_of_toNat_eq
    rw [BitVec.extractLsb'_toNat, Nat.shiftRight_eq_div_pow]
    unfold Mem.Spec.byteOf at hb
    rw [pow_eq] at hb
    rw [show (2 : Nat) ^ 8 = 256 from rfl, ← hb, BitVec.add_assoc, ← BitVec.ofNat_add]
    congr 4
    rw [hqe, Nat.add_mul, Nat.mul_assoc, Nat.mul_comm q n, Nat.add_assoc]
    congr 1
    have := Nat.div_add_mod x n
    rw [Nat.mul_comm] at this
    exact this
  · intro r x hr
    simp only [updR_pick]
    rw [if_neg]
    rintro ⟨d1, d2, d3, d4⟩
    have : nr * q ≤ (r - vd) * q := Nat.mul_le_mul_right _ (by omega)
    generalize x / n = y at d2 d3 d4
    omega

/-- **C49 (mask load), partial**: vstart = 0; ceil(vl/8) bytes are loaded. -/
theorem C49_mask_load_partial (c : MCore w) (vd : Nat) (base : BitVec 64) (epc : BitVec 64) (handled : Bool)
    (hs : c.v.vs.vstart = 0) (hvl : 0 < c.v.vs.vl ∧ c.v.vs.vl ≤ 8 * c.v.vs.vlenb)
    (hlim : ∀ i, i < (c.v.vs.vl + 7) / 8 → (base + BitVec.ofNat 64 i).toNat ≤ c.core.limit.toNat) :
    ∃ c', vlm c vd base epc handled = some c' ∧ c'.core = c.core ∧ c'.v.vs = { c.v.vs with vstart := 0 }
      ∧ (∀ x, x < (c.v.vs.vl + 7) / 8 → c'.v.regs vd x = c.core.mem (base + BitVec.ofNat 64 x))
      ∧ (∀ r x, (r ≠ vd ∨ (c.v.vs.vl + 7) / 8 ≤ x) → c'.v.regs r x = c.v.regs r x) := by
  have hv : 0 < c.v.vs.vlenb := by omega
  unfold vlm
  simp only [hs]
  rw [if_neg (by omega)]
  have hl := loadGroup_spec c 1 vd 0 ((c.v.vs.vl + 7) / 8) (fun i => base + BitVec.ofNat 64 i) (fun _ => true) epc handled (by omega)
    (by
      rw [Nat.div_one]
      have h1 : 1 ≤ groupSize vd := group_size (Or.inl rfl) (Nat.mod_one _)
      have := Nat.mul_le_mul_right c.v.vs.vlenb h1
      omega)
    (Nat.zero_mod _) (Nat.zero_le _) (fun i _ h => hlim i h)
  rw [hl, Nat.div_one]
  refine ⟨_, rfl, rfl, rfl, ?_, ?_⟩
  · intro x hx
    simp only [updR_pick, Nat.sub_self, Nat.div_one]
    rw [if_pos ⟨by omega, by omega, by omega, by omega⟩]
    unfold loaded pick
    simp only [if_true, Nat.zero_mul, Nat.zero_add]
    have hb := holds_read c.core.mem (base + BitVec.ofNat 64 x) 1 0 (by omega)
    apply BitVec.eq_of_toNat_eq
    rw [BitVec.extractLsb'_toNat, Nat.shiftRight_eq_div_pow]
    unfold Mem.Spec.byteOf at hb
    rw [pow_eq] at hb
    rw [show (2 : Nat) ^ 8 = 256 from rfl, Nat.mod_one, ← hb]
    simp
  · intro r x hr
    simp only [updR_pick]
    rw [if_neg]
    rintro ⟨d1, d2, d3, d4⟩
    rw [Nat.div_one] at *
    rcases hr with hr | hr
    · have : 1 * c.v.vs.vlenb ≤ (r - vd) * c.v.vs.vlenb := Nat.mul_le_mul_right _ (by omega)
      omega
    · omega

/-! ### Restarting loads -/

/-- The same machine with another vstart. -/
def withVstart (c : MCore w) (k : Nat) : MCore w := { c with v := { c.v with vs := { c.v.vs with vstart := k } } }

/-- **C51 (loads), partial.** If `k` is a multiple of the number of elements per register, starting at `k` gives elements from `k` on the same
values as starting at 0, and leaves those below `k` alone.  Missing: other `k` (`C51_load_violated`). -/
theorem C51_load_partial (c : MCore w) (k n vd : Nat) (base stride : BitVec 64) (vm : Bool) (epc : BitVec 64) (handled : Bool)
    (hr : Ready c.v.vs [n] n vd) (hs : k % (c.v.vs.vlenb / n) = 0) (hle : k ≤ c.v.vs.vl)
    (hf : StrideFits stride 0 c.v.vs.vl) (hlim : ∀ i, i < c.v.vs.vl → (strided base stride i).toNat ≤ c.core.limit.toNat) :
    ∃ ck c0, vlStrided (withVstart c k) n vd base stride (maskOf c.v.regs vm) epc handled = some ck
      ∧ vlStrided (withVstart c 0) n vd base stride (maskOf c.v.regs vm) epc handled = some c0
      ∧ (∀ i v, k ≤ i → i < c.v.vs.vl → (IsElem c.v.vs.vlenb n ck.v.regs vd i v ↔ IsElem c.v.vs.vlenb n c0.v.regs vd i v))
      ∧ (∀ i v, i < k → (IsElem c.v.vs.vlenb n ck.v.regs vd i v ↔ IsElem c.v.vs.vlenb n c.v.regs vd i v))
      ∧ ck.core = c0.core ∧ ck.v.vs = c0.v.vs := by
  obtain ⟨hok, hsew, hemul, ⟨hn, hd, hv⟩, hg⟩ := hr
  have hq : 0 < c.v.vs.vlenb / n := Nat.div_pos (Nat.le_of_dvd hv hd) hn
  have ha : strideAddr base stride = strided base stride := by funext i; exact strideAddr_eq _ _ _
  have key : ∀ k, k % (c.v.vs.vlenb / n) = 0 → k ≤ c.v.vs.vl →
      vlStrided (withVstart c k) n vd base stride (maskOf c.v.regs vm) epc handled
        = some (MCore.mk c.core (VCore.mk { c.v.vs with vstart := 0 }
          (updR n (c.v.vs.vlenb / n) vd (loaded c.core.mem n (strided base stride) (maskBit (maskOf c.v.regs vm))) k c.v.vs.vl c.v.regs))) :=
    fun k hs hle => vlStrided_spec (withVstart c k) n vd base stride _ epc handled ⟨hok, hsew, hemul, ⟨hn, hd, hv⟩, hg⟩ hs hle
      (fun i _ h2 => hf i (by omega) h2) (fun i _ h => hlim i h)
  refine ⟨_, _, key k hs hle, key 0 (Nat.zero_mod _) (Nat.zero_le _), ?_, ?_, rfl, rfl⟩
  · intro i v h1 h2
    rw [isElem_iff hn hd hv, isElem_iff hn hd hv, source_updR _ _ _ hn hq, source_updR _ _ _ hn hq, if_pos ⟨h1, h2⟩, if_pos ⟨by omega, h2⟩]
  · intro i v h1
    rw [isElem_iff hn hd hv, isElem_iff hn hd hv, source_updR _ _ _ hn hq, if_neg (by omega)]

/-- **C51 (indexed loads) is violated for every vstart other than 0**: an indexed load that could be performed writes no register and sets the vector
exception. -/
theorem C51_indexed_load_violated (c : MCore w) (ni vd vidx : Nat) (base : BitVec 64) (vm : Bool) (epc : BitVec 64) (handled : Bool)
    (hr : Ready c.v.vs [ni] c.v.vs.sew vd) (hs : 0 < c.v.vs.vstart ∧ c.v.vs.vstart ≤ c.v.vs.vl)
    (hlim : ∀ i, c.v.vs.vstart ≤ i → i < c.v.vs.vl → (base + (source c.v.vs.vlenb ni c.v.regs vidx i).setWidth 64).toNat ≤ c.core.limit.toNat) :
    vlIndexed c ni vd vidx base (maskOf c.v.regs vm) epc handled
      = some (MCore.mk c.core (VCore.mk { c.v.vs with vstart := 0, exception := true } c.v.regs)) := by
  obtain ⟨hok, hsew, hemul, ⟨hn, hd, hv⟩, hg⟩ := hr
  have hq : 0 < c.v.vs.vlenb / c.v.vs.sew := Nat.div_pos (Nat.le_of_dvd hv hd) hn
  unfold vlIndexed
  simp only
  rw [if_neg (by omega), if_neg (emul_ok hsew (hemul ni (by simp)))]
  unfold loadGroup
  rw [if_neg (by omega), loadV_ok _ _ _ _ _ (fun e he => by obtain ⟨i, h1, h2, rfl⟩ := mem_elems he; exact hlim i h1 h2)]
  simp only [writeBack]
  rw [if_neg (by omega)]
  have : (c.v.vs.vl : Int) - c.v.vs.vstart ≠ c.v.vs.vl := by omega
  simp only [if_pos this, ite_self, Option.map_some]
  rfl

/-! ### Witnesses -/

/-- VLEN = 128, SEW = 32, LMUL = 1, vl = 4; memory byte `a` holds `a`. -/
def vcfg : VState := { vlenb := 16, vtype := 0x10#32, vl := 4, vmax := 4, lmul8 := 8, sew := 4 }
def mc : MCore 64 :=
  { core := { Mem.sample with mem := fun a => a.setWidth 8, limit := 0x1000#64 }, v := { vs := vcfg, regs := fun r x => BitVec.ofNat 8 (16 * r + x) } }

theorem ready_vcfg : Ready vcfg [4] 4 2 :=
  ⟨rfl, by decide, by intro n hn; simp at hn; subst hn; decide, ⟨by decide, ⟨4, rfl⟩, by decide⟩, 1, Or.inl rfl, rfl, by decide⟩

/-- The hypotheses of `C49_load_partial` and `C51_load_partial` are met: a strided load with a negative stride. -/
example : ∃ c', vlStrided mc 4 2 0x100#64 (BitVec.ofInt 64 (-8)) (maskOf mc.v.regs true) 0#64 false = some c' ∧ c'.core = mc.core
    ∧ IsElem 16 4 c'.v.regs 2 3 0xebeae9e8#32 := by
  obtain ⟨c', h1, h2, _, h4, _⟩ := C49_load_partial mc 4 2 0x100#64 (BitVec.ofInt 64 (-8)) true 0#64 false ready_vcfg (by decide) (by decide)
    (by intro i _ h; have : i = 0 ∨ i = 1 ∨ i = 2 ∨ i = 3 := by change i < 4 at h; omega
        rcases this with rfl | rfl | rfl | rfl <;> decide)
    (by intro i _ h; have : i = 0 ∨ i = 1 ∨ i = 2 ∨ i = 3 := by change i < 4 at h; omega
        rcases this with rfl | rfl | rfl | rfl <;> decide)
  refine ⟨c', h1, h2, ?_⟩
  obtain ⟨v, hv, he⟩ := h4 3 (by decide) (by decide) (Or.inl rfl)
  have : v = 0xebeae9e8#32 := by
    have b0 := hv 0 (by decide); have b1 := hv 1 (by decide); have b2 := hv 2 (by decide); have b3 := hv 3 (by decide)
    apply BitVec.eq_of_toNat_eq
    have hlt : v.toNat < 2 ^ 32 := v.isLt
    have e0 : (mc.core.mem (strided 0x100#64 (BitVec.ofInt 64 (-8)) 3 + BitVec.ofNat 64 0)).toNat = 0xe8 := by decide
    have e1 : (mc.core.mem (strided 0x100#64 (BitVec.ofInt 64 (-8)) 3 + BitVec.ofNat 64 1)).toNat = 0xe9 := by decide
    have e2 : (mc.core.mem (strided 0x100#64 (BitVec.ofInt 64 (-8)) 3 + BitVec.ofNat 64 2)).toNat = 0xea := by decide
    have e3 : (mc.core.mem (strided 0x100#64 (BitVec.ofInt 64 (-8)) 3 + BitVec.ofNat 64 3)).toNat = 0xeb := by decide
    unfold Mem.Spec.byteOf at b0 b1 b2 b3
    rw [e0] at b0; rw [e1] at b1; rw [e2] at b2; rw [e3] at b3
    show v.toNat = 0xebeae9e8
    omega
  rw [← this]; exact he

/-- **C49/C26.** A masked-off element above the limit makes the load fault: element 3 is inactive and its address is 0x1004. -/
theorem C49_masked_violated :
    ∃ c', vlStrided mc 4 2 0xff8#64 4#64 (fun _ => 0x07#8) 0#64 false = some c'
      ∧ c'.core = raise mc.core 0x1004#64 5#64 0#64 false ∧ ∀ r x, c'.v.regs r x = mc.v.regs r x :=
  ⟨_, rfl, rfl, fun _ _ => rfl⟩

/-- **C51 (loads) is violated**: VLEN = 128, SEW = 32, vl = 4, unit stride from 0x10.  Started at 0, element 1 is the word at 0x14.  Started at 1,
element 1 receives the word at 0x18 and element 3 nothing. -/
theorem C51_load_violated :
    ∃ c1 c0, vlStrided (withVstart mc 1) 4 2 0x10#64 4#64 (maskOf mc.v.regs true) 0#64 false = some c1
      ∧ vlStrided (withVstart mc 0) 4 2 0x10#64 4#64 (maskOf mc.v.regs true) 0#64 false = some c0
      ∧ source 16 4 c0.v.regs 2 1 = 0x17161514#32 ∧ source 16 4 c1.v.regs 2 1 = 0x1b1a1918#32
      ∧ source 16 4 c0.v.regs 2 3 = 0x1f1e1d1c#32 ∧ source 16 4 c1.v.regs 2 3 = source 16 4 mc.v.regs 2 3 :=
  ⟨_, _, rfl, rfl, by decide, by decide, by decide, by decide⟩

end Verif.VecMem
