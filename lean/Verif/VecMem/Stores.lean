import Verif.VecMem.Props
/-
C49, C51: vector stores.
-/
namespace Verif.VecMem
open Verif.Core Verif.Mem Verif.VecState Verif.VecLoop Verif.VecLoop.Spec Spec

variable {w : Nat}

theorem storeV_ok (c : Core w) (es : List Elem) (n : Nat) (epc : BitVec 64) (handled : Bool) (h : ∀ e ∈ es, e.addr.toNat ≤ c.limit.toNat) :
    storeV c es n epc handled = { c with mem := scatter c.mem es n } := by
  rw [storeV, find_none]
  rintro ⟨e, he, hl⟩
  have := h e he
  have := (ult_iff _ _).1 hl
  omega

theorem elems_succ (lo num : Nat) (addr : Nat → BitVec 64) (active : Nat → Bool) (data : Nat → Nat) (h : lo ≤ num) :
    elems lo (num + 1) addr active data = elems lo num addr active data ++ [{ addr := addr num, active := active num, data := data num }] := by
  unfold elems
  rw [show num + 1 - lo = (num - lo) + 1 by omega, List.range_succ, List.map_append]
  simp only [List.map_cons, List.map_nil, show lo + (num - lo) = num by omega]

/-- Writing elements in order. -/
theorem scatter_stored (m : Memory) (n lo num : Nat) (hn : n ≤ 2 ^ 64) (addr : Nat → BitVec 64) (active : Nat → Bool) (data : Nat → Nat)
    (P : Nat → Prop) (hP : ∀ i, active i = true ↔ P i) (h : lo ≤ num) :
    Stored n lo num addr P data m (scatter m (elems lo num addr active data) n) := by
  induction num with
  | zero =>
    intro b
    right
    refine ⟨fun i _ h => by omega, ?_⟩
    unfold elems
    rw [Nat.zero_sub]
    rfl
  | succ num ih =>
    by_cases hlo : lo = num + 1
    · subst hlo
      intro b
      right
      refine ⟨fun i _ _ => by omega, ?_⟩
      unfold elems
      rw [Nat.sub_self]
      rfl
    have ih := ih (by omega)
    rw [elems_succ _ _ _ _ _ (by omega)]
    unfold scatter at ih ⊢
    rw [List.foldl_append, List.foldl_cons, List.foldl_nil]
    generalize (elems lo num addr active data).foldl (fun m e => if e.active = true then writeLE m e.addr n e.data else m) m = m1 at ih
    show Stored n lo (num + 1) addr P data m (if active num = true then writeLE m1 (addr num) n (data num) else m1)
    intro b
    by_cases ha : active num = true
    · rw [if_pos ha]
      by_cases hin : Mem.Spec.InRange (addr num) n b
      · obtain ⟨k, hk, rfl⟩ := hin
        left
        refine ⟨num, k, by omega, by omega, (hP _).1 ha, hk, rfl, ?_, fun j _ _ => by omega⟩
        rw [writeLE_byte _ _ _ _ _ hn hk, BitVec.toNat_ofNat]
        rfl
      · have hfr : writeLE m1 (addr num) n (data num) b = m1 b := by
          apply writeLE_frame _ _ _ _ hn
          apply Nat.le_of_not_lt
          intro hlt
          apply hin
          refine ⟨(b - addr num).toNat, hlt, ?_⟩
          rw [BitVec.ofNat_toNat, BitVec.setWidth_eq, BitVec.add_comm, BitVec.sub_add_cancel]
        rw [hfr]
        rcases ih b with ⟨i, k, h1, h2, h3, h4, h5, h6, h7⟩ | ⟨h1, h2⟩
        · left
          refine ⟨i, k, h1, by omega, h3, h4, h5, h6, fun j j1 j2 j3 => ?_⟩
          by_cases hj : j = num
          · subst hj; exact hin
          · exact h7 j j1 (by omega) j3
        · right
          refine ⟨fun i i1 i2 i3 => ?_, h2⟩
          by_cases hj : i = num
          · subst hj; exact hin
          · exact h1 i i1 (by omega) i3
    · rw [if_neg ha]
      have hnp : ¬ P num := fun hp => ha ((hP _).2 hp)
      rcases ih b with ⟨i, k, h1, h2, h3, h4, h5, h6, h7⟩ | ⟨h1, h2⟩
      · left
        refine ⟨i, k, h1, by omega, h3, h4, h5, h6, fun j j1 j2 j3 => ?_⟩
        by_cases hj : j = num
        · subst hj; exact absurd j3 hnp
        · exact h7 j j1 (by omega) j3
      · right
        refine ⟨fun i i1 i2 i3 => ?_, h2⟩
        by_cases hj : i = num
        · subst hj; exact absurd i3 hnp
        · exact h1 i i1 (by omega) i3

theorem scatter_none (m : Memory) (js : List Elem) (n : Nat) (h : ∀ e ∈ js, e.active = false) : scatter m js n = m := by
  unfold scatter
  induction js generalizing m with
  | nil => rfl
  | cons e js ih =>
    rw [List.foldl_cons, h e (by simp)]
    exact ih _ (fun e he => h e (List.mem_cons_of_mem _ he))

theorem scatter_inactive (m : Memory) (es js : List Elem) (n : Nat) (h : ∀ e ∈ js, e.active = false) : scatter m (es ++ js) n = scatter m es n := by
  have : scatter m (es ++ js) n = scatter (scatter m es n) js n := by unfold scatter; rw [List.foldl_append]
  rw [this, scatter_none _ _ _ h]

/-- `Stored` only depends on the values of the elements involved. -/
theorem stored_congr {n lo num : Nat} {addr addr' : Nat → BitVec 64} {P : Nat → Prop} {v v' : Nat → Nat} {m m' : Memory}
    (ha : ∀ i, lo ≤ i → i < num → addr i = addr' i) (hv : ∀ i, lo ≤ i → i < num → v i = v' i) (h : Stored n lo num addr P v m m') :
    Stored n lo num addr' P v' m m' := by
  intro b
  rcases h b with ⟨i, k, h1, h2, h3, h4, h5, h6, h7⟩ | ⟨h1, h2⟩
  · left
    refine ⟨i, k, h1, h2, h3, h4, ?_, ?_, fun j j1 j2 j3 => ?_⟩
    · rw [← ha i h1 h2]; exact h5
    · rw [← hv i h1 h2]; exact h6
    · rw [← ha j (by omega) j2]; exact h7 j j1 j2 j3
  · right
    exact ⟨fun i i1 i2 i3 => by rw [← ha i i1 i2]; exact h1 i i1 i2 i3, h2⟩

/-- **C51 (stores), partial.** The unused tail of the store buffers (there is one when vstart is not 0) has to be harmless: inactive and below the
limit.  Then the store writes exactly the active elements from vstart on.  Missing: other contents (`C51_store_violated`). -/
theorem C51_store_partial (c : MCore w) (n vs3 : Nat) (base stride : BitVec 64) (vm : Bool) (junk : Nat → Elem) (epc : BitVec 64) (handled : Bool)
    (hn8 : n ≤ 8) (hr : Ready c.v.vs [n] n vs3) (hle : c.v.vs.vstart ≤ c.v.vs.vl) (hf : StrideFits stride c.v.vs.vstart c.v.vs.vl)
    (hlim : ∀ i, c.v.vs.vstart ≤ i → i < c.v.vs.vl → (strided base stride i).toNat ≤ c.core.limit.toNat)
    (hjunk : ∀ j, c.v.vs.vl - c.v.vs.vstart ≤ j → j < c.v.vs.vl → (junk j).active = false ∧ (junk j).addr.toNat ≤ c.core.limit.toNat)
    (val : Nat → BitVec (8 * n)) (hval : ∀ i, i < c.v.vs.vl → IsElem c.v.vs.vlenb n c.v.regs vs3 i (val i)) :
    ∃ c' m', vsStrided c n vs3 base stride (maskOf c.v.regs vm) junk epc handled = some c' ∧ c'.core = { c.core with mem := m' }
      ∧ c'.v = { c.v with vs := { c.v.vs with vstart := 0 } }
      ∧ Stored n c.v.vs.vstart c.v.vs.vl (strided base stride) (Active c.v.regs vm) (fun i => (val i).toNat) c.core.mem m' := by
  obtain ⟨hok, hsew, hemul, ⟨hn, hd, hv⟩, hg⟩ := hr
  have ha : strideAddr base stride = strided base stride := by funext i; exact strideAddr_eq _ _ _
  unfold vsStrided
  simp only
  rw [if_neg (by omega), if_neg (emul_ok hsew (hemul n (by simp))), stride_ok hf, ha]
  simp only [Bool.false_eq_true, if_false]
  generalize hes : (List.range c.v.vs.vl).map (fun j => if c.v.vs.vstart + j < c.v.vs.vl then _ else junk j) = es
  have hsplit : es = elems c.v.vs.vstart c.v.vs.vl (strided base stride) (maskBit (maskOf c.v.regs vm))
        (fun i => (source c.v.vs.vlenb n c.v.regs vs3 i).toNat)
      ++ (List.range c.v.vs.vstart).map fun j => junk (c.v.vs.vl - c.v.vs.vstart + j) := by
    rw [← hes]
    conv => lhs; rw [show c.v.vs.vl = (c.v.vs.vl - c.v.vs.vstart) + c.v.vs.vstart by omega]
    rw [List.range_add, List.map_append, List.map_map]
    unfold elems
    congr 1
    · apply List.map_congr_left
      intro j hj
      rw [List.mem_range] at hj
      rw [if_pos (by omega)]
    · apply List.map_congr_left
      intro j hj
      simp only [Function.comp]
      rw [if_neg (by omega)]
  have hall : ∀ e ∈ es, e.addr.toNat ≤ c.core.limit.toNat := by
    rw [hsplit]
    intro e he
    rw [List.mem_append] at he
    rcases he with he | he
    · obtain ⟨i, h1, h2, rfl⟩ := mem_elems he
      exact hlim i h1 h2
    · obtain ⟨j, hj, rfl⟩ := List.mem_map.mp he
      rw [List.mem_range] at hj
      exact (hjunk _ (by omega) (by omega)).2
  refine ⟨_, _, rfl, by unfold storeElems; exact storeV_ok _ _ _ _ _ hall, rfl, ?_⟩
  rw [hsplit, scatter_inactive]
  · refine stored_congr (fun _ _ _ => rfl) (fun i _ h2 => ?_) (scatter_stored c.core.mem n _ _ (by omega) _ _ _ _ (maskBit_iff _ _) hle)
    rw [(isElem_iff hn hd hv _ _ _ _).1 (hval i h2)]
  · intro e he
    obtain ⟨j, hj, rfl⟩ := List.mem_map.mp he
    rw [List.mem_range] at hj
    exact (hjunk _ (by omega) (by omega)).1

/-- **C49 (unit-stride and strided stores), partial**: vstart = 0 (see C51 for other values).  Missing: inactive elements above the limit, products
that overflow. -/
theorem C49_store_partial (c : MCore w) (n vs3 : Nat) (base stride : BitVec 64) (vm : Bool) (junk : Nat → Elem) (epc : BitVec 64) (handled : Bool)
    (hn8 : n ≤ 8) (hr : Ready c.v.vs [n] n vs3) (hs : c.v.vs.vstart = 0) (hf : StrideFits stride 0 c.v.vs.vl)
    (hlim : ∀ i, i < c.v.vs.vl → (strided base stride i).toNat ≤ c.core.limit.toNat)
    (val : Nat → BitVec (8 * n)) (hval : ∀ i, i < c.v.vs.vl → IsElem c.v.vs.vlenb n c.v.regs vs3 i (val i)) :
    ∃ c' m', vsStrided c n vs3 base stride (maskOf c.v.regs vm) junk epc handled = some c' ∧ c'.core = { c.core with mem := m' }
      ∧ c'.v = { c.v with vs := { c.v.vs with vstart := 0 } }
      ∧ Stored n 0 c.v.vs.vl (strided base stride) (Active c.v.regs vm) (fun i => (val i).toNat) c.core.mem m' := by
  have := C51_store_partial c n vs3 base stride vm junk epc handled hn8 hr (by omega) (by rw [hs]; exact hf)
    (fun i _ h => hlim i h) (fun j h1 h2 => by omega) val hval
  rw [hs] at this
  exact this

/-- **C49 (indexed stores), partial**: vstart = 0. -/
theorem C49_indexed_store_partial (c : MCore w) (ni vs3 vidx : Nat) (base : BitVec 64) (vm : Bool) (junk : Nat → Elem) (epc : BitVec 64) (handled : Bool)
    (hn8 : c.v.vs.sew ≤ 8) (hr : Ready c.v.vs [ni] c.v.vs.sew vs3) (hi : 0 < ni ∧ ni ∣ c.v.vs.vlenb) (hs : c.v.vs.vstart = 0)
    (idx : Nat → BitVec (8 * ni)) (hidx : ∀ i, i < c.v.vs.vl → IsElem c.v.vs.vlenb ni c.v.regs vidx i (idx i))
    (hlim : ∀ i, i < c.v.vs.vl → (base + (idx i).setWidth 64).toNat ≤ c.core.limit.toNat)
    (val : Nat → BitVec (8 * c.v.vs.sew)) (hval : ∀ i, i < c.v.vs.vl → IsElem c.v.vs.vlenb c.v.vs.sew c.v.regs vs3 i (val i)) :
    ∃ c' m', vsIndexed c ni vs3 vidx base (maskOf c.v.regs vm) junk epc handled = some c' ∧ c'.core = { c.core with mem := m' }
      ∧ c'.v = { c.v with vs := { c.v.vs with vstart := 0 } }
      ∧ Stored c.v.vs.sew 0 c.v.vs.vl (fun i => base + (idx i).setWidth 64) (Active c.v.regs vm) (fun i => (val i).toNat) c.core.mem m' := by
  obtain ⟨hok, hsew, hemul, ⟨hn, hd, hv⟩, hg⟩ := hr
  have hsrc : ∀ i, i < c.v.vs.vl → source c.v.vs.vlenb ni c.v.regs vidx i = idx i := fun i h => (isElem_iff hi.1 hi.2 hv _ _ _ _).1 (hidx i h)
  unfold vsIndexed
  simp only
  rw [if_neg (by omega), if_neg (emul_ok hsew (hemul ni (by simp))), if_neg (by omega)]
  generalize hes : List.map _ (List.range (c.v.vs.vl - c.v.vs.vstart)) = es
  have hsplit : es = elems 0 c.v.vs.vl (fun i => base + (source c.v.vs.vlenb ni c.v.regs vidx i).setWidth 64) (maskBit (maskOf c.v.regs vm))
        (fun i => (source c.v.vs.vlenb c.v.vs.sew c.v.regs vs3 i).toNat) := by
    rw [← hes, hs]
    unfold elems
    apply List.map_congr_left
    intro j hj
    rw [List.mem_range] at hj
    simp only [Nat.zero_add, Nat.sub_zero] at hj ⊢
    simp only [if_pos hj, if_pos (Nat.zero_le j)]
  have hall : ∀ e ∈ es, e.addr.toNat ≤ c.core.limit.toNat := by
    rw [hsplit]
    intro e he
    obtain ⟨i, h1, h2, rfl⟩ := mem_elems he
    show (base + (source c.v.vs.vlenb ni c.v.regs vidx i).setWidth 64).toNat ≤ _
    rw [hsrc i h2]
    exact hlim i h2
  refine ⟨_, _, rfl, by unfold storeElems; exact storeV_ok _ _ _ _ _ hall, rfl, ?_⟩
  rw [hsplit]
  refine stored_congr (fun i _ h2 => ?_) (fun i _ h2 => ?_) (scatter_stored c.core.mem _ _ _ (by omega) _ _ _ _ (maskBit_iff _ _) (Nat.zero_le _))
  · rw [hsrc i h2]
  · rw [(isElem_iff hn hd hv _ _ _ _).1 (hval i h2)]

/-- **C49 (mask store).** vstart counts bytes; bytes vstart to ceil(vl/8)-1 are stored. -/
theorem C49_mask_store (c : MCore w) (vs3 : Nat) (base : BitVec 64) (epc : BitVec 64) (handled : Bool)
    (hvl : c.v.vs.vl ≤ 8 * c.v.vs.vlenb)
    (hlim : ∀ i, i < (c.v.vs.vl + 7) / 8 → (base + BitVec.ofNat 64 i).toNat ≤ c.core.limit.toNat) :
    ∃ m', (vsm c vs3 base epc handled).core = { c.core with mem := m' }
      ∧ (vsm c vs3 base epc handled).v = { c.v with vs := { c.v.vs with vstart := 0 } }
      ∧ Stored 1 c.v.vs.vstart ((c.v.vs.vl + 7) / 8) (fun i => base + BitVec.ofNat 64 i) (fun _ => True)
          (fun i => (c.v.regs vs3 i).toNat) c.core.mem m' := by
  unfold vsm
  simp only
  by_cases hc : c.v.vs.vlenb ≤ c.v.vs.vstart ∨ (c.v.vs.vl + 7) / 8 ≤ c.v.vs.vstart
  · rw [if_pos hc]
    refine ⟨c.core.mem, rfl, rfl, fun b => Or.inr ⟨fun i h1 h2 => by omega, rfl⟩⟩
  · rw [if_neg hc]
    refine ⟨_, by unfold storeElems; exact storeV_ok _ _ _ _ _ (fun e he => by obtain ⟨i, h1, h2, rfl⟩ := mem_elems he; exact hlim i h2), rfl, ?_⟩
    refine stored_congr (fun _ _ _ => rfl) (fun i h1 h2 => ?_)
      (scatter_stored c.core.mem 1 _ _ (by omega) _ (fun _ => true) _ (fun _ => True) (fun _ => by simp) (by omega))
    have hi : i < c.v.vs.vlenb := by omega
    unfold source VecLoop.getElem
    rw [Nat.div_one, Nat.div_eq_of_lt hi, Nat.mod_eq_of_lt hi, BitVec.toNat_ofNat]
    simp only [leNat, Nat.mul_one, Nat.add_zero, Nat.mul_zero]
    exact Nat.mod_eq_of_lt (c.v.regs vs3 i).isLt

/-- **C49 (whole register stores).** Byte `x` of register `vs3 + k` goes to `base + k*vlenb + x`. -/
theorem C49_whole_register_store (c : MCore w) (nr vs3 : Nat) (base : BitVec 64) (epc : BitVec 64) (handled : Bool)
    (hn : 8 ∣ c.v.vs.vlenb ∧ 0 < c.v.vs.vlenb)
    (hlim : ∀ i, i < nr * c.v.vs.vlenb → (base + BitVec.ofNat 64 i).toNat ≤ c.core.limit.toNat) :
    ∃ m', (vsRegister c nr vs3 base epc handled).core = { c.core with mem := m' }
      ∧ (vsRegister c nr vs3 base epc handled).v = { c.v with vs := { c.v.vs with vstart := 0 } }
      ∧ ∀ b : BitVec 64, (∃ k x, k < nr ∧ x < c.v.vs.vlenb ∧ b = base + BitVec.ofNat 64 (k * c.v.vs.vlenb + x)
            ∧ m' b = c.v.regs (vs3 + k) x)
        ∨ ((¬ ∃ i, i < nr * c.v.vs.vlenb ∧ b = base + BitVec.ofNat 64 i) ∧ m' b = c.core.mem b) := by
  obtain ⟨⟨q, hq⟩, hv⟩ := hn
  have hnum : c.v.vs.vlenb * nr / 8 = nr * q := by rw [hq, Nat.mul_assoc, Nat.mul_div_cancel_left _ (by decide), Nat.mul_comm]
  have hq0 : 0 < q := by omega
  have hi8 : ∀ i, i < nr * q → i * 8 + 8 ≤ nr * c.v.vs.vlenb := by
    intro i h
    have : (i + 1) * 8 ≤ nr * q * 8 := Nat.mul_le_mul_right _ h
    rw [hq, show nr * (8 * q) = nr * q * 8 by rw [Nat.mul_comm 8 q, Nat.mul_assoc]]
    omega
  refine ⟨_, by unfold vsRegister storeElems; exact storeV_ok _ _ _ _ _ (fun e he => by
    obtain ⟨i, h1, h2, rfl⟩ := mem_elems he
    rw [hnum] at h2
    exact hlim (i * 8) (by have := hi8 i h2; omega)), rfl, ?_⟩
  intro b
  have hst := scatter_stored c.core.mem 8 0 (c.v.vs.vlenb * nr / 8) (by decide) (fun i => base + BitVec.ofNat 64 (i * 8)) (fun _ => true)
    (fun i => (source c.v.vs.vlenb 8 c.v.regs vs3 i).toNat) (fun _ => True) (fun _ => by simp) (Nat.zero_le _) b
  rw [hnum] at hst ⊢
  rcases hst with ⟨i, k, h1, h2, h3, h4, h5, h6, h7⟩ | ⟨h1, h2⟩
  · left
    have hb := hi8 i h2
    have hsum : i * 8 + k = (i * 8 + k) / c.v.vs.vlenb * c.v.vs.vlenb + (i * 8 + k) % c.v.vs.vlenb := by
      have := Nat.div_add_mod (i * 8 + k) c.v.vs.vlenb
      rw [Nat.mul_comm] at this
      omega
    refine ⟨(i * 8 + k) / c.v.vs.vlenb, (i * 8 + k) % c.v.vs.vlenb, ?_, Nat.mod_lt _ hv, ?_, ?_⟩
    · rw [Nat.div_lt_iff_lt_mul hv]; omega
    · rw [← hsum, h5, BitVec.add_assoc, ← BitVec.ofNat_add]
    · have hel := (isElem_iff (n := 8) (by decide) ⟨q, hq⟩ hv c.v.regs vs3 i _).2 rfl k h4
      rw [hel]
      apply BitVec.eq_of_toNat_eq
      rw [h6, BitVec.extractLsb'_toNat, Nat.shiftRight_eq_div_pow]
      unfold Mem.Spec.byteOf
      rw [pow_eq]
  · right
    refine ⟨?_, h2⟩
    rintro ⟨i, hi, rfl⟩
    rw [hq, show nr * (8 * q) = nr * q * 8 by rw [Nat.mul_comm 8 q, Nat.mul_assoc]] at hi
    apply h1 (i / 8) (Nat.zero_le _) (by omega) trivial
    refine ⟨i % 8, Nat.mod_lt _ (by decide), ?_⟩
    rw [BitVec.add_assoc, ← BitVec.ofNat_add]
    congr 2
    omega

/-! ### Witnesses -/

/-- The hypotheses of the store theorems are met. -/
example (junk : Nat → Elem) : ∃ c' m', vsStrided mc 4 2 0x100#64 4#64 (maskOf mc.v.regs true) junk 0#64 false = some c' ∧ c'.core = { mc.core with mem := m' }
    ∧ Stored 4 0 4 (strided 0x100#64 4#64) (Active mc.v.regs true) (fun i => (source 16 4 mc.v.regs 2 i).toNat) mc.core.mem m' := by
  obtain ⟨c', m', h1, h2, _, h4⟩ := C49_store_partial mc 4 2 0x100#64 4#64 true junk 0#64 false (by decide) ready_vcfg rfl
    (unit_fits 4 0 4 (by decide) (by decide))
    (by intro i h; have : i = 0 ∨ i = 1 ∨ i = 2 ∨ i = 3 := by change i < 4 at h; omega
        rcases this with rfl | rfl | rfl | rfl <;> decide)
    (fun i => source 16 4 mc.v.regs 2 i) (fun i _ => (isElem_iff (by decide) ⟨4, rfl⟩ (by decide) _ _ _ _).2 rfl)
  exact ⟨c', m', h1, h2, h4⟩

/-- **C51 (stores) is violated**: with vstart = 1 and vl = 4 the last entry of the buffers is whatever the allocator returned.  Here it is left over
from a previous store to 0x200: memory there is overwritten although the instruction stores to 0x104..0x10f only. -/
theorem C51_store_violated :
    ∃ c', vsStrided (withVstart mc 1) 4 2 0x100#64 4#64 (maskOf mc.v.regs true) (fun _ => { addr := 0x200#64, active := true, data := 0x99 }) 0#64 false = some c'
      ∧ mc.core.mem 0x200#64 = 0x00#8 ∧ c'.core.mem 0x200#64 = 0x99#8 :=
  ⟨_, rfl, by decide, by decide⟩

/-- **C51 (indexed stores) is violated** whatever the buffers held: with vstart = 2 and vl = 4 no element is stored at its address; here the index
vector (register 2) gives element 3 the address 0x2f2e2d2c; everything is inactive junk. -/
theorem C51_indexed_store_violated :
    ∃ c', vsIndexed (withVstart { mc with core := { mc.core with limit := 0xffffffff#64 } } 2) 4 1 2 0#64 (maskOf mc.v.regs true)
        (fun _ => { addr := 0#64, active := false, data := 0 }) 0#64 false = some c'
      ∧ source 16 4 mc.v.regs 2 3 = 0x2f2e2d2c#32 ∧ source 16 4 mc.v.regs 1 3 = 0x1f1e1d1c#32
      ∧ c'.core.mem 0x2f2e2d2c#64 = 0x2c#8 :=
  ⟨_, rfl, by decide, by decide, by decide⟩

end Verif.VecMem
